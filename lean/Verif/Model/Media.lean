import Verif.Model.ParseAttr
/-!
# Media sections (src/media_type.rs)

A `&mut self` method that can fail returns the new value *and* its result, because Rust keeps the
mutations made before the error.
-/

namespace Sdp

/-- src/attribute_type.rs:1341-1388 `allowed_at_session_level` -/
def Attribute.allowedAtSessionLevel : Attribute → Bool
  | .bundleOnly | .candidate _ | .fmtp _ | .frameRate _ | .iceMismatch | .imageAttr _ | .label _
  | .maxMessageSize _ | .maxPtime _ | .mid _ | .msid _ | .ptime _ | .rid _ | .remoteCandidate _
  | .rtpmap _ | .rtcp _ | .rtcpfb _ | .rtcpMux | .rtcpMuxOnly | .rtcpRsize | .sctpmap _
  | .sctpPort _ | .simulcast _ | .ssrc _ | .ssrcGroup _ _ => false
  | .dtlsMessage _ | .endOfCandidates | .extmap _ | .extmapAllowMixed | .fingerprint _ | .group _
  | .iceLite | .iceOptions _ | .icePacing _ | .icePwd _ | .iceUfrag _ | .identity _ | .inactive
  | .msidSemantic _ | .recvonly | .sendonly | .sendrecv | .setup _ => true

/-- src/attribute_type.rs:1390-1437 `allowed_at_media_level` -/
def Attribute.allowedAtMediaLevel : Attribute → Bool
  | .dtlsMessage _ | .group _ | .iceLite | .icePacing _ | .identity _ | .msidSemantic _ => false
  | .bundleOnly | .candidate _ | .endOfCandidates | .extmap _ | .extmapAllowMixed | .fingerprint _
  | .fmtp _ | .frameRate _ | .iceMismatch | .iceOptions _ | .icePwd _ | .iceUfrag _ | .imageAttr _
  | .inactive | .label _ | .maxMessageSize _ | .maxPtime _ | .mid _ | .msid _ | .ptime _ | .rid _
  | .recvonly | .remoteCandidate _ | .rtpmap _ | .rtcp _ | .rtcpfb _ | .rtcpMux | .rtcpMuxOnly
  | .rtcpRsize | .sctpmap _ | .sctpPort _ | .sendonly | .sendrecv | .setup _ | .simulcast _
  | .ssrc _ | .ssrcGroup _ _ => true

namespace Media

/-- src/media_type.rs:151-158 `SdpMedia::new` -/
def new (m : MediaLine) : Media := ⟨m, none, [], []⟩

/-- src/media_type.rs:160-162 `get_type` -/
def getType (m : Media) : MediaValue := m.media.media

/-- src/media_type.rs:164-166 `set_port` -/
def setPort (m : Media) (p : UInt32) : Media := { m with media := { m.media with port := p } }

/-- src/media_type.rs:168-170 `get_port` -/
def getPort (m : Media) : UInt32 := m.media.port

/-- src/media_type.rs:172-174 `get_port_count` -/
def getPortCount (m : Media) : UInt32 := m.media.portCount

/-- src/media_type.rs:176-178 `get_proto` -/
def getProto (m : Media) : ProtocolValue := m.media.proto

/-- src/media_type.rs:180-182 `get_formats` -/
def getFormats (m : Media) : FormatList := m.media.formats

/-- src/media_type.rs:184-186 `get_bandwidth` -/
def getBandwidth (m : Media) : List Bandwidth := m.bandwidth

/-- src/media_type.rs:188-190 `add_bandwidth` -/
def addBandwidth (m : Media) (b : Bandwidth) : Media := { m with bandwidth := m.bandwidth ++ [b] }

/-- src/media_type.rs:192-194 `get_attributes` -/
def getAttributes (m : Media) : List Attribute := m.attrs

/-- src/media_type.rs:196-204 `add_attribute` -/
def addAttribute (m : Media) (a : Attribute) : Media × IRes Unit :=
  if !a.allowedAtMediaLevel then
    (m, egeneric (showAttribute a ++ c%" not allowed at media level"))
  else ({ m with attrs := m.attrs ++ [a] }, .ok ())

/-- src/media_type.rs:206-210 `get_attribute` -/
def getAttribute (m : Media) (t : AttributeType) : Option Attribute :=
  m.attrs.find? (fun a => a.type == t)

/-- src/media_type.rs:212-214 `remove_attribute` -/
def removeAttribute (m : Media) (t : AttributeType) : Media :=
  { m with attrs := m.attrs.filter (fun a => a.type != t) }

/-- src/media_type.rs:216-219 `set_attribute` -/
def setAttribute (m : Media) (a : Attribute) : Media × IRes Unit :=
  (m.removeAttribute a.type).addAttribute a

/-- The `matches!` of src/media_type.rs:229-236 -/
def isCodecAttr : Attribute → Bool
  | .rtpmap _ | .fmtp _ | .rtcpfb _ | .sctpmap _ | .sctpPort _ => true
  | _ => false

/-- src/media_type.rs:221-239 `remove_codecs` -/
def removeCodecs (m : Media) : Media :=
  { m with
    media := { m.media with
      formats := match m.media.formats with
        | .integers _ => .integers []
        | .strings _ => .strings [] }
    attrs := m.attrs.filter (fun a => !isCodecAttr a) }

/-- src/media_type.rs:241-249 `add_codec` -/
def addCodec (m : Media) (r : Rtpmap) : Media × IRes Unit :=
  let m' : Media := { m with media := { m.media with
    formats := match m.media.formats with
      | .integers l => .integers (l ++ [UInt32.ofNat r.payloadType.toNat])
      | .strings l => .strings (l ++ [showU8 r.payloadType]) } }
  m'.addAttribute (.rtpmap r)

/-- src/media_type.rs:251-256 `get_attributes_of_type` -/
def getAttributesOfType (m : Media) (t : AttributeType) : List Attribute :=
  m.attrs.filter (fun a => a.type == t)

/-- src/media_type.rs:258-260 `get_connection` -/
def getConnection (m : Media) : Option Connection := m.connection

/-- src/media_type.rs:262-264 `set_connection` -/
def setConnection (m : Media) (c : Connection) : Media := { m with connection := some c }

/-- Run a fallible `&mut` step and, if it succeeded, the rest (the `?` in a `&mut self` method). -/
def andThen (x : Media × IRes Unit) (k : Media → Media × IRes Unit) : Media × IRes Unit :=
  match x with
  | (m, .ok ()) => k m
  | (m, .err e) => (m, .err e)
  | (m, .panic) => (m, .panic)

/-- src/media_type.rs:266-295 `add_datachannel` -/
def addDatachannel (m : Media) (name : Str) (port streams : UInt16) (msgSize : UInt32) :
    Media × IRes Unit :=
  let step1 : Media × IRes Unit :=
    match m.media.proto with
    | .udpDtlsSctp | .tcpDtlsSctp =>
      Media.setAttribute { m with media := { m.media with formats := .strings [name] } }
        (.sctpPort (UInt64.ofNat port.toNat))
    | _ =>
      Media.setAttribute
        { m with media := { m.media with formats := .integers [UInt32.ofNat port.toNat] } }
        (.sctpmap ⟨port, UInt32.ofNat streams.toNat⟩)
  andThen step1 fun m =>
    andThen (if msgSize > 0 then m.setAttribute (.maxMessageSize (UInt64.ofNat msgSize.toNat))
             else (m, .ok ())) fun m =>
      ({ m with media := { m.media with media := .application } }, .ok ())

end Media

/-- src/media_type.rs:313-324 `parse_media_token` -/
def parseMediaToken [Env] (v : Str) : IRes MediaValue :=
  let l := lower v
  if l = c%"audio" then .ok .audio
  else if l = c%"video" then .ok .video
  else if l = c%"application" then .ok .application
  else eunsupported (c%"unsupported media value: " ++ v)

/-- src/media_type.rs:326-345 `parse_protocol_token` -/
def parseProtocolToken [Env] (v : Str) : IRes ProtocolValue :=
  let u := upper v
  if u = c%"RTP/AVP" then .ok .rtpAvp
  else if u = c%"RTP/AVPF" then .ok .rtpAvpf
  else if u = c%"RTP/SAVP" then .ok .rtpSavp
  else if u = c%"RTP/SAVPF" then .ok .rtpSavpf
  else if u = c%"TCP/DTLS/RTP/SAVP" then .ok .tcpDtlsRtpSavp
  else if u = c%"TCP/DTLS/RTP/SAVPF" then .ok .tcpDtlsRtpSavpf
  else if u = c%"UDP/TLS/RTP/SAVP" then .ok .udpTlsRtpSavp
  else if u = c%"UDP/TLS/RTP/SAVPF" then .ok .udpTlsRtpSavpf
  else if u = c%"DTLS/SCTP" then .ok .dtlsSctp
  else if u = c%"UDP/DTLS/SCTP" then .ok .udpDtlsSctp
  else if u = c%"TCP/DTLS/SCTP" then .ok .tcpDtlsSctp
  else eunsupported (c%"unsupported protocol value: " ++ v)

/-- The `matches!` of src/media_type.rs:380 -/
def fmtNumReserved (n : UInt32) : Bool :=
  n == 1 || n == 2 || n == 19 || (64 ≤ n && n ≤ 95) || 128 ≤ n

/-- src/media_type.rs:378-386, one format -/
def parseFmtNum (t : Str) : IRes UInt32 := do
  let n ← parseU32 t
  if fmtNumReserved n then egeneric c%"format number in media line is out of range"
  else return n

/-- src/media_type.rs:375-397 -/
def parseFormats (media : MediaValue) (l : List Str) : IRes FormatList :=
  match media with
  | .audio | .video => do return .integers (← collect parseFmtNum l)
  | .application => .ok (.strings l)

/-- src/media_type.rs:369-372 -/
def parsePortCount (ptokens : List Str) : IRes UInt32 :=
  match ptokens with
  | [] => .ok 0
  | c :: _ => parseU32 c

/-- src/media_type.rs:347-407 `parse_media` -/
def parseMedia [Env] (value : Str) : IRes SdpType := do
  let mv := splitWs value
  if mv.length < 4 then egeneric c%"media attribute must have at least four tokens"
  else
    let media ← parseMediaToken (← idx mv 0)
    match splitC '/' (← idx mv 1) with
    | [] => egeneric c%"missing port token"
    | p :: ptokens =>
      let port ← parseU32 p
      if port > 65535 then egeneric c%"media port token is too big"
      else
        let portCount ← parsePortCount ptokens
        let proto ← parseProtocolToken (← idx mv 2)
        let formats ← parseFormats media (← sliceFrom mv 3)
        return .media ⟨media, port, portCount, proto, formats⟩

/-- src/media_type.rs:438-458: an attribute line in a media section -/
def mediaAttrLine (m : Media) (a : Attribute) : Media × IRes Unit :=
  match a with
  | .dtlsMessage _ => (m, .ok ())
  | .rtpmap r => m.addAttribute (.rtpmap ⟨r.payloadType, r.codecName, r.frequency, r.channels⟩)
  | a => m.addAttribute a

/-- The loop of src/media_type.rs:423-473: `cur` is `sdp_media`, `done` the finished sections. -/
def mediaLoop (done : List Media) (cur : Media) : List SdpLine → Outcome ParserError (List Media)
  | [] => .ok (done ++ [cur])
  | l :: ls =>
    match l.sdpType with
    | .connection c =>
      if cur.connection.isSome then
        .err (.sequence c%"connection type already exists at this media level" l.lineNumber)
      else mediaLoop done (cur.setConnection c) ls
    | .bandwidth b => mediaLoop done (cur.addBandwidth b) ls
    | .attr a =>
      match mediaAttrLine cur a with
      | (cur', .ok ()) => mediaLoop done cur' ls
      | (_, .err e) => .err (.sequence (showInternalError e) l.lineNumber)
      | (_, .panic) => .panic
    | .media v => mediaLoop (done ++ [cur]) (Media.new v) ls
    | .origin _ | .session _ | .timing _ | .version _ =>
      .err (.sequence c%"invalid type in media section" l.lineNumber)

/-- src/media_type.rs:409-476 `parse_media_vector`. `lines.remove(0)` panics on an empty vector.
What is left in the `lines` argument is `parseMediaVectorLeft`. -/
def parseMediaVector (lines : List SdpLine) : Outcome ParserError (List Media) :=
  match lines with
  | [] => .panic
  | l :: ls =>
    match l.sdpType with
    | .media v => mediaLoop [] (Media.new v) ls
    | _ => .err (.sequence c%"first line in media section needs to be a media line" l.lineNumber)

/-- What the loop of src/media_type.rs:423-473 leaves in `lines`: every line is removed (line 424) before it
is looked at. -/
def mediaLoopLeft (cur : Media) : List SdpLine → List SdpLine
  | [] => []
  | l :: ls =>
    match l.sdpType with
    | .connection c => if cur.connection.isSome then ls else mediaLoopLeft (cur.setConnection c) ls
    | .bandwidth b => mediaLoopLeft (cur.addBandwidth b) ls
    | .attr a =>
      match mediaAttrLine cur a with
      | (cur', .ok ()) => mediaLoopLeft cur' ls
      | _ => ls
    | .media v => mediaLoopLeft (Media.new v) ls
    | .origin _ | .session _ | .timing _ | .version _ => ls

/-- src/media_type.rs:409-476 `parse_media_vector`: what is left in `lines`. -/
def parseMediaVectorLeft (lines : List SdpLine) : List SdpLine :=
  match lines with
  | [] => []
  | l :: ls =>
    match l.sdpType with
    | .media v => mediaLoopLeft (Media.new v) ls
    | _ => ls

end Sdp
