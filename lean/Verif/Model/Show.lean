import Verif.Model.Types
/-!
# Display (serialization)

The `fmt::Display` implementations. `write!` to a string never fails, so they are plain functions.
-/

namespace Sdp

/-- src/attribute_type.rs:20-28 `option_to_string!` and 30-38 `write_option_string!` with a format
string whose only hole is at the end. -/
def optStr {α : Type} (pre : Str) (sh : α → Str) : Option α → Str
  | some x => pre ++ sh x
  | none => []

/-- src/attribute_type.rs:40-55 `maybe_vector_to_string!`, for the format `"{pre}{}{post}"`;
`l` holds the `to_string` of the elements. -/
def maybeVec (pre post sep : Str) (l : List Str) : Str :=
  match l with
  | [] => []
  | l => pre ++ joinS sep (l.filter (fun s => !s.isEmpty)) ++ post

/-- src/attribute_type.rs:57-70 `non_empty_string_vec!` -/
def nonEmpty (l : List Str) : List Str := l.filter (fun s => !s.isEmpty)

/-- src/attribute_type.rs:72-81 `maybe_print_param`, for a `u32` -/
def maybeParam (name : Str) (v dflt : UInt32) : Str :=
  if v ≠ dflt then name ++ showNat v.toNat else []

/-- src/attribute_type.rs:72-81 `maybe_print_param`, for a `String` -/
def maybeParamS (name : Str) (v dflt : Str) : Str := if v ≠ dflt then name ++ v else []

/-- src/attribute_type.rs:83-89 `maybe_print_bool_param` -/
def maybeBool (name : Str) (v dflt : Bool) : Str :=
  if v ≠ dflt then name ++ c%"=" ++ showNat (if v then 1 else 0) else []

/-- src/address.rs:75-83 -/
def showAddressType : AddressType → Str
  | .ipV4 => c%"IP4"
  | .ipV6 => c%"IP6"

/-- src/address.rs:20-27 -/
def showAddress : Address → Str
  | .fqdn d => d
  | .ip a => showIp a

/-- src/address.rs:100-107 `AddressTyped for IpAddr` -/
def ipAddressType : IpAddr → AddressType
  | .v4 _ => .ipV4
  | .v6 _ => .ipV6

/-- src/address.rs:129-136 `AddressTyped for ExplicitlyTypedAddress` -/
def TypedAddress.addressType : TypedAddress → AddressType
  | .fqdn t _ => t
  | .ip a => ipAddressType a

/-- src/address.rs:119-127 -/
def showTyped (a : TypedAddress) : Str :=
  c%"IN " ++ showAddressType a.addressType ++ c%" " ++
    (match a with
     | .fqdn _ d => d
     | .ip i => showIp i)

/-- src/network.rs:10-15 `ip_address_to_string` -/
def ipAddressToString : IpAddr → Str
  | .v4 a => c%"IN IP4 " ++ showV4 a
  | .v6 a => c%"IN IP6 " ++ showV6 a

/-- `Display for ParseIntError` (core::num::error) -/
def showIntErr : IntErr → Str
  | .empty => c%"cannot parse integer from empty string"
  | .invalidDigit => c%"invalid digit found in string"
  | .posOverflow => c%"number too large to fit in target type"

/-- `Display for ParseFloatError` (core::num::dec2flt) -/
def showFloatErr : FloatErr → Str
  | .empty => c%"cannot parse float from empty string"
  | .invalid => c%"invalid float literal"

/-- src/error.rs:34-61 `Display for SdpParserInternalError` -/
def showInternalError : InternalError → Str
  | .unknownAddressType s => c%"Unknown address type: " ++ s
  | .addressTypeMismatch f e =>
    c%"Address is of a different type(1) than declared(2): " ++ showAddressType f ++ c%", "
      ++ showAddressType e
  | .generic m => c%"Parsing error: " ++ m
  | .unsupported m => c%"Unsupported parsing error: " ++ m
  | .integer e => c%"Integer parsing error: " ++ showIntErr e
  | .float e => c%"Float parsing error: " ++ showFloatErr e
  | .domain m => c%"Domain name parsing error: " ++ m
  | .ipAddress => c%"IP address parsing error: invalid IP address syntax"

/-- src/error.rs:135-154 `Display for SdpParserError` -/
def showParserError : ParserError → Str
  | .line e t n => c%"Line error: " ++ showInternalError e ++ c%" in line(" ++ showNat n ++ c%"): " ++ t
  | .unsupported e t n =>
    c%"Unsupported: " ++ showInternalError e ++ c%" in line(" ++ showNat n ++ c%"): " ++ t
  | .sequence m n => c%"Sequence error in line(" ++ showNat n ++ c%"): " ++ m

/-- src/attribute_type.rs:99-107 -/
def showSingleDirection : SingleDirection → Str
  | .send => c%"send"
  | .recv => c%"recv"

/-- src/attribute_type.rs:116-123 -/
def showPayloadType : PayloadType → Str
  | .pt n => showNat n.toNat
  | .wildcard => c%"*"

/-- src/attribute_type.rs:132-140 -/
def showCandTransport : CandTransport → Str
  | .udp => c%"UDP"
  | .tcp => c%"TCP"

/-- src/attribute_type.rs:151-161 -/
def showCandType : CandType → Str
  | .host => c%"host"
  | .srflx => c%"srflx"
  | .prflx => c%"prflx"
  | .relay => c%"relay"

/-- src/attribute_type.rs:171-180 -/
def showCandTcpType : CandTcpType → Str
  | .active => c%"active"
  | .passive => c%"passive"
  | .simultaneous => c%"so"

def showU8 (n : UInt8) : Str := showNat n.toNat
def showU16 (n : UInt16) : Str := showNat n.toNat
def showU32 (n : UInt32) : Str := showNat n.toNat
def showU64 (n : UInt64) : Str := showNat n.toNat

/-- The `unknown` fold of src/attribute_type.rs:223-229 -/
def showExts : List (Str × Str) → Str
  | [] => []
  | (n, v) :: r => c%" " ++ n ++ c%" " ++ v ++ showExts r

/-- src/attribute_type.rs:202-232 -/
def showCandidate (c : Candidate) : Str :=
  c.foundation ++ c%" " ++ showU32 c.component ++ c%" " ++ showCandTransport c.transport ++ c%" "
    ++ showU64 c.priority ++ c%" " ++ showAddress c.address ++ c%" " ++ showU32 c.port ++ c%" typ "
    ++ showCandType c.cType
    ++ optStr c%" raddr " showAddress c.raddr
    ++ optStr c%" rport " showU32 c.rport
    ++ optStr c%" tcptype " showCandTcpType c.tcpType
    ++ optStr c%" generation " showU32 c.generation
    ++ optStr c%" ufrag " id c.ufrag
    ++ optStr c%" network-cost " showU32 c.networkcost
    ++ showExts c.unknownExtensions

/-- src/attribute_type.rs:313-321 -/
def showDtlsMessage : DtlsMessage → Str
  | .client m => c%"client " ++ m
  | .server m => c%"server " ++ m

/-- src/attribute_type.rs:332-342 -/
def showRemoteCandidate (c : RemoteCandidate) : Str :=
  showU32 c.component ++ c%" " ++ showAddress c.address ++ c%" " ++ showU32 c.port

/-- src/attribute_type.rs:378-385 -/
def showSimulcastId (i : SimulcastId) : Str := (if i.paused then c%"~" else []) ++ i.id

/-- src/attribute_type.rs:406-415 -/
def showSimulcastVersion (v : SimulcastVersion) : Str := joinS c%"," (v.ids.map showSimulcastId)

/-- src/attribute_type.rs:425-434 -/
def showSimulcast (s : Simulcast) : Str :=
  joinS c%" " (nonEmpty
    [maybeVec c%"send " [] c%";" (s.send.map showSimulcastVersion),
     maybeVec c%"recv " [] c%";" (s.receive.map showSimulcastVersion)])

/-- src/attribute_type.rs:457-464 -/
def showRtcp (r : Rtcp) : Str :=
  match r.unicastAddr with
  | some a => showU16 r.port ++ c%" " ++ showTyped a
  | none => showU16 r.port

/-- src/attribute_type.rs:480-492 -/
def showRtcpFbType : RtcpFbType → Str
  | .ack => c%"ack"
  | .ccm => c%"ccm"
  | .nack => c%"nack"
  | .trrInt => c%"trr-int"
  | .remb => c%"goog-remb"
  | .transCc => c%"transport-cc"

/-- src/attribute_type.rs:504-517 -/
def showRtcpFb (r : RtcpFb) : Str :=
  showPayloadType r.payloadType ++ c%" " ++ showRtcpFbType r.feedbackType ++
    (if !r.parameter.isEmpty then c%" " ++ r.parameter ++ maybeParamS c%" " r.extra [] else [])

/-- src/attribute_type.rs:528-537 -/
def showDirection : Direction → Str
  | .recvonly => c%"recvonly"
  | .sendonly => c%"sendonly"
  | .sendrecv => c%"sendrecv"

/-- src/attribute_type.rs:549-560 -/
def showExtmap (e : Extmap) : Str :=
  showU16 e.id ++ optStr c%"/" showDirection e.direction ++ c%" " ++ e.url
    ++ optStr c%" " id e.extensionAttributes

/-- src/attribute_type.rs:570-578 -/
def showRtx (r : RtxParams) : Str :=
  match r.rtxTime with
  | some t => c%"apt=" ++ showU8 r.apt ++ c%";rtx-time=" ++ showU32 t
  | none => c%"apt=" ++ showU8 r.apt

/-- The list of src/attribute_type.rs:664-704, before empty entries are dropped. -/
def fmtpPieces (p : FmtpParams) : List Str :=
  [ maybeParamS c%"profile-level-id=" (showHexPad 6 p.profileLevelId.toNat) c%"42000a",
    maybeBool c%"level-asymmetry-allowed" p.levelAsymmetryAllowed false,
    maybeParam c%"packetization-mode=" p.packetizationMode 0,
    maybeParam c%"max-fs=" p.maxFs 0,
    maybeParam c%"max-cpb=" p.maxCpb 0,
    maybeParam c%"max-dpb=" p.maxDpb 0,
    maybeParam c%"max-br=" p.maxBr 0,
    maybeParam c%"max-mbps=" p.maxMbps 0,
    maybeParam c%"max-fr=" p.maxFr 0,
    optStr c%"profile=" showU8 p.profile,
    optStr c%"level-idx=" showU8 p.levelIdx,
    optStr c%"tier=" showU8 p.tier,
    maybeParam c%"maxplaybackrate=" p.maxplaybackrate 48000,
    maybeParam c%"maxaveragebitrate=" p.maxaveragebitrate 0,
    maybeParam c%"ptime=" p.ptime 0,
    maybeParam c%"minptime=" p.minptime 0,
    maybeParam c%"maxptime=" p.maxptime 0,
    maybeBool c%"usedtx" p.usedtx false,
    maybeBool c%"stereo" p.stereo false,
    maybeBool c%"useinbandfec" p.useinbandfec false,
    maybeBool c%"cbr" p.cbr false,
    maybeVec [] [] c%"," p.unknownTokens ]

/-- src/attribute_type.rs:642-708 -/
def showFmtpParams (p : FmtpParams) : Str :=
  match p.rtx with
  | some r => showRtx r
  | none =>
    if !p.dtmfTones.isEmpty then p.dtmfTones
    else if !p.encodings.isEmpty then joinS c%"/" (p.encodings.map showU8)
    else joinS c%";" (nonEmpty (fmtpPieces p))

/-- src/attribute_type.rs:718-731 -/
def showFmtp (f : Fmtp) : Str :=
  let ps := showFmtpParams f.parameters
  if ps.isEmpty then [] else showU8 f.payloadType ++ c%" " ++ ps

/-- src/attribute_type.rs:792-803 -/
def showHashType : HashType → Str
  | .sha1 => c%"sha-1"
  | .sha224 => c%"sha-224"
  | .sha256 => c%"sha-256"
  | .sha384 => c%"sha-384"
  | .sha512 => c%"sha-512"

/-- src/attribute_type.rs:757-765 `octet_count` -/
def octetCount : HashType → Nat
  | .sha1 => 20
  | .sha224 => 28
  | .sha256 => 32
  | .sha384 => 48
  | .sha512 => 64

/-- src/attribute_type.rs:831-845 -/
def showFingerprint (f : Fingerprint) : Str :=
  showHashType f.hashAlgorithm ++ c%" " ++ joinS c%":" (f.fingerprint.map showByteHex)

/-- src/attribute_type.rs:856-871 `imageattr_discrete_value_list_to_string` -/
def showDiscrete {α : Type} (sh : α → Str) (l : List α) : Str :=
  match l with
  | [x] => sh x
  | l => c%"[" ++ joinS c%"," (l.map sh) ++ c%"]"

/-- src/attribute_type.rs:880-895 -/
def showXyRange : XyRange → Str
  | .range mn mx st =>
    c%"[" ++ showU32 mn ++ c%":" ++
      (match st with
       | some s => showU32 s ++ c%":"
       | none => []) ++ showU32 mx ++ c%"]"
  | .discrete vs => showDiscrete showU32 vs

/-- src/attribute_type.rs:904-913 -/
def showSRange : SRange → Str
  | .range mn mx => c%"[" ++ F32.text mn ++ c%"-" ++ F32.text mx ++ c%"]"
  | .discrete vs => showDiscrete F32.text vs

/-- src/attribute_type.rs:922-926 -/
def showPRange (p : PRange) : Str :=
  c%"[" ++ F32.text p.min ++ c%"-" ++ F32.text p.max ++ c%"]"

/-- src/attribute_type.rs:938-946 -/
def showImageAttrSet (s : ImageAttrSet) : Str :=
  c%"[x=" ++ showXyRange s.x ++ c%",y=" ++ showXyRange s.y
    ++ optStr c%",sar=" showSRange s.sar ++ optStr c%",par=" showPRange s.par
    ++ optStr c%",q=" F32.text s.q ++ c%"]"

/-- src/attribute_type.rs:955-967 -/
def showImageAttrSetList : ImageAttrSetList → Str
  | .sets l => joinS c%" " (l.map showImageAttrSet)
  | .wildcard => c%"*"

/-- The closure `maybe_sets_to_string` of src/attribute_type.rs:980-986 -/
def maybeSets : ImageAttrSetList → Option ImageAttrSetList
  | .sets [] => none
  | x => some x

/-- src/attribute_type.rs:978-991 -/
def showImageAttr (i : ImageAttr) : Str :=
  showPayloadType i.pt ++ optStr c%" send " showImageAttrSetList (maybeSets i.send)
    ++ optStr c%" recv " showImageAttrSetList (maybeSets i.recv)

/-- src/attribute_type.rs:1001-1010 -/
def showSctpmap (s : Sctpmap) : Str :=
  showU16 s.port ++ c%" webrtc-datachannel " ++ showU32 s.channels

/-- src/attribute_type.rs:1025-1038 -/
def showGroupSemantic : GroupSemantic → Str
  | .lipSynchronization => c%"LS"
  | .flowIdentification => c%"FID"
  | .singleReservationFlow => c%"SRF"
  | .alternateNetworkAddressType => c%"ANAT"
  | .forwardErrorCorrection => c%"FEC"
  | .decodingDependency => c%"DDP"
  | .bundle => c%"BUNDLE"

/-- src/attribute_type.rs:1048-1057 -/
def showGroup (g : Group) : Str := showGroupSemantic g.semantics ++ maybeVec c%" " [] c%" " g.tags

/-- src/attribute_type.rs:1067-1072 -/
def showMsid (m : Msid) : Str := m.id ++ optStr c%" " id m.appdata

/-- src/attribute_type.rs:1081-1089 -/
def showMsidSemantic (m : MsidSemantic) : Str :=
  m.semantic ++ c%" " ++
    (match m.msids with
     | [] => c%"*"
     | l => joinS c%" " l)

/-- src/attribute_type.rs:1105-1119 -/
def showRidParams (p : RidParams) : Str :=
  joinS c%";" (nonEmpty
    [ maybeParam c%"max-width=" p.maxWidth 0,
      maybeParam c%"max-height=" p.maxHeight 0,
      maybeParam c%"max-fps=" p.maxFps 0,
      maybeParam c%"max-fs=" p.maxFs 0,
      maybeParam c%"max-br=" p.maxBr 0,
      maybeParam c%"max-pps=" p.maxPps 0,
      maybeVec [] [] c%";" p.unknown ])

/-- src/attribute_type.rs:1132-1152 -/
def showRid (r : Rid) : Str :=
  r.id ++ c%" " ++ showSingleDirection r.direction ++
    (match joinS c%";" (nonEmpty
        [ maybeVec c%"pt=" [] c%"," (r.formats.map showU16),
          showRidParams r.params,
          maybeVec c%"depends=" [] c%"," r.depends ]) with
     | [] => []
     | x => c%" " ++ x)

/-- src/attribute_type.rs:1179-1190 -/
def showRtpmap (r : Rtpmap) : Str :=
  showU8 r.payloadType ++ c%" " ++ r.codecName ++ c%"/" ++ showU32 r.frequency
    ++ optStr c%"/" showU32 r.channels

/-- src/attribute_type.rs:1202-1212 -/
def showSetup : Setup → Str
  | .active => c%"active"
  | .actpass => c%"actpass"
  | .holdconn => c%"holdconn"
  | .passive => c%"passive"

/-- src/attribute_type.rs:1243-1249 -/
def showSsrc (s : Ssrc) : Str :=
  showU32 s.id ++ optStr c%" " id s.attr ++ optStr c%":" id s.value

/-- src/attribute_type.rs:1278-1289 -/
def showSsrcGroupSemantic : SsrcGroupSemantic → Str
  | .duplication => c%"DUP"
  | .flowIdentification => c%"FID"
  | .forwardErrorCorrection => c%"FEC"
  | .forwardErrorCorrectionFr => c%"FEC-FR"
  | .sim => c%"SIM"

/-- src/attribute_type.rs:1637-1685 `From<&SdpAttribute> for SdpAttributeType` -/
def Attribute.type : Attribute → AttributeType
  | .bundleOnly => .bundleOnly
  | .candidate _ => .candidate
  | .dtlsMessage _ => .dtlsMessage
  | .endOfCandidates => .endOfCandidates
  | .extmap _ => .extmap
  | .extmapAllowMixed => .extmapAllowMixed
  | .fingerprint _ => .fingerprint
  | .fmtp _ => .fmtp
  | .frameRate _ => .frameRate
  | .group _ => .group
  | .iceLite => .iceLite
  | .iceMismatch => .iceMismatch
  | .iceOptions _ => .iceOptions
  | .icePacing _ => .icePacing
  | .icePwd _ => .icePwd
  | .iceUfrag _ => .iceUfrag
  | .identity _ => .identity
  | .imageAttr _ => .imageAttr
  | .inactive => .inactive
  | .label _ => .label
  | .maxMessageSize _ => .maxMessageSize
  | .maxPtime _ => .maxPtime
  | .mid _ => .mid
  | .msid _ => .msid
  | .msidSemantic _ => .msidSemantic
  | .ptime _ => .ptime
  | .rid _ => .rid
  | .recvonly => .recvonly
  | .remoteCandidate _ => .remoteCandidate
  | .rtpmap _ => .rtpmap
  | .rtcp _ => .rtcp
  | .rtcpfb _ => .rtcpfb
  | .rtcpMux => .rtcpMux
  | .rtcpMuxOnly => .rtcpMuxOnly
  | .rtcpRsize => .rtcpRsize
  | .sctpmap _ => .sctpmap
  | .sctpPort _ => .sctpPort
  | .sendonly => .sendonly
  | .sendrecv => .sendrecv
  | .setup _ => .setup
  | .simulcast _ => .simulcast
  | .ssrc _ => .ssrc
  | .ssrcGroup _ _ => .ssrcGroup

/-- src/attribute_type.rs:1687-1736 `Display for SdpAttributeType` -/
def AttributeType.name : AttributeType → Str
  | .bundleOnly => c%"bundle-only"
  | .candidate => c%"candidate"
  | .dtlsMessage => c%"dtls-message"
  | .endOfCandidates => c%"end-of-candidates"
  | .extmap => c%"extmap"
  | .extmapAllowMixed => c%"extmap-allow-mixed"
  | .fingerprint => c%"fingerprint"
  | .fmtp => c%"fmtp"
  | .frameRate => c%"framerate"
  | .group => c%"group"
  | .iceLite => c%"ice-lite"
  | .iceMismatch => c%"ice-mismatch"
  | .iceOptions => c%"ice-options"
  | .icePacing => c%"ice-pacing"
  | .icePwd => c%"ice-pwd"
  | .iceUfrag => c%"ice-ufrag"
  | .identity => c%"identity"
  | .imageAttr => c%"imageattr"
  | .inactive => c%"inactive"
  | .label => c%"label"
  | .maxMessageSize => c%"max-message-size"
  | .maxPtime => c%"maxptime"
  | .mid => c%"mid"
  | .msid => c%"msid"
  | .msidSemantic => c%"msid-semantic"
  | .ptime => c%"ptime"
  | .rid => c%"rid"
  | .recvonly => c%"recvonly"
  | .remoteCandidate => c%"remote-candidates"
  | .rtpmap => c%"rtpmap"
  | .rtcp => c%"rtcp"
  | .rtcpfb => c%"rtcp-fb"
  | .rtcpMux => c%"rtcp-mux"
  | .rtcpMuxOnly => c%"rtcp-mux-only"
  | .rtcpRsize => c%"rtcp-rsize"
  | .sctpmap => c%"sctpmap"
  | .sctpPort => c%"sctp-port"
  | .sendonly => c%"sendonly"
  | .sendrecv => c%"sendrecv"
  | .setup => c%"setup"
  | .simulcast => c%"simulcast"
  | .ssrc => c%"ssrc"
  | .ssrcGroup => c%"ssrc-group"

/-- The closure `attr_to_string` of src/attribute_type.rs:1516-1522 -/
def attrToString (t : AttributeType) (s : Str) : Str :=
  if s.isEmpty then [] else t.name ++ c%":" ++ s

/-- src/attribute_type.rs:1513-1574 `Display for SdpAttribute` -/
def showAttribute : Attribute → Str
  | .bundleOnly => AttributeType.bundleOnly.name
  | .candidate a => attrToString .candidate (showCandidate a)
  | .dtlsMessage a => attrToString .dtlsMessage (showDtlsMessage a)
  | .endOfCandidates => AttributeType.endOfCandidates.name
  | .extmap a => attrToString .extmap (showExtmap a)
  | .extmapAllowMixed => AttributeType.extmapAllowMixed.name
  | .fingerprint a => attrToString .fingerprint (showFingerprint a)
  | .fmtp a => attrToString .fmtp (showFmtp a)
  | .frameRate a => attrToString .frameRate (F64.text a)
  | .group a => attrToString .group (showGroup a)
  | .iceLite => AttributeType.iceLite.name
  | .iceMismatch => AttributeType.iceMismatch.name
  | .iceOptions a => attrToString .iceOptions (joinS c%" " a)
  | .icePacing a => attrToString .icePacing (showU64 a)
  | .icePwd a => attrToString .icePwd a
  | .iceUfrag a => attrToString .iceUfrag a
  | .identity a => attrToString .identity a
  | .imageAttr a => attrToString .imageAttr (showImageAttr a)
  | .inactive => AttributeType.inactive.name
  | .label a => attrToString .label a
  | .maxMessageSize a => attrToString .maxMessageSize (showU64 a)
  | .maxPtime a => attrToString .maxPtime (showU64 a)
  | .mid a => attrToString .mid a
  | .msid a => attrToString .msid (showMsid a)
  | .msidSemantic a => attrToString .msidSemantic (showMsidSemantic a)
  | .ptime a => attrToString .ptime (showU64 a)
  | .rid a => attrToString .rid (showRid a)
  | .recvonly => AttributeType.recvonly.name
  | .remoteCandidate a => attrToString .remoteCandidate (showRemoteCandidate a)
  | .rtpmap a => attrToString .rtpmap (showRtpmap a)
  | .rtcp a => attrToString .rtcp (showRtcp a)
  | .rtcpfb a => attrToString .rtcpfb (showRtcpFb a)
  | .rtcpMux => AttributeType.rtcpMux.name
  | .rtcpMuxOnly => AttributeType.rtcpMuxOnly.name
  | .rtcpRsize => AttributeType.rtcpRsize.name
  | .sctpmap a => attrToString .sctpmap (showSctpmap a)
  | .sctpPort a => attrToString .sctpPort (showU64 a)
  | .sendonly => AttributeType.sendonly.name
  | .sendrecv => AttributeType.sendrecv.name
  | .setup a => attrToString .setup (showSetup a)
  | .simulcast a => attrToString .simulcast (showSimulcast a)
  | .ssrc a => attrToString .ssrc (showSsrc a)
  | .ssrcGroup s l =>
    attrToString .ssrcGroup (showSsrcGroupSemantic s) ++ c%" " ++ joinS c%" " (l.map showSsrc)

/-- src/media_type.rs:51-60 -/
def showMediaValue : MediaValue → Str
  | .audio => c%"audio"
  | .video => c%"video"
  | .application => c%"application"

/-- src/media_type.rs:78-95 -/
def showProtocol : ProtocolValue → Str
  | .rtpAvp => c%"RTP/AVP"
  | .rtpAvpf => c%"RTP/AVPF"
  | .rtpSavp => c%"RTP/SAVP"
  | .rtpSavpf => c%"RTP/SAVPF"
  | .tcpDtlsRtpSavp => c%"TCP/DTLS/RTP/SAVP"
  | .tcpDtlsRtpSavpf => c%"TCP/DTLS/RTP/SAVPF"
  | .udpTlsRtpSavp => c%"UDP/TLS/RTP/SAVP"
  | .udpTlsRtpSavpf => c%"UDP/TLS/RTP/SAVPF"
  | .dtlsSctp => c%"DTLS/SCTP"
  | .udpDtlsSctp => c%"UDP/DTLS/SCTP"
  | .tcpDtlsSctp => c%"TCP/DTLS/SCTP"

/-- src/media_type.rs:105-113 -/
def showFormatList : FormatList → Str
  | .integers l => maybeVec [] [] c%" " (l.map showU32)
  | .strings l => joinS c%" " l

/-- src/media_type.rs:29-41 -/
def showMediaLine (m : MediaLine) : Str :=
  showMediaValue m.media ++ c%" " ++ showU32 m.port ++ maybeParam c%"/" m.portCount 0 ++ c%" "
    ++ showProtocol m.proto ++ c%" " ++ showFormatList m.formats

/-- src/lib.rs:53-63 -/
def showBandwidth : Bandwidth → Str
  | .as n => c%"AS" ++ c%":" ++ showU32 n
  | .ct n => c%"CT" ++ c%":" ++ showU32 n
  | .tias n => c%"TIAS" ++ c%":" ++ showU32 n
  | .unknown t n => t ++ c%":" ++ showU32 n

/-- src/lib.rs:79-85 -/
def showConnection (c : Connection) : Str :=
  showTyped c.address ++ optStr c%"/" showU8 c.ttl ++ optStr c%"/" showU32 c.amount

/-- src/lib.rs:110-121 -/
def showOrigin (o : Origin) : Str :=
  o.username ++ c%" " ++ showU64 o.sessionId ++ c%" " ++ showU64 o.sessionVersion ++ c%" "
    ++ showTyped o.unicastAddr

/-- src/lib.rs:146-150 -/
def showTiming (t : Timing) : Str := showU64 t.start ++ c%" " ++ showU64 t.stop

/-- src/media_type.rs:137-148 -/
def showMedia (m : Media) : Str :=
  c%"m=" ++ showMediaLine m.media ++ c%"\r\n"
    ++ maybeVec c%"b=" c%"\r\n" c%"\r\nb=" (m.bandwidth.map showBandwidth)
    ++ (match m.connection with
        | some c => c%"c=" ++ showConnection c ++ c%"\r\n"
        | none => [])
    ++ maybeVec c%"a=" c%"\r\n" c%"\r\na=" (m.attrs.map showAttribute)

/-- src/lib.rs:269-275 `get_session_text` -/
def Session.getSessionText (s : Session) : Str :=
  match s.session with
  | some t => t
  | none => c%" "

/-- src/lib.rs:214-236 `Display for SdpSession` -/
def showSession (s : Session) : Str :=
  c%"v=" ++ showU64 s.version ++ c%"\r\n"
    ++ c%"o=" ++ showOrigin s.origin ++ c%"\r\n"
    ++ c%"s=" ++ s.getSessionText ++ c%"\r\n"
    ++ (match s.timing with
        | some t => c%"t=" ++ showTiming t ++ c%"\r\n"
        | none => [])
    ++ maybeVec c%"b=" c%"\r\n" c%"\r\nb=" (s.bandwidth.map showBandwidth)
    ++ (match s.connection with
        | some c => c%"c=" ++ showConnection c ++ c%"\r\n"
        | none => [])
    ++ maybeVec c%"a=" c%"\r\n" c%"\r\na=" (s.attrs.map showAttribute)
    ++ (s.media.map showMedia).flatten

end Sdp
