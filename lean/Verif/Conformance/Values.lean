import Verif.Conformance.Env
import Verif.Model.Example
import Verif.Model.Serial
/-!
# The crate's own unit tests, run on the model: values

The tests that build values or look into them, transcribed by hand. These are tests, not proofs of
properties.
-/

namespace Sdp.Conformance

attribute [local instance] testEnv

def attribute? (s : Str) : Option Attribute :=
  match attrFromStr s with
  | .ok a => some a
  | _ => none

/-- src/lib_tests.rs:33-42 `create_dummy_media_section` -/
def dummyMedia : Media := .new ⟨.audio, 9, 0, .rtpSavpf, .integers []⟩

/-- src/lib_tests.rs:13-31 `create_dummy_sdp_session` -/
def dummySession : Session :=
  (Session.new 0 ⟨c%"mozilla", 506705521068071134, 0, .ip (.v4 0)⟩ c%"-").setConnection
    ⟨.ip (.v4 (198 * 2^24 + 51 * 2^16 + 100 * 2^8 + 7)), none, none⟩

example : (match parseOrigin c%"mozilla 506705521068071134 0 IN IP4 0.0.0.0", parseConnection c%"IN IP4 198.51.100.7" with
    | .ok (.origin o), .ok (.connection c) => o == dummySession.origin && some c == dummySession.connection
    | _, _ => false) = true := by decide +kernel

/-! ## src/attribute_type_tests.rs -/

/-! `test_parse_attribute_candidate_and_serialize` -/
example : attribute? c%"candidate:1 1 TCP 1685987071 24.23.204.141 54609 typ srflx raddr 192.168.1.4 rport 61665 tcptype passive generation 1 ufrag +DGd network-cost 1 unsupported foo" =
    some (.candidate ⟨c%"1", 1, .tcp, 1685987071, .ip (.v4 (24 * 2^24 + 23 * 2^16 + 204 * 2^8 + 141)), 54609, .srflx,
      some (.ip (.v4 (192 * 2^24 + 168 * 2^16 + 2^8 + 4))), some 61665, some .passive, some 1, some c%"+DGd", some 1,
      [(c%"unsupported", c%"foo")]⟩) := by decide +kernel

/-! `test_anonymize_attribute_candidate` -/
def candidate? (s : Str) : Option Candidate :=
  match attribute? s with
  | some (.candidate c) => some c
  | _ => none

example : (match candidate? c%"candidate:0 1 TCP 2122252543 ::8 49760 typ host",
      candidate? c%"candidate:0 1 UDP 2122252543 172.16.156.106 19361 typ srflx",
      candidate? c%"candidate:1 1 TCP 1685987071 24.23.204.141 54609 typ srflx raddr 192.168.1.4 rport 61665 tcptype passive generation 1 ufrag +DGd" with
    | some a, some b, some c =>
      let (a, s) := a.maskedClone .new
      let (b, s) := b.maskedClone s
      let (c, _) := c.maskedClone s
      a.address == .ip (.v6 1) && a.port == 1 && b.address == .ip (.v4 1) && b.port == 2 &&
        c.address == .ip (.v4 2) && c.port == 3 && c.raddr == some (.ip (.v4 3)) && c.rport == some 4
    | _, _, _ => false) = true := by decide +kernel

/-! `test_parse_dtls_message` -/
example : attribute? c%"dtls-message:client SGVsbG8gV29ybGQ=" = some (.dtlsMessage (.client c%"SGVsbG8gV29ybGQ=")) := by
  decide +kernel
example : attribute? c%"dtls-message:server SGVsbG8gV29ybGQ=" = some (.dtlsMessage (.server c%"SGVsbG8gV29ybGQ=")) := by
  decide +kernel

/-! `test_parse_attribute_extmap`: the bad character -/
example : rejects (attrFromStr (c%"extmap:3 http://www.webrtc.org/experiments/rtp-hdrext/abs-send-time " ++ ['\x00'])) = true := by
  decide +kernel

/-! `test_anonymize_attribute_fingerprint` -/
example : (match attribute? c%"fingerprint:sha-1 CD:34:D1:62:16:95:7B:B7:EB:74:E2:39:27:97:EB:0B:23:73:AC:BC" with
    | some (.fingerprint f) => showFingerprint (f.maskedClone .new).1 == c%"sha-1 00:00:00:00:00:00:00:01"
    | _ => false) = true := by decide +kernel

/-! `test_parse_attribute_group` -/
example : (match attrFromStr c%"group:NEVER_SUPPORTED_SEMANTICS" with
    | .err (.unsupported _) => true
    | _ => false) = true := by decide +kernel

/-! `test_parse_attribute_imageattr_recv_and_verify` -/
/-- The literals in the tests, compiled to their bits -/
def f32 (s : Str) : F32 :=
  if s = c%"0.1" then ⟨0x3dcccccd⟩
  else if s = c%"0.5" then ⟨0x3f000000⟩
  else if s = c%"0.6" then ⟨0x3f19999a⟩
  else if s = c%"0.7" then ⟨0x3f333333⟩
  else if s = c%"1.1" then ⟨0x3f8ccccd⟩
  else if s = c%"1.2" then ⟨0x3f99999a⟩
  else if s = c%"1.3" then ⟨0x3fa66666⟩
  else if s = c%"1.9" then ⟨0x3ff33333⟩
  else ⟨0⟩

example : attribute? c%"imageattr:* recv [x=800,y=[50,80,30],sar=1.1] send [x=330,y=250,sar=[1.1,1.3,1.9],q=0.1]" =
    some (.imageAttr ⟨.wildcard,
      .sets [⟨.discrete [330], .discrete [250], some (.discrete [f32 c%"1.1", f32 c%"1.3", f32 c%"1.9"]), none, some (f32 c%"0.1")⟩],
      .sets [⟨.discrete [800], .discrete [50, 80, 30], some (.discrete [f32 c%"1.1"]), none, none⟩]⟩) := by decide +kernel

/-! `test_parse_attribute_imageattr_send_and_verify` -/
example : attribute? c%"imageattr:97 send [x=[480:16:800],y=[100,200,300],par=[1.2-1.3],q=0.6] [x=1080,y=[144:176],sar=[0.5-0.7]] recv *" =
    some (.imageAttr ⟨.pt 97,
      .sets [⟨.range 480 800 (some 16), .discrete [100, 200, 300], none, some ⟨f32 c%"1.2", f32 c%"1.3"⟩, some (f32 c%"0.6")⟩,
        ⟨.discrete [1080], .range 144 176 none, some (.range (f32 c%"0.5") (f32 c%"0.7")), none, none⟩],
      .wildcard⟩) := by decide +kernel

/-! `test_anonymize_remote_candidate` -/
example : (match attribute? c%"remote-candidates:0 10.0.0.1 5555" with
    | some (.remoteCandidate r) => (r.maskedClone .new).1.address == .ip (.v4 1) && (r.maskedClone .new).1.port == 1
    | _ => false) = true := by decide +kernel

/-! `test_parse_attribute_rid_and_verify` -/
example : attribute? c%"rid:foo send" = some (.rid ⟨c%"foo", .send, [], ⟨0, 0, 0, 0, 0, 0, []⟩, []⟩) := by decide +kernel
example : attribute? c%"rid:110 send pt=9" = some (.rid ⟨c%"110", .send, [9], ⟨0, 0, 0, 0, 0, 0, []⟩, []⟩) := by decide +kernel
example : attribute? c%"rid:110 send pt=9,10;max-fs=10;UNKNOWN=100;depends=1,2,3" =
    some (.rid ⟨c%"110", .send, [9, 10], ⟨0, 0, 0, 10, 0, 0, [c%"UNKNOWN=100"]⟩, [c%"1", c%"2", c%"3"]⟩) := by decide +kernel
example : attribute? c%"rid:110 recv max-fps=42;max-fs=10;max-br=3;max-pps=1000" =
    some (.rid ⟨c%"110", .recv, [], ⟨0, 0, 42, 10, 3, 1000, []⟩, []⟩) := by decide +kernel

/-! `test_anonymize_attribute_ssrc` -/
example : (match attribute? c%"ssrc:2655508255 cname:{735484ea-4f6c-f74a-bd66-7425f8476c2e}",
      attribute? c%"ssrc:2082260239 msid:1d0cdb4e-5934-4f0f-9f88-40392cb60d31 315b086a-5cb6-4221-89de-caf0b038c79d" with
    | some a, some (.ssrc b) =>
      match a, a.maskedClone .new with
      | .ssrc x, (.ssrc y, s) => x.id == y.id && x.attr == y.attr && y.value == some c%"cname-00000001" &&
          (b.maskedClone s).1 == b
      | _, _ => false
    | _, _ => false) = true := by decide +kernel

/-! `test_parse_attribute_ssrc_group` -/
example : attribute? c%"ssrc-group:FID 3156517279 2673335628" =
    some (.ssrcGroup .flowIdentification [.new 3156517279, .new 2673335628]) := by decide +kernel
example : attributePrintsBack c%"ssrc-group:FID 3156517279 2673335628" = true := by decide +kernel

/-! ## src/anonymizer_tests.rs -/

/-- The masks of the values, one after the other. -/
def masks {α : Type} (f : Anon → α → α × Anon) : Anon → List α → List α
  | _, [] => []
  | s, a :: l => (f s a).1 :: masks f (f s a).2 l

/-! `test_mask_ip`, `test_mask_port`, `test_mask_ice_password`, `test_mask_ice_user`,
`test_mask_cert_fingerprint`, `test_mask_cname` -/
example : let once : List IpAddr := [.v4 0x7f000001, .v6 0, .v4 0x0a000001, .v6 528189235, .v4 0x01010101, .v6 1623734988148990]
    let masked : List IpAddr := [.v4 1, .v6 1, .v4 2, .v6 2, .v4 3, .v6 3]
    masks Anon.maskIp .new (once ++ once) = masked ++ masked := by decide +kernel
example : masks Anon.maskPort .new [0, 125, 12346, 0, 125, 12346] = [1, 2, 3, 1, 2, 3] := by decide +kernel
example : let once := [c%"vasdfioqwenl14082`14", c%"0", c%"ncp\tHY878hp(poh"]
    let masked := [c%"ice-password-00000001", c%"ice-password-00000002", c%"ice-password-00000003"]
    masks Anon.maskIcePassword .new (once ++ once) = masked ++ masked := by decide +kernel
example : let once := [c%"user1", c%"user2", c%"8109q2asdf"]
    let masked := [c%"ice-user-00000001", c%"ice-user-00000002", c%"ice-user-00000003"]
    masks Anon.maskIceUser .new (once ++ once) = masked ++ masked := by decide +kernel
example : let once : List (List UInt8) := [[0x59, 0x4A, 0x8B, 0x73], [0x30, 0xFF, 0x8E, 0x2B], [0xDF, 0x2E, 0xAC, 0x8A]]
    let masked := [toByteVec 1, toByteVec 2, toByteVec 3]
    masks Anon.maskCertFingerPrint .new (once ++ once) = masked ++ masked := by decide +kernel
example : let once := [c%"mailto:foo@bar", c%"JohnDoe", c%"Jane Doe"]
    let masked := [c%"cname-00000001", c%"cname-00000002", c%"cname-00000003"]
    masks Anon.maskCname .new (once ++ once) = masked ++ masked := by decide +kernel

/-! ## src/error_tests.rs -/

example : showInternalError (.unknownAddressType c%"foo") = c%"Unknown address type: foo" := by decide +kernel
example : showInternalError (.addressTypeMismatch .ipV4 .ipV6) =
    c%"Address is of a different type(1) than declared(2): " ++ (showAddressType .ipV4 ++ c%", " ++ showAddressType .ipV6) := by
  decide +kernel
example : showInternalError (.generic c%"generic message") = c%"Parsing error: generic message" := by decide +kernel
example : showInternalError (.unsupported c%"unsupported internal message") =
    c%"Unsupported parsing error: unsupported internal message" := by decide +kernel
example : (match parseU64 c%"12a" with
    | .err e => showInternalError e == c%"Integer parsing error: invalid digit found in string" && e.source.isSome
    | _ => false) = true := by decide +kernel
example : (match parseF32 c%"12.2a" with
    | .err e => showInternalError e == c%"Float parsing error: invalid float literal" && e.source.isSome
    | _ => false) = true := by decide +kernel
example : (match parseAddress c%"127.0.0.500" with
    | .err e => showInternalError e == c%"Domain name parsing error: invalid IPv4 address" && e.source.isSome
    | _ => false) = true := by decide +kernel
example : showParserError (.line (.generic c%"test message") c%"test line" 13) =
    c%"Line error: Parsing error: test message in line(13): test line" := by decide +kernel
example : showParserError (.unsupported (.generic c%"unsupported value") c%"unsupported line" 21) =
    c%"Unsupported: Parsing error: unsupported value in line(21): unsupported line" := by decide +kernel
example : showParserError (.sequence c%"sequence message" 42) = c%"Sequence error in line(42): sequence message" := by
  decide +kernel
example : (InternalError.source (.unknownAddressType c%"foo")).isNone ∧ (InternalError.source (.addressTypeMismatch .ipV4 .ipV6)).isNone ∧
    (InternalError.source (.generic c%"m")).isNone ∧ (InternalError.source (.unsupported c%"m")).isNone ∧
    (ParserError.source (.line (.generic c%"m") c%"l" 13)).isSome ∧
    (ParserError.source (.unsupported (.generic c%"m") c%"l" 21)).isSome ∧
    (ParserError.source (.sequence c%"m" 42)).isNone := by decide +kernel

/-! ## src/media_type_tests.rs -/

/-! `test_get_set_port` -/
example : dummyMedia.getPort = 9 ∧ (dummyMedia.setPort 2048).getPort = 2048 := by decide +kernel

def formatCount (m : Media) : Nat :=
  match m.getFormats with
  | .integers l => l.length
  | .strings l => l.length

def stringMedia : Media := { dummyMedia with media := { dummyMedia.media with formats := .strings [] } }

/-! `test_add_codec` -/
example : let (m, r) := dummyMedia.addCodec (.new 96 c%"foobar" 1000)
    (accepts r && formatCount m == 1 && (m.getAttribute .rtpmap).isSome) = true := by decide +kernel
example : let (m, r) := stringMedia.addCodec (.new 97 c%"boofar" 1001)
    (accepts r && formatCount m == 1 && (m.getAttribute .rtpmap).isSome) = true := by decide +kernel

def addAll (m : Media) : List Attribute → Option Media
  | [] => some m
  | a :: l =>
    match m.addAttribute a with
    | (m, .ok _) => addAll m l
    | _ => none

/-- src/media_type_tests.rs:34-90 `add_dummy_attributes` -/
def dummyAttributes : List Attribute :=
  [.rtcpfb ⟨.wildcard, .ack, [], []⟩,
   .fmtp ⟨1, { FmtpParams.default with }⟩,
   .sctpmap ⟨5000, 2⟩, .bundleOnly, .sctpPort 5000]

/-! `test_remove_codecs` -/
example : let (m, _) := dummyMedia.addCodec (.new 96 c%"foobar" 1000)
    (formatCount m.removeCodecs == 0 && (m.removeCodecs.getAttribute .rtpmap).isNone) = true := by decide +kernel
example : (match addAll (stringMedia.addCodec (.new 97 c%"boofar" 1001)).1 dummyAttributes with
    | some m =>
      [.rtpmap, .rtcpfb, .fmtp, .sctpmap, .sctpPort, .bundleOnly].all (fun t => (m.getAttribute t).isSome) &&
      formatCount m.removeCodecs == 0 &&
      [.rtpmap, .rtcpfb, .fmtp, .sctpmap, .sctpPort].all (fun t => (m.removeCodecs.getAttribute t).isNone)
    | none => false) = true := by decide +kernel

/-! `test_add_datachannel` -/
example : let (m, r) := dummyMedia.addDatachannel c%"foo" 5000 256 0
    (accepts r && m.getType == .application && (m.getAttribute .sctpPort).isNone && (m.getAttribute .maxMessageSize).isNone &&
      m.getAttribute .sctpmap == some (.sctpmap ⟨5000, 256⟩)) = true := by decide +kernel
example : let (m, r) := dummyMedia.addDatachannel c%"foo" 5000 256 1234
    (accepts r && m.getType == .application && (m.getAttribute .sctpPort).isNone &&
      m.getAttribute .maxMessageSize == some (.maxMessageSize 1234)) = true := by decide +kernel
example : let (m, r) := { dummyMedia with media := { dummyMedia.media with proto := .udpDtlsSctp } }.addDatachannel c%"foo" 5000 256 5678
    (accepts r && m.getType == .application && (m.getAttribute .sctpmap).isNone &&
      m.getAttribute .sctpPort == some (.sctpPort 5000) &&
      m.getAttribute .maxMessageSize == some (.maxMessageSize 5678)) = true := by decide +kernel

/-! `test_parse_protocol_rtp_token`, `test_parse_protocol_sctp_token`: (token, result) -/
example : [(c%"rtp/avp", ProtocolValue.rtpAvp), (c%"rtp/avpf", .rtpAvpf), (c%"rtp/savp", .rtpSavp), (c%"rtp/savpf", .rtpSavpf),
    (c%"udp/tls/rtp/savp", .udpTlsRtpSavp), (c%"udp/tls/rtp/savpf", .udpTlsRtpSavpf), (c%"TCP/dtls/rtp/savp", .tcpDtlsRtpSavp),
    (c%"tcp/DTLS/rtp/savpf", .tcpDtlsRtpSavpf), (c%"dtLs/ScTP", .dtlsSctp), (c%"udp/DTLS/sctp", .udpDtlsSctp),
    (c%"tcp/dtls/SCTP", .tcpDtlsSctp)].all (fun p =>
      satisfies (parseProtocolToken p.1) fun v => v == p.2 && showProtocol v == upper p.1) = true := by decide +kernel
example : [(c%"audio", MediaValue.audio), (c%"VIDEO", .video), (c%"aPplIcatIOn", .application)].all (fun p =>
      satisfies (parseMediaToken p.1) fun v => v == p.2) = true := by decide +kernel

/-! `test_media_vector_*` -/
def mLine : SdpLine := ⟨0, .media dummyMedia.media, []⟩
example : rejects (parseMediaVector [⟨0, .session c%"hello", []⟩]) = true := by decide +kernel
example : rejects (parseMediaVector [mLine, ⟨1, .connection ⟨.ip (.v4 0x7f000001), none, none⟩, []⟩,
    ⟨2, .connection ⟨.ip (.v4 0x7f000001), none, none⟩, []⟩]) = true := by decide +kernel
example : rejects (parseMediaVector [mLine, ⟨1, .timing ⟨0, 0⟩, []⟩]) = true := by decide +kernel
example : rejects (parseMediaVector [mLine, ⟨1, .attr .iceLite, []⟩]) = true := by decide +kernel

/-! ## src/lib_tests.rs -/

/-! `test_add_attribute` -/
example : let (s, r) := dummySession.addAttribute .sendrecv
    let (s', r') := s.addAttribute .bundleOnly
    (accepts r && rejects r' && s'.attrs.length == 1) = true := by decide +kernel

/-! `test_sanity_check_sdp_session_timing`, `_media` -/
def timed : Session := dummySession.setTiming ⟨0, 0⟩
example : rejects (sanityCheck (dummySession.extendMedia [dummyMedia])) = true := by decide +kernel
example : accepts (sanityCheck ((dummySession.extendMedia [dummyMedia]).setTiming ⟨0, 0⟩)) = true := by decide +kernel
example : accepts (sanityCheck timed) = true ∧ accepts (sanityCheck (timed.extendMedia [dummyMedia])) = true := by
  decide +kernel

/-! `test_sanity_check_sdp_connection` -/
example : let s := (Session.new 0 dummySession.origin c%"-").setTiming ⟨0, 0⟩
    let s1 := s.extendMedia [dummyMedia]
    let s2 := s1.setConnection ⟨.ip (.v6 1), none, none⟩
    let s3 := s2.extendMedia [dummyMedia.setConnection ⟨.ip (.v4 0), none, none⟩]
    (accepts (sanityCheck s) && rejects (sanityCheck s1) && accepts (sanityCheck s2) && s3.media.length == 2 &&
      accepts (sanityCheck s3)) = true := by decide +kernel

/-! `test_sanity_check_sdp_session_extmap` -/
example : (match attribute? c%"extmap:3 http://www.webrtc.org/experiments/rtp-hdrext/abs-send-time",
      attribute? c%"extmap:1/sendonly urn:ietf:params:rtp-hdrext:ssrc-audio-level" with
    | some a, some b =>
      let (s, r) := (timed.extendMedia [dummyMedia]).addAttribute a
      let (m, r') := dummyMedia.addAttribute b
      let s2 := s.extendMedia [m]
      accepts r && accepts r' && (s.getAttribute .extmap).isSome && accepts (sanityCheck s) && (m.getAttribute .extmap).isSome &&
        s2.media.length == 2 && rejects (sanityCheck s2) && accepts (sanityCheck { s2 with attrs := [] })
    | _, _ => false) = true := by decide +kernel

/-! `test_mask_origin` -/
example : let (o, s) := dummySession.origin.maskedClone .new
    let (o', _) := dummySession.origin.maskedClone s
    (o.username == c%"origin-user-00000001" && o.unicastAddr == .ip (.v4 1) && o' == o) = true := by decide +kernel

/-! `test_mask_sdp` -/
example : satisfies (parseSdp c%"v=0\r\n\n        o=ausername 4294967296 2 IN IP4 127.0.0.1\r\n\n        s=SIP Call\r\n\n        c=IN IP4 198.51.100.7/51\r\n\n        a=ice-pwd:12340\r\n\n        a=ice-ufrag:4a799b2e\r\n\n        a=fingerprint:sha-1 CD:34:D1:62:16:95:7B:B7:EB:74:E2:39:27:97:EB:0B:23:73:AC:BC\r\n\n        t=0 0\r\n\n        m=video 56436 RTP/SAVPF 120\r\n\n        a=candidate:77142221 1 udp 2113937151 192.168.137.1 54081 typ host\r\n\n        a=remote-candidates:0 10.0.0.1 5555\r\n\n        a=rtpmap:120 VP8/90000\r\n" true)
    (fun r =>
      let m := (r.maskedClone .new).1
      m.origin.username == c%"origin-user-00000001" && m.origin.unicastAddr == .ip (.v4 1) &&
        m.connection.map (·.address) == some (.ip (.v4 2)) &&
        (m.attrs ++ m.media.flatMap Media.getAttributes).all fun
          | .candidate c => c.address == .ip (.v4 3) && c.port == 1
          | .fingerprint f => f.fingerprint == toByteVec 1
          | .icePwd p => p == c%"ice-password-00000001"
          | .iceUfrag p => p == c%"ice-user-00000001"
          | .remoteCandidate c => c.address == .ip (.v4 4) && c.port == 2
          | _ => true) = true := by decide +kernel

/-! `test_parse_session_vector*` -/
def lines? (l : List Str) : Option (List SdpLine) :=
  l.mapM fun s => match parseSdpLine s 1 with
    | .ok x => some x
    | _ => none

def sessionVector (l : List Str) : Option (Session × Bool) :=
  (lines? l).map fun ls => ((dummySession.parseVector ls).1, accepts (dummySession.parseVector ls).2)

example : (sessionVector [c%"a=sendrecv"]).map (fun p => (p.1.attrs.length, p.2)) = some (1, true) := by decide +kernel
example : (sessionVector [c%"a=bundle-only"]).map (fun p => (p.1.attrs.length, p.2)) = some (0, false) := by decide +kernel
example : (sessionVector [c%"v=0"]).map (·.2) = some false := by decide +kernel
example : (sessionVector [c%"m=audio 0 UDP/TLS/RTP/SAVPF 0"]).map (·.2) = some false := by decide +kernel

/-! `test_parse_sdp_vector_*` -/
def vector (l : List Str) : Option Bool := (lines? l).map fun ls => accepts (parseSdpVector ls)

def oLine : Str := c%"o=ausername 4294967296 2 IN IP4 127.0.0.1"

example : vector [c%"v=0", oLine, c%"s=SIP Call", c%"t=0 0", c%"c=IN IP6 ::1"] = some true := by decide +kernel
example : vector [c%"v=0", oLine, c%"s=SIP Call", c%"t=0 0", c%"m=video 56436 RTP/SAVPF 120", c%"c=IN IP6 ::1"] = some true := by
  decide +kernel
example : vector [c%"v=0", oLine, c%"s=SIP Call", c%"t=0 0", c%"m=video 56436 RTP/SAVPF 120", c%"c=IN IP6 ::1",
    c%"a=rtcp-mux-only"] = some false := by decide +kernel
example : vector [c%"v=0"] = some false := by decide +kernel
example : vector [oLine, c%"a=sendrecv", c%"a=sendrecv", c%"a=sendrecv"] = some false := by decide +kernel
example : vector [c%"v=0", c%"a=sendrecv", c%"a=sendrecv", c%"a=sendrecv"] = some false := by decide +kernel
example : vector [c%"v=0", oLine, c%"a=sendrecv", c%"a=sendrecv"] = some false := by decide +kernel

/-! `test_session_add_media_*` -/
example : let (s, r) := dummySession.addMedia .audio .sendrecv 99 .rtpSavpf (.ofV4 0x7f000001)
    (accepts r && s.getConnection.isSome && s.attrs.length == 0 && s.media.length == 1 && hasAttribute s 0 .sendrecv &&
      (s.media[0]?.map (·.attrs.length)) == some 1) = true := by decide +kernel
example : let (_, r) := dummySession.addMedia .audio .iceLite 99 .rtpSavpf (.ofV4 0x7f000001)
    rejects r = true := by decide +kernel

/-! `test_default_fmtp_should_be_empty` -/
example : (match addAll (dummyMedia.addCodec (.new 96 c%"boofar" 1001)).1 [.fmtp ⟨96, { FmtpParams.default with }⟩] with
    | some m => (m.getAttribute .rtpmap).isSome && (m.getAttribute .fmtp).isSome &&
        accepts (parseSdp (c%"v=0\r\n\no=- 0 0 IN IP4 0.0.0.0\r\n\ns=-\r\n\nt=0 0\r\n" ++ showMedia m ++ c%"\r\nc=IN IP4 0.0.0.0") true)
    | none => false) = true := by decide +kernel

/-! ## tests/parse_sdp_tests.rs, `serialize_av1_sdp_with_default_parameters` -/

/-- `str::contains` -/
def contains (p : Str) : Str → Bool
  | [] => p.isEmpty
  | c :: s => startsWith p (c :: s) || contains p s

example : [(c%"profile", c%"level-idx", c%"tier"), (c%"level-idx", c%"profile", c%"tier"), (c%"tier", c%"profile", c%"level-idx")].all
    (fun p => satisfies (parseSdp (c%"v=0\r\no=- 983028567300715536 0 IN IP4 0.0.0.0\r\ns=-\r\nt=0 0\r\nm=video 9 UDP/TLS/RTP/SAVPF 120 121 126 97\r\nc=IN IP4 0.0.0.0\r\na=rtpmap:98 AV1/90000\r\na=fmtp:98 "
        ++ p.1 ++ c%"=0\r\n") true) fun r =>
      r.media.length == 1 && contains (p.1 ++ c%"=0") (showSession r) && !contains (p.2.1 ++ c%"=") (showSession r) &&
        !contains (p.2.2 ++ c%"=") (showSession r)) = true := by decide +kernel

end Sdp.Conformance
