import Verif.Model.Show
/-!
# The `serialize` feature and error causes

`derive(Serialize)` is modelled with the JSON mapping of serde and serde_json: a struct is an object
with the fields in order, a variant without data is its name, another variant is an object with the
name as its only key, `None` is null and `Some(x)` is `x`, sequences and tuples are arrays, an IP
address is its text, a float that is not finite is null. JSON texts are not modelled, only the values.
-/

namespace Sdp

/-- A JSON value. Finite floats are kept as their bits: serde_json writes different finite floats
differently. -/
inductive Json where
  | null
  | bool (b : Bool)
  | nat (n : Nat)
  | f32 (bits : UInt32)
  | f64 (bits : UInt64)
  | str (s : Str)
  | arr (l : List Json)
  | obj (l : List (Str × Json))

/-- The trait `serde::Serialize`. -/
class Ser (α : Type) where
  ser : α → Json

export Ser (ser)

/-- serde: `bool` -/
instance : Ser Bool where ser := .bool
/-- serde: `u8` -/
instance : Ser UInt8 where ser n := .nat n.toNat
/-- serde: `u16` -/
instance : Ser UInt16 where ser n := .nat n.toNat
/-- serde: `u32` -/
instance : Ser UInt32 where ser n := .nat n.toNat
/-- serde: `u64` -/
instance : Ser UInt64 where ser n := .nat n.toNat
/-- serde: `usize` -/
instance : Ser Nat where ser := .nat
/-- serde_json: `f32`; infinities and NaN are null. -/
instance : Ser F32 where ser x := if x.bits.toNat % 2 ^ 31 < 0x7f800000 then .f32 x.bits else .null
/-- serde_json: `f64`; infinities and NaN are null. -/
instance : Ser F64 where
  ser x := if x.bits.toNat % 2 ^ 63 < 0x7ff0000000000000 then .f64 x.bits else .null
/-- serde: `Option` -/
instance {α : Type} [Ser α] : Ser (Option α) where
  ser
    | none => .null
    | some x => ser x
/-- serde: `Vec` -/
instance {α : Type} [Ser α] : Ser (List α) where ser l := .arr (l.map ser)
/-- serde: pairs -/
instance {α β : Type} [Ser α] [Ser β] : Ser (α × β) where ser p := .arr [ser p.1, ser p.2]
/-- serde: `String` -/
instance : Ser Str where ser := .str
/-- serde: `IpAddr` in human-readable formats -/
instance : Ser IpAddr where ser a := .str (showIp a)

/-- src/address.rs:70-73 `derive(Serialize)` of `AddressType` -/
instance : Ser AddressType where
  ser
    | .ipV4 => .str c%"IpV4"
    | .ipV6 => .str c%"IpV6"

/-- src/address.rs:15-18 `derive(Serialize)` of `Address` -/
instance : Ser Address where
  ser
    | .fqdn d => .obj [(c%"Fqdn", ser d)]
    | .ip a => .obj [(c%"Ip", ser a)]

/-- src/address.rs:111-117 `derive(Serialize)` of `ExplicitlyTypedAddress` -/
instance : Ser TypedAddress where
  ser
    | .fqdn t d => .obj [(c%"Fqdn", .obj [(c%"address_type", ser t), (c%"domain", ser d)])]
    | .ip a => .obj [(c%"Ip", ser a)]

/-- src/attribute_type.rs:93-97 `derive(Serialize)` of `SdpSingleDirection` -/
instance : Ser SingleDirection where
  ser
    | .send => .str c%"Send"
    | .recv => .str c%"Recv"

/-- src/attribute_type.rs:111-114 `derive(Serialize)` of `SdpAttributePayloadType` -/
instance : Ser PayloadType where
  ser
    | .pt n => .obj [(c%"PayloadType", ser n)]
    | .wildcard => .str c%"Wildcard"

/-- src/attribute_type.rs:127-130 `derive(Serialize)` of `SdpAttributeCandidateTransport` -/
instance : Ser CandTransport where
  ser
    | .udp => .str c%"Udp"
    | .tcp => .str c%"Tcp"

/-- src/attribute_type.rs:144-149 `derive(Serialize)` of `SdpAttributeCandidateType` -/
instance : Ser CandType where
  ser
    | .host => .str c%"Host"
    | .srflx => .str c%"Srflx"
    | .prflx => .str c%"Prflx"
    | .relay => .str c%"Relay"

/-- src/attribute_type.rs:165-169 `derive(Serialize)` of `SdpAttributeCandidateTcpType` -/
instance : Ser CandTcpType where
  ser
    | .active => .str c%"Active"
    | .passive => .str c%"Passive"
    | .simultaneous => .str c%"Simultaneous"

/-- src/attribute_type.rs:185-200 `derive(Serialize)` of `SdpAttributeCandidate` -/
instance : Ser Candidate where
  ser x := .obj [
    (c%"foundation", ser x.foundation), (c%"component", ser x.component), (c%"transport", ser x.transport),
    (c%"priority", ser x.priority), (c%"address", ser x.address), (c%"port", ser x.port),
    (c%"c_type", ser x.cType), (c%"raddr", ser x.raddr), (c%"rport", ser x.rport),
    (c%"tcp_type", ser x.tcpType), (c%"generation", ser x.generation), (c%"ufrag", ser x.ufrag),
    (c%"networkcost", ser x.networkcost), (c%"unknown_extensions", ser x.unknownExtensions)]

/-- src/attribute_type.rs:308-311 `derive(Serialize)` of `SdpAttributeDtlsMessage` -/
instance : Ser DtlsMessage where
  ser
    | .client m => .obj [(c%"Client", ser m)]
    | .server m => .obj [(c%"Server", ser m)]

/-- src/attribute_type.rs:326-330 `derive(Serialize)` of `SdpAttributeRemoteCandidate` -/
instance : Ser RemoteCandidate where
  ser x := .obj [
    (c%"component", ser x.component), (c%"address", ser x.address), (c%"port", ser x.port)]

/-- src/attribute_type.rs:357-360 `derive(Serialize)` of `SdpAttributeSimulcastId` -/
instance : Ser SimulcastId where
  ser x := .obj [
    (c%"id", ser x.id), (c%"paused", ser x.paused)]

/-- src/attribute_type.rs:391-393 `derive(Serialize)` of `SdpAttributeSimulcastVersion` -/
instance : Ser SimulcastVersion where
  ser x := .obj [
    (c%"ids", ser x.ids)]

/-- src/attribute_type.rs:420-423 `derive(Serialize)` of `SdpAttributeSimulcast` -/
instance : Ser Simulcast where
  ser x := .obj [
    (c%"send", ser x.send), (c%"receive", ser x.receive)]

/-- src/attribute_type.rs:439-442 `derive(Serialize)` of `SdpAttributeRtcp` -/
instance : Ser Rtcp where
  ser x := .obj [
    (c%"port", ser x.port), (c%"unicast_addr", ser x.unicastAddr)]

/-- src/attribute_type.rs:469-478 `derive(Serialize)` of `SdpAttributeRtcpFbType` -/
instance : Ser RtcpFbType where
  ser
    | .ack => .str c%"Ack"
    | .ccm => .str c%"Ccm"
    | .nack => .str c%"Nack"
    | .trrInt => .str c%"TrrInt"
    | .remb => .str c%"Remb"
    | .transCc => .str c%"TransCc"

/-- src/attribute_type.rs:497-502 `derive(Serialize)` of `SdpAttributeRtcpFb` -/
instance : Ser RtcpFb where
  ser x := .obj [
    (c%"payload_type", ser x.payloadType), (c%"feedback_type", ser x.feedbackType),
    (c%"parameter", ser x.parameter), (c%"extra", ser x.extra)]

/-- src/attribute_type.rs:522-526 `derive(Serialize)` of `SdpAttributeDirection` -/
instance : Ser Direction where
  ser
    | .recvonly => .str c%"Recvonly"
    | .sendonly => .str c%"Sendonly"
    | .sendrecv => .str c%"Sendrecv"

/-- src/attribute_type.rs:542-547 `derive(Serialize)` of `SdpAttributeExtmap` -/
instance : Ser Extmap where
  ser x := .obj [
    (c%"id", ser x.id), (c%"direction", ser x.direction), (c%"url", ser x.url),
    (c%"extension_attributes", ser x.extensionAttributes)]

/-- src/attribute_type.rs:565-568 `derive(Serialize)` of `RtxFmtpParameters` -/
instance : Ser RtxParams where
  ser x := .obj [
    (c%"apt", ser x.apt), (c%"rtx_time", ser x.rtxTime)]

/-- src/attribute_type.rs:583-640 `derive(Serialize)` of `SdpAttributeFmtpParameters` -/
instance : Ser FmtpParams where
  ser x := .obj [
    (c%"packetization_mode", ser x.packetizationMode),
    (c%"level_asymmetry_allowed", ser x.levelAsymmetryAllowed),
    (c%"profile_level_id", ser x.profileLevelId), (c%"max_fs", ser x.maxFs), (c%"max_cpb", ser x.maxCpb),
    (c%"max_dpb", ser x.maxDpb), (c%"max_br", ser x.maxBr), (c%"max_mbps", ser x.maxMbps),
    (c%"max_fr", ser x.maxFr), (c%"profile", ser x.profile), (c%"level_idx", ser x.levelIdx),
    (c%"tier", ser x.tier), (c%"maxplaybackrate", ser x.maxplaybackrate),
    (c%"maxaveragebitrate", ser x.maxaveragebitrate), (c%"usedtx", ser x.usedtx),
    (c%"stereo", ser x.stereo), (c%"useinbandfec", ser x.useinbandfec), (c%"cbr", ser x.cbr),
    (c%"ptime", ser x.ptime), (c%"minptime", ser x.minptime), (c%"maxptime", ser x.maxptime),
    (c%"encodings", ser x.encodings), (c%"dtmf_tones", ser x.dtmfTones), (c%"rtx", ser x.rtx),
    (c%"unknown_tokens", ser x.unknownTokens)]

/-- src/attribute_type.rs:713-716 `derive(Serialize)` of `SdpAttributeFmtp` -/
instance : Ser Fmtp where
  ser x := .obj [
    (c%"payload_type", ser x.payloadType), (c%"parameters", ser x.parameters)]

/-- src/attribute_type.rs:736-742 `derive(Serialize)` of `SdpAttributeFingerprintHashType` -/
instance : Ser HashType where
  ser
    | .sha1 => .str c%"Sha1"
    | .sha224 => .str c%"Sha224"
    | .sha256 => .str c%"Sha256"
    | .sha384 => .str c%"Sha384"
    | .sha512 => .str c%"Sha512"

/-- src/attribute_type.rs:808-811 `derive(Serialize)` of `SdpAttributeFingerprint` -/
instance : Ser Fingerprint where
  ser x := .obj [
    (c%"hash_algorithm", ser x.hashAlgorithm), (c%"fingerprint", ser x.fingerprint)]

/-- src/attribute_type.rs:875-878 `derive(Serialize)` of `SdpAttributeImageAttrXyRange` -/
instance : Ser XyRange where
  ser
    | .range min max step => .obj [(c%"Range", .arr [ser min, ser max, ser step])]
    | .discrete vs => .obj [(c%"DiscreteValues", ser vs)]

/-- src/attribute_type.rs:899-902 `derive(Serialize)` of `SdpAttributeImageAttrSRange` -/
instance : Ser SRange where
  ser
    | .range min max => .obj [(c%"Range", .arr [ser min, ser max])]
    | .discrete vs => .obj [(c%"DiscreteValues", ser vs)]

/-- src/attribute_type.rs:917-920 `derive(Serialize)` of `SdpAttributeImageAttrPRange` -/
instance : Ser PRange where
  ser x := .obj [
    (c%"min", ser x.min), (c%"max", ser x.max)]

/-- src/attribute_type.rs:930-936 `derive(Serialize)` of `SdpAttributeImageAttrSet` -/
instance : Ser ImageAttrSet where
  ser x := .obj [
    (c%"x", ser x.x), (c%"y", ser x.y), (c%"sar", ser x.sar), (c%"par", ser x.par), (c%"q", ser x.q)]

/-- src/attribute_type.rs:950-953 `derive(Serialize)` of `SdpAttributeImageAttrSetList` -/
instance : Ser ImageAttrSetList where
  ser
    | .sets l => .obj [(c%"Sets", ser l)]
    | .wildcard => .str c%"Wildcard"

/-- src/attribute_type.rs:972-976 `derive(Serialize)` of `SdpAttributeImageAttr` -/
instance : Ser ImageAttr where
  ser x := .obj [
    (c%"pt", ser x.pt), (c%"send", ser x.send), (c%"recv", ser x.recv)]

/-- src/attribute_type.rs:996-999 `derive(Serialize)` of `SdpAttributeSctpmap` -/
instance : Ser Sctpmap where
  ser x := .obj [
    (c%"port", ser x.port), (c%"channels", ser x.channels)]

/-- src/attribute_type.rs:1015-1023 `derive(Serialize)` of `SdpAttributeGroupSemantic` -/
instance : Ser GroupSemantic where
  ser
    | .lipSynchronization => .str c%"LipSynchronization"
    | .flowIdentification => .str c%"FlowIdentification"
    | .singleReservationFlow => .str c%"SingleReservationFlow"
    | .alternateNetworkAddressType => .str c%"AlternateNetworkAddressType"
    | .forwardErrorCorrection => .str c%"ForwardErrorCorrection"
    | .decodingDependency => .str c%"DecodingDependency"
    | .bundle => .str c%"Bundle"

/-- src/attribute_type.rs:1043-1046 `derive(Serialize)` of `SdpAttributeGroup` -/
instance : Ser Group where
  ser x := .obj [
    (c%"semantics", ser x.semantics), (c%"tags", ser x.tags)]

/-- src/attribute_type.rs:1062-1065 `derive(Serialize)` of `SdpAttributeMsid` -/
instance : Ser Msid where
  ser x := .obj [
    (c%"id", ser x.id), (c%"appdata", ser x.appdata)]

/-- src/attribute_type.rs:1076-1079 `derive(Serialize)` of `SdpAttributeMsidSemantic` -/
instance : Ser MsidSemantic where
  ser x := .obj [
    (c%"semantic", ser x.semantic), (c%"msids", ser x.msids)]

/-- src/attribute_type.rs:1094-1103 `derive(Serialize)` of `SdpAttributeRidParameters` -/
instance : Ser RidParams where
  ser x := .obj [
    (c%"max_width", ser x.maxWidth), (c%"max_height", ser x.maxHeight), (c%"max_fps", ser x.maxFps),
    (c%"max_fs", ser x.maxFs), (c%"max_br", ser x.maxBr), (c%"max_pps", ser x.maxPps),
    (c%"unknown", ser x.unknown)]

/-- src/attribute_type.rs:1124-1130 `derive(Serialize)` of `SdpAttributeRid` -/
instance : Ser Rid where
  ser x := .obj [
    (c%"id", ser x.id), (c%"direction", ser x.direction), (c%"formats", ser x.formats),
    (c%"params", ser x.params), (c%"depends", ser x.depends)]

/-- src/attribute_type.rs:1157-1162 `derive(Serialize)` of `SdpAttributeRtpmap` -/
instance : Ser Rtpmap where
  ser x := .obj [
    (c%"payload_type", ser x.payloadType), (c%"codec_name", ser x.codecName),
    (c%"frequency", ser x.frequency), (c%"channels", ser x.channels)]

/-- src/attribute_type.rs:1195-1200 `derive(Serialize)` of `SdpAttributeSetup` -/
instance : Ser Setup where
  ser
    | .active => .str c%"Active"
    | .actpass => .str c%"Actpass"
    | .holdconn => .str c%"Holdconn"
    | .passive => .str c%"Passive"

/-- src/attribute_type.rs:1217-1221 `derive(Serialize)` of `SdpAttributeSsrc` -/
instance : Ser Ssrc where
  ser x := .obj [
    (c%"id", ser x.id), (c%"attribute", ser x.attr), (c%"value", ser x.value)]

/-- src/attribute_type.rs:1270-1276 `derive(Serialize)` of `SdpSsrcGroupSemantic` -/
instance : Ser SsrcGroupSemantic where
  ser
    | .duplication => .str c%"Duplication"
    | .flowIdentification => .str c%"FlowIdentification"
    | .forwardErrorCorrection => .str c%"ForwardErrorCorrection"
    | .forwardErrorCorrectionFr => .str c%"ForwardErrorCorrectionFr"
    | .sim => .str c%"Sim"

/-- src/attribute_type.rs:1294-1338 `derive(Serialize)` of `SdpAttribute` -/
instance : Ser Attribute where
  ser
    | .bundleOnly => .str c%"BundleOnly"
    | .candidate a => .obj [(c%"Candidate", ser a)]
    | .dtlsMessage a => .obj [(c%"DtlsMessage", ser a)]
    | .endOfCandidates => .str c%"EndOfCandidates"
    | .extmap a => .obj [(c%"Extmap", ser a)]
    | .extmapAllowMixed => .str c%"ExtmapAllowMixed"
    | .fingerprint a => .obj [(c%"Fingerprint", ser a)]
    | .fmtp a => .obj [(c%"Fmtp", ser a)]
    | .frameRate a => .obj [(c%"FrameRate", ser a)]
    | .group a => .obj [(c%"Group", ser a)]
    | .iceLite => .str c%"IceLite"
    | .iceMismatch => .str c%"IceMismatch"
    | .iceOptions a => .obj [(c%"IceOptions", ser a)]
    | .icePacing a => .obj [(c%"IcePacing", ser a)]
    | .icePwd a => .obj [(c%"IcePwd", ser a)]
    | .iceUfrag a => .obj [(c%"IceUfrag", ser a)]
    | .identity a => .obj [(c%"Identity", ser a)]
    | .imageAttr a => .obj [(c%"ImageAttr", ser a)]
    | .inactive => .str c%"Inactive"
    | .label a => .obj [(c%"Label", ser a)]
    | .maxMessageSize a => .obj [(c%"MaxMessageSize", ser a)]
    | .maxPtime a => .obj [(c%"MaxPtime", ser a)]
    | .mid a => .obj [(c%"Mid", ser a)]
    | .msid a => .obj [(c%"Msid", ser a)]
    | .msidSemantic a => .obj [(c%"MsidSemantic", ser a)]
    | .ptime a => .obj [(c%"Ptime", ser a)]
    | .rid a => .obj [(c%"Rid", ser a)]
    | .recvonly => .str c%"Recvonly"
    | .remoteCandidate a => .obj [(c%"RemoteCandidate", ser a)]
    | .rtpmap a => .obj [(c%"Rtpmap", ser a)]
    | .rtcp a => .obj [(c%"Rtcp", ser a)]
    | .rtcpfb a => .obj [(c%"Rtcpfb", ser a)]
    | .rtcpMux => .str c%"RtcpMux"
    | .rtcpMuxOnly => .str c%"RtcpMuxOnly"
    | .rtcpRsize => .str c%"RtcpRsize"
    | .sctpmap a => .obj [(c%"Sctpmap", ser a)]
    | .sctpPort a => .obj [(c%"SctpPort", ser a)]
    | .sendonly => .str c%"Sendonly"
    | .sendrecv => .str c%"Sendrecv"
    | .setup a => .obj [(c%"Setup", ser a)]
    | .simulcast a => .obj [(c%"Simulcast", ser a)]
    | .ssrc a => .obj [(c%"Ssrc", ser a)]
    | .ssrcGroup s l => .obj [(c%"SsrcGroup", .arr [ser s, ser l])]

/-- src/lib.rs:46-51 `derive(Serialize)` of `SdpBandwidth` -/
instance : Ser Bandwidth where
  ser
    | .as n => .obj [(c%"As", ser n)]
    | .ct n => .obj [(c%"Ct", ser n)]
    | .tias n => .obj [(c%"Tias", ser n)]
    | .unknown t n => .obj [(c%"Unknown", .arr [ser t, ser n])]

/-- src/lib.rs:73-77 `derive(Serialize)` of `SdpConnection` -/
instance : Ser Connection where
  ser x := .obj [
    (c%"address", ser x.address), (c%"ttl", ser x.ttl), (c%"amount", ser x.amount)]

/-- src/lib.rs:103-108 `derive(Serialize)` of `SdpOrigin` -/
instance : Ser Origin where
  ser x := .obj [
    (c%"username", ser x.username), (c%"session_id", ser x.sessionId),
    (c%"session_version", ser x.sessionVersion), (c%"unicast_addr", ser x.unicastAddr)]

/-- src/lib.rs:141-144 `derive(Serialize)` of `SdpTiming` -/
instance : Ser Timing where
  ser x := .obj [
    (c%"start", ser x.start), (c%"stop", ser x.stop)]

/-- src/media_type.rs:45-49 `derive(Serialize)` of `SdpMediaValue` -/
instance : Ser MediaValue where
  ser
    | .audio => .str c%"Audio"
    | .video => .str c%"Video"
    | .application => .str c%"Application"

/-- src/media_type.rs:64-76 `derive(Serialize)` of `SdpProtocolValue` -/
instance : Ser ProtocolValue where
  ser
    | .rtpAvp => .str c%"RtpAvp"
    | .rtpAvpf => .str c%"RtpAvpf"
    | .rtpSavp => .str c%"RtpSavp"
    | .rtpSavpf => .str c%"RtpSavpf"
    | .tcpDtlsRtpSavp => .str c%"TcpDtlsRtpSavp"
    | .tcpDtlsRtpSavpf => .str c%"TcpDtlsRtpSavpf"
    | .udpTlsRtpSavp => .str c%"UdpTlsRtpSavp"
    | .udpTlsRtpSavpf => .str c%"UdpTlsRtpSavpf"
    | .dtlsSctp => .str c%"DtlsSctp"
    | .udpDtlsSctp => .str c%"UdpDtlsSctp"
    | .tcpDtlsSctp => .str c%"TcpDtlsSctp"

/-- src/media_type.rs:100-103 `derive(Serialize)` of `SdpFormatList` -/
instance : Ser FormatList where
  ser
    | .integers l => .obj [(c%"Integers", ser l)]
    | .strings l => .obj [(c%"Strings", ser l)]

/-- src/media_type.rs:21-27 `derive(Serialize)` of `SdpMediaLine` -/
instance : Ser MediaLine where
  ser x := .obj [
    (c%"media", ser x.media), (c%"port", ser x.port), (c%"port_count", ser x.portCount),
    (c%"proto", ser x.proto), (c%"formats", ser x.formats)]

/-- src/lib.rs:154-165 `derive(Serialize)` of `SdpType` -/
instance : Ser SdpType where
  ser
    | .attr a => .obj [(c%"Attribute", ser a)]
    | .bandwidth b => .obj [(c%"Bandwidth", ser b)]
    | .connection c => .obj [(c%"Connection", ser c)]
    | .media m => .obj [(c%"Media", ser m)]
    | .origin o => .obj [(c%"Origin", ser o)]
    | .session s => .obj [(c%"Session", ser s)]
    | .timing t => .obj [(c%"Timing", ser t)]
    | .version v => .obj [(c%"Version", ser v)]

/-- src/lib.rs:169-173 `derive(Serialize)` of `SdpLine` -/
instance : Ser SdpLine where
  ser x := .obj [
    (c%"line_number", ser x.lineNumber), (c%"sdp_type", ser x.sdpType), (c%"text", ser x.text)]

/-- src/media_type.rs:127-135 `derive(Serialize)` of `SdpMedia` -/
instance : Ser Media where
  ser x := .obj [
    (c%"media", ser x.media), (c%"connection", ser x.connection), (c%"bandwidth", ser x.bandwidth),
    (c%"attribute", ser x.attrs)]

/-- What is handed to the serializer: the announced number of fields, and the fields. -/
structure SerStruct where
  name : Str
  len : Nat
  fields : List (Str × Json)

/-- src/error.rs:95-133 `Serialize for SdpParserError` -/
def ParserError.serStruct (e : ParserError) : SerStruct :=
  let len := match e with
    | .sequence .. => 3
    | _ => 4
  let fields := match e with
    | .line error text _ => [(c%"type", ser c%"Line"), (c%"message", ser (showInternalError error)), (c%"line", ser text)]
    | .unsupported error text _ =>
      [(c%"type", ser c%"Unsupported"), (c%"message", ser (showInternalError error)), (c%"line", ser text)]
    | .sequence message _ => [(c%"type", ser c%"Sequence"), (c%"message", ser message)]
  let number := match e with
    | .line _ _ n => n
    | .unsupported _ _ n => n
    | .sequence _ n => n
  ⟨c%"error", len, fields ++ [(c%"line_number", ser number)]⟩

/-- src/error.rs:95-133, as JSON -/
instance : Ser ParserError where ser e := .obj e.serStruct.fields

/-- src/lib.rs:195-212 `derive(Serialize)` of `SdpSession` -/
instance : Ser Session where
  ser x := .obj [
    (c%"version", ser x.version), (c%"origin", ser x.origin), (c%"session", ser x.session),
    (c%"connection", ser x.connection), (c%"bandwidth", ser x.bandwidth), (c%"timing", ser x.timing),
    (c%"attribute", ser x.attrs), (c%"media", ser x.media), (c%"warnings", ser x.warnings)]

/-- The errors a chain of causes consists of: this crate's, and those of std and url. -/
inductive AnyError where
  | parser (e : ParserError)
  | internal (e : InternalError)
  | int (e : IntErr)
  | float (e : FloatErr)
  | url (msg : Str)
  | addr

/-- src/error.rs:63-74 `source` of `SdpParserInternalError` -/
def InternalError.source : InternalError → Option AnyError
  | .integer e => some (.int e)
  | .float e => some (.float e)
  | .domain m => some (.url m)
  | .ipAddress => some .addr
  | _ => none

/-- src/error.rs:156-166 `source` of `SdpParserError` -/
def ParserError.source : ParserError → Option AnyError
  | .line e _ _ => some (.internal e)
  | .unsupported e _ _ => some (.internal e)
  | _ => none

/-- `Error::source`; the errors of std and url have none. -/
def AnyError.source : AnyError → Option AnyError
  | .parser e => e.source
  | .internal e => e.source
  | _ => none

/-- `Display` of an error. -/
def AnyError.show : AnyError → Str
  | .parser e => showParserError e
  | .internal e => showInternalError e
  | .int e => showIntErr e
  | .float e => showFloatErr e
  | .url m => m
  | .addr => c%"invalid IP address syntax"

end Sdp
