import Verif.Model.Env
/-!
# Data types of the public API

Field for field the Rust structs and enums. `u8/u16/u32/u64` are Lean's fixed-width integers,
`f32/f64` their bit patterns, `usize` (line numbers) is `Nat`.
-/

namespace Sdp

/-- src/address.rs:70-73 `AddressType` -/
inductive AddressType where
  | ipV4
  | ipV6
  deriving DecidableEq, Repr

/-- src/address.rs:15-18 `Address`. Lean equality on it is structural; the Rust `PartialEq`
(src/address.rs:58-66) is `Address.eqv`. -/
inductive Address where
  | fqdn (d : Str)
  | ip (a : IpAddr)
  deriving DecidableEq, Repr

/-- src/address.rs:111-117 `ExplicitlyTypedAddress` -/
inductive TypedAddress where
  | fqdn (t : AddressType) (d : Str)
  | ip (a : IpAddr)
  deriving DecidableEq, Repr

/-- src/error.rs:16-28 `SdpParserInternalError`. `url::ParseError` is kept as its text,
`AddrParseError` has a single possible value here. -/
inductive InternalError where
  | unknownAddressType (s : Str)
  | addressTypeMismatch (found expected : AddressType)
  | generic (msg : Str)
  | unsupported (msg : Str)
  | integer (e : IntErr)
  | float (e : FloatErr)
  | domain (msg : Str)
  | ipAddress
  deriving DecidableEq, Repr

/-- src/error.rs:77-92 `SdpParserError` -/
inductive ParserError where
  | line (error : InternalError) (text : Str) (lineNumber : Nat)
  | unsupported (error : InternalError) (text : Str) (lineNumber : Nat)
  | sequence (message : Str) (lineNumber : Nat)
  deriving DecidableEq, Repr

/-- Result of the crate's inner functions. -/
abbrev IRes := Outcome InternalError

/-- src/attribute_type.rs:93-97 -/
inductive SingleDirection where
  | send
  | recv
  deriving DecidableEq, Repr

/-- src/attribute_type.rs:111-114 -/
inductive PayloadType where
  | pt (n : UInt8)
  | wildcard
  deriving DecidableEq, Repr

/-- src/attribute_type.rs:127-130 -/
inductive CandTransport where
  | udp
  | tcp
  deriving DecidableEq, Repr

/-- src/attribute_type.rs:144-149 -/
inductive CandType where
  | host
  | srflx
  | prflx
  | relay
  deriving DecidableEq, Repr

/-- src/attribute_type.rs:165-169 -/
inductive CandTcpType where
  | active
  | passive
  | simultaneous
  deriving DecidableEq, Repr

/-- src/attribute_type.rs:185-200 -/
structure Candidate where
  foundation : Str
  component : UInt32
  transport : CandTransport
  priority : UInt64
  address : Address
  port : UInt32
  cType : CandType
  raddr : Option Address
  rport : Option UInt32
  tcpType : Option CandTcpType
  generation : Option UInt32
  ufrag : Option Str
  networkcost : Option UInt32
  unknownExtensions : List (Str × Str)
  deriving DecidableEq, Repr

/-- src/attribute_type.rs:308-311 -/
inductive DtlsMessage where
  | client (m : Str)
  | server (m : Str)
  deriving DecidableEq, Repr

/-- src/attribute_type.rs:326-330 -/
structure RemoteCandidate where
  component : UInt32
  address : Address
  port : UInt32
  deriving DecidableEq, Repr

/-- src/attribute_type.rs:357-360 -/
structure SimulcastId where
  id : Str
  paused : Bool
  deriving DecidableEq, Repr

/-- src/attribute_type.rs:391-393 -/
structure SimulcastVersion where
  ids : List SimulcastId
  deriving DecidableEq, Repr

/-- src/attribute_type.rs:420-423 -/
structure Simulcast where
  send : List SimulcastVersion
  receive : List SimulcastVersion
  deriving DecidableEq, Repr

/-- src/attribute_type.rs:439-442 -/
structure Rtcp where
  port : UInt16
  unicastAddr : Option TypedAddress
  deriving DecidableEq, Repr

/-- src/attribute_type.rs:469-478 -/
inductive RtcpFbType where
  | ack
  | ccm
  | nack
  | trrInt
  | remb
  | transCc
  deriving DecidableEq, Repr

/-- src/attribute_type.rs:497-502 -/
structure RtcpFb where
  payloadType : PayloadType
  feedbackType : RtcpFbType
  parameter : Str
  extra : Str
  deriving DecidableEq, Repr

/-- src/attribute_type.rs:522-526 -/
inductive Direction where
  | recvonly
  | sendonly
  | sendrecv
  deriving DecidableEq, Repr

/-- src/attribute_type.rs:542-547 -/
structure Extmap where
  id : UInt16
  direction : Option Direction
  url : Str
  extensionAttributes : Option Str
  deriving DecidableEq, Repr

/-- src/attribute_type.rs:565-568 -/
structure RtxParams where
  apt : UInt8
  rtxTime : Option UInt32
  deriving DecidableEq, Repr

/-- src/attribute_type.rs:583-640 -/
structure FmtpParams where
  packetizationMode : UInt32
  levelAsymmetryAllowed : Bool
  profileLevelId : UInt32
  maxFs : UInt32
  maxCpb : UInt32
  maxDpb : UInt32
  maxBr : UInt32
  maxMbps : UInt32
  maxFr : UInt32
  profile : Option UInt8
  levelIdx : Option UInt8
  tier : Option UInt8
  maxplaybackrate : UInt32
  maxaveragebitrate : UInt32
  usedtx : Bool
  stereo : Bool
  useinbandfec : Bool
  cbr : Bool
  ptime : UInt32
  minptime : UInt32
  maxptime : UInt32
  encodings : List UInt8
  dtmfTones : Str
  rtx : Option RtxParams
  unknownTokens : List Str
  deriving DecidableEq, Repr

/-- src/attribute_type.rs:713-716 -/
structure Fmtp where
  payloadType : UInt8
  parameters : FmtpParams
  deriving DecidableEq, Repr

/-- src/attribute_type.rs:736-742 -/
inductive HashType where
  | sha1
  | sha224
  | sha256
  | sha384
  | sha512
  deriving DecidableEq, Repr

/-- src/attribute_type.rs:808-811 -/
structure Fingerprint where
  hashAlgorithm : HashType
  fingerprint : List UInt8
  deriving DecidableEq, Repr

/-- src/attribute_type.rs:875-878 -/
inductive XyRange where
  | range (min max : UInt32) (step : Option UInt32)
  | discrete (vs : List UInt32)
  deriving DecidableEq, Repr

/-- src/attribute_type.rs:899-902 -/
inductive SRange where
  | range (min max : F32)
  | discrete (vs : List F32)
  deriving DecidableEq, Repr

/-- src/attribute_type.rs:917-920 -/
structure PRange where
  min : F32
  max : F32
  deriving DecidableEq, Repr

/-- src/attribute_type.rs:930-936 -/
structure ImageAttrSet where
  x : XyRange
  y : XyRange
  sar : Option SRange
  par : Option PRange
  q : Option F32
  deriving DecidableEq, Repr

/-- src/attribute_type.rs:950-953 -/
inductive ImageAttrSetList where
  | sets (l : List ImageAttrSet)
  | wildcard
  deriving DecidableEq, Repr

/-- src/attribute_type.rs:972-976 -/
structure ImageAttr where
  pt : PayloadType
  send : ImageAttrSetList
  recv : ImageAttrSetList
  deriving DecidableEq, Repr

/-- src/attribute_type.rs:996-999 -/
structure Sctpmap where
  port : UInt16
  channels : UInt32
  deriving DecidableEq, Repr

/-- src/attribute_type.rs:1015-1023 -/
inductive GroupSemantic where
  | lipSynchronization
  | flowIdentification
  | singleReservationFlow
  | alternateNetworkAddressType
  | forwardErrorCorrection
  | decodingDependency
  | bundle
  deriving DecidableEq, Repr

/-- src/attribute_type.rs:1043-1046 -/
structure Group where
  semantics : GroupSemantic
  tags : List Str
  deriving DecidableEq, Repr

/-- src/attribute_type.rs:1062-1065 -/
structure Msid where
  id : Str
  appdata : Option Str
  deriving DecidableEq, Repr

/-- src/attribute_type.rs:1076-1079 -/
structure MsidSemantic where
  semantic : Str
  msids : List Str
  deriving DecidableEq, Repr

/-- src/attribute_type.rs:1094-1103 -/
structure RidParams where
  maxWidth : UInt32
  maxHeight : UInt32
  maxFps : UInt32
  maxFs : UInt32
  maxBr : UInt32
  maxPps : UInt32
  unknown : List Str
  deriving DecidableEq, Repr

/-- src/attribute_type.rs:1124-1130 -/
structure Rid where
  id : Str
  direction : SingleDirection
  formats : List UInt16
  params : RidParams
  depends : List Str
  deriving DecidableEq, Repr

/-- src/attribute_type.rs:1157-1162 -/
structure Rtpmap where
  payloadType : UInt8
  codecName : Str
  frequency : UInt32
  channels : Option UInt32
  deriving DecidableEq, Repr

/-- src/attribute_type.rs:1195-1200 -/
inductive Setup where
  | active
  | actpass
  | holdconn
  | passive
  deriving DecidableEq, Repr

/-- src/attribute_type.rs:1217-1221 -/
structure Ssrc where
  id : UInt32
  attr : Option Str
  value : Option Str
  deriving DecidableEq, Repr

/-- src/attribute_type.rs:1270-1276 -/
inductive SsrcGroupSemantic where
  | duplication
  | flowIdentification
  | forwardErrorCorrection
  | forwardErrorCorrectionFr
  | sim
  deriving DecidableEq, Repr

/-- src/attribute_type.rs:1294-1338 `SdpAttribute` -/
inductive Attribute where
  | bundleOnly
  | candidate (a : Candidate)
  | dtlsMessage (a : DtlsMessage)
  | endOfCandidates
  | extmap (a : Extmap)
  | extmapAllowMixed
  | fingerprint (a : Fingerprint)
  | fmtp (a : Fmtp)
  | frameRate (a : F64)
  | group (a : Group)
  | iceLite
  | iceMismatch
  | iceOptions (a : List Str)
  | icePacing (a : UInt64)
  | icePwd (a : Str)
  | iceUfrag (a : Str)
  | identity (a : Str)
  | imageAttr (a : ImageAttr)
  | inactive
  | label (a : Str)
  | maxMessageSize (a : UInt64)
  | maxPtime (a : UInt64)
  | mid (a : Str)
  | msid (a : Msid)
  | msidSemantic (a : MsidSemantic)
  | ptime (a : UInt64)
  | rid (a : Rid)
  | recvonly
  | remoteCandidate (a : RemoteCandidate)
  | rtpmap (a : Rtpmap)
  | rtcp (a : Rtcp)
  | rtcpfb (a : RtcpFb)
  | rtcpMux
  | rtcpMuxOnly
  | rtcpRsize
  | sctpmap (a : Sctpmap)
  | sctpPort (a : UInt64)
  | sendonly
  | sendrecv
  | setup (a : Setup)
  | simulcast (a : Simulcast)
  | ssrc (a : Ssrc)
  | ssrcGroup (s : SsrcGroupSemantic) (l : List Ssrc)
  deriving DecidableEq, Repr

/-- src/attribute_type.rs:1591-1635 `SdpAttributeType` -/
inductive AttributeType where
  | bundleOnly
  | candidate
  | dtlsMessage
  | endOfCandidates
  | extmap
  | extmapAllowMixed
  | fingerprint
  | fmtp
  | frameRate
  | group
  | iceLite
  | iceMismatch
  | iceOptions
  | icePacing
  | icePwd
  | iceUfrag
  | identity
  | imageAttr
  | inactive
  | label
  | maxMessageSize
  | maxPtime
  | mid
  | msid
  | msidSemantic
  | ptime
  | rid
  | recvonly
  | remoteCandidate
  | rtpmap
  | rtcp
  | rtcpfb
  | rtcpMux
  | rtcpMuxOnly
  | rtcpRsize
  | sctpmap
  | sctpPort
  | sendonly
  | sendrecv
  | setup
  | simulcast
  | ssrc
  | ssrcGroup
  deriving DecidableEq, Repr

/-- src/media_type.rs:45-49 -/
inductive MediaValue where
  | audio
  | video
  | application
  deriving DecidableEq, Repr

/-- src/media_type.rs:64-76 -/
inductive ProtocolValue where
  | rtpAvp
  | rtpAvpf
  | rtpSavp
  | rtpSavpf
  | tcpDtlsRtpSavp
  | tcpDtlsRtpSavpf
  | udpTlsRtpSavp
  | udpTlsRtpSavpf
  | dtlsSctp
  | udpDtlsSctp
  | tcpDtlsSctp
  deriving DecidableEq, Repr

/-- src/media_type.rs:100-103 -/
inductive FormatList where
  | integers (l : List UInt32)
  | strings (l : List Str)
  deriving DecidableEq, Repr

/-- src/media_type.rs:21-27 -/
structure MediaLine where
  media : MediaValue
  port : UInt32
  portCount : UInt32
  proto : ProtocolValue
  formats : FormatList
  deriving DecidableEq, Repr

/-- src/lib.rs:46-51 -/
inductive Bandwidth where
  | as (n : UInt32)
  | ct (n : UInt32)
  | tias (n : UInt32)
  | unknown (t : Str) (n : UInt32)
  deriving DecidableEq, Repr

/-- src/lib.rs:73-77 -/
structure Connection where
  address : TypedAddress
  ttl : Option UInt8
  amount : Option UInt32
  deriving DecidableEq, Repr

/-- src/lib.rs:103-108 -/
structure Origin where
  username : Str
  sessionId : UInt64
  sessionVersion : UInt64
  unicastAddr : TypedAddress
  deriving DecidableEq, Repr

/-- src/lib.rs:141-144 -/
structure Timing where
  start : UInt64
  stop : UInt64
  deriving DecidableEq, Repr

/-- src/lib.rs:154-165 `SdpType` -/
inductive SdpType where
  | attr (a : Attribute)
  | bandwidth (b : Bandwidth)
  | connection (c : Connection)
  | media (m : MediaLine)
  | origin (o : Origin)
  | session (s : Str)
  | timing (t : Timing)
  | version (v : UInt64)
  deriving DecidableEq, Repr

/-- src/lib.rs:169-173 `SdpLine` -/
structure SdpLine where
  lineNumber : Nat
  sdpType : SdpType
  text : Str
  deriving DecidableEq, Repr

/-- src/media_type.rs:127-135 `SdpMedia` -/
structure Media where
  media : MediaLine
  connection : Option Connection
  bandwidth : List Bandwidth
  attrs : List Attribute
  deriving DecidableEq, Repr

/-- src/lib.rs:195-212 `SdpSession` -/
structure Session where
  version : UInt64
  origin : Origin
  session : Option Str
  connection : Option Connection
  bandwidth : List Bandwidth
  timing : Option Timing
  attrs : List Attribute
  media : List Media
  warnings : List ParserError
  deriving DecidableEq, Repr

end Sdp
