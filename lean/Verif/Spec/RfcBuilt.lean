import Verif.Spec.RfcDocument
import Verif.Spec.Build
import Verif.Spec.Ranges
/-!
# Arguments that fit RFC 8866

When the arguments of the calls a session is built with fit the rules of the RFCs, each taken for itself; and the description
(Verif/Spec/RfcDocument.lean) a session stands for.
-/

namespace Sdp

open Abnf

section
variable [Env]

/-- Any IP address, or a host name. -/
def TypedAddress.Fits : TypedAddress → Prop
  | .ip _ => True
  | .fqdn _ d => Rfc.hostName d

/-- For IPv4 the number of addresses only comes with a ttl, for IPv6 there is none (the ttl stands for it), and for host names
there is neither. -/
def Connection.Fits (c : Connection) : Prop :=
  match c.address with
  | .ip (.v4 _) => c.ttl = none → c.amount = none
  | .ip (.v6 _) => c.amount = none
  | .fqdn _ d => c.ttl = none ∧ c.amount = none ∧ Rfc.hostName d

/-- The name of a bandwidth type the library does not know is a token. -/
def Bandwidth.Fits (b : Bandwidth) : Prop := ∀ t n, b = .unknown t n → Rfc.token t

/-- The attribute is written as one that follows the rule for its name. -/
def Attribute.Fits (a : Attribute) : Prop := Rfc.knownAttribute (showAttribute a)

/-- The user name is a non-ws-string. -/
def Origin.Fits (o : Origin) : Prop := Rfc.nonWsString o.username ∧ o.unicastAddr.Fits

/-- The port is one, and so are the formats that are there: payload types for audio and video, tokens for application (which numbers
are). -/
def MediaLine.Fits (m : MediaLine) : Prop :=
  m.port.toNat ≤ 65535 ∧
  match m.media, m.formats with
  | .application, .strings l => ∀ t ∈ l, Rfc.token t
  | .application, .integers _ => True
  | _, .integers l => ∀ n ∈ l, FormatNumber n.toNat
  | _, .strings _ => False

/-- Every part of a section fits. -/
structure Media.Fits (m : Media) : Prop where
  line : m.media.Fits
  bandwidth : ∀ b ∈ m.bandwidth, b.Fits
  connection : ∀ c ∈ m.connection, c.Fits
  attrs : ∀ a ∈ m.attrs, a.Fits

/-- Every part of a session fits. -/
structure Session.Fits (s : Session) : Prop where
  version : s.version = 0
  origin : s.origin.Fits
  name : ∀ t ∈ s.session, Rfc.byteString t
  bandwidth : ∀ b ∈ s.bandwidth, b.Fits
  connection : ∀ c ∈ s.connection, c.Fits
  attrs : ∀ a ∈ s.attrs, a.Fits
  media : ∀ m ∈ s.media, m.Fits

/-- The arguments of a call on a media section fit. -/
def MediaOp.Fits : MediaOp → Prop
  | .setPort p => p.toNat ≤ 65535
  | .addBandwidth b => b.Fits
  | .setConnection c => c.Fits
  | .addAttribute a | .setAttribute a => a.Fits
  | .addCodec r => Rfc.token r.codecName ∧ FormatNumber r.payloadType.toNat
  | .addDatachannel name _ _ _ => Rfc.token name
  | .removeAttribute _ | .removeCodecs => True

/-- The content of a line fits, as far as it goes into a session. -/
def SdpType.Fits : SdpType → Prop
  | .attr a => a.Fits
  | .bandwidth b => b.Fits
  | .connection c => c.Fits
  | _ => True

/-- The arguments of a call on a session fit. -/
def SessionOp.Fits : SessionOp → Prop
  | .setConnection c => c.Fits
  | .addBandwidth b => b.Fits
  | .setTiming _ => True
  | .addAttribute a => a.Fits
  | .extendMedia l => ∀ m ∈ l, m.Fits
  | .addMedia _ dir port _ addr => dir.Fits ∧ port.toNat ≤ 65535 ∧ addr.Fits
  | .parseSessionVector ls => ∀ l ∈ ls, l.sdpType.Fits

def BuildOp.Fits : BuildOp → Prop
  | .session op => op.Fits
  | .inSection _ op => op.Fits

end

/-- Attributes of which it can be seen from their values that they fit (others fit, too, such as those that are read from texts that
follow the rules). -/
def Attribute.Within : Attribute → Prop
  | .bundleOnly | .endOfCandidates | .extmapAllowMixed | .iceLite | .iceMismatch | .inactive | .recvonly | .rtcpMux | .rtcpMuxOnly
  | .rtcpRsize | .sendonly | .sendrecv => True
  | .sctpmap _ | .maxMessageSize _ | .ptime _ | .maxPtime _ | .setup _ => True
  | .rtpmap r => r.payloadType.toNat ≤ 127 ∧ Rfc.token r.codecName
  | .sctpPort n => n.toNat ≤ 65535
  | .icePacing n => n.toNat < 10 ^ 10
  | .mid t | .label t => Rfc.token t
  | .iceUfrag t => Rfc.iceUfrag t
  | .icePwd t => Rfc.icePwd t
  | .group g => ∀ t ∈ g.tags, Rfc.token t
  | .fingerprint f => f.fingerprint.length = fingerprintBytes f.hashAlgorithm
  | _ => False

/-- There are formats in the m= line. -/
def MediaLine.HasFormats (m : MediaLine) : Prop := m.formats ≠ .integers [] ∧ m.formats ≠ .strings []

/-- The section, field by field. -/
def Media.described (m : Media) : Rfc.Section where
  media := showMediaLine m.media
  connection := m.connection.map showConnection
  bandwidths := m.bandwidth.map showBandwidth
  attributes := m.attrs.map showAttribute

/-- The session, field by field. -/
def Session.described (s : Session) : Rfc.Description where
  version := showU64 s.version
  origin := showOrigin s.origin
  name := s.session.getD c%" "
  connection := s.connection.map showConnection
  bandwidths := s.bandwidth.map showBandwidth
  times := s.timing.toList.map showTiming
  attributes := s.attrs.map showAttribute
  sections := s.media.map Media.described

end Sdp
