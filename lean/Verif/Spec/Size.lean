import Verif.Model.Media
import Verif.Model.Env
/-!
# How big a session is

The characters of all texts, plus one for each text and for each entry of a list. Numbers, keywords,
IP addresses and floats have a fixed size and are only counted when they are entries of a list. What
a host name counts is a parameter, because its text is made by the host parser: an international
name is longer than what was written.
-/

namespace Sdp

/-- What a list of texts counts. -/
def textsSize (l : List Str) : Nat := (l.map fun t => t.length + 1).sum

section
variable (w : Str → Nat)

/-- An address: a host name counts what `w` says. -/
def Address.size : Address → Nat
  | .fqdn d => w d
  | .ip _ => 0

def TypedAddress.size : TypedAddress → Nat
  | .fqdn _ d => w d
  | .ip _ => 0

def Candidate.size (c : Candidate) : Nat :=
  c.foundation.length + 1 + c.address.size w + (c.raddr.toList.map (Address.size w)).sum +
    textsSize c.ufrag.toList + textsSize (c.unknownExtensions.flatMap fun p => [p.1, p.2])

def XyRange.size : XyRange → Nat
  | .range _ _ _ => 0
  | .discrete vs => vs.length

def SRange.size : SRange → Nat
  | .range _ _ => 0
  | .discrete vs => vs.length

def ImageAttrSet.size (s : ImageAttrSet) : Nat :=
  1 + s.x.size + s.y.size + (s.sar.toList.map SRange.size).sum

def ImageAttrSetList.size : ImageAttrSetList → Nat
  | .wildcard => 0
  | .sets l => (l.map ImageAttrSet.size).sum

def Ssrc.size (s : Ssrc) : Nat := textsSize (s.attr.toList ++ s.value.toList)

def SimulcastVersion.size (v : SimulcastVersion) : Nat := textsSize (v.ids.map fun i => i.id)

def Attribute.size : Attribute → Nat
  | .candidate c => c.size w
  | .dtlsMessage (.client m) | .dtlsMessage (.server m) => textsSize [m]
  | .extmap e => textsSize (e.url :: e.extensionAttributes.toList)
  | .fingerprint f => f.fingerprint.length
  | .fmtp f => textsSize (f.parameters.dtmfTones :: f.parameters.unknownTokens) + f.parameters.encodings.length
  | .group g => textsSize g.tags
  | .iceOptions l => textsSize l
  | .icePwd s | .iceUfrag s | .identity s | .label s | .mid s => textsSize [s]
  | .imageAttr i => i.send.size + i.recv.size
  | .msid m => textsSize (m.id :: m.appdata.toList)
  | .msidSemantic m => textsSize (m.semantic :: m.msids)
  | .rid r => textsSize (r.id :: (r.params.unknown ++ r.depends)) + r.formats.length
  | .remoteCandidate c => c.address.size w
  | .rtpmap r => textsSize [r.codecName]
  | .rtcp r => (r.unicastAddr.toList.map (TypedAddress.size w)).sum
  | .rtcpfb r => textsSize [r.parameter, r.extra]
  | .simulcast s => ((s.send ++ s.receive).map SimulcastVersion.size).sum
  | .ssrc s => s.size
  | .ssrcGroup _ l => (l.map fun s => s.size + 1).sum
  | .bundleOnly | .endOfCandidates | .extmapAllowMixed | .frameRate _ | .iceLite | .iceMismatch
  | .icePacing _ | .inactive | .maxMessageSize _ | .maxPtime _ | .ptime _ | .recvonly | .rtcpMux
  | .rtcpMuxOnly | .rtcpRsize | .sctpmap _ | .sctpPort _ | .sendonly | .sendrecv | .setup _ => 0

def Bandwidth.size : Bandwidth → Nat
  | .unknown t _ => textsSize [t]
  | .as _ | .ct _ | .tias _ => 0

def FormatList.size : FormatList → Nat
  | .integers l => l.length
  | .strings l => textsSize l

def Media.size (m : Media) : Nat :=
  m.media.formats.size + (m.connection.toList.map fun c => c.address.size w).sum +
    (m.bandwidth.map fun b => b.size + 1).sum + (m.attrs.map fun a => a.size w + 1).sum

/-- A warning counts the line it quotes (not its message). -/
def ParserError.size : ParserError → Nat
  | .line _ l _ | .unsupported _ l _ => textsSize [l]
  | .sequence _ _ => 0

def Session.size (s : Session) : Nat :=
  s.origin.username.length + 1 + s.origin.unicastAddr.size w + textsSize s.session.toList +
    (s.connection.toList.map fun c => c.address.size w).sum + (s.bandwidth.map fun b => b.size + 1).sum +
    (s.attrs.map fun a => a.size w + 1).sum + (s.media.map fun m => m.size w + 1).sum +
    (s.warnings.map ParserError.size).sum

end

/-- `w` counts for a host name at most the characters it was made from. -/
def HostCost [Env] (w : Str → Nat) : Prop := ∀ h d, Env.hostNA h = .domain d → w d ≤ h.length

/-- The host parser makes a name at most 500 times as long as what it was given. -/
def HostGrowth [Env] : Prop := ∀ h d, Env.hostNA h = .domain d → d.length ≤ 500 * h.length

end Sdp
