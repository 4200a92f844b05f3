import Verif.Spec.Fmtp
import Verif.Spec.Ranges
import Verif.Spec.Candidate
import Verif.Spec.Float
/-!
# Well-formed values

When the printed form of a value can be expected to denote that value: the strings in it are of the
shape their place in the line demands, and the numbers are in range. Nothing here refers to the
parser, except that a host name is one the host parser (outside the model) takes as it is.
-/

namespace Sdp

/-- A word: something, without white space. -/
def Token (s : Str) : Prop := s ≠ [] ∧ ∀ c ∈ s, isWs c = false

/-- Something that does not end with white space. -/
def EndsClean (s : Str) : Prop := ∃ r c, s = r ++ [c] ∧ isWs c = false

/-- Something that does not begin with white space. -/
def BeginsClean (s : Str) : Prop := ∃ c r, s = c :: r ∧ isWs c = false

/-- Something without white space around it. -/
def Trimmed (s : Str) : Prop := BeginsClean s ∧ EndsClean s

/-- A host name in the form the host parser itself would give it. -/
def HostName [Env] (d : Str) : Prop :=
  Token d ∧ ':' ∉ d ∧ '/' ∉ d ∧ parseV4Strict d = none ∧ Env.hostNA d = .domain d

def Address.WF [Env] : Address → Prop
  | .fqdn d => HostName d
  | .ip _ => True

def TypedAddress.WF [Env] : TypedAddress → Prop
  | .fqdn _ d => HostName d
  | .ip _ => True

/-- A float that can be read back: NaN has many bit patterns, of which one is read from text. -/
def FloatWF32 (x : F32) : Prop := x.isNan = true → x = ⟨0x7fc00000⟩

/-- A float that may stand in a range, which is written with a dash: the sign bit is not set. -/
def RangeFloatWF (x : F32) : Prop := FloatWF32 x ∧ x.bits.toNat < 2 ^ 31

structure Candidate.WF [Env] (c : Candidate) : Prop where
  foundation : Token c.foundation
  address : c.address.WF
  port : c.port.toNat ≤ 65535
  raddr : ∀ a, c.raddr = some a → a.WF
  rport : ∀ p, c.rport = some p → p.toNat ≤ 65535
  ufrag : ∀ u, c.ufrag = some u → Token u
  exts : ∀ p ∈ c.unknownExtensions, Token p.1 ∧ Token p.2 ∧ lower p.1 ∉ candExtNames

/-- The text after the role. -/
def DtlsMessage.WF : DtlsMessage → Prop
  | .client m | .server m => ' ' ∉ m ∧ EndsClean m

structure Extmap.WF (e : Extmap) : Prop where
  url : Token e.url
  ext : ∀ x, e.extensionAttributes = some x →
    ∃ ts, ts ≠ [] ∧ (∀ t ∈ ts, Token t ∧ '\x00' ∉ t) ∧ x = joinS c%" " ts

/-- An fmtp parameter the parser does not know, as it stands in the line. -/
structure UnknownParam [Env] (t : Str) : Prop where
  eq : '=' ∈ t
  noSemicolon : ';' ∉ t
  name : paramName t ∉ fmtpNames
  clean : EndsClean t

/-- All the single parameters are at their defaults. -/
def AllDefault (p : FmtpParams) : Prop :=
  ∀ f : FmtpField, f ≠ .apt → f.get p = f.absent

/-- The four forms of fmtp parameters. -/
inductive FmtpParams.WF [Env] (p : FmtpParams) : Prop where
  /-- retransmission parameters and nothing else -/
  | rtx (r : RtxParams) (h : p.rtx = some r) (rest : AllDefault p) (unknown : p.unknownTokens = [])
      (enc : p.encodings = []) (tones : p.dtmfTones = [])
  /-- a telephone event list and nothing else -/
  | tones (h : ToneList p.dtmfTones) (rest : AllDefault p) (unknown : p.unknownTokens = [])
      (enc : p.encodings = []) (rtx : p.rtx = none)
  /-- a list of at least two redundancy payload types and nothing else -/
  | red (h : 2 ≤ p.encodings.length) (le : ∀ x ∈ p.encodings, x.toNat ≤ 128) (rest : AllDefault p)
      (unknown : p.unknownTokens = []) (tones : p.dtmfTones = []) (rtx : p.rtx = none)
  /-- at least one parameter that is not at its default, and at most one unknown parameter -/
  | params (range : FmtpInRange p) (rtx : p.rtx = none) (enc : p.encodings = []) (tones : p.dtmfTones = [])
      (one : p.unknownTokens.length ≤ 1) (unknown : ∀ t ∈ p.unknownTokens, UnknownParam t)
      (some : AllDefault p → p.unknownTokens ≠ [])

structure Fmtp.WF [Env] (f : Fmtp) : Prop where
  parameters : f.parameters.WF

/-- At least one value. -/
def XyRange.WF : XyRange → Prop
  | .range _ _ _ => True
  | .discrete vs => vs ≠ []

/-- The list is ascending from `x` on. -/
def AscendingFrom (x : F32) : List F32 → Prop
  | [] => True
  | y :: ys => ¬ x.AtLeast y ∧ AscendingFrom y ys

def SRange.WF : SRange → Prop
  | .range a b => RangeFloatWF a ∧ RangeFloatWF b ∧ ¬ a.AtLeast b
  | .discrete vs =>
    (∃ x, vs = [x] ∧ FloatWF32 x) ∨
      (2 ≤ vs.length ∧ (∀ x ∈ vs, RangeFloatWF x) ∧ AscendingFrom ⟨0⟩ vs)

structure ImageAttrSet.WF (s : ImageAttrSet) : Prop where
  x : s.x.WF
  y : s.y.WF
  sar : ∀ r, s.sar = some r → r.WF
  par : ∀ r, s.par = some r → RangeFloatWF r.min ∧ RangeFloatWF r.max ∧ ¬ r.min.AtLeast r.max
  q : ∀ v, s.q = some v → FloatWF32 v

/-- The number of sets; a wildcard stands for one. -/
def ImageAttrSetList.count : ImageAttrSetList → Nat
  | .sets l => l.length
  | .wildcard => 1

def ImageAttrSetList.WF : ImageAttrSetList → Prop
  | .sets l => ∀ s ∈ l, s.WF
  | .wildcard => True

structure ImageAttr.WF [Env] (i : ImageAttr) : Prop where
  send : i.send.WF
  recv : i.recv.WF
  some : i.send.count + i.recv.count ≠ 0

/-- The text of a simulcast id. -/
structure SimulcastId.WF (i : SimulcastId) : Prop where
  chars : ∀ c ∈ i.id, isWs c = false ∧ c ≠ ',' ∧ c ≠ ';' ∧ c ≠ '='
  tilde : i.paused = false → i.id.head? ≠ some '~'

/-- Alternatives: at least one, and not just a single empty one. -/
structure SimulcastVersion.WF (v : SimulcastVersion) : Prop where
  ids : ∀ i ∈ v.ids, i.WF
  some : v.ids ≠ []
  text : v.ids ≠ [⟨[], false⟩]

structure Simulcast.WF (s : Simulcast) : Prop where
  send : ∀ v ∈ s.send, v.WF
  receive : ∀ v ∈ s.receive, v.WF
  some : s.send ≠ [] ∨ s.receive ≠ []

structure RtcpFb.WF (r : RtcpFb) : Prop where
  parameter : match r.feedbackType with
    | .ack => r.parameter ∈ [c%"rpsi", c%"app"]
    | .ccm => r.parameter ∈ [[], c%"fir", c%"tmmbr", c%"tstr", c%"vbcm"]
    | .nack => r.parameter ∈ [[], c%"sli", c%"pli", c%"rpsi", c%"app"]
    | .trrInt => ∃ n < 2 ^ 32, DecText r.parameter n
    | .remb | .transCc => r.parameter = []
  extra : r.extra ≠ [] → r.parameter ≠ [] ∧ EndsClean r.extra

/-- The names of rid parameters. -/
def ridNames : List Str :=
  [c%"max-width", c%"max-height", c%"max-fps", c%"max-fs", c%"max-br", c%"max-pps", c%"depends"]

/-- No payload type and no parameter that is known stands before the unknown ones. -/
def Rid.Bare (r : Rid) : Prop :=
  r.formats = [] ∧ r.params.maxWidth = 0 ∧ r.params.maxHeight = 0 ∧ r.params.maxFps = 0 ∧ r.params.maxFs = 0 ∧
    r.params.maxBr = 0 ∧ r.params.maxPps = 0

/-- The parameter in first place is not taken for the payload types, that in last place does not end with
white space. -/
structure Rid.WF (r : Rid) : Prop where
  id : BeginsClean r.id ∧ ' ' ∉ r.id
  unknown : ∀ u ∈ r.params.unknown, '=' ∈ u ∧ ';' ∉ u ∧ u.takeWhile (fun c => decide (c ≠ '=')) ∉ ridNames
  depends : r.depends = [[]] ∨ ∀ d ∈ r.depends, d ≠ [] ∧ ',' ∉ d ∧ ';' ∉ d
  first : r.Bare → ∀ u, r.params.unknown.head? = some u → u.takeWhile (fun c => decide (c ≠ '=')) ≠ c%"pt"
  lastUnknown : r.depends = [] → ∀ u, r.params.unknown.getLast? = some u → EndsClean u
  lastDepends : ∀ d, r.depends.getLast? = some d → d = [] ∨ EndsClean d

structure Ssrc.WF (s : Ssrc) : Prop where
  attr : ∀ a, s.attr = some a → ':' ∉ a ∧ (s.value = none → EndsClean a)
  value : ∀ v, s.value = some v → s.attr ≠ none ∧ (v = [] ∨ EndsClean v)

structure Rtpmap.WF (r : Rtpmap) : Prop where
  payloadType : r.payloadType.toNat ≤ 127
  codecName : '/' ∉ r.codecName ∧ ∀ c ∈ r.codecName, isWs c = false

/-- Well-formed attributes. -/
def Attribute.WF [Env] : Attribute → Prop
  | .bundleOnly | .endOfCandidates | .extmapAllowMixed | .iceLite | .iceMismatch | .inactive | .recvonly
  | .rtcpMux | .rtcpMuxOnly | .rtcpRsize | .sendonly | .sendrecv => True
  | .setup _ | .sctpmap _ | .maxMessageSize _ | .maxPtime _ | .ptime _ => True
  | .candidate c => c.WF
  | .dtlsMessage m => m.WF
  | .extmap e => e.WF
  | .fingerprint f => f.fingerprint.length = fingerprintBytes f.hashAlgorithm
  | .fmtp f => f.WF
  | .frameRate x => x.bits.toNat % 2 ^ 63 ≠ 0 ∧ x.bits.toNat % 2 ^ 63 < 0x7ff0000000000000
  | .group g => ∀ t ∈ g.tags, Token t
  | .iceOptions l => l ≠ [] ∧ ∀ t ∈ l, Token t
  | .icePacing n => n.toNat < 10 ^ 10
  | .icePwd s | .iceUfrag s | .identity s | .label s | .mid s => Trimmed s
  | .imageAttr i => i.WF
  | .msid m => Token m.id ∧ ∀ a, m.appdata = some a → Token a
  | .msidSemantic m => Token m.semantic ∧ m.msids ≠ [] ∧ ∀ t ∈ m.msids, Token t
  | .rid r => r.WF
  | .remoteCandidate c => c.address.WF ∧ c.port.toNat ≤ 65535
  | .rtpmap r => r.WF
  | .rtcp r => ∀ a, r.unicastAddr = some a → a.WF
  | .rtcpfb r => r.WF
  | .sctpPort p => p.toNat ≤ 65535
  | .simulcast s => s.WF
  | .ssrc s => s.WF
  | .ssrcGroup _ l => l ≠ [] ∧ ∀ s ∈ l, s.attr = none ∧ s.value = none

end Sdp
