import Verif.Spec.Plain
/-!
# The values that can be read

Conditions on the fields of a value alone, under which some text denotes it. They are weaker than being
well-formed, which is needed for the printed text to denote the value; only five attributes differ.
-/

namespace Sdp

/-- At least one alternative, and an id has no white space, no comma and no semicolon; it is not taken for paused. -/
structure SimulcastId.Readable (i : SimulcastId) : Prop where
  chars : ∀ c ∈ i.id, isWs c = false ∧ c ≠ ',' ∧ c ≠ ';'
  tilde : i.paused = false → i.id.head? ≠ some '~'

structure Simulcast.Readable (s : Simulcast) : Prop where
  send : ∀ v ∈ s.send, v.ids ≠ [] ∧ ∀ i ∈ v.ids, i.Readable
  receive : ∀ v ∈ s.receive, v.ids ≠ [] ∧ ∀ i ∈ v.ids, i.Readable
  some : s.send ≠ [] ∨ s.receive ≠ []

structure Rid.Readable (r : Rid) : Prop where
  id : BeginsClean r.id ∧ ' ' ∉ r.id
  unknown : ∀ u ∈ r.params.unknown, '=' ∈ u ∧ ';' ∉ u ∧ u.takeWhile (fun c => decide (c ≠ '=')) ∉ ridNames
  depends : ∀ d ∈ r.depends, ',' ∉ d ∧ ';' ∉ d

/-- The three forms of format parameters. -/
inductive FmtpParams.Readable [Env] (p : FmtpParams) : Prop where
  /-- named parameters -/
  | params (range : FmtpInRange p) (enc : p.encodings = []) (tones : p.dtmfTones = [])
      (unknown : ∀ t ∈ p.unknownTokens, '=' ∈ t ∧ ';' ∉ t ∧ paramName t ∉ fmtpNames)
  /-- a telephone event list and nothing else -/
  | tones (h : ToneList p.dtmfTones) (rest : AllDefault p) (unknown : p.unknownTokens = [])
      (enc : p.encodings = []) (rtx : p.rtx = none)
  /-- a list of at least two redundancy payload types and nothing else -/
  | red (h : 2 ≤ p.encodings.length) (le : ∀ x ∈ p.encodings, x.toNat ≤ 128) (rest : AllDefault p)
      (unknown : p.unknownTokens = []) (tones : p.dtmfTones = []) (rtx : p.rtx = none)

/-- Of the NaNs, there is a text for one of each sign. -/
def FloatReadable (x : F32) : Prop := x.isNan = true → x = ⟨0x7fc00000⟩ ∨ x = ⟨0xffc00000⟩

structure ImageAttrSet.Readable (s : ImageAttrSet) : Prop where
  x : s.x.WF
  y : s.y.WF
  sar : ∀ r, s.sar = some r → r.WF ∨ ∃ x, r = .discrete [x] ∧ FloatReadable x
  par : ∀ r, s.par = some r → RangeFloatWF r.min ∧ RangeFloatWF r.max ∧ ¬ r.min.AtLeast r.max
  q : ∀ v, s.q = some v → FloatReadable v

def ImageAttrSetList.Readable : ImageAttrSetList → Prop
  | .sets l => ∀ s ∈ l, s.Readable
  | .wildcard => True

/-- The values that some attribute text denotes. -/
def Attribute.Readable [Env] : Attribute → Prop
  | .fmtp f => f.parameters.Readable
  | .imageAttr i => i.send.Readable ∧ i.recv.Readable ∧ i.send.count + i.recv.count ≠ 0
  | .msidSemantic m => Token m.semantic ∧ ∀ t ∈ m.msids, Token t
  | .rid r => r.Readable
  | .simulcast s => s.Readable
  | a => a.WF

structure Media.Readable [Env] (m : Media) : Prop where
  media : m.media.WF
  bandwidth : ∀ b ∈ m.bandwidth, b.WF
  connection : ∀ c, m.connection = some c → c.WF
  attrs : ∀ a ∈ m.attrs, a.Readable
  levels : ∀ a ∈ m.attrs, a.type ∉ sessionOnly

/-- The sessions that some text denotes: what is required of a well-formed session, but for the attributes. -/
structure Session.Readable [Env] (s : Session) : Prop where
  version : s.version = 0
  origin : s.origin.WF
  name : ∀ t, s.session = some t → Trimmed t
  bandwidth : ∀ b ∈ s.bandwidth, b.WF
  connection : ∀ c, s.connection = some c → c.WF
  attrs : ∀ a ∈ s.attrs, a.Readable
  levels : ∀ a ∈ s.attrs, a.type ∉ mediaOnly
  media : ∀ m ∈ s.media, m.Readable
  lineFeeds : ∀ t ∈ s.strings, '\n' ∉ t
  consistent : Consistent s

/-- An unsupported line, as it is reported: its text, its number, and why (what `parse_sdp_line` says of it). -/
def Warning [Env] (w : ParserError) : Prop :=
  ∃ l n m, w = .unsupported (.unsupported m) l n ∧ '\n' ∉ l ∧ parseSdpLine l n = .err w

end Sdp
