import Verif.Spec.Readable
/-!
# When two sessions are written alike
-/

namespace Sdp

/-- The attributes have the same texts, in the same order, and there are none of the one only if there are none of the
other. Attributes with an empty text, which is the text of fmtp with defaults only, leave nothing behind: they are skipped. -/
structure AttrsAlike (as bs : List Attribute) : Prop where
  texts : (as.map showAttribute).filter (fun t => decide (t ≠ [])) = (bs.map showAttribute).filter (fun t => decide (t ≠ []))
  none : as = [] ↔ bs = []

structure Media.Alike (m n : Media) : Prop where
  media : m.media = n.media
  bandwidth : m.bandwidth = n.bandwidth
  connection : m.connection = n.connection
  attrs : AttrsAlike m.attrs n.attrs

/-- All is the same but for the attributes, of which the texts are the same, and the warnings, which are not written. -/
structure Session.Alike (s t : Session) : Prop where
  version : s.version = t.version
  origin : s.origin = t.origin
  session : s.session = t.session
  timing : s.timing = t.timing
  bandwidth : s.bandwidth = t.bandwidth
  connection : s.connection = t.connection
  attrs : AttrsAlike s.attrs t.attrs
  media : List.Forall₂ Media.Alike s.media t.media

/-- The types of which different values can have the same text. -/
def ambiguousTypes : List AttributeType := [.fmtp, .imageAttr, .msidSemantic, .rid, .simulcast]

/-! ## By their values

Of the five types, when two values have the same text. -/

/-- The sign of a NaN is not written. -/
def F32.unsigned (x : F32) : F32 := if x = ⟨0xffc00000⟩ then ⟨0x7fc00000⟩ else x

def SRange.unsigned : SRange → SRange
  | .discrete [x] => .discrete [x.unsigned]
  | r => r

def ImageAttrSet.unsigned (s : ImageAttrSet) : ImageAttrSet :=
  { s with sar := s.sar.map SRange.unsigned, q := s.q.map F32.unsigned }

def ImageAttrSetList.unsigned : ImageAttrSetList → ImageAttrSetList
  | .sets l => .sets (l.map ImageAttrSet.unsigned)
  | .wildcard => .wildcard

/-- The image attribute with a plus sign on every NaN. -/
def ImageAttr.unsigned (i : ImageAttr) : ImageAttr := { i with send := i.send.unsigned, recv := i.recv.unsigned }

/-- The same streams, empty alternatives aside; but an empty list differs from one with only empty alternatives. -/
structure Simulcast.Alike (s t : Simulcast) : Prop where
  send : s.send.filter (fun v => decide (v ≠ ⟨[⟨[], false⟩]⟩)) = t.send.filter (fun v => decide (v ≠ ⟨[⟨[], false⟩]⟩))
  receive : s.receive.filter (fun v => decide (v ≠ ⟨[⟨[], false⟩]⟩)) = t.receive.filter (fun v => decide (v ≠ ⟨[⟨[], false⟩]⟩))
  noSend : s.send = [] ↔ t.send = []
  noReceive : s.receive = [] ↔ t.receive = []

/-- The formats, written as a parameter. -/
def Rid.formatList (r : Rid) : List Str :=
  if r.formats = [] then [] else [c%"pt=" ++ joinS c%"," (r.formats.map showU16)]

/-- All is the same but for empty names in the list of what the stream depends on; and if there are no limits then formats
are written like an unknown parameter in front. -/
structure Rid.Alike (r s : Rid) : Prop where
  id : r.id = s.id
  direction : r.direction = s.direction
  limits : { r.params with unknown := [] } = { s.params with unknown := [] }
  parameters : r.formats = s.formats ∧ r.params.unknown = s.params.unknown ∨
    { r.params with unknown := [] } = (⟨0, 0, 0, 0, 0, 0, []⟩ : RidParams) ∧
      r.formatList ++ r.params.unknown = s.formatList ++ s.params.unknown
  depends : r.depends.filter (fun d => decide (d ≠ [])) = s.depends.filter (fun d => decide (d ≠ []))
  noDepends : r.depends = [] ↔ s.depends = []

/-- Next to retransmission parameters nothing is written; otherwise unknown parameters are written as one, with commas. -/
def FmtpParams.merged (p : FmtpParams) : FmtpParams :=
  match p.rtx with
  | some r => { FmtpParams.default with rtx := some r }
  | none => { p with unknownTokens := if p.unknownTokens = [] then [] else [joinS c%"," p.unknownTokens] }

/-- The same parameters when so merged, and the same payload type; with defaults only, that is not written either. -/
structure Fmtp.Alike (f g : Fmtp) : Prop where
  parameters : f.parameters.merged = g.parameters.merged
  payloadType : f.parameters.merged = FmtpParams.default ∨ f.payloadType = g.payloadType

/-- Two attributes have the same text: they are equal but for what is said above of five types. -/
def Attribute.Alike : Attribute → Attribute → Prop
  | .fmtp f, .fmtp g => f.Alike g
  | .imageAttr i, .imageAttr j => i.unsigned = j.unsigned
  | .msidSemantic m, .msidSemantic n => m.semantic = n.semantic ∧
      (if m.msids = [] then [c%"*"] else m.msids) = (if n.msids = [] then [c%"*"] else n.msids)
  | .rid r, .rid s => r.Alike s
  | .simulcast s, .simulcast t => s.Alike t
  | a, b => a = b

/-- Only fmtp with defaults has no text. -/
def Attribute.hasText : Attribute → Bool
  | .fmtp f => decide (f.parameters.merged ≠ FmtpParams.default)
  | _ => true

/-- Attributes without text aside, the attributes are alike one by one, and there are none only of both. -/
structure AttrsSame (as bs : List Attribute) : Prop where
  values : List.Forall₂ Attribute.Alike (as.filter Attribute.hasText) (bs.filter Attribute.hasText)
  none : as = [] ↔ bs = []

structure Media.Same (m n : Media) : Prop where
  media : m.media = n.media
  bandwidth : m.bandwidth = n.bandwidth
  connection : m.connection = n.connection
  attrs : AttrsSame m.attrs n.attrs

/-- All is the same but for the attributes, which are alike, and the warnings. -/
structure Session.Same (s t : Session) : Prop where
  version : s.version = t.version
  origin : s.origin = t.origin
  session : s.session = t.session
  timing : s.timing = t.timing
  bandwidth : s.bandwidth = t.bandwidth
  connection : s.connection = t.connection
  attrs : AttrsSame s.attrs t.attrs
  media : List.Forall₂ Media.Same s.media t.media

end Sdp
