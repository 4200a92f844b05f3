import Verif.Spec.Compose
/-!
# What it takes to add or remove one line
-/

namespace Sdp

section
variable [Env]

/-- The attributes of the a= lines that are read, in order. -/
def attrsRead (p : List Str) : List Attribute :=
  p.filterMap fun l => match lineMeaning l with | .ok (.attr a) => some a | _ => none

/-- The bandwidths of the b= lines that are read, in order. -/
def bandwidthsRead (p : List Str) : List Bandwidth :=
  p.filterMap fun l => match lineMeaning l with | .ok (.bandwidth b) => some b | _ => none

/-- The session name has been read. -/
def HasName (p : List Str) : Prop := ∃ l ∈ p, ∃ name, lineMeaning l = .ok (.session name)

end

/-- The session level takes an attribute that is allowed there, but an extmap only if no section has one. -/
def SessionTakes (r : Session) (a : Attribute) : Prop :=
  a.type ∉ mediaOnly ∧ ∀ e, a = .extmap e → ∀ m ∈ r.media, ∀ e', Attribute.extmap e' ∉ m.attrs

/-- What a section needs to take one more attribute after the attributes `before`. -/
def SectionTakes (r : Session) (m : Media) (before : List Attribute) (a : Attribute) : Prop :=
  match a with
  | .group _ | .iceLite | .icePacing _ | .identity _ | .msidSemantic _ => False
  | .extmap _ => ∀ e, Attribute.extmap e ∉ r.attrs
  | .rtcpMuxOnly => Attribute.rtcpMux ∈ m.attrs
  | .rid x => ∀ f ∈ x.formats, ListsFormat m.media.formats f.toNat
  | .simulcast sc => (∃ x, Attribute.simulcast x ∈ before) ∨ SimulcastDefined m sc
  | _ => True

/-- What a section from which an attribute has been removed must be like. -/
def SectionSpares (m : Media) (a : Attribute) : Prop :=
  match a with
  | .rtcpMux => Attribute.rtcpMuxOnly ∈ m.attrs → Attribute.rtcpMux ∈ m.attrs
  | .rid _ | .simulcast _ => ∀ sc, FirstSimulcast m sc → SimulcastDefined m sc
  | _ => True

end Sdp
