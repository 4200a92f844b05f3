import Verif.Spec.Grammar
/-!
# When two image attributes say the same
-/

namespace Sdp

/-- Both are numbers, and the same one. -/
def F32.SameNumber (x y : F32) : Prop := ¬ x.IsNaN ∧ ¬ y.IsNaN ∧ x.value = y.value

/-- Plus or minus zero. -/
def F32.IsZero (x : F32) : Prop := x.bits.toNat % 2 ^ 31 = 0

/-- Both are missing, or both are there and related. -/
def BothIf {α : Type} (R : α → α → Prop) : Option α → Option α → Prop
  | none, none => True
  | some a, some b => R a b
  | _, _ => False

/-- The same range or the same list of ratios. -/
def SRange.Same : SRange → SRange → Prop
  | .range a b, .range c d => a.SameNumber c ∧ b.SameNumber d
  | .discrete xs, .discrete ys => Each F32.SameNumber xs ys
  | _, _ => False

/-- The same range. -/
def PRange.Same (r s : PRange) : Prop := r.min.SameNumber s.min ∧ r.max.SameNumber s.max

/-- The same sizes, ratios and preference. -/
structure ImageAttrSet.Same (s t : ImageAttrSet) : Prop where
  x : s.x = t.x
  y : s.y = t.y
  sar : BothIf SRange.Same s.sar t.sar
  par : BothIf PRange.Same s.par t.par
  q : BothIf F32.SameNumber s.q t.q

/-- The same sets in the same order, or a star twice. -/
def ImageAttrSetList.Same : ImageAttrSetList → ImageAttrSetList → Prop
  | .sets l, .sets l' => Each ImageAttrSet.Same l l'
  | .wildcard, .wildcard => True
  | _, _ => False

/-- The floats of a range. -/
def SRange.floats : SRange → List F32
  | .range a b => [a, b]
  | .discrete xs => xs

/-- The floats of a set: those of sar, par and q. -/
def ImageAttrSet.floats (s : ImageAttrSet) : List F32 :=
  (match s.sar with | some r => r.floats | none => []) ++ (match s.par with | some r => [r.min, r.max] | none => []) ++
    s.q.toList

/-- All the floats of a list of sets. -/
def ImageAttrSetList.floats : ImageAttrSetList → List F32
  | .sets l => l.flatMap ImageAttrSet.floats
  | .wildcard => []

end Sdp
