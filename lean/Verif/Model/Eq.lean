import Verif.Model.Types
import Verif.Model.Env
/-!
# Equality of image attributes

The `PartialEq` implementations derived in src/attribute_type.rs for the types that have `f32` inside. (For the
types without, derived equality is `=`; for addresses it is Verif/Model/Address.lean.)
-/

namespace Sdp

/-- `f32: PartialEq`, IEEE 754: NaN is equal to nothing, both zeros are equal. -/
def F32.eqv (x y : F32) : Bool := !x.isNan && !y.isNan && decide (x.key = y.key)

/-- `Option<T>: PartialEq` -/
def optionEqv {α : Type} (eq : α → α → Bool) : Option α → Option α → Bool
  | none, none => true
  | some a, some b => eq a b
  | _, _ => false

/-- `Vec<T>: PartialEq` -/
def vecEqv {α : Type} (eq : α → α → Bool) : List α → List α → Bool
  | [], [] => true
  | a :: as, b :: bs => eq a b && vecEqv eq as bs
  | _, _ => false

/-- src/attribute_type.rs:873-878, derived -/
def XyRange.eqv : XyRange → XyRange → Bool
  | .range a b s, .range a' b' s' => a == a' && b == b' && optionEqv (· == ·) s s'
  | .discrete l, .discrete l' => vecEqv (· == ·) l l'
  | _, _ => false

/-- src/attribute_type.rs:897-902, derived -/
def SRange.eqv : SRange → SRange → Bool
  | .range a b, .range a' b' => a.eqv a' && b.eqv b'
  | .discrete l, .discrete l' => vecEqv F32.eqv l l'
  | _, _ => false

/-- src/attribute_type.rs:915-920, derived -/
def PRange.eqv (r s : PRange) : Bool := r.min.eqv s.min && r.max.eqv s.max

/-- src/attribute_type.rs:928-936, derived: the fields in their order -/
def ImageAttrSet.eqv (s t : ImageAttrSet) : Bool :=
  s.x.eqv t.x && s.y.eqv t.y && optionEqv SRange.eqv s.sar t.sar && optionEqv PRange.eqv s.par t.par &&
    optionEqv F32.eqv s.q t.q

/-- src/attribute_type.rs:948-953, derived -/
def ImageAttrSetList.eqv : ImageAttrSetList → ImageAttrSetList → Bool
  | .sets l, .sets l' => vecEqv ImageAttrSet.eqv l l'
  | .wildcard, .wildcard => true
  | _, _ => false

end Sdp
