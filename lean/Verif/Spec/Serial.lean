import Verif.Model.Serial
/-!
# Finite floats, and what JSON shows of an error
-/

namespace Sdp

/-- Neither an infinity nor NaN: the exponent is not all ones. -/
def F32.Finite (x : F32) : Prop := x.bits.toNat % 2 ^ 31 < 0x7f800000
/-- Neither an infinity nor NaN. -/
def F64.Finite (x : F64) : Prop := x.bits.toNat % 2 ^ 63 < 0x7ff0000000000000

def SRange.Finite : SRange → Prop
  | .range a b => a.Finite ∧ b.Finite
  | .discrete l => ∀ x ∈ l, x.Finite

def ImageAttrSet.Finite (s : ImageAttrSet) : Prop :=
  (∀ r, s.sar = some r → r.Finite) ∧ (∀ r, s.par = some r → r.min.Finite ∧ r.max.Finite) ∧
    ∀ x, s.q = some x → x.Finite

def ImageAttrSetList.Finite : ImageAttrSetList → Prop
  | .sets l => ∀ s ∈ l, s.Finite
  | .wildcard => True

/-- All floats in the attribute are finite. -/
def Attribute.Finite : Attribute → Prop
  | .imageAttr a => a.send.Finite ∧ a.recv.Finite
  | .frameRate x => x.Finite
  | _ => True

/-- All floats in the section are finite. -/
def Media.Finite (m : Media) : Prop := ∀ a ∈ m.attrs, a.Finite

/-- All floats in the session are finite. -/
def Session.Finite (s : Session) : Prop := (∀ a ∈ s.attrs, a.Finite) ∧ ∀ m ∈ s.media, m.Finite

/-- The parts of an error. -/
inductive ErrorView where
  | line (message text : Str) (lineNumber : Nat)
  | unsupported (message text : Str) (lineNumber : Nat)
  | sequence (message : Str) (lineNumber : Nat)
  deriving DecidableEq

/-- An error with the text of the inner error in its place. -/
def ParserError.view : ParserError → ErrorView
  | .line e t n => .line (showInternalError e) t n
  | .unsupported e t n => .unsupported (showInternalError e) t n
  | .sequence m n => .sequence m n

end Sdp
