import Verif.Model.Basic
/-!
# What a number looks like as text
-/

namespace Sdp

/-- The value of a list of decimal digits. -/
def decValue (ds : Str) : Nat := ds.foldl (fun acc c => acc * 10 + (c.toNat - '0'.toNat)) 0

/-- `s` is an optional plus sign and one or more decimal digits with value `n`. -/
def DecText (s : Str) (n : Nat) : Prop :=
  ∃ ds, (s = ds ∨ s = '+' :: ds) ∧ ds ≠ [] ∧ (∀ c ∈ ds, c.isDigit = true) ∧ decValue ds = n

/-- The value of a hexadecimal digit, upper or lower case. -/
def hexDigitValue (c : Char) : Nat :=
  if c.isDigit then c.toNat - '0'.toNat
  else if 'a' ≤ c ∧ c ≤ 'f' then c.toNat - 'a'.toNat + 10
  else c.toNat - 'A'.toNat + 10

/-- A hexadecimal digit. -/
def IsHexDigit (c : Char) : Prop := c.isDigit = true ∨ ('a' ≤ c ∧ c ≤ 'f') ∨ ('A' ≤ c ∧ c ≤ 'F')

/-- The value of a list of hexadecimal digits. -/
def hexValue (ds : Str) : Nat := ds.foldl (fun acc c => acc * 16 + hexDigitValue c) 0

/-- `s` is an optional plus sign and one or more hexadecimal digits with value `n`. -/
def HexText (s : Str) (n : Nat) : Prop :=
  ∃ ds, (s = ds ∨ s = '+' :: ds) ∧ ds ≠ [] ∧ (∀ c ∈ ds, IsHexDigit c) ∧ hexValue ds = n

end Sdp
