import Verif.Spec.Num
import Verif.Model.Num
/-!
# What is wrong with a text that is not a number
-/

namespace Sdp

/-- A text without its plus sign, if it begins with one. -/
def unsigned (s : Str) : Str :=
  match s with
  | '+' :: ds => ds
  | ds => ds

/-- The decimal digits a text begins with, after an optional plus sign. -/
def leadingDigits (s : Str) : Str := (unsigned s).takeWhile Char.isDigit

/-- What is wrong with a text as a number below `lim`, if anything. Whether it is too big is decided by the
digits in front, whatever follows them. -/
def numberError (lim : Nat) (s : Str) : Option IntErr :=
  if s = [] then some .empty
  else if lim ≤ decValue (leadingDigits s) then some .posOverflow
  else if leadingDigits s = [] ∨ leadingDigits s ≠ unsigned s then some .invalidDigit
  else none

end Sdp
