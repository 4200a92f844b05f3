import Verif.Model.Basic
/-!
# Integers

`str::parse::<u8|u16|u32|u64>`, `from_str_radix` and `Display` for unsigned integers
(`core::num`, Rust ≥ 1.88). These are standard-library functions, not in /repo.
-/

namespace Sdp

/-- `core::num::IntErrorKind`, the kinds an unsigned parse can return. -/
inductive IntErr where
  | empty
  | invalidDigit
  | posOverflow
  deriving DecidableEq, Repr

/-- `char::to_digit(radix)` for `radix ≤ 16`. -/
def toDigit (radix : Nat) (c : Char) : Option Nat :=
  let n := c.toNat
  let d : Option Nat :=
    if 48 ≤ n && n ≤ 57 then some (n - 48)
    else if 97 ≤ n && n ≤ 102 then some (n - 87)
    else if 65 ≤ n && n ≤ 70 then some (n - 55)
    else none
  match d with
  | some d => if d < radix then some d else none
  | none => none

/-- The digit loop of `from_str_radix`: `checked_mul`, `to_digit`, `checked_add`, in the order in
which their failures are reported. `lim` is `2^bits`. -/
def digitLoop (radix lim : Nat) : Nat → Str → Except IntErr Nat
  | acc, [] => .ok acc
  | acc, c :: cs =>
    match toDigit radix c with
    | none => .error .invalidDigit
    | some d =>
      if acc * radix < lim then
        if acc * radix + d < lim then digitLoop radix lim (acc * radix + d) cs
        else .error .posOverflow
      else .error .posOverflow

/-- `uN::from_str_radix(s, radix)` with `lim = 2^N`: a leading `+` is accepted, a `-` is not. -/
def parseRadix (radix lim : Nat) (s : Str) : Except IntErr Nat :=
  match s with
  | [] => .error .empty
  | ['+'] => .error .invalidDigit
  | '+' :: ds => digitLoop radix lim 0 ds
  | ds => digitLoop radix lim 0 ds

/-- `Display` of an unsigned integer. -/
def showNat (n : Nat) : Str := Nat.toDigits 10 n

/-- `{:0w$}` (decimal) -/
def padLeft (w : Nat) (s : Str) : Str := List.replicate (w - s.length) '0' ++ s

/-- `{:06x}` and friends: lower-case hex, zero padded to width `w`. -/
def showHexPad (w : Nat) (n : Nat) : Str := padLeft w (Nat.toDigits 16 n)

/-- Upper-case hex digit of `n < 16`. -/
def hexUpper (n : Nat) : Char := asciiUpper (Nat.digitChar n)

/-- `{:02X}` of a byte. -/
def showByteHex (b : UInt8) : Str := [hexUpper (b.toNat / 16), hexUpper (b.toNat % 16)]

end Sdp
