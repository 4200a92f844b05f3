import Verif.Model.Float
import Verif.Spec.Num
import Mathlib.Algebra.Order.Field.Rat
import Mathlib.Algebra.Order.Field.Power
import Mathlib.Algebra.Order.Ring.Abs
/-!
# What a float text stands for

IEEE 754 binary interchange formats, over the rational numbers: `mb` bits of mantissa, `eb` bits of exponent.
A *magnitude* is a bit pattern without its sign bit.
-/

namespace Sdp

namespace FloatFormat

/-- The number a magnitude stands for: `0.m · 2^(1-bias)` or `1.m · 2^(e-bias)`. Infinity counts as the number
after the greatest, as it does for rounding. -/
def value (F : FloatFormat) (b : Nat) : ℚ :=
  let m : ℚ := (b % 2 ^ F.mb : Nat) / 2 ^ F.mb
  let e : ℤ := (b / 2 ^ F.mb : Nat)
  let bias : ℤ := 2 ^ (F.eb - 1) - 1
  if e = 0 then m * 2 ^ (1 - bias) else (1 + m) * 2 ^ (e - bias)

/-- The magnitude of infinity: all bits of the exponent, none of the mantissa. -/
def infinity (F : FloatFormat) : Nat := (2 ^ F.eb - 1) * 2 ^ F.mb

/-- Round to nearest, ties to even: `b` is what the number `x ≥ 0` is rounded to. -/
structure Rounds (F : FloatFormat) (x : ℚ) (b : Nat) : Prop where
  range : b ≤ F.infinity
  nearest : ∀ c ≤ F.infinity, |x - F.value b| ≤ |x - F.value c|
  even : ∀ c ≤ F.infinity, c ≠ b → |x - F.value b| = |x - F.value c| → b % 2 = 0

end FloatFormat

/-- The value of the digits of an exponent. As soon as it has reached 65536, further digits are ignored. -/
def ExponentDigits (ds : Str) (v : Nat) : Prop :=
  (decValue ds < 65536 ∧ v = decValue ds) ∨
  ∃ p c r, ds = p ++ c :: r ∧ decValue p < 65536 ∧ 65536 ≤ decValue (p ++ [c]) ∧ v = decValue (p ++ [c])

/-- The exponent part: nothing, or `e`, an optional sign and digits. -/
def ExponentText (t : Str) (e : ℤ) : Prop :=
  (t = [] ∧ e = 0) ∨
  ∃ c ds v, (c = 'e' ∨ c = 'E') ∧ ds ≠ [] ∧ (∀ x ∈ ds, x.isDigit = true) ∧ ExponentDigits ds v ∧
    ((t = c :: ds ∧ e = v) ∨ (t = c :: '+' :: ds ∧ e = v) ∨ (t = c :: '-' :: ds ∧ e = -(v : ℤ)))

/-- An unsigned decimal number: digits, at most one point among, before or after them, and an exponent. -/
def DecimalText (t : Str) (x : ℚ) : Prop :=
  ∃ whole frac tail e, (∀ c ∈ whole ++ frac, c.isDigit = true) ∧ whole ++ frac ≠ [] ∧ ExponentText tail e ∧
    (t = whole ++ '.' :: (frac ++ tail) ∨ (frac = [] ∧ t = whole ++ tail)) ∧
    x = decValue (whole ++ frac) * 10 ^ (e - frac.length)

/-- A text without its sign, and the magnitude: a decimal number, correctly rounded; `inf` or `infinity` or
`nan` in any case. -/
def MagnitudeText (F : FloatFormat) (t : Str) (b : Nat) : Prop :=
  (∃ x, DecimalText t x ∧ F.Rounds x b) ∨
  ((t.map asciiLower = c%"inf" ∨ t.map asciiLower = c%"infinity") ∧ b = F.infinity) ∨
  (t.map asciiLower = c%"nan" ∧ b = F.infinity + 2 ^ (F.mb - 1))

/-- A text and the bits it is read as. -/
def FloatText (F : FloatFormat) (t : Str) (bits : Nat) : Prop :=
  MagnitudeText F t bits ∨
  (∃ u, t = '+' :: u ∧ MagnitudeText F u bits) ∨
  ∃ u b, t = '-' :: u ∧ MagnitudeText F u b ∧ bits = 2 ^ (F.mb + F.eb) + b

/-- A text and the `f32` it is read as: 23 bits of mantissa, 8 bits of exponent. -/
def F32Text (t : Str) (x : F32) : Prop := FloatText ⟨23, 8⟩ t x.bits.toNat

/-- A text and the `f64` it is read as: 52 bits of mantissa, 11 bits of exponent. -/
def F64Text (t : Str) (x : F64) : Prop := FloatText ⟨52, 11⟩ t x.bits.toNat

/-!
## What a float is written as

A float that is neither zero nor infinite is written in decimal, without exponent, with the fewest digits that
are read back as the same float, and of those texts the closest to the float.
-/

/-- The decimal `D · 10^(p-n)` with `n` digits for a magnitude: it is read back, no shorter one is, and among
those of `n` digits that are read back it is the closest, or the greater of two equally close ones. -/
structure ShortestDecimal (F : FloatFormat) (b D n : Nat) (p : ℤ) : Prop where
  digits : 10 ^ (n - 1) ≤ D ∧ D < 10 ^ n
  reads : F.Rounds (D * 10 ^ (p - n)) b
  shortest : ∀ D' n' : Nat, ∀ e : ℤ, D' < 10 ^ n' → F.Rounds (D' * 10 ^ e) b → n ≤ n'
  closest : ∀ D' : Nat, ∀ e : ℤ, D' < 10 ^ n → F.Rounds (D' * 10 ^ e) b →
    |F.value b - D * 10 ^ (p - n)| < |F.value b - D' * 10 ^ e| ∨
    (|F.value b - D * 10 ^ (p - n)| = |F.value b - D' * 10 ^ e| ∧ (D' * 10 ^ e : ℚ) ≤ D * 10 ^ (p - n))

/-- `D · 10^(p-n)` in digits, with zeros before or after them where the point needs them. -/
def PlacedDigits (D n : Nat) (p : ℤ) (t : Str) : Prop :=
  ∃ ds, (∀ c ∈ ds, c.isDigit = true) ∧ ds.length = n ∧ decValue ds = D ∧
    ((p ≤ 0 ∧ t = c%"0." ++ List.replicate (-p).toNat '0' ++ ds) ∨
     ((n : ℤ) ≤ p ∧ t = ds ++ List.replicate (p - n).toNat '0') ∨
     ∃ whole frac, ds = whole ++ frac ∧ whole ≠ [] ∧ frac ≠ [] ∧ (whole.length : ℤ) = p ∧ t = whole ++ c%"." ++ frac)

/-- A magnitude that is no NaN, and its text. -/
def MagnitudeWritten (F : FloatFormat) (b : Nat) (t : Str) : Prop :=
  (b = F.infinity ∧ t = c%"inf") ∨ (b = 0 ∧ t = c%"0") ∨
  (0 < b ∧ b < F.infinity ∧ ∃ D n p, ShortestDecimal F b D n p ∧ PlacedDigits D n p t)

/-- The bits of a float, and its text. NaNs have no sign. -/
def FloatWritten (F : FloatFormat) (bits : Nat) (t : Str) : Prop :=
  (F.infinity < bits % 2 ^ (F.mb + F.eb) ∧ t = c%"NaN") ∨
  (bits ≤ F.infinity ∧ MagnitudeWritten F bits t) ∨
  ∃ b u, b ≤ F.infinity ∧ bits = 2 ^ (F.mb + F.eb) + b ∧ t = '-' :: u ∧ MagnitudeWritten F b u

/-- An `f32` and its text. -/
def F32Written (x : F32) (t : Str) : Prop := FloatWritten ⟨23, 8⟩ x.bits.toNat t

/-- An `f64` and its text. -/
def F64Written (x : F64) (t : Str) : Prop := FloatWritten ⟨52, 11⟩ x.bits.toNat t

/-!
## How floats are compared
-/

/-- All bits of the exponent, and some of the mantissa. -/
def F32.IsNaN (x : F32) : Prop := FloatFormat.infinity ⟨23, 8⟩ < x.bits.toNat % 2 ^ 31

/-- The number of an `f32` that is no NaN, the first bit being the sign. -/
def F32.value (x : F32) : ℚ :=
  (if x.bits.toNat < 2 ^ 31 then 1 else -1) * FloatFormat.value ⟨23, 8⟩ (x.bits.toNat % 2 ^ 31)

/-- `x >= y`. NaN is neither greater nor equal, nor is anything to NaN. -/
def F32.AtLeast (x y : F32) : Prop := ¬ x.IsNaN ∧ ¬ y.IsNaN ∧ y.value ≤ x.value

end Sdp
