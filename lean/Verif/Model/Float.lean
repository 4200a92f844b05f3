import Verif.Model.Num
/-!
# Floating-point numbers

`str::parse::<f32|f64>` (`core::num::dec2flt`) and `Display` for `f32` and `f64` (`core::num::flt2dec`,
`core::fmt::float`), Rust ≥ 1.88. These are standard-library functions, not in /repo.

A float is its bit pattern, a natural number. The bits without the sign are the *magnitude*. Magnitudes are
ordered as the numbers they stand for, and the number is a natural multiple of the least positive one. So all
arithmetic here is on natural numbers.
-/

deriving instance DecidableEq for Except

namespace Sdp

/-- `core::num::FloatErrorKind` -/
inductive FloatErr where
  | empty
  | invalid
  deriving DecidableEq, Repr

/-- A binary interchange format: the explicit bits of the mantissa and the bits of the exponent. -/
structure FloatFormat where
  mb : Nat
  eb : Nat
  deriving DecidableEq, Repr

namespace FloatFormat

/-- `f32` -/
def single : FloatFormat := ⟨23, 8⟩
/-- `f64` -/
def double : FloatFormat := ⟨52, 11⟩

variable (F : FloatFormat)

/-- The sign bit, and the number of magnitudes. -/
def signBit : Nat := 2 ^ (F.mb + F.eb)
/-- The magnitude of infinity. -/
def inf : Nat := (2 ^ F.eb - 1) * 2 ^ F.mb
/-- The magnitude of `f32::NAN`, `f64::NAN`. -/
def nan : Nat := F.inf + 2 ^ (F.mb - 1)
/-- The least positive number is `2⁻ˢ` for this `s`: 149 or 1074. -/
def scaleBits : Nat := 2 ^ (F.eb - 1) - 2 + F.mb

/-- The number a magnitude stands for, as a multiple of the least positive number. -/
def units (b : Nat) : Nat :=
  if b / 2 ^ F.mb = 0 then b % 2 ^ F.mb else (2 ^ F.mb + b % 2 ^ F.mb) * 2 ^ (b / 2 ^ F.mb - 1)

/-- `n / d` rounded to the nearest integer, half way to the even one. -/
def roundDiv (n d : Nat) : Nat :=
  if 2 * (n % d) < d then n / d
  else if d < 2 * (n % d) then n / d + 1
  else if n / d % 2 = 0 then n / d else n / d + 1

/-- The magnitude for `n / d` times the least positive number. `dec2flt` rounds to nearest, half way to even;
what is too large becomes infinite. (Modelled by its result; the three algorithms it chooses from are not.) -/
def roundUnits (n d : Nat) : Nat :=
  let s := if n / d < 2 ^ (F.mb + 1) then 0 else (n / d).log2 - F.mb
  min (s * 2 ^ F.mb + roundDiv n (d * 2 ^ s)) F.inf

/-- The magnitude for `d · 10ᵉ` -/
def ofDecimal (d : Nat) : Int → Nat
  | .ofNat e => F.roundUnits (d * 10 ^ e * 2 ^ F.scaleBits) 1
  | .negSucc e => F.roundUnits (d * 2 ^ F.scaleBits) (10 ^ (e + 1))

end FloatFormat

/-- The value of decimal digits -/
def digitsToNat (ds : Str) : Nat := ds.foldl (fun a c => 10 * a + (c.toNat - 48)) 0

/-- The digits of an exponent in `parse_scientific`: a digit that comes after the value has reached 65536
is ignored. -/
def exponentValue (ds : Str) : Nat := ds.foldl (fun a c => if a < 0x10000 then 10 * a + (c.toNat - 48) else a) 0

/-- `dec2flt::parse::parse_scientific`, where nothing may follow -/
def parseExponent (s : Str) : Option Int :=
  let (negative, ds) := match s with
    | '-' :: t => (true, t)
    | '+' :: t => (false, t)
    | s => (false, s)
  if ds.isEmpty || !ds.all Char.isDigit then none
  else some (if negative then -(exponentValue ds : Int) else (exponentValue ds : Int))

/-- `dec2flt::parse::parse_number` without the sign: digits and power of ten. The digits are kept as one
number of any size; Rust keeps 19 of them, or 768 and a flag where that matters to the rounding. -/
def parseDecimal (s : Str) : Option (Nat × Int) :=
  let whole := s.takeWhile Char.isDigit
  let rest := s.dropWhile Char.isDigit
  let (frac, rest) := match rest with
    | '.' :: t => (t.takeWhile Char.isDigit, t.dropWhile Char.isDigit)
    | t => ([], t)
  if (whole ++ frac).isEmpty then none
  else
    match rest with
    | [] => some (digitsToNat (whole ++ frac), -(frac.length : Int))
    | c :: t =>
      if c = 'e' ∨ c = 'E' then
        (parseExponent t).map fun e => (digitsToNat (whole ++ frac), -(frac.length : Int) + e)
      else none

namespace FloatFormat
variable (F : FloatFormat)

/-- `dec2flt::parse::parse_inf_nan` -/
def parseSpecial (s : Str) : Option Nat :=
  let l := s.map asciiLower
  if l = c%"inf" ∨ l = c%"infinity" then some F.inf
  else if l = c%"nan" then some F.nan
  else none

/-- `dec2flt::dec2flt`: the bits -/
def parse (s : Str) : Except FloatErr Nat :=
  match s with
  | [] => .error .empty
  | c :: t =>
    let sign := if c = '-' then F.signBit else 0
    let body := if c = '-' ∨ c = '+' then t else s
    match parseDecimal body with
    | some (d, e) => .ok (sign + F.ofDecimal d e)
    | none =>
      match F.parseSpecial body with
      | some m => .ok (sign + m)
      | none => .error .invalid

/-- `flt2dec::decoder::Decoded`: a number and how far around it a text may be, in multiples of a quarter
of the least positive number (instead of a power of two of its own). -/
structure Decoded where
  mant : Nat
  minus : Nat
  plus : Nat
  inclusive : Bool

/-- `flt2dec::decoder::decode` for finite numbers other than 0. The mantissa of a subnormal number is doubled
there, so it is always even and the bounds are inclusive. -/
def decode (b : Nat) : Decoded :=
  if b / 2 ^ F.mb = 0 then ⟨4 * F.units b, 2, 2, true⟩
  else if b % 2 ^ F.mb = 0 then
    ⟨4 * F.units b, 2 ^ (b / 2 ^ F.mb - 1), 2 * 2 ^ (b / 2 ^ F.mb - 1), true⟩
  else ⟨4 * F.units b, 2 * 2 ^ (b / 2 ^ F.mb - 1), 2 * 2 ^ (b / 2 ^ F.mb - 1), b % 2 == 0⟩

end FloatFormat

/-- `scale.cmp(x) < rounding` of dragon.rs -/
def reaches (inclusive : Bool) (bound x : Nat) : Bool := if inclusive then decide (bound ≤ x) else decide (bound < x)

/-- The first number from `i` on with the property, at most `fuel` tries -/
def searchFrom (p : Nat → Bool) : (fuel i : Nat) → Nat
  | 0, i => i
  | fuel + 1, i => if p i then i else searchFrom p fuel (i + 1)

namespace FloatFormat
variable (F : FloatFormat)

/-- `0.d₁…dₙ · 10ᵏ` -/
structure Decimal where
  digits : Nat
  len : Nat
  point : Int

/-- `flt2dec::strategy::dragon::format_shortest`. (Display tries `grisu` before, which gives the same digits or
gives up.) The power of ten is searched for instead of estimated, and the digit loop is in closed form: after `n`
digits Rust has made `mant·10ⁿ / scale` and is left with the remainder. -/
def shortest (b : Nat) : Decimal :=
  let d := F.decode b
  let one := 2 ^ (F.scaleBits + 2)
  let high := d.mant + d.plus
  let up := searchFrom (fun j => !reaches d.inclusive (one * 10 ^ j) high) (high.log2 + 1) 0
  let down := if up = 0 then searchFrom (fun j => reaches d.inclusive one (high * 10 ^ (j + 1))) (one.log2 + 1) 0 else 0
  let scale := one * 10 ^ up
  let mant := d.mant * 10 ^ down
  let minus := d.minus * 10 ^ down
  let plus := d.plus * 10 ^ down
  let goesDown := fun n => reaches d.inclusive (mant * 10 ^ n % scale) (minus * 10 ^ n)
  let goesUp := fun n => reaches d.inclusive scale (mant * 10 ^ n % scale + plus * 10 ^ n)
  let n := searchFrom (fun n => goesDown n || goesUp n) (scale.log2 + 1) 1
  let whole := mant * 10 ^ n / scale
  let roundUp := goesUp n && (!goesDown n || decide (scale ≤ 2 * (mant * 10 ^ n % scale)))
  ⟨if roundUp then whole + 1 else whole, n, (up : Int) - down⟩

/-- `flt2dec::digits_to_dec_str` with no minimal number of fractional digits -/
def decimalText (x : Decimal) : Str :=
  let ds := padLeft x.len (showNat x.digits)
  if x.point ≤ 0 then c%"0." ++ List.replicate (-x.point).toNat '0' ++ ds
  else if ds.length ≤ x.point.toNat then ds ++ List.replicate (x.point.toNat - ds.length) '0'
  else ds.take x.point.toNat ++ c%"." ++ ds.drop x.point.toNat

/-- `Display` for floats: `float_to_decimal_display` without precision, `flt2dec::to_shortest_str` -/
def text (bits : Nat) : Str :=
  let b := bits % F.signBit
  if F.inf < b then c%"NaN"
  else (if F.signBit ≤ bits then c%"-" else []) ++
    (if b = F.inf then c%"inf" else if b = 0 then c%"0" else decimalText (F.shortest b))

end FloatFormat

/-- Bit pattern of a Rust `f32`. -/
structure F32 where
  bits : UInt32
  deriving DecidableEq, Repr

/-- Bit pattern of a Rust `f64`. -/
structure F64 where
  bits : UInt64
  deriving DecidableEq, Repr

/-- `str::parse::<f32>` -/
def F32.ofText (s : Str) : Except FloatErr F32 :=
  match FloatFormat.single.parse s with
  | .ok n => .ok ⟨UInt32.ofNat n⟩
  | .error e => .error e

/-- `str::parse::<f64>` -/
def F64.ofText (s : Str) : Except FloatErr F64 :=
  match FloatFormat.double.parse s with
  | .ok n => .ok ⟨UInt64.ofNat n⟩
  | .error e => .error e

/-- `Display for f32` -/
def F32.text (x : F32) : Str := FloatFormat.single.text x.bits.toNat

/-- `Display for f64` -/
def F64.text (x : F64) : Str := FloatFormat.double.text x.bits.toNat

end Sdp
