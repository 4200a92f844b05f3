import Verif.Model.Ip
import Verif.Model.Float
/-!
# The part of the outside world the crate calls and the model does not define

`Env` collects functions of the Rust standard library and of the `url` crate whose definition is
too large to transcribe (Unicode case tables, IDNA host parsing). Every theorem is
proved for *every* `Env`; where one needs a law about such a function, the law is an explicit
hypothesis of the theorem.

What is known about these functions on plain ASCII input is not assumed but built in: `lower`,
`upper`, `debugStr` and `hostParse` below are fixed on ASCII strings and dotted quads and only defer to the
environment outside of them.
-/

namespace Sdp

/-- `url::Host<String>`, or the text of a `url::ParseError`. -/
inductive HostRes where
  | domain (d : Str)
  | ipv4 (a : UInt32)
  | ipv6 (a : BitVec 128)
  | error (msg : Str)
  deriving DecidableEq, Repr

class Env where
  /-- `str::to_lowercase` on strings with a non-ASCII character. -/
  lowerNA : Str → Str
  /-- `str::to_uppercase` on strings with a non-ASCII character. -/
  upperNA : Str → Str
  /-- `url::Host::parse` on strings that are not a strict dotted quad. -/
  hostNA : Str → HostRes
  /-- `{:?}` of a string with a non-ASCII character, which only occurs inside error messages. -/
  debugNA : Str → Str

/-- `str::to_lowercase` -/
def lower [Env] (s : Str) : Str := if isAscii s then s.map asciiLower else Env.lowerNA s

/-- `str::to_uppercase` -/
def upper [Env] (s : Str) : Str := if isAscii s then s.map asciiUpper else Env.upperNA s

/-- What `{:?}` of a string writes for one of its ASCII characters (`char::escape_debug`, with `'`
left as it is). -/
def debugChar (c : Char) : Str :=
  if c = '\x00' then ['\\', '0']
  else if c = '\t' then ['\\', 't']
  else if c = '\r' then ['\\', 'r']
  else if c = '\n' then ['\\', 'n']
  else if c = '\\' then ['\\', '\\']
  else if c = '"' then ['\\', '"']
  else if c.toNat < 0x20 ∨ c.toNat = 0x7f then ['\\', 'u', '{'] ++ Nat.toDigits 16 c.toNat ++ ['}']
  else [c]

/-- `{:?}` of a string -/
def debugStr [Env] (s : Str) : Str :=
  if isAscii s then ['"'] ++ s.flatMap debugChar ++ ['"'] else Env.debugNA s

/-- `url::Host::parse` -/
def hostParse [Env] (s : Str) : HostRes :=
  match parseV4Strict s with
  | some a => .ipv4 a
  | none => Env.hostNA s

/-- `f32::is_nan` -/
def F32.isNan (x : F32) : Bool := decide (x.bits.toNat % 2^31 > 0x7f800000)
/-- `f32::is_infinite` -/
def F32.isInf (x : F32) : Bool := decide (x.bits.toNat % 2^31 = 0x7f800000)
/-- `f64::is_nan` -/
def F64.isNan (x : F64) : Bool := decide (x.bits.toNat % 2^63 > 0x7ff0000000000000)
/-- `f64::is_infinite` -/
def F64.isInf (x : F64) : Bool := decide (x.bits.toNat % 2^63 = 0x7ff0000000000000)
/-- `x == 0.0` (both zeros). -/
def F64.isZero (x : F64) : Bool := decide (x.bits.toNat % 2^63 = 0)

/-- A key whose order is the order of the floats, for non-NaN `f32`. Both zeros have key 0. -/
def F32.key (x : F32) : Int :=
  if x.bits.toNat < 2^31 then (x.bits.toNat : Int) else -((x.bits.toNat - 2^31 : Nat) : Int)

/-- `x >= y` on `f32`: false when an operand is NaN. -/
def F32.ge (x y : F32) : Bool := !x.isNan && !y.isNan && decide (x.key ≥ y.key)

end Sdp
