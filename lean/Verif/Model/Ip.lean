import Verif.Model.Num
/-!
# IP addresses

`std::net::IpAddr` with `FromStr` (`core::net::parser`) and `Display` (`core::net::ip_addr`).
Standard library, not in /repo; written out because the crate's addresses are parsed and printed
with it.
-/

namespace Sdp

/-- `std::net::IpAddr`. An IPv4 address is its `u32`, an IPv6 address its `u128`. -/
inductive IpAddr where
  | v4 (a : UInt32)
  | v6 (a : BitVec 128)
  deriving DecidableEq, Repr

/-- The four octets of an IPv4 address, most significant first. -/
def octets (a : UInt32) : List Nat :=
  [a.toNat / 2^24, a.toNat / 2^16 % 2^8, a.toNat / 2^8 % 2^8, a.toNat % 2^8]

/-- `Ipv4Addr::from([u8; 4])` -/
def ofOctets (a b c d : Nat) : UInt32 := UInt32.ofNat (((a * 2^8 + b) * 2^8 + c) * 2^8 + d)

/-- The eight 16-bit segments of an IPv6 address, most significant first. -/
def segments (a : BitVec 128) : List Nat :=
  [a.toNat / 2^112, a.toNat / 2^96 % 2^16, a.toNat / 2^80 % 2^16, a.toNat / 2^64 % 2^16,
   a.toNat / 2^48 % 2^16, a.toNat / 2^32 % 2^16, a.toNat / 2^16 % 2^16, a.toNat % 2^16]

/-- `Ipv6Addr::from([u16; 8])` -/
def ofSegments (l : List Nat) : BitVec 128 := BitVec.ofNat 128 (l.foldl (fun acc x => acc * 2^16 + x) 0)

/-- `Parser::read_number(radix, Some(maxDigits), allow_zero_prefix)`; `lim` is the size of the
target type. -/
def readNumber (radix maxDigits : Nat) (allowZero : Bool) (lim : Nat) (s : Str) : Option (Nat × Str) :=
  let ds := s.takeWhile (fun c => (toDigit radix c).isSome)
  let rest := s.dropWhile (fun c => (toDigit radix c).isSome)
  let n := ds.foldl (fun acc c => acc * radix + (toDigit radix c).getD 0) 0
  if ds.length > maxDigits then none
  else if ds.length = 0 then none
  else if !allowZero && ds.head? == some '0' && decide (ds.length > 1) then none
  else if n < lim then some (n, rest)
  else none

/-- `Parser::read_separator(sep, index, inner)` -/
def readSep {α : Type} (sep : Char) (i : Nat) (inner : Str → Option (α × Str)) (s : Str) :
    Option (α × Str) :=
  if i = 0 then inner s
  else match s with
    | c :: cs => if c == sep then inner cs else none
    | [] => none

/-- `Parser::read_ipv4_addr` -/
def readV4 (s : Str) : Option (UInt32 × Str) := do
  let (a, s) ← readSep '.' 0 (readNumber 10 3 false 256) s
  let (b, s) ← readSep '.' 1 (readNumber 10 3 false 256) s
  let (c, s) ← readSep '.' 2 (readNumber 10 3 false 256) s
  let (d, s) ← readSep '.' 3 (readNumber 10 3 false 256) s
  return (ofOctets a b c d, s)

/-- `read_groups` inside `Parser::read_ipv6_addr`: `left` groups may still be read, `i` have been.
Returns the groups, whether they end in an embedded IPv4 address, and the rest of the text. -/
def readGroups : (left i : Nat) → Str → List Nat × Bool × Str
  | 0, _, s => ([], false, s)
  | left + 1, i, s =>
    match (if left ≥ 1 then readSep ':' i readV4 s else none) with
    | some (v4, s') => ([v4.toNat / 2^16, v4.toNat % 2^16], true, s')
    | none =>
      match readSep ':' i (readNumber 16 4 true 65536) s with
      | none => ([], false, s)
      | some (g, s') =>
        let (gs, b, s'') := readGroups left (i + 1) s'
        (g :: gs, b, s'')

/-- `Parser::read_ipv6_addr` -/
def readV6 (s : Str) : Option (BitVec 128 × Str) :=
  let (head, headV4, s1) := readGroups 8 0 s
  if head.length = 8 then some (ofSegments head, s1)
  else if headV4 then none
  else match s1 with
    | ':' :: ':' :: s2 =>
      let (tail, _, s3) := readGroups (8 - (head.length + 1)) 0 s2
      some (ofSegments (head ++ List.replicate (8 - head.length - tail.length) 0 ++ tail), s3)
    | _ => none

/-- `IpAddr::from_str` -/
def ipFromStr (s : Str) : Option IpAddr :=
  match readV4 s with
  | some (a, []) => some (.v4 a)
  | some _ => none
  | none =>
    match readV6 s with
    | some (a, []) => some (.v6 a)
    | _ => none

/-- `Ipv4Addr::from_str`: a strict dotted quad. -/
def parseV4Strict (s : Str) : Option UInt32 :=
  match readV4 s with
  | some (a, []) => some a
  | _ => none

/-- `Display for Ipv4Addr` -/
def showV4 (a : UInt32) : Str := joinS ['.'] ((octets a).map showNat)

/-- State of the search for the longest run of zero segments in `Display for Ipv6Addr`. -/
structure ZeroScan where
  curStart : Nat
  curLen : Nat
  bestStart : Nat
  bestLen : Nat

/-- One step of that search, for segment number `i` with value `g`. -/
def ZeroScan.step (z : ZeroScan) (i g : Nat) : ZeroScan :=
  if g = 0 then
    let start := if z.curLen = 0 then i else z.curStart
    let len := z.curLen + 1
    if len > z.bestLen then ⟨start, len, start, len⟩ else ⟨start, len, z.bestStart, z.bestLen⟩
  else ⟨0, 0, z.bestStart, z.bestLen⟩

def zeroScan : Nat → List Nat → ZeroScan → ZeroScan
  | _, [], z => z
  | i, g :: gs, z => zeroScan (i + 1) gs (z.step i g)

/-- `fmt_subslice`: `{:x}` of the segments separated by colons. -/
def showSegs (l : List Nat) : Str := joinS [':'] (l.map (Nat.toDigits 16))

/-- `Display for Ipv6Addr` -/
def showV6 (a : BitVec 128) : Str :=
  let segs := segments a
  if a.toNat / 2^32 = 0xffff then
    -- `to_ipv4_mapped`
    c%"::ffff:" ++ showV4 (UInt32.ofNat (a.toNat % 2^32))
  else
    let z := zeroScan 0 segs ⟨0, 0, 0, 0⟩
    if z.bestLen > 1 then
      showSegs (segs.take z.bestStart) ++ c%"::" ++ showSegs (segs.drop (z.bestStart + z.bestLen))
    else showSegs segs

/-- `Display for IpAddr` -/
def showIp : IpAddr → Str
  | .v4 a => showV4 a
  | .v6 a => showV6 a

end Sdp
