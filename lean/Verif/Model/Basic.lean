/-!
# Strings, results and panics

Rust standard-library vocabulary used by the crate, as total functions.

* A Rust `&str`/`String` is a list of Unicode scalar values; Lean's `Char` is exactly a Unicode
  scalar value, so `Str := List Char` loses nothing but the byte offsets, which `byteLen` restores
  where the code looks at `str::len`.
* `Result<T, E>` is `Outcome E T`, which has a third value `panic` for the points where the Rust
  code would unwind (slice indexing, `Vec::remove`, `unwrap`, `unreachable!`, integer overflow).
-/

namespace Sdp

/-- A Rust `str`/`String`. -/
abbrev Str := List Char

/-- `c%"abc"` is the character list of the literal. -/
syntax:max (name := cstr) "c%" str : term

open Lean in
macro_rules (kind := cstr)
  | `(c% $s:str) => do
    let cs := s.getString.toList.map (fun c => (Syntax.mkCharLit c : TSyntax `char))
    let arr : TSyntaxArray `term := cs.toArray.map (fun c => ⟨c.raw⟩)
    `(([ $arr,* ] : List Char))

/-- Result of running a piece of Rust code: a `Result<α, ε>`, or a panic. -/
inductive Outcome (ε α : Type) where
  | ok (a : α)
  | err (e : ε)
  | panic
  deriving DecidableEq, Repr

namespace Outcome

/-- The `?` operator: errors and panics propagate. -/
def bind {ε α β : Type} (x : Outcome ε α) (f : α → Outcome ε β) : Outcome ε β :=
  match x with
  | .ok a => f a
  | .err e => .err e
  | .panic => .panic

instance {ε : Type} : Monad (Outcome ε) where
  pure := .ok
  bind := Outcome.bind

/-- `Result::map_err`. -/
def mapErr {ε ε' α : Type} (f : ε → ε') : Outcome ε α → Outcome ε' α
  | .ok a => .ok a
  | .err e => .err (f e)
  | .panic => .panic

/-- `Option::ok_or_else`. -/
def okOr {ε α : Type} (o : Option α) (e : ε) : Outcome ε α :=
  match o with
  | some a => .ok a
  | none => .err e

/-- `Option::unwrap`: panics on `None`. -/
def unwrap {ε α : Type} : Option α → Outcome ε α
  | some a => .ok a
  | none => .panic

def isOk {ε α : Type} : Outcome ε α → Bool
  | .ok _ => true
  | _ => false

end Outcome

/-- `v[i]`: panics when `i` is out of bounds. -/
def idx {ε α : Type} (l : List α) (i : Nat) : Outcome ε α :=
  match l[i]? with
  | some a => .ok a
  | none => .panic

/-- `&v[i..]`: panics when `i > v.len()`. -/
def sliceFrom {ε α : Type} (l : List α) (i : Nat) : Outcome ε (List α) :=
  if i ≤ l.length then .ok (l.drop i) else .panic

/-- `iter.map(f).collect::<Result<Vec<_>, _>>()`: stops at the first error. -/
def collect {ε α β : Type} (f : α → Outcome ε β) : List α → Outcome ε (List β)
  | [] => .ok []
  | x :: xs => do
    let y ← f x
    let ys ← collect f xs
    return y :: ys

/-- `char::is_whitespace` (Unicode `White_Space`). -/
def isWs (c : Char) : Bool :=
  let n := c.toNat
  (9 ≤ n && n ≤ 13) || n == 32 || n == 0x85 || n == 0xA0 || n == 0x1680
    || (0x2000 ≤ n && n ≤ 0x200A) || n == 0x2028 || n == 0x2029 || n == 0x202F
    || n == 0x205F || n == 0x3000

/-- `str::len`: the number of UTF-8 bytes. -/
def byteLen (s : Str) : Nat := (s.map Char.utf8Size).sum

/-- `str::trim_start` -/
def trimStart (s : Str) : Str := s.dropWhile isWs

/-- `str::trim_end` -/
def trimEnd (s : Str) : Str := (s.reverse.dropWhile isWs).reverse

/-- `str::trim` -/
def trim (s : Str) : Str := trimEnd (trimStart s)

/-- `str::split` with a character predicate. Never empty. -/
def splitP (p : Char → Bool) : Str → List Str
  | [] => [[]]
  | c :: cs =>
    if p c then [] :: splitP p cs
    else match splitP p cs with
      | [] => [[c]]
      | h :: t => (c :: h) :: t

/-- `str::split(c)` -/
def splitC (c : Char) (s : Str) : List Str := splitP (fun x => x == c) s

/-- `str::split_whitespace` = `split(char::is_whitespace).filter(|s| !s.is_empty())`. -/
def splitWs (s : Str) : List Str := (splitP isWs s).filter (fun t => !t.isEmpty)

/-- The text before and after the first occurrence of `c`, if there is one. -/
def breakC (c : Char) : Str → Option (Str × Str)
  | [] => none
  | x :: xs =>
    if x == c then some ([], xs)
    else match breakC c xs with
      | none => none
      | some (a, b) => some (x :: a, b)

/-- `str::splitn(n, c)` -/
def splitn : Nat → Char → Str → List Str
  | 0, _, _ => []
  | 1, _, s => [s]
  | n + 2, c, s =>
    match breakC c s with
    | none => [s]
    | some (a, b) => a :: splitn (n + 1) c b

/-- `str::strip_prefix` -/
def stripPrefix : Str → Str → Option Str
  | [], s => some s
  | _ :: _, [] => none
  | p :: ps, c :: cs => if p == c then stripPrefix ps cs else none

/-- `str::starts_with` (string pattern) -/
def startsWith (p s : Str) : Bool := (stripPrefix p s).isSome

/-- `str::starts_with` (char pattern) -/
def startsWithC (c : Char) (s : Str) : Bool := s.head? == some c

/-- `str::ends_with` (char pattern) -/
def endsWithC (c : Char) (s : Str) : Bool := s.getLast? == some c

/-- Removes one trailing carriage return. -/
def stripCR (s : Str) : Str := if endsWithC '\r' s then s.dropLast else s

/-- The pieces of a `split('\n')` as `str::lines` presents them: a terminated line loses the
`\n` and one `\r` before it, an unterminated last line is kept as it is unless it is empty. -/
def linesGo : List Str → List Str
  | [] => []
  | [l] => if l.isEmpty then [] else [l]
  | l :: m :: ls => stripCR l :: linesGo (m :: ls)

/-- `str::lines` (Rust ≥ 1.66: a `\r` is only dropped in front of a `\n`). -/
def lines (s : Str) : List Str := linesGo (splitC '\n' s)

/-- `[String]::join(sep)` -/
def joinS (sep : Str) : List Str → Str
  | [] => []
  | [x] => x
  | x :: y :: r => x ++ sep ++ joinS sep (y :: r)

/-- ASCII lower-casing of one character. -/
def asciiLower (c : Char) : Char :=
  if 'A'.toNat ≤ c.toNat && c.toNat ≤ 'Z'.toNat then Char.ofNat (c.toNat + 32) else c

/-- ASCII upper-casing of one character. -/
def asciiUpper (c : Char) : Char :=
  if 'a'.toNat ≤ c.toNat && c.toNat ≤ 'z'.toNat then Char.ofNat (c.toNat - 32) else c

def isAscii (s : Str) : Bool := s.all (fun c => c.toNat < 128)

end Sdp
