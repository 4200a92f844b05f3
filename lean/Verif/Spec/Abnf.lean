import Verif.Spec.Num
/-!
# Grammars as in RFC 5234

A rule is the set of the texts it stands for. The operations are those of RFC 5234 and 7405.
-/

namespace Sdp

/-- A rule of a grammar. -/
abbrev Rule := Str → Prop

namespace Abnf

/-- One character of a set: `%x30-39` (RFC 5234, 2.3 and 3.4). -/
def char (p : Char → Bool) : Rule := fun s => ∃ c, s = [c] ∧ p c = true

/-- A text in this letter case: `%s"..."` (RFC 7405). -/
def exactly (t : Str) : Rule := fun s => s = t

/-- A text in any letter case: `"..."` (RFC 5234, 2.3). -/
def word (t : Str) : Rule := fun s => s.map Char.toLower = t.map Char.toLower

instance (t s : Str) : Decidable (word t s) := inferInstanceAs (Decidable (s.map Char.toLower = t.map Char.toLower))

/-- Concatenation: `a b c` (3.1). -/
def seq : List Rule → Rule
  | [] => fun s => s = []
  | a :: l => fun s => ∃ u v, s = u ++ v ∧ a u ∧ seq l v

/-- Alternatives: `a / b / c` (3.2). -/
def alt (l : List Rule) : Rule := fun s => ∃ a ∈ l, a s

/-- Repetition: `lo*a` (3.6). -/
def rep (lo : Nat) (a : Rule) : Rule := fun s => ∃ ts : List Str, s = ts.flatten ∧ lo ≤ ts.length ∧ ∀ t ∈ ts, a t

/-- Repetition: `lo*hi a` (3.6). -/
def reps (lo hi : Nat) (a : Rule) : Rule :=
  fun s => ∃ ts : List Str, s = ts.flatten ∧ lo ≤ ts.length ∧ ts.length ≤ hi ∧ ∀ t ∈ ts, a t

/-- An optional part: `[a]` (3.8). -/
def opt (a : Rule) : Rule := fun s => s = [] ∨ a s

/-- `1*DIGIT`, where the number may have an upper limit. -/
def number (max : Nat) : Rule := fun s => s ≠ [] ∧ (∀ c ∈ s, c.isDigit = true) ∧ decValue s ≤ max

end Abnf

end Sdp
