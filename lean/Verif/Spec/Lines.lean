import Verif.Model.Anon
/-!
# What the lines of a text are

Specification vocabulary for the theorems about whole texts: numbered non-blank lines, and the
classification of a line by the public function `parse_sdp_line` alone.
-/

namespace Sdp

/-- A line is blank when all its characters are white space. -/
def Blank (l : Str) : Prop := ∀ c ∈ l, isWs c = true

instance (l : Str) : Decidable (Blank l) := inferInstanceAs (Decidable (∀ c ∈ l, isWs c = true))

/-- The lines with something in them, each with its 0-based number; counting starts at `n`. -/
def contentFrom (n : Nat) (ls : List Str) : List (Str × Nat) :=
  (ls.zipIdx n).filter (fun p => decide (¬ Blank p.1))

/-- The non-blank lines of a text, with their 0-based numbers among all lines. -/
def contentLines (s : Str) : List (Str × Nat) := contentFrom 0 (lines s)

/-- What `parse_sdp_line` accepts, in order. -/
def acceptedLines [Env] (l : List (Str × Nat)) : List SdpLine :=
  l.filterMap fun p => match parseSdpLine p.1 p.2 with
    | .ok x => some x
    | _ => none

/-- The `Unsupported` errors `parse_sdp_line` gives, in order. -/
def unsupportedErrors [Env] (l : List (Str × Nat)) : List ParserError :=
  l.filterMap fun p => match parseSdpLine p.1 p.2 with
    | .err (.unsupported e t k) => some (.unsupported e t k)
    | _ => none

/-- The other errors `parse_sdp_line` gives, in order. -/
def hardErrors [Env] (l : List (Str × Nat)) : List ParserError :=
  l.filterMap fun p => match parseSdpLine p.1 p.2 with
    | .err (.unsupported _ _ _) => none
    | .err e => some e
    | _ => none

end Sdp
