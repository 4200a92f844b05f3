import Verif.Spec.Lines
/-!
# Forgetting line numbers and warnings

Used to compare the results for two texts whose lines are numbered differently.
-/

namespace Sdp

/-- The error without its line number. -/
def ParserError.unnumbered : ParserError → ParserError
  | .line e t _ => .line e t 0
  | .unsupported e t _ => .unsupported e t 0
  | .sequence m _ => .sequence m 0

/-- The result of `parse_sdp` with all line numbers forgotten. -/
def unnumbered : Outcome ParserError Session → Outcome ParserError Session
  | .ok r => .ok { r with warnings := r.warnings.map ParserError.unnumbered }
  | .err e => .err e.unnumbered
  | .panic => .panic

/-- ... and the warnings forgotten too. -/
def withoutWarnings : Outcome ParserError Session → Outcome ParserError Session
  | .ok r => .ok { r with warnings := [] }
  | .err e => .err e.unnumbered
  | .panic => .panic

/-- `parse_sdp_line` calls the line unsupported. -/
def isUnsupported [Env] (l : Str) : Bool :=
  match parseSdpLine l 0 with
  | .err (.unsupported _ _ _) => true
  | _ => false

/-- The error points to the line of the text it is about: a `Line` or `Unsupported` error carries the
text and number of a non-blank line on which `parse_sdp_line` fails with it; the number of a
`Sequence` error is at most 2 or that of a non-blank line. -/
def PointsInto [Env] (s : Str) (e : ParserError) : Prop :=
  match e with
  | .line _ t n | .unsupported _ t n => (lines s)[n]? = some t ∧ ¬ Blank t ∧ parseSdpLine t n = .err e
  | .sequence _ n => n ≤ 2 ∨ ∃ t, (lines s)[n]? = some t ∧ ¬ Blank t

/-- A text written as lines, each ended by CRLF (`true`) or LF (`false`). -/
def renderLines (ls : List (Str × Bool)) : Str :=
  ls.flatMap fun p => p.1 ++ (if p.2 then ['\r', '\n'] else ['\n'])

/-- Can be a line: no line feed, and no carriage return at the end. -/
def LineText (l : Str) : Prop := '\n' ∉ l ∧ l.getLast? ≠ some '\r'

end Sdp
