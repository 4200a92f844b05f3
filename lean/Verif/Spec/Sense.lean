import Verif.Spec.Document
/-!
# What counts of a line, and what counts of an outcome
-/

namespace Sdp

section
variable [Env]

/-- What a line says is what it denotes, where the white space around a session name does not count. -/
def Says (l : Str) : SdpType → Prop
  | .session s => ∃ raw, LineDenotes l (.session raw) ∧ Stripped raw s
  | t => LineDenotes l t

/-- Two lines that say the same; or both are blank, both are unsupported, or both are wrong. -/
structure SameSense (l l' : Str) : Prop where
  blank : Blank l ↔ Blank l'
  value : ∀ t, Says l t ↔ Says l' t
  unsupported : UnsupportedText l ↔ UnsupportedText l'

end

/-- Errors of the same kind in lines of the same number; for a wrong sequence with the same message. -/
def ParserError.SamePlace : ParserError → ParserError → Prop
  | .line _ _ n, .line _ _ n' => n = n'
  | .unsupported _ _ n, .unsupported _ _ n' => n = n'
  | .sequence m n, .sequence m' n' => m = m' ∧ n = n'
  | _, _ => False

/-- The same session with warnings for the same lines, or an error of the same kind at the same place. -/
def SameOutcome : Outcome ParserError Session → Outcome ParserError Session → Prop
  | .ok r, .ok r' => { r with warnings := [] } = { r' with warnings := [] } ∧ Each ParserError.SamePlace r.warnings r'.warnings
  | .err e, .err e' => e.SamePlace e'
  | _, _ => False

end Sdp
