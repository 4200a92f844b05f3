import Verif.Spec.Sequence
/-!
# The two public parsers of line vectors, called directly

What `parse_session_vector` does with a session and a vector of lines, and what `parse_media_vector`
returns: the result, and the lines that are left in the vector.
-/

namespace Sdp

section
variable [Env]

/-- The line cannot be taken over into a session. -/
def DirectFault (l : SdpLine) (msg : Str) : Prop :=
  SessionLineFault l msg ∨ ∃ m, l.sdpType = .media m ∧ msg = c%"media line not allowed in session parser"

/-- The session, the lines left and the result after `parse_session_vector`: all lines are taken over, or those
before the first wrong one; that one is consumed and named. -/
inductive SessionVector (s : Session) (ls : List SdpLine) : Session → List SdpLine → Outcome ParserError Unit → Prop
  | all : GoodSessionPart ls → SessionVector s ls (withSessionPart s ls) [] (.ok ())
  | wrong {pre post : List SdpLine} {l : SdpLine} {msg : Str} : ls = pre ++ l :: post → GoodSessionPart pre →
      DirectFault l msg → SessionVector s ls (withSessionPart s pre) post (.err (.sequence msg l.lineNumber))

/-- The line cannot be added to the section. -/
def SectionFault (m : Media) (l : SdpLine) (msg : Str) : Prop :=
  match l.sdpType with
  | .connection _ => m.connection ≠ none ∧ msg = c%"connection type already exists at this media level"
  | .attr a => isDtls a = false ∧ a.type ∈ sessionOnly ∧
      msg = c%"Parsing error: " ++ (showAttribute a ++ c%" not allowed at media level")
  | .version _ | .origin _ | .session _ | .timing _ => msg = c%"invalid type in media section"
  | _ => False

/-- These lines begin with an m= line and make up good sections. -/
def GoodSections (ls : List SdpLine) : Prop :=
  (∃ l rest m, ls = l :: rest ∧ l.sdpType = .media m) ∧ ∀ p ∈ sectionsOf ls, GoodSection p.2

/-- The lines left and the result of `parse_media_vector`. -/
inductive MediaVector (ls : List SdpLine) : List SdpLine → Outcome ParserError (List Media) → Prop
  | empty : ls = [] → MediaVector ls [] .panic
  | all : GoodSections ls → MediaVector ls [] (.ok ((sectionsOf ls).map sectionMedia))
  | first {l : SdpLine} {post : List SdpLine} : ls = l :: post → (∀ m, l.sdpType ≠ .media m) →
      MediaVector ls post (.err (.sequence c%"first line in media section needs to be a media line" l.lineNumber))
  | wrong {pre post : List SdpLine} {l : SdpLine} {m : Media} {msg : Str} : ls = pre ++ l :: post → GoodSections pre →
      ((sectionsOf pre).map sectionMedia).getLast? = some m → SectionFault m l msg →
      MediaVector ls post (.err (.sequence msg l.lineNumber))

/-- The lines a session takes over. -/
def goodLines (ls : List SdpLine) : List SdpLine :=
  ls.filter fun l => match l.sdpType with
    | .attr a => decide (a.type ∉ mediaOnly)
    | .bandwidth _ | .connection _ | .timing _ => true
    | _ => false

end

end Sdp
