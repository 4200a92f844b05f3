import Verif.Spec.Lines
/-!
# What a line means

The result of `parse_sdp_line` without the number and the text it records.
-/

namespace Sdp

/-- The value of the line, or the inner error. -/
def lineMeaning [Env] (l : Str) : Outcome InternalError SdpType :=
  match parseSdpLine l 0 with
  | .ok x => .ok x.sdpType
  | .err (.line e _ _) => .err e
  | .err (.unsupported e _ _) => .err e
  | .err (.sequence m _) => .err (.generic m)
  | .panic => .panic

/-- The outcome, with an error reduced to whether it is an unsupported one. -/
def Outcome.kind {α : Type} : Outcome InternalError α → Outcome Bool α
  | .ok a => .ok a
  | .err (.unsupported _) => .err true
  | .err _ => .err false
  | .panic => .panic

/-- The session name without the white space around it, which is dropped from the session anyway. -/
def SdpType.trimmed : SdpType → SdpType
  | .session t => .session (trim t)
  | x => x

/-- What counts of a line when the whole text is parsed. -/
def lineKind [Env] (l : Str) : Outcome Bool SdpType :=
  match (lineMeaning l).kind with
  | .ok x => .ok x.trimmed
  | .err b => .err b
  | .panic => .panic

/-- The two texts differ at most in the case of ASCII letters. -/
def SameLetters (a b : Str) : Prop := a.map asciiLower = b.map asciiLower

end Sdp
