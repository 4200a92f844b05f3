import Verif.Spec.Insert
/-!
# The c= and t= lines among the lines of a text
-/

namespace Sdp

section
variable [Env]

/-- The connections of the c= lines that are read, in order. -/
def connectionsRead (p : List Str) : List Connection :=
  p.filterMap fun l => match lineMeaning l with | .ok (.connection c) => some c | _ => none

/-- The timings of the t= lines that are read, in order. -/
def timingsRead (p : List Str) : List Timing :=
  p.filterMap fun l => match lineMeaning l with | .ok (.timing t) => some t | _ => none

/-- The lines up to the first m= line. -/
def upToMedia (q : List Str) : List Str := q.takeWhile fun l => !isMediaLine l

end

end Sdp
