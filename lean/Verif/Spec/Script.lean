import Verif.Spec.Build
import Verif.Spec.Meaning
/-!
# The call for a line

Which call on a session says what a line of a text says.
-/

namespace Sdp

/-- The call for a line on a session with `n` sections. Before the first section it is a call on the session, after it a call on
the last section; for an m= line, a section with nothing but this line is appended. There is no call for v=, o= and s= lines, nor for
a t= line of a section. -/
def callFor (n : Nat) : SdpType → Option BuildOp
  | .attr a => some (if n = 0 then .session (.addAttribute a) else .inSection (n - 1) (.addAttribute a))
  | .bandwidth b => some (if n = 0 then .session (.addBandwidth b) else .inSection (n - 1) (.addBandwidth b))
  | .connection c => some (if n = 0 then .session (.setConnection c) else .inSection (n - 1) (.setConnection c))
  | .timing t => if n = 0 then some (.session (.setTiming t)) else none
  | .media m => some (.session (.extendMedia [⟨m, none, [], []⟩]))
  | .version _ | .origin _ | .session _ => none

/-- The values of the lines that have one. -/
def valuesRead [Env] (ls : List Str) : List SdpType :=
  ls.filterMap fun l => match lineMeaning l with | .ok v => some v | _ => none

end Sdp
