import Verif.Model.Session
import Verif.Model.Show
/-!
# Specification: parsing and printing over and over
-/

namespace Sdp

/-- What an attribute becomes when it is printed and read: nothing, if it is not read. -/
def rereadAttr [Env] (a : Attribute) : Option Attribute :=
  match attrFromStr (showAttribute a) with
  | .ok b => some b
  | _ => none

/-- What a text becomes when it is parsed and the session is printed: nothing, if it is not parsed. -/
def reprint [Env] (f : Bool) (t : Str) : Option Str :=
  match parseSdp t f with
  | .ok s => some (showSession s)
  | _ => none

/-- The same, so many times. -/
def reprints [Env] (f : Bool) : Nat → Str → Option Str
  | 0, t => some t
  | n + 1, t => (reprints f n t).bind (reprint f)

end Sdp
