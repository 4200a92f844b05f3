import Verif.Spec.History
import Verif.Spec.Layout
/-!
# Lines of single values

What one value is written as, and the lines of a section kind by kind.
-/

namespace Sdp

/-- The line of a bandwidth, a connection, a timing, an attribute. The texts of the values are those of C80. -/
def bandwidthLine (b : Bandwidth) : Str := c%"b=" ++ showBandwidth b
def connectionLine (c : Connection) : Str := c%"c=" ++ showConnection c
def timingLine (t : Timing) : Str := c%"t=" ++ showTiming t
def attributeLine (a : Attribute) : Str := c%"a=" ++ showAttribute a

/-- The attribute is written as something. -/
def Attribute.Written (a : Attribute) : Prop := showAttribute a ≠ []

/-- The call leaves the m= line as it is. -/
def MediaOp.keepsMediaLine : MediaOp → Bool
  | .addBandwidth _ | .setConnection _ | .addAttribute _ | .removeAttribute _ | .setAttribute _ => true
  | _ => false

/-- The bandwidth a call adds. -/
def MediaOp.bandwidths : MediaOp → List Bandwidth
  | .addBandwidth b => [b]
  | _ => []

/-- The connection a section has after a call. -/
def MediaOp.connectionAfter (old : Option Connection) : MediaOp → Option Connection
  | .setConnection c => some c
  | _ => old

end Sdp
