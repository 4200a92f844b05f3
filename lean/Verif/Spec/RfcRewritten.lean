import Verif.Spec.RfcWritten
import Verif.Spec.RfcDocument
/-!
# The lines that are written for descriptions of the standards

Which lines C112 starts from, and which rules the lines written for them follow.
-/

namespace Sdp.Rfc

open Abnf

section
variable [Env]

/-- The attribute is not one that is not written back properly: an ssrc with a blank value, or format parameters with more than
one space. -/
def Plain : Rule := fun a => (∀ v, a = c%"ssrc:" ++ v → ssrcPlain v) ∧ ∀ v, a = c%"fmtp:" ++ v → fmtpPlain v

/-- What is written for an attribute that follows its rule: it follows the rule for its name again, but a frame rate may have any
number of digits, and in an image attribute a whole number may be without the point. -/
def writtenAttribute : Rule := alt
  [knownAttribute, named c%"framerate" nonZeroIntOrReal, named c%"imageattr" (imageattrOf spWritten qWritten)]

/-- A line as it is written: it follows the rule for its letter; or it is the empty a= line that stands for attributes nothing is
written for. -/
def writtenLine : Rule := alt
  [seq [exactly c%"v=", version], seq [exactly c%"o=", origin], seq [exactly c%"s=", sessionName], seq [exactly c%"c=", connection],
   seq [exactly c%"b=", bandwidth], seq [exactly c%"t=", timing], seq [exactly c%"m=", media], seq [exactly c%"a=", writtenAttribute],
   exactly c%"a="]

end

end Sdp.Rfc
