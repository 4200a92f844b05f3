import Verif.Spec.RfcLines
import Verif.Spec.Plain
/-!
# Writing what follows the standards

What is needed of the host parser for C111 and C112, and which values of the standards are left out.
-/

namespace Sdp.Rfc

open Abnf

/-- What is needed of the host parser, which is outside the model: a host name that came out of it is a fixed point of it, and
has the form of a host name if the text had. -/
structure HostNames [Env] : Prop where
  laws : Laws
  form : ∀ s d, fqdn s → Env.hostNA s = .domain d → fqdn d

/-- `ssrc-id SP attribute` where the value of the attribute, if it has one, is not only white space. -/
def ssrcPlain : Rule := fun v => ssrc v ∧ ∀ p w, v = p ++ ':' :: w → ':' ∉ p → ¬ Blank w

/-- `non-zero-int-or-real = integer / non-zero-real` (RFC 8866, 9), of any length. -/
def nonZeroIntOrReal : Rule :=
  alt [integer, seq [zeroBasedInteger, exactly ['.'], rep 0 (char Char.isDigit), char isPosDigit]]

/-! ## Image attributes (RFC 6236, 3.1.1)

The rules of Verif/Spec/RfcMore.lean for any `spvalue` and `qvalue`. -/

section
variable (sp q : Rule)

/-- `spvalue "-" spvalue` -/
def spRangeOf : Rule := fun s => ∃ a b, s = a ++ '-' :: b ∧ sp a ∧ sp b ∧ Less a b

/-- `srange = "[" spvalue 1*("," spvalue) "]" / "[" spvalue "-" spvalue "]" / spvalue` -/
def sRangeOf : Rule := alt
  [fun s => ∃ a l, l ≠ [] ∧ s = '[' :: joinS c%"," (a :: l) ++ c%"]" ∧ (∀ t ∈ a :: l, sp t) ∧ (a :: l).IsChain Less,
   seq [exactly ['['], spRangeOf sp, exactly [']']],
   sp]

/-- `key-value = ("sar=" srange) / ("par=" prange) / ("q=" qvalue)` -/
def keyValueOf : Rule := alt
  [seq [exactly c%"sar=", sRangeOf sp], seq [exactly c%"par=", seq [exactly ['['], spRangeOf sp, exactly [']']]],
   seq [exactly c%"q=", q]]

/-- `set = "[" "x=" xyrange "," "y=" xyrange *("," key-value) "]"` -/
def imageSetOf : Rule :=
  seq [exactly c%"[x=", xyRange, exactly c%",y=", xyRange, rep 0 (seq [exactly [','], keyValueOf sp q]), exactly [']']]

/-- `attr-list = (set *(1*WSP set)) / "*"` -/
def imageSetsOf : Rule := alt [seq [imageSetOf sp q, rep 0 (seq [SP, imageSetOf sp q])], exactly ['*']]

/-- `image-attr = "imageattr" ":" PT 1*2(1*WSP ("send" / "recv") 1*WSP attr-list)` -/
def imageattrOf : Rule :=
  seq [alt [number 127, exactly ['*']], SP, alt
    [seq [exactly c%"send", SP, imageSetsOf sp q, opt (seq [SP, exactly c%"recv", SP, imageSetsOf sp q])],
     seq [exactly c%"recv", SP, imageSetsOf sp q, opt (seq [SP, exactly c%"send", SP, imageSetsOf sp q])]]]

end

/-- `spvalue`, or a digit without a point and zeros. -/
def spWritten : Rule := alt [spValue, char isPosDigit]

/-- `qvalue`, or a digit without a point and zeros. -/
def qWritten : Rule := alt [qValue, exactly ['0'], exactly ['1']]

/-! ## Format parameters -/

/-- `fmtp` with no space but the one after the payload type. -/
def fmtpPlain : Rule := fun v => fmtp v ∧ v.count ' ' = 1

end Sdp.Rfc
