import Verif.Spec.Rfc
import Verif.Spec.Float
/-!
# What the standards say about the remaining attributes

Format parameters, frame rates, image attributes and the attributes that only have a draft or a later RFC, in the same way as
Verif/Spec/Rfc.lean: **only** marks where the library takes less than the RFC, and Verif/Props/RfcMore.lean shows that it does.
-/

namespace Sdp.Rfc

open Abnf

/-! ## Format parameters -/

/-- Parameters with a number, from RFC 6184 (8.1), 7741 (6.1) and 7587 (6.1), up to 2^32-1. -/
def numberParameters : List Str :=
  [c%"max-mbps", c%"max-fs", c%"max-cpb", c%"max-dpb", c%"max-br", c%"max-fr", c%"maxplaybackrate", c%"maxaveragebitrate",
   c%"ptime", c%"maxptime", c%"minptime"]

/-- Parameters that are 0 or 1, from RFC 6184, 7587 and the RTP payload format for AV1. -/
def switchParameters : List Str :=
  [c%"level-asymmetry-allowed", c%"usedtx", c%"stereo", c%"useinbandfec", c%"cbr", c%"tier"]

/-- Parameters that are 0, 1 or 2, from RFC 6184 and AV1. -/
def modeParameters : List Str := [c%"packetization-mode", c%"profile"]

/-- The parameters the library knows. -/
def knownParameters : List Str :=
  numberParameters ++ switchParameters ++ modeParameters ++ [c%"level-idx", c%"profile-level-id", c%"apt", c%"rtx-time"]

/-- One of these names, in any letter case. -/
def oneOf (names : List Str) : Rule := alt (names.map word)

/-- `apt=<payload-type>` (RFC 4588, 8.1) -/
def aptParameter : Rule := seq [word c%"apt", exactly ['='], number 127]

/-- `rtx-time=<milliseconds>` (RFC 4588, 8.1), up to 2^32-1. -/
def rtxTimeParameter : Rule := seq [word c%"rtx-time", exactly ['='], number (2 ^ 32 - 1)]

/-- A parameter the library does not know: the value is any text without semicolons and white space. -/
def unknownParameter : Rule :=
  seq [fun s => token s ∧ ∀ n ∈ knownParameters, ¬ word n s, exactly ['='],
    rep 0 (char fun c => (isVchar c || (0x80 ≤ c.toNat && !isWs c)) && c != ';')]

/-- A parameter `name=value` other than `rtx-time`. -/
def parameter : Rule := alt
  [seq [oneOf numberParameters, exactly ['='], number (2 ^ 32 - 1)],
   seq [oneOf switchParameters, exactly ['='], number 1],
   seq [oneOf modeParameters, exactly ['='], number 2],
   seq [word c%"level-idx", exactly ['='], number 31],
   seq [word c%"profile-level-id", exactly ['='], reps 6 6 (char fun c => c.isDigit || c ∈ c%"abcdefABCDEF")],
   aptParameter,
   unknownParameter]

/-- Parameters with semicolons between them; after a semicolon there may be a space. `rtx-time` **only** after an `apt` that has no
space before it. -/
def parameters : Rule := alt
  [seq [parameter, rep 0 (seq [exactly [';'], opt SP, parameter]), opt (exactly [';'])],
   seq [rep 0 (seq [parameter, exactly [';']]), aptParameter,
     rep 0 (seq [exactly [';'], opt SP, alt [parameter, rtxTimeParameter]]), opt (exactly [';'])]]

/-- The encodings of redundant audio (RFC 2198, 5): `pt 1*("/" pt)`. -/
def redundant : Rule := seq [number 127, rep 1 (seq [exactly ['/'], number 127])]

/-- Telephone events (RFC 4733, 2.4.1): numbers and ranges, with commas between them. -/
def events : Rule :=
  let item := seq [number 255, opt (seq [exactly ['-'], number 255])]
  seq [item, rep 0 (seq [exactly [','], item])]

/-- `fmtp-value = fmt SP format-specific-params`, `format-specific-params = byte-string` (RFC 8866, 6.15), where the parameters
are those of the RFCs above. -/
def fmtp : Rule := seq [number 127, SP, alt [parameters, redundant, events]]

/-! ## Frame rates (RFC 8866, 6.13) -/

/-- `POS-DIGIT = %x31-39` -/
def isPosDigit (c : Char) : Bool := c.isDigit && c != '0'

/-- `integer = POS-DIGIT *DIGIT` -/
def integer : Rule := seq [char isPosDigit, rep 0 (char Char.isDigit)]

/-- `zero-based-integer = "0" / integer` -/
def zeroBasedInteger : Rule := alt [exactly ['0'], integer]

/-- `non-zero-int-or-real = integer / non-zero-real`, `non-zero-real = zero-based-integer "." *DIGIT POS-DIGIT`, **only** up to 300
characters: greater numbers are infinite for the library, and smaller ones are zero. -/
def frameRate : Rule := fun s => s.length ≤ 300 ∧
  alt [integer, seq [zeroBasedInteger, exactly ['.'], rep 0 (char Char.isDigit), char isPosDigit]] s

/-! ## Image attributes (RFC 6236, 3.1.1) -/

/-- `xyvalue = onetonine *5DIGIT` -/
def xyValue : Rule := seq [char isPosDigit, reps 0 5 (char Char.isDigit)]

/-- `xyrange = "[" xyvalue ":" [step ":"] xyvalue "]" / "[" xyvalue 1*("," xyvalue) "]" / xyvalue`, `step = xyvalue` -/
def xyRange : Rule := alt
  [seq [exactly ['['], xyValue, exactly [':'], opt (seq [xyValue, exactly [':']]), xyValue, exactly [']']],
   seq [exactly ['['], xyValue, rep 1 (seq [exactly [','], xyValue]), exactly [']']],
   xyValue]

/-- `spvalue = "0" "." onetonine *3DIGIT / onetonine "." 1*4DIGIT` -/
def spValue : Rule := alt
  [seq [exactly c%"0.", char isPosDigit, reps 0 3 (char Char.isDigit)],
   seq [char isPosDigit, exactly ['.'], reps 1 4 (char Char.isDigit)]]

/-- The first is a smaller number than the second. -/
def Less (a b : Str) : Prop := ∃ x y, DecimalText a x ∧ DecimalText b y ∧ x < y

/-- `spvalue "-" spvalue`, **only** with the smaller one first. -/
def spRange : Rule := fun s => ∃ a b, s = a ++ '-' :: b ∧ spValue a ∧ spValue b ∧ Less a b

/-- `srange = "[" spvalue 1*("," spvalue) "]" / "[" spvalue "-" spvalue "]" / spvalue`, **only** with increasing values. -/
def sRange : Rule := alt
  [fun s => ∃ a l, l ≠ [] ∧ s = '[' :: joinS c%"," (a :: l) ++ c%"]" ∧ (∀ t ∈ a :: l, spValue t) ∧ (a :: l).IsChain Less,
   seq [exactly ['['], spRange, exactly [']']],
   spValue]

/-- `prange = "[" spvalue "-" spvalue "]"` -/
def pRange : Rule := seq [exactly ['['], spRange, exactly [']']]

/-- `qvalue = ("0" "." 1*2DIGIT) / ("1" "." 1*2("0"))` -/
def qValue : Rule := alt
  [seq [exactly c%"0.", reps 1 2 (char Char.isDigit)], seq [exactly c%"1.", reps 1 2 (exactly ['0'])]]

/-- `key-value = ("sar=" srange) / ("par=" prange) / ("q=" qvalue)`, **only** in lower case. -/
def keyValue : Rule := alt
  [seq [exactly c%"sar=", sRange], seq [exactly c%"par=", pRange], seq [exactly c%"q=", qValue]]

/-- `set = "[" "x=" xyrange "," "y=" xyrange *("," key-value) "]"`, **only** in lower case. -/
def imageSet : Rule :=
  seq [exactly c%"[x=", xyRange, exactly c%",y=", xyRange, rep 0 (seq [exactly [','], keyValue]), exactly [']']]

/-- `attr-list = (set *(1*WSP set)) / "*"`, **only** with a single space between sets. -/
def imageSets : Rule := alt [seq [imageSet, rep 0 (seq [SP, imageSet])], exactly ['*']]

/-- `image-attr = "imageattr" ":" PT 1*2(1*WSP ("send" / "recv") 1*WSP attr-list)`, `PT = 1*DIGIT / "*"`: **only** with single
spaces, directions in lower case, and not the same direction twice; up to 2^31-16 characters. -/
def imageattr : Rule := fun s => s.length ≤ 2 ^ 31 - 16 ∧
  seq [alt [number 127, exactly ['*']], SP, alt
    [seq [exactly c%"send", SP, imageSets, opt (seq [SP, exactly c%"recv", SP, imageSets])],
     seq [exactly c%"recv", SP, imageSets, opt (seq [SP, exactly c%"send", SP, imageSets])]]] s

/-! ## Others -/

/-- `base64-char = ALPHA / DIGIT / "+" / "/"`, and the padding. -/
def isBase64 (c : Char) : Bool := isAlphaNumeric c || c == '+' || c == '/' || c == '='

/-- `identity-assertion-value = identity-assertion *(SP identity-extension)`, `identity-assertion = base64`,
`identity-extension = extension-name ["=" extension-value]` (RFC 8827, 5): the extensions are any text here. -/
def identity : Rule := seq [rep 1 (char isBase64), opt (seq [SP, byteString])]

/-- `msid-semantic-attr = "msid-semantic:" msid-semantic msid-list`, `msid-list = *(" " msid-id) / " *"` (a draft of RFC 8830);
browsers write a space after the colon. -/
def msidSemantic : Rule := seq [opt SP, token, rep 0 (seq [SP, token])]

/-- `sctpmap-attr = "a=sctpmap:" sctpmap-number media-subtypes [streams]` (a draft of RFC 8841): **only** for data channels, and with
the number of streams. -/
def sctpmap : Rule := seq [number 65535, SP, word c%"webrtc-datachannel", SP, number (2 ^ 32 - 1)]

/-- `dtls-message:client` or `server` and a DTLS message in base64 (draft-rescorla-dtls-in-sdp). -/
def dtlsMessage : Rule := seq [alt [exactly c%"client", exactly c%"server"], SP, rep 1 (char isBase64)]

end Sdp.Rfc
