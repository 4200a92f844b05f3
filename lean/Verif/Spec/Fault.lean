import Verif.Spec.Document
import Verif.Spec.NumError
import Verif.Spec.Ranges
/-!
# What is wrong with a line

For every kind of line and attribute the faults it can have, in the order in which they count, each with the
error that reports it. The error of a rejected line is that of its first fault. Nothing here refers to the
parser.
-/

namespace Sdp

/-- A fault a text may have: the errors that report it, none if the text does not have it. -/
abbrev Fault := InternalError → Prop

/-- The error is that of the first fault of the list that is there. -/
def FirstFault (cs : List Fault) (e : InternalError) : Prop :=
  ∃ pre c post, cs = pre ++ c :: post ∧ (∀ d ∈ pre, ∀ e', ¬ d e') ∧ c e

/-! ## Parts of texts -/

/-- The text up to the first `c`, or all of it. -/
def upTo (c : Char) (s : Str) : Str := s.takeWhile fun x => decide (x ≠ c)

/-- The text behind the first `c`; nothing if there is none. -/
def behind (c : Char) (s : Str) : Str := (s.dropWhile fun x => decide (x ≠ c)).drop 1

/-- One of several words or fields, counted from 0. -/
def item (ts : List Str) (i : Nat) : Str := ts.getD i []

/-! ## Simple faults -/

def wrongIf (p : Prop) (m : Str) : Fault := fun e => p ∧ e = .generic m

def unsupportedIf (p : Prop) (m : Str) : Fault := fun e => p ∧ e = .unsupported m

/-- There are too few words or fields. -/
def missing (ts : List Str) (i : Nat) (m : Str) : Fault := wrongIf (ts.length ≤ i) m

/-- It is no number, or none of so many bits. -/
def notNumber (bits : Nat) (s : Str) : Fault := fun e => ∃ k, numberError (2^bits) s = some k ∧ e = .integer k

/-- It is too big a number. -/
def tooBig (s : Str) (largest : Nat) (m : Str) : Fault := wrongIf (∃ n, DecText s n ∧ largest < n) m

instance : DecidablePred IsHexDigit := fun _ => inferInstanceAs (Decidable (_ ∨ _ ∨ _))

/-- The hexadecimal digits a text begins with, after an optional plus sign. -/
def leadingHex (s : Str) : Str := (unsigned s).takeWhile fun c => decide (IsHexDigit c)

/-- What is wrong with a text as a hexadecimal number below `lim`, if anything. -/
def hexError (lim : Nat) (s : Str) : Option IntErr :=
  if s = [] then some .empty
  else if lim ≤ hexValue (leadingHex s) then some .posOverflow
  else if leadingHex s = [] ∨ leadingHex s ≠ unsigned s then some .invalidDigit
  else none

def notHex (bits : Nat) (s : Str) : Fault := fun e => ∃ k, hexError (2^bits) s = some k ∧ e = .integer k

def notF32 (s : Str) : Fault := fun e => (∀ x, ¬ F32Text s x) ∧ e = .float (if s = [] then .empty else .invalid)

def notF64 (s : Str) : Fault := fun e => (∀ x, ¬ F64Text s x) ∧ e = .float (if s = [] then .empty else .invalid)

/-- It is neither `send` nor `recv`. -/
def noDirection (s : Str) : Fault :=
  wrongIf (∀ d, s ≠ singleDirectionText d) (c%"Unknown direction description found: '" ++ s ++ c%"'")

/-- It is neither a number nor `*`. -/
def noPayloadType (s : Str) : Fault := fun e => s ≠ c%"*" ∧ notNumber 8 s e

section
variable [Env]

/-! ## Addresses -/

/-- It is no address. What is wrong with it, the host parser (outside the model) says, unless there is a colon
in it. -/
def noAddress (s : Str) : Fault := fun e =>
  (∀ ip, ¬ IpText s ip) ∧ ∃ m, Env.hostNA s = .error m ∧ e = if ':' ∈ s then .ipAddress else .domain m

/-- It is an address of another family than the word `t`, in upper case, says. -/
def wrongFamily (t s : Str) : Fault := fun e =>
  ∃ ip ty, AddressText s (.ip ip) ∧ t = addrTypeText ty ∧ ipFamily ip ≠ ty ∧ e = .addressTypeMismatch (ipFamily ip) ty

def noNetwork (s : Str) : Fault := wrongIf (upper s ≠ c%"IN") c%"nettype must be IN"

def noAddressType (s : Str) : Fault :=
  wrongIf (∀ t, upper (upper s) ≠ addrTypeText t) c%"address type must be IP4 or IP6"

/-! ## Attributes -/

def ssrcGroupFaults (ts : List Str) : List Fault :=
  [missing ts 0 c%"Ssrc group attribute is missing semantics",
   unsupportedIf (∀ g, upper (item ts 0) ≠ ssrcGroupText g)
     (c%"Unknown ssrc semantic '" ++ debugStr (upper (item ts 0)) ++ c%"' found")] ++
  (ts.drop 1).map (notNumber 32) ++
  [missing ts 1 c%"Ssrc group must contain at least one ssrc"]

/-- The faults of one extension of a candidate. -/
def candidateExtensionFaults (n v : Str) : List Fault :=
  if lower n = c%"generation" ∨ lower n = c%"network-cost" then [notNumber 32 v]
  else if lower n = c%"raddr" then [noAddress v]
  else if lower n = c%"rport" then
    [notNumber 32 v, tooBig v 65535 c%"ICE candidate rport can only be a bit 16bit number"]
  else if lower n = c%"tcptype" then
    [wrongIf (∀ t, lower v ≠ tcpTypeText t) c%"Unknown tcptype value in candidate line"]
  else []

/-- The extensions of a candidate: names and values in turn. -/
def candidateExtensionsFaults : List Str → List Fault
  | n :: v :: rest => candidateExtensionFaults n v ++ candidateExtensionsFaults rest
  | [_] => [unsupportedIf True c%"Ice candidate extension name without value"]
  | [] => []

def candidateFaults (ts : List Str) : List Fault :=
  [wrongIf (ts.length < 8) c%"Candidate needs to have minimum eigth tokens",
   notNumber 32 (item ts 1),
   wrongIf (∀ t, lower (item ts 2) ≠ transportText t) c%"Unknonw candidate transport value",
   notNumber 64 (item ts 3),
   noAddress (item ts 4),
   notNumber 32 (item ts 5),
   tooBig (item ts 5) 65535 c%"ICE candidate port can only be a bit 16bit number",
   wrongIf (lower (item ts 6) ≠ c%"typ") c%"Candidate attribute token must be 'typ'",
   wrongIf (∀ t, lower (item ts 7) ≠ candTypeText t) c%"Unknow candidate type value"] ++
  candidateExtensionsFaults (ts.drop 8)

/-- Here `fs` are the fields between spaces, not the words. -/
def dtlsMessageFaults (fs : List Str) : List Fault :=
  [wrongIf (fs.length ≠ 2) c%"dtls-message must have a role token and a value token.",
   wrongIf (item fs 0 ∉ [c%"client", c%"server"]) (c%"dtls-message has unknown role token '" ++ item fs 0 ++ c%"'")]

def extmapFaults (ts : List Str) : List Fault :=
  [wrongIf (ts.length < 2) c%"Extmap needs to have at least two tokens",
   notNumber 16 (upTo '/' (item ts 0)),
   wrongIf ('/' ∈ item ts 0 ∧ ∀ d, lower (behind '/' (item ts 0)) ≠ directionText d)
     c%"Unsupported direction in extmap value",
   wrongIf (∃ t ∈ ts.drop 2, '\x00' ∈ t) c%"Illegal character in extmap extension attributes"]

/-- Here `fs` are the fields between colons of the second word. -/
def fingerprintFaults (ts fs : List Str) : List Fault :=
  [wrongIf (ts.length ≠ 2) c%"Fingerprint needs to have two tokens",
   unsupportedIf (∀ h, item ts 0 ≠ hashText h)
     (c%"fingerprint contains an unsupported hash algorithm '" ++ item ts 0 ++ c%"'")] ++
  fs.flatMap (fun f => [wrongIf (byteLen f ≠ 2) c%"fingerpint's byte tokens must have 2 hexdigits", notHex 8 f]) ++
  [fun e => ∃ h, item ts 0 = hashText h ∧ fs.length ≠ fingerprintBytes h ∧
     e = .generic (c%"fingerprint has " ++ showNat fs.length ++ c%" bytes but should have " ++
       showNat (fingerprintBytes h) ++ c%" bytes")]

/-- What is said if a numeric fmtp parameter is out of range; none if it has no range of its own. -/
def FmtpField.message : FmtpField → Option Str
  | profileLevelId => some c%"The fmtp parameter 'profile-level-id' must be in range [0,0xffffff]"
  | packetizationMode => some c%"The fmtp parameter 'packetization-mode' must be 0,1 or 2"
  | levelAsymmetryAllowed => some c%"The fmtp parameter 'level-asymmetry-allowed' must be 0 or 1"
  | usedtx => some c%"The fmtp parameter 'usedtx' must be 0 or 1"
  | stereo => some c%"The fmtp parameter 'stereo' must be 0 or 1"
  | useinbandfec => some c%"The fmtp parameter 'useinbandfec' must be 0 or 1"
  | cbr => some c%"The fmtp parameter 'cbr' must be 0 or 1"
  | profile => some c%"The fmtp parameter 'profile' must be in the range [0,2]"
  | levelIdx => some c%"The fmtp parameter 'level-idx' must be in the range [0,31]"
  | tier => some c%"The fmtp parameter 'tier' must be in the range [0,1]"
  | _ => none

/-- How many bits a numeric fmtp parameter has. -/
def FmtpField.bits : FmtpField → Nat
  | levelAsymmetryAllowed | usedtx | stereo | useinbandfec | cbr | profile | levelIdx | tier | apt => 8
  | _ => 32

def FmtpField.faults (f : FmtpField) (v : Str) : List Fault :=
  (if f = .profileLevelId then notHex 32 v else notNumber f.bits v) ::
  match f.message with
  | some m => [wrongIf (∃ n, f.Notation v n ∧ f.max < n) m]
  | none => []

/-- The faults of an fmtp parameter after others. -/
def fmtpParamFaults (earlier : List Str) (t : Str) : List Fault :=
  [wrongIf ('=' ∉ t)
     c%"A fmtp parameter must be either a telephone event, a parameter list or a red codec list",
   fun e => ∃ f : FmtpField, paramName t = f.text ∧ FirstFault (f.faults (paramValue t)) e,
   wrongIf (paramName t = c%"RTX-TIME" ∧ ∀ q ∈ earlier, paramName q ≠ c%"APT") c%"RTX codec must have an APT field",
   fun e => paramName t = c%"RTX-TIME" ∧ notNumber 32 (paramValue t) e]

def fmtpParamsFaults (earlier : List Str) : List Str → List Fault
  | [] => []
  | t :: ts => fmtpParamFaults earlier t ++ fmtpParamsFaults (earlier ++ [t]) ts

/-- Here `ps` are the parameters between semicolons, and `fs` are the fields between slashes, of what stands
behind the payload type. The payload type is looked at last. -/
def fmtpFaults (v : Str) (ps fs : List Str) : List Fault :=
  [unsupportedIf (' ' ∉ v) c%"Fmtp attributes require a payload type and a parameter block."] ++
  (if '=' ∈ behind ' ' v then fmtpParamsFaults [] ps
   else if '/' ∈ behind ' ' v then
     fs.flatMap fun f => [notNumber 8 f, tooBig f 128 c%"Red codec must be in range [0,128]"]
   else []) ++
  [notNumber 8 (upTo ' ' v)]

def frameRateFaults (v : Str) : List Fault :=
  [notF64 v,
   wrongIf (∃ x, F64Text v x ∧ 0x7ff0000000000000 < x.bits.toNat % 2^63) c%"FrameRate attribute must be a number",
   wrongIf (∃ x, F64Text v x ∧ x.bits.toNat % 2^63 = 0x7ff0000000000000) c%"FrameRate attribute cannot be finite",
   wrongIf (∃ x, F64Text v x ∧ x.bits.toNat % 2^63 = 0) c%"FrameRate attribute cannot be zero"]

def groupFaults (ts : List Str) : List Fault :=
  [missing ts 0 c%"Group attribute is missing semantics token",
   unsupportedIf (∀ g, upper (item ts 0) ≠ groupText g)
     (c%"Unknown group semantic '" ++ debugStr (upper (item ts 0)) ++ c%"' found")]

def remoteCandidateFaults (ts : List Str) : List Fault :=
  [missing ts 0 c%"Remote-candidate attribute is missing component ID",
   notNumber 32 (item ts 0),
   missing ts 1 c%"Remote-candidate attribute is missing connection address",
   noAddress (item ts 1),
   missing ts 2 c%"Remote-candidate attribute is missing port number",
   notNumber 32 (item ts 2),
   tooBig (item ts 2) 65535 c%"Remote-candidate port can only be a bit 16bit number"]

/-- Here `fs` are the fields between slashes of the second word. -/
def rtpmapFaults (ts fs : List Str) : List Fault :=
  [missing ts 0 c%"Rtpmap missing payload type",
   notNumber 8 (item ts 0),
   tooBig (item ts 0) 127 c%"Rtpmap payload type must be less then 127",
   missing ts 1 c%"Rtpmap missing payload type",
   missing fs 1 c%"Rtpmap missing codec name",
   notNumber 32 (item fs 1),
   fun e => 2 < fs.length ∧ notNumber 32 (item fs 2) e]

def rtcpFaults (ts : List Str) : List Fault :=
  [missing ts 0 c%"Rtcp attribute is missing port number",
   notNumber 16 (item ts 0)] ++
  if ts.length ≤ 1 then []
  else
    [noNetwork (item ts 1),
     missing ts 2 c%"Rtcp attribute is missing address type token",
     fun e => (∀ t, upper (item ts 2) ≠ addrTypeText t) ∧ e = .unknownAddressType (item ts 2),
     missing ts 3 c%"Rtcp attribute is missing ip address token",
     noAddress (item ts 3),
     wrongFamily (upper (item ts 2)) (item ts 3)]

/-- What is wrong with the parameter of a feedback type. -/
def feedbackParameterFault (t : RtcpFbType) (p : Option Str) : Fault := fun e =>
  match p with
  | some x => ¬ FbParameter t x ∧
      e = (if t = .trrInt then InternalError.generic else .unsupported)
        (c%"Unknown rtcpfb " ++ fbText t ++ c%" parameter: " ++ debugStr x)
  | none => ¬ FbBare t ∧
      e = if t = .trrInt then .generic c%"The rtcpfb trr-int feedback type needs a parameter"
        else .unsupported c%"The rtcpfb ack feeback type needs a parameter:"

/-- Here `fs` are the fields between spaces, not the words. The payload type is looked at last. -/
def rtcpFbFaults (fs : List Str) : List Fault :=
  [missing fs 1 c%"Error parsing rtcpfb: no feedback type",
   unsupportedIf (∀ t, item fs 1 ≠ fbText t) (c%"Unknown rtcpfb feedback type: " ++ debugStr (item fs 1)),
   fun e => ∃ t, item fs 1 = fbText t ∧ feedbackParameterFault t fs[2]? e,
   noPayloadType (item fs 0)]

def sctpmapFaults (ts : List Str) : List Fault :=
  [wrongIf (ts.length ≠ 3) c%"Sctpmap needs to have three tokens",
   notNumber 16 (item ts 0),
   wrongIf (lower (item ts 1) ≠ c%"webrtc-datachannel") c%"Unsupported sctpmap type token",
   notNumber 32 (item ts 2)]

def sctpPortFaults (v : Str) : List Fault :=
  [notNumber 64 v,
   fun e => ∃ n, DecText v n ∧ 65535 < n ∧
     e = .generic (c%"Sctpport port " ++ showNat n ++ c%" can only be a bit 16bit number")]

/-- A list of streams with something else than `rid=` in front. -/
def noStreams (t : Str) : Fault :=
  wrongIf ('=' ∈ t ∧ upTo '=' t ≠ c%"rid")
    (c%"Simulcast attribute has unknown list descriptor '" ++ debugStr (upTo '=' t) ++ c%"'")

def simulcastFaults (ts : List Str) : List Fault :=
  [missing ts 0 c%"Simulcast attribute is missing send/recv value",
   noDirection (item ts 0),
   missing ts 1 c%"Simulcast attribute must have an alternatives list after the direction token",
   noStreams (item ts 1)] ++
  if ts.length ≤ 2 then []
  else
    [noDirection (item ts 2),
     wrongIf (item ts 2 = item ts 0) c%"Simulcast attribute has defined two times the same direction",
     missing ts 3 c%"\"Simulcast has defined a second direction but\"\"no second list of simulcast stream versions\"",
     noStreams (item ts 3)]

/-- The faults of a parameter of a rid. -/
def ridParamFaults (p : Str) : List Fault :=
  [wrongIf ('=' ∉ p) c%"A rid parameter needs to be of form 'param=value'",
   fun e => ∃ f : RidField, upTo '=' p = f.text ∧ notNumber 32 (behind '=' p) e]

/-- The faults of the list of payload types of a rid. -/
def ridFormatsFault (l : Str) : Fault := fun e =>
  ∃ fs, Fields ',' l fs ∧ FirstFault (fs.map fun f e => ∃ w, Stripped f w ∧ notNumber 16 w e) e

/-- The first parameter may be a list of payload types. -/
def ridParamsFaults : List Str → List Fault
  | [] => []
  | p :: ps =>
    if c%"pt=".isPrefixOf p then ridFormatsFault (p.drop 3) :: ps.flatMap ridParamFaults
    else (p :: ps).flatMap ridParamFaults

/-- Here `ps` are the parameters between semicolons of what stands behind the second space. The direction is
looked at last. -/
def ridFaults (v : Str) (ps : List Str) : List Fault :=
  [wrongIf (' ' ∉ v) c%"A rid attribute must at least have an id and a direction token."] ++
  (if ' ' ∈ behind ' ' v then ridParamsFaults ps else []) ++
  [noDirection (upTo ' ' (behind ' ' v))]

/-! ## Image attributes -/

/-- The text between the brackets around it. -/
def inner (t : Str) : Str := (t.drop 1).dropLast

/-- Here `cs` and `fs` are the fields between colons and commas inside of the brackets. -/
def xyRangeFaults (t : Str) (cs fs : List Str) : List Fault :=
  if t.head? ≠ some '[' then [notNumber 32 t]
  else
    wrongIf (t.getLast? ≠ some ']') c%"imageattr's xyrange has no closing tag ']'" ::
    if ':' ∈ t then
      match cs with
      | [a, b] => [notNumber 32 a, notNumber 32 b]
      | [a, b, c] => [notNumber 32 a, notNumber 32 c, notNumber 32 b]
      | _ => [wrongIf True c%"imageattr's xyrange must contain 2 or 3 fields"]
    else
      fs.map (notNumber 32) ++
      [wrongIf (fs.length < 2) c%"imageattr's discrete value list must have at least two elements"]

def xyRangeFault (t : Str) : Fault := fun e =>
  ∃ cs fs, Fields ':' (inner t) cs ∧ Fields ',' (inner t) fs ∧ FirstFault (xyRangeFaults t cs fs) e

/-- Here `fs` are the fields between dashes. -/
def ratioRangeFaults (fs : List Str) : List Fault :=
  [wrongIf (fs.length ≠ 2) c%"imageattr's par and sar ranges must have two components",
   notF32 (item fs 0),
   notF32 (item fs 1),
   wrongIf (∃ x y, F32Text (item fs 0) x ∧ F32Text (item fs 1) y ∧ x.AtLeast y)
     c%"In imageattr's par and sar ranges, first must be < than the second"]

/-- Here `ds` and `fs` are the fields between dashes and commas inside of the brackets. -/
def sarFaults (t : Str) (ds fs : List Str) : List Fault :=
  if t.head? ≠ some '[' then [notF32 t]
  else
    wrongIf (t.getLast? ≠ some ']') c%"imageattr's sar value is missing closing tag ']'" ::
    if '-' ∈ t then ratioRangeFaults ds
    else if ',' ∈ t then
      fs.map notF32 ++
      [wrongIf (∃ xs, Each F32Text fs xs ∧ ∃ a x y b, F32.mk 0 :: xs = a ++ x :: y :: b ∧ x.AtLeast y)
         c%"imageattr's sar discrete value list must contain ascending values"]
    else []

/-- Here `ds` are the fields between dashes inside of the brackets. -/
def parFaults (t : Str) (ds : List Str) : List Fault :=
  [wrongIf (t.head? ≠ some '[') c%"imageattr's par value must start with '['",
   wrongIf (t.getLast? ≠ some ']') c%"imageattr's par value must be enclosed with ']'"] ++
  ratioRangeFaults ds

/-- What is wrong with a token of a set after x and y. -/
def imageKeyFault (t : Str) : Fault := fun e =>
  (c%"sar=".isPrefixOf t ∧ ∃ ds fs, Fields '-' (inner (t.drop 4)) ds ∧ Fields ',' (inner (t.drop 4)) fs ∧
    FirstFault (sarFaults (t.drop 4) ds fs) e) ∨
  (c%"par=".isPrefixOf t ∧ ∃ ds, Fields '-' (inner (t.drop 4)) ds ∧ FirstFault (parFaults (t.drop 4) ds) e) ∨
  (c%"q=".isPrefixOf t ∧ notF32 (t.drop 2) e)

/-- Here `ts` are the tokens inside of the brackets. -/
def imageSetFaults (t : Str) (ts : List Str) : List Fault :=
  [wrongIf (t.head? ≠ some '[' ∨ t.getLast? ≠ some ']') c%"imageattr sets must be enclosed by ']'",
   missing ts 0 c%"imageattr set is missing the 'x=' token",
   wrongIf (¬ c%"x=".isPrefixOf (item ts 0)) c%"The first token in an imageattr set must begin with 'x='",
   xyRangeFault ((item ts 0).drop 2),
   missing ts 1 c%"imageattr set is missing the 'y=' token",
   wrongIf (¬ c%"y=".isPrefixOf (item ts 1)) c%"The second token in an imageattr set must begin with 'y='",
   xyRangeFault ((item ts 1).drop 2)] ++
  (ts.drop 2).map imageKeyFault

def imageSetFault (t : Str) : Fault := fun e => ∃ ts, TokensText ',' (inner t) ts ∧ FirstFault (imageSetFaults t ts) e

/-- The tokens of a set list: a star, or one token and those after it that begin with a bracket. -/
def setTokens : List Str → List Str
  | [] => []
  | t :: ts => t :: if t = c%"*" then [] else ts.takeWhile fun u => decide (u.head? = some '[')

/-- The faults of a set list in front of other tokens. -/
def setListFaults (ts : List Str) : List Fault :=
  missing ts 0 c%"imageattr must have a parameter set after a direction token" ::
  (setTokens ts).map fun t e => t ≠ c%"*" ∧ imageSetFault t e

/-- What stands after the set list. -/
def afterSets (ts : List Str) : List Str := ts.drop (setTokens ts).length

/-- The faults of the second direction and its set list, if they are there. -/
def secondSetListFaults (first : Str) (ts : List Str) : List Fault :=
  if ts = [] then []
  else
    [noDirection (item ts 0),
     wrongIf (item ts 0 = first) c%"imageattr's second direction token must be different from the first one"] ++
    setListFaults (ts.drop 1) ++
    [wrongIf (afterSets (ts.drop 1) ≠ []) c%"imageattr must not contain any token after the second set list"]

/-- Here `ts` are the tokens of the value. -/
def imageAttrFaults (ts : List Str) : List Fault :=
  [missing ts 0 c%"imageattr requires a payload token",
   noPayloadType (item ts 0),
   missing ts 1 c%"imageattr's second token must be a direction token",
   noDirection (item ts 1)] ++
  setListFaults (ts.drop 2) ++
  secondSetListFaults (item ts 1) (afterSets (ts.drop 2))

/-! ## All attributes -/

/-- What is wrong with the value of an attribute. -/
def ValueFault (t : AttributeType) (v : Str) : Fault := fun e =>
  match t with
  | .bundleOnly | .endOfCandidates | .extmapAllowMixed | .iceLite | .iceMismatch | .inactive | .recvonly
  | .rtcpMux | .rtcpMuxOnly | .rtcpRsize | .sendonly | .sendrecv => False
  | .icePwd | .iceUfrag | .identity | .label | .mid =>
    v = [] ∧ e = .generic c%"This attribute is required to have a value"
  | .iceOptions => v = [] ∧ e = .generic c%"ice-options is required to have a value"
  | .maxMessageSize | .maxPtime | .ptime => notNumber 64 v e
  | .icePacing => FirstFault [notNumber 64 v, tooBig v 9999999999 c%"ice-pacing value is not a 10 digit integer"] e
  | .setup => (∀ x, lower v ≠ setupText x) ∧ e = .generic c%"Unsupported setup value"
  | .msid => Words v [] ∧ e = .generic c%"Msid attribute is missing msid-id token"
  | .msidSemantic => Words v [] ∧ e = .generic c%"Msid-semantic attribute is missing msid-semantic token"
  | .ssrc => notNumber 32 (upTo ' ' v) e
  | .ssrcGroup => ∃ ts, Words v ts ∧ FirstFault (ssrcGroupFaults ts) e
  | .candidate => ∃ ts, Words v ts ∧ FirstFault (candidateFaults ts) e
  | .dtlsMessage => ∃ fs, Fields ' ' v fs ∧ FirstFault (dtlsMessageFaults fs) e
  | .extmap => ∃ ts, Words v ts ∧ FirstFault (extmapFaults ts) e
  | .fingerprint => ∃ ts fs, Words v ts ∧ Fields ':' (item ts 1) fs ∧ FirstFault (fingerprintFaults ts fs) e
  | .fmtp => ∃ ps fs, ParamsText (behind ' ' v) ps ∧ Fields '/' (behind ' ' v) fs ∧ FirstFault (fmtpFaults v ps fs) e
  | .frameRate => FirstFault (frameRateFaults v) e
  | .group => ∃ ts, Words v ts ∧ FirstFault (groupFaults ts) e
  | .imageAttr => ∃ ts, TokensText ' ' v ts ∧ FirstFault (imageAttrFaults ts) e
  | .remoteCandidate => ∃ ts, Words v ts ∧ FirstFault (remoteCandidateFaults ts) e
  | .rid => ∃ ps, Fields ';' (behind ' ' (behind ' ' v)) ps ∧ FirstFault (ridFaults v ps) e
  | .rtpmap => ∃ ts fs, Words v ts ∧ Fields '/' (item ts 1) fs ∧ FirstFault (rtpmapFaults ts fs) e
  | .rtcp => ∃ ts, Words v ts ∧ FirstFault (rtcpFaults ts) e
  | .rtcpfb => ∃ fs, Fields ' ' v fs ∧ FirstFault (rtcpFbFaults fs) e
  | .sctpmap => ∃ ts, Words v ts ∧ FirstFault (sctpmapFaults ts) e
  | .sctpPort => FirstFault (sctpPortFaults v) e
  | .simulcast => ∃ ts, Words v ts ∧ FirstFault (simulcastFaults ts) e

/-- The attributes without a value. -/
def valuelessNames : List Str :=
  [c%"bundle-only", c%"end-of-candidates", c%"extmap-allow-mixed", c%"ice-lite", c%"ice-mismatch", c%"inactive",
   c%"recvonly", c%"rtcp-mux", c%"rtcp-mux-only", c%"rtcp-rsize", c%"sendonly", c%"sendrecv"]

/-- What is wrong with an attribute `name` or `name:value`. -/
def AttributeFault (l : Str) : Fault := fun e =>
  ∃ v, Stripped (behind ':' l) v ∧
    FirstFault
      [wrongIf (':' ∈ l ∧ lower (upTo ':' l) ∈ valuelessNames)
         (lower (upTo ':' l) ++ c%" attribute is not allowed to have a value"),
       unsupportedIf (lower (upTo ':' l) ∉ attributeNames) (c%"Unknown attribute type " ++ lower (upTo ':' l)),
       fun e => ∃ t : AttributeType, t.name = lower (upTo ':' l) ∧ ValueFault t v e] e

/-! ## Lines -/

def versionFaults (v : Str) : List Fault :=
  [notNumber 64 v,
   fun e => ∃ n, DecText v n ∧ n ≠ 0 ∧ e = .generic (c%"version type contains unsupported value " ++ showNat n)]

def originFaults (ts : List Str) : List Fault :=
  [missing ts 0 c%"Origin type is missing username token",
   missing ts 1 c%"Origin type is missing session ID token",
   notNumber 64 (item ts 1),
   missing ts 2 c%"Origin type is missing session version token",
   notNumber 64 (item ts 2),
   missing ts 3 c%"Origin type is missing network type token",
   noNetwork (item ts 3),
   missing ts 4 c%"Origin type is missing address type token",
   noAddressType (item ts 4),
   missing ts 5 c%"Origin type is missing IP address token",
   noAddress (item ts 5),
   wrongFamily (upper (upper (item ts 4))) (item ts 5)]

/-- Here `fs` are the fields between slashes of the third word. -/
def connectionFaults (ts fs : List Str) : List Fault :=
  [wrongIf (ts.length ≠ 3) c%"connection attribute must have three tokens",
   noNetwork (item ts 0),
   noAddressType (item ts 1),
   fun e => 2 < fs.length ∧ notNumber 32 (item fs 2) e,
   fun e => 1 < fs.length ∧ notNumber 8 (item fs 1) e,
   noAddress (item fs 0),
   wrongFamily (upper (upper (item ts 1))) (item fs 0)]

/-- Here `fs` are the fields between colons. -/
def bandwidthFaults (fs : List Str) : List Fault :=
  [wrongIf (fs.length ≠ 2) c%"bandwidth attribute must have two tokens", notNumber 32 (item fs 1)]

def timingFaults (ts : List Str) : List Fault :=
  [wrongIf (ts.length ≠ 2) c%"timing attribute must have two tokens", notNumber 64 (item ts 0), notNumber 64 (item ts 1)]

/-- Here `fs` are the fields between slashes of the second word. -/
def mediaFaults (ts fs : List Str) : List Fault :=
  [wrongIf (ts.length < 4) c%"media attribute must have at least four tokens",
   unsupportedIf (∀ k, lower (item ts 0) ≠ mediaText k) (c%"unsupported media value: " ++ item ts 0),
   notNumber 32 (item fs 0),
   tooBig (item fs 0) 65535 c%"media port token is too big",
   fun e => 1 < fs.length ∧ notNumber 32 (item fs 1) e,
   unsupportedIf (∀ k, upper (item ts 2) ≠ protocolText k) (c%"unsupported protocol value: " ++ item ts 2)] ++
  if lower (item ts 0) = c%"application" then []
  else
    (ts.drop 3).flatMap fun f =>
      [notNumber 32 f,
       wrongIf (∃ n, DecText f n ∧ ¬ FormatNumber n) c%"format number in media line is out of range"]

/-- What is wrong with the value of a line of the given type. -/
def ContentFault (type v : Str) : Fault := fun e =>
  match type with
  | ['a'] => AttributeFault v e
  | ['b'] => ∃ fs, Fields ':' v fs ∧ FirstFault (bandwidthFaults fs) e
  | ['c'] => ∃ ts fs, Words v ts ∧ Fields '/' (item ts 2) fs ∧ FirstFault (connectionFaults ts fs) e
  | ['e'] => e = .generic (c%"unsupported type email: " ++ v)
  | ['i'] => e = .generic (c%"unsupported type information: " ++ v)
  | ['k'] => e = .generic (c%"unsupported insecure key exchange: " ++ v)
  | ['m'] => ∃ ts fs, Words v ts ∧ Fields '/' (item ts 1) fs ∧ FirstFault (mediaFaults ts fs) e
  | ['o'] => ∃ ts, Words v ts ∧ FirstFault (originFaults ts) e
  | ['p'] => e = .generic (c%"unsupported type phone: " ++ v)
  | ['r'] => e = .generic (c%"unsupported type repeat: " ++ v)
  | ['s'] => False
  | ['t'] => ∃ ts, Words v ts ∧ FirstFault (timingFaults ts) e
  | ['u'] => e = .generic (c%"unsupported type uri: " ++ v)
  | ['v'] => FirstFault (versionFaults v) e
  | ['z'] => e = .generic (c%"unsupported type zone: " ++ v)
  | _ => e = .generic c%"unknown sdp type"

/-- What is wrong with a line: `t` and `v` are what stands before and behind the first `=`, without the white
space around it. -/
def LineFault (l : Str) : Fault := fun e =>
  ∃ t v, Stripped (upTo '=' l) t ∧ Stripped (behind '=' l) v ∧
    FirstFault
      [wrongIf ('=' ∉ l) c%"missing = character in line",
       wrongIf (1 < byteLen t) c%"type too long",
       wrongIf (t = []) c%"type is empty",
       wrongIf (v = [] ∧ lower t ≠ c%"s") c%"value is empty",
       ContentFault (lower t) v] e

/-- The error for a line with a number. -/
def LineError (l : Str) (n : Nat) (err : ParserError) : Prop :=
  ∃ e, LineFault l e ∧ ((∃ m, e = .unsupported m) ∧ err = .unsupported e l n ∨ (∀ m, e ≠ .unsupported m) ∧ err = .line e l n)

/-! ## Texts -/

/-- What comes of a text, with all errors and warnings; `f` says whether unsupported lines are errors. -/
inductive Yields (s : Str) (f : Bool) : Outcome ParserError Session → Prop
  | empty : s = [] → Yields s f (.err (.line (.generic c%"empty SDP") s 0))
  | short : s ≠ [] → byteLen s < 51 → Yields s f (.err (.line (.generic c%"string too short to be valid SDP") s 0))
  /-- the first unsupported line, if unsupported lines are errors -/
  | unsupported {ls : List Str} {vs : List SdpLine} {u : Str × Nat} {us ws : List (Str × Nat)} {e : ParserError} :
      51 ≤ byteLen s → TextLines s ls → Reading 0 ls vs (u :: us) ws → f = true → LineError u.1 u.2 e →
      Yields s f (.err e)
  /-- the last wrong line -/
  | wrong {ls : List Str} {vs : List SdpLine} {w : Str × Nat} {us ws : List (Str × Nat)} {e : ParserError} :
      51 ≤ byteLen s → TextLines s ls → Reading 0 ls vs us (ws ++ [w]) → (f = true → us = []) → LineError w.1 w.2 e →
      Yields s f (.err e)
  /-- the lines are all right, but their sequence is not -/
  | sequence {ls : List Str} {vs : List SdpLine} {us : List (Str × Nat)} {m : Str} {n : Nat} :
      51 ≤ byteLen s → TextLines s ls → Reading 0 ls vs us [] → (f = true → us = []) → SequenceFault vs m n →
      Yields s f (.err (.sequence m n))
  /-- a session, with a warning for each unsupported line -/
  | session {ls : List Str} {vs : List SdpLine} {us : List (Str × Nat)} {r : Session} {es : List ParserError} :
      51 ≤ byteLen s → TextLines s ls → Reading 0 ls vs us [] → (f = true → us = []) → Describes vs r →
      Each (fun u e => LineError u.1 u.2 e) us es → Yields s f (.ok { r with warnings := es })

end

end Sdp
