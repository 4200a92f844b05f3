import Verif.Spec.Document
import Verif.Spec.Layout
/-!
# The canonical text of a value

Of the many texts that denote a value, the one that is written. This is a grammar again, which refers to no
part of the printer: numbers have no sign and no leading zeros, fields are separated by exactly one
character, keywords have the usual letter case, optional parts come in a fixed order.
-/

namespace Sdp

/-! ## Pieces -/

/-- A field of a text: which texts may stand there. -/
abbrev Field := Str → Prop

/-- A fixed text. -/
def word (w : Str) : Field := fun t => t = w

/-- The number `n` with decimal digits and no leading zeros. -/
def number (n : Nat) : Field := fun t =>
  t ≠ [] ∧ (∀ c ∈ t, c.isDigit = true) ∧ decValue t = n ∧ (t.head? = some '0' → t.length = 1)

/-- A lower-case hexadecimal digit. -/
def LowerHex (c : Char) : Prop := c.isDigit = true ∨ ('a' ≤ c ∧ c ≤ 'f')

/-- The number `n` with at least `w` lower-case hexadecimal digits, and no leading zeros beyond these. -/
def hexNumber (w n : Nat) : Field := fun t =>
  t ≠ [] ∧ w ≤ t.length ∧ (∀ c ∈ t, LowerHex c) ∧ hexValue t = n ∧ (t.head? = some '0' → t.length ≤ max w 1)

/-- A byte as two upper-case hexadecimal digits. -/
def byteField (b : UInt8) : Field := fun t =>
  t.length = 2 ∧ (∀ c ∈ t, c.isDigit = true ∨ ('A' ≤ c ∧ c ≤ 'F')) ∧ hexValue t = b.toNat

/-- Fields one after the other, with a separator between them. -/
def Separated (sep : Str) (Ps : List Field) : Field := fun t =>
  ∃ ts, Each (fun x P => P x) ts Ps ∧ t = sep.intercalate ts

/-- Fields one after the other. -/
def Sequence (Ps : List Field) : Field := Separated [] Ps

/-- Words with one space between them. -/
def Spaced (Ps : List Field) : Field := Separated c%" " Ps

/-- An optional part. -/
def optional {α : Type} (o : Option α) (f : α → List Field) : List Field :=
  match o with
  | none => []
  | some x => f x

/-- A list after a prefix, if there is anything in the list. Elements without a text are left out. -/
def listed (pre sep : Str) (Ps : List Field) : List Field :=
  if Ps = [] then []
  else [fun t => ∃ ts, Each (fun x P => P x) ts Ps ∧ t = pre ++ sep.intercalate (ts.filter (fun x => decide (x ≠ [])))]

/-- Fields with a separator between those that have a text. -/
def SeparatedNonEmpty (sep : Str) (Ps : List Field) : Field := fun t =>
  ∃ ts, Each (fun x P => P x) ts Ps ∧ t = sep.intercalate (ts.filter (fun x => decide (x ≠ [])))

/-! ## Addresses -/

/-- The four bytes of an IPv4 address with points between them. -/
def v4Field (a : UInt32) : Field :=
  Separated c%"." [number (a.toNat / 2^24), number (a.toNat / 2^16 % 2^8), number (a.toNat / 2^8 % 2^8),
    number (a.toNat % 2^8)]

/-- Groups of an IPv6 address. -/
def groupsField (gs : List Nat) : Field := Separated c%":" (gs.map (hexNumber 1))

/-- `gs` is `l`, then the longest run of zeros (the first of these), then `r`. -/
structure LongestZeros (gs l : List Nat) (n : Nat) (r : List Nat) : Prop where
  split : gs = l ++ List.replicate n 0 ++ r
  longest : ∀ l' m r', gs = l' ++ List.replicate m 0 ++ r' → m ≤ n
  first : ∀ l' r', gs = l' ++ List.replicate n 0 ++ r' → l.length ≤ l'.length

/-- An IPv6 address: a mapped IPv4 address in its own notation; otherwise eight groups, the first longest
run of zeros shortened to `::` if it has at least two groups. -/
def v6Field (a : BitVec 128) : Field := fun t =>
  if a.toNat / 2^32 = 0xffff then Sequence [word c%"::ffff:", v4Field (UInt32.ofNat (a.toNat % 2^32))] t
  else ∃ gs l n r, gs.length = 8 ∧ (∀ g ∈ gs, g < 65536) ∧ a.toNat = groupsValue gs ∧ LongestZeros gs l n r ∧
    if 2 ≤ n then Sequence [groupsField l, word c%"::", groupsField r] t else groupsField gs t

def ipField : IpAddr → Field
  | .v4 a => v4Field a
  | .v6 a => v6Field a

def addressField : Address → Field
  | .fqdn d => word d
  | .ip a => ipField a

/-- `IN addrtype address` -/
def typedField : TypedAddress → Field
  | .fqdn t d => Spaced [word c%"IN", word (addrTypeText t), word d]
  | .ip a => Spaced [word c%"IN", word (addrTypeText (ipFamily a)), ipField a]

/-! ## Attributes -/

def transportWord : CandTransport → Str
  | .udp => c%"UDP"
  | .tcp => c%"TCP"

def candidateField (c : Candidate) : Field :=
  Spaced ([word c.foundation, number c.component.toNat, word (transportWord c.transport), number c.priority.toNat,
      addressField c.address, number c.port.toNat, word c%"typ", word (candTypeText c.cType)] ++
    optional c.raddr (fun a => [word c%"raddr", addressField a]) ++
    optional c.rport (fun p => [word c%"rport", number p.toNat]) ++
    optional c.tcpType (fun y => [word c%"tcptype", word (tcpTypeText y)]) ++
    optional c.generation (fun g => [word c%"generation", number g.toNat]) ++
    optional c.ufrag (fun u => [word c%"ufrag", word u]) ++
    optional c.networkcost (fun n => [word c%"network-cost", number n.toNat]) ++
    c.unknownExtensions.flatMap (fun e => [word e.1, word e.2]))

def dtlsMessageField : DtlsMessage → Field
  | .client m => Spaced [word c%"client", word m]
  | .server m => Spaced [word c%"server", word m]

def extmapField (e : Extmap) : Field :=
  Spaced ([Separated c%"/" (number e.id.toNat :: optional e.direction (fun d => [word (directionText d)])), word e.url] ++
    optional e.extensionAttributes (fun x => [word x]))

def fingerprintField (f : Fingerprint) : Field :=
  Spaced [word (hashText f.hashAlgorithm), Separated c%":" (f.fingerprint.map byteField)]

/-- The parameters of an fmtp in the order in which they are written, with their names. -/
def fmtpWrittenOrder : List (FmtpField × Str) :=
  [(.profileLevelId, c%"profile-level-id="), (.levelAsymmetryAllowed, c%"level-asymmetry-allowed="),
   (.packetizationMode, c%"packetization-mode="), (.maxFs, c%"max-fs="), (.maxCpb, c%"max-cpb="),
   (.maxDpb, c%"max-dpb="), (.maxBr, c%"max-br="), (.maxMbps, c%"max-mbps="), (.maxFr, c%"max-fr="),
   (.profile, c%"profile="), (.levelIdx, c%"level-idx="), (.tier, c%"tier="),
   (.maxplaybackrate, c%"maxplaybackrate="), (.maxaveragebitrate, c%"maxaveragebitrate="), (.ptime, c%"ptime="),
   (.minptime, c%"minptime="), (.maxptime, c%"maxptime="), (.usedtx, c%"usedtx="), (.stereo, c%"stereo="),
   (.useinbandfec, c%"useinbandfec="), (.cbr, c%"cbr=")]

/-- A parameter of an fmtp, unless it is absent or has the value an absent one has. -/
def fmtpParameter (p : FmtpParams) (f : FmtpField × Str) : List Field :=
  if f.1.get p = f.1.absent then []
  else optional (f.1.get p) (fun n =>
    [Sequence [word f.2, if f.1 = .profileLevelId then hexNumber 6 n else number n]])

def fmtpParametersField (p : FmtpParams) : Field :=
  match p.rtx with
  | some r =>
    Separated c%";" (Sequence [word c%"apt=", number r.apt.toNat] ::
      optional r.rtxTime (fun x => [Sequence [word c%"rtx-time=", number x.toNat]]))
  | none =>
    if p.dtmfTones ≠ [] then word p.dtmfTones
    else if p.encodings ≠ [] then Separated c%"/" (p.encodings.map (fun e => number e.toNat))
    else SeparatedNonEmpty c%";" (fmtpWrittenOrder.flatMap (fmtpParameter p) ++ listed [] c%"," (p.unknownTokens.map word))

/-- Nothing at all if no parameter is written. -/
def fmtpField (f : Fmtp) : Field := fun t =>
  ∃ ps, fmtpParametersField f.parameters ps ∧
    if ps = [] then t = [] else Spaced [number f.payloadType.toNat, word ps] t

def groupField (g : Group) : Field := Sequence (word (groupText g.semantics) :: listed c%" " c%" " (g.tags.map word))

def payloadTypeField : PayloadType → Field
  | .pt n => number n.toNat
  | .wildcard => word c%"*"

/-- A single value, or several in brackets. -/
def valuesField (Ps : List Field) : Field :=
  match Ps with
  | [P] => P
  | _ => Sequence [word c%"[", Separated c%"," Ps, word c%"]"]

def xyField : XyRange → Field
  | .range mn mx st =>
    Sequence [word c%"[", Separated c%":" (number mn.toNat :: optional st (fun s => [number s.toNat]) ++ [number mx.toNat]),
      word c%"]"]
  | .discrete vs => valuesField (vs.map (fun v => number v.toNat))

section
variable [Env]

def f32Field (x : F32) : Field := F32Written x

def floatRange (mn mx : F32) : Field := Sequence [word c%"[", Separated c%"-" [f32Field mn, f32Field mx], word c%"]"]

def sarField : SRange → Field
  | .range mn mx => floatRange mn mx
  | .discrete vs => valuesField (vs.map f32Field)

def imageSetField (s : ImageAttrSet) : Field :=
  Sequence [word c%"[",
    Separated c%"," ([Sequence [word c%"x=", xyField s.x], Sequence [word c%"y=", xyField s.y]] ++
      optional s.sar (fun r => [Sequence [word c%"sar=", sarField r]]) ++
      optional s.par (fun r => [Sequence [word c%"par=", floatRange r.min r.max]]) ++
      optional s.q (fun q => [Sequence [word c%"q=", f32Field q]])),
    word c%"]"]

/-- The sets of one direction, if there are any. -/
def imageSetsFields (name : Str) : ImageAttrSetList → List Field
  | .wildcard => [word name, word c%"*"]
  | .sets [] => []
  | .sets l => word name :: l.map imageSetField

def imageAttrField (i : ImageAttr) : Field :=
  Spaced (payloadTypeField i.pt :: imageSetsFields c%"send" i.send ++ imageSetsFields c%"recv" i.recv)

end

def msidField (m : Msid) : Field := Spaced (word m.id :: optional m.appdata (fun a => [word a]))

def msidSemanticField (m : MsidSemantic) : Field :=
  Spaced (word m.semantic :: if m.msids = [] then [word c%"*"] else m.msids.map word)

/-- The restrictions of a rid in the order in which they are written. -/
def ridWrittenOrder : List (RidField × Str) :=
  [(.maxWidth, c%"max-width="), (.maxHeight, c%"max-height="), (.maxFps, c%"max-fps="), (.maxFs, c%"max-fs="),
   (.maxBr, c%"max-br="), (.maxPps, c%"max-pps=")]

def ridField (r : Rid) : Field := fun t =>
  ∃ ps, SeparatedNonEmpty c%";" (listed c%"pt=" c%"," (r.formats.map (fun f => number f.toNat)) ++
      ridWrittenOrder.flatMap (fun f => if f.1.get r.params = 0 then [] else [Sequence [word f.2, number (f.1.get r.params).toNat]]) ++
      listed [] c%";" (r.params.unknown.map word) ++ listed c%"depends=" c%"," (r.depends.map word)) ps ∧
    Spaced ([word r.id, word (singleDirectionText r.direction)] ++ if ps = [] then [] else [word ps]) t

def remoteCandidateField (c : RemoteCandidate) : Field :=
  Spaced [number c.component.toNat, addressField c.address, number c.port.toNat]

def rtpmapField (r : Rtpmap) : Field :=
  Spaced [number r.payloadType.toNat,
    Separated c%"/" ([word r.codecName, number r.frequency.toNat] ++ optional r.channels (fun n => [number n.toNat]))]

def rtcpField (r : Rtcp) : Field := Spaced (number r.port.toNat :: optional r.unicastAddr (fun a => [typedField a]))

def rtcpFbField (r : RtcpFb) : Field :=
  Spaced ([payloadTypeField r.payloadType, word (fbText r.feedbackType)] ++
    if r.parameter = [] then [] else word r.parameter :: if r.extra = [] then [] else [word r.extra])

def sctpmapField (s : Sctpmap) : Field := Spaced [number s.port.toNat, word c%"webrtc-datachannel", number s.channels.toNat]

def simulcastVersionField (v : SimulcastVersion) : Field :=
  Separated c%"," (v.ids.map (fun i => word ((if i.paused then c%"~" else []) ++ i.id)))

def simulcastField (s : Simulcast) : Field :=
  Spaced (listed c%"send " c%";" (s.send.map simulcastVersionField) ++
    listed c%"recv " c%";" (s.receive.map simulcastVersionField))

def ssrcField (s : Ssrc) : Field :=
  Sequence (number s.id.toNat :: optional s.attr (fun a => [word c%" ", word a]) ++
    optional s.value (fun v => [word c%":", word v]))

def ssrcGroupField (g : SsrcGroupSemantic) (l : List Ssrc) : Field :=
  Sequence [word (ssrcGroupText g), word c%" ", Spaced (l.map ssrcField)]

/-- `name:value`, or nothing if there is no value. -/
def named (name : Str) (P : Field) : Field := fun t => ∃ v, P v ∧ t = if v = [] then [] else name ++ ':' :: v

section
variable [Env]

def attributeField : Attribute → Field
  | .bundleOnly => word c%"bundle-only"
  | .candidate c => named c%"candidate" (candidateField c)
  | .dtlsMessage m => named c%"dtls-message" (dtlsMessageField m)
  | .endOfCandidates => word c%"end-of-candidates"
  | .extmap e => named c%"extmap" (extmapField e)
  | .extmapAllowMixed => word c%"extmap-allow-mixed"
  | .fingerprint f => named c%"fingerprint" (fingerprintField f)
  | .fmtp f => named c%"fmtp" (fmtpField f)
  | .frameRate f => named c%"framerate" (F64Written f)
  | .group g => named c%"group" (groupField g)
  | .iceLite => word c%"ice-lite"
  | .iceMismatch => word c%"ice-mismatch"
  | .iceOptions os => named c%"ice-options" (Spaced (os.map word))
  | .icePacing n => named c%"ice-pacing" (number n.toNat)
  | .icePwd s => named c%"ice-pwd" (word s)
  | .iceUfrag s => named c%"ice-ufrag" (word s)
  | .identity s => named c%"identity" (word s)
  | .imageAttr i => named c%"imageattr" (imageAttrField i)
  | .inactive => word c%"inactive"
  | .label s => named c%"label" (word s)
  | .maxMessageSize n => named c%"max-message-size" (number n.toNat)
  | .maxPtime n => named c%"maxptime" (number n.toNat)
  | .mid s => named c%"mid" (word s)
  | .msid m => named c%"msid" (msidField m)
  | .msidSemantic m => named c%"msid-semantic" (msidSemanticField m)
  | .ptime n => named c%"ptime" (number n.toNat)
  | .rid r => named c%"rid" (ridField r)
  | .recvonly => word c%"recvonly"
  | .remoteCandidate c => named c%"remote-candidates" (remoteCandidateField c)
  | .rtpmap r => named c%"rtpmap" (rtpmapField r)
  | .rtcp r => named c%"rtcp" (rtcpField r)
  | .rtcpfb r => named c%"rtcp-fb" (rtcpFbField r)
  | .rtcpMux => word c%"rtcp-mux"
  | .rtcpMuxOnly => word c%"rtcp-mux-only"
  | .rtcpRsize => word c%"rtcp-rsize"
  | .sctpmap s => named c%"sctpmap" (sctpmapField s)
  | .sctpPort n => named c%"sctp-port" (number n.toNat)
  | .sendonly => word c%"sendonly"
  | .sendrecv => word c%"sendrecv"
  | .setup s => named c%"setup" (word (setupText s))
  | .simulcast s => named c%"simulcast" (simulcastField s)
  | .ssrc s => named c%"ssrc" (ssrcField s)
  | .ssrcGroup g l => named c%"ssrc-group" (ssrcGroupField g l)

end

/-! ## Lines -/

def originField (o : Origin) : Field :=
  Spaced [word o.username, number o.sessionId.toNat, number o.sessionVersion.toNat, typedField o.unicastAddr]

def connectionField (c : Connection) : Field :=
  Separated c%"/" (typedField c.address :: optional c.ttl (fun n => [number n.toNat]) ++
    optional c.amount (fun n => [number n.toNat]))

def bandwidthField : Bandwidth → Field
  | .as n => Separated c%":" [word c%"AS", number n.toNat]
  | .ct n => Separated c%":" [word c%"CT", number n.toNat]
  | .tias n => Separated c%":" [word c%"TIAS", number n.toNat]
  | .unknown u n => Separated c%":" [word u, number n.toNat]

def timingField (t : Timing) : Field := Spaced [number t.start.toNat, number t.stop.toNat]

def formatFields : FormatList → List Field
  | .integers l => l.map (fun n => number n.toNat)
  | .strings l => l.map word

def mediaLineField (m : MediaLine) : Field :=
  Spaced [word (mediaText m.media),
    Separated c%"/" (number m.port.toNat :: if m.portCount = 0 then [] else [number m.portCount.toNat]),
    word (protocolText m.proto), Spaced (formatFields m.formats)]

/-! ## Documents -/

section
variable [Env]

/-- The lines of bandwidths, connection and attributes. Attributes without a text have no line, unless
there are no others. -/
def BodyWritten (bs : List Bandwidth) (c : Option Connection) (as : List Attribute) (ls : List Str) : Prop :=
  ∃ bts cts ats, Each bandwidthField bs bts ∧ Each connectionField c.toList cts ∧ Each attributeField as ats ∧
    ls = textLines c%"b=" bts ++ cts.map (fun t => c%"c=" ++ t) ++ textLines c%"a=" ats

def MediaWritten (m : Media) (ls : List Str) : Prop :=
  ∃ mt body, mediaLineField m.media mt ∧ BodyWritten m.bandwidth m.connection m.attrs body ∧ ls = (c%"m=" ++ mt) :: body

/-- The text of a session: v=, o=, s=, t=, b=, c=, a= and the media sections, each line with CR LF. The
warnings are not written. -/
def SessionWritten (s : Session) (text : Str) : Prop :=
  ∃ v o tts body mss, number s.version.toNat v ∧ originField s.origin o ∧ Each timingField s.timing.toList tts ∧
    BodyWritten s.bandwidth s.connection s.attrs body ∧ Each MediaWritten s.media mss ∧
    text = crlf ([c%"v=" ++ v, c%"o=" ++ o, c%"s=" ++ s.session.getD c%" "] ++ tts.map (fun t => c%"t=" ++ t) ++
      body ++ mss.flatten)

end

/-! ## Errors -/

/-- Why a number was refused, in the words of the standard library. -/
def integerErrorText : IntErr → Str
  | .empty => c%"cannot parse integer from empty string"
  | .invalidDigit => c%"invalid digit found in string"
  | .posOverflow => c%"number too large to fit in target type"

def floatErrorText : FloatErr → Str
  | .empty => c%"cannot parse float from empty string"
  | .invalid => c%"invalid float literal"

/-- What went wrong, as it is told to the user. -/
def causeField : InternalError → Field
  | .unknownAddressType t => Sequence [word c%"Unknown address type: ", word t]
  | .addressTypeMismatch found expected =>
    Sequence [word c%"Address is of a different type(1) than declared(2): ",
      Separated c%", " [word (addrTypeText found), word (addrTypeText expected)]]
  | .generic m => Sequence [word c%"Parsing error: ", word m]
  | .unsupported m => Sequence [word c%"Unsupported parsing error: ", word m]
  | .integer e => Sequence [word c%"Integer parsing error: ", word (integerErrorText e)]
  | .float e => Sequence [word c%"Float parsing error: ", word (floatErrorText e)]
  | .domain m => Sequence [word c%"Domain name parsing error: ", word m]
  | .ipAddress => word c%"IP address parsing error: invalid IP address syntax"

/-- The place of an error: its line, counted from 0. -/
def placeField (n : Nat) : Field := Sequence [word c%"in line(", number n, word c%"): "]

def errorField : ParserError → Field
  | .line e t n => Sequence [word c%"Line error: ", causeField e, word c%" ", placeField n, word t]
  | .unsupported e t n => Sequence [word c%"Unsupported: ", causeField e, word c%" ", placeField n, word t]
  | .sequence m n => Sequence [word c%"Sequence error ", placeField n, word m]

end Sdp
