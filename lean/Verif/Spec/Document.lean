import Verif.Spec.Grammar
import Verif.Spec.Candidate
import Verif.Spec.Sequence
/-!
# What a session description is

The grammar of attributes (Spec/Grammar.lean) completed: which texts denote which attribute, which line
denotes what, which lines are unsupported, and which text denotes which session. Nothing here refers to
the parser.
-/

namespace Sdp

section
variable [Env]

/-! ## Candidates and format parameters -/

/-- The candidate has the extension with the value the text says. -/
def CandExt.Says (k : CandExt) (v : Str) (c : Candidate) : Prop :=
  match k with
  | .generation => ∃ n, c.generation = some n ∧ DecText v n.toNat
  | .networkCost => ∃ n, c.networkcost = some n ∧ DecText v n.toNat
  | .raddr => ∃ a, c.raddr = some a ∧ AddressText v a
  | .rport => ∃ n, c.rport = some n ∧ DecText v n.toNat
  | .tcptype => ∃ t, c.tcpType = some t ∧ lower v = tcpTypeText t
  | .ufrag => c.ufrag = some v

/-- What may stand after the name of the extension. -/
def CandExt.ValueText (k : CandExt) (v : Str) : Prop :=
  match k with
  | .generation | .networkCost => ∃ n < 2^32, DecText v n
  | .raddr => ∃ a, AddressText v a
  | .rport => ∃ n ≤ 65535, DecText v n
  | .tcptype => ∃ t, lower v = tcpTypeText t
  | .ufrag => True

/-- `foundation component transport priority address port typ type [name value]...`. Of the pairs, the
known names (in any case) need values of the right form, and the last one counts; the others are kept
in order. -/
def CandidateText (v : Str) (c : Candidate) : Prop :=
  ∃ component transport priority address port typ type pairs,
    Words v (c.foundation :: component :: transport :: priority :: address :: port :: typ :: type :: pairTokens pairs) ∧
    DecText component c.component.toNat ∧ lower transport = transportText c.transport ∧
    DecText priority c.priority.toNat ∧ AddressText address c.address ∧
    DecText port c.port.toNat ∧ c.port.toNat ≤ 65535 ∧ lower typ = c%"typ" ∧ lower type = candTypeText c.cType ∧
    (∀ k : CandExt, (∀ p ∈ pairs, lower p.1 = k.text → k.ValueText p.2) ∧
      (∀ p, LastWith (fun p => lower p.1 = k.text) pairs p → k.Says p.2 c) ∧
      ((∀ p ∈ pairs, lower p.1 ≠ k.text) → k.Absent c)) ∧
    c.unknownExtensions = pairs.filter fun p => lower p.1 ∉ candExtNames

/-- The parameters between semicolons; empty ones do not count. -/
def ParamsText (b : Str) (ts : List Str) : Prop :=
  ∃ fs, Fields ';' b fs ∧ ts = fs.filter fun t => t ≠ []

/-- Format parameters `name=value;...`. Each known name (in any case) needs a number in its range, and
the last one counts; RTX-TIME belongs to the last APT and must not come before the first one. -/
structure FmtpListText (b : Str) (p : FmtpParams) : Prop where
  form : ∃ ts, ParamsText b ts ∧ (∀ t ∈ ts, '=' ∈ t) ∧
    (∀ f : FmtpField,
      (∀ t ∈ ts, paramName t = f.text → ∃ n ≤ f.max, f.Notation (paramValue t) n) ∧
      (∀ t, LastWith (fun t => paramName t = f.text) ts t →
        ∃ n, f.Notation (paramValue t) n ∧ f.get p = some n) ∧
      ((∀ t ∈ ts, paramName t ≠ f.text) → f.get p = f.absent)) ∧
    (∀ pre t post, ts = pre ++ t :: post → paramName t = c%"RTX-TIME" →
      (∃ n < 2^32, DecText (paramValue t) n) ∧ ∃ q ∈ pre, paramName q = c%"APT") ∧
    (∀ pre t post r, ts = pre ++ t :: post → paramName t = c%"APT" → (∀ q ∈ post, paramName q ≠ c%"APT") →
      p.rtx = some r →
      ((∀ q ∈ post, paramName q ≠ c%"RTX-TIME") → r.rtxTime = none) ∧
      ∀ u, LastWith (fun u => paramName u = c%"RTX-TIME") post u →
        ∃ x, r.rtxTime = some x ∧ DecText (paramValue u) x.toNat) ∧
    p.unknownTokens = ts.filter fun t => paramName t ∉ fmtpNames
  encodings : p.encodings = []
  tones : p.dtmfTones = []

/-- `payload-type parameters`: a list of `name=value`, or a list of redundant payload types with slashes
between them, or telephone events. What is no list of telephone events counts as `0-15`. -/
def FmtpText (v : Str) (f : Fmtp) : Prop :=
  ∃ pt b, v = pt ++ ' ' :: b ∧ ' ' ∉ pt ∧ DecText pt f.payloadType.toNat ∧
    (('=' ∈ b ∧ FmtpListText b f.parameters) ∨
     ('=' ∉ b ∧ '/' ∈ b ∧ ∃ fs ns, Fields '/' b fs ∧
        Each (fun t (n : UInt8) => DecText t n.toNat ∧ n.toNat ≤ 128) fs ns ∧
        f.parameters = { FmtpParams.default with encodings := ns }) ∨
     ('=' ∉ b ∧ '/' ∉ b ∧ ∃ tones, f.parameters = { FmtpParams.default with dtmfTones := tones } ∧
        ((ToneList b ∧ tones = b) ∨ (¬ ToneList b ∧ tones = c%"0-15"))))

/-! ## Attributes and lines -/

/-- A flag: the name alone, in any case. -/
def FlagText (l name : Str) : Prop := lower l = name ∧ ':' ∉ l

/-- `l` is the text of an attribute. -/
def AttributeText (l : Str) : Attribute → Prop
  | .bundleOnly => FlagText l c%"bundle-only"
  | .candidate c => ∃ v, AttrText l c%"candidate" v ∧ CandidateText v c
  | .dtlsMessage m => ∃ v, AttrText l c%"dtls-message" v ∧ DtlsMessageText v m
  | .endOfCandidates => FlagText l c%"end-of-candidates"
  | .extmap e => ∃ v, AttrText l c%"extmap" v ∧ ExtmapText v e
  | .extmapAllowMixed => FlagText l c%"extmap-allow-mixed"
  | .fingerprint f => ∃ v, AttrText l c%"fingerprint" v ∧ FingerprintText v f
  | .fmtp f => ∃ v, AttrText l c%"fmtp" v ∧ FmtpText v f
  | .frameRate x => ∃ v, AttrText l c%"framerate" v ∧ F64Text v x ∧
      x.bits.toNat % 2 ^ 63 ≠ 0 ∧ x.bits.toNat % 2 ^ 63 < 0x7ff0000000000000
  | .group g => ∃ v, AttrText l c%"group" v ∧ GroupText v g
  | .iceLite => FlagText l c%"ice-lite"
  | .iceMismatch => FlagText l c%"ice-mismatch"
  | .iceOptions ws => ∃ v, AttrText l c%"ice-options" v ∧ Words v ws ∧ ws ≠ []
  | .icePacing n => ∃ v, AttrText l c%"ice-pacing" v ∧ DecText v n.toNat ∧ n.toNat < 10 ^ 10
  | .icePwd s => AttrText l c%"ice-pwd" s ∧ s ≠ []
  | .iceUfrag s => AttrText l c%"ice-ufrag" s ∧ s ≠ []
  | .identity s => AttrText l c%"identity" s ∧ s ≠ []
  | .imageAttr a => ∃ v, AttrText l c%"imageattr" v ∧ ImageAttrText v a
  | .inactive => FlagText l c%"inactive"
  | .label s => AttrText l c%"label" s ∧ s ≠ []
  | .maxMessageSize n => ∃ v, AttrText l c%"max-message-size" v ∧ DecText v n.toNat
  | .maxPtime n => ∃ v, AttrText l c%"maxptime" v ∧ DecText v n.toNat
  | .mid s => AttrText l c%"mid" s ∧ s ≠ []
  | .msid m => ∃ v, AttrText l c%"msid" v ∧ MsidText v m
  | .msidSemantic m => ∃ v, AttrText l c%"msid-semantic" v ∧ MsidSemanticText v m
  | .ptime n => ∃ v, AttrText l c%"ptime" v ∧ DecText v n.toNat
  | .rid r => ∃ v, AttrText l c%"rid" v ∧ RidText v r
  | .recvonly => FlagText l c%"recvonly"
  | .remoteCandidate r => ∃ v, AttrText l c%"remote-candidates" v ∧ RemoteCandidateText v r
  | .rtpmap r => ∃ v, AttrText l c%"rtpmap" v ∧ RtpmapText v r
  | .rtcp r => ∃ v, AttrText l c%"rtcp" v ∧ RtcpText v r
  | .rtcpfb r => ∃ v, AttrText l c%"rtcp-fb" v ∧ RtcpFbText v r
  | .rtcpMux => FlagText l c%"rtcp-mux"
  | .rtcpMuxOnly => FlagText l c%"rtcp-mux-only"
  | .rtcpRsize => FlagText l c%"rtcp-rsize"
  | .sctpmap m => ∃ v, AttrText l c%"sctpmap" v ∧ SctpmapText v m
  | .sctpPort n => ∃ v, AttrText l c%"sctp-port" v ∧ DecText v n.toNat ∧ n.toNat ≤ 65535
  | .sendonly => FlagText l c%"sendonly"
  | .sendrecv => FlagText l c%"sendrecv"
  | .setup x => ∃ v, AttrText l c%"setup" v ∧ lower v = setupText x
  | .simulcast s => ∃ v, AttrText l c%"simulcast" v ∧ SimulcastText v s
  | .ssrc s => ∃ v, AttrText l c%"ssrc" v ∧ SsrcText v s
  | .ssrcGroup g ss => ∃ v, AttrText l c%"ssrc-group" v ∧ SsrcGroupText v g ss

/-- `l` is a line with the letter, and `v` is its value without the white space around it. -/
def ValueText (l : Str) (letter : Char) (v : Str) : Prop := ∃ raw, LineForm l letter raw ∧ Stripped raw v ∧ v ≠ []

/-- What a line denotes. The session name is kept with the white space around it. -/
def LineDenotes (l : Str) : SdpType → Prop
  | .attr a => ∃ v, ValueText l 'a' v ∧ AttributeText v a
  | .bandwidth b => ∃ v, ValueText l 'b' v ∧ BandwidthText v b
  | .connection c => ∃ v, ValueText l 'c' v ∧ ConnectionText v c
  | .media m => ∃ v, ValueText l 'm' v ∧ MediaText v m
  | .origin o => ∃ v, ValueText l 'o' v ∧ OriginText v o
  | .session s => LineForm l 's' s
  | .timing t => ∃ v, ValueText l 't' v ∧ TimingText v t
  | .version n => ∃ v, ValueText l 'v' v ∧ DecText v 0 ∧ n = 0

/-! ## Unsupported lines -/

/-- The names of the attributes. -/
def attributeNames : List Str :=
  [c%"bundle-only", c%"candidate", c%"dtls-message", c%"end-of-candidates", c%"extmap", c%"extmap-allow-mixed",
   c%"fingerprint", c%"fmtp", c%"framerate", c%"group", c%"ice-lite", c%"ice-mismatch", c%"ice-options",
   c%"ice-pacing", c%"ice-pwd", c%"ice-ufrag", c%"identity", c%"imageattr", c%"inactive", c%"label",
   c%"max-message-size", c%"maxptime", c%"mid", c%"msid", c%"msid-semantic", c%"ptime", c%"rid", c%"recvonly",
   c%"remote-candidates", c%"rtpmap", c%"rtcp", c%"rtcp-fb", c%"rtcp-mux", c%"rtcp-mux-only", c%"rtcp-rsize",
   c%"sctpmap", c%"sctp-port", c%"sendonly", c%"sendrecv", c%"setup", c%"simulcast", c%"ssrc", c%"ssrc-group"]

/-- Attributes that are not supported: unknown names, and some unknown values of known names. -/
inductive UnsupportedAttribute (l : Str) : Prop
  /-- an unknown name without a value -/
  | flag : ':' ∉ l → lower l ∉ attributeNames → UnsupportedAttribute l
  /-- an unknown name with a value -/
  | name {n w : Str} : l = n ++ ':' :: w → ':' ∉ n → lower n ∉ attributeNames → UnsupportedAttribute l
  /-- an unknown kind of group -/
  | group {v s : Str} {r : List Str} : AttrText l c%"group" v → Words v (s :: r) → (∀ g, upper s ≠ groupText g) →
      UnsupportedAttribute l
  | ssrcGroup {v s : Str} {r : List Str} : AttrText l c%"ssrc-group" v → Words v (s :: r) →
      (∀ g, upper s ≠ ssrcGroupText g) → UnsupportedAttribute l
  /-- an unknown hash function -/
  | fingerprint {v h b : Str} : AttrText l c%"fingerprint" v → Words v [h, b] → (∀ a, h ≠ hashText a) →
      UnsupportedAttribute l
  /-- an unknown feedback type -/
  | feedback {v p k : Str} {r : List Str} : AttrText l c%"rtcp-fb" v → Fields ' ' v (p :: k :: r) →
      (∀ t, k ≠ fbText t) → UnsupportedAttribute l
  /-- `ack` without a parameter -/
  | ack {v p : Str} : AttrText l c%"rtcp-fb" v → Fields ' ' v [p, c%"ack"] → UnsupportedAttribute l
  /-- an unknown parameter of a feedback type -/
  | parameter {v p x : Str} {t : RtcpFbType} {r : List Str} : AttrText l c%"rtcp-fb" v →
      Fields ' ' v (p :: fbText t :: x :: r) → t ≠ .trrInt → ¬ FbParameter t x → UnsupportedAttribute l
  /-- no format parameters -/
  | fmtp {v : Str} : AttrText l c%"fmtp" v → ' ' ∉ v → UnsupportedAttribute l
  | fmtpAlone : lower l = c%"fmtp" → ':' ∉ l → UnsupportedAttribute l
  /-- a candidate with one word too many -/
  | candidate {v u t : Str} {ts : List Str} {c : Candidate} : AttrText l c%"candidate" v → Words v (ts ++ [t]) →
      Words u ts → CandidateText u c → UnsupportedAttribute l

/-- Media lines that are not supported: an unknown kind of media, or an unknown protocol after a
correct port. -/
inductive UnsupportedMediaText (v : Str) : Prop
  | media {m p q f : Str} {r : List Str} : Words v (m :: p :: q :: f :: r) → (∀ k, lower m ≠ mediaText k) →
      UnsupportedMediaText v
  | protocol {m p q f : Str} {r fs : List Str} {n : Nat} : Words v (m :: p :: q :: f :: r) →
      (∀ k, upper q ≠ protocolText k) → Fields '/' p fs → (∀ a, fs.head? = some a → DecText a n) → n ≤ 65535 →
      (∀ b, fs[1]? = some b → ∃ k < 2^32, DecText b k) → UnsupportedMediaText v

/-- A line that is not supported. -/
def UnsupportedText (l : Str) : Prop :=
  (∃ v, ValueText l 'a' v ∧ UnsupportedAttribute v) ∨ ∃ v, ValueText l 'm' v ∧ UnsupportedMediaText v

/-! ## Texts -/

/-- The lines of a text: they end with a line feed, possibly after a carriage return; the last one may
be without an end. -/
inductive TextLines : Str → List Str → Prop
  | nil : TextLines [] []
  | last {l : Str} : l ≠ [] → '\n' ∉ l → TextLines l [l]
  | lf {l rest : Str} {ls : List Str} : '\n' ∉ l → l.getLast? ≠ some '\r' → TextLines rest ls →
      TextLines (l ++ '\n' :: rest) (l :: ls)
  | crlf {l rest : Str} {ls : List Str} : '\n' ∉ l → TextLines rest ls →
      TextLines (l ++ '\r' :: '\n' :: rest) (l :: ls)

/-- How a list of lines is read, from line number `n` on: the lines that denote something; the
unsupported lines; the other lines, which are wrong. Blank lines are counted, but not read. -/
inductive Reading : Nat → List Str → List SdpLine → List (Str × Nat) → List (Str × Nat) → Prop
  | nil {n : Nat} : Reading n [] [] [] []
  | blank {n : Nat} {l : Str} {ls : List Str} {vs : List SdpLine} {us ws : List (Str × Nat)} :
      Blank l → Reading (n + 1) ls vs us ws → Reading n (l :: ls) vs us ws
  | value {n : Nat} {l : Str} {ls : List Str} {vs : List SdpLine} {us ws : List (Str × Nat)} {t : SdpType} :
      LineDenotes l t → Reading (n + 1) ls vs us ws → Reading n (l :: ls) (⟨n, t, l⟩ :: vs) us ws
  | unsupported {n : Nat} {l : Str} {ls : List Str} {vs : List SdpLine} {us ws : List (Str × Nat)} :
      UnsupportedText l → Reading (n + 1) ls vs us ws → Reading n (l :: ls) vs ((l, n) :: us) ws
  | wrong {n : Nat} {l : Str} {ls : List Str} {vs : List SdpLine} {us ws : List (Str × Nat)} :
      ¬ Blank l → (∀ t, ¬ LineDenotes l t) → ¬ UnsupportedText l → Reading (n + 1) ls vs us ws →
      Reading n (l :: ls) vs us ((l, n) :: ws)

/-- The session a list of line values makes up: v=, o=, s= and at least one more; up to the first m=
line a=, b=, c=, t= lines without media-level attributes; after each m= line a=, b= and at most one
c= line without session-level attributes; and all that is consistent. -/
def Describes (vs : List SdpLine) (r : Session) : Prop :=
  ∃ l0 l1 l2 rest v o name, vs = l0 :: l1 :: l2 :: rest ∧ rest ≠ [] ∧
    l0.sdpType = .version v ∧ l1.sdpType = .origin o ∧ l2.sdpType = .session name ∧
    GoodSessionPart (rest.takeWhile notMedia) ∧ (∀ p ∈ sectionsOf rest, GoodSection p.2) ∧
    r = assemble v o name rest [] ∧ Consistent r

/-- The error for an unsupported line: it has the line and its number; the message is free. -/
def UnsupportedError (p : Str × Nat) (e : ParserError) : Prop := ∃ m, e = .unsupported (.unsupported m) p.1 p.2

/-- The error for a wrong line: it has the line and its number; the cause is free, but is none that
says "unsupported". -/
def WrongError (p : Str × Nat) (e : ParserError) : Prop := ∃ i, e = .line i p.1 p.2 ∧ ∀ m, i ≠ .unsupported m

/-- What comes of a text; `f` says whether unsupported lines are errors. -/
inductive Comes (s : Str) (f : Bool) : Outcome ParserError Session → Prop
  /-- too short -/
  | short {m : Str} : byteLen s < 51 → Comes s f (.err (.line (.generic m) s 0))
  /-- the first unsupported line, if unsupported lines are errors -/
  | unsupported {ls : List Str} {vs : List SdpLine} {u : Str × Nat} {us ws : List (Str × Nat)} {e : ParserError} :
      51 ≤ byteLen s → TextLines s ls → Reading 0 ls vs (u :: us) ws → f = true → UnsupportedError u e → Comes s f (.err e)
  /-- the last wrong line -/
  | wrong {ls : List Str} {vs : List SdpLine} {w : Str × Nat} {us ws : List (Str × Nat)} {e : ParserError} :
      51 ≤ byteLen s → TextLines s ls → Reading 0 ls vs us (ws ++ [w]) → (f = true → us = []) → WrongError w e →
      Comes s f (.err e)
  /-- the lines are all right, but their sequence is not -/
  | sequence {ls : List Str} {vs : List SdpLine} {us : List (Str × Nat)} {m : Str} {n : Nat} :
      51 ≤ byteLen s → TextLines s ls → Reading 0 ls vs us [] → (f = true → us = []) → SequenceFault vs m n →
      Comes s f (.err (.sequence m n))
  /-- a session, with a warning for each unsupported line -/
  | session {ls : List Str} {vs : List SdpLine} {us : List (Str × Nat)} {r : Session} {es : List ParserError} :
      51 ≤ byteLen s → TextLines s ls → Reading 0 ls vs us [] → (f = true → us = []) → Describes vs r →
      Each UnsupportedError us es → Comes s f (.ok { r with warnings := es })

/-- The same error, up to the cause of a line error and the message of an unsupported one. -/
def ParserError.Alike : ParserError → ParserError → Prop
  | .line _ l n, .line _ l' n' => l = l' ∧ n = n'
  | .unsupported _ l n, .unsupported _ l' n' => l = l' ∧ n = n'
  | .sequence m n, .sequence m' n' => m = m' ∧ n = n'
  | _, _ => False

/-- The same outcome, up to the causes and messages of errors and warnings. -/
def OutcomesAlike : Outcome ParserError Session → Outcome ParserError Session → Prop
  | .ok r, .ok r' => { r with warnings := [] } = { r' with warnings := [] } ∧ Each ParserError.Alike r.warnings r'.warnings
  | .err e, .err e' => e.Alike e'
  | _, _ => False

end

end Sdp
