import Verif.Spec.WF
import Verif.Spec.Lines
import Verif.Spec.Fmtp
import Verif.Spec.Float
/-!
# What the lines of a session description look like

For every value the parser can return, which texts denote it. These are relations between texts and
values, written from the documentation of the attributes, and refer to no part of the parser. A
number is `DecText`/`HexText` (Spec/Num.lean), a letter-case conversion is `lower`/`upper`.
-/

namespace Sdp

/-! ## Words and fields -/

/-- `v` is `w` without the white space around it. -/
def Stripped (w v : Str) : Prop :=
  (∃ w1 w2, Blank w1 ∧ Blank w2 ∧ w = w1 ++ v ++ w2) ∧ (v = [] ∨ Trimmed v)

/-- The words of a text: what stands between white space. -/
inductive Words : Str → List Str → Prop
  | nil {w : Str} : Blank w → Words w []
  | cons {w t rest : Str} {ts : List Str} : Blank w → Token t →
      (rest = [] ∨ ∃ c r, rest = c :: r ∧ isWs c = true) → Words rest ts → Words (w ++ t ++ rest) (t :: ts)

/-- The fields of a text: what stands between the separators. There is always at least one. -/
def Fields (sep : Char) (s : Str) (fs : List Str) : Prop :=
  fs ≠ [] ∧ (∀ f ∈ fs, sep ∉ f) ∧ s = joinS [sep] fs

/-- Two lists of the same length, with corresponding elements related. -/
def Each {α β : Type} (R : α → β → Prop) : List α → List β → Prop
  | [], [] => True
  | a :: as, b :: bs => R a b ∧ Each R as bs
  | _, _ => False

/-! ## Keywords -/

def setupText : Setup → Str
  | .active => c%"active"
  | .actpass => c%"actpass"
  | .holdconn => c%"holdconn"
  | .passive => c%"passive"

def ssrcGroupText : SsrcGroupSemantic → Str
  | .duplication => c%"DUP"
  | .flowIdentification => c%"FID"
  | .forwardErrorCorrection => c%"FEC"
  | .forwardErrorCorrectionFr => c%"FEC-FR"
  | .sim => c%"SIM"

def groupText : GroupSemantic → Str
  | .lipSynchronization => c%"LS"
  | .flowIdentification => c%"FID"
  | .singleReservationFlow => c%"SRF"
  | .alternateNetworkAddressType => c%"ANAT"
  | .forwardErrorCorrection => c%"FEC"
  | .decodingDependency => c%"DDP"
  | .bundle => c%"BUNDLE"

def directionText : Direction → Str
  | .recvonly => c%"recvonly"
  | .sendonly => c%"sendonly"
  | .sendrecv => c%"sendrecv"

def singleDirectionText : SingleDirection → Str
  | .send => c%"send"
  | .recv => c%"recv"

def hashText : HashType → Str
  | .sha1 => c%"sha-1"
  | .sha224 => c%"sha-224"
  | .sha256 => c%"sha-256"
  | .sha384 => c%"sha-384"
  | .sha512 => c%"sha-512"

def fbText : RtcpFbType → Str
  | .ack => c%"ack"
  | .ccm => c%"ccm"
  | .nack => c%"nack"
  | .trrInt => c%"trr-int"
  | .remb => c%"goog-remb"
  | .transCc => c%"transport-cc"

def addrTypeText : AddressType → Str
  | .ipV4 => c%"IP4"
  | .ipV6 => c%"IP6"

def mediaText : MediaValue → Str
  | .audio => c%"audio"
  | .video => c%"video"
  | .application => c%"application"

def protocolText : ProtocolValue → Str
  | .rtpAvp => c%"RTP/AVP"
  | .rtpAvpf => c%"RTP/AVPF"
  | .rtpSavp => c%"RTP/SAVP"
  | .rtpSavpf => c%"RTP/SAVPF"
  | .tcpDtlsRtpSavp => c%"TCP/DTLS/RTP/SAVP"
  | .tcpDtlsRtpSavpf => c%"TCP/DTLS/RTP/SAVPF"
  | .udpTlsRtpSavp => c%"UDP/TLS/RTP/SAVP"
  | .udpTlsRtpSavpf => c%"UDP/TLS/RTP/SAVPF"
  | .dtlsSctp => c%"DTLS/SCTP"
  | .udpDtlsSctp => c%"UDP/DTLS/SCTP"
  | .tcpDtlsSctp => c%"TCP/DTLS/SCTP"

/-! ## Addresses -/

/-- A dotted quad: four decimal numbers below 256, without leading zeros. -/
def V4Text (s : Str) (a : UInt32) : Prop :=
  ∃ w x y z, w < 256 ∧ x < 256 ∧ y < 256 ∧ z < 256 ∧
    s = joinS ['.'] [showNat w, showNat x, showNat y, showNat z] ∧
    a.toNat = w * 2^24 + x * 2^16 + y * 2^8 + z

/-- A group of an IPv6 address: one to four hexadecimal digits. -/
def HexGroup (t : Str) (g : Nat) : Prop :=
  t ≠ [] ∧ t.length ≤ 4 ∧ (∀ c ∈ t, IsHexDigit c) ∧ hexValue t = g

/-- Groups with colons between them; an empty text is no groups. -/
def HexGroups (s : Str) (gs : List Nat) : Prop :=
  ∃ ts, s = joinS [':'] ts ∧ Each HexGroup ts gs

/-- Groups, of which the last two may be written as a dotted quad. -/
def MixedGroups (s : Str) (gs : List Nat) : Prop :=
  HexGroups s gs ∨
    ∃ ts q hs a, s = joinS [':'] (ts ++ [q]) ∧ Each HexGroup ts hs ∧ V4Text q a ∧
      gs = hs ++ [a.toNat / 2^16, a.toNat % 2^16]

/-- The number written with the digits `gs` to the base 65536. -/
def groupsValue (gs : List Nat) : Nat := gs.foldl (fun acc g => acc * 65536 + g) 0

/-- An IPv6 address: eight groups, or fewer with `::` in the place of the missing zero groups, at
least one of them. -/
def V6Text (s : Str) (a : BitVec 128) : Prop :=
  (∃ gs, MixedGroups s gs ∧ gs.length = 8 ∧ a.toNat = groupsValue gs) ∨
    ∃ l r gl gr, s = l ++ c%"::" ++ r ∧ HexGroups l gl ∧ MixedGroups r gr ∧ gl.length + gr.length ≤ 7 ∧
      a.toNat = groupsValue (gl ++ List.replicate (8 - gl.length - gr.length) 0 ++ gr)

def IpText (s : Str) : IpAddr → Prop
  | .v4 a => V4Text s a
  | .v6 a => V6Text s a

section
variable [Env]

/-- An address: an IP address, or else what the host parser (outside the model) makes of the text. -/
def AddressText (s : Str) (a : Address) : Prop :=
  (∃ ip, IpText s ip ∧ a = .ip ip) ∨
    ((∀ ip, ¬ IpText s ip) ∧ match Env.hostNA s with
      | .domain d => a = .fqdn d
      | .ipv4 x => a = .ip (.v4 x)
      | .ipv6 x => a = .ip (.v6 x)
      | .error _ => False)

/-- The family of an IP address. -/
def ipFamily : IpAddr → AddressType
  | .v4 _ => .ipV4
  | .v6 _ => .ipV6

/-- An address with a declared type: an IP address of that family, or a host name. -/
def TypedText (t : AddressType) (s : Str) : TypedAddress → Prop
  | .ip a => AddressText s (.ip a) ∧ ipFamily a = t
  | .fqdn u d => AddressText s (.fqdn d) ∧ u = t

/-! ## Attributes -/

/-- `l` is the text of the attribute `name` with the value `v`. -/
def AttrText (l name v : Str) : Prop :=
  ∃ n w, l = n ++ ':' :: w ∧ ':' ∉ n ∧ lower n = name ∧ Stripped w v

/-- `payload-type codec/frequency[/channels]`; what follows is ignored. -/
def RtpmapText (v : Str) (r : Rtpmap) : Prop :=
  ∃ pt codec rest, Words v (pt :: codec :: rest) ∧
    DecText pt r.payloadType.toNat ∧ r.payloadType.toNat ≤ 127 ∧
    ((∃ f, Fields '/' codec [r.codecName, f] ∧ DecText f r.frequency.toNat ∧ r.channels = none) ∨
      ∃ f c more n, Fields '/' codec (r.codecName :: f :: c :: more) ∧ DecText f r.frequency.toNat ∧
        r.channels = some n ∧ DecText c n.toNat)

/-- `id`, `id attribute` or `id attribute:value`. -/
def SsrcText (v : Str) (s : Ssrc) : Prop :=
  (DecText v s.id.toNat ∧ s.attr = none ∧ s.value = none) ∨
    ∃ i a, v = i ++ ' ' :: a ∧ DecText i s.id.toNat ∧
      ((':' ∉ a ∧ s.attr = some a ∧ s.value = none) ∨
        ∃ n x, a = n ++ ':' :: x ∧ ':' ∉ n ∧ s.attr = some n ∧ s.value = some x)

/-- `semantics id ...` with at least one id. -/
def SsrcGroupText (v : Str) (g : SsrcGroupSemantic) (l : List Ssrc) : Prop :=
  ∃ sem ids, Words v (sem :: ids) ∧ upper sem = ssrcGroupText g ∧ ids ≠ [] ∧
    Each (fun t s => DecText t s.id.toNat ∧ s.attr = none ∧ s.value = none) ids l

/-- `semantics tag ...` -/
def GroupText (v : Str) (g : Group) : Prop :=
  ∃ sem, Words v (sem :: g.tags) ∧ upper sem = groupText g.semantics

/-- `id` or `id appdata`; what follows is ignored. -/
def MsidText (v : Str) (m : Msid) : Prop :=
  (Words v [m.id] ∧ m.appdata = none) ∨ ∃ a more, Words v (m.id :: a :: more) ∧ m.appdata = some a

/-- `semantic msid ...` -/
def MsidSemanticText (v : Str) (m : MsidSemantic) : Prop := Words v (m.semantic :: m.msids)

/-- `id[/direction] url [extension attributes]` -/
def ExtmapText (v : Str) (e : Extmap) : Prop :=
  ∃ i rest, Words v (i :: e.url :: rest) ∧
    ((DecText i e.id.toNat ∧ e.direction = none) ∨
      ∃ a b d, i = a ++ '/' :: b ∧ DecText a e.id.toNat ∧ e.direction = some d ∧ lower b = directionText d) ∧
    ((rest = [] ∧ e.extensionAttributes = none) ∨
      (rest ≠ [] ∧ (∀ t ∈ rest, '\x00' ∉ t) ∧ e.extensionAttributes = some (joinS c%" " rest)))

/-- `hash-function XX:XX:...` with as many bytes as the hash function has. -/
def FingerprintText (v : Str) (f : Fingerprint) : Prop :=
  ∃ h b fs, Words v [h, b] ∧ h = hashText f.hashAlgorithm ∧ Fields ':' b fs ∧
    Each (fun t (x : UInt8) => t.length = 2 ∧ HexText t x.toNat) fs f.fingerprint ∧
    f.fingerprint.length = fingerprintBytes f.hashAlgorithm

/-- `port [IN addrtype address]`; what follows is ignored. -/
def RtcpText (v : Str) (r : Rtcp) : Prop :=
  ∃ p, DecText p r.port.toNat ∧
    ((Words v [p] ∧ r.unicastAddr = none) ∨
      ∃ n t a more ty addr, Words v (p :: n :: t :: a :: more) ∧ upper n = c%"IN" ∧
        upper t = addrTypeText ty ∧ TypedText ty a addr ∧ r.unicastAddr = some addr)

/-- `component address port`; what follows is ignored. -/
def RemoteCandidateText (v : Str) (r : RemoteCandidate) : Prop :=
  ∃ c a p more, Words v (c :: a :: p :: more) ∧ DecText c r.component.toNat ∧ AddressText a r.address ∧
    DecText p r.port.toNat ∧ r.port.toNat ≤ 65535

/-- A payload type: a number, or `*` for all of them. -/
def PayloadTypeText (s : Str) : PayloadType → Prop
  | .pt n => DecText s n.toNat
  | .wildcard => s = c%"*"

/-- The feedback types that can stand without a parameter. -/
def FbBare : RtcpFbType → Prop
  | .ack | .trrInt => False
  | .ccm | .nack | .remb | .transCc => True

/-- The parameters of a feedback type. -/
def FbParameter (t : RtcpFbType) (p : Str) : Prop :=
  match t with
  | .ack => p ∈ [c%"rpsi", c%"app"]
  | .ccm => p ∈ [c%"fir", c%"tmmbr", c%"tstr", c%"vbcm"]
  | .nack => p ∈ [c%"sli", c%"pli", c%"rpsi", c%"app"]
  | .trrInt => ∃ n < 2^32, DecText p n
  | .remb | .transCc => False

/-- `payload-type type [parameter [extra]]`, with exactly one space between them. -/
def RtcpFbText (v : Str) (r : RtcpFb) : Prop :=
  ∃ pt, PayloadTypeText pt r.payloadType ∧
    ((v = pt ++ ' ' :: fbText r.feedbackType ∧ FbBare r.feedbackType ∧ r.parameter = [] ∧ r.extra = []) ∨
     (v = pt ++ ' ' :: fbText r.feedbackType ++ ' ' :: r.parameter ∧
        FbParameter r.feedbackType r.parameter ∧ r.extra = []) ∨
     (v = pt ++ ' ' :: fbText r.feedbackType ++ ' ' :: r.parameter ++ ' ' :: r.extra ∧
        FbParameter r.feedbackType r.parameter))

/-- `port webrtc-datachannel channels` -/
def SctpmapText (v : Str) (m : Sctpmap) : Prop :=
  ∃ p n c, Words v [p, n, c] ∧ DecText p m.port.toNat ∧ lower n = c%"webrtc-datachannel" ∧
    DecText c m.channels.toNat

/-- `client message` or `server message`, with exactly one space. -/
def DtlsMessageText (v : Str) : DtlsMessage → Prop
  | .client m => v = c%"client " ++ m ∧ ' ' ∉ m
  | .server m => v = c%"server " ++ m ∧ ' ' ∉ m

/-- A simulcast id, with a tilde if it is paused. -/
def SimulcastIdText (t : Str) (i : SimulcastId) : Prop :=
  (t = '~' :: i.id ∧ i.paused = true) ∨ (t = i.id ∧ t.head? ≠ some '~' ∧ i.paused = false)

/-- Alternative ids, with commas between them. -/
def SimulcastVersionText (t : Str) (v : SimulcastVersion) : Prop :=
  ∃ fs, Fields ',' t fs ∧ Each SimulcastIdText fs v.ids

/-- Streams, with semicolons between them, after an optional `rid=`. -/
def SimulcastListText (t : Str) (l : List SimulcastVersion) : Prop :=
  ∃ u fs, ((t = u ∧ '=' ∉ t) ∨ t = c%"rid=" ++ u) ∧ Fields ';' u fs ∧ Each SimulcastVersionText fs l

/-- The streams of one direction. -/
def Simulcast.of (s : Simulcast) : SingleDirection → List SimulcastVersion
  | .send => s.send
  | .recv => s.receive

/-- `direction list [other-direction list]`; what follows is ignored. -/
def SimulcastText (v : Str) (s : Simulcast) : Prop :=
  ∃ d e l, d ≠ e ∧ SimulcastListText l (s.of d) ∧
    ((Words v [singleDirectionText d, l] ∧ s.of e = []) ∨
      ∃ l' more, Words v (singleDirectionText d :: l :: singleDirectionText e :: l' :: more) ∧
        SimulcastListText l' (s.of e))

/-- The numeric parameters of a rid. -/
inductive RidField where
  | maxWidth | maxHeight | maxFps | maxFs | maxBr | maxPps

def RidField.text : RidField → Str
  | maxWidth => c%"max-width"
  | maxHeight => c%"max-height"
  | maxFps => c%"max-fps"
  | maxFs => c%"max-fs"
  | maxBr => c%"max-br"
  | maxPps => c%"max-pps"

def RidField.get (p : RidParams) : RidField → UInt32
  | maxWidth => p.maxWidth
  | maxHeight => p.maxHeight
  | maxFps => p.maxFps
  | maxFs => p.maxFs
  | maxBr => p.maxBr
  | maxPps => p.maxPps

/-- A parameter `name=value`. -/
def PairText (t : Str) (kv : Str × Str) : Prop := t = kv.1 ++ '=' :: kv.2 ∧ '=' ∉ kv.1

/-- The parameters of a rid: the values of the numeric ones are numbers, of which the last counts; the
values of depends are put together; parameters with other names are kept. -/
def RidParametersText (ts : List Str) (p : RidParams) (depends : List Str) : Prop :=
  ∃ kvs, Each PairText ts kvs ∧
    (∀ f : RidField,
      (∀ kv ∈ kvs, kv.1 = f.text → ∃ n < 2^32, DecText kv.2 n) ∧
      ((∀ kv ∈ kvs, kv.1 ≠ f.text) → f.get p = 0) ∧
      (∀ kv, LastWith (fun kv => kv.1 = f.text) kvs kv → DecText kv.2 (f.get p).toNat)) ∧
    (∃ ds, Each (fun kv d => Fields ',' kv.2 d) (kvs.filter fun kv => kv.1 = c%"depends") ds ∧
      depends = ds.flatten) ∧
    Each PairText p.unknown (kvs.filter fun kv => kv.1 ∉ c%"depends" :: [RidField.maxWidth, .maxHeight,
      .maxFps, .maxFs, .maxBr, .maxPps].map RidField.text)

/-- `id direction [parameters]`, with exactly one space between them, where the parameters have
semicolons between them and the first one may be a list of payload types. -/
def RidText (v : Str) (r : Rid) : Prop :=
  ' ' ∉ r.id ∧
    ((v = r.id ++ ' ' :: singleDirectionText r.direction ∧ r.formats = [] ∧ RidParametersText [] r.params r.depends) ∨
      ∃ t fs, v = r.id ++ ' ' :: singleDirectionText r.direction ++ ' ' :: t ∧ Fields ';' t fs ∧
        ((∃ l ns ps, fs = (c%"pt=" ++ l) :: ps ∧ Fields ',' l ns ∧
            Each (fun f (n : UInt16) => ∃ w, Stripped f w ∧ DecText w n.toNat) ns r.formats ∧
            RidParametersText ps r.params r.depends) ∨
          ((∀ l ps, fs ≠ (c%"pt=" ++ l) :: ps) ∧ r.formats = [] ∧ RidParametersText fs r.params r.depends)))

/-! ## Image attributes -/

/-- How many more brackets are opened than closed in a piece; several brackets in a piece count
once. -/
def opened (piece : Str) : Int := (if '[' ∈ piece then 1 else 0) - (if ']' ∈ piece then 1 else 0)

/-- The same for several pieces. -/
def openedIn (pieces : List Str) : Int := (pieces.map opened).sum

/-- The tokens of a text: it is divided at the separators outside of brackets. Where the brackets do
not close again, the rest is ignored. -/
def TokensText (sep : Char) (s : Str) (ts : List Str) : Prop :=
  ∃ (groups : List (List Str)) (rest : List Str), Fields sep s (groups.flatten ++ rest) ∧ ts = groups.map (joinS [sep]) ∧
    (∀ g ∈ groups, g ≠ [] ∧ openedIn g = 0 ∧
      ∀ a b, g = a ++ b → a ≠ [] → b ≠ [] → openedIn a ≠ 0) ∧
    ∀ a b, rest = a ++ b → a ≠ [] → openedIn a ≠ 0

/-- A number, `[min:max]`, `[min:step:max]` or `[number,number,...]` -/
def XyRangeText (t : Str) : XyRange → Prop
  | .range mn mx none => ∃ u a b, t = '[' :: u ++ [']'] ∧ Fields ':' u [a, b] ∧ DecText a mn.toNat ∧ DecText b mx.toNat
  | .range mn mx (some st) => ∃ u a b c, t = '[' :: u ++ [']'] ∧ Fields ':' u [a, b, c] ∧ DecText a mn.toNat ∧
      DecText b st.toNat ∧ DecText c mx.toNat
  | .discrete ns => (∃ n, ns = [n] ∧ DecText t n.toNat) ∨
      ∃ u fs, t = '[' :: u ++ [']'] ∧ ':' ∉ u ∧ Fields ',' u fs ∧
        Each (fun f (n : UInt32) => DecText f n.toNat) fs ns ∧ 2 ≤ ns.length

/-- `min-max`, where the first is less than the second. -/
def PsRangeText (t : Str) (mn mx : F32) : Prop :=
  ∃ a b, Fields '-' t [a, b] ∧ F32Text a mn ∧ F32Text b mx ∧ ¬ mn.AtLeast mx

/-- The value of a sar key. Brackets around a text without comma and dash say nothing. -/
def SarText (t : Str) (r : Option SRange) : Prop :=
  (t.head? ≠ some '[' ∧ ∃ x, F32Text t x ∧ r = some (.discrete [x])) ∨
  ∃ u, t = '[' :: u ++ [']'] ∧
    (('-' ∈ u ∧ ∃ mn mx, PsRangeText u mn mx ∧ r = some (.range mn mx)) ∨
     ('-' ∉ u ∧ ',' ∈ u ∧ ∃ fs xs, Fields ',' u fs ∧ Each F32Text fs xs ∧
        (∀ a x y b, F32.mk 0 :: xs = a ++ x :: y :: b → ¬ x.AtLeast y) ∧ r = some (.discrete xs)) ∨
     ('-' ∉ u ∧ ',' ∉ u ∧ r = none))

/-- The values of the tokens `key=value`. -/
def valuesOf (key : Str) (ts : List Str) : List Str :=
  ts.filterMap fun t => if key.isPrefixOf t then some (t.drop key.length) else none

/-- A set: x and y in this order, and then keys, of which the last ones count. Other tokens are
ignored. -/
def ImageSetText (t : Str) (s : ImageAttrSet) : Prop :=
  ∃ u x y ts, t = '[' :: u ++ [']'] ∧ TokensText ',' u ((c%"x=" ++ x) :: (c%"y=" ++ y) :: ts) ∧
    XyRangeText x s.x ∧ XyRangeText y s.y ∧
    (∃ rs, Each SarText (valuesOf c%"sar=" ts) rs ∧ s.sar = (rs.filterMap id).getLast?) ∧
    (∃ rs, Each (fun v (r : PRange) => ∃ u, v = '[' :: u ++ [']'] ∧ PsRangeText u r.min r.max) (valuesOf c%"par=" ts) rs ∧
      s.par = rs.getLast?) ∧
    (∃ rs, Each F32Text (valuesOf c%"q=" ts) rs ∧ s.q = rs.getLast?)

/-- A star, or one or more sets. -/
def ImageSetsText (ts : List Str) (l : ImageAttrSetList) : Prop :=
  (ts = [c%"*"] ∧ l = .wildcard) ∨ ∃ ss, ts ≠ [] ∧ Each ImageSetText ts ss ∧ l = .sets ss

/-- The sets of one direction. -/
def ImageAttr.of (a : ImageAttr) : SingleDirection → ImageAttrSetList
  | .send => a.send
  | .recv => a.recv

/-- `payload-type direction sets [other-direction sets]` -/
def ImageAttrText (v : Str) (a : ImageAttr) : Prop :=
  ∃ pt d e ts, PayloadTypeText pt a.pt ∧ d ≠ e ∧ ImageSetsText ts (a.of d) ∧
    ((TokensText ' ' v (pt :: singleDirectionText d :: ts) ∧ a.of e = .sets []) ∨
      ∃ ts', TokensText ' ' v (pt :: singleDirectionText d :: ts ++ singleDirectionText e :: ts') ∧
        ImageSetsText ts' (a.of e))

/-! ## Lines -/

/-- `user session-id session-version IN addrtype address`; what follows is ignored. The address type
is put into upper case twice, which for ASCII is the same as once. -/
def OriginText (v : Str) (o : Origin) : Prop :=
  ∃ i n k t a more ty, Words v (o.username :: i :: n :: k :: t :: a :: more) ∧
    DecText i o.sessionId.toNat ∧ DecText n o.sessionVersion.toNat ∧ upper k = c%"IN" ∧
    upper (upper t) = addrTypeText ty ∧ TypedText ty a o.unicastAddr

/-- `IN addrtype address[/ttl[/amount]]`; further fields are ignored. -/
def ConnectionText (v : Str) (c : Connection) : Prop :=
  ∃ k t a ty, Words v [k, t, a] ∧ upper k = c%"IN" ∧ upper (upper t) = addrTypeText ty ∧
    ((Fields '/' a [a] ∧ TypedText ty a c.address ∧ c.ttl = none ∧ c.amount = none) ∨
     (∃ x y n, Fields '/' a [x, y] ∧ TypedText ty x c.address ∧ c.ttl = some n ∧ DecText y n.toNat ∧
        c.amount = none) ∨
     (∃ x y z more n m, Fields '/' a (x :: y :: z :: more) ∧ TypedText ty x c.address ∧ c.ttl = some n ∧
        DecText y n.toNat ∧ c.amount = some m ∧ DecText z m.toNat))

/-- `type:number` -/
def BandwidthText (v : Str) (b : Bandwidth) : Prop :=
  ∃ t k, Fields ':' v [t, k] ∧ match b with
    | .as n => upper t = c%"AS" ∧ DecText k n.toNat
    | .ct n => upper t = c%"CT" ∧ DecText k n.toNat
    | .tias n => upper t = c%"TIAS" ∧ DecText k n.toNat
    | .unknown u n => u = t ∧ upper t ∉ [c%"AS", c%"CT", c%"TIAS"] ∧ DecText k n.toNat

/-- `start stop` -/
def TimingText (v : Str) (t : Timing) : Prop :=
  ∃ a b, Words v [a, b] ∧ DecText a t.start.toNat ∧ DecText b t.stop.toNat

/-- The payload type numbers that may stand in an m= line. -/
def FormatNumber (n : Nat) : Prop := n = 0 ∨ (3 ≤ n ∧ n ≤ 18) ∨ (20 ≤ n ∧ n ≤ 63) ∨ (96 ≤ n ∧ n ≤ 127)

/-- Formats: numbers for audio and video, words for applications. -/
def FormatsText (m : MediaValue) (fs : List Str) (l : FormatList) : Prop :=
  match m, l with
  | .application, .strings ss => ss = fs
  | .audio, .integers ns | .video, .integers ns =>
    Each (fun t (n : UInt32) => DecText t n.toNat ∧ FormatNumber n.toNat) fs ns
  | _, _ => False

/-- `media port[/count] protocol format ...` with at least one format; further fields of the port
are ignored. -/
def MediaText (v : Str) (m : MediaLine) : Prop :=
  ∃ k p q fs, Words v (k :: p :: q :: fs) ∧ fs ≠ [] ∧ lower k = mediaText m.media ∧
    upper q = protocolText m.proto ∧ m.port.toNat ≤ 65535 ∧
    ((Fields '/' p [p] ∧ DecText p m.port.toNat ∧ m.portCount = 0) ∨
      ∃ a b more, Fields '/' p (a :: b :: more) ∧ DecText a m.port.toNat ∧ DecText b m.portCount.toNat) ∧
    FormatsText m.media fs m.formats

/-- A line `letter=value`; the letter may be upper case and have white space around it. -/
def LineForm (l : Str) (letter : Char) (raw : Str) : Prop :=
  ∃ t c, l = t ++ '=' :: raw ∧ '=' ∉ t ∧ Stripped t [c] ∧ lower [c] = [letter] ∧ c.toNat < 128

end

end Sdp
