import Verif.Spec.Meaning
import Mathlib.Data.List.Forall2
import Verif.Spec.Candidate
import Verif.Spec.Fmtp
/-!
# Writing keywords in another case, and padding with white space

`Recased l l'`: the lines `l` and `l'` differ only in the case of ASCII letters of keywords that are
meant to be case-insensitive. `Padded l l'`: `l'` is `l` with white space added where it is meant not to
matter.
-/

namespace Sdp

/-- The same keyword, perhaps in another case. -/
def SameWord (a b : Str) : Prop := isAscii a = true ∧ SameLetters a b

instance (a b : Str) : Decidable (SameWord a b) :=
  inferInstanceAs (Decidable (isAscii a = true ∧ a.map asciiLower = b.map asciiLower))
instance (a b : Str) : Decidable (SameLetters a b) :=
  inferInstanceAs (Decidable (a.map asciiLower = b.map asciiLower))

section
variable [Env]

/-- The extensions of a candidate: the names of the known ones may differ in case, and so may the value
of `tcptype`. -/
inductive ExtsRecased : List Str → List Str → Prop where
  | nil : ExtsRecased [] []
  | odd (t : Str) : ExtsRecased [t] [t]
  | known {n n' v : Str} {r r' : List Str} (hn : SameWord n n') (hk : lower n ∈ candExtNames)
      (hr : ExtsRecased r r') : ExtsRecased (n :: v :: r) (n' :: v :: r')
  | tcptype {n n' v v' : Str} {r r' : List Str} (hn : SameWord n n') (hk : lower n = c%"tcptype")
      (hv : SameWord v v') (hr : ExtsRecased r r') : ExtsRecased (n :: v :: r) (n' :: v' :: r')
  | other {n v : Str} {r r' : List Str} (hr : ExtsRecased r r') : ExtsRecased (n :: v :: r) (n :: v :: r')

/-- One fmtp parameter: the name of a known one may differ in case. -/
inductive ParamRecased : Str → Str → Prop where
  | same {p : Str} (hp : ';' ∉ p) : ParamRecased p p
  | name {n n' v : Str} (hn : SameWord n n') (he : '=' ∉ n) (hk : upper n ∈ fmtpNames)
      (hs : ';' ∉ n ++ '=' :: v) : ParamRecased (n ++ '=' :: v) (n' ++ '=' :: v)

/-- The values of attributes. -/
inductive ValueRecased : AttributeType → Str → Str → Prop where
  | setup {v v' : Str} (h : SameWord v v') : ValueRecased .setup v v'
  | group {v v' s s' : Str} {r : List Str} (hv : splitWs v = s :: r) (hv' : splitWs v' = s' :: r)
      (h : SameWord s s') : ValueRecased .group v v'
  | ssrcGroup {v v' s s' : Str} {r : List Str} (hv : splitWs v = s :: r) (hv' : splitWs v' = s' :: r)
      (h : SameWord s s') : ValueRecased .ssrcGroup v v'
  | sctpmap {v v' p s s' : Str} {r : List Str} (hv : splitWs v = p :: s :: r)
      (hv' : splitWs v' = p :: s' :: r) (h : SameWord s s') : ValueRecased .sctpmap v v'
  | rtcp {v v' p n n' t t' : Str} {r : List Str} (hv : splitWs v = p :: n :: t :: r)
      (hv' : splitWs v' = p :: n' :: t' :: r) (hn : SameWord n n') (ht : SameWord t t') :
      ValueRecased .rtcp v v'
  | extmap {v v' i d d' : Str} {r : List Str} (hi : '/' ∉ i) (hv : splitWs v = (i ++ '/' :: d) :: r)
      (hv' : splitWs v' = (i ++ '/' :: d') :: r) (h : SameWord d d') : ValueRecased .extmap v v'
  | candidate {v v' f c t t' p a q y y' k k' : Str} {e e' : List Str}
      (hv : splitWs v = f :: c :: t :: p :: a :: q :: y :: k :: e)
      (hv' : splitWs v' = f :: c :: t' :: p :: a :: q :: y' :: k' :: e')
      (ht : SameWord t t') (hy : SameWord y y') (hk : SameWord k k') (he : ExtsRecased e e') :
      ValueRecased .candidate v v'
  | fmtp {v v' pt : Str} {ps ps' : List Str} (hpt : ' ' ∉ pt) (hne : ps ≠ [])
      (hv : trim v = pt ++ ' ' :: joinS c%";" ps) (hv' : trim v' = pt ++ ' ' :: joinS c%";" ps')
      (h : List.Forall₂ ParamRecased ps ps') : ValueRecased .fmtp v v'

/-- Lines that differ only in the case of a keyword. -/
inductive Recased : Str → Str → Prop where
  /-- the letter of the line -/
  | type {a a' b : Str} (ha : '=' ∉ a) (h : SameLetters a a') : Recased (a ++ '=' :: b) (a' ++ '=' :: b)
  /-- the name of an attribute without a value -/
  | flag {n n' : Str} (hn : ':' ∉ n) (h : SameWord n n') : Recased (c%"a=" ++ n) (c%"a=" ++ n')
  /-- the name of an attribute with a value -/
  | name {n n' v : Str} (hn : ':' ∉ n) (h : SameWord n n') :
      Recased (c%"a=" ++ n ++ ':' :: v) (c%"a=" ++ n' ++ ':' :: v)
  /-- a keyword inside the value of an attribute -/
  | value {t : AttributeType} {v v' : Str} (h : ValueRecased t v v') :
      Recased (c%"a=" ++ t.name ++ ':' :: v) (c%"a=" ++ t.name ++ ':' :: v')
  /-- the type of a bandwidth line -/
  | bandwidth {t t' n : Str} (h : SameWord t t') (hk : upper t ∈ [c%"AS", c%"CT", c%"TIAS"]) :
      Recased (c%"b=" ++ t ++ ':' :: n) (c%"b=" ++ t' ++ ':' :: n)
  /-- network and address type of a connection line -/
  | connection {v v' n n' t t' : Str} {r : List Str} (hv : splitWs v = n :: t :: r)
      (hv' : splitWs v' = n' :: t' :: r) (hn : SameWord n n') (ht : SameWord t t') :
      Recased (c%"c=" ++ v) (c%"c=" ++ v')
  /-- network and address type of an origin line -/
  | origin {v v' u i k n n' t t' : Str} {r : List Str} (hv : splitWs v = u :: i :: k :: n :: t :: r)
      (hv' : splitWs v' = u :: i :: k :: n' :: t' :: r) (hn : SameWord n n') (ht : SameWord t t') :
      Recased (c%"o=" ++ v) (c%"o=" ++ v')
  /-- kind and protocol of a media line -/
  | media {v v' m m' p q q' : Str} {r : List Str} (hv : splitWs v = m :: p :: q :: r)
      (hv' : splitWs v' = m' :: p :: q' :: r) (hm : SameWord m m') (hq : SameWord q q') :
      Recased (c%"m=" ++ v) (c%"m=" ++ v')

end

/-- White space added to a line. -/
inductive Padded : Str → Str → Prop where
  /-- around the letter of the line -/
  | type {a b w1 w2 : Str} (ha : '=' ∉ a) (h1 : Blank w1) (h2 : Blank w2) :
      Padded (a ++ '=' :: b) (w1 ++ a ++ w2 ++ '=' :: b)
  /-- around the value of the line -/
  | value {a b w1 w2 : Str} (ha : '=' ∉ a) (h1 : Blank w1) (h2 : Blank w2) :
      Padded (a ++ '=' :: b) (a ++ '=' :: (w1 ++ b ++ w2))
  /-- around the value of an attribute -/
  | attr {n v w1 w2 : Str} (hn : ':' ∉ n) (h1 : Blank w1) (h2 : Blank w2) :
      Padded (c%"a=" ++ n ++ ':' :: v) (c%"a=" ++ n ++ ':' :: (w1 ++ v ++ w2))

end Sdp
