import Verif.Spec.Lines
import Verif.Spec.Num
/-!
# Which lines are unsupported rather than wrong
-/

namespace Sdp

def groupSemantics : List Str := [c%"LS", c%"FID", c%"SRF", c%"ANAT", c%"FEC", c%"DDP", c%"BUNDLE"]
def ssrcGroupSemantics : List Str := [c%"DUP", c%"FID", c%"FEC", c%"FEC-FR", c%"SIM"]
def hashNames : List Str := [c%"sha-1", c%"sha-224", c%"sha-256", c%"sha-384", c%"sha-512"]
def mediaNames : List Str := [c%"audio", c%"video", c%"application"]
def protocolNames : List Str :=
  [c%"RTP/AVP", c%"RTP/AVPF", c%"RTP/SAVP", c%"RTP/SAVPF", c%"TCP/DTLS/RTP/SAVP", c%"TCP/DTLS/RTP/SAVPF",
   c%"UDP/TLS/RTP/SAVP", c%"UDP/TLS/RTP/SAVPF", c%"DTLS/SCTP", c%"UDP/DTLS/SCTP", c%"TCP/DTLS/SCTP"]

/-- The feedback types of rtcp-fb. -/
def feedbackTypes : List Str := [c%"ack", c%"ccm", c%"nack", c%"trr-int", c%"goog-remb", c%"transport-cc"]

/-- The parameters a feedback type may have (`trr-int` has a number instead). -/
def feedbackParams (k : Str) : List Str :=
  if k = c%"ack" then [c%"rpsi", c%"app"]
  else if k = c%"ccm" then [c%"fir", c%"tmmbr", c%"tstr", c%"vbcm"]
  else if k = c%"nack" then [c%"sli", c%"pli", c%"rpsi", c%"app"]
  else []

section
variable [Env]

/-- The value of this attribute is of a kind the parser does not support. -/
def UnsupportedValue (t : AttributeType) (v : Str) : Prop :=
  match t with
  | .group => ∃ s r, splitWs v = s :: r ∧ upper s ∉ groupSemantics
  | .ssrcGroup => ∃ s r, splitWs v = s :: r ∧ upper s ∉ ssrcGroupSemantics
  | .fingerprint => ∃ h b, splitWs v = [h, b] ∧ h ∉ hashNames
  | .rtcpfb => ∃ p k r, splitC ' ' v = p :: k :: r ∧
      (k ∉ feedbackTypes ∨ (k = c%"ack" ∧ r = []) ∨
       (k ≠ c%"trr-int" ∧ ∃ x r', r = x :: r' ∧ x ∉ feedbackParams k))
  | .fmtp => ' ' ∉ v
  | .candidate => ∃ ts t, splitWs v = ts ++ [t] ∧ ts.length % 2 = 0 ∧
      ∃ c, attrFromStr (c%"candidate:" ++ joinS c%" " ts) = .ok (.candidate c)
  | _ => False

/-- The name and the value of an attribute. -/
def NameValue (s n v : Str) : Prop :=
  (':' ∉ s ∧ n = s ∧ v = []) ∨ ∃ w, ':' ∉ n ∧ s = n ++ ':' :: w ∧ v = trim w

/-- An attribute that is not supported. -/
def UnsupportedAttr (s : Str) : Prop :=
  ∃ n v, NameValue s n v ∧
    ((∀ t : AttributeType, t.name ≠ lower n) ∨ ∃ t : AttributeType, t.name = lower n ∧ UnsupportedValue t v)

/-- A port with an optional count. -/
def PortText (p : Str) : Prop :=
  ∃ a r, splitC '/' p = a :: r ∧ (∃ n, DecText a n ∧ n ≤ 65535) ∧
    ∀ c r', r = c :: r' → ∃ n, DecText c n ∧ n < 2^32

/-- A media description that is not supported. -/
def UnsupportedMedia (v : Str) : Prop :=
  ∃ m p q f r, splitWs v = m :: p :: q :: f :: r ∧
    (lower m ∉ mediaNames ∨ (PortText p ∧ upper q ∉ protocolNames))

/-- A line that is not supported. -/
def UnsupportedLine (l : Str) : Prop :=
  ∃ a b, '=' ∉ a ∧ l = a ++ '=' :: b ∧
    ((trim a ∈ [c%"a", c%"A"] ∧ trim b ≠ [] ∧ UnsupportedAttr (trim b)) ∨
     (trim a ∈ [c%"m", c%"M"] ∧ UnsupportedMedia b))

end

end Sdp
