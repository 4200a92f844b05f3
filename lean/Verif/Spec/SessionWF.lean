import Verif.Spec.WF
import Verif.Spec.Strings
import Verif.Spec.Consistent
/-!
# Well-formed sessions

When the printed form of a session can be expected to denote that session.
-/

namespace Sdp

structure Origin.WF [Env] (o : Origin) : Prop where
  username : Token o.username
  address : o.unicastAddr.WF

/-- A number of addresses can only be written after a ttl. -/
structure Connection.WF [Env] (c : Connection) : Prop where
  address : c.address.WF
  amount : c.ttl = none → c.amount = none

/-- An unknown bandwidth type is one that is not known, and can be told from the number. -/
def Bandwidth.WF [Env] : Bandwidth → Prop
  | .unknown t _ => ':' ∉ t ∧ (t = [] ∨ BeginsClean t) ∧ upper t ∉ [c%"AS", c%"CT", c%"TIAS"]
  | _ => True

/-- Audio and video have numbers as formats, application has words; there is at least one. -/
def FormatsWF : MediaValue → FormatList → Prop
  | .application, .strings l => l ≠ [] ∧ ∀ t ∈ l, Token t
  | .audio, .integers l | .video, .integers l => l ≠ [] ∧ ∀ n ∈ l, RtpFormat n.toNat
  | _, _ => False

structure MediaLine.WF (m : MediaLine) : Prop where
  port : m.port.toNat ≤ 65535
  formats : FormatsWF m.media m.formats

structure Media.WF [Env] (m : Media) : Prop where
  media : m.media.WF
  bandwidth : ∀ b ∈ m.bandwidth, b.WF
  connection : ∀ c, m.connection = some c → c.WF
  attrs : ∀ a ∈ m.attrs, a.WF
  levels : ∀ a ∈ m.attrs, a.type ∉ sessionOnly

structure Session.WF [Env] (s : Session) : Prop where
  version : s.version = 0
  origin : s.origin.WF
  name : ∀ t, s.session = some t → Trimmed t
  bandwidth : ∀ b ∈ s.bandwidth, b.WF
  connection : ∀ c, s.connection = some c → c.WF
  attrs : ∀ a ∈ s.attrs, a.WF
  levels : ∀ a ∈ s.attrs, a.type ∉ mediaOnly
  media : ∀ m ∈ s.media, m.WF
  lineFeeds : ∀ t ∈ s.strings, '\n' ∉ t
  consistent : Consistent s

end Sdp
