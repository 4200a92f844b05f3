import Verif.Spec.InsertConn
/-!
# What is left of a session when its text is cut off
-/

namespace Sdp

/-- What is left of a section: its m= line, maybe its connection, and the first bandwidths and attributes. -/
structure Media.CutOf (m' m : Media) : Prop where
  media : m'.media = m.media
  connection : m'.connection = none ∨ m'.connection = m.connection
  bandwidth : m'.bandwidth <+: m.bandwidth
  attrs : m'.attrs <+: m.attrs

/-- What is left of a session: either no section, and the first bandwidths and attributes; or everything on the session
level, the first sections, and what is left of one more. -/
structure Session.CutOf (r' r : Session) : Prop where
  version : r'.version = r.version
  origin : r'.origin = r.origin
  session : r'.session = r.session
  bandwidth : r'.bandwidth <+: r.bandwidth
  attrs : r'.attrs <+: r.attrs
  warnings : r'.warnings <+: r.warnings
  media : r'.media = [] ∨
    (r'.connection = r.connection ∧ r'.timing = r.timing ∧ r'.bandwidth = r.bandwidth ∧ r'.attrs = r.attrs ∧
      ∃ before m m' after, r.media = before ++ m :: after ∧ r'.media = before ++ [m'] ∧ m'.CutOf m)

section
variable [Env]

/-- The section of this m= line and the lines after it (a dtls-message is dropped). -/
def sectionRead (ml : MediaLine) (p : List Str) : Media where
  media := ml
  connection := (connectionsRead p).head?
  bandwidth := bandwidthsRead p
  attrs := (attrsRead p).filter fun a => !isDtls a

end

end Sdp
