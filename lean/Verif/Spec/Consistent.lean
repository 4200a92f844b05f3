import Verif.Spec.Sections
import Verif.Spec.Lines
/-!
# The consistency rules of an accepted session

Stated on the session value only; nothing here refers to the parser.
-/

namespace Sdp

/-- The decimal text of a number. -/
def decimal (n : Nat) : Str := Nat.toDigits 10 n

/-- The m= line's formats list payload type `n` (as a number, or as its decimal text). -/
def ListsFormat : FormatList → Nat → Prop
  | .integers l, n => ∃ x ∈ l, x.toNat = n
  | .strings l, n => decimal n ∈ l

/-- The section has an a=rid with this direction and id. -/
def HasRid (m : Media) (d : SingleDirection) (id : Str) : Prop :=
  ∃ r, Attribute.rid r ∈ m.attrs ∧ r.direction = d ∧ r.id = id

/-- All ids of a simulcast attribute are defined by rids of the same direction. -/
def SimulcastDefined (m : Media) (sc : Simulcast) : Prop :=
  (∀ v ∈ sc.send, ∀ i ∈ v.ids, HasRid m .send i.id) ∧
  (∀ v ∈ sc.receive, ∀ i ∈ v.ids, HasRid m .recv i.id)

/-- `sc` is the first a=simulcast of the section. -/
def FirstSimulcast (m : Media) (sc : Simulcast) : Prop :=
  ∃ pre post, m.attrs = pre ++ Attribute.simulcast sc :: post ∧ ∀ x, Attribute.simulcast x ∉ pre

/-- The rules inside one media section. -/
structure ConsistentMedia (m : Media) : Prop where
  mux : Attribute.rtcpMuxOnly ∈ m.attrs → Attribute.rtcpMux ∈ m.attrs
  ridFormats : ∀ r, Attribute.rid r ∈ m.attrs → ∀ f ∈ r.formats, ListsFormat m.media.formats f.toNat
  simulcast : ∀ sc, FirstSimulcast m sc → SimulcastDefined m sc

/-- The rules of a session. -/
structure Consistent (s : Session) : Prop where
  timing : ∃ t, s.timing = some t
  connection : (∃ c, s.connection = some c) ∨ ∀ m ∈ s.media, ∃ c, m.connection = some c
  extmap : ¬ ((∃ e, Attribute.extmap e ∈ s.attrs) ∧ ∃ m ∈ s.media, ∃ e, Attribute.extmap e ∈ m.attrs)
  media : ∀ m ∈ s.media, ConsistentMedia m

/-- The session made of a version, an origin, a name, the lines after the first three, and the
warnings: the session part is what comes before the first m= line. -/
def assemble (v : UInt64) (o : Origin) (name : Str) (rest : List SdpLine) (ws : List ParserError) :
    Session :=
  let part := rest.takeWhile notMedia
  { version := v
    origin := o
    session := if Blank name then none else some (trim name)
    connection := (connectionsOf part).getLast?
    bandwidth := bandwidthsOf part
    timing := (timingsOf part).getLast?
    attrs := attrsOf part
    media := (sectionsOf rest).map sectionMedia
    warnings := ws }

end Sdp
