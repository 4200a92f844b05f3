import Verif.Spec.Consistent
/-!
# What is wrong with a sequence of lines

The error that describes why a list of line values is not a session: the first fault, in the order in
which the lines are read, then the first inconsistency of the whole. Nothing here refers to the parser.
-/

namespace Sdp

section
variable [Env]

/-- A line that must not stand between s= and the first m= line. -/
def SessionLineFault (l : SdpLine) (msg : Str) : Prop :=
  match l.sdpType with
  | .attr a => a.type ∈ mediaOnly ∧ msg = c%"Parsing error: " ++ (showAttribute a ++ c%" not allowed at session level")
  | .version _ | .origin _ | .session _ => msg = c%"version, origin or session at wrong level"
  | _ => False

/-- A line that must not stand in a media section after the lines `before`. -/
def SectionLineFault (before : List SdpLine) (l : SdpLine) (msg : Str) : Prop :=
  match l.sdpType with
  | .connection _ => connectionsOf before ≠ [] ∧ msg = c%"connection type already exists at this media level"
  | .attr a => isDtls a = false ∧ a.type ∈ sessionOnly ∧
      msg = c%"Parsing error: " ++ (showAttribute a ++ c%" not allowed at media level")
  | .version _ | .origin _ | .session _ | .timing _ => msg = c%"invalid type in media section"
  | _ => False

end

/-- The first rule a media section breaks. -/
inductive MediaFault (m : Media) : Str → Prop
  | mux : Attribute.rtcpMuxOnly ∈ m.attrs → Attribute.rtcpMux ∉ m.attrs →
      MediaFault m c%"rtcp-mux-only media sections must also contain the rtcp-mux attribute"
  | rid {r : Rid} {f : UInt16} : (Attribute.rtcpMuxOnly ∈ m.attrs → Attribute.rtcpMux ∈ m.attrs) →
      Attribute.rid r ∈ m.attrs → f ∈ r.formats → ¬ ListsFormat m.media.formats f.toNat →
      MediaFault m c%"Rid pts must be declared in the media section"
  | simulcast {sc : Simulcast} : (Attribute.rtcpMuxOnly ∈ m.attrs → Attribute.rtcpMux ∈ m.attrs) →
      (∀ r, Attribute.rid r ∈ m.attrs → ∀ f ∈ r.formats, ListsFormat m.media.formats f.toNat) →
      FirstSimulcast m sc → ¬ SimulcastDefined m sc →
      MediaFault m c%"Simulcast RIDs must be defined in any rid attribute"

/-- The first rule a session breaks. -/
inductive Inconsistency (s : Session) : Str → Prop
  | timing : s.timing = none → Inconsistency s c%"Missing timing type at session level"
  | connection {m : Media} : s.timing ≠ none → s.connection = none → m ∈ s.media → m.connection = none →
      Inconsistency s
        c%"Without connection type at session level all media sections must have connection types"
  | extmap {m : Media} {x y : Extmap} : s.timing ≠ none → (s.connection ≠ none ∨ ∀ m ∈ s.media, m.connection ≠ none) →
      Attribute.extmap x ∈ s.attrs → m ∈ s.media → Attribute.extmap y ∈ m.attrs →
      Inconsistency s c%"Extmap can't be define at session and media level"
  | media {before after : List Media} {m : Media} {msg : Str} : s.timing ≠ none →
      (s.connection ≠ none ∨ ∀ m ∈ s.media, m.connection ≠ none) →
      (∀ x y m, Attribute.extmap x ∈ s.attrs → m ∈ s.media → Attribute.extmap y ∉ m.attrs) →
      s.media = before ++ m :: after → (∀ x ∈ before, ConsistentMedia x) → MediaFault m msg → Inconsistency s msg

section
variable [Env]

/-- Why a list of line values is not a session: the message, and a line number. -/
inductive SequenceFault (vs : List SdpLine) : Str → Nat → Prop
  | few : vs.length < 4 → SequenceFault vs c%"SDP neeeds at least 4 lines" 0
  | version {l0 : SdpLine} {rest : List SdpLine} : 4 ≤ vs.length → vs = l0 :: rest →
      (∀ v, l0.sdpType ≠ .version v) → SequenceFault vs c%"first line needs to be version number" 0
  | origin {l0 l1 : SdpLine} {rest : List SdpLine} {v : UInt64} : 4 ≤ vs.length → vs = l0 :: l1 :: rest →
      l0.sdpType = .version v → (∀ o, l1.sdpType ≠ .origin o) → SequenceFault vs c%"second line needs to be origin" 1
  | session {l0 l1 l2 : SdpLine} {rest : List SdpLine} {v : UInt64} {o : Origin} : 4 ≤ vs.length →
      vs = l0 :: l1 :: l2 :: rest → l0.sdpType = .version v → l1.sdpType = .origin o →
      (∀ s, l2.sdpType ≠ .session s) → SequenceFault vs c%"third line needs to be session" 2
  /-- the first misplaced line of the session part -/
  | sessionPart {l0 l1 l2 l : SdpLine} {rest pre post : List SdpLine} {v : UInt64} {o : Origin} {name msg : Str} :
      4 ≤ vs.length → vs = l0 :: l1 :: l2 :: rest → l0.sdpType = .version v → l1.sdpType = .origin o →
      l2.sdpType = .session name → rest.takeWhile notMedia = pre ++ l :: post → GoodSessionPart pre →
      SessionLineFault l msg → SequenceFault vs msg l.lineNumber
  /-- the first misplaced line of a media section -/
  | mediaSection {l0 l1 l2 l : SdpLine} {rest pre post : List SdpLine} {v : UInt64} {o : Origin} {name msg : Str}
      {before after : List (MediaLine × List SdpLine)} {m : MediaLine} :
      4 ≤ vs.length → vs = l0 :: l1 :: l2 :: rest → l0.sdpType = .version v → l1.sdpType = .origin o →
      l2.sdpType = .session name → GoodSessionPart (rest.takeWhile notMedia) →
      sectionsOf rest = before ++ (m, pre ++ l :: post) :: after → (∀ p ∈ before, GoodSection p.2) →
      GoodSection pre → SectionLineFault pre l msg → SequenceFault vs msg l.lineNumber
  /-- the whole is inconsistent -/
  | whole {l0 l1 l2 : SdpLine} {rest : List SdpLine} {v : UInt64} {o : Origin} {name msg : Str} :
      4 ≤ vs.length → vs = l0 :: l1 :: l2 :: rest → l0.sdpType = .version v → l1.sdpType = .origin o →
      l2.sdpType = .session name → GoodSessionPart (rest.takeWhile notMedia) →
      (∀ p ∈ sectionsOf rest, GoodSection p.2) → Inconsistency (assemble v o name rest []) msg →
      SequenceFault vs msg 0

end

end Sdp
