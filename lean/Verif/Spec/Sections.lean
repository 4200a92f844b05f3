import Verif.Model.Show
/-!
# Which lines make up which section

Specification of how a list of parsed lines is to be read as a session: plain filters, and splitting
at the m= lines. Nothing here refers to the parser.
-/

namespace Sdp

/-- The attribute kinds that belong to the session level only. -/
def sessionOnly : List AttributeType :=
  [.dtlsMessage, .group, .iceLite, .icePacing, .identity, .msidSemantic]

/-- The attribute kinds that belong to the media level only. -/
def mediaOnly : List AttributeType :=
  [.bundleOnly, .candidate, .fmtp, .frameRate, .iceMismatch, .imageAttr, .label, .maxMessageSize,
   .maxPtime, .mid, .msid, .ptime, .rid, .remoteCandidate, .rtpmap, .rtcp, .rtcpfb, .rtcpMux,
   .rtcpMuxOnly, .rtcpRsize, .sctpmap, .sctpPort, .simulcast, .ssrc, .ssrcGroup]

/-- The attributes of the a= lines, in order. -/
def attrsOf (ls : List SdpLine) : List Attribute :=
  ls.filterMap fun l => match l.sdpType with | .attr a => some a | _ => none

/-- The values of the b= lines, in order. -/
def bandwidthsOf (ls : List SdpLine) : List Bandwidth :=
  ls.filterMap fun l => match l.sdpType with | .bandwidth a => some a | _ => none

/-- The values of the c= lines, in order. -/
def connectionsOf (ls : List SdpLine) : List Connection :=
  ls.filterMap fun l => match l.sdpType with | .connection a => some a | _ => none

/-- The values of the t= lines, in order. -/
def timingsOf (ls : List SdpLine) : List Timing :=
  ls.filterMap fun l => match l.sdpType with | .timing a => some a | _ => none

/-- Not an m= line. -/
def notMedia (l : SdpLine) : Bool := match l.sdpType with | .media _ => false | _ => true

/-- The sections: each m= line with the lines up to the next m= line. -/
def sectionsOf : List SdpLine → List (MediaLine × List SdpLine)
  | [] => []
  | l :: ls =>
    match l.sdpType with
    | .media m => (m, ls.takeWhile notMedia) :: sectionsOf ls
    | _ => sectionsOf ls

/-- a=, b= and c= lines may follow an m= line. -/
def SectionLine (l : SdpLine) : Prop :=
  match l.sdpType with | .attr _ | .bandwidth _ | .connection _ => True | _ => False

/-- a=, b=, c= and t= lines may stand in the session part after v=, o=, s=. -/
def SessionLine (l : SdpLine) : Prop :=
  match l.sdpType with | .attr _ | .bandwidth _ | .connection _ | .timing _ => True | _ => False

/-- A dtls-message attribute. -/
def isDtls : Attribute → Bool
  | .dtlsMessage _ => true
  | _ => false

/-- Lines that are fine after an m= line: only a=, b=, c= lines, at most one c= line, and no
attribute of the session level (a dtls-message is tolerated). -/
structure GoodSection (ls : List SdpLine) : Prop where
  kinds : ∀ l ∈ ls, SectionLine l
  oneConnection : (connectionsOf ls).length ≤ 1
  levels : ∀ a ∈ attrsOf ls, isDtls a = true ∨ a.type ∉ sessionOnly

/-- The section that consists of an m= line and the lines after it: a dtls-message is left out. -/
def sectionMedia (p : MediaLine × List SdpLine) : Media where
  media := p.1
  connection := (connectionsOf p.2).head?
  bandwidth := bandwidthsOf p.2
  attrs := (attrsOf p.2).filter (fun a => !isDtls a)

/-- Lines that are fine in the session part. -/
structure GoodSessionPart (ls : List SdpLine) : Prop where
  kinds : ∀ l ∈ ls, SessionLine l
  levels : ∀ a ∈ attrsOf ls, a.type ∉ mediaOnly

/-- What the session part adds to a session: attributes and bandwidths in order, the last timing and
the last connection. -/
def withSessionPart (s : Session) (ls : List SdpLine) : Session :=
  { s with
    attrs := s.attrs ++ attrsOf ls
    bandwidth := s.bandwidth ++ bandwidthsOf ls
    timing := (timingsOf ls).getLast?.or s.timing
    connection := (connectionsOf ls).getLast?.or s.connection }

end Sdp
