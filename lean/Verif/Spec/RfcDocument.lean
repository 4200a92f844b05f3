import Verif.Spec.RfcLines
import Verif.Spec.Layout
/-!
# What RFC 8866 says about descriptions

The structure of a description (RFC 8866, 9), over the rules of Verif/Spec/RfcLines.lean. The texts of the fields are without the
letter and the equals sign. **only** marks where the library takes less; Verif/Props/RfcDocument.lean shows that it does.
-/

namespace Sdp.Rfc

open Abnf

/-- `media-description = media-field [information-field] *connection-field *bandwidth-field [key-field] *attribute-field`: **only**
one c= line, no i= and no k= line. -/
structure Section where
  media : Str
  connection : Option Str
  bandwidths : List Str
  attributes : List Str

/-- The lines in the order of the RFC. -/
def Section.lines (s : Section) : List Str :=
  (c%"m=" ++ s.media) :: (s.connection.toList.map (c%"c=" ++ ·) ++ s.bandwidths.map (c%"b=" ++ ·) ++ s.attributes.map (c%"a=" ++ ·))

/-- `session-description = version-field origin-field session-name-field [information-field] [uri-field] *email-field *phone-field
[connection-field] *bandwidth-field 1*time-description [key-field] *attribute-field *media-description`,
`time-description = time-field [repeat-description]`: **only** without i=, u=, e=, p=, k=, r= and z= lines. -/
structure Description where
  version : Str
  origin : Str
  name : Str
  connection : Option Str
  bandwidths : List Str
  times : List Str
  attributes : List Str
  sections : List Section

/-- The lines before the first m= line. -/
def Description.head (d : Description) : List Str :=
  d.connection.toList.map (c%"c=" ++ ·) ++ d.bandwidths.map (c%"b=" ++ ·) ++ d.times.map (c%"t=" ++ ·) ++ d.attributes.map (c%"a=" ++ ·)

/-- The lines in the order of the RFC. -/
def Description.lines (d : Description) : List Str :=
  (c%"v=" ++ d.version) :: (c%"o=" ++ d.origin) :: (c%"s=" ++ d.name) :: (d.head ++ d.sections.flatMap Section.lines)

/-- Each line ends with a carriage return and a line feed. -/
def Description.text (d : Description) : Str := crlf d.lines

section
variable [Env]

/-- `attribute-field = "a=" attribute` -/
def anyAttribute : Rule := alt [knownAttribute, otherAttribute]

/-- The lines of a section follow their rules. -/
structure Section.Follows (s : Section) : Prop where
  media : Rfc.media s.media
  connection : ∀ c ∈ s.connection, Rfc.connection c
  bandwidths : ∀ b ∈ s.bandwidths, Rfc.bandwidth b
  attributes : ∀ a ∈ s.attributes, anyAttribute a

/-- The lines of a description follow their rules, and there is at least one t= line. Every line is a byte-string: no NUL, CR and
LF. -/
structure Description.Follows (d : Description) : Prop where
  version : Rfc.version d.version
  origin : Rfc.origin d.origin
  name : sessionName d.name
  connection : ∀ c ∈ d.connection, Rfc.connection c
  bandwidths : ∀ b ∈ d.bandwidths, Rfc.bandwidth b
  times : d.times ≠ [] ∧ ∀ t ∈ d.times, Rfc.timing t
  attributes : ∀ a ∈ d.attributes, anyAttribute a
  sections : ∀ s ∈ d.sections, s.Follows
  bytes : ∀ l ∈ d.lines, byteString l

/-- A line that follows its rule, of any kind. -/
def anyLine : Rule := fun l => byteString l ∧ alt
  [seq [exactly c%"v=", version], seq [exactly c%"o=", origin], seq [exactly c%"s=", sessionName], seq [exactly c%"c=", connection],
   seq [exactly c%"b=", bandwidth], seq [exactly c%"t=", timing], seq [exactly c%"m=", media], seq [exactly c%"a=", anyAttribute]] l

end

/-- The attributes whose usage level is "media" in the RFCs that define them. -/
def mediaLevel : List Str :=
  [c%"bundle-only", c%"candidate", c%"fmtp", c%"framerate", c%"ice-mismatch", c%"imageattr", c%"label", c%"max-message-size",
   c%"maxptime", c%"mid", c%"msid", c%"ptime", c%"rid", c%"remote-candidates", c%"rtpmap", c%"rtcp", c%"rtcp-fb", c%"rtcp-mux",
   c%"rtcp-mux-only", c%"rtcp-rsize", c%"sctpmap", c%"sctp-port", c%"simulcast", c%"ssrc", c%"ssrc-group"]

/-- The attributes whose usage level is "session". -/
def sessionLevel : List Str := [c%"dtls-message", c%"group", c%"ice-lite", c%"ice-pacing", c%"identity", c%"msid-semantic"]

/-- Some attribute has the name. -/
def Names (as : List Str) (n : Str) : Prop := ∃ a ∈ as, HasName n a

/-- The format is in the m= line, **only** without leading zeros. -/
def Section.Lists (s : Section) (f : Str) : Prop :=
  (f = c%"0" ∨ f.head? ≠ some '0') ∧ ∃ k p q fs, Words s.media (k :: p :: q :: fs) ∧ f ∈ fs

/-- The formats of the rids are in the m= line. -/
def Section.RidFormats (s : Section) : Prop :=
  ∀ v id dir fs, c%"rid:" ++ v ∈ s.attributes → RidHas v id dir fs → ∀ f ∈ fs, s.Lists f

/-- The streams of a simulcast are defined by rids. -/
def Section.SimulcastRids (s : Section) : Prop :=
  ∀ v dir id, c%"simulcast:" ++ v ∈ s.attributes → SimulcastHas v dir id →
    ∃ w fs, c%"rid:" ++ w ∈ s.attributes ∧ RidHas w id dir fs

/-- What the RFCs say about the place of lines: there is a c= line for every section (8866, 5.7); attributes are at the level they
belong to; extmap is at one of the two levels (8285, 6); rtcp-mux-only comes with rtcp-mux (8858, 3); the formats of a rid are
formats of the m= line (8851, 5); and the streams of a simulcast are defined by rids of the same direction (8853, 5.1). -/
structure Description.Placed (d : Description) : Prop where
  connection : d.connection ≠ none ∨ ∀ s ∈ d.sections, s.connection ≠ none
  session : ∀ n ∈ mediaLevel, ¬ Names d.attributes n
  media : ∀ s ∈ d.sections, ∀ n ∈ sessionLevel, ¬ Names s.attributes n
  extmap : Names d.attributes c%"extmap" → ∀ s ∈ d.sections, ¬ Names s.attributes c%"extmap"
  mux : ∀ s ∈ d.sections, Names s.attributes c%"rtcp-mux-only" → c%"rtcp-mux" ∈ s.attributes
  formats : ∀ s ∈ d.sections, s.RidFormats
  simulcast : ∀ s ∈ d.sections, s.SimulcastRids

end Sdp.Rfc
