import Verif.Spec.Abnf
/-!
# The order of lines in RFC 8866

The grammar of RFC 8866, 9, with each line reduced to its letter. RFC 8866, 5, says that the lines MUST be in this order.
-/

namespace Sdp.Rfc

open Abnf

/-- `media-description = media-field [information-field] *connection-field *bandwidth-field [key-field] *attribute-field` -/
def sectionOrder : Rule :=
  seq [exactly ['m'], opt (exactly ['i']), rep 0 (exactly ['c']), rep 0 (exactly ['b']), opt (exactly ['k']), rep 0 (exactly ['a'])]

/-- `time-description = time-field [repeat-description]`, `repeat-description = 1*repeat-field [zone-field]` -/
def timeOrder : Rule := seq [exactly ['t'], opt (seq [rep 1 (exactly ['r']), opt (exactly ['z'])])]

/-- `session-description = version-field origin-field session-name-field [information-field] [uri-field] *email-field *phone-field
[connection-field] *bandwidth-field 1*time-description [key-field] *attribute-field *media-description` -/
def lineOrder : Rule :=
  seq [exactly ['v'], exactly ['o'], exactly ['s'], opt (exactly ['i']), opt (exactly ['u']), rep 0 (exactly ['e']),
    rep 0 (exactly ['p']), opt (exactly ['c']), rep 0 (exactly ['b']), rep 1 timeOrder, opt (exactly ['k']), rep 0 (exactly ['a']),
    rep 0 sectionOrder]

/-- The letters of lines. -/
def letters (ls : List Str) : Str := ls.filterMap List.head?

end Sdp.Rfc
