import Verif.Lemmas.Clean
import Verif.Spec.Sample
/-!
# C52: the strings of a parsed session

The texts kept in a session (`Session.strings`, Verif/Spec/Strings.lean) are made of characters of
the input, so they hold no line feed. Host names are the exception: they are what the `url` crate makes
of a text, so a law about it is a hypothesis.
-/

namespace Sdp

section
variable [Env]

/-- C52: no string inside a session `parse_sdp` returns has a line feed, as long as the host name
parser makes no host name with one. -/
theorem C52_no_line_feed (hhost : ∀ h d, Env.hostNA h = .domain d → '\n' ∉ d)
    {s : Str} {f : Bool} {r : Session} (h : parseSdp s f = .ok r) : ∀ t ∈ r.strings, '\n' ∉ t :=
  clean_session hhost (by decide) contentLines_lf (parseSdp_parts h)

/-- C52, for other characters: a character the text does not have is in no string of the session,
apart from the characters of the default `0-15` of fmtp and the blank that joins extmap attributes. -/
theorem C52_characters_of_the_text {x : Char} (hx : x ∉ c%"0-15 ")
    (hhost : ∀ h d, Env.hostNA h = .domain d → x ∉ d)
    {s : Str} (hs : x ∉ s) {f : Bool} {r : Session} (h : parseSdp s f = .ok r) : ∀ t ∈ r.strings, x ∉ t :=
  clean_session hhost hx (contentLines_clean hs) (parseSdp_parts h)

/-- **C52.** For one attribute given as text. -/
theorem C52_attribute {x : Char} (hx : x ∉ c%"0-15 ") (hhost : ∀ h d, Env.hostNA h = .domain d → x ∉ d)
    {v : Str} (hv : x ∉ v) {a : Attribute} (h : attrFromStr v = .ok a) : ∀ t ∈ a.strings, x ∉ t :=
  clean_attr hhost hx hv a h

end

section
attribute [local instance] sampleEnv
example : '\n' ∈ sampleText ∧ (match parseSdp sampleText false with
    | .ok r => r.strings.length
    | _ => 0) = 12 := by
  decide +kernel
example : 'Q' ∉ sampleText := by decide +kernel
/-- The exceptions are real: the text has no `5`, the string has one. -/
example : ∃ a, attrFromStr c%"fmtp:97 x" = .ok a ∧ ∃ t ∈ a.strings, '5' ∈ t :=
  ⟨.fmtp ⟨97, { FmtpParams.default with dtmfTones := c%"0-15" }⟩, by decide +kernel, c%"0-15", by decide +kernel, by decide⟩
end

end Sdp
