import Verif.Lemmas.ReadsBackSession
import Verif.Props.Parsed
/-!
# C88: exactly which values survive printing and parsing

C24, C26 and C55 say that well-formed values are read back. Here the converse: nothing else is, so the conditions
of `Spec/WF.lean` and `Spec/Plain.lean` (which mention neither the printer nor the parser of this crate) are not
merely sufficient, and a program may check them instead of printing and parsing.
-/

namespace Sdp

section
variable [Env]

/-- **C88.** An attribute is read back from its printed form exactly if it is well-formed. -/
theorem C88_attribute_iff (L : Laws) (a : Attribute) : attrFromStr (showAttribute a) = .ok a ↔ a.WF := attr_back_iff L

/-- **C88.** The same for the line it prints. -/
theorem C88_line_iff (L : Laws) (a : Attribute) (n : Nat) :
    parseSdpLine (c%"a=" ++ showAttribute a) n = .ok ⟨n, .attr a, c%"a=" ++ showAttribute a⟩ ↔ a.WF := by
  constructor
  · intro h
    have hr : readType (c%"a=" ++ showAttribute a) = some (.attr a) := by
      rw [readType_some]
      rw [parseSdpLine_record] at h
      cases hm : lineMeaning (c%"a=" ++ showAttribute a) with
      | ok t =>
        rw [hm] at h
        have := congrArg SdpLine.sdpType (Outcome.ok.inj h)
        exact congrArg Outcome.ok this
      | err e => rw [hm] at h; cases h
      | panic => rw [hm] at h; cases h
    obtain ⟨b, hb, h⟩ := readType_attr hr
    cases hb
    rw [attrFromStr_trim_show] at h
    exact (attr_back_iff L).1 h
  · exact fun h => C24_attribute_line a h n

/-- **C88.** A session is read back from its printed form, with whatever warnings, exactly if it is well-formed and
its printed form has 51 bytes; there are no warnings then. -/
theorem C88_session_iff (L : Laws) (s : Session) (f : Bool) (w : List ParserError) :
    parseSdp (showSession s) f = .ok { s with warnings := w } ↔ s.WF ∧ 51 ≤ byteLen (showSession s) ∧ w = [] :=
  session_back_iff L

/-- **C88.** Of the attributes that were parsed exactly the plain ones are read back. -/
theorem C88_parsed_attribute_iff (L : Laws) {l : Str} {a : Attribute} (h : attrFromStr l = .ok a) :
    attrFromStr (showAttribute a) = .ok a ↔ a.Plain :=
  ⟨plain_of_back L, C24_parsed_round_trip L h⟩

/-- **C88.** Of the sessions that were parsed exactly those with plain attributes only are read back, if the
printed form has 51 bytes. -/
theorem C88_parsed_session_iff (L : Laws) {t : Str} {f : Bool} {s : Session} (h : parseSdp t f = .ok s) (g : Bool) :
    parseSdp (showSession s) g = .ok { s with warnings := [] } ↔ s.Plain ∧ 51 ≤ byteLen (showSession s) := by
  constructor
  · intro hb
    obtain ⟨h1, h2⟩ := session_back L hb
    exact ⟨⟨fun a ha => plain_of_back L (h1 a ha), fun m hm a ha => plain_of_back L (h2 m hm a ha)⟩,
      ((session_back_iff L).1 hb).2.1⟩
  · exact fun ⟨hp, hl⟩ => C55_parse_print_parse L h hp hl g

/-- **C88.** Whether the text is read back does not depend on the flag that turns warnings into errors. -/
theorem C88_flag (L : Laws) (s : Session) (f g : Bool) :
    parseSdp (showSession s) f = .ok { s with warnings := [] } ↔ parseSdp (showSession s) g = .ok { s with warnings := [] } := by
  rw [session_back_iff L, session_back_iff L]

end

section
attribute [local instance] sampleEnv

/-! Both sides occur: the parsed example session is read back, as are some attributes, while an fmtp with apt beside other
parameters, an msid-semantic without ids and a simulcast id with an equals sign are not. -/

example : (match parseSdp sampleText false with
    | .ok s => decide (s.Plain ∧ 51 ≤ byteLen (showSession s))
    | _ => false) = true := by decide +kernel

example : Laws := sampleLaws

/-- Parsed, and read back? -/
private def back (l : Str) : Option Bool :=
  match attrFromStr l with
  | .ok a => some (decide (attrFromStr (showAttribute a) = .ok a))
  | _ => none

example : back c%"rid:hi send pt=96,97;max-width=1280;depends=lo" = some true := by decide +kernel
example : back c%"fmtp:96 apt=97" = some true := by decide +kernel
example : back c%"simulcast:send 1,~2;3 recv 4" = some true := by decide +kernel
example : back c%"fmtp:96 profile-level-id=420010;apt=97" = some false := by decide +kernel
example : back c%"msid-semantic: WMS" = some false := by decide +kernel
example : back c%"simulcast:send rid=1=2" = some false := by decide +kernel

end

end Sdp
