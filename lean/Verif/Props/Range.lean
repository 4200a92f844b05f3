import Verif.Lemmas.ReadableSession
import Verif.Props.ReadsBack
import Verif.Props.Scan
import Verif.Props.Example
/-!
# C120: exactly which values can be read

A program that inspects a parsed session may rely on what every parsed session satisfies, and on nothing else.
`Spec/Readable.lean` says what that is, by conditions on the fields alone. It is complete: for every value that
meets them there is a text that denotes it, so no further condition holds of all parsed values.
-/

namespace Sdp

section
variable [Env]

/-- **C120.** An attribute is what some text denotes exactly if it is readable. -/
theorem C120_attribute (L : Laws) (a : Attribute) : (∃ l, attrFromStr l = .ok a) ↔ a.Readable :=
  ⟨fun ⟨_, h⟩ => attr_readable L h, fun h => let ⟨l, _, hl, _⟩ := attribute_text h; ⟨l, hl⟩⟩

/-- **C120.** A session is what some text denotes exactly if it is readable and its warnings report unsupported lines
in ascending order. -/
theorem C120_session_warnings (L : Laws) (s : Session) :
    (∃ t, parseSdp t false = .ok s) ↔
      s.Readable ∧ (∀ w ∈ s.warnings, Warning w) ∧ s.warnings.Pairwise fun a b => a.number < b.number := by
  constructor
  · rintro ⟨t, h⟩
    obtain ⟨h1, h2⟩ := C14_warnings h
    refine ⟨parsed_readable L h, fun w hw => ?_, h2⟩
    obtain ⟨l, n, m, hl, _, e, hp⟩ := (h1 w).1 hw
    exact ⟨l, n, m, e, not_mem_line (List.mem_of_getElem? hl), hp⟩
  · rintro ⟨h, h1, h2⟩
    obtain ⟨t, ht⟩ := session_text h h2 h1
    exact ⟨t, ht false (by simp)⟩

/-- **C120.** If warnings are errors, exactly if it is readable and has no warnings. -/
theorem C120_session (L : Laws) (s : Session) :
    (∃ t, parseSdp t true = .ok s) ↔ s.Readable ∧ s.warnings = [] := by
  constructor
  · rintro ⟨t, h⟩
    exact ⟨parsed_readable L h, ((C13_fail_on_warning t s).1 h).2⟩
  · rintro ⟨h, hw⟩
    obtain ⟨t, ht⟩ := session_text h (ws := s.warnings) (by simp [hw]) (by simp [hw])
    exact ⟨t, ht true fun _ => hw⟩

/-- **C120.** So whatever is true of all parsed sessions is true of all readable ones. -/
theorem C120_complete (L : Laws) (P : Session → Prop) :
    (∀ t s, parseSdp t true = .ok s → P s) ↔ ∀ s, s.Readable → s.warnings = [] → P s := by
  constructor
  · intro h s h1 h2
    obtain ⟨t, ht⟩ := (C120_session L s).2 ⟨h1, h2⟩
    exact h t s ht
  · intro h t s ht
    obtain ⟨h1, h2⟩ := (C120_session L s).1 ⟨t, ht⟩
    exact h s h1 h2

/-- **C120.** The values that survive printing are those of them that have none of the listed peculiarities. -/
theorem C120_wf (L : Laws) (a : Attribute) : a.WF ↔ a.Readable ∧ a.Plain := by
  constructor
  · intro h
    have := (C88_attribute_iff L a).2 h
    exact ⟨attr_readable L this, plain_of_back L this⟩
  · rintro ⟨h, hp⟩
    obtain ⟨l, hl⟩ := (C120_attribute L a).2 h
    exact attr_wf L hl hp

theorem C120_wf_session (L : Laws) (s : Session) : s.WF ↔ s.Readable ∧ s.Plain := by
  constructor
  · intro h
    exact ⟨⟨h.version, h.origin, h.name, h.bandwidth, h.connection, fun a ha => ((C120_wf L a).1 (h.attrs a ha)).1, h.levels,
      fun m hm => ⟨(h.media m hm).media, (h.media m hm).bandwidth, (h.media m hm).connection,
        fun a ha => ((C120_wf L a).1 ((h.media m hm).attrs a ha)).1, (h.media m hm).levels⟩, h.lineFeeds, h.consistent⟩,
      fun a ha => ((C120_wf L a).1 (h.attrs a ha)).2, fun m hm a ha => ((C120_wf L a).1 ((h.media m hm).attrs a ha)).2⟩
  · rintro ⟨h, hp⟩
    exact ⟨h.version, h.origin, h.name, h.bandwidth, h.connection,
      fun a ha => (C120_wf L a).2 ⟨h.attrs a ha, hp.attrs a ha⟩, h.levels,
      fun m hm => ⟨(h.media m hm).media, (h.media m hm).bandwidth, (h.media m hm).connection,
        fun a ha => (C120_wf L a).2 ⟨(h.media m hm).attrs a ha, hp.media m hm a ha⟩, (h.media m hm).levels⟩,
      h.lineFeeds, h.consistent⟩

end

section
attribute [local instance] sampleEnv

/-! Values that can be read and do not survive printing: an rid with two empty ids it depends on and an unknown
parameter ending in white space, a simulcast id with an equals sign, a negative NaN as preference. -/

def oddRid : Rid := ⟨c%"a\tb", .send, [], ⟨0, 0, 0, 0, 0, 0, [c%"pt= "]⟩, [[], []]⟩

example : (Attribute.rid oddRid).Readable := by
  refine ⟨⟨⟨'a', c%"\tb", rfl, by decide⟩, by decide⟩, by decide, by decide⟩

example : ∃ l, attrFromStr l = .ok (.rid oddRid) :=
  (C120_attribute sampleLaws _).2 ⟨⟨⟨'a', c%"\tb", rfl, by decide⟩, by decide⟩, by decide, by decide⟩

example : attrFromStr (showAttribute (.rid oddRid)) ≠ .ok (.rid oddRid) := by decide +kernel

example : ∃ l, attrFromStr l = .ok (.simulcast ⟨[⟨[⟨c%"1=2", false⟩]⟩], [⟨[⟨[], true⟩]⟩]⟩) :=
  (C120_attribute sampleLaws _).2 <| by
  have h1 : ∀ i : SimulcastId, i = ⟨c%"1=2", false⟩ → i.Readable := by rintro _ rfl; exact ⟨by decide, by decide⟩
  have h2 : ∀ i : SimulcastId, i = ⟨[], true⟩ → i.Readable := by rintro _ rfl; exact ⟨by decide, by decide⟩
  refine ⟨fun v hv => ?_, fun v hv => ?_, .inl (by decide)⟩
  · rw [List.mem_singleton.1 hv]; exact ⟨by decide, fun i hi => h1 i (List.mem_singleton.1 hi)⟩
  · rw [List.mem_singleton.1 hv]; exact ⟨by decide, fun i hi => h2 i (List.mem_singleton.1 hi)⟩

example : ∃ l, attrFromStr l =
    .ok (.imageAttr ⟨.wildcard, .sets [⟨.discrete [1], .discrete [2], none, none, some ⟨0xffc00000⟩⟩], .sets []⟩) := by
  refine (C120_attribute sampleLaws _).2 ⟨?_, ?_, by decide⟩
  · intro s hs
    rw [List.mem_singleton.1 hs]
    exact ⟨by simp [XyRange.WF], by simp [XyRange.WF], by simp, by simp, by rintro _ ⟨⟩ _; exact .inr rfl⟩
  · intro s hs; cases hs

/-- No text denotes an identification ending in a space. -/
example : ¬ ∃ l, attrFromStr l = .ok (.mid c%"a ") := by
  rw [C120_attribute sampleLaws]
  rintro ⟨-, h⟩
  obtain ⟨r, d, e, hd⟩ := h
  have : d = ' ' := by
    have := congrArg List.getLast? e
    simpa using this.symm
  subst this
  revert hd; decide

/-- A readable session is at hand. -/
example : ∃ s : Session, s.Readable ∧ s.media ≠ [] := by
  have h : (match parseSdp sampleText false with | .ok s => decide (s.media ≠ []) | _ => false) = true := by decide +kernel
  cases hp : parseSdp sampleText false with
  | ok s =>
    rw [hp] at h
    exact ⟨s, ((C120_session_warnings sampleLaws s).1 ⟨_, hp⟩).1, by simpa using h⟩
  | _ => rw [hp] at h; cases h

/-- A warning that can occur, on any line. -/
example (n : Nat) : Warning (.unsupported (.unsupported c%"Unknown attribute type foo") c%"a=foo" n) :=
  ⟨_, n, _, rfl, by decide, by rfl⟩

end

end Sdp
