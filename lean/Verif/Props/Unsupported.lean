import Verif.Spec.Sample
import Verif.Lemmas.Unsupported
/-!
# C44: which lines are unsupported, and how a bad line is reported
-/

namespace Sdp

/-- The error is `SdpParserError::Unsupported`. -/
def ParserError.saysUnsupported : ParserError → Bool
  | .unsupported _ _ _ => true
  | _ => false

section
variable [Env]

/-- **C44.** `parse_sdp_line` says "unsupported" for exactly the lines that `UnsupportedLine` lists. -/
theorem C44_unsupported_iff (l : Str) (n : Nat) :
    (∃ e, parseSdpLine l n = .err e ∧ e.saysUnsupported = true) ↔ UnsupportedLine l := by
  rw [← uns_line, parseSdpLine_record]
  unfold Uns
  constructor
  · rintro ⟨e, h, he⟩
    cases hm : lineMeaning l with
    | ok x => simp [hm, recordLine] at h
    | panic => simp [hm, recordLine] at h
    | err i =>
      rw [hm] at h
      cases h
      cases i <;> first | exact ⟨_, rfl⟩ | simp [classifyErr, ParserError.saysUnsupported] at he
  · rintro ⟨m, hm⟩
    exact ⟨.unsupported (.unsupported m) l n, by rw [hm]; rfl, rfl⟩

/-- **C44.** Such an error carries the line, its number and an "unsupported" inner error. -/
theorem C44_unsupported_error {l : Str} {n : Nat} (h : UnsupportedLine l) :
    ∃ m, parseSdpLine l n = .err (.unsupported (.unsupported m) l n) := by
  obtain ⟨m, hm⟩ := (uns_line l).2 h
  exact ⟨m, by rw [parseSdpLine_record, hm]; rfl⟩

/-- **C44.** Every other failure is a line error with the line, its number and another inner error. -/
theorem C44_line_error {l : Str} {n : Nat} {e : ParserError} (h : parseSdpLine l n = .err e)
    (hu : ¬ UnsupportedLine l) : ∃ i, e = .line i l n ∧ ∀ m, i ≠ .unsupported m := by
  rw [parseSdpLine_record] at h
  cases hm : lineMeaning l with
  | ok x => simp [hm, recordLine] at h
  | panic => simp [hm, recordLine] at h
  | err i =>
    rw [hm] at h
    have hi : ∀ m, i ≠ .unsupported m := by
      rintro m rfl
      exact hu ((uns_line l).1 ⟨m, hm⟩)
    refine ⟨i, ?_, hi⟩
    cases h
    cases i <;> first | rfl | exact absurd rfl (hi _)

/-- **C44.** Only a= and m= lines can be unsupported. -/
theorem C44_only_attributes_and_media {a b : Str} {n : Nat} {e : ParserError} (ha : '=' ∉ a)
    (hl : trim a ∉ [c%"a", c%"A", c%"m", c%"M"]) (h : parseSdpLine (a ++ '=' :: b) n = .err e) :
    e.saysUnsupported = false := by
  have : ¬ UnsupportedLine (a ++ '=' :: b) := by
    rintro ⟨a', b', h3, e, hu⟩
    have h1 := splitn_two_append (b := b) ha
    rw [e, splitn_two_append h3] at h1
    simp only [List.cons.injEq, and_true] at h1
    obtain ⟨rfl, rfl⟩ := h1
    simp only [List.mem_cons, List.not_mem_nil, or_false] at hl hu
    tauto
  obtain ⟨i, rfl, -⟩ := C44_line_error h this
  rfl

/-! The cases, one by one, on `UnsupportedLine`'s ingredients. -/

theorem unsupported_a {s : Str} (h1 : trim s = s) (h2 : s ≠ []) (h : UnsupportedAttr s) : UnsupportedLine (c%"a=" ++ s) :=
  ⟨c%"a", s, by decide, rfl, .inl ⟨by decide, by rw [h1]; exact ⟨h2, h⟩⟩⟩

/-- **C44.** An attribute with an unknown name is unsupported. -/
theorem C44_unknown_attribute {n v : Str} (hn : ':' ∉ n) (h : ∀ t : AttributeType, t.name ≠ lower n)
    (ht : trim (n ++ ':' :: v) = n ++ ':' :: v) (k : Nat) :
    ∃ m, parseSdpLine (c%"a=" ++ (n ++ ':' :: v)) k =
      .err (.unsupported (.unsupported m) (c%"a=" ++ (n ++ ':' :: v)) k) :=
  C44_unsupported_error (unsupported_a ht (by simp) ⟨n, trim v, .inr ⟨v, hn, rfl, rfl⟩, .inl h⟩)

/-- **C44.** A media line with an unknown media type is unsupported, whatever else it says. -/
theorem C44_unknown_media {v m p q f : Str} {r : List Str} (hv : splitWs v = m :: p :: q :: f :: r)
    (hm : lower m ∉ mediaNames) (k : Nat) :
    ∃ x, parseSdpLine (c%"m=" ++ v) k = .err (.unsupported (.unsupported x) (c%"m=" ++ v) k) :=
  C44_unsupported_error ⟨c%"m", v, by decide, rfl, .inr ⟨by decide, m, p, q, f, r, hv, .inl hm⟩⟩

end

/-! ## Non-vacuity -/

section
attribute [local instance] sampleEnv

example : UnsupportedLine c%"a=foo:bar" :=
  unsupported_a (by decide) (by decide) ⟨c%"foo", c%"bar", .inr ⟨c%"bar", by decide, rfl, by decide⟩,
    .inl (by intro t; cases t <;> decide)⟩
example : UnsupportedLine c%"a=fmtp:97" :=
  unsupported_a (by decide) (by decide) ⟨c%"fmtp", c%"97", .inr ⟨c%"97", by decide, rfl, by decide⟩,
    .inr ⟨.fmtp, by decide, by show ' ' ∉ c%"97"; decide⟩⟩
example : UnsupportedLine c%"a=group:FOO 1" :=
  unsupported_a (by decide) (by decide) ⟨c%"group", c%"FOO 1", .inr ⟨c%"FOO 1", by decide, rfl, by decide⟩,
    .inr ⟨.group, by decide, c%"FOO", [c%"1"], by decide, by decide⟩⟩
example : UnsupportedLine c%"a=rtcp-fb:96 nack foo" :=
  unsupported_a (by decide) (by decide) ⟨c%"rtcp-fb", c%"96 nack foo", .inr ⟨c%"96 nack foo", by decide, rfl, by decide⟩,
    .inr ⟨.rtcpfb, by decide, c%"96", c%"nack", [c%"foo"], by decide, .inr (.inr ⟨by decide, c%"foo", [], rfl, by decide⟩)⟩⟩
example : UnsupportedLine c%"m=text 9 RTP/AVP 0" :=
  ⟨c%"m", c%"text 9 RTP/AVP 0", by decide, rfl, .inr ⟨by decide, c%"text", c%"9", c%"RTP/AVP", c%"0", [], by decide,
    .inl (by decide)⟩⟩
example : UnsupportedLine c%"m=audio 9/2 FOO 0" :=
  ⟨c%"m", c%"audio 9/2 FOO 0", by decide, rfl, .inr ⟨by decide, c%"audio", c%"9/2", c%"FOO", c%"0", [], by decide,
    .inr ⟨⟨c%"9", [c%"2"], by decide, ⟨9, ⟨c%"9", .inl rfl, by decide, by decide, by decide⟩, by decide⟩, by
      intro c r h; cases h; exact ⟨2, ⟨c%"2", .inl rfl, by decide, by decide, by decide⟩, by decide⟩⟩, by decide⟩⟩⟩
/-- A line error and not an unsupported one. -/
example : parseSdpLine c%"m=audio x FOO 0" 3 = .err (.line (.integer .invalidDigit) c%"m=audio x FOO 0" 3) := by
  decide +kernel
end

end Sdp
