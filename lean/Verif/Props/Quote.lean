import Verif.Spec.Quote
import Verif.Spec.Sample
import Verif.Lemmas.World
import Verif.Lemmas.Fault3
/-!
# C103: words quoted in error messages
-/

namespace Sdp

theorem Literal.unique {l s s' : Str} (h : Literal l s) (h' : Literal l s') : s = s' := by
  induction h generalizing s' with
  | nil => cases h'; rfl
  | plain h1 h2 _ ih =>
    cases h' with
    | plain _ _ h' => rw [ih h']
    | escape => exact absurd rfl h2
    | unicode => exact absurd rfl h2
  | @escape e c l s he _ ih =>
    cases h' with
    | plain _ h2 => exact absurd rfl h2
    | escape he' h' =>
      rw [ih h']
      congr 1
      simp only [List.mem_cons, Prod.mk.injEq, List.not_mem_nil, or_false] at he he'
      rcases he with ⟨rfl, rfl⟩ | ⟨rfl, rfl⟩ | ⟨rfl, rfl⟩ | ⟨rfl, rfl⟩ | ⟨rfl, rfl⟩ | ⟨rfl, rfl⟩ <;>
        simp at he' <;> exact he'.symm
    | unicode => simp at he
  | @unicode h c l s hne hd hv hl ih =>
    generalize e : c%"\\u{" ++ h ++ '}' :: l = t at h'
    cases h' with
    | nil => cases e
    | plain h1 h2 => cases e; exact absurd rfl h2
    | escape he => cases e; simp at he
    | @unicode h2 c2 l2 s2 hne2 hd2 hv2 hl2 =>
      have nobrace : ∀ {h : Str}, (∀ d ∈ h, IsHexDigit d) → '}' ∉ h := by
        intro h hd hm
        exact absurd (hd _ hm) (by decide)
      have e : h ++ '}' :: l = h2 ++ '}' :: l2 := by simpa using e
      have e1 : h = h2 := by
        have := congrArg (upTo '}') e
        rwa [upTo_eq (nobrace hd), upTo_eq (nobrace hd2)] at this
      subst e1
      have e2 : l = l2 := by simpa using e
      subst e2
      rw [ih hl2]
      congr 1
      rw [hv] at hv2
      exact Char.toNat_inj.1 hv2

private theorem quoted_char : ∀ n < 128, let c := Char.ofNat n
    (∃ e ∈ c%"0trn\\\"", debugChar c = ['\\', e] ∧
      (e, c) ∈ [('0', '\x00'), ('t', '\t'), ('r', '\r'), ('n', '\n'), ('\\', '\\'), ('"', '"')]) ∨
    (debugChar c = [c] ∧ c ≠ '"' ∧ c ≠ '\\' ∧ 0x20 ≤ c.toNat ∧ c.toNat < 0x7f) ∨
    (debugChar c = c%"\\u{" ++ Nat.toDigits 16 n ++ ['}'] ∧ Nat.toDigits 16 n ≠ [] ∧
      (∀ d ∈ Nat.toDigits 16 n, IsHexDigit d) ∧ hexValue (Nat.toDigits 16 n) = n) := by
  decide +kernel

section
variable [Env]

/-- C103: an ASCII word in an error message stands between quotation marks in such a way that it can be read back:
what stands there is the body of a string literal for it, without any unprintable character. -/
theorem C103_quoted {s : Str} (ha : ∀ c ∈ s, c.toNat < 128) :
    ∃ l, debugStr s = '"' :: l ++ ['"'] ∧ Literal l s ∧ ∀ c ∈ l, 0x20 ≤ c.toNat ∧ c.toNat < 0x7f := by
  have h : isAscii s = true := by simpa [isAscii] using ha
  refine ⟨s.flatMap debugChar, by simp [debugStr, h], ?_⟩
  clear h
  induction s with
  | nil => exact ⟨.nil, by simp⟩
  | cons c s ih =>
    obtain ⟨ih1, ih2⟩ := ih fun c hc => ha c (by simp [hc])
    have hc := quoted_char c.toNat (ha c (by simp))
    rw [Char.ofNat_toNat] at hc
    have hp (n : Nat) (hn : n < 128) : ∀ d ∈ debugChar (Char.ofNat n), 0x20 ≤ d.toNat ∧ d.toNat < 0x7f := by
      revert n; decide +kernel
    have hp := hp c.toNat (ha c (by simp))
    rw [Char.ofNat_toNat] at hp
    rw [List.flatMap_cons]
    refine ⟨?_, fun d hd => (List.mem_append.1 hd).elim (hp d) (ih2 d)⟩
    rcases hc with ⟨e, -, h1, h2⟩ | ⟨h1, h2, h3, -⟩ | ⟨h1, h2, h3, h4⟩
    · rw [h1]; exact .escape h2 ih1
    · rw [h1]; exact .plain h2 h3 ih1
    · rw [h1, List.append_assoc]; exact .unicode h2 h3 h4 ih1

omit [Env] in
private theorem quoted_char_length : ∀ n < 128, let c := Char.ofNat n
    ((0x20 ≤ c.toNat ∧ c.toNat < 0x7f ∧ c ≠ '"' ∧ c ≠ '\\') → (debugChar c).length = 1) ∧
    (c ∈ c%"\x00\t\r\n\\\"" → (debugChar c).length = 2) ∧ (debugChar c).length ≤ 6 ∧ (n < 16 → (debugChar c).length ≤ 5) := by
  decide +kernel

/-- C103: no literal for the word without unprintable characters is shorter. So of the characters that have an escape of their own
(NUL, tab, CR, LF, backslash and quotation mark) each is written with it, and only the other control characters with their number. -/
theorem C103_shortest {s l l' : Str} (ha : ∀ c ∈ s, c.toNat < 128) (hl : debugStr s = '"' :: l ++ ['"']) (h : Literal l' s)
    (hp : ∀ c ∈ l', 0x20 ≤ c.toNat ∧ c.toNat < 0x7f) : l.length ≤ l'.length := by
  have h1 : isAscii s = true := by simpa [isAscii] using ha
  obtain rfl : l = s.flatMap debugChar := by simpa [debugStr, h1] using hl.symm
  clear h1 hl
  induction h with
  | nil => simp
  | @plain c l s h1 h2 _ ih =>
    have hc := quoted_char_length c.toNat (ha c (by simp))
    rw [Char.ofNat_toNat] at hc
    obtain ⟨h3, h4⟩ := hp c (by simp)
    have := ih (fun d hd => ha d (by simp [hd])) fun d hd => hp d (by simp [hd])
    rw [List.flatMap_cons, List.length_append, hc.1 ⟨h3, h4, h1, h2⟩, List.length_cons]
    omega
  | @escape e c l s h1 _ ih =>
    have hc := quoted_char_length c.toNat (ha c (by simp))
    rw [Char.ofNat_toNat] at hc
    have hm : c ∈ c%"\x00\t\r\n\\\"" := by
      have := List.mem_map_of_mem (f := Prod.snd) h1
      simpa using this
    have := ih (fun d hd => ha d (by simp [hd])) fun d hd => hp d (by simp [hd])
    rw [List.flatMap_cons, List.length_append, hc.2.1 hm, List.length_cons, List.length_cons]
    omega
  | @unicode h c l s h1 h2 h3 _ ih =>
    have hc := quoted_char_length c.toNat (ha c (by simp))
    rw [Char.ofNat_toNat] at hc
    have := ih (fun d hd => ha d (by simp [hd])) fun d hd => hp d (by simp [hd])
    rw [List.flatMap_cons, List.length_append]
    simp only [List.length_append, List.length_cons, List.length_nil]
    match h, h1, h2, h3 with
    | [a], _, h2, h3 =>
      have : hexDigitValue a < 16 := hexDigitValue_lt (h2 a (by simp))
      have := hc.2.2.2 (by rw [← h3]; simpa [hexValue] using this)
      simp only [List.length_cons, List.length_nil]
      omega
    | a :: b :: h, _, _, _ =>
      have := hc.2.2.1
      simp only [List.length_cons]
      omega

/-- C103: a word without control characters, quotation marks and backslashes is quoted as it is. -/
theorem C103_plain {s : Str} (ha : ∀ c ∈ s, 0x20 ≤ c.toNat ∧ c.toNat < 0x7f ∧ c ≠ '"' ∧ c ≠ '\\') :
    debugStr s = '"' :: s ++ ['"'] := by
  have h : isAscii s = true := by
    simp only [isAscii, List.all_eq_true, decide_eq_true_eq]
    intro c hc; have := ha c hc; omega
  have : s.flatMap debugChar = s := by
    clear h
    induction s with
    | nil => rfl
    | cons c s ih =>
      rw [List.flatMap_cons, ih fun c hc => ha c (by simp [hc])]
      obtain ⟨h1, h2, h3, h4⟩ := ha c (by simp)
      have ne (d : Char) (hd : d.toNat < 0x20) : c ≠ d := by rintro rfl; omega
      have h5 : ¬ (c.toNat < 0x20 ∨ c.toNat = 0x7f) := by omega
      simp only [debugChar, h3, h4, h5, ne '\x00' (by decide), ne '\t' (by decide), ne '\r' (by decide),
        ne '\n' (by decide), if_false, List.singleton_append]
  simp [debugStr, h, this]

/-- C103: so different ASCII words are quoted differently. -/
theorem C103_injective {s t : Str} (hs : ∀ c ∈ s, c.toNat < 128) (ht : ∀ c ∈ t, c.toNat < 128)
    (h : debugStr s = debugStr t) : s = t := by
  obtain ⟨l, h1, h2, -⟩ := C103_quoted hs
  obtain ⟨m, h3, h4, -⟩ := C103_quoted ht
  rw [h1, h3] at h
  have : l = m := by simpa using h
  subst this
  exact h2.unique h4

/-- C103: for example, a group of an unknown kind is reported with its kind, in upper case, in quotation marks. -/
theorem C103_group {s w : Str} {ws : List Str} (hw : Words s (w :: ws)) (ha : ∀ c ∈ w, c.toNat < 128)
    (hg : ∀ g, w.map asciiUpper ≠ groupText g) :
    ∃ l, parseAttrValue .group s = .err (.unsupported (c%"Unknown group semantic '\"" ++ l ++ c%"\"' found")) ∧
      Literal l (w.map asciiUpper) := by
  have h : isAscii w = true := by simpa [isAscii] using ha
  have hu : upper w = w.map asciiUpper := by simp [upper, h]
  have hm : ∀ c ∈ w.map asciiUpper, c.toNat < 128 := by simpa [isAscii] using World.isAscii_map_upper h
  obtain ⟨l, hl, hl', -⟩ := C103_quoted hm
  refine ⟨l, ?_, hl'⟩
  have e : parseGroupSemantic w = .err (.unsupported (c%"Unknown group semantic '\"" ++ l ++ c%"\"' found")) := by
    unfold parseGroupSemantic
    dsimp only
    rw [hu, hl]
    have := hg .lipSynchronization; have := hg .flowIdentification; have := hg .singleReservationFlow
    have := hg .alternateNetworkAddressType; have := hg .forwardErrorCorrection; have := hg .decodingDependency
    have := hg .bundle
    simp_all [groupText, eunsupported]
  unfold parseAttrValue parseGroup
  rw [words_iff.1 hw]
  dsimp only
  rw [e]
  rfl

/-- C103: likewise a group of sources of an unknown kind. -/
theorem C103_ssrc_group {s w : Str} {ws : List Str} (hw : Words s (w :: ws)) (ha : ∀ c ∈ w, c.toNat < 128)
    (hg : ∀ g, w.map asciiUpper ≠ ssrcGroupText g) :
    ∃ l, parseAttrValue .ssrcGroup s = .err (.unsupported (c%"Unknown ssrc semantic '\"" ++ l ++ c%"\"' found")) ∧
      Literal l (w.map asciiUpper) := by
  have h : isAscii w = true := by simpa [isAscii] using ha
  have hu : upper w = w.map asciiUpper := by simp [upper, h]
  have hm : ∀ c ∈ w.map asciiUpper, c.toNat < 128 := by simpa [isAscii] using World.isAscii_map_upper h
  obtain ⟨l, hl, hl', -⟩ := C103_quoted hm
  refine ⟨l, ?_, hl'⟩
  have e : parseSsrcGroupSemantic w = .err (.unsupported (c%"Unknown ssrc semantic '\"" ++ l ++ c%"\"' found")) := by
    unfold parseSsrcGroupSemantic
    dsimp only
    rw [hu, hl]
    have := hg .duplication; have := hg .flowIdentification; have := hg .forwardErrorCorrection
    have := hg .forwardErrorCorrectionFr; have := hg .sim
    simp_all [ssrcGroupText, eunsupported]
  unfold parseAttrValue parseSsrcGroup
  rw [words_iff.1 hw]
  dsimp only
  rw [e]
  rfl

/-- C103: an unknown type of feedback, the second field of the attribute, is quoted as it is written. -/
theorem C103_feedback_type {s pt w : Str} {ws : List Str} (hs : Fields ' ' s (pt :: w :: ws))
    (ha : ∀ c ∈ w, c.toNat < 128) (hw : ∀ t, w ≠ fbText t) :
    ∃ l, parseAttrValue .rtcpfb s = .err (.unsupported (c%"Unknown rtcpfb feedback type: \"" ++ l ++ c%"\"")) ∧
      Literal l w := by
  obtain ⟨l, hl, hl', -⟩ := C103_quoted ha
  refine ⟨l, ((judges_rtcpFb s).2 _).2 ?_, hl'⟩
  rw [fields_iff.1 hs]
  refine ⟨[_], _, [_, _], rfl, ?_, hw, ?_⟩
  · simp [missing, wrongIf]
  · simp [item, hl]

/-- C103: an unknown parameter of feedback is quoted, behind the type of the feedback. -/
theorem C103_feedback_parameter {s pt w : Str} {t : RtcpFbType} {ws : List Str}
    (hs : Fields ' ' s (pt :: fbText t :: w :: ws)) (ha : ∀ c ∈ w, c.toNat < 128) (hw : ¬ FbParameter t w) :
    ∃ l, parseAttrValue .rtcpfb s = .err ((if t = .trrInt then InternalError.generic else .unsupported)
        (c%"Unknown rtcpfb " ++ fbText t ++ c%" parameter: \"" ++ l ++ c%"\"")) ∧ Literal l w := by
  obtain ⟨l, hl, hl', -⟩ := C103_quoted ha
  refine ⟨l, ((judges_rtcpFb s).2 _).2 ?_, hl'⟩
  rw [fields_iff.1 hs]
  refine ⟨[_, _], _, [_], rfl, ?_, t, rfl, hw, ?_⟩
  · simp only [List.mem_cons, List.not_mem_nil, or_false, forall_eq_or_imp, forall_eq]
    refine ⟨by simp [missing, wrongIf], fun e h => h.1 t rfl⟩
  · simp [hl]

/-- C103: an unknown description of a list of streams, the text before the `=`, is quoted as it is written. -/
theorem C103_streams {s w y : Str} {ws : List Str} {d : SingleDirection}
    (hs : Words s (singleDirectionText d :: (w ++ '=' :: y) :: ws))
    (ha : ∀ c ∈ w, c.toNat < 128) (he : '=' ∉ w) (hw : w ≠ c%"rid") :
    ∃ l, parseAttrValue .simulcast s =
        .err (.generic (c%"Simulcast attribute has unknown list descriptor '\"" ++ l ++ c%"\"'")) ∧ Literal l w := by
  obtain ⟨l, hl, hl', -⟩ := C103_quoted ha
  refine ⟨l, ((judges_simulcast s).2 _).2 ?_, hl'⟩
  rw [words_iff.1 hs]
  have hu : upTo '=' (w ++ '=' :: y) = w := by
    rw [upTo, List.takeWhile_append_of_pos (by intro c hc; simpa using fun h : c = '=' => he (h ▸ hc))]
    simp
  refine ⟨[_, _, _], _, _, rfl, ?_, ⟨?_, ?_⟩, ?_⟩
  · simp only [List.mem_cons, List.not_mem_nil, or_false, forall_eq_or_imp, forall_eq]
    refine ⟨by simp [missing, wrongIf], ?_, by simp [missing, wrongIf]⟩
    exact fun e h => h.1 d rfl
  · simp [item]
  · simpa [item, hu] using hw
  · simp [item, hu, hl]

end

section Examples
attribute [local instance] sampleEnv

example : Words c%" x\"y 1 2" [c%"x\"y", c%"1", c%"2"] ∧ (∀ g, c%"x\"y".map asciiUpper ≠ groupText g) :=
  ⟨words_iff.2 (by decide +kernel), fun g => by cases g <;> decide⟩

example : Words c%"x\\y 1" [c%"x\\y", c%"1"] ∧ (∀ g, c%"x\\y".map asciiUpper ≠ ssrcGroupText g) :=
  ⟨words_iff.2 (by decide +kernel), fun g => by cases g <;> decide⟩

example : Fields ' ' c%"96 x\ty z" [c%"96", c%"x\ty", c%"z"] ∧ (∀ t, c%"x\ty" ≠ fbText t) ∧
    Fields ' ' c%"96 nack x\ty z" [c%"96", fbText .nack, c%"x\ty", c%"z"] ∧ ¬ FbParameter .nack c%"x\ty" :=
  ⟨fields_iff.2 (by decide +kernel), fun t => by cases t <;> decide, fields_iff.2 (by decide +kernel),
    by simp [FbParameter]⟩

example : Words c%"send r\"id=1;2" [singleDirectionText .send, c%"r\"id" ++ '=' :: c%"1;2"] :=
  words_iff.2 (by decide +kernel)

/-- Literals for a word that are longer than the one that is written. -/
example : Literal c%"\\u{9}\\u{61}\\u{01}" c%"\ta\x01" ∧ debugStr c%"\ta\x01" = '"' :: c%"\\ta\\u{1}" ++ ['"'] :=
  have hex : ∀ d ∈ c%"9610", IsHexDigit d := by simp [IsHexDigit]
  ⟨.unicode (h := c%"9") (by simp) (fun d hd => hex d (by simp at hd; simp [hd])) (by decide)
    (.unicode (h := c%"61") (by simp) (fun d hd => hex d (by simp at hd; rcases hd with rfl | rfl <;> simp)) (by decide)
      (.unicode (h := c%"01") (by simp) (fun d hd => hex d (by simp at hd; rcases hd with rfl | rfl <;> simp)) (by decide) .nil)),
    by decide +kernel⟩

example : debugStr c%"a\"b\\c\td\x01\x7fe" = c%"\"a\\\"b\\\\c\\td\\u{1}\\u{7f}e\"" := by decide +kernel

end Examples

end Sdp
