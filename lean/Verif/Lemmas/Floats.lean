import Verif.Lemmas.FloatSpec
import Verif.Model.Env
/-!
# `f32` and `f64`: reading, writing and the order
-/

namespace Sdp
namespace FloatFormat
variable {F : FloatFormat}

theorem nan_lt (hF : F.Proper) : F.inf < F.nan ∧ F.nan < F.signBit := by
  unfold nan inf signBit
  have h1 : 2 ^ F.mb = 2 * 2 ^ (F.mb - 1) := by
    rw [← Nat.pow_succ']; congr 1; have := hF.mb; omega
  have h2 := two_pow_pos' (F.mb - 1)
  have h3 := two_pow_pos' F.eb
  rw [Nat.pow_add, Nat.sub_mul, Nat.mul_comm (2 ^ F.mb), Nat.one_mul]
  have h4 : 2 ^ F.mb ≤ 2 ^ F.eb * 2 ^ F.mb := Nat.le_mul_of_pos_left _ h3
  omega

theorem readMagnitude_le (hF : F.Proper) {t : Str} {b : Nat} (h : F.readMagnitude t = some b) : b ≤ F.inf ∨ b = F.nan := by
  rcases (magnitude_iff hF).2 h with ⟨x, -, h⟩ | ⟨-, h⟩ | ⟨-, h⟩
  · exact .inl h.range
  · exact .inl (le_of_eq h)
  · exact .inr h

theorem parse_range (hF : F.Proper) {t : Str} {bits : Nat} (h : F.parse t = .ok bits) :
    bits < 2 * F.signBit ∧ (bits % F.signBit ≤ F.inf ∨ bits % F.signBit = F.nan) ∧ ('-' ∉ t → bits < F.signBit) := by
  have hn := nan_lt hF
  have hi := inf_lt F
  rw [parse_eq] at h
  cases t with
  | nil => cases h
  | cons c t =>
    simp only at h
    split at h
    · next b hb =>
      have hb' : b < F.signBit := by rcases readMagnitude_le hF hb with h | h <;> omega
      have := Except.ok.inj h
      subst this
      by_cases hc : c = '-'
      · rw [if_pos hc]
        refine ⟨by omega, ?_, fun hm => absurd (by simp [hc]) hm⟩
        rw [Nat.add_mod_left, Nat.mod_eq_of_lt hb']
        exact readMagnitude_le hF hb
      · rw [if_neg hc, Nat.zero_add, Nat.mod_eq_of_lt hb']
        exact ⟨by omega, readMagnitude_le hF hb, fun _ => hb'⟩
    · cases h

theorem parse_error {t : Str} {e : FloatErr} (h : F.parse t = .error e) : e = if t = [] then .empty else .invalid := by
  rw [parse_eq] at h
  cases t with
  | nil => cases h; rfl
  | cons c t =>
    simp only at h
    split at h
    · cases h
    · cases h; rfl

theorem parse_nan : F.parse c%"NaN" = .ok F.nan := by
  rw [parse_unsigned (by decide) (by decide) (by decide)]
  rw [show parseDecimal c%"NaN" = none by decide]
  have : F.parseSpecial c%"NaN" = some F.nan := by
    unfold parseSpecial
    rw [show (c%"NaN").map asciiLower = c%"nan" by decide]
    simp
  rw [this]

theorem text_nan {bits : Nat} (h : F.inf < bits % F.signBit) : F.text bits = c%"NaN" := by
  unfold text
  simp only
  rw [if_pos h]

/-- The characters of any printed float -/
theorem text_chars (hF : F.Proper) (bits : Nat) : F.text bits ≠ [] ∧
    ∀ c ∈ F.text bits, c.isDigit = true ∨ c ∈ c%"-.infNa" := by
  by_cases hn : F.inf < bits % F.signBit
  · rw [text_nan hn]
    exact ⟨by decide, by decide⟩
  · obtain ⟨t, ht, -, -, h1, h2⟩ := parse_magnitude hF (Nat.le_of_not_lt hn)
    have h2 : ∀ c ∈ t, c.isDigit = true ∨ c ∈ c%"-.infNa" := by
      rcases h2 with h2 | rfl
      · intro c hc
        rcases h2 c hc with h | rfl
        · exact .inl h
        · exact .inr (by decide)
      · decide
    unfold text
    simp only
    rw [if_neg hn, ← ht]
    refine ⟨by simp [h1], fun c hc => ?_⟩
    rcases List.mem_append.1 hc with hc | hc
    · split at hc
      · simp at hc; subst hc; exact .inr (by decide)
      · cases hc
    · exact h2 c hc

theorem text_no_minus (hF : F.Proper) {bits : Nat} (h : bits < F.signBit) : '-' ∉ F.text bits := by
  by_cases hn : F.inf < bits % F.signBit
  · rw [text_nan hn]; decide
  · obtain ⟨t, ht, -, -, h1, h2⟩ := parse_magnitude hF (Nat.le_of_not_lt hn)
    unfold text
    simp only
    rw [if_neg hn, ← ht, if_neg (by omega), List.nil_append]
    rcases h2 with h2 | rfl
    · intro hc; rcases h2 _ hc with h | h <;> revert h <;> decide
    · decide

end FloatFormat

open FloatFormat

theorem F32.ofText_iff {t : Str} {x : F32} : F32.ofText t = .ok x ↔ F32Text t x := by
  have e : FloatText ⟨23, 8⟩ t x.bits.toNat ↔ single.parse t = .ok x.bits.toNat := (parse_iff single_proper).symm
  unfold F32.ofText F32Text
  rw [e]
  cases h : single.parse t with
  | error e => simp
  | ok n =>
    have hn : n < 2 ^ 32 := (parse_range single_proper h).1
    simp only [Except.ok.injEq]
    constructor
    · rintro rfl
      exact (Nat.mod_eq_of_lt hn).symm
    · intro h'
      subst h'
      simp

theorem F64.ofText_iff {t : Str} {x : F64} : F64.ofText t = .ok x ↔ F64Text t x := by
  have e : FloatText ⟨52, 11⟩ t x.bits.toNat ↔ double.parse t = .ok x.bits.toNat := (parse_iff double_proper).symm
  unfold F64.ofText F64Text
  rw [e]
  cases h : double.parse t with
  | error e => simp
  | ok n =>
    have hn : n < 2 ^ 64 := (parse_range double_proper h).1
    simp only [Except.ok.injEq]
    constructor
    · rintro rfl
      exact (Nat.mod_eq_of_lt hn).symm
    · intro h'
      subst h'
      simp

theorem F32.parse_of_ofText {t : Str} {x : F32} (h : F32.ofText t = .ok x) : single.parse t = .ok x.bits.toNat :=
  (parse_iff single_proper).2 (F32.ofText_iff.1 h)

theorem F64.parse_of_ofText {t : Str} {x : F64} (h : F64.ofText t = .ok x) : double.parse t = .ok x.bits.toNat :=
  (parse_iff double_proper).2 (F64.ofText_iff.1 h)

theorem F32.ofText_of_parse {t : Str} {x : F32} (h : single.parse t = .ok x.bits.toNat) : F32.ofText t = .ok x :=
  F32.ofText_iff.2 ((parse_iff single_proper).1 h)

theorem F64.ofText_of_parse {t : Str} {x : F64} (h : double.parse t = .ok x.bits.toNat) : F64.ofText t = .ok x :=
  F64.ofText_iff.2 ((parse_iff double_proper).1 h)

theorem F32.error_iff {t : Str} {e : FloatErr} (h : F32.ofText t = .error e) : e = if t = [] then .empty else .invalid := by
  unfold F32.ofText at h
  cases h' : single.parse t with
  | ok n => rw [h'] at h; cases h
  | error e' => rw [h'] at h; cases h; exact parse_error h'

theorem F64.error_iff {t : Str} {e : FloatErr} (h : F64.ofText t = .error e) : e = if t = [] then .empty else .invalid := by
  unfold F64.ofText at h
  cases h' : double.parse t with
  | ok n => rw [h'] at h; cases h
  | error e' => rw [h'] at h; cases h; exact parse_error h'

theorem F32.text_ne_nil (x : F32) : x.text ≠ [] := (text_chars single_proper _).1
theorem F64.text_ne_nil (x : F64) : x.text ≠ [] := (text_chars double_proper _).1
theorem F32.text_chars (x : F32) : ∀ c ∈ x.text, c.isDigit = true ∨ c ∈ c%"-.infNa" := (FloatFormat.text_chars single_proper _).2
theorem F64.text_chars (x : F64) : ∀ c ∈ x.text, c.isDigit = true ∨ c ∈ c%"-.infNa" := (FloatFormat.text_chars double_proper _).2

theorem F32.text_no_minus {x : F32} (h : x.bits.toNat < 2 ^ 31) : '-' ∉ x.text :=
  FloatFormat.text_no_minus single_proper h

theorem F32.ofText_text {x : F32} (h : x.isNan = true → x = ⟨0x7fc00000⟩) : F32.ofText x.text = .ok x := by
  apply F32.ofText_of_parse
  by_cases hn : x.isNan = true
  · rw [h hn]
    have e : F32.text ⟨0x7fc00000⟩ = c%"NaN" := text_nan (by decide)
    rw [e]
    exact parse_nan
  · apply parse_text single_proper (UInt32.toNat_lt _)
    exact Nat.le_of_not_lt fun h' => hn (decide_eq_true h')

theorem F64.ofText_text {x : F64} (h : x.isNan = true → x = ⟨0x7ff8000000000000⟩) : F64.ofText x.text = .ok x := by
  apply F64.ofText_of_parse
  by_cases hn : x.isNan = true
  · rw [h hn]
    have e : F64.text ⟨0x7ff8000000000000⟩ = c%"NaN" := text_nan (by decide)
    rw [e]
    exact parse_nan
  · apply parse_text double_proper (UInt64.toNat_lt _)
    exact Nat.le_of_not_lt fun h' => hn (decide_eq_true h')

/-- What is read without a minus sign is not negative and has the canonical NaN only. -/
theorem F32.ofText_range {t : Str} {x : F32} (h : F32.ofText t = .ok x) (hm : '-' ∉ t) :
    (x.isNan = true → x = ⟨0x7fc00000⟩) ∧ x.bits.toNat < 2 ^ 31 := by
  obtain ⟨-, h2, h3⟩ := parse_range single_proper (F32.parse_of_ofText h)
  have h3 : x.bits.toNat < 2 ^ 31 := h3 hm
  refine ⟨fun hn => ?_, h3⟩
  have e : x.bits.toNat % single.signBit = x.bits.toNat := Nat.mod_eq_of_lt h3
  rw [e] at h2
  simp only [F32.isNan, decide_eq_true_eq, Nat.mod_eq_of_lt h3] at hn
  have hi : single.inf = 0x7f800000 := by decide
  have hq : single.nan = 0x7fc00000 := by decide
  have : x.bits = 0x7fc00000 := by
    apply UInt32.toNat_inj.1
    rcases h2 with h2 | h2
    · omega
    · rw [h2, hq]; rfl
  cases x
  simp only at this
  rw [this]

/-- The two NaNs that are read -/
theorem F32.ofText_nan {t : Str} {x : F32} (h : F32.ofText t = .ok x) (hn : x.isNan = true) :
    x = ⟨0x7fc00000⟩ ∨ x = ⟨0xffc00000⟩ := by
  obtain ⟨h1, h2, -⟩ := parse_range single_proper (F32.parse_of_ofText h)
  simp only [F32.isNan, decide_eq_true_eq] at hn
  have hi : single.inf = 0x7f800000 := by decide
  have hq : single.nan = 0x7fc00000 := by decide
  have hs : single.signBit = 2 ^ 31 := by decide
  rw [hs, hi, hq] at h2
  rw [hs] at h1
  have : x.bits.toNat = 0x7fc00000 ∨ x.bits.toNat = 0xffc00000 := by omega
  obtain ⟨b⟩ := x
  rcases this with h | h
  · exact .inl (congrArg F32.mk (UInt32.toNat_inj.1 h))
  · exact .inr (congrArg F32.mk (UInt32.toNat_inj.1 h))

end Sdp
