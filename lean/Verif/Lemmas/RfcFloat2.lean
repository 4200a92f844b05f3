import Verif.Lemmas.RfcFloat
import Verif.Spec.RfcMore
import Mathlib.Tactic.Zify
import Mathlib.Tactic.FieldSimp
/-!
# The shortest decimals of numbers with four digits after the point
-/

namespace Sdp

namespace FloatFormat

private theorem single_zero : value ⟨23, 8⟩ 0 = 0 := by
  have := value_eq single_proper 0
  rw [units_zero, Nat.cast_zero, zero_div] at this
  exact this

/-- Numbers with four digits after the point are neither zero nor infinite. -/
theorem rounds_small {n b : Nat} (h : Rounds ⟨23, 8⟩ (n / 10000) b) (h1 : 1 ≤ n) (h2 : n < 100000) : b ≠ 0 ∧ b ≠ infinity ⟨23, 8⟩ := by
  have q1 : (1 : ℚ) ≤ n := by exact_mod_cast h1
  have q2 : (n : ℚ) < 100000 := by exact_mod_cast h2
  have hc := abs_lt.1 (rounds_close h (by positivity) (by rw [div_lt_iff₀ (by norm_num)]; linarith))
  have l : (1 : ℚ) / 10000 ≤ n / 10000 := div_le_div_of_nonneg_right q1 (by norm_num)
  have u : (n : ℚ) / 10000 < 10 := by rw [div_lt_iff₀ (by norm_num)]; linarith
  have s : (1 : ℚ) / 2 ^ 20 < 1 / 20000 := by norm_num
  constructor
  · rintro rfl
    rw [single_zero] at hc
    linarith [hc.2]
  · rintro rfl
    have : value ⟨23, 8⟩ (infinity ⟨23, 8⟩) = 2 ^ 128 := by
      rw [show value ⟨23, 8⟩ _ = _ from value_eq single_proper _]
      have : units single (infinity ⟨23, 8⟩) = 2 ^ 277 := by decide +kernel
      have hs : scaleBits single = 149 := by decide
      rw [this, hs, div_eq_iff (by positivity)]
      push_cast
      rw [← pow_add]
    rw [this] at hc
    have : (2 : ℚ) ^ 128 > 1000 := by norm_num
    linarith [hc.1]

theorem rounds_zero_small {b : Nat} (h : Rounds ⟨23, 8⟩ 0 b) : b = 0 := by
  by_contra h0
  have := h.nearest 0 (Nat.zero_le _)
  rw [single_zero, sub_zero, abs_zero, zero_sub, abs_neg] at this
  have hm : value ⟨23, 8⟩ 0 < value ⟨23, 8⟩ b := value_strictMono single_proper (Nat.pos_of_ne_zero h0)
  rw [single_zero] at hm
  rw [abs_of_pos hm] at this
  linarith

/-- The shortest decimal of a number with up to four digits after the point is the number itself. -/
theorem shortest_small {n b D k : Nat} {p : ℤ} (h : Rounds ⟨23, 8⟩ (n / 10000) b) (h1 : 1 ≤ n) (h2 : n < 100000)
    (hs : ShortestDecimal ⟨23, 8⟩ b D k p) : (D : ℚ) * 10 ^ (p - k) = n / 10000 := by
  have q1 : (1 : ℚ) ≤ n := by exact_mod_cast h1
  have q2 : (n : ℚ) < 100000 := by exact_mod_cast h2
  have c1 := abs_lt.1 (rounds_close h (by positivity) (by rw [div_lt_iff₀ (by norm_num)]; linarith))
  have u : (n : ℚ) / 10000 < 10 := by rw [div_lt_iff₀ (by norm_num)]; linarith
  have s : (1 : ℚ) / 2 ^ 20 < 1 / 1000000 := by norm_num
  have y0 : (0 : ℚ) ≤ D * 10 ^ (p - k) := by positivity
  have y16 : (D : ℚ) * 10 ^ (p - k) < 16 := by
    by_contra hge
    rw [not_lt] at hge
    obtain ⟨c, hc, hv⟩ := single_multiple (n := 15 * 2 ^ 20) (by decide)
    have hv' : value ⟨23, 8⟩ c = 15 := by rw [hv]; push_cast; norm_num
    have := hs.reads.nearest c hc
    rw [hv', abs_of_nonneg (a := _ - value ⟨23, 8⟩ b) (by linarith [c1.1]), abs_of_nonneg (by linarith)] at this
    linarith [c1.1]
  have c2 := abs_lt.1 (rounds_close hs.reads y0 y16)
  have hlen : ∃ j, j ≤ 4 ∧ 10 ^ j ≤ n ∧ n < 10 ^ (j + 1) := by
    rcases Nat.lt_or_ge n 10 with h | h
    · exact ⟨0, by omega, by omega, by omega⟩
    rcases Nat.lt_or_ge n 100 with h | h
    · exact ⟨1, by omega, by omega, by omega⟩
    rcases Nat.lt_or_ge n 1000 with h | h
    · exact ⟨2, by omega, by omega, by omega⟩
    rcases Nat.lt_or_ge n 10000 with h | h
    · exact ⟨3, by omega, by omega, by omega⟩
    · exact ⟨4, by omega, by omega, by omega⟩
  obtain ⟨j, hj, j1, j2⟩ := hlen
  have hk : k ≤ j + 1 := hs.shortest n (j + 1) (-4) j2 (by
    rw [zpow_neg, ← div_eq_mul_inv]
    rw [show (10 : ℚ) ^ (4 : ℤ) = 10000 by norm_num]
    exact h)
  have j1q : (10 : ℚ) ^ j ≤ n := by exact_mod_cast j1
  rcases lt_or_ge (p - k) (-5) with he | he
  · exfalso
    have hD : (D : ℚ) < 10 ^ (j + 1) := by
      have := hs.digits.2
      have : D < 10 ^ (j + 1) := lt_of_lt_of_le this (Nat.pow_le_pow_right (by decide) hk)
      exact_mod_cast this
    have hE : (10 : ℚ) ^ (p - k) ≤ 10 ^ (-6 : ℤ) := zpow_le_zpow_right₀ (by norm_num) (by omega)
    have hE' : (10 : ℚ) ^ (-6 : ℤ) = 1 / 1000000 := by norm_num
    have hy : (D : ℚ) * 10 ^ (p - k) ≤ 10 ^ (j + 1) * (1 / 1000000) := by
      rw [← hE']
      exact mul_le_mul hD.le hE (by positivity) (by positivity)
    rw [pow_succ] at hy
    have j0 : (1 : ℚ) ≤ 10 ^ j := one_le_pow₀ (by norm_num)
    have l : (10 : ℚ) ^ j / 10000 ≤ n / 10000 := div_le_div_of_nonneg_right j1q (by norm_num)
    generalize (10 : ℚ) ^ j = t at *
    linarith [c1.1, c1.2, c2.1, c2.2]
  · have e1 : (D : ℚ) * 10 ^ (p - k) * 100000 = ((D * 10 ^ (p - k + 5).toNat : Nat) : ℚ) := by
      push_cast
      rw [← zpow_natCast, Int.toNat_of_nonneg (by omega), zpow_add₀ (by norm_num), mul_assoc]
      norm_num
    have d1 : ((D * 10 ^ (p - k + 5).toNat : Nat) : ℚ) < ((n * 10 + 1 : Nat) : ℚ) := by
      rw [← e1]; push_cast; linarith [c1.1, c1.2, c2.1, c2.2]
    have d2 : ((n * 10 : Nat) : ℚ) < ((D * 10 ^ (p - k + 5).toNat + 1 : Nat) : ℚ) := by
      rw [Nat.cast_add, ← e1]; push_cast; linarith [c1.1, c1.2, c2.1, c2.2]
    have d1 := Nat.cast_lt.1 d1
    have d2 := Nat.cast_lt.1 d2
    have e2 : D * 10 ^ (p - k + 5).toNat = n * 10 := by omega
    rw [e2] at e1
    push_cast at e1
    linarith

/-- A decimal that does not end with a zero has no more digits after the point than the number. -/
theorem exponent_ge {D m i : Nat} {e : ℤ} (h : (D : ℚ) * 10 ^ e = m / 10 ^ i) (hD : D % 10 ≠ 0) : -(i : ℤ) ≤ e := by
  by_contra hlt
  rw [not_le] at hlt
  have h1 : (D : ℚ) = ((m * 10 ^ (-(i : ℤ) - e).toNat : Nat) : ℚ) := by
    push_cast
    rw [← zpow_natCast, Int.toNat_of_nonneg (by omega), zpow_sub₀ (by norm_num), zpow_neg, zpow_natCast]
    rw [eq_div_iff (by positivity)] at h
    have : (10 : ℚ) ^ e ≠ 0 := by positivity
    field_simp
    linarith
  have h2 := Nat.cast_injective h1
  rw [show (-(i : ℤ) - e).toNat = (-(i : ℤ) - e).toNat - 1 + 1 by omega, pow_succ, ← mul_assoc] at h2
  omega

theorem point_bounds {F : FloatFormat} {b D k : Nat} {p : ℤ} (hs : ShortestDecimal F b D k p) (hk : 1 ≤ k) :
    (10 : ℚ) ^ (p - 1) ≤ D * 10 ^ (p - k) ∧ (D : ℚ) * 10 ^ (p - k) < 10 ^ p := by
  have h1 : ((10 ^ (k - 1) : Nat) : ℚ) ≤ D := Nat.cast_le.2 hs.digits.1
  have h2 : (D : ℚ) < ((10 ^ k : Nat) : ℚ) := Nat.cast_lt.2 hs.digits.2
  push_cast at h1 h2
  rw [← zpow_natCast] at h1 h2
  have hz : (0 : ℚ) < 10 ^ (p - k) := by positivity
  constructor
  · rw [show p - 1 = ((k - 1 : Nat) : ℤ) + (p - k) by omega, zpow_add₀ (by norm_num)]
    exact mul_le_mul_of_nonneg_right h1 hz.le
  · rw [show (10 : ℚ) ^ p = 10 ^ (k : ℤ) * 10 ^ (p - k) by rw [← zpow_add₀ (by norm_num)]; congr 1; omega]
    exact mul_lt_mul_of_pos_right h2 hz

end FloatFormat

/-- The shortest decimal has no zero at its end. -/
theorem rfc_shortest_last {F : FloatFormat} {b D n : Nat} {p : ℤ} (h : ShortestDecimal F b D n p) (hn : 1 ≤ n) : D % 10 ≠ 0 := by
  intro h0
  have h1 : D = 10 * (D / 10) := by omega
  have h2 : D / 10 < 10 ^ (n - 1) := by
    have := h.digits.2
    rw [show n = n - 1 + 1 by omega, pow_succ] at this
    omega
  have h3 := h.reads
  rw [h1, Nat.cast_mul, mul_comm ((10 : Nat) : ℚ), mul_assoc, show ((10 : Nat) : ℚ) * 10 ^ (p - (n : ℤ)) = 10 ^ (p - n + 1) by
    rw [zpow_add₀ (by norm_num)]; push_cast; ring] at h3
  have := h.shortest _ _ _ h2 h3
  omega

theorem rfc_shortest_len {F : FloatFormat} {b D n : Nat} {p : ℤ} (h : ShortestDecimal F b D n p) : 1 ≤ n := by
  rcases Nat.eq_zero_or_pos n with rfl | h'
  · have := h.digits; simp at this; omega
  · exact h'

/-- The digits of the shortest decimal neither begin nor end with a zero. -/
theorem rfc_shortest_digits {F : FloatFormat} {b D n : Nat} {p : ℤ} (h : ShortestDecimal F b D n p) {ds : Str}
    (h1 : ∀ c ∈ ds, c.isDigit = true) (h2 : ds.length = n) (h3 : decValue ds = D) :
    (∃ c r, ds = c :: r ∧ Rfc.isPosDigit c = true) ∧ ∃ r c, ds = r ++ [c] ∧ Rfc.isPosDigit c = true := by
  have hn := rfc_shortest_len h
  have pos {c : Char} (hc : c.isDigit = true) (h0 : c.toNat ≠ 48) : Rfc.isPosDigit c = true := by
    simp only [Rfc.isPosDigit, Bool.and_eq_true, bne_iff_ne]
    exact ⟨hc, fun e => h0 (by rw [e]; rfl)⟩
  constructor
  · cases ds with
    | nil => simp at h2; omega
    | cons c r =>
      refine ⟨c, r, rfl, pos (h1 c (by simp)) fun e => ?_⟩
      have h4 := FloatFormat.decValue_lt fun c hc => h1 c (List.mem_cons_of_mem _ hc)
      rw [FloatFormat.decValue_cons, e] at h3
      have := h.digits.1
      simp at h2
      rw [show n - 1 = r.length by omega] at this
      omega
  · rcases List.eq_nil_or_concat ds with rfl | ⟨r, c, rfl⟩
    · simp at h2; omega
    · refine ⟨r, c, by simp, pos (h1 c (by simp)) fun e => ?_⟩
      have := rfc_shortest_last h hn
      rw [← h3, List.concat_eq_append, decValue_append] at this
      simp [decValue, e] at this

/-- The text of a decimal stands for it. -/
theorem rfc_placed {D n : Nat} {p : ℤ} {t : Str} (hn : 1 ≤ n) (h : PlacedDigits D n p t) : DecimalText t (D * 10 ^ (p - n)) := by
  obtain ⟨ds, h1, h2, h3, h | h | ⟨w, f, rfl, hw, hf, hp, rfl⟩⟩ := h
  · obtain ⟨hp, rfl⟩ := h
    refine ⟨['0'], List.replicate (-p).toNat '0' ++ ds, [], 0, ?_, by simp, .inl ⟨rfl, rfl⟩, .inl (by simp), ?_⟩
    · intro c hc
      simp only [List.cons_append, List.nil_append, List.mem_cons, List.mem_append] at hc
      rcases hc with rfl | hc | hc
      · rfl
      · rw [List.eq_of_mem_replicate hc]; rfl
      · exact h1 c hc
    · rw [decValue_append, decValue_append, decValue_zeros, h3, List.length_append, List.length_replicate, h2]
      have : decValue ['0'] = 0 := by decide
      rw [this, zero_mul, zero_mul, zero_add, zero_add]
      congr 2
      push_cast
      omega
  · obtain ⟨hp, rfl⟩ := h
    refine ⟨ds ++ List.replicate (p - n).toNat '0', [], [], 0, ?_, ?_, .inl ⟨rfl, rfl⟩, .inr ⟨rfl, by simp⟩, ?_⟩
    · intro c hc
      simp only [List.append_nil, List.mem_append] at hc
      rcases hc with hc | hc
      · exact h1 c hc
      · rw [List.eq_of_mem_replicate hc]; rfl
    · intro e
      simp at e
      rw [e.1] at h2
      simp at h2
      omega
    · rw [List.append_nil, decValue_append, decValue_zeros, h3, List.length_replicate, add_zero]
      push_cast
      rw [← zpow_natCast, Int.toNat_of_nonneg (by omega)]
      simp
  · refine ⟨w, f, [], 0, h1, by simp [hw], .inl ⟨rfl, rfl⟩, .inl (by simp), ?_⟩
    rw [h3]
    congr 2
    simp at h2
    omega

end Sdp
