import Verif.Lemmas.FloatShow
import Mathlib.Tactic.Linarith
import Mathlib.Tactic.NormNum
import Mathlib.Data.Rat.Floor
/-!
# How far decimal numbers of a moderate size are rounded
-/

namespace Sdp

namespace FloatFormat

/-- Numbers that are neither huge nor tiny are rounded to a finite number that is not zero. -/
theorem rounds_moderate {x : ℚ} {b : Nat} (h : Rounds ⟨52, 11⟩ x b) (h1 : (1 : ℚ) / 10 ^ 300 ≤ x) (h2 : x < 10 ^ 300) :
    b ≠ 0 ∧ b < 0x7ff0000000000000 := by
  have hi : infinity ⟨52, 11⟩ = 0x7ff0000000000000 := by decide
  have hm := value_strictMono double_proper
  have h0 : value ⟨52, 11⟩ 0 = 0 := by
    have := value_eq double_proper 0
    rw [units_zero, Nat.cast_zero, zero_div] at this
    exact this
  have hx : 0 < x := lt_of_lt_of_le (by positivity) h1
  constructor
  · rintro rfl
    have hn := h.nearest 1 (by rw [hi]; decide)
    have v1 : value ⟨52, 11⟩ 1 < x := by
      refine lt_of_lt_of_le ?_ h1
      rw [show value ⟨52, 11⟩ _ = _ from value_eq double_proper _]
      have : units double 1 = 1 := by decide
      have hs : scaleBits double = 1074 := by decide
      rw [this, hs, Nat.cast_one]
      refine one_div_lt_one_div_of_lt (by positivity) ?_
      have : (10 ^ 300 : Nat) < 2 ^ 1074 := by decide +kernel
      exact_mod_cast this
    have p1 : 0 < value ⟨52, 11⟩ 1 := by rw [← h0]; exact hm (by decide)
    rw [h0, sub_zero, abs_of_pos hx, abs_of_pos (by linarith)] at hn
    linarith
  · rcases Nat.lt_or_ge b 0x7ff0000000000000 with hb | hb
    · exact hb
    have hb' : b = 0x7ff0000000000000 := by have := h.range; rw [hi] at this; omega
    subst hb'
    have hn := h.nearest 0x7fe0000000000000 (by rw [hi]; decide)
    have v1 : x < value ⟨52, 11⟩ 0x7fe0000000000000 := by
      refine lt_of_lt_of_le h2 ?_
      rw [show value ⟨52, 11⟩ _ = _ from value_eq double_proper _]
      have : units double 0x7fe0000000000000 = 2 ^ 52 * 2 ^ 2045 := by decide +kernel
      have hs : scaleBits double = 1074 := by decide
      rw [this, hs, le_div_iff₀ (by positivity)]
      have : (10 ^ 300 * 2 ^ 1074 : Nat) ≤ 2 ^ 52 * 2 ^ 2045 := by decide +kernel
      exact_mod_cast this
    have v2 : value ⟨52, 11⟩ 0x7fe0000000000000 < value ⟨52, 11⟩ 0x7ff0000000000000 := hm (by decide)
    rw [abs_of_neg (by linarith), abs_of_neg (by linarith)] at hn
    linarith

/-- Multiples of 2^-20 below 16 are numbers of the format. -/
theorem single_multiple {n : Nat} (hn : n < 2 ^ 24) : ∃ c ≤ infinity ⟨23, 8⟩, value ⟨23, 8⟩ c = (n : ℚ) / 2 ^ 20 := by
  have hs : scaleBits ⟨23, 8⟩ = 149 := by decide
  rcases Nat.eq_zero_or_pos n with rfl | h0
  · refine ⟨0, by decide, ?_⟩
    rw [show value ⟨23, 8⟩ _ = _ from value_eq single_proper _, units_zero]
    simp
  · have he : Nat.log2 n ≤ 23 := by
      have := (Nat.log2_lt (by omega)).2 hn
      omega
    have l1 : 2 ^ Nat.log2 n ≤ n := Nat.log2_self_le (by omega)
    have l2 : n < 2 ^ (Nat.log2 n + 1) := Nat.lt_log2_self
    generalize Nat.log2 n = e at *
    have r1 : 2 ^ 23 ≤ n * 2 ^ (23 - e) := by
      calc 2 ^ 23 = 2 ^ e * 2 ^ (23 - e) := by rw [← Nat.pow_add]; congr 1; omega
        _ ≤ _ := Nat.mul_le_mul_right _ l1
    have r2 : n * 2 ^ (23 - e) ≤ 2 ^ 24 := by
      calc n * 2 ^ (23 - e) ≤ 2 ^ (e + 1) * 2 ^ (23 - e) := Nat.mul_le_mul_right _ (by omega)
        _ = 2 ^ 24 := by rw [← Nat.pow_add]; congr 1; omega
    refine ⟨(106 + e) * 2 ^ 23 + n * 2 ^ (23 - e), ?_, ?_⟩
    · have : infinity ⟨23, 8⟩ = 255 * 2 ^ 23 := by decide
      have h3 : (106 + e) * 2 ^ 23 ≤ 129 * 2 ^ 23 := Nat.mul_le_mul_right _ (by omega)
      calc (106 + e) * 2 ^ 23 + n * 2 ^ (23 - e) ≤ 129 * 2 ^ 23 + 2 ^ 24 := Nat.add_le_add h3 r2
        _ ≤ 255 * 2 ^ 23 := by decide
        _ = _ := this.symm
    · have hu : units ⟨23, 8⟩ ((106 + e) * 2 ^ 23 + n * 2 ^ (23 - e)) = n * 2 ^ (23 - e) * 2 ^ (106 + e) :=
        units_eq (F := ⟨23, 8⟩) r2 (.inr r1)
      rw [show value ⟨23, 8⟩ _ = _ from value_eq single_proper _, show single = ⟨23, 8⟩ from rfl, hu, hs]
      have e1 : n * 2 ^ (23 - e) * 2 ^ (106 + e) = n * 2 ^ 129 := by
        rw [Nat.mul_assoc, ← Nat.pow_add]; congr 2; omega
      rw [e1]
      push_cast
      rw [div_eq_div_iff (by positivity) (by positivity)]
      ring

/-- Numbers below 16 are rounded by less than 2^-20. -/
theorem rounds_close {x : ℚ} {b : Nat} (h : Rounds ⟨23, 8⟩ x b) (h1 : 0 ≤ x) (h2 : x < 16) :
    |x - value ⟨23, 8⟩ b| < 1 / 2 ^ 20 := by
  have f1 := Nat.floor_le (a := x * 2 ^ 20) (by positivity)
  have f2 := Nat.lt_floor_add_one (x * 2 ^ 20)
  have hn : ⌊x * 2 ^ 20⌋₊ < 2 ^ 24 := by
    have : (⌊x * 2 ^ 20⌋₊ : ℚ) < 2 ^ 24 := by
      refine lt_of_le_of_lt f1 ?_
      norm_num
      linarith
    exact_mod_cast this
  obtain ⟨c, hc, hv⟩ := single_multiple hn
  refine lt_of_le_of_lt (h.nearest c hc) ?_
  rw [hv]
  generalize (⌊x * 2 ^ 20⌋₊ : ℚ) = m at *
  rw [abs_of_nonneg]
  · rw [sub_lt_iff_lt_add, ← add_div, lt_div_iff₀ (by positivity)]
    linarith
  · rw [sub_nonneg, div_le_iff₀ (by positivity)]
    exact f1

end FloatFormat

/-- Numbers that differ by at least 10^-4 stay in their order. -/
theorem F32.rounds_order {x y : ℚ} {a b : F32} (ha : FloatFormat.Rounds ⟨23, 8⟩ x a.bits.toNat)
    (hb : FloatFormat.Rounds ⟨23, 8⟩ y b.bits.toNat) (h0 : 0 ≤ x) (h : x + 1 / 10000 ≤ y) (h1 : y < 16) : ¬ a.AtLeast b := by
  rintro ⟨-, -, h2⟩
  have hi : FloatFormat.infinity ⟨23, 8⟩ < 2 ^ 31 := by decide
  have la : a.bits.toNat < 2 ^ 31 := lt_of_le_of_lt ha.range hi
  have lb : b.bits.toNat < 2 ^ 31 := lt_of_le_of_lt hb.range hi
  unfold F32.value at h2
  rw [if_pos la, if_pos lb, Nat.mod_eq_of_lt la, Nat.mod_eq_of_lt lb, one_mul, one_mul] at h2
  have c1 := abs_lt.1 (FloatFormat.rounds_close ha h0 (by linarith))
  have c2 := abs_lt.1 (FloatFormat.rounds_close hb (by linarith) h1)
  have : (1 : ℚ) / 2 ^ 20 < 1 / 20000 := by norm_num
  linarith [c1.1, c2.2]

theorem F32.rounds_zero : FloatFormat.Rounds ⟨23, 8⟩ 0 (F32.mk 0).bits.toNat := by
  have := FloatFormat.ofDecimal_rounds FloatFormat.single_proper 0 0
  have e : FloatFormat.single.ofDecimal 0 0 = 0 := by decide
  rw [e] at this
  rw [Nat.cast_zero, zero_mul] at this
  exact this

end Sdp
