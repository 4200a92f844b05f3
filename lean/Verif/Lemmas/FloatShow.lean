import Verif.Lemmas.FloatSpec
import Verif.Lemmas.FloatText
import Mathlib.Tactic.Linarith
/-!
# The text of a float is the shortest that is read back
-/

namespace Sdp

namespace DigitsOk
variable {inclusive : Bool} {mant minus plus one up down n digits : Nat}

/-- Whether `M · 10^-m` lies between the bounds -/
def Inside (inclusive : Bool) (mant minus plus one up down m M : Nat) : Prop :=
  reaches inclusive (mant * 10 ^ down * 10 ^ m) (M * (one * 10 ^ up) + minus * 10 ^ down * 10 ^ m) = true ∧
  reaches inclusive (M * (one * 10 ^ up)) ((mant + plus) * 10 ^ down * 10 ^ m) = true

theorem none (h : DigitsOk inclusive mant minus plus one up down n digits) (hone : 0 < one) {m : Nat} (h1 : 1 ≤ m) (h2 : m < n)
    (M : Nat) : ¬ Inside inclusive mant minus plus one up down m M := by
  rintro ⟨a, b⟩
  obtain ⟨f1, f2⟩ := h.first m h1 h2
  have hQ : 0 < one * 10 ^ up := Nat.mul_pos hone (Nat.pos_of_ne_zero (by simp))
  have hd := Nat.div_add_mod (mant * 10 ^ down * 10 ^ m) (one * 10 ^ up)
  have hm := Nat.mod_lt (mant * 10 ^ down * 10 ^ m) hQ
  have e : (mant + plus) * 10 ^ down * 10 ^ m = mant * 10 ^ down * 10 ^ m + plus * 10 ^ down * 10 ^ m := by ring
  rw [e] at b
  rw [Nat.mul_comm] at hd
  generalize mant * 10 ^ down * 10 ^ m / (one * 10 ^ up) = q at *
  generalize mant * 10 ^ down * 10 ^ m % (one * 10 ^ up) = r at *
  generalize minus * 10 ^ down * 10 ^ m = mi at *
  generalize plus * 10 ^ down * 10 ^ m = pl at *
  generalize mant * 10 ^ down * 10 ^ m = ma at *
  generalize one * 10 ^ up = Q at *
  rcases Nat.lt_or_ge q M with hc | hc
  · have : (q + 1) * Q ≤ M * Q := Nat.mul_le_mul_right _ hc
    rw [Nat.add_mul] at this
    cases inclusive <;> simp [reaches] at * <;> omega
  · have : M * Q ≤ q * Q := Nat.mul_le_mul_right _ hc
    cases inclusive <;> simp [reaches] at * <;> omega

theorem nearest (h : DigitsOk inclusive mant minus plus one up down n digits) (hone : 0 < one)
    {M : Nat} (hM : Inside inclusive mant minus plus one up down n M) :
    |((mant * 10 ^ down * 10 ^ n : Nat) : ℤ) - (digits * (one * 10 ^ up) : Nat)| <
      |((mant * 10 ^ down * 10 ^ n : Nat) : ℤ) - (M * (one * 10 ^ up) : Nat)| ∨
    (|((mant * 10 ^ down * 10 ^ n : Nat) : ℤ) - (digits * (one * 10 ^ up) : Nat)| =
      |((mant * 10 ^ down * 10 ^ n : Nat) : ℤ) - (M * (one * 10 ^ up) : Nat)| ∧ M ≤ digits) := by
  obtain ⟨a, b⟩ := hM
  have hres := h.result
  have hQ : 0 < one * 10 ^ up := Nat.mul_pos hone (Nat.pos_of_ne_zero (by simp))
  have hd := Nat.div_add_mod (mant * 10 ^ down * 10 ^ n) (one * 10 ^ up)
  have hm := Nat.mod_lt (mant * 10 ^ down * 10 ^ n) hQ
  have e : (mant + plus) * 10 ^ down * 10 ^ n = mant * 10 ^ down * 10 ^ n + plus * 10 ^ down * 10 ^ n := by ring
  rw [e] at b
  rw [Nat.mul_comm] at hd
  generalize mant * 10 ^ down * 10 ^ n / (one * 10 ^ up) = q at *
  generalize mant * 10 ^ down * 10 ^ n % (one * 10 ^ up) = r at *
  generalize minus * 10 ^ down * 10 ^ n = mi at *
  generalize plus * 10 ^ down * 10 ^ n = pl at *
  generalize mant * 10 ^ down * 10 ^ n = ma at *
  generalize one * 10 ^ up = Q at *
  have e1 : (q + 1) * Q = q * Q + Q := by ring
  simp only [Int.abs_eq_natAbs]
  rcases Nat.lt_trichotomy M q with hc | hc | hc
  · have h1 : (M + 1) * Q ≤ q * Q := Nat.mul_le_mul_right _ hc
    rw [Nat.add_mul] at h1
    have hdn : reaches inclusive r mi = true := by
      cases inclusive <;> simp [reaches] at * <;> omega
    rcases hres with ⟨rfl, -, -⟩ | ⟨rfl, -, h3⟩
    · left; omega
    · have h3 := h3 hdn
      rw [e1]
      left; omega
  · subst hc
    have hdn : reaches inclusive r mi = true := by
      cases inclusive <;> simp [reaches] at * <;> omega
    rcases hres with ⟨rfl, -, -⟩ | ⟨rfl, -, h3⟩
    · right; exact ⟨rfl, le_refl _⟩
    · have h3 := h3 hdn
      rw [e1]
      omega
  · have h1 : (q + 1) * Q ≤ M * Q := Nat.mul_le_mul_right _ hc
    have hup : reaches inclusive Q (r + pl) = true := by
      cases inclusive <;> simp [reaches] at * <;> omega
    rcases hres with ⟨rfl, -, h3⟩ | ⟨rfl, -, -⟩
    · have h3 := h3 hup
      left; omega
    · rw [e1] at h1 ⊢
      rcases Nat.eq_or_lt_of_le hc with hc' | hc'
      · have : M = q + 1 := by omega
        subst this
        rw [e1]
        right; exact ⟨rfl, le_refl _⟩
      · have h1 : (q + 1 + 1) * Q ≤ M * Q := Nat.mul_le_mul_right _ hc'
        rw [Nat.add_mul, e1] at h1
        left; omega

end DigitsOk

/-- `reaches` over the rational numbers -/
def Reach (inclusive : Bool) (x y : ℚ) : Prop := if inclusive then x ≤ y else x < y

theorem Reach.mono {i : Bool} {x y x' y' : ℚ} (h : Reach i x y) (h1 : x' ≤ x) (h2 : y ≤ y') : Reach i x' y' := by
  cases i <;> simp only [Reach, if_true, Bool.false_eq_true, if_false] at *
  · exact lt_of_le_of_lt h1 (lt_of_lt_of_le h h2)
  · exact h1.trans (h.trans h2)

theorem Reach.le {i : Bool} {x y : ℚ} (h : Reach i x y) : x ≤ y := by
  cases i <;> simp only [Reach, if_true, Bool.false_eq_true, if_false] at h
  · exact h.le
  · exact h

theorem Reach.of_lt {i : Bool} {x y : ℚ} (h : x < y) : Reach i x y := by
  cases i <;> simp only [Reach, if_true, Bool.false_eq_true, if_false]
  · exact h
  · exact h.le

theorem reaches_rat {i : Bool} {a b : Nat} {x y c : ℚ} (hc : 0 < c) (ha : x * c = a) (hb : y * c = b) :
    reaches i a b = true ↔ Reach i x y := by
  cases i <;> simp only [reaches, Reach, if_true, Bool.false_eq_true, if_false, decide_eq_true_eq]
  · rw [← mul_lt_mul_iff_left₀ hc, ha, hb]; exact Nat.cast_lt.symm
  · rw [← mul_le_mul_iff_left₀ hc, ha, hb]; exact Nat.cast_le.symm

/-- `x` lies between the bounds -/
def Between (i : Bool) (v h1 h2 x : ℚ) : Prop := Reach i v (x + h1) ∧ Reach i x (v + h2)

theorem ten_scale (up down m : Nat) : (10 : ℚ) ^ ((up : ℤ) - down - m) * (10 ^ down * 10 ^ m) = 10 ^ up := by
  rw [← zpow_natCast (10 : ℚ) down, ← zpow_natCast (10 : ℚ) m, ← zpow_natCast (10 : ℚ) up, ← zpow_add₀ (by norm_num),
    ← zpow_add₀ (by norm_num)]
  congr 1; ring

theorem inside_iff {i : Bool} {mant minus plus one up down m M : Nat} (hone : 0 < one) :
    DigitsOk.Inside i mant minus plus one up down m M ↔
      Between i (mant / one) (minus / one) (plus / one) (M * 10 ^ ((up : ℤ) - down - m)) := by
  have ho : (0 : ℚ) < one := by exact_mod_cast hone
  have hc : (0 : ℚ) < one * (10 ^ down * 10 ^ m) := by positivity
  have hs := ten_scale up down m
  unfold DigitsOk.Inside Between
  have e0 : ∀ a : ℚ, a / one * (one * (10 ^ down * 10 ^ m)) = a * 10 ^ down * 10 ^ m := by
    intro a; field_simp
  have e1 : (M * 10 ^ ((up : ℤ) - down - m) : ℚ) * (one * (10 ^ down * 10 ^ m)) = M * (one * 10 ^ up) := by
    rw [← hs]; ring
  rw [reaches_rat (x := (mant : ℚ) / one) (y := M * 10 ^ ((up : ℤ) - down - m) + minus / one) hc (by rw [e0]; push_cast; ring)
      (by rw [add_mul, e0, e1]; push_cast; ring),
    reaches_rat (x := (M * 10 ^ ((up : ℤ) - down - m) : ℚ)) (y := mant / one + plus / one) hc (by rw [e1]; push_cast; ring)
      (by rw [add_mul, e0, e0]; push_cast; ring)]

namespace DigitsOk
variable {i : Bool} {mant minus plus one up down n digits : Nat}

theorem rat_below (h : DigitsOk i mant minus plus one up down n digits) (hone : 0 < one) {x : ℚ}
    (hx : (10 : ℚ) ^ ((up : ℤ) - down) ≤ x) : ¬ Reach i x (mant / one + plus / one) := by
  intro hr
  have ho : (0 : ℚ) < one := by exact_mod_cast hone
  have hs := ten_scale up down 0
  have := (reaches_rat (i := i) (a := one * 10 ^ up) (b := (mant + plus) * 10 ^ down) (c := one * 10 ^ down)
    (by positivity) (x := (10 : ℚ) ^ ((up : ℤ) - down)) (y := mant / one + plus / one)
    (by push_cast; rw [← hs]; simp; ring) (by push_cast; field_simp)).2 (hr.mono hx (le_refl _))
  rw [h.below] at this
  cases this

theorem rat_above (h : DigitsOk i mant minus plus one up down n digits) (hone : 0 < one) :
    Reach i ((10 : ℚ) ^ ((up : ℤ) - down - 1)) (mant / one + plus / one) := by
  have ho : (0 : ℚ) < one := by exact_mod_cast hone
  have hs := ten_scale up down 1
  exact (reaches_rat (i := i) (a := one * 10 ^ up) (b := (mant + plus) * 10 ^ (down + 1)) (c := one * 10 ^ (down + 1))
    (by positivity) (x := (10 : ℚ) ^ ((up : ℤ) - down - 1)) (y := mant / one + plus / one)
    (by push_cast; rw [← hs, pow_succ]; simp; ring) (by push_cast; field_simp)).1 h.above

/-- With a smaller number than the first digit's power of ten, that power lies between the bounds, too. -/
theorem rat_power (h : DigitsOk i mant minus plus one up down n digits) (hone : 0 < one) {x : ℚ}
    (hx : x < 10 ^ ((up : ℤ) - down - 1)) (hb : Between i (mant / one) (minus / one) (plus / one) x) :
    Between i (mant / one) (minus / one) (plus / one) (10 ^ ((up : ℤ) - down - 1)) :=
  ⟨hb.1.mono (le_refl _) (by linarith), h.rat_above hone⟩

theorem rat_none (h : DigitsOk i mant minus plus one up down n digits) (hone : 0 < one) {m M : Nat} (h1 : 1 ≤ m) (h2 : m < n) :
    ¬ Between i (mant / one) (minus / one) (plus / one) (M * 10 ^ ((up : ℤ) - down - m)) := by
  rw [← inside_iff hone]; exact h.none hone h1 h2 M

theorem rat_zero (hone : 0 < one) (hm : minus < mant) : ¬ Between i (mant / one) (minus / one) (plus / one) 0 := by
  have ho : (0 : ℚ) < one := by exact_mod_cast hone
  rintro ⟨h, -⟩
  have h := h.le
  rw [zero_add, div_le_div_iff_of_pos_right ho] at h
  have : mant ≤ minus := by exact_mod_cast h
  omega

theorem rat_shortest (h : DigitsOk i mant minus plus one up down n digits) (hone : 0 < one) (hm : minus < mant)
    {D n' : Nat} {e : ℤ} (hD : D < 10 ^ n') (hb : Between i (mant / one) (minus / one) (plus / one) (D * 10 ^ e)) : n ≤ n' := by
  by_contra hc
  have hD0 : 0 < D := by
    rcases Nat.eq_zero_or_pos D with rfl | h0
    · exact absurd (by simpa using hb) (rat_zero hone hm)
    · exact h0
  have hD1 : (1 : ℚ) ≤ D := by exact_mod_cast hD0
  rcases lt_or_ge e ((up : ℤ) - down) with he | he
  · obtain ⟨m, hm'⟩ : ∃ m : Nat, e = (up : ℤ) - down - m := ⟨((up : ℤ) - down - e).toNat, by omega⟩
    have hm1 : 1 ≤ m := by omega
    rcases Nat.lt_or_ge m n with hmn | hmn
    · rw [hm'] at hb
      exact h.rat_none hone hm1 hmn hb
    · have hx : (D * 10 ^ e : ℚ) < 10 ^ ((up : ℤ) - down - 1) := by
        calc (D * 10 ^ e : ℚ) < 10 ^ n' * 10 ^ e := by
              apply mul_lt_mul_of_pos_right _ (by positivity)
              exact_mod_cast hD
          _ = 10 ^ ((n' : ℤ) + e) := by rw [zpow_add₀ (by norm_num), zpow_natCast]
          _ ≤ 10 ^ ((up : ℤ) - down - 1) := zpow_le_zpow_right₀ (by norm_num) (by omega)
      have hp := h.rat_power hone hx hb
      rcases Nat.lt_or_ge 1 n with hn | hn
      · exact h.rat_none (M := 1) hone (le_refl 1) hn (by simpa using hp)
      · have : n' = 0 := by omega
        subst this
        simp at hD; omega
  · have : (10 : ℚ) ^ ((up : ℤ) - down) ≤ D * 10 ^ e := by
      calc (10 : ℚ) ^ ((up : ℤ) - down) ≤ 10 ^ e := zpow_le_zpow_right₀ (by norm_num) he
        _ = 1 * 10 ^ e := by ring
        _ ≤ D * 10 ^ e := mul_le_mul_of_nonneg_right hD1 (by positivity)
    exact h.rat_below hone this hb.2

theorem rat_nearest (h : DigitsOk i mant minus plus one up down n digits) (hone : 0 < one) {M : Nat}
    (hb : Between i (mant / one) (minus / one) (plus / one) (M * 10 ^ ((up : ℤ) - down - n))) :
    |(mant : ℚ) / one - digits * 10 ^ ((up : ℤ) - down - n)| < |(mant : ℚ) / one - M * 10 ^ ((up : ℤ) - down - n)| ∨
    (|(mant : ℚ) / one - digits * 10 ^ ((up : ℤ) - down - n)| = |(mant : ℚ) / one - M * 10 ^ ((up : ℤ) - down - n)| ∧
      M ≤ digits) := by
  have ho : (0 : ℚ) < one := by exact_mod_cast hone
  have hc : (0 : ℚ) < one * (10 ^ down * 10 ^ n) := by positivity
  have hs := ten_scale up down n
  have key : ∀ M : Nat, |(mant : ℚ) / one - M * 10 ^ ((up : ℤ) - down - n)| * (one * (10 ^ down * 10 ^ n)) =
      ((|((mant * 10 ^ down * 10 ^ n : Nat) : ℤ) - (M * (one * 10 ^ up) : Nat)| : ℤ) : ℚ) := by
    intro M
    conv_lhs => rw [← abs_of_pos hc, ← abs_mul]
    push_cast
    congr 1
    rw [← hs]; field_simp
  have := h.nearest hone ((inside_iff hone).2 hb)
  rw [← Int.cast_lt (R := ℚ), ← Int.cast_inj (α := ℚ), ← key, ← key, mul_lt_mul_iff_left₀ hc, mul_left_inj' hc.ne'] at this
  exact this

theorem rat_first (h : DigitsOk i mant minus plus one up down n digits) (hone : 0 < one) (hm : minus < mant)
    (hb : Between i (mant / one) (minus / one) (plus / one) (digits * 10 ^ ((up : ℤ) - down - n))) : 10 ^ (n - 1) ≤ digits := by
  by_contra hc
  have hpos := h.pos
  rcases Nat.eq_or_lt_of_le hpos with hn | hn
  · have : digits = 0 := by rw [← hn] at hc; simp at hc; omega
    subst this
    exact rat_zero hone hm (by simpa using hb)
  · have := h.rat_shortest hone hm (n' := n - 1) (by omega) hb
    omega

/-- `hsmall`: if the power of ten above is taken, then nothing with one digit fewer is closer. -/
theorem rat_closest (h : DigitsOk i mant minus plus one up down n digits) (hone : 0 < one) (hm : minus < mant)
    (hsmall : ∀ D : Nat, ∀ e : ℤ, D ≤ 9 → e ≤ (up : ℤ) - down - 2 → (mant : ℚ) / one < 10 ^ ((up : ℤ) - down - 1) →
      Between i (mant / one) (minus / one) (plus / one) (D * 10 ^ e) →
      |(mant : ℚ) / one - 10 ^ ((up : ℤ) - down - 1)| ≤ |(mant : ℚ) / one - D * 10 ^ e|)
    {D : Nat} {e : ℤ} (hD : D < 10 ^ n) (hb : Between i (mant / one) (minus / one) (plus / one) (D * 10 ^ e)) :
    |(mant : ℚ) / one - digits * 10 ^ ((up : ℤ) - down - n)| < |(mant : ℚ) / one - D * 10 ^ e| ∨
    (|(mant : ℚ) / one - digits * 10 ^ ((up : ℤ) - down - n)| = |(mant : ℚ) / one - D * 10 ^ e| ∧
      (D * 10 ^ e : ℚ) ≤ digits * 10 ^ ((up : ℤ) - down - n)) := by
  have hpos := h.pos
  have hD0 : 0 < D := by
    rcases Nat.eq_zero_or_pos D with rfl | h0
    · exact absurd (by simpa using hb) (rat_zero hone hm)
    · exact h0
  have hD1 : (1 : ℚ) ≤ D := by exact_mod_cast hD0
  rcases lt_or_ge e ((up : ℤ) - down) with he | he
  · obtain ⟨m, hm'⟩ : ∃ m : Nat, e = (up : ℤ) - down - m := ⟨((up : ℤ) - down - e).toNat, by omega⟩
    have hm1 : 1 ≤ m := by omega
    rcases Nat.lt_or_ge n m with hmn | hmn
    · have hx : (D * 10 ^ e : ℚ) < 10 ^ ((up : ℤ) - down - 1) := by
        calc (D * 10 ^ e : ℚ) < 10 ^ n * 10 ^ e := by
              apply mul_lt_mul_of_pos_right _ (by positivity)
              exact_mod_cast hD
          _ = 10 ^ ((n : ℤ) + e) := by rw [zpow_add₀ (by norm_num), zpow_natCast]
          _ ≤ 10 ^ ((up : ℤ) - down - 1) := zpow_le_zpow_right₀ (by norm_num) (by omega)
      have hp := h.rat_power hone hx hb
      have ep : ((10 ^ (n - 1) : Nat) : ℚ) * 10 ^ ((up : ℤ) - down - n) = 10 ^ ((up : ℤ) - down - 1) := by
        push_cast
        rw [← zpow_natCast, ← zpow_add₀ (by norm_num)]
        congr 1; omega
      have hn := h.rat_nearest hone (M := 10 ^ (n - 1)) (by rw [ep]; exact hp)
      rw [ep] at hn
      rcases lt_or_ge ((mant : ℚ) / one) (10 ^ ((up : ℤ) - down - 1)) with hv | hv
      · have hn1 : n = 1 := by
          by_contra hne
          exact h.rat_none (M := 1) hone (le_refl 1) (by omega) (by simpa using hp)
        subst hn1
        have hs := hsmall D e (by simp at hD; omega) (by omega) hv hb
        rcases hn with hn | ⟨hn, hle⟩
        · exact .inl (lt_of_lt_of_le hn hs)
        · rw [← hn] at hs
          rcases lt_or_eq_of_le hs with hs | hs
          · exact .inl hs
          · refine .inr ⟨hs, ?_⟩
            have : (1 : ℚ) ≤ digits := by exact_mod_cast (by simpa using hle : 1 ≤ digits)
            have h10 : (0 : ℚ) ≤ 10 ^ ((up : ℤ) - down - (1 : Nat)) := by positivity
            have e1 : (10 : ℚ) ^ ((up : ℤ) - down - 1) = 10 ^ ((up : ℤ) - down - (1 : Nat)) := by norm_num
            rw [e1] at hx
            nlinarith
      · left
        have hlt : |(mant : ℚ) / one - 10 ^ ((up : ℤ) - down - 1)| < |(mant : ℚ) / one - D * 10 ^ e| := by
          rw [abs_of_nonneg (by linarith), abs_of_nonneg (by linarith)]
          linarith
        rcases hn with hn | ⟨hn, -⟩
        · exact hn.trans hlt
        · rw [hn]; exact hlt
    · have ex : (D * 10 ^ e : ℚ) = ((D * 10 ^ (n - m) : Nat) : ℚ) * 10 ^ ((up : ℤ) - down - n) := by
        push_cast
        rw [mul_assoc, ← zpow_natCast (10 : ℚ) (n - m), ← zpow_add₀ (by norm_num)]
        congr 2; omega
      rw [ex] at hb ⊢
      rcases h.rat_nearest hone hb with hn | ⟨hn, hle⟩
      · exact .inl hn
      · refine .inr ⟨hn, mul_le_mul_of_nonneg_right (by exact_mod_cast hle) (by positivity)⟩
  · exfalso
    have : (10 : ℚ) ^ ((up : ℤ) - down) ≤ D * 10 ^ e := by
      calc (10 : ℚ) ^ ((up : ℤ) - down) ≤ 10 ^ e := zpow_le_zpow_right₀ (by norm_num) he
        _ = 1 * 10 ^ e := by ring
        _ ≤ D * 10 ^ e := mul_le_mul_of_nonneg_right hD1 (by positivity)
    exact h.rat_below hone this hb.2

end DigitsOk

namespace FloatFormat
variable {F : FloatFormat}

/-- The power of ten of the digits of a small number, and the lower bound of the least normal number: both are
facts about two powers of two, which are checked for each format. -/
structure Checked (F : FloatFormat) : Prop where
  small : ∀ b p : Nat, 1 ≤ b → b ≤ 10 → b * 10 ^ p < 2 ^ F.scaleBits → 2 * 2 ^ F.scaleBits ≤ (2 * b + 1) * 10 ^ p →
    (10 * b - 5) * 10 ^ p ≤ 9 * 2 ^ F.scaleBits → 19 * 2 ^ F.scaleBits ≤ 20 * b * 10 ^ p
  whole : 10 < 2 ^ F.scaleBits
  mant : 10 ≤ 2 ^ F.mb
  least : ∃ up down n digits : Nat, F.shortest (2 ^ F.mb) = ⟨digits, n, (up : Int) - down⟩ ∧
    DigitsOk true (4 * 2 ^ F.mb) 2 2 (2 ^ (F.scaleBits + 2)) up down n digits

end FloatFormat

theorem DigitsOk.check {i : Bool} {mant minus plus one up down n digits : Nat}
    (h : decide ((up = 0 ∨ down = 0) ∧ reaches i (one * 10 ^ up) ((mant + plus) * 10 ^ down) = false ∧
      reaches i (one * 10 ^ up) ((mant + plus) * 10 ^ (down + 1)) = true ∧
      (down = 0 ∨ reaches i one ((mant + plus) * 10 ^ down) = false) ∧ 1 ≤ n ∧
      (∀ m, m < n → 1 ≤ m →
        reaches i (mant * 10 ^ down * 10 ^ m % (one * 10 ^ up)) (minus * 10 ^ down * 10 ^ m) = false ∧
        reaches i (one * 10 ^ up) (mant * 10 ^ down * 10 ^ m % (one * 10 ^ up) + plus * 10 ^ down * 10 ^ m) = false) ∧
      ((digits = mant * 10 ^ down * 10 ^ n / (one * 10 ^ up) ∧
        reaches i (mant * 10 ^ down * 10 ^ n % (one * 10 ^ up)) (minus * 10 ^ down * 10 ^ n) = true ∧
        (reaches i (one * 10 ^ up) (mant * 10 ^ down * 10 ^ n % (one * 10 ^ up) + plus * 10 ^ down * 10 ^ n) = true →
          2 * (mant * 10 ^ down * 10 ^ n % (one * 10 ^ up)) < one * 10 ^ up)) ∨
      (digits = mant * 10 ^ down * 10 ^ n / (one * 10 ^ up) + 1 ∧
        reaches i (one * 10 ^ up) (mant * 10 ^ down * 10 ^ n % (one * 10 ^ up) + plus * 10 ^ down * 10 ^ n) = true ∧
        (reaches i (mant * 10 ^ down * 10 ^ n % (one * 10 ^ up)) (minus * 10 ^ down * 10 ^ n) = true →
          one * 10 ^ up ≤ 2 * (mant * 10 ^ down * 10 ^ n % (one * 10 ^ up)))))) = true) :
    DigitsOk i mant minus plus one up down n digits := by
  obtain ⟨h1, h2, h3, h4, h5, h6, h7⟩ := of_decide_eq_true h
  exact ⟨h1, h2, h3, h4, h5, fun m a b => h6 m b a, h7⟩

namespace FloatFormat
variable {F : FloatFormat}

theorem power_bound {s a c p : Nat} (h1 : 10 ^ p < 2 ^ s) (h2 : 2 * 2 ^ s ≤ 21 * 10 ^ p)
    (ha : 21 * 10 ^ a < 2 * 2 ^ s) (hc : 2 ^ s ≤ 10 ^ c) : a < p ∧ p < c := by
  constructor
  · by_contra h
    have : 10 ^ p ≤ 10 ^ a := Nat.pow_le_pow_right (by omega) (by omega)
    omega
  · by_contra h
    have : 10 ^ c ≤ 10 ^ p := Nat.pow_le_pow_right (by omega) (by omega)
    omega

theorem small_check {s a : Nat} (ha : 21 * 10 ^ a < 2 * 2 ^ s) (hc : 2 ^ s ≤ 10 ^ (a + 2))
    (hb : ∀ b, b ≤ 10 → 1 ≤ b → b * 10 ^ (a + 1) < 2 ^ s → 2 * 2 ^ s ≤ (2 * b + 1) * 10 ^ (a + 1) →
      (10 * b - 5) * 10 ^ (a + 1) ≤ 9 * 2 ^ s → 19 * 2 ^ s ≤ 20 * b * 10 ^ (a + 1))
    (b p : Nat) (h1 : 1 ≤ b) (h2 : b ≤ 10) (h3 : b * 10 ^ p < 2 ^ s) (h4 : 2 * 2 ^ s ≤ (2 * b + 1) * 10 ^ p)
    (h5 : (10 * b - 5) * 10 ^ p ≤ 9 * 2 ^ s) : 19 * 2 ^ s ≤ 20 * b * 10 ^ p := by
  have e1 : 1 * 10 ^ p ≤ b * 10 ^ p := Nat.mul_le_mul_right _ h1
  have e2 : (2 * b + 1) * 10 ^ p ≤ 21 * 10 ^ p := Nat.mul_le_mul_right _ (by omega)
  obtain ⟨k1, k2⟩ := power_bound (p := p) (by omega) (by omega) ha hc
  obtain rfl : p = a + 1 := by omega
  exact hb b h2 h1 h3 h4 h5

deriving instance DecidableEq for Decimal

theorem single_checked : single.Checked := by
  have e : single.scaleBits = 149 := by decide +kernel
  constructor
  · rw [e]; exact small_check (a := 43) (by decide +kernel) (by decide +kernel) (by decide +kernel)
  · decide +kernel
  · decide +kernel
  · exact ⟨0, 37, 8, 11754944, by decide +kernel, DigitsOk.check (by decide +kernel)⟩

theorem double_checked : double.Checked := by
  have e : double.scaleBits = 1074 := by decide +kernel
  constructor
  · rw [e]; exact small_check (a := 322) (by decide +kernel) (by decide +kernel) (by decide +kernel)
  · decide +kernel
  · decide +kernel
  · exact ⟨0, 307, 17, 22250738585072014, by decide +kernel, DigitsOk.check (by decide +kernel)⟩

theorem shortest_rounds (hF : F.Proper) {b : Nat} (hb : 0 < b) (hi : b ≤ F.inf) :
    (F.shortest b).digits < 10 ^ (F.shortest b).len ∧
      F.Rounds ((F.shortest b).digits * 10 ^ ((F.shortest b).point - (F.shortest b).len)) b := by
  obtain ⟨up, down, n, digits, e, -, h1, h2⟩ := shortest_nearest hF hb hi
  rw [e]
  refine ⟨h1, ?_⟩
  rw [rounds_iff hF (Nat.pos_of_ne_zero (by simp) : 0 < 10 ^ (down + n))]
  · exact h2
  · push_cast
    rw [← ten_scale up down n, pow_add]; ring

theorem wide_digits (hF : F.Proper) (hC : F.Checked) {b : Nat} (hb : 0 < b) :
    ∃ up down n digits : Nat, F.shortest b = ⟨digits, n, (up : Int) - down⟩ ∧
      DigitsOk (F.decode b).inclusive (4 * F.units b) (2 * F.gap (b - 1)) (2 * F.gap b) (2 ^ (F.scaleBits + 2)) up down n digits := by
  have hd := decode_ok hF hb
  have hub : 0 < F.units b := by
    have := units_strictMono (F := F) hb
    rw [units_zero] at this; exact this
  by_cases he : b = 2 ^ F.mb
  · have hp := two_pow_pos' F.mb
    have e1 : b / 2 ^ F.mb = 1 := by rw [he]; exact Nat.div_self hp
    have e2 : b % 2 ^ F.mb = 0 := by rw [he]; exact Nat.mod_self _
    have e3 : (b - 1) / 2 ^ F.mb = 0 := Nat.div_eq_of_lt (by omega)
    have u : F.units b = 2 ^ F.mb := by simp [units, e1, e2]
    have g : F.gap b = 1 := by simp [gap, e1]
    have g' : F.gap (b - 1) = 1 := by simp [gap, e3]
    have i : (F.decode b).inclusive = true := by simp [decode, e1, e2]
    rw [i, u, g, g', he]
    exact hC.least
  · obtain ⟨up, down, n, digits, e, h⟩ := F.shortest_digits b (by rw [hd.mant]; omega) hd.minusPos
    rw [hd.mant, hd.plus, hd.tight he] at h
    exact ⟨up, down, n, digits, e, h⟩

/-- The bounds of a magnitude: half way to the next ones -/
theorem rounds_between (hF : F.Proper) {b : Nat} (hb : 0 < b) (hi : b < F.inf) {x : ℚ} (h : F.Rounds x b) :
    Between (F.decode b).inclusive (((4 * F.units b : Nat) : ℚ) / (2 ^ (F.scaleBits + 2) : Nat))
      (((2 * F.gap (b - 1) : Nat) : ℚ) / (2 ^ (F.scaleBits + 2) : Nat))
      (((2 * F.gap b : Nat) : ℚ) / (2 ^ (F.scaleBits + 2) : Nat)) x := by
  have hd := decode_ok hF hb
  have h2 : (0 : ℚ) < 2 ^ F.scaleBits := by positivity
  have ev : ((4 * F.units b : Nat) : ℚ) / (2 ^ (F.scaleBits + 2) : Nat) = F.value b := by
    rw [value_eq hF]; push_cast; rw [pow_add]; field_simp; ring
  have eg : ∀ c, ((2 * F.gap c : Nat) : ℚ) / (2 ^ (F.scaleBits + 2) : Nat) = (F.value (c + 1) - F.value c) / 2 := by
    intro c
    rw [value_eq hF, value_eq hF, units_succ]; push_cast; rw [pow_add]; field_simp; ring
  rw [ev, eg, eg, Nat.sub_add_cancel hb]
  have lt1 : F.value b < F.value (b + 1) := by
    have := gap_pos (F := F) b
    rw [value_eq hF, value_eq hF, units_succ, div_lt_div_iff_of_pos_right h2]
    exact_mod_cast (by omega : F.units b < F.units b + F.gap b)
  have lt0 : F.value (b - 1) < F.value b := by
    have := units_strictMono (F := F) (by omega : b - 1 < b)
    rw [value_eq hF, value_eq hF, div_lt_div_iff_of_pos_right h2]
    exact_mod_cast this
  have n1 := h.nearest (b + 1) hi
  have n0 := h.nearest (b - 1) (by have := h.range; omega)
  have v1 := h.even (b + 1) hi (by omega)
  have v0 := h.even (b - 1) (by have := h.range; omega) (by omega)
  have hexc := hd.exclusive
  generalize F.value (b + 1) = y1 at *
  generalize F.value (b - 1) = y0 at *
  generalize F.value b = y at *
  have up : x ≤ y + (y1 - y) / 2 := by
    by_contra hc
    rw [not_le] at hc
    rw [abs_of_pos (by linarith : (0 : ℚ) < x - y)] at n1
    rcases le_total x y1 with h' | h'
    · rw [abs_of_nonpos (by linarith : x - y1 ≤ 0)] at n1; linarith
    · rw [abs_of_nonneg (by linarith : 0 ≤ x - y1)] at n1; linarith
  have down : y ≤ x + (y - y0) / 2 := by
    by_contra hc
    rw [not_le] at hc
    rw [abs_of_neg (by linarith : x - y < (0 : ℚ))] at n0
    rcases le_total x y0 with h' | h'
    · rw [abs_of_nonpos (by linarith : x - y0 ≤ 0)] at n0; linarith
    · rw [abs_of_nonneg (by linarith : 0 ≤ x - y0)] at n0; linarith
  unfold Between Reach
  cases hinc : (F.decode b).inclusive with
  | true => exact ⟨down, up⟩
  | false =>
    have hodd := hexc hinc
    refine ⟨lt_of_le_of_ne down fun heq => ?_, lt_of_le_of_ne up fun heq => ?_⟩
    · have := v0 (by rw [abs_of_nonpos (by linarith), abs_of_nonneg (by linarith)]; linarith)
      omega
    · have := v1 (by rw [abs_of_nonneg (by linarith), abs_of_nonpos (by linarith)]; linarith)
      omega

theorem small_power (hF : F.Proper) (hC : F.Checked) {b : Nat} (hb : 0 < b) {inc : Bool} {D : Nat} {e k : ℤ}
    (hD : D ≤ 9) (he : e ≤ k - 2) (hv : F.value b < 10 ^ (k - 1))
    (hk : (10 : ℚ) ^ (k - 1) ≤ F.value b + (2 * F.gap b : Nat) / (2 ^ (F.scaleBits + 2) : Nat))
    (hx : F.value b ≤ D * 10 ^ e + (2 * F.gap (b - 1) : Nat) / (2 ^ (F.scaleBits + 2) : Nat)) :
    |F.value b - 10 ^ (k - 1)| ≤ |F.value b - D * 10 ^ e| := by
  have h2 : (0 : ℚ) < 2 ^ F.scaleBits := by positivity
  have hT : (0 : ℚ) < 10 ^ (k - 1) := by positivity
  have hDe : (D * 10 ^ e : ℚ) ≤ 9 / 10 * 10 ^ (k - 1) := by
    calc (D * 10 ^ e : ℚ) ≤ 9 * 10 ^ (k - 2) := by
          apply mul_le_mul (by exact_mod_cast hD) (zpow_le_zpow_right₀ (by norm_num) he) (by positivity) (by norm_num)
      _ = 9 / 10 * 10 ^ (k - 1) := by
          rw [show k - 1 = (k - 2) + 1 by ring, zpow_add₀ (by norm_num)]; norm_num; ring
  have eg : ∀ g : Nat, ((2 * g : Nat) : ℚ) / (2 ^ (F.scaleBits + 2) : Nat) = g / 2 / 2 ^ F.scaleBits := by
    intro g; push_cast; rw [pow_add]; field_simp
  rw [eg] at hk hx
  rw [value_eq hF] at hv hk hx ⊢
  have hmono : F.gap (b - 1) ≤ F.gap b := by
    unfold gap
    apply Nat.pow_le_pow_right (by omega)
    have : (b - 1) / 2 ^ F.mb ≤ b / 2 ^ F.mb := Nat.div_le_div_right (by omega)
    omega
  have hlt : F.units b < 10 * F.gap b := by
    have h1 : (F.units b : ℚ) < 10 * F.gap b := by
      have hg : (F.gap (b - 1) : ℚ) ≤ F.gap b := by exact_mod_cast hmono
      have h3 : (F.units b : ℚ) / 2 ^ F.scaleBits < (10 * F.gap b) / 2 ^ F.scaleBits := by
        have e1 : (10 * F.gap b : ℚ) / 2 ^ F.scaleBits = 20 * (F.gap b / 2 / 2 ^ F.scaleBits) := by ring
        have e2 : (F.gap (b - 1) / 2 / 2 ^ F.scaleBits : ℚ) ≤ F.gap b / 2 / 2 ^ F.scaleBits := by
          apply div_le_div_of_nonneg_right _ h2.le
          linarith
        rw [e1]; linarith
      exact (div_lt_div_iff_of_pos_right h2).1 h3
    exact_mod_cast h1
  have hm := hC.mant
  have h0 : b / 2 ^ F.mb = 0 := by
    by_contra hne
    have : F.units b = (2 ^ F.mb + b % 2 ^ F.mb) * F.gap b := by unfold units gap; rw [if_neg hne]
    have h3 : 10 * F.gap b ≤ (2 ^ F.mb + b % 2 ^ F.mb) * F.gap b := Nat.mul_le_mul_right _ (by omega)
    omega
  have hblt : b < 2 ^ F.mb := by
    rcases Nat.div_eq_zero_iff.1 h0 with h | h
    · omega
    · exact h
  have hu : F.units b = b := by unfold units; rw [if_pos h0, Nat.mod_eq_of_lt hblt]
  have hg : F.gap b = 1 := by simp [gap, h0]
  have hg' : F.gap (b - 1) = 1 := by simp [gap, Nat.div_eq_of_lt (by omega : b - 1 < 2 ^ F.mb)]
  rw [hu, hg] at hlt
  rw [hu] at hv hk hx ⊢
  rw [hg] at hk
  rw [hg'] at hx
  have hkneg : k - 1 < 0 := by
    by_contra hc
    have h1 : (1 : ℚ) ≤ 10 ^ (k - 1) := one_le_zpow₀ (by norm_num) (by omega)
    have h3 : (1 : ℚ) ≤ ((b : ℚ) + 1 / 2) / 2 ^ F.scaleBits := by
      calc (1 : ℚ) ≤ _ := h1
        _ ≤ _ := hk
        _ = _ := by push_cast; ring
    rw [le_div_iff₀ h2] at h3
    have hw := hC.whole
    have h4 : (11 : ℚ) ≤ 2 ^ F.scaleBits := by exact_mod_cast hw
    have h5 : (b : ℚ) < 10 := by exact_mod_cast hlt
    linarith
  obtain ⟨p, hp⟩ : ∃ p : Nat, k - 1 = -(p : ℤ) := ⟨(1 - k).toNat, by omega⟩
  have hT' : (10 : ℚ) ^ (k - 1) = 1 / 10 ^ p := by rw [hp, zpow_neg, zpow_natCast, one_div]
  rw [hT'] at hv hk hDe ⊢
  have hP : (0 : ℚ) < 10 ^ p := by positivity
  have c1 : b * 10 ^ p < 2 ^ F.scaleBits := by
    rw [div_lt_div_iff₀ h2 hP] at hv
    have : (b * 10 ^ p : ℚ) < 2 ^ F.scaleBits := by linarith
    exact_mod_cast this
  have c2 : 2 * 2 ^ F.scaleBits ≤ (2 * b + 1) * 10 ^ p := by
    have : (1 : ℚ) / 10 ^ p ≤ ((b : ℚ) + 1 / 2) / 2 ^ F.scaleBits := by
      calc (1 : ℚ) / 10 ^ p ≤ _ := hk
        _ = _ := by push_cast; ring
    rw [div_le_div_iff₀ hP h2] at this
    have : (2 * 2 ^ F.scaleBits : ℚ) ≤ (2 * b + 1) * 10 ^ p := by linarith
    exact_mod_cast this
  have c3 : (10 * b - 5) * 10 ^ p ≤ 9 * 2 ^ F.scaleBits := by
    have h3 : ((b : ℚ) - 1 / 2) / 2 ^ F.scaleBits ≤ (9 / 10) / 10 ^ p := by
      have : ((b : ℚ) - 1 / 2) / 2 ^ F.scaleBits = b / 2 ^ F.scaleBits - ((1 : Nat) : ℚ) / 2 / 2 ^ F.scaleBits := by
        push_cast; ring
      have e9 : (9 / 10 : ℚ) * (1 / 10 ^ p) = 9 / 10 / 10 ^ p := by ring
      rw [e9] at hDe
      rw [this]; linarith
    rw [div_le_div_iff₀ h2 hP] at h3
    have h4 : ((10 * b - 5 : Nat) : ℚ) = 10 * b - 5 := by
      rw [Nat.cast_sub (by omega)]; push_cast; ring
    have : ((10 * b - 5 : Nat) : ℚ) * 10 ^ p ≤ 9 * 2 ^ F.scaleBits := by rw [h4]; linarith
    exact_mod_cast this
  have c4 := hC.small b p hb (by omega) c1 c2 c3
  have c5 : (19 / 10 : ℚ) * (1 / 10 ^ p) ≤ 2 * (b / 2 ^ F.scaleBits) := by
    have : (19 * 2 ^ F.scaleBits : ℚ) ≤ 20 * b * 10 ^ p := by exact_mod_cast c4
    have e1 : (19 / 10 : ℚ) * (1 / 10 ^ p) = (19 / 10) / 10 ^ p := by ring
    have e2 : (2 : ℚ) * (b / 2 ^ F.scaleBits) = (2 * b) / 2 ^ F.scaleBits := by ring
    rw [e1, e2, div_le_div_iff₀ hP h2]
    linarith
  rw [abs_of_neg (by linarith), abs_of_nonneg (by linarith)]
  linarith

theorem shortest_spec (hF : F.Proper) (hC : F.Checked) {b : Nat} (hb : 0 < b) (hi : b < F.inf) :
    ShortestDecimal F b (F.shortest b).digits (F.shortest b).len (F.shortest b).point := by
  obtain ⟨hlt, hr⟩ := shortest_rounds hF hb hi.le
  obtain ⟨up, down, n, digits, e, h⟩ := wide_digits hF hC hb
  have hone : 0 < 2 ^ (F.scaleBits + 2) := two_pow_pos' _
  have hm : 2 * F.gap (b - 1) < 4 * F.units b := by
    have := units_succ (F := F) (b - 1)
    rw [Nat.sub_add_cancel hb] at this
    have := gap_pos (F := F) (b - 1)
    omega
  have ev : ((4 * F.units b : Nat) : ℚ) / (2 ^ (F.scaleBits + 2) : Nat) = F.value b := by
    rw [value_eq hF]; push_cast; rw [pow_add]; field_simp; ring
  rw [e] at hlt hr ⊢
  simp only at hlt hr ⊢
  have hbt := rounds_between hF hb hi hr
  refine ⟨⟨h.rat_first hone hm hbt, hlt⟩, hr, fun D' n' e' hD' hr' => ?_, fun D' e' hD' hr' => ?_⟩
  · exact h.rat_shortest hone hm hD' (rounds_between hF hb hi hr')
  · have := h.rat_closest hone hm (fun D e hD he hv hbt' => by
      have hk := (h.rat_above hone).le
      have hx := hbt'.1.le
      rw [ev] at hv hk hx ⊢
      exact small_power hF hC hb (inc := true) hD he hv hk hx) hD' (rounds_between hF hb hi hr')
    rw [ev] at this
    exact this

theorem ShortestDecimal.unique {b D D' n n' : Nat} {p p' : ℤ} (h : ShortestDecimal F b D n p)
    (h' : ShortestDecimal F b D' n' p') : D = D' ∧ n = n' ∧ p = p' := by
  obtain rfl : n = n' := Nat.le_antisymm (h.shortest _ _ _ h'.digits.2 h'.reads) (h'.shortest _ _ _ h.digits.2 h.reads)
  have e : (D * 10 ^ (p - n) : ℚ) = D' * 10 ^ (p' - n) := by
    rcases h.closest _ _ h'.digits.2 h'.reads with a | ⟨a, a'⟩ <;>
      rcases h'.closest _ _ h.digits.2 h.reads with b | ⟨b, b'⟩
    · exact absurd (a.trans b) (lt_irrefl _)
    · rw [b] at a; exact absurd a (lt_irrefl _)
    · rw [a] at b; exact absurd b (lt_irrefl _)
    · exact le_antisymm b' a'
  have key : ∀ {D D' : Nat} {p p' : ℤ}, (10 ^ (n - 1) ≤ D ∧ D < 10 ^ n) → (10 ^ (n - 1) ≤ D' ∧ D' < 10 ^ n) →
      (D * 10 ^ (p - n) : ℚ) = D' * 10 ^ (p' - n) → p ≤ p' := by
    intro D D' p p' h h' e
    by_contra hc
    have hn : n ≠ 0 := by rintro rfl; simp at h; omega
    have h1 : (10 : ℚ) ^ (p - 1) ≤ D * 10 ^ (p - n) := by
      calc (10 : ℚ) ^ (p - 1) = 10 ^ (n - 1) * 10 ^ (p - n) := by
            rw [← zpow_natCast, ← zpow_add₀ (by norm_num)]; congr 1; omega
        _ ≤ D * 10 ^ (p - n) := mul_le_mul_of_nonneg_right (by exact_mod_cast h.1) (by positivity)
    have h2 : (D' * 10 ^ (p' - n) : ℚ) < 10 ^ p' := by
      calc (D' * 10 ^ (p' - n) : ℚ) < 10 ^ n * 10 ^ (p' - n) :=
            mul_lt_mul_of_pos_right (by exact_mod_cast h'.2) (by positivity)
        _ = 10 ^ p' := by rw [← zpow_natCast, ← zpow_add₀ (by norm_num)]; congr 1; omega
    have h3 : (10 : ℚ) ^ p' ≤ 10 ^ (p - 1) := zpow_le_zpow_right₀ (by norm_num) (by omega)
    rw [e] at h1
    linarith
  have ep : p = p' := le_antisymm (key h.digits h'.digits e) (key h'.digits h.digits e.symm)
  subst ep
  refine ⟨?_, rfl, rfl⟩
  have := mul_right_cancel₀ (by positivity : (10 : ℚ) ^ (p - n) ≠ 0) e
  exact_mod_cast this

theorem decValue_cons (c : Char) (ds : Str) : decValue (c :: ds) = (c.toNat - 48) * 10 ^ ds.length + decValue ds := by
  have := decValue_append [c] ds
  rw [List.singleton_append] at this
  rw [this]
  congr 2
  simp [decValue]

theorem digit_range {c : Char} (h : c.isDigit = true) : 48 ≤ c.toNat ∧ c.toNat ≤ 57 := by
  exact isDigit_iff.1 h

theorem decValue_lt {ds : Str} (h : ∀ c ∈ ds, c.isDigit = true) : decValue ds < 10 ^ ds.length := by
  induction ds with
  | nil => simp [decValue]
  | cons c ds ih =>
    have := digit_range (h c (by simp))
    have := ih fun x hx => h x (by simp [hx])
    have h9 : (c.toNat - 48) * 10 ^ ds.length ≤ 9 * 10 ^ ds.length := Nat.mul_le_mul_right _ (by omega)
    rw [decValue_cons, List.length_cons, Nat.pow_succ]
    omega

theorem decValue_inj_length {a b : Str} (ha : ∀ c ∈ a, c.isDigit = true) (hb : ∀ c ∈ b, c.isDigit = true)
    (hl : a.length = b.length) (h : decValue a = decValue b) : a = b := by
  induction a generalizing b with
  | nil => cases b with
    | nil => rfl
    | cons c b => simp at hl
  | cons c a ih =>
    cases b with
    | nil => simp at hl
    | cons d b =>
      simp only [List.length_cons, Nat.add_right_cancel_iff] at hl
      have hc := digit_range (ha c (by simp))
      have hd := digit_range (hb d (by simp))
      have la := decValue_lt fun x hx => ha x (List.mem_cons_of_mem _ hx)
      have lb := decValue_lt fun x hx => hb x (List.mem_cons_of_mem _ hx)
      rw [decValue_cons, decValue_cons, hl] at h
      rw [hl] at la
      have e1 : c.toNat - 48 = d.toNat - 48 := by
        have h1 := congrArg (· / 10 ^ b.length) h
        have hp : 0 < 10 ^ b.length := Nat.pos_of_ne_zero (by simp)
        rwa [Nat.mul_comm, Nat.mul_add_div hp, Nat.div_eq_of_lt la, Nat.mul_comm, Nat.mul_add_div hp, Nat.div_eq_of_lt lb] at h1
      rw [e1] at h
      have e2 := ih (fun x hx => ha x (List.mem_cons_of_mem _ hx)) (fun x hx => hb x (List.mem_cons_of_mem _ hx)) hl (by omega)
      have e3 : c = d := Char.toNat_inj.1 (by omega)
      rw [e2, e3]

theorem placedDigits_iff {D n : Nat} {p : ℤ} (hn : 1 ≤ n) (hD : D < 10 ^ n) (t : Str) :
    PlacedDigits D n p t ↔ decimalText ⟨D, n, p⟩ = t := by
  obtain ⟨hlen, hdig, hval⟩ := padded hn hD
  have uniq : ∀ ds : Str, (∀ c ∈ ds, c.isDigit = true) → ds.length = n → decValue ds = D → ds = padLeft n (showNat D) := by
    intro ds h1 h2 h3
    exact decValue_inj_length h1 hdig (by rw [h2, hlen]) (by rw [h3, hval])
  unfold decimalText
  simp only
  generalize padLeft n (showNat D) = ds at *
  constructor
  · rintro ⟨ds', h1, h2, h3, h⟩
    obtain rfl := uniq ds' h1 h2 h3
    rcases h with ⟨hp, rfl⟩ | ⟨hp, rfl⟩ | ⟨whole, frac, rfl, hw, hf, hp, rfl⟩
    · rw [if_pos hp]
    · rw [if_neg (by omega), if_pos (by omega)]
      congr 2; omega
    · have hw' := List.length_pos_iff.2 hw
      have hf' := List.length_pos_iff.2 hf
      rw [if_neg (by omega), if_neg (by simp; omega)]
      have : p.toNat = whole.length := by omega
      rw [this]
      simp
  · rintro rfl
    refine ⟨ds, hdig, hlen, hval, ?_⟩
    split
    · next h => exact .inl ⟨h, rfl⟩
    · next h =>
      split
      · next h' =>
        refine .inr (.inl ⟨by omega, ?_⟩)
        congr 2; omega
      · next h' =>
        refine .inr (.inr ⟨ds.take p.toNat, ds.drop p.toNat, by simp, ?_, ?_, ?_, rfl⟩)
        · intro hc
          have := congrArg List.length hc
          rw [List.length_take, List.length_nil] at this; omega
        · intro hc
          have := congrArg List.length hc
          rw [List.length_drop, List.length_nil] at this; omega
        · rw [List.length_take]; omega

theorem magnitude_written (hF : F.Proper) (hC : F.Checked) {b : Nat} (hi : b ≤ F.inf) (t : Str) :
    MagnitudeWritten F b t ↔ (if b = F.inf then c%"inf" else if b = 0 then c%"0" else decimalText (F.shortest b)) = t := by
  have hp := inf_pos hF
  have hinf : F.infinity = F.inf := rfl
  unfold MagnitudeWritten
  rw [hinf]
  by_cases h1 : b = F.inf
  · rw [if_pos h1]
    constructor
    · rintro (⟨-, rfl⟩ | ⟨h, -⟩ | ⟨-, h, -⟩)
      · rfl
      · omega
      · omega
    · rintro rfl; exact .inl ⟨h1, rfl⟩
  · rw [if_neg h1]
    by_cases h2 : b = 0
    · rw [if_pos h2]
      constructor
      · rintro (⟨h, -⟩ | ⟨-, rfl⟩ | ⟨h, -⟩)
        · omega
        · rfl
        · omega
      · rintro rfl; exact .inr (.inl ⟨h2, rfl⟩)
    · rw [if_neg h2]
      have hs := shortest_spec hF hC (by omega : 0 < b) (by omega)
      have hl : 1 ≤ (F.shortest b).len := by
        rcases Nat.eq_zero_or_pos (F.shortest b).len with h | h
        · have := hs.digits; rw [h] at this; simp at this; omega
        · exact h
      have e := placedDigits_iff (p := (F.shortest b).point) hl hs.digits.2 t
      rw [← e]
      constructor
      · rintro (⟨h, -⟩ | ⟨h, -⟩ | ⟨-, -, D, n, p, hd, ht⟩)
        · omega
        · omega
        · obtain ⟨rfl, rfl, rfl⟩ := ShortestDecimal.unique hd hs
          exact ht
      · intro ht
        exact .inr (.inr ⟨by omega, by omega, _, _, _, hs, ht⟩)

/-- The text of a float is the one the specification says. -/
theorem text_iff (hF : F.Proper) (hC : F.Checked) {bits : Nat} (hb : bits < 2 * F.signBit) (t : Str) :
    F.text bits = t ↔ FloatWritten F bits t := by
  have hs : 2 ^ (F.mb + F.eb) = F.signBit := rfl
  have hlt := inf_lt F
  have hinf : F.infinity = F.inf := rfl
  unfold FloatWritten text
  rw [hs, hinf]
  simp only
  by_cases hn : F.inf < bits % F.signBit
  · rw [if_pos hn]
    constructor
    · rintro rfl; exact .inl ⟨hn, rfl⟩
    · rintro (⟨-, rfl⟩ | ⟨h, -⟩ | ⟨b, u, h, rfl, -⟩)
      · rfl
      · rw [Nat.mod_eq_of_lt (by omega)] at hn; omega
      · rw [Nat.add_mod_left, Nat.mod_eq_of_lt (by omega)] at hn; omega
  · rw [if_neg hn]
    have hn := Nat.le_of_not_lt hn
    by_cases hsg : F.signBit ≤ bits
    · rw [if_pos hsg]
      have e : bits % F.signBit = bits - F.signBit := by
        rw [Nat.mod_eq_sub_mod hsg, Nat.mod_eq_of_lt (by omega)]
      rw [e] at hn ⊢
      constructor
      · rintro rfl
        exact .inr (.inr ⟨_, _, hn, by omega, rfl, (magnitude_written hF hC hn _).2 rfl⟩)
      · rintro (⟨h, -⟩ | ⟨h, -⟩ | ⟨b, u, h, rfl, rfl, hm⟩)
        · omega
        · omega
        · rw [Nat.add_sub_cancel_left]
          rw [(magnitude_written hF hC h _).1 hm]
          rfl
    · rw [if_neg hsg, Nat.mod_eq_of_lt (by omega), List.nil_append]
      rw [Nat.mod_eq_of_lt (by omega)] at hn
      rw [← magnitude_written hF hC hn]
      constructor
      · intro h; exact .inr (.inl ⟨hn, h⟩)
      · rintro (⟨h, -⟩ | ⟨-, h⟩ | ⟨b, u, -, rfl, -⟩)
        · omega
        · exact h
        · omega

end FloatFormat

theorem F32.isNan_iff (x : F32) : x.isNan = true ↔ x.IsNaN := by
  simp only [F32.isNan, F32.IsNaN, decide_eq_true_eq, gt_iff_lt]
  rw [show FloatFormat.infinity ⟨23, 8⟩ = 0x7f800000 by decide]

theorem FloatFormat.value_strictMono {F : FloatFormat} (hF : F.Proper) : StrictMono F.value := by
  intro a b h
  rw [FloatFormat.value_eq hF, FloatFormat.value_eq hF, div_lt_div_iff_of_pos_right (by positivity)]
  exact_mod_cast FloatFormat.units_strictMono (F := F) h

/-- The order of floats is the order of their values. -/
theorem F32.ge_iff (x y : F32) : x.ge y = true ↔ x.AtLeast y := by
  have key : y.key ≤ x.key ↔ y.value ≤ x.value := by
    have hm := FloatFormat.value_strictMono FloatFormat.single_proper
    have h0 : FloatFormat.value ⟨23, 8⟩ 0 = 0 := by
      have := FloatFormat.value_eq FloatFormat.single_proper 0
      rw [FloatFormat.units_zero, Nat.cast_zero, zero_div] at this
      exact this
    have hle : ∀ a b : Nat, a ≤ b ↔ FloatFormat.value ⟨23, 8⟩ a ≤ FloatFormat.value ⟨23, 8⟩ b := fun a b => hm.le_iff_le.symm
    have hx := x.bits.toNat_lt
    have hy := y.bits.toNat_lt
    unfold F32.key F32.value
    generalize x.bits.toNat = a at *
    generalize y.bits.toNat = b at *
    have nn : ∀ c, 0 ≤ FloatFormat.value ⟨23, 8⟩ c := fun c => by rw [← h0]; exact (hle _ _).1 (Nat.zero_le _)
    have zero : ∀ c, FloatFormat.value ⟨23, 8⟩ c ≤ 0 ↔ c = 0 := fun c => by
      rw [← h0, ← hle]; omega
    split <;> split
    · next h1 h2 =>
      rw [Nat.mod_eq_of_lt h1, Nat.mod_eq_of_lt h2, one_mul, one_mul, ← hle]; omega
    · next h1 h2 =>
      have e : a % 2 ^ 31 = a - 2 ^ 31 := by omega
      rw [Nat.mod_eq_of_lt h1, e, one_mul]
      have n1 := nn b
      have n2 := nn (a - 2 ^ 31)
      constructor
      · intro h
        have e1 : b = 0 := by omega
        have e2 : a - 2 ^ 31 = 0 := by omega
        rw [e1, e2, h0]; simp
      · intro h
        have e1 := (zero b).1 (by linarith)
        have e2 := (zero (a - 2 ^ 31)).1 (by linarith)
        omega
    · next h1 h2 =>
      have n1 := nn (b % 2 ^ 31)
      have n2 := nn (a % 2 ^ 31)
      constructor
      · intro; linarith
      · intro; omega
    · next h1 h2 =>
      have e : a % 2 ^ 31 = a - 2 ^ 31 := by omega
      have e' : b % 2 ^ 31 = b - 2 ^ 31 := by omega
      rw [e, e', neg_one_mul, neg_one_mul, neg_le_neg_iff, neg_le_neg_iff, ← hle]; omega
  unfold F32.ge F32.AtLeast
  rw [← F32.isNan_iff, ← F32.isNan_iff, ← key]
  simp [and_assoc]

theorem F32.ge_false_iff {x y : F32} : x.ge y = false ↔ ¬ x.AtLeast y := by
  rw [← F32.ge_iff, Bool.not_eq_true]

theorem F32.text_iff (x : F32) (t : Str) : x.text = t ↔ F32Written x t :=
  FloatFormat.text_iff FloatFormat.single_proper FloatFormat.single_checked (UInt32.toNat_lt _) t

theorem F64.text_iff (x : F64) (t : Str) : x.text = t ↔ F64Written x t :=
  FloatFormat.text_iff FloatFormat.double_proper FloatFormat.double_checked (UInt64.toNat_lt _) t

end Sdp
