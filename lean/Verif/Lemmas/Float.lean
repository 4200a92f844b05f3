import Verif.Model.Float
import Mathlib.Tactic.Ring
import Mathlib.Tactic.Linarith
/-!
# Rounding to floats: magnitudes, nearest magnitudes, uniqueness
-/

namespace Sdp.FloatFormat
variable {F : FloatFormat}

/-- The distance from one magnitude to the next. -/
def gap (F : FloatFormat) (b : Nat) : Nat := 2 ^ (b / 2 ^ F.mb - 1)

theorem gap_pos (b : Nat) : 0 < F.gap b := Nat.pos_of_ne_zero (by simp [gap])

theorem two_pow_pos' (n : Nat) : 0 < 2 ^ n := Nat.pos_of_ne_zero (by simp)

/-- A magnitude `s·2^mb + r` with a mantissa that is not too large. -/
theorem units_eq {s r : Nat} (h1 : r ≤ 2 ^ (F.mb + 1)) (h2 : s = 0 ∨ 2 ^ F.mb ≤ r) :
    F.units (s * 2 ^ F.mb + r) = r * 2 ^ s := by
  have hp := two_pow_pos' F.mb
  have e2 : 2 ^ (F.mb + 1) = 2 * 2 ^ F.mb := by ring
  unfold units
  by_cases hr : r < 2 ^ F.mb
  · have hs : s = 0 := by omega
    subst hs
    simp [Nat.div_eq_of_lt hr, Nat.mod_eq_of_lt hr]
  · by_cases hr2 : r = 2 ^ (F.mb + 1)
    · have e : s * 2 ^ F.mb + r = (s + 2) * 2 ^ F.mb := by rw [hr2]; ring
      rw [e, Nat.mul_div_cancel _ hp, Nat.mul_mod_left, if_neg (by omega), hr2]
      rw [show s + 2 - 1 = s + 1 by omega]; ring
    · obtain ⟨f, hf⟩ : ∃ f, r = 2 ^ F.mb + f := ⟨r - 2 ^ F.mb, by omega⟩
      have hf2 : f < 2 ^ F.mb := by omega
      have e : s * 2 ^ F.mb + r = f + 2 ^ F.mb * (s + 1) := by rw [hf]; ring
      rw [e, Nat.add_mul_div_left _ _ hp, Nat.add_mul_mod_self_left, Nat.div_eq_of_lt hf2, Nat.mod_eq_of_lt hf2,
        if_neg (by omega), hf]
      simp

/-- Every magnitude has that form. -/
theorem magnitude_form (b : Nat) : ∃ s r, b = s * 2 ^ F.mb + r ∧ r < 2 ^ (F.mb + 1) ∧ (s = 0 ∨ 2 ^ F.mb ≤ r) ∧
    F.units b = r * 2 ^ s ∧ F.gap b = 2 ^ s := by
  have hp := two_pow_pos' F.mb
  have e2 : 2 ^ (F.mb + 1) = 2 * 2 ^ F.mb := by ring
  have hm : b % 2 ^ F.mb < 2 ^ F.mb := Nat.mod_lt _ hp
  have hd : 2 ^ F.mb * (b / 2 ^ F.mb) + b % 2 ^ F.mb = b := Nat.div_add_mod b (2 ^ F.mb)
  by_cases h : b / 2 ^ F.mb = 0
  · refine ⟨0, b % 2 ^ F.mb, by rw [h] at hd; omega, by omega, .inl rfl, ?_, ?_⟩
    · simp [units, h]
    · simp [gap, h]
  · obtain ⟨e, he⟩ : ∃ e, b / 2 ^ F.mb = e + 1 := Nat.exists_eq_succ_of_ne_zero h
    refine ⟨e, 2 ^ F.mb + b % 2 ^ F.mb, ?_, by omega, .inr (by omega), ?_, ?_⟩
    · rw [he] at hd; rw [← hd]; simp; ring
    · simp [units, he]
    · simp [gap, he]

theorem units_succ (b : Nat) : F.units (b + 1) = F.units b + F.gap b := by
  obtain ⟨s, r, e, h1, h2, h3, h4⟩ := magnitude_form (F := F) b
  rw [h3, h4, e, Nat.add_assoc, units_eq (by omega) (by omega)]
  ring

theorem units_strictMono : StrictMono F.units :=
  strictMono_nat_of_lt_succ fun b => by rw [units_succ]; have := gap_pos (F := F) b; omega

theorem units_zero : F.units 0 = 0 := by simp [units]

/-- `b` is the magnitude nearest to `n / d`, even if there are two. -/
def NearestTo (F : FloatFormat) (n d b : Nat) : Prop :=
  b ≤ F.inf ∧ ∀ b' ≤ F.inf, |(F.units b * d : Int) - n| ≤ |(F.units b' * d : Int) - n| ∧
    (|(F.units b * d : Int) - n| = |(F.units b' * d : Int) - n| → b' = b ∨ b % 2 = 0)

theorem roundDiv_spec {n d : Nat} (hd : 0 < d) (t : Int) :
    |((roundDiv n d : Nat) * d : Int) - n| ≤ |t * d - n| ∧
      (|((roundDiv n d : Nat) * d : Int) - n| = |t * d - n| → t = (roundDiv n d : Nat) ∨ roundDiv n d % 2 = 0) := by
  have hm : n % d < d := Nat.mod_lt _ hd
  have hn : (n : Int) = (n / d : Nat) * d + (n % d : Nat) := by
    have := Nat.div_add_mod n d
    conv_lhs => rw [← this]
    push_cast; ring
  generalize hq : n / d = q at *
  generalize hr : n % d = r at *
  obtain ⟨k, rfl⟩ : ∃ k : Int, t = q + k := ⟨t - q, by ring⟩
  have e1 : ((q : Int) + k) * d - n = k * d - r := by rw [hn]; ring
  have hk : (k ≤ -1 ∧ k * d ≤ -d) ∨ (k = 0) ∨ (k = 1) ∨ (2 ≤ k ∧ 2 * (d : Int) ≤ k * d) := by
    rcases lt_trichotomy k 0 with h | h | h
    · left; exact ⟨by omega, by nlinarith⟩
    · right; left; exact h
    · rcases Int.lt_or_le k 2 with h2 | h2
      · right; right; left; omega
      · right; right; right; exact ⟨h2, by nlinarith⟩
  have key : ∀ R : Nat, (R = q ∧ 2 * r ≤ d ∧ (2 * r = d → R % 2 = 0) ∨ R = q + 1 ∧ d ≤ 2 * r ∧ (2 * r = d → R % 2 = 0)) →
      |(R * d : Int) - n| ≤ |k * d - r| ∧ (|(R * d : Int) - n| = |k * d - r| → (q : Int) + k = R ∨ R % 2 = 0) := by
    rintro R (⟨rfl, h, h'⟩ | ⟨rfl, h, h'⟩)
    · have e : (R * d : Int) - n = -r := by rw [hn]; ring
      rw [e]
      rcases hk with ⟨h1, h2⟩ | rfl | rfl | ⟨h1, h2⟩
      · rw [abs_of_nonpos (by omega : -(r : Int) ≤ 0), abs_of_nonpos (by omega : k * d - r ≤ 0)]
        exact ⟨by omega, fun _ => by omega⟩
      · simp
      · rw [abs_of_nonpos (by omega : -(r : Int) ≤ 0), abs_of_nonneg (by omega : 0 ≤ 1 * (d : Int) - r)]
        exact ⟨by omega, fun _ => .inr (h' (by omega))⟩
      · rw [abs_of_nonpos (by omega : -(r : Int) ≤ 0), abs_of_nonneg (by omega : 0 ≤ k * (d : Int) - r)]
        exact ⟨by omega, fun _ => by omega⟩
    · have e : (((q + 1 : Nat) : Int) * d : Int) - n = d - r := by rw [hn]; push_cast; ring
      rw [e, abs_of_nonneg (by omega : 0 ≤ (d : Int) - r)]
      rcases hk with ⟨h1, h2⟩ | rfl | rfl | ⟨h1, h2⟩
      · rw [abs_of_nonpos (by omega : k * d - r ≤ 0)]
        exact ⟨by omega, fun _ => by omega⟩
      · rw [abs_of_nonpos (by omega : 0 * (d : Int) - r ≤ 0)]
        exact ⟨by omega, fun _ => .inr (h' (by omega))⟩
      · rw [abs_of_nonneg (by omega : 0 ≤ 1 * (d : Int) - r)]
        exact ⟨by omega, fun _ => .inl (by push_cast; ring)⟩
      · rw [abs_of_nonneg (by omega : 0 ≤ k * (d : Int) - r)]
        exact ⟨by omega, fun _ => by omega⟩
  rw [e1]
  apply key
  unfold roundDiv
  rw [hq, hr]
  split
  · left; exact ⟨rfl, by omega, by omega⟩
  · split
    · right; exact ⟨rfl, by omega, by omega⟩
    · split
      · left; exact ⟨rfl, by omega, fun _ => by assumption⟩
      · right; exact ⟨rfl, by omega, by omega⟩

/-- Half way or nearer to the next magnitude on either side: that is the nearest. -/
theorem nearestTo_of_between {n d b : Nat} (hd : 0 < d) (hb : b ≤ F.inf)
    (h1 : (2 * n : Int) ≤ (2 * F.units b + F.gap b) * d ∧ ((2 * n : Int) = (2 * F.units b + F.gap b) * d → b % 2 = 0))
    (h2 : b ≠ 0 → (2 * F.units b - F.gap (b - 1) : Int) * d ≤ 2 * n ∧
      ((2 * F.units b - F.gap (b - 1) : Int) * d = 2 * n → b % 2 = 0)) : F.NearestTo n d b := by
  refine ⟨hb, fun b' hb' => ?_⟩
  have hg := gap_pos (F := F) b
  rcases lt_trichotomy b' b with h | h | h
  · obtain ⟨c, rfl⟩ : ∃ c, b = c + 1 := ⟨b - 1, by omega⟩
    have hc : F.units b' ≤ F.units c := units_strictMono.monotone (by omega)
    have hs := units_succ (F := F) c
    have hgc := gap_pos (F := F) c
    obtain ⟨h2, h3⟩ := h2 (by omega)
    simp only [Nat.add_sub_cancel] at h2 h3
    have hc' : (F.units b' : Int) * d ≤ F.units c * d := by
      exact_mod_cast Nat.mul_le_mul_right d hc
    have hgc' : (0 : Int) < F.gap c * d := by exact_mod_cast Nat.mul_pos hgc hd
    have hs' : (F.units (c + 1) : Int) * d = F.units c * d + F.gap c * d := by rw [hs]; push_cast; ring
    have e : (2 * F.units (c + 1) - F.gap c : Int) * d = 2 * (F.units c * d) + F.gap c * d := by
      rw [sub_mul, mul_assoc, hs']; ring
    rw [e] at h2 h3
    rw [hs', abs_of_nonpos (by omega : (F.units b' : Int) * d - n ≤ 0)]
    have h4 : |(F.units c : Int) * d + F.gap c * d - n| ≤ n - F.units c * d := abs_le.2 ⟨by omega, by omega⟩
    refine ⟨by omega, fun he => .inr (h3 ?_)⟩
    rcases abs_cases ((F.units c : Int) * d + F.gap c * d - n) with ⟨h5, h6⟩ | ⟨h5, h6⟩ <;> omega
  · subst h; exact ⟨le_refl _, fun _ => .inl rfl⟩
  · have hc : F.units (b + 1) ≤ F.units b' := units_strictMono.monotone (by omega)
    have hs := units_succ (F := F) b
    have hc' : (F.units b : Int) * d + F.gap b * d ≤ F.units b' * d := by
      rw [hs] at hc
      have := Nat.mul_le_mul_right d hc
      rw [Nat.add_mul] at this
      exact_mod_cast this
    have hgc' : (0 : Int) < F.gap b * d := by exact_mod_cast Nat.mul_pos hg hd
    have e : (2 * F.units b + F.gap b : Int) * d = 2 * (F.units b * d) + F.gap b * d := by ring
    rw [e] at h1
    rw [abs_of_nonneg (by omega : 0 ≤ (F.units b' : Int) * d - n)]
    have h4 : |(F.units b : Int) * d - n| ≤ F.units b * d + F.gap b * d - n := abs_le.2 ⟨?_, by omega⟩
    · refine ⟨by omega, fun he => .inr (h1.2 ?_)⟩
      rcases abs_cases ((F.units b : Int) * d - n) with ⟨h5, h6⟩ | ⟨h5, h6⟩ <;> omega
    · omega

theorem nearestTo_unique {n d b c : Nat} (hd : 0 < d) (h1 : F.NearestTo n d b) (h2 : F.NearestTo n d c) : b = c := by
  by_contra hne
  have key : ∀ b c : Nat, F.NearestTo n d b → F.NearestTo n d c → b < c → False := by
    intro b c h1 h2 hlt
    have e := le_antisymm (h1.2 c h2.1).1 (h2.2 b h1.1).1
    have hb := (h1.2 c h2.1).2 e
    have hc := (h2.2 b h1.1).2 e.symm
    have hb' : b + 1 < c := by omega
    have u1 : F.units b < F.units (b + 1) := units_strictMono (by omega)
    have u2 : F.units (b + 1) < F.units c := units_strictMono hb'
    have u1' : (F.units b : Int) * d < F.units (b + 1) * d := by exact_mod_cast Nat.mul_lt_mul_of_pos_right u1 hd
    have u2' : (F.units (b + 1) : Int) * d < F.units c * d := by exact_mod_cast Nat.mul_lt_mul_of_pos_right u2 hd
    have hm := (h1.2 (b + 1) (by have := h2.1; omega)).1
    rcases abs_cases ((F.units b : Int) * d - n) with ⟨h5, h6⟩ | ⟨h5, h6⟩ <;>
      rcases abs_cases ((F.units c : Int) * d - n) with ⟨h7, h8⟩ | ⟨h7, h8⟩ <;>
      rcases abs_cases ((F.units (b + 1) : Int) * d - n) with ⟨h9, h10⟩ | ⟨h9, h10⟩ <;> omega
  rcases Nat.lt_or_gt_of_ne hne with h | h
  · exact key b c h1 h2 h
  · exact key c b h2 h1 h

/-- What `s` is in `roundUnits` -/
theorem shift_spec (q mb : Nat) : ∀ s, s = (if q < 2 ^ (mb + 1) then 0 else q.log2 - mb) →
    q < 2 ^ (s + mb + 1) ∧ (s = 0 ∨ 2 ^ (s + mb) ≤ q) := by
  rintro s rfl
  split
  · next h => exact ⟨by simpa using h, .inl rfl⟩
  · next h =>
    have hq : q ≠ 0 := by rintro rfl; exact h (two_pow_pos' _)
    have h1 : mb + 1 ≤ q.log2 := (Nat.le_log2 hq).2 (by omega)
    rw [show q.log2 - mb + mb = q.log2 by omega]
    exact ⟨Nat.lt_log2_self, .inr (Nat.log2_self_le hq)⟩

theorem roundUnits_nearest (hmb : 0 < F.mb) {n d : Nat} (hd : 0 < d) : F.NearestTo n d (F.roundUnits n d) := by
  unfold roundUnits
  generalize hs : (if n / d < 2 ^ (F.mb + 1) then 0 else (n / d).log2 - F.mb) = s
  obtain ⟨hs1, hs2⟩ := shift_spec (n / d) F.mb s hs.symm
  simp only
  have hp := two_pow_pos' s
  have hW : 0 < d * 2 ^ s := Nat.mul_pos hd hp
  have hx1 : n < 2 ^ (F.mb + 1) * (d * 2 ^ s) := by
    have := (Nat.div_lt_iff_lt_mul hd).1 hs1
    calc n < 2 ^ (s + F.mb + 1) * d := this
      _ = _ := by ring
  have hx2 : s = 0 ∨ 2 ^ F.mb * (d * 2 ^ s) ≤ n := by
    rcases hs2 with h | h
    · exact .inl h
    · right
      have := (Nat.le_div_iff_mul_le hd).1 h
      calc 2 ^ F.mb * (d * 2 ^ s) = 2 ^ (s + F.mb) * d := by ring
        _ ≤ n := this
  have hr := roundDiv_spec (n := n) hW
  generalize hR : roundDiv n (d * 2 ^ s) = r at hr
  -- the mantissa is in its range
  have hr1 : r ≤ 2 ^ (F.mb + 1) := by
    by_contra hc
    have h := (hr (2 ^ (F.mb + 1) : Nat)).1
    have h3 : (2 ^ (F.mb + 1) + 1) * (d * 2 ^ s) ≤ r * (d * 2 ^ s) := Nat.mul_le_mul_right _ (by omega)
    rw [Nat.add_mul] at h3
    have h3' : ((2 ^ (F.mb + 1) : Nat) : Int) * (d * 2 ^ s : Nat) + (d * 2 ^ s : Nat) ≤ r * (d * 2 ^ s : Nat) := by
      exact_mod_cast (by simpa using h3)
    have hx1' : (n : Int) < (2 ^ (F.mb + 1) : Nat) * (d * 2 ^ s : Nat) := by exact_mod_cast hx1
    rw [abs_of_nonneg (by omega), abs_of_nonneg (by omega)] at h
    omega
  have hr2 : s = 0 ∨ 2 ^ F.mb ≤ r := by
    rcases hx2 with h | h
    · exact .inl h
    · right
      by_contra hc
      have h' := (hr (2 ^ F.mb : Nat)).1
      have h3 : (r + 1) * (d * 2 ^ s) ≤ 2 ^ F.mb * (d * 2 ^ s) := Nat.mul_le_mul_right _ (by omega)
      rw [Nat.add_mul] at h3
      have h3' : (r : Int) * (d * 2 ^ s : Nat) + (d * 2 ^ s : Nat) ≤ (2 ^ F.mb : Nat) * (d * 2 ^ s : Nat) := by
        exact_mod_cast (by simpa using h3)
      have hx2' : ((2 ^ F.mb : Nat) : Int) * (d * 2 ^ s : Nat) ≤ n := by exact_mod_cast h
      rw [abs_of_nonpos (by omega), abs_of_nonpos (by omega)] at h'
      omega
  have hu := units_eq (F := F) hr1 hr2
  have hpar : (s * 2 ^ F.mb + r) % 2 = r % 2 := by
    obtain ⟨m, hm⟩ : ∃ m, F.mb = m + 1 := ⟨F.mb - 1, by omega⟩
    rw [hm, show s * 2 ^ (m + 1) + r = r + 2 * (s * 2 ^ m) by ring, Nat.add_mul_mod_self_left]
  -- nearest among all magnitudes, also beyond infinity
  have all : ∀ b', |(F.units (s * 2 ^ F.mb + r) * d : Int) - n| ≤ |(F.units b' * d : Int) - n| ∧
      (|(F.units (s * 2 ^ F.mb + r) * d : Int) - n| = |(F.units b' * d : Int) - n| →
        b' = s * 2 ^ F.mb + r ∨ (s * 2 ^ F.mb + r) % 2 = 0) := by
    intro b'
    have e1 : (F.units (s * 2 ^ F.mb + r) * d : Int) = r * (d * 2 ^ s : Nat) := by rw [hu]; push_cast; ring
    rw [e1, hpar]
    by_cases hlow : s ≠ 0 ∧ b' < s * 2 ^ F.mb + 2 ^ F.mb
    · have hb := units_strictMono (F := F) hlow.2
      rw [units_eq (Nat.pow_le_pow_right (by omega) (by omega)) (.inr (le_refl _))] at hb
      have hb' : (F.units b' * d : Int) < (2 ^ F.mb : Nat) * (d * 2 ^ s : Nat) := by
        have := Nat.mul_lt_mul_of_pos_right hb hd
        calc (F.units b' * d : Int) < ((2 ^ F.mb * 2 ^ s : Nat) : Int) * d := by exact_mod_cast this
          _ = _ := by push_cast; ring
      have h := (hr (2 ^ F.mb : Nat)).1
      have hx2' : ((2 ^ F.mb : Nat) : Int) * (d * 2 ^ s : Nat) ≤ n := by
        rcases hx2 with h | h
        · exact absurd h hlow.1
        · exact_mod_cast h
      rw [abs_of_nonpos (by omega : ((2 ^ F.mb : Nat) : Int) * (d * 2 ^ s : Nat) - n ≤ 0)] at h
      rw [abs_of_nonpos (by omega : (F.units b' * d : Int) - n ≤ 0)]
      exact ⟨by omega, fun he => by omega⟩
    · -- a multiple of the step
      obtain ⟨s', r', e, f1, f2, f3, -⟩ := magnitude_form (F := F) b'
      have hss : s ≤ s' := by
        by_contra hc
        apply hlow
        refine ⟨by omega, ?_⟩
        have e2 : 2 ^ (F.mb + 1) = 2 * 2 ^ F.mb := by ring
        have : (s' + 1) * 2 ^ F.mb ≤ s * 2 ^ F.mb := Nat.mul_le_mul_right _ (by omega)
        rw [Nat.add_mul] at this
        omega
      obtain ⟨j, rfl⟩ : ∃ j, s' = s + j := ⟨s' - s, by omega⟩
      have h := hr ((r' * 2 ^ j : Nat) : Int)
      have e3 : (F.units b' * d : Int) = ((r' * 2 ^ j : Nat) : Int) * (d * 2 ^ s : Nat) := by
        rw [f3]; push_cast; ring
      rw [e3]
      refine ⟨h.1, fun he => ?_⟩
      rcases h.2 he with h | h
      · left
        have h : r' * 2 ^ j = r := by exact_mod_cast h
        apply units_strictMono.injective (β := Nat) (f := F.units)
        rw [f3, hu, ← h]; ring
      · exact .inr h
  by_cases hc : s * 2 ^ F.mb + r ≤ F.inf
  · rw [min_eq_left hc]
    exact ⟨hc, fun b' _ => all b'⟩
  · rw [min_eq_right (by omega)]
    have hlt : F.units F.inf < F.units (s * 2 ^ F.mb + r) := units_strictMono (by omega)
    have hlt' : (F.units F.inf * d : Int) < F.units (s * 2 ^ F.mb + r) * d := by
      exact_mod_cast Nat.mul_lt_mul_of_pos_right hlt hd
    have h := (all F.inf).1
    have hn : (F.units F.inf * d : Int) < n := by
      rcases abs_cases ((F.units F.inf * d : Int) - n) with ⟨h5, h6⟩ | ⟨h5, h6⟩
      · rw [abs_of_nonneg (by omega)] at h; omega
      · omega
    refine ⟨le_refl _, fun b' hb' => ?_⟩
    rcases Nat.lt_or_eq_of_le hb' with hb' | rfl
    · have hlt2 : F.units b' < F.units F.inf := units_strictMono hb'
      have hlt2' : (F.units b' * d : Int) < F.units F.inf * d := by
        exact_mod_cast Nat.mul_lt_mul_of_pos_right hlt2 hd
      rw [abs_of_nonpos (by omega), abs_of_nonpos (by omega)]
      exact ⟨by omega, fun _ => by omega⟩
    · exact ⟨le_refl _, fun _ => .inl rfl⟩

theorem roundUnits_eq (hmb : 0 < F.mb) {n d b : Nat} (hd : 0 < d) (h : F.NearestTo n d b) : F.roundUnits n d = b :=
  nearestTo_unique hd (roundUnits_nearest hmb hd) h

end Sdp.FloatFormat
