import Verif.Lemmas.Float
import Mathlib.Algebra.Order.Ring.Abs
/-!
# The shortest digits of a float
-/

namespace Sdp

theorem searchFrom_spec {p : Nat → Bool} {fuel i m : Nat} (h1 : i ≤ m) (h2 : m ≤ i + fuel) (hp : p m = true) :
    p (searchFrom p fuel i) = true ∧ i ≤ searchFrom p fuel i ∧ ∀ j, i ≤ j → j < searchFrom p fuel i → p j = false := by
  induction fuel generalizing i with
  | zero =>
    obtain rfl : m = i := by omega
    exact ⟨hp, le_refl _, fun j h h' => by simp only [searchFrom] at h'; omega⟩
  | succ fuel ih =>
    simp only [searchFrom]
    split
    · next h => exact ⟨h, le_refl _, fun j h h' => by omega⟩
    · next h =>
      have hne : m ≠ i := by rintro rfl; exact h hp
      obtain ⟨a, b, c⟩ := ih (i := i + 1) (by omega) (by omega)
      refine ⟨a, by omega, fun j h1 h2 => ?_⟩
      rcases Nat.eq_or_lt_of_le h1 with rfl | h1
      · simpa using h
      · exact c j h1 h2

theorem reaches_mono {i : Bool} {a b x y : Nat} (h : reaches i a x = true) (h1 : b ≤ a) (h2 : x ≤ y) : reaches i b y = true := by
  cases i <;> simp [reaches] at * <;> omega

theorem le_of_reaches {i : Bool} {a x : Nat} (h : reaches i a x = true) : a ≤ x := by
  cases i <;> simp [reaches] at h <;> omega

theorem le_of_not_reaches {i : Bool} {a x : Nat} (h : reaches i a x = false) : x ≤ a := by
  cases i <;> simp [reaches] at h <;> omega

theorem reaches_of_lt {i : Bool} {a x : Nat} (h : a < x) : reaches i a x = true := by
  cases i <;> simp [reaches] <;> omega

theorem reaches_mul {i : Bool} {a x c : Nat} (hc : 0 < c) : reaches i (a * c) (x * c) = reaches i a x := by
  cases i
  · simp [reaches, Nat.mul_lt_mul_right hc]
  · simp [reaches, Nat.mul_le_mul_right_iff hc]

theorem lt_ten_pow (n : Nat) : n < 10 ^ (n.log2 + 1) :=
  lt_of_lt_of_le Nat.lt_log2_self (Nat.pow_le_pow_left (by omega) _)

/-- What the digit search gives for `mant` in multiples of `1 / one`, where a text may be `minus` below and
`plus` above: `digits · 10^up · one` against the bounds times `10^(down + n)`. -/
structure DigitsOk (inclusive : Bool) (mant minus plus one up down n digits : Nat) : Prop where
  zero : up = 0 ∨ down = 0
  /-- the bound is below `10^(up-down)` … -/
  below : reaches inclusive (one * 10 ^ up) ((mant + plus) * 10 ^ down) = false
  /-- … and reaches a tenth of it -/
  above : reaches inclusive (one * 10 ^ up) ((mant + plus) * 10 ^ (down + 1)) = true
  least : down = 0 ∨ reaches inclusive one ((mant + plus) * 10 ^ down) = false
  pos : 1 ≤ n
  /-- no smaller number of digits stops -/
  first : ∀ m, 1 ≤ m → m < n →
    reaches inclusive (mant * 10 ^ down * 10 ^ m % (one * 10 ^ up)) (minus * 10 ^ down * 10 ^ m) = false ∧
    reaches inclusive (one * 10 ^ up) (mant * 10 ^ down * 10 ^ m % (one * 10 ^ up) + plus * 10 ^ down * 10 ^ m) = false
  result :
    (digits = mant * 10 ^ down * 10 ^ n / (one * 10 ^ up) ∧
      reaches inclusive (mant * 10 ^ down * 10 ^ n % (one * 10 ^ up)) (minus * 10 ^ down * 10 ^ n) = true ∧
      (reaches inclusive (one * 10 ^ up) (mant * 10 ^ down * 10 ^ n % (one * 10 ^ up) + plus * 10 ^ down * 10 ^ n) = true →
        2 * (mant * 10 ^ down * 10 ^ n % (one * 10 ^ up)) < one * 10 ^ up)) ∨
    (digits = mant * 10 ^ down * 10 ^ n / (one * 10 ^ up) + 1 ∧
      reaches inclusive (one * 10 ^ up) (mant * 10 ^ down * 10 ^ n % (one * 10 ^ up) + plus * 10 ^ down * 10 ^ n) = true ∧
      (reaches inclusive (mant * 10 ^ down * 10 ^ n % (one * 10 ^ up)) (minus * 10 ^ down * 10 ^ n) = true →
        one * 10 ^ up ≤ 2 * (mant * 10 ^ down * 10 ^ n % (one * 10 ^ up))))

theorem FloatFormat.shortest_digits (F : FloatFormat) (b : Nat) (hmant : 0 < (F.decode b).mant) (hminus : 0 < (F.decode b).minus) :
    ∃ up down n digits : Nat, F.shortest b = ⟨digits, n, (up : Int) - down⟩ ∧
      DigitsOk (F.decode b).inclusive (F.decode b).mant (F.decode b).minus (F.decode b).plus (2 ^ (F.scaleBits + 2))
        up down n digits := by
  unfold FloatFormat.shortest
  generalize F.decode b = d at *
  obtain ⟨mant, minus, plus, inclusive⟩ := d
  simp only at *
  have hone : 0 < 2 ^ (F.scaleBits + 2) := FloatFormat.two_pow_pos' _
  generalize 2 ^ (F.scaleBits + 2) = one at *
  generalize hup : searchFrom (fun j => !reaches inclusive (one * 10 ^ j) (mant + plus)) ((mant + plus).log2 + 1) 0 = up
  have hup' : reaches inclusive (one * 10 ^ up) (mant + plus) = false ∧
      ∀ j < up, reaches inclusive (one * 10 ^ j) (mant + plus) = true := by
    have h := searchFrom_spec (p := fun j => !reaches inclusive (one * 10 ^ j) (mant + plus)) (fuel := (mant + plus).log2 + 1)
      (i := 0) (m := (mant + plus).log2 + 1) (by omega) (by omega) (by
        have h1 := lt_ten_pow (mant + plus)
        have h2 : 10 ^ ((mant + plus).log2 + 1) ≤ one * 10 ^ ((mant + plus).log2 + 1) := Nat.le_mul_of_pos_left _ hone
        cases inclusive <;> simp [reaches] <;> omega)
    rw [hup] at h
    exact ⟨by simpa using h.1, fun j hj => by simpa using h.2.2 j (by omega) hj⟩
  generalize hdown : (if up = 0 then searchFrom (fun j => reaches inclusive one ((mant + plus) * 10 ^ (j + 1))) (one.log2 + 1) 0
    else 0) = down
  have hdown' : (up = 0 ∨ down = 0) ∧ reaches inclusive (one * 10 ^ up) ((mant + plus) * 10 ^ down) = false ∧
      reaches inclusive (one * 10 ^ up) ((mant + plus) * 10 ^ (down + 1)) = true ∧
      (down = 0 ∨ reaches inclusive one ((mant + plus) * 10 ^ down) = false) := by
    by_cases h0 : up = 0
    · rw [if_pos h0] at hdown
      subst h0
      have h := searchFrom_spec (p := fun j => reaches inclusive one ((mant + plus) * 10 ^ (j + 1))) (fuel := one.log2 + 1)
        (i := 0) (m := one.log2 + 1) (by omega) (by omega) (by
          have h1 := lt_ten_pow one
          have h2 : 10 ^ (one.log2 + 1) ≤ 10 ^ (one.log2 + 1 + 1) := Nat.pow_le_pow_right (by omega) (by omega)
          have h3 : 10 ^ (one.log2 + 1 + 1) ≤ (mant + plus) * 10 ^ (one.log2 + 1 + 1) := Nat.le_mul_of_pos_left _ (by omega)
          exact reaches_of_lt (by omega))
      rw [hdown] at h
      have hlast : down = 0 ∨ reaches inclusive one ((mant + plus) * 10 ^ down) = false := by
        rcases Nat.eq_zero_or_pos down with h' | h'
        · exact .inl h'
        · right
          have := h.2.2 (down - 1) (by omega) (by omega)
          rwa [show down - 1 + 1 = down by omega] at this
      refine ⟨.inl rfl, ?_, by simpa using h.1, hlast⟩
      rcases hlast with h' | h'
      · subst h'; simpa using hup'.1
      · simpa using h'
    · rw [if_neg h0] at hdown
      subst hdown
      refine ⟨.inr rfl, by simpa using hup'.1, ?_, .inl rfl⟩
      have h := hup'.2 (up - 1) (by omega)
      have e : one * 10 ^ up = one * 10 ^ (up - 1) * 10 := by
        rw [Nat.mul_assoc, ← Nat.pow_succ]; congr; omega
      rw [e, show (mant + plus) * 10 ^ (0 + 1) = (mant + plus) * 10 by ring, reaches_mul (by omega)]
      exact h
  have hscale : 0 < one * 10 ^ up := Nat.mul_pos hone (Nat.pos_of_ne_zero (by simp))
  generalize hn : searchFrom (fun n =>
      reaches inclusive (mant * 10 ^ down * 10 ^ n % (one * 10 ^ up)) (minus * 10 ^ down * 10 ^ n) ||
      reaches inclusive (one * 10 ^ up) (mant * 10 ^ down * 10 ^ n % (one * 10 ^ up) + plus * 10 ^ down * 10 ^ n))
      ((one * 10 ^ up).log2 + 1) 1 = n
  have hn' := searchFrom_spec (p := fun n =>
      reaches inclusive (mant * 10 ^ down * 10 ^ n % (one * 10 ^ up)) (minus * 10 ^ down * 10 ^ n) ||
      reaches inclusive (one * 10 ^ up) (mant * 10 ^ down * 10 ^ n % (one * 10 ^ up) + plus * 10 ^ down * 10 ^ n))
      (fuel := (one * 10 ^ up).log2 + 1) (i := 1) (m := (one * 10 ^ up).log2 + 1) (by omega) (by omega) (by
        have h1 := lt_ten_pow (one * 10 ^ up)
        have h2 : 10 ^ ((one * 10 ^ up).log2 + 1) ≤ minus * 10 ^ down * 10 ^ ((one * 10 ^ up).log2 + 1) :=
          Nat.le_mul_of_pos_left _ (Nat.mul_pos hminus (Nat.pos_of_ne_zero (by simp)))
        have h3 := Nat.mod_lt (mant * 10 ^ down * 10 ^ ((one * 10 ^ up).log2 + 1)) hscale
        simp only [Bool.or_eq_true]
        left
        exact reaches_of_lt (by omega))
  rw [hn] at hn'
  refine ⟨up, down, n, _, rfl, hdown'.1, hdown'.2.1, hdown'.2.2.1, hdown'.2.2.2, hn'.2.1, ?_, ?_⟩
  · intro m h1 h2
    simpa using hn'.2.2 m h1 h2
  · have h := hn'.1
    simp only [Bool.or_eq_true] at h
    split
    · next hr =>
      simp only [Bool.and_eq_true, Bool.or_eq_true, Bool.not_eq_true', decide_eq_true_eq] at hr
      right
      refine ⟨rfl, hr.1, fun hd => ?_⟩
      rcases hr.2 with h' | h'
      · rw [hd] at h'; simp at h'
      · exact h'
    · next hr =>
      simp only [Bool.and_eq_true, Bool.or_eq_true, Bool.not_eq_true', decide_eq_true_eq, not_and, not_or, not_le] at hr
      left
      refine ⟨rfl, ?_, fun hu => (hr hu).2⟩
      rcases h with h | h
      · exact h
      · simpa using (hr h).1

namespace DigitsOk
variable {inclusive : Bool} {mant minus plus one up down n digits : Nat}

theorem low (h : DigitsOk inclusive mant minus plus one up down n digits) (hone : 0 < one) :
    reaches inclusive (mant * 10 ^ down * 10 ^ n) (digits * (one * 10 ^ up) + minus * 10 ^ down * 10 ^ n) = true := by
  have hQ : 0 < one * 10 ^ up := Nat.mul_pos hone (Nat.pos_of_ne_zero (by simp))
  have hd := Nat.div_add_mod (mant * 10 ^ down * 10 ^ n) (one * 10 ^ up)
  have hm := Nat.mod_lt (mant * 10 ^ down * 10 ^ n) hQ
  have hr := h.result
  rw [Nat.mul_comm] at hd
  rcases hr with ⟨rfl, h1, -⟩ | ⟨rfl, h1, -⟩
  · cases inclusive <;> simp [reaches] at h1 ⊢ <;> omega
  · apply reaches_of_lt
    rw [Nat.add_mul]
    omega

theorem high (h : DigitsOk inclusive mant minus plus one up down n digits) (hone : 0 < one) (hp : 0 < plus) :
    reaches inclusive (digits * (one * 10 ^ up)) ((mant + plus) * 10 ^ down * 10 ^ n) = true := by
  have hQ : 0 < one * 10 ^ up := Nat.mul_pos hone (Nat.pos_of_ne_zero (by simp))
  have hP : 0 < plus * 10 ^ down * 10 ^ n :=
    Nat.mul_pos (Nat.mul_pos hp (Nat.pos_of_ne_zero (by simp))) (Nat.pos_of_ne_zero (by simp))
  have hd := Nat.div_add_mod (mant * 10 ^ down * 10 ^ n) (one * 10 ^ up)
  have hm := Nat.mod_lt (mant * 10 ^ down * 10 ^ n) hQ
  have hr := h.result
  have e : (mant + plus) * 10 ^ down * 10 ^ n = mant * 10 ^ down * 10 ^ n + plus * 10 ^ down * 10 ^ n := by ring
  rw [Nat.mul_comm] at hd
  rw [e]
  rcases hr with ⟨rfl, h1, -⟩ | ⟨rfl, h1, -⟩
  · exact reaches_of_lt (by omega)
  · rw [Nat.add_mul]
    cases inclusive <;> simp [reaches] at h1 ⊢ <;> omega

theorem digits_lt (h : DigitsOk inclusive mant minus plus one up down n digits) (hone : 0 < one) (hp : 0 < plus) :
    digits < 10 ^ n := by
  by_contra hc
  have h1 := h.high hone hp
  have h2 : 10 ^ n * (one * 10 ^ up) ≤ digits * (one * 10 ^ up) := Nat.mul_le_mul_right _ (by omega)
  have h3 := reaches_mono h1 h2 (le_refl _)
  rw [Nat.mul_comm, reaches_mul (Nat.pos_of_ne_zero (by simp)), h.below] at h3
  simp at h3

end DigitsOk

namespace FloatFormat
variable {F : FloatFormat}

/-- Formats with a mantissa and more than one binade -/
structure Proper (F : FloatFormat) : Prop where
  mb : 0 < F.mb
  eb : 3 ≤ F.eb

theorem single_proper : single.Proper := ⟨by decide, by decide⟩
theorem double_proper : double.Proper := ⟨by decide, by decide⟩

theorem Proper.scaleBits (h : F.Proper) : F.mb + 2 ≤ F.scaleBits := by
  have := h.eb
  have h2 : 2 ^ 2 ≤ 2 ^ (F.eb - 1) := Nat.pow_le_pow_right (by omega) (by omega)
  unfold FloatFormat.scaleBits; omega

/-- The bounds `decode` gives are half way to the neighbours or less. -/
structure DecodeOk (F : FloatFormat) (b : Nat) : Prop where
  mant : (F.decode b).mant = 4 * F.units b
  plus : (F.decode b).plus = 2 * F.gap b
  minus : (F.decode b).minus ≤ 2 * F.gap (b - 1)
  minusPos : 0 < (F.decode b).minus
  inclusive : (F.decode b).inclusive = true → b % 2 = 0 ∨ b < 2 ^ F.mb
  exclusive : (F.decode b).inclusive = false → b % 2 = 1
  tight : b ≠ 2 ^ F.mb → (F.decode b).minus = 2 * F.gap (b - 1)

theorem even_pow_mul {m e : Nat} (h : 0 < m) : (e * 2 ^ m) % 2 = 0 := by
  obtain ⟨k, rfl⟩ : ∃ k, m = k + 1 := ⟨m - 1, by omega⟩
  rw [show e * 2 ^ (k + 1) = 2 * (e * 2 ^ k) by ring]
  simp

theorem decode_ok (hF : F.Proper) {b : Nat} (hb : 0 < b) : F.DecodeOk b := by
  have hp := two_pow_pos' F.mb
  have hm : b % 2 ^ F.mb < 2 ^ F.mb := Nat.mod_lt _ hp
  have hd : 2 ^ F.mb * (b / 2 ^ F.mb) + b % 2 ^ F.mb = b := Nat.div_add_mod b (2 ^ F.mb)
  by_cases h0 : b / 2 ^ F.mb = 0
  · have e : F.decode b = ⟨4 * F.units b, 2, 2, true⟩ := by unfold decode; rw [if_pos h0]
    have hlt : b < 2 ^ F.mb := by
      rcases Nat.div_eq_zero_iff.1 h0 with h | h
      · omega
      · exact h
    have hg : F.gap b = 1 := by simp [gap, h0]
    have hg' : F.gap (b - 1) = 1 := by simp [gap, Nat.div_eq_of_lt (by omega : b - 1 < 2 ^ F.mb)]
    constructor <;> simp only [e, hg, hg'] <;> simp
    exact .inr hlt
  · obtain ⟨c, hc⟩ := Nat.exists_eq_succ_of_ne_zero h0
    have hg : F.gap b = 2 ^ c := by simp [gap, hc]
    by_cases h1 : b % 2 ^ F.mb = 0
    · have e : F.decode b = ⟨4 * F.units b, 2 ^ c, 2 * 2 ^ c, true⟩ := by
        unfold decode; rw [if_neg h0, if_pos h1, hc]; simp
      have hbe : b = (c + 1) * 2 ^ F.mb := by rw [← hd, h1, hc, Nat.mul_comm]; simp
      have hb1 : (b - 1) / 2 ^ F.mb = c := by
        rw [hbe, Nat.add_mul, Nat.one_mul]
        rw [show c * 2 ^ F.mb + 2 ^ F.mb - 1 = (2 ^ F.mb - 1) + 2 ^ F.mb * c by rw [Nat.mul_comm]; omega,
          Nat.add_mul_div_left _ _ hp, Nat.div_eq_of_lt (by omega)]
        simp
      have hg' : F.gap (b - 1) = 2 ^ (c - 1) := by simp [gap, hb1]
      have h2 : 2 ^ c ≤ 2 * 2 ^ (c - 1) := by rw [← Nat.pow_succ']; exact Nat.pow_le_pow_right (by omega) (by omega)
      constructor <;> simp only [e, hg, hg']
      · exact h2
      · exact two_pow_pos' c
      · intro _; left; rw [hbe]; exact even_pow_mul hF.mb
      · simp
      · intro hne
        have : c ≠ 0 := by rintro rfl; apply hne; rw [hbe]; simp
        rw [← Nat.pow_succ']; congr 1; omega
    · have e : F.decode b = ⟨4 * F.units b, 2 * 2 ^ c, 2 * 2 ^ c, b % 2 == 0⟩ := by
        unfold decode; rw [if_neg h0, if_neg h1, hc]; simp
      have hb1 : (b - 1) / 2 ^ F.mb = c + 1 := by
        rw [← hd, hc, show 2 ^ F.mb * c.succ + b % 2 ^ F.mb - 1 = (b % 2 ^ F.mb - 1) + 2 ^ F.mb * c.succ by omega,
          Nat.add_mul_div_left _ _ hp, Nat.div_eq_of_lt (by omega)]
        simp
      have hg' : F.gap (b - 1) = 2 ^ c := by simp [gap, hb1]
      constructor <;> simp only [e, hg, hg']
      · exact le_refl _
      · have := two_pow_pos' c; omega
      · intro h; left; simpa using h
      · intro h; simp at h; omega
      · intro _; trivial

theorem pow_ten_lt {m k : Nat} (h : 10 ^ m < 2 ^ k) : 3 * m < k := by
  have h1 : 2 ^ (3 * m) ≤ 10 ^ m := by
    rw [Nat.pow_mul]; exact Nat.pow_le_pow_left (by omega) _
  exact (Nat.pow_lt_pow_iff_right (by omega)).1 (lt_of_le_of_lt h1 h)

/-- Half an odd multiple of the least positive number has many digits. -/
theorem not_half {r x u m : Nat} (hx : x % 2 = 1) (hm : m ≤ u) : r * 2 ^ (u + 1) ≠ x * 10 ^ m := by
  intro h
  obtain ⟨k, rfl⟩ : ∃ k, u = m + k := ⟨u - m, by omega⟩
  have e1 : r * 2 ^ (m + k + 1) = (2 * (r * 2 ^ k)) * 2 ^ m := by ring
  have e2 : x * 10 ^ m = (x * 5 ^ m) * 2 ^ m := by
    rw [show (10 : Nat) = 5 * 2 by rfl, Nat.mul_pow]; ring
  rw [e1, e2] at h
  have h2 := Nat.eq_of_mul_eq_mul_right (two_pow_pos' m) h
  have h3 : (x * 5 ^ m) % 2 = 1 := by
    rw [Nat.mul_mod, hx, Nat.pow_mod]; simp
  omega

/-- The digits of a subnormal number end long before half a unit does. -/
theorem subnormal_digits (hF : F.Proper) {b up down n digits : Nat} (hb : 0 < b) (hb' : b < 2 ^ F.mb)
    (h : DigitsOk (F.decode b).inclusive (F.decode b).mant (F.decode b).minus (F.decode b).plus (2 ^ (F.scaleBits + 2))
      up down n digits) : up = 0 ∧ down + n ≤ F.scaleBits := by
  have hs := hF.scaleBits
  have hmb := hF.mb
  have h0 : b / 2 ^ F.mb = 0 := Nat.div_eq_of_lt hb'
  have hu : F.units b = b := by unfold units; rw [if_pos h0, Nat.mod_eq_of_lt hb']
  have e : F.decode b = ⟨4 * b, 2, 2, true⟩ := by unfold decode; rw [if_pos h0, hu]
  rw [e] at h
  simp only at h
  have e4 : 2 ^ (F.scaleBits + 2) = 4 * 2 ^ F.scaleBits := by ring
  have hsm : 2 ^ F.mb ≤ 2 ^ F.scaleBits := Nat.pow_le_pow_right (by omega) (by omega)
  have hup : up = 0 := by
    rcases h.zero with h' | h'
    · exact h'
    · by_contra hne
      have ha := le_of_reaches h.above
      subst h'
      have h10 : 10 ≤ 10 ^ up := by
        calc 10 = 10 ^ 1 := by rfl
          _ ≤ 10 ^ up := Nat.pow_le_pow_right (by omega) (by omega)
      have : 2 ^ (F.scaleBits + 2) * 10 ≤ 2 ^ (F.scaleBits + 2) * 10 ^ up := Nat.mul_le_mul_left _ h10
      omega
  subst hup
  refine ⟨rfl, ?_⟩
  have hdown : 3 * down < F.scaleBits + 2 := by
    rcases h.least with h' | h'
    · omega
    · have := le_of_not_reaches h'
      simp only [reaches] at h'
      apply pow_ten_lt
      simp at h'
      have h1 : 10 ^ down ≤ (4 * b + 2) * 10 ^ down := Nat.le_mul_of_pos_left _ (by omega)
      omega
  rcases Nat.eq_or_lt_of_le h.pos with h1 | h1
  · omega
  · have hf := (h.first (n - 1) (by omega) (by omega)).1
    have hle := le_of_not_reaches hf
    have hmod := Nat.mod_lt (4 * b * 10 ^ down * 10 ^ (n - 1)) (by omega : 0 < 2 ^ (F.scaleBits + 2) * 10 ^ 0)
    have e5 : 2 * 10 ^ down * 10 ^ (n - 1) = 2 * 10 ^ (down + (n - 1)) := by rw [Nat.pow_add]; ring
    rw [e5] at hle
    have : 3 * (down + (n - 1)) < F.scaleBits + 2 := pow_ten_lt (by omega)
    omega

theorem shortest_nearest (hF : F.Proper) {b : Nat} (hb : 0 < b) (hi : b ≤ F.inf) :
    ∃ up down n digits : Nat, F.shortest b = ⟨digits, n, (up : Int) - down⟩ ∧
      DigitsOk (F.decode b).inclusive (F.decode b).mant (F.decode b).minus (F.decode b).plus (2 ^ (F.scaleBits + 2))
        up down n digits ∧ digits < 10 ^ n ∧
      F.NearestTo (digits * 2 ^ F.scaleBits * 10 ^ up) (10 ^ (down + n)) b := by
  have hd := decode_ok hF hb
  have hub : 0 < F.units b := by
    have := units_strictMono (F := F) hb
    rw [units_zero] at this; exact this
  have hg := gap_pos (F := F) b
  obtain ⟨up, down, n, digits, e, h⟩ := F.shortest_digits b (by rw [hd.mant]; omega) hd.minusPos
  have hone : 0 < 2 ^ (F.scaleBits + 2) := two_pow_pos' _
  have hplus : 0 < (F.decode b).plus := by rw [hd.plus]; omega
  refine ⟨up, down, n, digits, e, h, h.digits_lt hone hplus, ?_⟩
  have hlow := h.low hone
  have hhigh := h.high hone hplus
  rw [hd.mant] at hlow hhigh
  rw [hd.plus] at hhigh
  have hminus := hd.minus
  have sub : b < 2 ^ F.mb → up = 0 ∧ down + n ≤ F.scaleBits := fun h' => subnormal_digits hF hb h' h
  have incl : (F.decode b).inclusive = true → b % 2 = 0 ∨ b < 2 ^ F.mb := hd.inclusive
  generalize (F.decode b).inclusive = inclusive at *
  generalize (F.decode b).minus = minus at *
  have eT : 10 ^ down * 10 ^ n = 10 ^ (down + n) := (Nat.pow_add _ _ _).symm
  have hT : 0 < 10 ^ (down + n) := Nat.pos_of_ne_zero (by simp)
  have e1 : digits * (2 ^ (F.scaleBits + 2) * 10 ^ up) = 4 * (digits * 2 ^ F.scaleBits * 10 ^ up) := by ring
  rw [Nat.mul_assoc, Nat.mul_assoc minus, eT, e1] at hlow
  rw [Nat.mul_assoc, eT, e1] at hhigh
  have odd : ∀ x, x % 2 = 1 → b < 2 ^ F.mb → 2 * (digits * 2 ^ F.scaleBits * 10 ^ up) ≠ x * 10 ^ (down + n) := by
    intro x hx hb'
    obtain ⟨rfl, h2⟩ := sub hb'
    rw [show 2 * (digits * 2 ^ F.scaleBits * 10 ^ 0) = digits * 2 ^ (F.scaleBits + 1) by ring]
    exact not_half hx h2
  generalize hN : digits * 2 ^ F.scaleBits * 10 ^ up = N at *
  generalize hTT : 10 ^ (down + n) = T at *
  have gap1 : ∀ c, c < 2 ^ F.mb → F.gap c = 1 := by
    intro c hc; simp [gap, Nat.div_eq_of_lt hc]
  apply nearestTo_of_between hT hi
  · have hle := le_of_reaches hhigh
    have e2 : (4 * F.units b + 2 * F.gap b) * T = 2 * ((2 * F.units b + F.gap b) * T) := by ring
    rw [e2] at hle hhigh
    refine ⟨by exact_mod_cast (by omega : 2 * N ≤ (2 * F.units b + F.gap b) * T), fun heq => ?_⟩
    have heq : 2 * N = (2 * F.units b + F.gap b) * T := by exact_mod_cast heq
    cases inclusive with
    | false => simp [reaches] at hhigh; omega
    | true =>
      rcases incl rfl with h' | h'
      · exact h'
      · exfalso
        rw [gap1 b h'] at heq
        exact odd _ (by omega) h' heq
  · intro _
    have hle := le_of_reaches hlow
    have h4 : minus * T ≤ 2 * F.gap (b - 1) * T := Nat.mul_le_mul_right _ hminus
    have e3 : 4 * F.units b * T = 2 * (2 * F.units b * T) := by ring
    have e4 : 2 * F.gap (b - 1) * T = 2 * (F.gap (b - 1) * T) := by ring
    have e5 : (2 * F.units b - F.gap (b - 1) : Int) * T = (2 * F.units b * T : Nat) - (F.gap (b - 1) * T : Nat) := by
      push_cast; ring
    rw [e3] at hle hlow
    rw [e4] at h4
    rw [e5]
    refine ⟨by omega, fun heq => ?_⟩
    have heq : 2 * F.units b * T = 2 * N + F.gap (b - 1) * T := by omega
    cases inclusive with
    | false => simp [reaches] at hlow; omega
    | true =>
      rcases incl rfl with h' | h'
      · exact h'
      · exfalso
        rw [gap1 (b - 1) (by omega), Nat.one_mul] at heq
        apply odd (2 * F.units b - 1) (by omega) h'
        rw [Nat.sub_mul]; omega

theorem NearestTo.ratio {n d n' d' b : Nat} (h : F.NearestTo n d b) (hd : 0 < d) (hd' : 0 < d') (e : n * d' = n' * d) :
    F.NearestTo n' d' b := by
  have key : ∀ c : Nat, |(F.units c * d : Int) - n| * d' = |(F.units c * d' : Int) - n'| * d := by
    intro c
    have e' : (n : Int) * d' = n' * d := by exact_mod_cast e
    have a1 : |(d' : Int)| = d' := abs_of_nonneg (by omega)
    have a2 : |(d : Int)| = d := abs_of_nonneg (by omega)
    conv_lhs => rw [← a1, ← abs_mul]
    conv_rhs => rw [← a2, ← abs_mul]
    congr 1
    rw [sub_mul, sub_mul, e']; ring
  refine ⟨h.1, fun c hc => ?_⟩
  obtain ⟨h1, h2⟩ := h.2 c hc
  have k1 := key b
  have k2 := key c
  have hdI : (0 : Int) < d := by exact_mod_cast hd
  have hdI' : (0 : Int) < d' := by exact_mod_cast hd'
  constructor
  · have := mul_le_mul_of_nonneg_right h1 hdI'.le
    rw [k1, k2] at this
    exact le_of_mul_le_mul_right this hdI
  · intro heq
    apply h2
    have : |(F.units b * d : Int) - n| * d' = |(F.units c * d : Int) - n| * d' := by rw [k1, k2, heq]
    exact mul_right_cancel₀ hdI'.ne' this

end FloatFormat

end Sdp
