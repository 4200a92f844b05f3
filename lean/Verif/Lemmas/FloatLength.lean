import Verif.Lemmas.FloatText
import Verif.Lemmas.FloatShow
/-!
# How long the text of a float can be
-/

namespace Sdp

theorem reaches_le {i : Bool} {x y : Nat} (h : reaches i x y = true) : x ≤ y := by
  cases i <;> simp [reaches] at h <;> omega

theorem not_reaches_le {i : Bool} {x y : Nat} (h : reaches i x y = false) : y ≤ x := by
  cases i <;> simp [reaches] at h <;> omega

namespace DigitsOk
variable {i : Bool} {mant minus plus one up down n digits : Nat}

theorem digits_bound (h : DigitsOk i mant minus plus one up down n digits) (hp : 0 < plus) {K N : Nat}
    (hK : mant + plus ≤ K * plus) (hN : 10 * K < 10 ^ N) (h1 : 1 ≤ N) : n ≤ N := by
  by_contra hc
  have h2 := not_reaches_le (h.first (n - 1) (by omega) (by omega)).2
  have h3 := reaches_le h.above
  have h4 : plus * 10 ^ down * 10 ^ (n - 1) ≤ K * plus * 10 ^ (down + 1) :=
    (by omega : _ ≤ (mant + plus) * 10 ^ (down + 1)).trans (Nat.mul_le_mul_right _ hK)
  have h5 : 10 ^ N ≤ 10 ^ (n - 1) := Nat.pow_le_pow_right (by omega) (by omega)
  have h6 : (plus * 10 ^ down) * 10 ^ (n - 1) ≤ (plus * 10 ^ down) * (10 * K) := by
    calc _ ≤ _ := h4
      _ = _ := by ring
  have := Nat.le_of_mul_le_mul_left h6 (Nat.mul_pos hp (Nat.pos_of_ne_zero (by simp)))
  omega

theorem up_bound (h : DigitsOk i mant minus plus one up down n digits) (hone : 0 < one) {T U : Nat}
    (hT : mant + plus ≤ T * one) (hU : 10 * T < 10 ^ (U + 1)) : up ≤ U := by
  by_contra hc
  have hd : down = 0 := by rcases h.zero with h | h <;> omega
  subst hd
  have h3 := reaches_le h.above
  have h5 : 10 ^ (U + 1) ≤ 10 ^ up := Nat.pow_le_pow_right (by omega) (by omega)
  have h6 : one * 10 ^ up ≤ one * (10 * T) := by
    calc _ ≤ _ := h3
      _ ≤ T * one * 10 ^ (0 + 1) := Nat.mul_le_mul_right _ hT
      _ = _ := by ring
  have := Nat.le_of_mul_le_mul_left h6 hone
  omega

theorem down_bound (h : DigitsOk i mant minus plus one up down n digits) {D q : Nat} (hq : 0 < q)
    (hm : q ≤ mant) (hD : one < q * 10 ^ (D + 1)) : down ≤ D := by
  by_contra hc
  rcases h.least with h | h
  · omega
  · have h1 := not_reaches_le h
    have h5 : 10 ^ (D + 1) ≤ 10 ^ down := Nat.pow_le_pow_right (by omega) (by omega)
    have : q * 10 ^ (D + 1) ≤ (mant + plus) * 10 ^ down := Nat.mul_le_mul (by omega) h5
    omega

end DigitsOk

namespace FloatFormat
variable {F : FloatFormat}

theorem decimal_length {digits n up down : Nat} (h : 1 ≤ n) (hd : digits < 10 ^ n) (hz : up = 0 ∨ down = 0) :
    (decimalText ⟨digits, n, (up : Int) - down⟩).length ≤ n + up + down + 2 := by
  obtain ⟨hl, -⟩ := padded h hd
  unfold decimalText
  simp only
  split
  · simp only [List.length_append, List.length_replicate, hl]
    simp
    omega
  · split
    · simp only [List.length_append, List.length_replicate, hl]
      omega
    · simp only [List.length_append, List.length_take, List.length_drop, hl]
      simp
      omega

theorem text_length (hF : F.Proper) (hC : F.Checked) {N U D T : Nat} (h1 : 1 ≤ N)
    (hN : 10 * (2 ^ (F.mb + 2) + 1) < 10 ^ N)
    (hT : 4 * F.units F.inf ≤ T * 2 ^ (F.scaleBits + 2)) (hU : T < 10 ^ U) (hD : 2 ^ (F.scaleBits + 2) < 4 * 10 ^ (D + 1))
    (bits : Nat) : (F.text bits).length ≤ N + max U D + 3 := by
  unfold text
  simp only
  split
  · simp
  rename_i hi
  rw [List.length_append]
  have hs : (if F.signBit ≤ bits then c%"-" else []).length ≤ 1 := by split <;> simp
  generalize (if F.signBit ≤ bits then c%"-" else []).length = sg at hs ⊢
  split
  · have : (c%"inf").length = 3 := rfl
    omega
  rename_i hi'
  split
  · have : (c%"0").length = 1 := rfl
    omega
  rename_i h0
  generalize bits % F.signBit = b at *
  have hb : 0 < b := by omega
  obtain ⟨hd, -⟩ := shortest_rounds hF hb (by omega)
  obtain ⟨up, down, n, digits, e, h⟩ := wide_digits hF hC hb
  rw [e] at hd ⊢
  simp only at hd
  have hg := gap_pos (F := F) b
  have hu : F.units b ≤ 2 ^ (F.mb + 1) * F.gap b := by
    obtain ⟨s, r, e, h1, h2, h3, h4⟩ := magnitude_form (F := F) b
    rw [h3, h4]
    exact Nat.mul_le_mul_right _ (by omega)
  have hub : 0 < F.units b := by
    have := units_strictMono (F := F) hb
    rw [units_zero] at this; exact this
  have hn : n ≤ N := h.digits_bound (by omega) (K := 2 ^ (F.mb + 2) + 1) (by
    have e : 2 ^ (F.mb + 2) = 2 * 2 ^ (F.mb + 1) := by ring
    rw [e, Nat.add_mul, Nat.mul_assoc]
    have : 2 ^ (F.mb + 1) * (2 * F.gap b) = 2 * (2 ^ (F.mb + 1) * F.gap b) := by ring
    omega) hN h1
  have hone := two_pow_pos' (F.scaleBits + 2)
  have hle : F.units (b + 1) ≤ F.units F.inf := units_strictMono.monotone (by omega)
  have hup : up ≤ U := h.up_bound hone (T := T) (by rw [units_succ] at hle; omega) (by
    rw [Nat.pow_succ]; omega)
  have hdown : down ≤ D := h.down_bound (q := 4) (by omega) (by omega) hD
  have := decimal_length h.pos hd h.zero
  have hz := h.zero
  omega

end FloatFormat

theorem F64.text_length (x : F64) : (F64.text x).length ≤ 344 := by
  have := FloatFormat.text_length FloatFormat.double_proper FloatFormat.double_checked (N := 18) (U := 309) (D := 323) (T := 2 ^ 1024)
    (by omega) (by decide +kernel) (by decide +kernel) (by decide +kernel) (by decide +kernel) x.bits.toNat
  exact this

theorem F32.text_length (x : F32) : (F32.text x).length ≤ 56 := by
  have := FloatFormat.text_length FloatFormat.single_proper FloatFormat.single_checked (N := 9) (U := 39) (D := 44) (T := 2 ^ 128)
    (by omega) (by decide +kernel) (by decide +kernel) (by decide +kernel) (by decide +kernel) x.bits.toNat
  exact this

end Sdp
