import Verif.Lemmas.Shortest
import Verif.Lemmas.Num
import Mathlib.Data.Nat.Digits.Defs
/-!
# Printed floats are read back
-/

namespace Sdp

theorem digitsToNat_eq (ds : Str) : digitsToNat ds = decValue ds := by
  unfold digitsToNat decValue
  congr 1
  funext a c
  rw [Nat.mul_comm]; rfl

theorem decValue_foldl (b : Str) (n : Nat) :
    b.foldl (fun acc c => acc * 10 + (c.toNat - '0'.toNat)) n = n * 10 ^ b.length + decValue b := by
  unfold decValue
  induction b generalizing n with
  | nil => simp
  | cons c b ih =>
    rw [List.foldl_cons, List.foldl_cons, ih, ih (0 * 10 + _), List.length_cons, Nat.pow_succ]
    ring

theorem decValue_append (a b : Str) : decValue (a ++ b) = decValue a * 10 ^ b.length + decValue b := by
  conv_lhs => unfold decValue
  rw [List.foldl_append, decValue_foldl]
  rfl

theorem decValue_zeros (k : Nat) : decValue (List.replicate k '0') = 0 := by
  induction k with
  | zero => rfl
  | succ k ih =>
    rw [List.replicate_succ', decValue_append, ih]; rfl

theorem padded {r n : Nat} (hn : 1 ≤ n) (hr : r < 10 ^ n) :
    (padLeft n (showNat r)).length = n ∧ (∀ c ∈ padLeft n (showNat r), c.isDigit = true) ∧
      decValue (padLeft n (showNat r)) = r := by
  have hl : (showNat r).length ≤ n := Nat.toDigits_length 10 r n hn hr
  refine ⟨?_, ?_, ?_⟩
  · simp [padLeft]; omega
  · intro c hc
    simp only [padLeft, List.mem_append, List.mem_replicate] at hc
    rcases hc with ⟨-, rfl⟩ | hc
    · rfl
    · exact showNat_digits hc
  · rw [padLeft, decValue_append, decValue_zeros, decValue_showNat]; simp

theorem takeWhile_digits {ds t : Str} (h : ∀ c ∈ ds, c.isDigit = true) (ht : ∀ c ∈ t.head?, c.isDigit = false) :
    (ds ++ t).takeWhile Char.isDigit = ds ∧ (ds ++ t).dropWhile Char.isDigit = t := by
  induction ds with
  | nil =>
    cases t with
    | nil => simp
    | cons c t => simp at ht; simp [ht]
  | cons d ds ih =>
    have hd := h d (by simp)
    have := ih fun c hc => h c (by simp [hc])
    simp [hd, this]

theorem parseDecimal_point {whole frac : Str} (h1 : ∀ c ∈ whole, c.isDigit = true) (h2 : ∀ c ∈ frac, c.isDigit = true)
    (h : whole ++ frac ≠ []) :
    parseDecimal (whole ++ '.' :: frac) = some (decValue (whole ++ frac), -(frac.length : Int)) := by
  obtain ⟨e1, e2⟩ := takeWhile_digits (t := '.' :: frac) h1 (by simp)
  obtain ⟨e3, e4⟩ := takeWhile_digits (t := []) h2 (by simp)
  simp only [List.append_nil] at e3 e4
  unfold parseDecimal
  simp only [e1, e2, e3, e4, digitsToNat_eq]
  rw [if_neg (by simpa using h)]

theorem parseDecimal_whole {whole : Str} (h1 : ∀ c ∈ whole, c.isDigit = true) (h : whole ≠ []) :
    parseDecimal whole = some (decValue whole, -((0 : Nat) : Int)) := by
  obtain ⟨e1, e2⟩ := takeWhile_digits (t := []) h1 (by simp)
  simp only [List.append_nil] at e1 e2
  unfold parseDecimal
  simp only [e1, e2, digitsToNat_eq, List.append_nil]
  rw [if_neg (by simpa using h)]
  rfl

namespace FloatFormat
variable {F : FloatFormat}

theorem ofDecimal_neg (d m : Nat) : F.ofDecimal d (-(m : Int)) = F.roundUnits (d * 2 ^ F.scaleBits) (10 ^ m) := by
  cases m with
  | zero => simp [ofDecimal]
  | succ m => rfl

/-- The characters of a printed finite number without its sign -/
def PlainChar (c : Char) : Prop := c.isDigit = true ∨ c = '.'

theorem decimalText_ok (hF : F.Proper) {b : Nat} (hb : 0 < b) (hi : b ≤ F.inf) :
    ∃ d e, parseDecimal (decimalText (F.shortest b)) = some (d, e) ∧ F.ofDecimal d e = b ∧
      decimalText (F.shortest b) ≠ [] ∧ (∀ c ∈ decimalText (F.shortest b), PlainChar c) ∧
      (∀ c ∈ (decimalText (F.shortest b)).head?, c.isDigit = true) := by
  obtain ⟨up, down, n, r, e, h, hr, hnear⟩ := shortest_nearest hF hb hi
  obtain ⟨hlen, hdig, hval⟩ := padded h.pos hr
  rw [e]
  unfold decimalText
  simp only
  generalize hds : padLeft n (showNat r) = ds at hlen hdig hval
  have hpos := h.pos
  have hzero := h.zero
  have hT : ∀ m, 0 < 10 ^ m := fun m => Nat.pos_of_ne_zero (by simp)
  have hdig0 : ∀ k, ∀ c ∈ List.replicate k '0', c.isDigit = true := by
    intro k c hc; rw [List.mem_replicate] at hc; rw [hc.2]; rfl
  have hne : ds ≠ [] := by rintro rfl; simp at hlen; omega
  split
  · next hk =>
    obtain rfl : up = 0 := by omega
    have ek : (-(((0 : Nat) : Int) - (down : Int))).toNat = down := by omega
    rw [ek]
    have et : c%"0." ++ List.replicate down '0' ++ ds = ['0'] ++ '.' :: (List.replicate down '0' ++ ds) := rfl
    rw [et]
    have hfrac : ∀ c ∈ List.replicate down '0' ++ ds, c.isDigit = true := by
      intro c hc
      rcases List.mem_append.1 hc with hc | hc
      · exact hdig0 _ c hc
      · exact hdig c hc
    refine ⟨_, _, parseDecimal_point (by simp) hfrac (by simp), ?_, by simp, ?_, by simp⟩
    · rw [ofDecimal_neg, decValue_append, decValue_append, decValue_zeros, hval]
      have : decValue ['0'] = 0 := rfl
      rw [this, List.length_append, List.length_replicate, hlen]
      simp only [Nat.zero_mul, Nat.zero_add]
      apply roundUnits_eq hF.mb (hT _)
      simpa using hnear
    · intro c hc
      rcases List.mem_append.1 hc with hc | hc
      · simp at hc; subst hc; exact .inl rfl
      · rcases List.mem_cons.1 hc with rfl | hc
        · exact .inr rfl
        · exact .inl (hfrac c hc)
  · next hk =>
    obtain rfl : down = 0 := by omega
    have ek : (((up : Nat) : Int) - ((0 : Nat) : Int)).toNat = up := by omega
    rw [ek]
    split
    · next hl =>
      have hall : ∀ c ∈ ds ++ List.replicate (up - ds.length) '0', c.isDigit = true := by
        intro c hc
        rcases List.mem_append.1 hc with hc | hc
        · exact hdig c hc
        · exact hdig0 _ c hc
      refine ⟨_, _, parseDecimal_whole hall (by simp [hne]), ?_, by simp [hne], fun c hc => .inl (hall c hc),
        fun c hc => hall c (List.mem_of_mem_head? hc)⟩
      rw [ofDecimal_neg, decValue_append, decValue_zeros, hval, List.length_replicate, hlen]
      apply roundUnits_eq hF.mb (hT _)
      apply hnear.ratio (hT _) (hT _)
      rw [hlen] at hl
      rw [show 10 ^ up = 10 ^ (up - n) * 10 ^ n by rw [← Nat.pow_add]; congr 1; omega]
      simp only [Nat.zero_add]
      ring
    · next hl =>
      have hnil : ds.take up ≠ [] := by
        intro hc
        rcases List.take_eq_nil_iff.1 hc with h' | h'
        · omega
        · exact hne h'
      have h1 : ∀ c ∈ ds.take up, c.isDigit = true := fun c hc => hdig c (List.mem_of_mem_take hc)
      have h2 : ∀ c ∈ ds.drop up, c.isDigit = true := fun c hc => hdig c (List.mem_of_mem_drop hc)
      have et : ds.take up ++ c%"." ++ ds.drop up = ds.take up ++ '.' :: ds.drop up := by
        rw [List.append_assoc]; rfl
      rw [et]
      refine ⟨_, _, parseDecimal_point h1 h2 (by simp [hne]), ?_, by simp, ?_, ?_⟩
      · rw [ofDecimal_neg, List.take_append_drop, hval, List.length_drop, hlen]
        apply roundUnits_eq hF.mb (hT _)
        apply hnear.ratio (hT _) (hT _)
        rw [hlen] at hl
        simp only [Nat.zero_add]
        rw [show 10 ^ n = 10 ^ up * 10 ^ (n - up) by rw [← Nat.pow_add]; congr 1; omega]
        ring
      · intro c hc
        rcases List.mem_append.1 hc with hc | hc
        · exact .inl (h1 c hc)
        · rcases List.mem_cons.1 hc with rfl | hc
          · exact .inr rfl
          · exact .inl (h2 c hc)
      · intro c hc
        cases hd : ds.take up with
        | nil => exact absurd hd hnil
        | cons x xs =>
          rw [hd] at hc h1
          simp at hc
          subst hc
          exact h1 x (by simp)

theorem inf_pos (hF : F.Proper) : 0 < F.inf := by
  have h1 := two_pow_pos' F.mb
  have := hF.eb
  have h2 : 2 ^ 1 ≤ 2 ^ F.eb := Nat.pow_le_pow_right (by omega) (by omega)
  exact Nat.mul_pos (by omega) h1

theorem inf_lt (F : FloatFormat) : F.inf < F.signBit := by
  unfold inf signBit
  rw [Nat.pow_add, Nat.mul_comm (2 ^ F.mb)]
  exact Nat.mul_lt_mul_of_pos_right (by have := two_pow_pos' F.eb; omega) (two_pow_pos' _)

/-- Reading a text that does not start with a sign -/
theorem parse_unsigned {s : Str} (h : s ≠ []) (h1 : s.head? ≠ some '-') (h2 : s.head? ≠ some '+') :
    F.parse s = match parseDecimal s with
      | some (d, e) => .ok (F.ofDecimal d e)
      | none => match F.parseSpecial s with
        | some m => .ok m
        | none => .error .invalid := by
  cases s with
  | nil => exact absurd rfl h
  | cons c t =>
    simp at h1 h2
    unfold parse
    simp only [if_neg h1]
    rw [if_neg (by simp [h1, h2])]
    simp only [Nat.zero_add]
    rcases parseDecimal (c :: t) with _ | ⟨d, e⟩
    · rcases F.parseSpecial (c :: t) with _ | m <;> rfl
    · rfl

theorem parse_minus {s : Str} :
    F.parse ('-' :: s) = match parseDecimal s with
      | some (d, e) => .ok (F.signBit + F.ofDecimal d e)
      | none => match F.parseSpecial s with
        | some m => .ok (F.signBit + m)
        | none => .error .invalid := by
  unfold parse
  simp only [if_true, true_or]
  rcases parseDecimal s with _ | ⟨d, e⟩
  · rcases F.parseSpecial s with _ | m <;> rfl
  · rfl

/-- The text of a magnitude, and what it is read as -/
theorem parse_magnitude (hF : F.Proper) {b : Nat} (hi : b ≤ F.inf) :
    ∃ t, t = (if b = F.inf then c%"inf" else if b = 0 then c%"0" else decimalText (F.shortest b)) ∧
      F.parse t = .ok b ∧ F.parse ('-' :: t) = .ok (F.signBit + b) ∧ t ≠ [] ∧
      ((∀ c ∈ t, PlainChar c) ∨ t = c%"inf") := by
  refine ⟨_, rfl, ?_⟩
  split
  · next h =>
    subst h
    have e : parseDecimal c%"inf" = none := by decide
    have e2 : F.parseSpecial c%"inf" = some F.inf := by
      unfold parseSpecial
      rw [show (c%"inf").map asciiLower = c%"inf" by decide]
      simp
    refine ⟨?_, ?_, by decide, .inr rfl⟩
    · rw [parse_unsigned (by decide) (by decide) (by decide), e, e2]
    · rw [parse_minus, e, e2]
  · split
    · next h =>
      subst h
      have e : parseDecimal c%"0" = some (0, -((0 : Nat) : Int)) := by decide
      have e0 : F.ofDecimal 0 (-((0 : Nat) : Int)) = 0 := by
        rw [ofDecimal_neg]
        have : F.NearestTo (0 * 2 ^ F.scaleBits) (10 ^ 0) 0 := by
          refine nearestTo_of_between (by simp) (by omega) ⟨?_, fun _ => rfl⟩ (by simp)
          simp [units_zero]
        exact roundUnits_eq hF.mb (by simp) this
      refine ⟨?_, ?_, by decide, .inl (by intro c hc; simp at hc; subst hc; exact .inl rfl)⟩
      · rw [parse_unsigned (by decide) (by decide) (by decide), e]; simp only [e0]
      · rw [parse_minus, e]; simp only [e0]
    · next h =>
      obtain ⟨d, e, h1, h2, h3, h4, h5⟩ := decimalText_ok hF (by omega : 0 < b) hi
      refine ⟨?_, ?_, h3, .inl h4⟩
      · rw [parse_unsigned h3, h1]
        · simp only [h2]
        · intro hc; have := h5 '-' (by rw [hc]; rfl); simp at this
        · intro hc; have := h5 '+' (by rw [hc]; rfl); simp at this
      · rw [parse_minus, h1]; simp only [h2]

/-- Every number that is not NaN is read back from its text. -/
theorem parse_text (hF : F.Proper) {bits : Nat} (h : bits < 2 * F.signBit) (hn : bits % F.signBit ≤ F.inf) :
    F.parse (F.text bits) = .ok bits := by
  obtain ⟨t, ht, h1, h2, -⟩ := parse_magnitude hF hn
  unfold text
  simp only
  rw [if_neg (by omega), ← ht]
  split
  · next hs =>
    have e : bits % F.signBit = bits - F.signBit := by
      rw [Nat.mod_eq_sub_mod hs, Nat.mod_eq_of_lt (by omega)]
    have : c%"-" ++ t = '-' :: t := rfl
    rw [this, h2, e]
    congr 1; omega
  · next hs =>
    rw [List.nil_append, h1, Nat.mod_eq_of_lt (by omega)]

end FloatFormat
end Sdp
