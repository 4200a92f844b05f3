import Verif.Spec.Canonical
import Verif.Lemmas.Num
/-!
# Canonical numerals are unique
-/

namespace Sdp

/-- Induction from the end of a list. -/
theorem snoc_induction {α : Type} {P : List α → Prop} (nil : P []) (append_singleton : ∀ l x, P l → P (l ++ [x])) :
    ∀ l, P l := by
  intro l
  rw [← List.reverse_reverse l]
  induction l.reverse with
  | nil => exact nil
  | cons x xs ih => rw [List.reverse_cons]; exact append_singleton _ _ ih

/-- The value of a list of digits to a base. -/
def digitsValue (b : Nat) (v : Char → Nat) (ds : Str) : Nat := ds.foldl (fun acc c => acc * b + v c) 0

theorem digitsValue_snoc (b : Nat) (v : Char → Nat) (ds : Str) (c : Char) :
    digitsValue b v (ds ++ [c]) = digitsValue b v ds * b + v c := by
  simp [digitsValue]

theorem digitsValue_lt {b : Nat} {v : Char → Nat} {ds : Str} (hv : ∀ c ∈ ds, v c < b) :
    digitsValue b v ds < b ^ ds.length := by
  induction ds using snoc_induction with
  | nil => simp [digitsValue]
  | append_singleton ds c ih =>
    have h1 := ih (fun x hx => hv x (by simp [hx]))
    have h2 := hv c (by simp)
    rw [digitsValue_snoc, List.length_append, List.length_singleton, Nat.pow_succ]
    have : (digitsValue b v ds + 1) * b ≤ b ^ ds.length * b := Nat.mul_le_mul_right b h1
    rw [Nat.add_mul] at this
    omega

/-- Digit lists of the same length with the same value are the same. -/
theorem digitsValue_inj {b : Nat} {v : Char → Nat} {D : Char → Prop} (hv : ∀ c, D c → v c < b)
    (hi : ∀ c d, D c → D d → v c = v d → c = d) {ds es : Str} (hd : ∀ c ∈ ds, D c) (he : ∀ c ∈ es, D c)
    (hl : ds.length = es.length) (h : digitsValue b v ds = digitsValue b v es) : ds = es := by
  induction ds using snoc_induction generalizing es with
  | nil => simpa using hl.symm
  | append_singleton ds c ih =>
    rcases List.eq_nil_or_concat es with rfl | ⟨es', d, rfl⟩
    · simp at hl
    · rw [List.concat_eq_append] at *
      rw [digitsValue_snoc, digitsValue_snoc] at h
      have h1 := hv c (hd c (by simp))
      have h2 := hv d (he d (by simp))
      have e1 : digitsValue b v ds = digitsValue b v es' := by
        have := congrArg (· / b) h
        rw [Nat.add_comm, Nat.add_mul_div_right _ _ (by omega), Nat.div_eq_of_lt h1, Nat.add_comm (_ * b),
          Nat.add_mul_div_right _ _ (by omega), Nat.div_eq_of_lt h2] at this
        omega
      have e2 : v c = v d := by rw [e1] at h; omega
      rw [ih (fun x hx => hd x (by simp [hx])) (fun x hx => he x (by simp [hx])) (by simpa using hl) e1,
        hi c d (hd c (by simp)) (he d (by simp)) e2]

theorem le_digitsValue {b : Nat} {v : Char → Nat} {c : Char} (hb : 0 < b) (hc : 1 ≤ v c) (ds : Str) :
    b ^ ds.length ≤ digitsValue b v (c :: ds) := by
  induction ds using snoc_induction with
  | nil => simpa [digitsValue] using hc
  | append_singleton ds d ih =>
    rw [← List.cons_append, digitsValue_snoc, List.length_append, List.length_singleton, Nat.pow_succ]
    have := Nat.mul_le_mul_right b ih
    omega

/-- A number has only one digit list with at least `w` digits and no leading zeros beyond these. -/
theorem digits_unique {b : Nat} {v : Char → Nat} {D : Char → Prop} (hb : 0 < b) (hv : ∀ c, D c → v c < b)
    (hi : ∀ c d, D c → D d → v c = v d → c = d) (h0 : D '0') (hv0 : v '0' = 0) {w : Nat} {ds es : Str}
    (hd : ∀ c ∈ ds, D c) (he : ∀ c ∈ es, D c) (hdw : w ≤ ds.length) (hew : w ≤ es.length)
    (hdz : ds.head? = some '0' → ds.length ≤ w) (hez : es.head? = some '0' → es.length ≤ w)
    (h : digitsValue b v ds = digitsValue b v es) : ds = es := by
  have key : ∀ {ds es : Str}, (∀ c ∈ ds, D c) → (∀ c ∈ es, D c) → w ≤ ds.length →
      (es.head? = some '0' → es.length ≤ w) → digitsValue b v ds = digitsValue b v es → ¬ ds.length < es.length := by
    intro ds es hd he hdw hez h hl
    cases es with
    | nil => simp at hl
    | cons c cs =>
      have hc : c ≠ '0' := by rintro rfl; have := hez rfl; omega
      have hc1 : 1 ≤ v c := by
        rcases Nat.eq_zero_or_pos (v c) with h' | h'
        · exact absurd (hi c '0' (he c (by simp)) h0 (h'.trans hv0.symm)) hc
        · exact h'
      have h1 := le_digitsValue hb hc1 cs
      have h2 := digitsValue_lt (fun x hx => hv x (hd x hx))
      have h3 : b ^ ds.length ≤ b ^ cs.length := Nat.pow_le_pow_right hb (by simpa using Nat.lt_succ_iff.1 hl)
      omega
  refine digitsValue_inj hv hi hd he ?_ h
  have h1 := key hd he hdw hez h
  have h2 := key he hd hew hdz h.symm
  omega

theorem isDigit_value {c : Char} (h : c.isDigit = true) : c.toNat - 48 < 10 ∧ 48 ≤ c.toNat := by
  rw [isDigit_iff] at h; omega

theorem char_ext {c d : Char} (h : c.toNat = d.toNat) : c = d := Char.toNat_inj.1 h

theorem number_unique {n : Nat} {s t : Str} (hs : number n s) (ht : number n t) : s = t := by
  obtain ⟨s0, s1, s2, s3⟩ := hs
  obtain ⟨t0, t1, t2, t3⟩ := ht
  refine digits_unique (b := 10) (v := fun c => c.toNat - 48) (D := fun c => c.isDigit = true) (w := 1) (by decide)
    (fun c hc => (isDigit_value hc).1) ?_ (by decide) (by decide) s1 t1 (List.length_pos_iff.2 s0) (List.length_pos_iff.2 t0)
    (fun h => Nat.le_of_eq (s3 h)) (fun h => Nat.le_of_eq (t3 h)) (s2.trans t2.symm)
  intro c d hc hd h
  have := isDigit_value hc
  have := isDigit_value hd
  exact char_ext (by omega)

theorem head_toDigits {b : Nat} (hb : 1 < b) (hb' : b ≤ 16) {n : Nat} (hn : 0 < n) : (Nat.toDigits b n).head? ≠ some '0' := by
  induction n using Nat.strongRecOn with
  | _ n ih =>
    by_cases h : n < b
    · rw [Nat.toDigits_of_lt_base h]
      have : n = 1 ∨ n = 2 ∨ n = 3 ∨ n = 4 ∨ n = 5 ∨ n = 6 ∨ n = 7 ∨ n = 8 ∨ n = 9 ∨ n = 10 ∨
        n = 11 ∨ n = 12 ∨ n = 13 ∨ n = 14 ∨ n = 15 := by omega
      rcases this with rfl | rfl | rfl | rfl | rfl | rfl | rfl | rfl | rfl | rfl | rfl | rfl | rfl | rfl | rfl <;> decide
    · have hd : n / b < n := Nat.div_lt_self hn hb
      have hpos : 0 < n / b := Nat.div_pos (by omega) (by omega)
      have hmod : n % b < b := Nat.mod_lt _ (by omega)
      have e := Nat.toDigits_append_toDigits (b := b) (n := n / b) (d := n % b) hb hpos hmod
      rw [Nat.div_add_mod] at e
      rw [← e, List.head?_append]
      have h1 := ih _ hd hpos
      have h2 : Nat.toDigits b (n / b) ≠ [] := Nat.toDigits_ne_nil
      cases hx : Nat.toDigits b (n / b) with
      | nil => exact absurd hx h2
      | cons x xs => rw [hx] at h1; simpa using h1

theorem number_show (n : Nat) : number n (showNat n) := by
  refine ⟨showNat_ne_nil n, fun c hc => showNat_digits hc, decValue_showNat n, fun h => ?_⟩
  rcases Nat.eq_zero_or_pos n with rfl | hn
  · decide
  · exact absurd h (head_toDigits (by decide) (by decide) hn)

theorem numberField_iff {n : Nat} {t : Str} : number n t ↔ t = showNat n :=
  ⟨fun h => number_unique h (number_show n), fun h => h ▸ number_show n⟩

theorem lowerHex_isHexDigit {c : Char} (h : LowerHex c) : IsHexDigit c := by
  rcases h with h | h
  · exact .inl h
  · exact .inr (.inl h)

theorem lowerHex_value {c : Char} (h : LowerHex c) :
    (48 ≤ c.toNat ∧ c.toNat ≤ 57 ∧ hexDigitValue c = c.toNat - 48) ∨
      (97 ≤ c.toNat ∧ c.toNat ≤ 102 ∧ hexDigitValue c = c.toNat - 87) := by
  rcases h with h | ⟨h1, h2⟩
  · left
    have := isDigit_iff.1 h
    exact ⟨this.1, this.2, by simp [hexDigitValue, h]⟩
  · right
    rw [char_le_iff] at h1 h2
    have e1 : 'a'.toNat = 97 := rfl
    have e2 : 'f'.toNat = 102 := rfl
    have hd : ¬ c.isDigit = true := by rw [isDigit_iff]; omega
    refine ⟨by omega, by omega, ?_⟩
    unfold hexDigitValue
    rw [if_neg hd, if_pos ⟨char_le_iff.2 h1, char_le_iff.2 h2⟩]
    omega

theorem hexNumber_unique {w n : Nat} {s t : Str} (hs : hexNumber w n s) (ht : hexNumber w n t) : s = t := by
  obtain ⟨s0, sw, s1, s2, s3⟩ := hs
  obtain ⟨t0, tw, t1, t2, t3⟩ := ht
  have hs0 := List.length_pos_iff.2 s0
  have ht0 := List.length_pos_iff.2 t0
  refine digits_unique (b := 16) (v := hexDigitValue) (D := LowerHex) (w := max w 1) (by decide) ?_ ?_ (by unfold LowerHex; decide) (by decide)
    s1 t1 (by omega) (by omega) s3 t3 (s2.trans t2.symm)
  · intro c hc
    rcases lowerHex_value hc with h | h <;> omega
  · intro c d hc hd h
    apply char_ext
    rcases lowerHex_value hc with h1 | h1 <;> rcases lowerHex_value hd with h2 | h2 <;> omega

theorem toDigits_lower (n : Nat) : ∀ c ∈ Nat.toDigits 16 n, LowerHex c := by
  induction n using Nat.strongRecOn with
  | _ n ih =>
    have hc : ∀ m, m < 16 → LowerHex (Nat.digitChar m) := by
      intro m hm
      have : m = 0 ∨ m = 1 ∨ m = 2 ∨ m = 3 ∨ m = 4 ∨ m = 5 ∨ m = 6 ∨ m = 7 ∨ m = 8 ∨ m = 9 ∨ m = 10 ∨
        m = 11 ∨ m = 12 ∨ m = 13 ∨ m = 14 ∨ m = 15 := by omega
      rcases this with rfl | rfl | rfl | rfl | rfl | rfl | rfl | rfl | rfl | rfl | rfl | rfl | rfl | rfl | rfl | rfl <;>
        (unfold LowerHex; decide)
    by_cases h : n < 16
    · rw [Nat.toDigits_of_lt_base h]
      simpa using hc n h
    · have e := Nat.toDigits_append_toDigits (b := 16) (n := n / 16) (d := n % 16) (by decide) (by omega) (by omega)
      rw [Nat.div_add_mod] at e
      rw [← e, Nat.toDigits_of_lt_base (by omega : n % 16 < 16)]
      intro c hc'
      simp only [List.mem_append, List.mem_singleton] at hc'
      rcases hc' with hc' | rfl
      · exact ih _ (by omega) c hc'
      · exact hc _ (by omega)

theorem hexNumber_show (w n : Nat) : hexNumber w n (showHexPad w n) := by
  obtain ⟨h1, h2, h3⟩ := toDigits_sixteen n
  unfold showHexPad padLeft
  refine ⟨by simp [h1], by simp; omega, ?_, by rw [hexValue_replicate_zero, h3], ?_⟩
  · intro c hc
    simp only [List.mem_append, List.mem_replicate] at hc
    rcases hc with ⟨_, rfl⟩ | hc
    · unfold LowerHex; decide
    · exact toDigits_lower n c hc
  · intro hh
    rcases Nat.eq_zero_or_pos n with rfl | hn
    · have : (Nat.toDigits 16 0).length = 1 := by decide
      simp [this]; omega
    · have hz := head_toDigits (b := 16) (by decide) (by decide) hn
      by_cases hk : w - (Nat.toDigits 16 n).length = 0
      · rw [hk] at hh
        exact absurd (by simpa using hh) hz
      · rw [List.length_append, List.length_replicate]; omega

theorem hexNumber_iff {w n : Nat} {t : Str} : hexNumber w n t ↔ t = showHexPad w n :=
  ⟨fun h => hexNumber_unique h (hexNumber_show w n), fun h => h ▸ hexNumber_show w n⟩

theorem hexNumber_one_iff {n : Nat} {t : Str} : hexNumber 1 n t ↔ t = Nat.toDigits 16 n := by
  rw [hexNumber_iff]
  have := List.length_pos_iff.2 (toDigits_sixteen n).1
  have e : 1 - (Nat.toDigits 16 n).length = 0 := by omega
  simp [showHexPad, padLeft, e]

theorem upperHex_value {c : Char} (h : c.isDigit = true ∨ ('A' ≤ c ∧ c ≤ 'F')) :
    (48 ≤ c.toNat ∧ c.toNat ≤ 57 ∧ hexDigitValue c = c.toNat - 48) ∨
      (65 ≤ c.toNat ∧ c.toNat ≤ 70 ∧ hexDigitValue c = c.toNat - 55) := by
  rcases h with h | ⟨h1, h2⟩
  · left
    have := isDigit_iff.1 h
    exact ⟨this.1, this.2, by simp [hexDigitValue, h]⟩
  · right
    rw [char_le_iff] at h1 h2
    have e1 : 'A'.toNat = 65 := rfl
    have e2 : 'F'.toNat = 70 := rfl
    have e3 : 'a'.toNat = 97 := rfl
    have hd : ¬ c.isDigit = true := by rw [isDigit_iff]; omega
    have ha : ¬ ('a' ≤ c ∧ c ≤ 'f') := by rw [char_le_iff]; omega
    refine ⟨by omega, by omega, ?_⟩
    unfold hexDigitValue
    rw [if_neg hd, if_neg ha]
    omega

theorem byteField_iff {b : UInt8} {t : Str} : byteField b t ↔ t = showByteHex b := by
  have hb := b.toNat_lt
  have hu : ∀ m, m < 16 → (Char.isDigit (hexUpper m) = true ∨ ('A' ≤ hexUpper m ∧ hexUpper m ≤ 'F')) := by
    intro m hm
    have : m = 0 ∨ m = 1 ∨ m = 2 ∨ m = 3 ∨ m = 4 ∨ m = 5 ∨ m = 6 ∨ m = 7 ∨ m = 8 ∨ m = 9 ∨ m = 10 ∨
      m = 11 ∨ m = 12 ∨ m = 13 ∨ m = 14 ∨ m = 15 := by omega
    rcases this with rfl | rfl | rfl | rfl | rfl | rfl | rfl | rfl | rfl | rfl | rfl | rfl | rfl | rfl | rfl | rfl <;> decide
  have hshow : byteField b (showByteHex b) := by
    refine ⟨rfl, ?_, ?_⟩
    · intro c hc
      simp only [showByteHex, List.mem_cons, List.not_mem_nil, or_false] at hc
      rcases hc with rfl | rfl
      · exact hu _ (by omega)
      · exact hu _ (by omega)
    · have h1 := hexDigitValue_hexUpper (by omega : b.toNat / 16 < 16)
      have h2 := hexDigitValue_hexUpper (by omega : b.toNat % 16 < 16)
      simp [hexValue, showByteHex, h1.2, h2.2]; omega
  refine ⟨fun h => ?_, fun h => h ▸ hshow⟩
  refine digitsValue_inj (b := 16) (v := hexDigitValue) (D := fun c => c.isDigit = true ∨ ('A' ≤ c ∧ c ≤ 'F')) ?_ ?_ h.2.1 hshow.2.1
    (h.1.trans hshow.1.symm) (h.2.2.trans hshow.2.2.symm)
  · intro c hc
    rcases upperHex_value hc with h | h <;> omega
  · intro c d hc hd h
    apply char_ext
    rcases upperHex_value hc with h1 | h1 <;> rcases upperHex_value hd with h2 | h2 <;> omega

end Sdp
