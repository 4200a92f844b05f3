import Verif.Lemmas.Str
import Verif.Spec.Num
/-!
# Numbers as text
-/

namespace Sdp

/-- The value the digit loop computes. -/
def radixFold (radix acc : Nat) (s : Str) : Nat :=
  s.foldl (fun a c => a * radix + (toDigit radix c).getD 0) acc

theorem le_radixFold {radix acc : Nat} (hr : 1 ≤ radix) (s : Str) : acc ≤ radixFold radix acc s := by
  induction s generalizing acc with
  | nil => exact Nat.le_refl _
  | cons c cs ih =>
    have h1 : acc ≤ acc * radix := Nat.le_mul_of_pos_right _ hr
    have := ih (acc := acc * radix + (toDigit radix c).getD 0)
    simp only [radixFold, List.foldl_cons] at this ⊢
    omega

theorem digitLoop_ok {radix lim acc n : Nat} (hr : 1 ≤ radix) (hacc : acc < lim) {s : Str} :
    digitLoop radix lim acc s = .ok n ↔
      (∀ c ∈ s, (toDigit radix c).isSome = true) ∧ radixFold radix acc s = n ∧ n < lim := by
  induction s generalizing acc with
  | nil =>
    simp only [digitLoop, radixFold, List.foldl_nil]
    constructor
    · intro h; cases h; exact ⟨by simp, rfl, hacc⟩
    · rintro ⟨-, rfl, -⟩; rfl
  | cons c cs ih =>
    simp only [digitLoop]
    cases hd : toDigit radix c with
    | none =>
      constructor
      · intro h; cases h
      · rintro ⟨h, -⟩; have := h c (by simp); rw [hd] at this; cases this
    | some d =>
      have hfold : radixFold radix acc (c :: cs) = radixFold radix (acc * radix + d) cs := by
        simp [radixFold, hd]
      simp only [hfold]
      by_cases h1 : acc * radix < lim
      · by_cases h2 : acc * radix + d < lim
        · simp only [h1, h2, if_true]
          rw [ih h2]
          simp [hd]
        · simp only [h1, h2, if_true, if_false]
          constructor
          · intro h; cases h
          · rintro ⟨-, h, h'⟩
            have := le_radixFold hr cs (acc := acc * radix + d)
            omega
      · simp only [h1, if_false]
        constructor
        · intro h; cases h
        · rintro ⟨-, h, h'⟩
          have := le_radixFold hr cs (acc := acc * radix + d)
          omega

theorem parseRadix_ok {radix lim n : Nat} (hr : 1 ≤ radix) (hp : toDigit radix '+' = none) (hlim : 0 < lim)
    {s : Str} : parseRadix radix lim s = .ok n ↔
      ∃ ds, (s = ds ∨ s = '+' :: ds) ∧ ds ≠ [] ∧ (∀ c ∈ ds, (toDigit radix c).isSome = true) ∧
        radixFold radix 0 ds = n ∧ n < lim := by
  have plus {ds rest : Str} (h : ds = '+' :: rest) (hd : ∀ c ∈ ds, (toDigit radix c).isSome = true) : False := by
    have := hd '+' (by simp [h]); rw [hp] at this; cases this
  unfold parseRadix
  split
  · constructor
    · intro h; cases h
    · rintro ⟨ds, h | h, h1, -⟩
      · exact absurd h.symm h1
      · cases h
  · constructor
    · intro h; cases h
    · rintro ⟨ds, h | h, h1, h2, -⟩
      · exact (plus h.symm h2).elim
      · simp at h; exact absurd h h1
  · rename_i ds hds
    rw [digitLoop_ok hr hlim]
    constructor
    · rintro ⟨h1, h2, h3⟩
      exact ⟨ds, .inr rfl, fun h => hds (by rw [h]), h1, h2, h3⟩
    · rintro ⟨ds', h | h, h1, h2, h3⟩
      · exact (plus h.symm h2).elim
      · simp at h; subst h; exact ⟨h2, h3⟩
  · rename_i h0 h1 h2
    rw [digitLoop_ok hr hlim]
    constructor
    · rintro ⟨h3, h4, h5⟩
      exact ⟨s, .inl rfl, h0, h3, h4, h5⟩
    · rintro ⟨ds', h | h, h3, h4, h5⟩
      · subst h; exact ⟨h4, h5⟩
      · exact absurd h (h2 _)

theorem isDigit_iff {c : Char} : c.isDigit = true ↔ 48 ≤ c.toNat ∧ c.toNat ≤ 57 := by
  simp [Char.isDigit, UInt32.le_iff_toNat_le]

theorem toDigit_ten {c : Char} : toDigit 10 c = if c.isDigit then some (c.toNat - 48) else none := by
  unfold toDigit
  by_cases h : c.isDigit = true
  · have h' := isDigit_iff.1 h
    simp [h, h']; omega
  · have h' : ¬ (48 ≤ c.toNat ∧ c.toNat ≤ 57) := fun x => h (isDigit_iff.2 x)
    simp only [h, Bool.and_eq_true, decide_eq_true_eq, h', if_false, Bool.false_eq_true]
    by_cases h1 : 97 ≤ c.toNat ∧ c.toNat ≤ 102
    · simp [h1]; omega
    · by_cases h2 : 65 ≤ c.toNat ∧ c.toNat ≤ 70
      · simp [h1, h2]; omega
      · simp [h1, h2]

theorem char_le_iff {a b : Char} : a ≤ b ↔ a.toNat ≤ b.toNat := by
  rw [Char.le_def, UInt32.le_iff_toNat_le]; rfl

theorem toDigit_sixteen {c : Char} [Decidable (IsHexDigit c)] :
    toDigit 16 c = if IsHexDigit c then some (hexDigitValue c) else none := by
  unfold toDigit
  have e1 : 'a'.toNat = 97 := rfl
  have e2 : 'f'.toNat = 102 := rfl
  have e3 : 'A'.toNat = 65 := rfl
  have e4 : 'F'.toNat = 70 := rfl
  have e5 : '0'.toNat = 48 := rfl
  simp only [IsHexDigit, hexDigitValue, isDigit_iff, char_le_iff, e1, e2, e3, e4, e5, Bool.and_eq_true,
    decide_eq_true_eq]
  by_cases h : 48 ≤ c.toNat ∧ c.toNat ≤ 57
  · simp [h]; omega
  · by_cases h1 : 97 ≤ c.toNat ∧ c.toNat ≤ 102
    · simp [h, h1]; omega
    · by_cases h2 : 65 ≤ c.toNat ∧ c.toNat ≤ 70
      · simp [h, h1, h2]; omega
      · simp [h, h1, h2]

theorem foldl_congr_mem {α β : Type} {f g : α → β → α} {l : List β} (h : ∀ a, ∀ b ∈ l, f a b = g a b) (a : α) :
    l.foldl f a = l.foldl g a := by
  induction l generalizing a with
  | nil => rfl
  | cons b l ih =>
    simp only [List.foldl_cons]
    rw [h a b (by simp), ih fun a b hb => h a b (by simp [hb])]

theorem parseRadix_ten {lim n : Nat} (hlim : 0 < lim) {s : Str} :
    parseRadix 10 lim s = .ok n ↔ DecText s n ∧ n < lim := by
  rw [parseRadix_ok (by decide) (by decide) hlim]
  unfold DecText
  have hv {ds : Str} (h : ∀ c ∈ ds, c.isDigit = true) : radixFold 10 0 ds = decValue ds := by
    unfold radixFold decValue
    refine foldl_congr_mem (fun a b hb => ?_) 0
    simp [toDigit_ten, h b hb]
  have hs {c : Char} : (toDigit 10 c).isSome = true ↔ c.isDigit = true := by
    rw [toDigit_ten]; split <;> simp_all
  simp only [hs]
  constructor
  · rintro ⟨ds, h1, h2, h3, h4, h5⟩
    exact ⟨⟨ds, h1, h2, h3, by rw [← hv h3]; exact h4⟩, h5⟩
  · rintro ⟨⟨ds, h1, h2, h3, h4⟩, h5⟩
    exact ⟨ds, h1, h2, h3, by rw [hv h3]; exact h4, h5⟩

theorem parseRadix_sixteen {lim n : Nat} (hlim : 0 < lim) {s : Str} :
    parseRadix 16 lim s = .ok n ↔ HexText s n ∧ n < lim := by
  classical
  rw [parseRadix_ok (by decide) (by decide) hlim]
  unfold HexText
  have hv {ds : Str} (h : ∀ c ∈ ds, IsHexDigit c) : radixFold 16 0 ds = hexValue ds := by
    unfold radixFold hexValue
    refine foldl_congr_mem (fun a b hb => ?_) 0
    simp [toDigit_sixteen, h b hb]
  have hs {c : Char} : (toDigit 16 c).isSome = true ↔ IsHexDigit c := by
    rw [toDigit_sixteen]; split <;> simp_all
  simp only [hs]
  constructor
  · rintro ⟨ds, h1, h2, h3, h4, h5⟩
    exact ⟨⟨ds, h1, h2, h3, by rw [← hv h3]; exact h4⟩, h5⟩
  · rintro ⟨⟨ds, h1, h2, h3, h4⟩, h5⟩
    exact ⟨ds, h1, h2, h3, by rw [hv h3]; exact h4, h5⟩

theorem DecText.unique {s : Str} {m n : Nat} (h : DecText s m) (h' : DecText s n) : m = n := by
  obtain ⟨ds, h1, h2, h3, rfl⟩ := h
  obtain ⟨ds', h1', h2', h3', rfl⟩ := h'
  have np {d : Str} {e : Str} (h : ∀ c ∈ d, c.isDigit = true) (he : d = '+' :: e) : False := by
    have := h '+' (by simp [he]); simp at this
  rcases h1 with h1 | h1 <;> rcases h1' with h1' | h1'
  · rw [← h1, ← h1']
  · exact (np h3 (h1.symm.trans h1')).elim
  · exact (np h3' (h1'.symm.trans h1)).elim
  · rw [h1] at h1'; simp at h1'; rw [h1']

/-! ## Printing -/

theorem showNat_digits {n : Nat} {c : Char} (h : c ∈ showNat n) : c.isDigit = true :=
  Nat.isDigit_of_mem_toDigits (b := 10) (by decide) (by decide) h

theorem showNat_ne_nil (n : Nat) : showNat n ≠ [] := Nat.toDigits_ne_nil

theorem decValue_showNat (n : Nat) : decValue (showNat n) = n := by
  have := Nat.ofDigitChars_ten_toDigits (n := n)
  rw [Nat.ofDigitChars_eq_foldl] at this
  unfold decValue showNat
  conv_rhs => rw [← this]
  exact foldl_congr_mem (fun a b _ => by rw [Nat.mul_comm]) 0

theorem DecText.show (n : Nat) : DecText (showNat n) n :=
  ⟨showNat n, .inl rfl, showNat_ne_nil n, fun _ => showNat_digits, decValue_showNat n⟩

theorem parseRadix_showNat {lim n : Nat} (h : n < lim) : parseRadix 10 lim (showNat n) = .ok n :=
  (parseRadix_ten (by omega)).2 ⟨DecText.show n, h⟩

theorem parseU8_ok {s : Str} {x : UInt8} : parseU8 s = .ok x ↔ DecText s x.toNat := by
  unfold parseU8
  constructor
  · intro h
    split at h
    · rename_i n hn
      obtain ⟨h1, h2⟩ := (parseRadix_ten (by decide)).1 hn
      cases h
      rw [UInt8.toNat_ofNat', Nat.mod_eq_of_lt h2]; exact h1
    · cases h
  · intro h
    rw [(parseRadix_ten (by decide)).2 ⟨h, x.toNat_lt⟩]
    simp

theorem parseU16_ok {s : Str} {x : UInt16} : parseU16 s = .ok x ↔ DecText s x.toNat := by
  unfold parseU16
  constructor
  · intro h
    split at h
    · rename_i n hn
      obtain ⟨h1, h2⟩ := (parseRadix_ten (by decide)).1 hn
      cases h
      rw [UInt16.toNat_ofNat', Nat.mod_eq_of_lt h2]; exact h1
    · cases h
  · intro h
    rw [(parseRadix_ten (by decide)).2 ⟨h, x.toNat_lt⟩]
    simp

theorem parseU32_ok {s : Str} {x : UInt32} : parseU32 s = .ok x ↔ DecText s x.toNat := by
  unfold parseU32
  constructor
  · intro h
    split at h
    · rename_i n hn
      obtain ⟨h1, h2⟩ := (parseRadix_ten (by decide)).1 hn
      cases h
      rw [UInt32.toNat_ofNat', Nat.mod_eq_of_lt h2]; exact h1
    · cases h
  · intro h
    rw [(parseRadix_ten (by decide)).2 ⟨h, x.toNat_lt⟩]
    simp

theorem parseU64_ok {s : Str} {x : UInt64} : parseU64 s = .ok x ↔ DecText s x.toNat := by
  unfold parseU64
  constructor
  · intro h
    split at h
    · rename_i n hn
      obtain ⟨h1, h2⟩ := (parseRadix_ten (by decide)).1 hn
      cases h
      rw [UInt64.toNat_ofNat', Nat.mod_eq_of_lt h2]; exact h1
    · cases h
  · intro h
    rw [(parseRadix_ten (by decide)).2 ⟨h, x.toNat_lt⟩]
    simp

theorem parseHexU8_ok {s : Str} {x : UInt8} : parseHexU8 s = .ok x ↔ HexText s x.toNat := by
  unfold parseHexU8
  constructor
  · intro h
    split at h
    · rename_i n hn
      obtain ⟨h1, h2⟩ := (parseRadix_sixteen (by decide)).1 hn
      cases h
      rw [UInt8.toNat_ofNat', Nat.mod_eq_of_lt h2]; exact h1
    · cases h
  · intro h
    rw [(parseRadix_sixteen (by decide)).2 ⟨h, x.toNat_lt⟩]
    simp

theorem parseHexU32_ok {s : Str} {x : UInt32} : parseHexU32 s = .ok x ↔ HexText s x.toNat := by
  unfold parseHexU32
  constructor
  · intro h
    split at h
    · rename_i n hn
      obtain ⟨h1, h2⟩ := (parseRadix_sixteen (by decide)).1 hn
      cases h
      rw [UInt32.toNat_ofNat', Nat.mod_eq_of_lt h2]; exact h1
    · cases h
  · intro h
    rw [(parseRadix_sixteen (by decide)).2 ⟨h, x.toNat_lt⟩]
    simp

theorem parseU8_show (x : UInt8) : parseU8 (showU8 x) = .ok x := parseU8_ok.2 (DecText.show _)
theorem parseU16_show (x : UInt16) : parseU16 (showU16 x) = .ok x := parseU16_ok.2 (DecText.show _)
theorem parseU32_show (x : UInt32) : parseU32 (showU32 x) = .ok x := parseU32_ok.2 (DecText.show _)
theorem parseU64_show (x : UInt64) : parseU64 (showU64 x) = .ok x := parseU64_ok.2 (DecText.show _)

/-! ## Hexadecimal printing -/

theorem hexDigitValue_digitChar {d : Nat} (h : d < 16) :
    IsHexDigit (Nat.digitChar d) ∧ hexDigitValue (Nat.digitChar d) = d := by
  have : d = 0 ∨ d = 1 ∨ d = 2 ∨ d = 3 ∨ d = 4 ∨ d = 5 ∨ d = 6 ∨ d = 7 ∨ d = 8 ∨ d = 9 ∨ d = 10 ∨
    d = 11 ∨ d = 12 ∨ d = 13 ∨ d = 14 ∨ d = 15 := by omega
  rcases this with rfl | rfl | rfl | rfl | rfl | rfl | rfl | rfl | rfl | rfl | rfl | rfl | rfl | rfl | rfl | rfl <;>
    exact ⟨by unfold IsHexDigit; decide, by decide⟩

theorem hexDigitValue_hexUpper {d : Nat} (h : d < 16) :
    IsHexDigit (hexUpper d) ∧ hexDigitValue (hexUpper d) = d := by
  have : d = 0 ∨ d = 1 ∨ d = 2 ∨ d = 3 ∨ d = 4 ∨ d = 5 ∨ d = 6 ∨ d = 7 ∨ d = 8 ∨ d = 9 ∨ d = 10 ∨
    d = 11 ∨ d = 12 ∨ d = 13 ∨ d = 14 ∨ d = 15 := by omega
  rcases this with rfl | rfl | rfl | rfl | rfl | rfl | rfl | rfl | rfl | rfl | rfl | rfl | rfl | rfl | rfl | rfl <;>
    exact ⟨by unfold IsHexDigit; decide, by decide⟩

theorem hexValue_append (a b : Str) :
    hexValue (a ++ b) = b.foldl (fun acc c => acc * 16 + hexDigitValue c) (hexValue a) := by
  simp [hexValue]

theorem toDigits_sixteen (n : Nat) : Nat.toDigits 16 n ≠ [] ∧ (∀ c ∈ Nat.toDigits 16 n, IsHexDigit c) ∧
    hexValue (Nat.toDigits 16 n) = n := by
  induction n using Nat.strongRecOn with
  | _ n ih =>
    refine ⟨Nat.toDigits_ne_nil, ?_⟩
    by_cases h : n < 16
    · rw [Nat.toDigits_of_lt_base h]
      have := hexDigitValue_digitChar h
      simp [hexValue, this]
    · have hd : n / 16 < n := by omega
      have hpos : 0 < n / 16 := by omega
      have e : Nat.toDigits 16 n = Nat.toDigits 16 (n / 16) ++ [Nat.digitChar (n % 16)] := by
        have := Nat.toDigits_append_toDigits (b := 16) (n := n / 16) (d := n % 16) (by decide) hpos (by omega)
        rw [Nat.toDigits_of_lt_base (by omega : n % 16 < 16)] at this
        rw [this]; congr 1; omega
      obtain ⟨-, h1, h2⟩ := ih _ hd
      have h3 := hexDigitValue_digitChar (by omega : n % 16 < 16)
      rw [e, hexValue_append, h2]
      refine ⟨?_, ?_⟩
      · intro c hc
        simp only [List.mem_append, List.mem_singleton] at hc
        rcases hc with hc | rfl
        · exact h1 c hc
        · exact h3.1
      · simp [h3.2]; omega

theorem hexValue_replicate_zero (k : Nat) (s : Str) : hexValue (List.replicate k '0' ++ s) = hexValue s := by
  induction k with
  | zero => rfl
  | succ k ih =>
    rw [List.replicate_succ, ← ih]
    have : hexDigitValue '0' = 0 := by decide
    simp [hexValue, this]

theorem HexText.show (w n : Nat) : HexText (showHexPad w n) n := by
  obtain ⟨h1, h2, h3⟩ := toDigits_sixteen n
  refine ⟨showHexPad w n, .inl rfl, ?_, ?_, ?_⟩
  · unfold showHexPad padLeft; simp [h1]
  · unfold showHexPad padLeft
    intro c hc
    simp only [List.mem_append, List.mem_replicate] at hc
    rcases hc with ⟨_, rfl⟩ | hc
    · unfold IsHexDigit; decide
    · exact h2 c hc
  · unfold showHexPad padLeft; rw [hexValue_replicate_zero, h3]

theorem HexText.byte (b : UInt8) : HexText (showByteHex b) b.toNat := by
  have hb := b.toNat_lt
  have h1 := hexDigitValue_hexUpper (by omega : b.toNat / 16 < 16)
  have h2 := hexDigitValue_hexUpper (by omega : b.toNat % 16 < 16)
  refine ⟨_, .inl rfl, by simp [showByteHex], ?_, ?_⟩
  · intro c hc
    simp only [showByteHex, List.mem_cons, List.not_mem_nil, or_false] at hc
    rcases hc with rfl | rfl
    · exact h1.1
    · exact h2.1
  · simp [hexValue, showByteHex, h1.2, h2.2]; omega

theorem parseHexU8_show (b : UInt8) : parseHexU8 (showByteHex b) = .ok b := parseHexU8_ok.2 (HexText.byte b)
theorem parseHexU32_show (w : Nat) (x : UInt32) : parseHexU32 (showHexPad w x.toNat) = .ok x :=
  parseHexU32_ok.2 (HexText.show w _)

end Sdp
