import Verif.Lemmas.FloatText
import Verif.Spec.Float
import Mathlib.Tactic.FieldSimp
import Mathlib.Tactic.Positivity
/-!
# Reading a float is what IEEE 754 says
-/

namespace Sdp
namespace FloatFormat
variable {F : FloatFormat}

theorem value_eq (hF : F.Proper) (b : Nat) : F.value b = (F.units b : ℚ) / 2 ^ F.scaleBits := by
  unfold value units
  have hb : (2 : ℤ) ^ (F.eb - 1) - 1 = ((F.scaleBits : ℤ) + 1 - F.mb) := by
    have h1 : 2 ^ 1 ≤ 2 ^ (F.eb - 1) := Nat.pow_le_pow_right (by omega) (by have := hF.eb; omega)
    have h2 : (2 : ℤ) ^ (F.eb - 1) = ((2 ^ (F.eb - 1) : Nat) : ℤ) := by push_cast; rfl
    rw [h2]
    unfold scaleBits
    omega
  simp only [hb]
  have h2 : (2 : ℚ) ≠ 0 := by norm_num
  by_cases h : b / 2 ^ F.mb = 0
  · rw [if_pos (by exact_mod_cast h), if_pos h]
    have e : (1 : ℤ) - (F.scaleBits + 1 - F.mb) = (F.mb : ℤ) - F.scaleBits := by ring
    rw [e, zpow_sub₀ h2, zpow_natCast, zpow_natCast]
    field_simp
  · rw [if_neg (by exact_mod_cast h), if_neg h]
    obtain ⟨e, he⟩ := Nat.exists_eq_succ_of_ne_zero h
    rw [he]
    have e' : ((e.succ : Nat) : ℤ) - (F.scaleBits + 1 - F.mb) = (e : ℤ) + F.mb - F.scaleBits := by push_cast; ring
    rw [e', zpow_sub₀ h2, zpow_add₀ h2, zpow_natCast, zpow_natCast, zpow_natCast]
    push_cast
    field_simp

theorem rounds_iff (hF : F.Proper) {x : ℚ} {n d b : Nat} (hd : 0 < d) (hx : x * 2 ^ F.scaleBits * d = n) :
    F.Rounds x b ↔ F.NearestTo n d b := by
  have h2 : (0 : ℚ) < 2 ^ F.scaleBits := by positivity
  have hdq : (0 : ℚ) < d := by exact_mod_cast hd
  have key : ∀ c, |x - F.value c| * (2 ^ F.scaleBits * d) = ((|(F.units c * d : Int) - n| : Int) : ℚ) := by
    intro c
    rw [value_eq hF]
    have hp : (0 : ℚ) < 2 ^ F.scaleBits * d := mul_pos h2 hdq
    conv_lhs => rw [← abs_of_pos hp, ← abs_mul]
    have e : (x - (F.units c : ℚ) / 2 ^ F.scaleBits) * (2 ^ F.scaleBits * d) = -((F.units c * d : ℚ) - n) := by
      rw [← hx]; field_simp; ring
    rw [e, abs_neg]
    push_cast
    rfl
  have le_iff : ∀ c c', |x - F.value c| ≤ |x - F.value c'| ↔ |(F.units c * d : Int) - n| ≤ |(F.units c' * d : Int) - n| := by
    intro c c'
    rw [← Int.cast_le (R := ℚ), ← key, ← key]
    exact (mul_le_mul_iff_left₀ (mul_pos h2 hdq)).symm
  have eq_iff : ∀ c c', |x - F.value c| = |x - F.value c'| ↔ |(F.units c * d : Int) - n| = |(F.units c' * d : Int) - n| := by
    intro c c'
    rw [le_antisymm_iff, le_antisymm_iff, le_iff, le_iff]
  constructor
  · rintro ⟨h1, h3, h4⟩
    refine ⟨h1, fun c hc => ⟨(le_iff _ _).1 (h3 c hc), fun he => ?_⟩⟩
    by_cases hcb : c = b
    · exact .inl hcb
    · exact .inr (h4 c hc hcb ((eq_iff _ _).2 he))
  · rintro ⟨h1, h3⟩
    refine ⟨h1, fun c hc => (le_iff _ _).2 (h3 c hc).1, fun c hc hcb he => ?_⟩
    rcases (h3 c hc).2 ((eq_iff _ _).1 he) with h | h
    · exact absurd h hcb
    · exact h

theorem ofDecimal_rounds (hF : F.Proper) (d : Nat) (e : ℤ) : F.Rounds ((d : ℚ) * 10 ^ e) (F.ofDecimal d e) := by
  cases e with
  | ofNat e =>
    rw [rounds_iff hF (n := d * 10 ^ e * 2 ^ F.scaleBits) (d := 1) (by omega)]
    · exact roundUnits_nearest hF.mb (by omega)
    · simp only [Int.ofNat_eq_natCast, zpow_natCast]; push_cast; ring
  | negSucc e =>
    rw [rounds_iff hF (n := d * 2 ^ F.scaleBits) (d := 10 ^ (e + 1)) (Nat.pos_of_ne_zero (by simp))]
    · exact roundUnits_nearest hF.mb (Nat.pos_of_ne_zero (by simp))
    · rw [zpow_negSucc]; push_cast; field_simp

/-- Rounding has one result. -/
theorem Rounds.unique {x : ℚ} {b c : Nat} (hF : F.Proper) (hx : 0 ≤ x) (h1 : F.Rounds x b) (h2 : F.Rounds x c) : b = c := by
  have hd : 0 < x.den := x.pos
  have hn : x * 2 ^ F.scaleBits * x.den = ((x.num.toNat * 2 ^ F.scaleBits : Nat) : ℚ) := by
    have e : ((x.num.toNat : Nat) : ℚ) = x.num := by
      have := Int.toNat_of_nonneg (Rat.num_nonneg.2 hx)
      exact_mod_cast this
    push_cast
    rw [e, mul_right_comm, Rat.mul_den_eq_num]
  exact nearestTo_unique hd ((rounds_iff hF hd hn).1 h1) ((rounds_iff hF hd hn).1 h2)

end FloatFormat

theorem exponentValue_spec (ds : Str) (v : Nat) : ExponentDigits ds v ↔ exponentValue ds = v := by
  have key : ∀ (ds p : Str), decValue p < 65536 →
      ∃ w, ds.foldl (fun a c => if a < 0x10000 then 10 * a + (c.toNat - 48) else a) (decValue p) = w ∧
        ((decValue (p ++ ds) < 65536 ∧ w = decValue (p ++ ds)) ∨
          ∃ q c r, ds = q ++ c :: r ∧ decValue (p ++ q) < 65536 ∧ 65536 ≤ decValue (p ++ q ++ [c]) ∧ w = decValue (p ++ q ++ [c])) := by
    intro ds
    induction ds with
    | nil => intro p hp; exact ⟨_, rfl, .inl ⟨by simpa using hp, by simp⟩⟩
    | cons c ds ih =>
      intro p hp
      refine ⟨_, rfl, ?_⟩
      have e : (if decValue p < 0x10000 then 10 * decValue p + (c.toNat - 48) else decValue p) = decValue (p ++ [c]) := by
        rw [if_pos hp, decValue_append]
        simp [decValue, Nat.mul_comm]
      rw [List.foldl_cons, e]
      by_cases h : decValue (p ++ [c]) < 65536
      · obtain ⟨w, h1, h2⟩ := ih (p ++ [c]) h
        rw [h1]
        rw [List.append_assoc] at h2
        rcases h2 with h2 | ⟨q, c', r, rfl, h3, h4, h5⟩
        · exact .inl h2
        · exact .inr ⟨c :: q, c', r, rfl, by simpa using h3, by simpa using h4, by simpa using h5⟩
      · right
        refine ⟨[], c, ds, rfl, by simpa using hp, by simpa using h, ?_⟩
        have stuck : ∀ (l : Str) (a : Nat), ¬ a < 65536 →
            l.foldl (fun a c => if a < 0x10000 then 10 * a + (c.toNat - 48) else a) a = a := by
          intro l
          induction l with
          | nil => intro a _; rfl
          | cons x l ih' => intro a ha; rw [List.foldl_cons, if_neg (by exact ha)]; exact ih' a ha
        rw [stuck _ _ h]
        simp
  have mono : ∀ q r : Str, decValue q ≤ decValue (q ++ r) := by
    intro q r; rw [decValue_append]
    exact Nat.le_trans (Nat.le_mul_of_pos_right _ (Nat.pos_of_ne_zero (by simp))) (Nat.le_add_right _ _)
  obtain ⟨w, h1, h2⟩ := key ds [] (by decide)
  have h1 : exponentValue ds = w := h1
  simp only [List.nil_append] at h2
  rw [h1]
  constructor
  · rintro (⟨a, rfl⟩ | ⟨p, c, r, rfl, a, a', rfl⟩)
    · rcases h2 with ⟨-, h2⟩ | ⟨q, c, r, rfl, h3, h4, h5⟩
      · exact h2
      · have := mono (q ++ [c]) r
        simp only [List.append_assoc, List.singleton_append] at this h4
        omega
    · rcases h2 with ⟨h2, -⟩ | ⟨q, c', r', e, h3, h4, h5⟩
      · have := mono (p ++ [c]) r
        simp only [List.append_assoc, List.singleton_append] at this a'
        omega
      · subst h5
        suffices hs : q = p ∧ c' = c by rw [hs.1, hs.2]
        rcases List.append_eq_append_iff.1 e with ⟨m, hm, hm'⟩ | ⟨m, hm, hm'⟩
        · cases m with
          | nil => simp at hm hm'; exact ⟨hm, hm'.1.symm⟩
          | cons y m =>
            simp at hm'
            obtain ⟨rfl, rfl⟩ := hm'
            subst hm
            have := mono (p ++ [c]) m
            simp only [List.append_assoc, List.singleton_append] at this a' h3
            omega
        · cases m with
          | nil => simp at hm hm'; exact ⟨hm.symm, hm'.1⟩
          | cons y m =>
            simp at hm'
            obtain ⟨rfl, rfl⟩ := hm'
            subst hm
            have := mono (q ++ [c']) m
            simp only [List.append_assoc, List.singleton_append] at this h4 a
            omega
  · rintro rfl
    rcases h2 with h2 | ⟨q, c, r, h⟩
    · exact .inl h2
    · exact .inr ⟨q, c, r, h⟩

theorem parseExponent_iff {c : Char} {t : Str} {e : ℤ} (hc : c = 'e' ∨ c = 'E') :
    ExponentText (c :: t) e ↔ parseExponent t = some e := by
  have key : ∀ (neg : Bool) (ds : Str) (e : ℤ),
      (if ds.isEmpty || !ds.all Char.isDigit then none
        else some (if neg then -(exponentValue ds : Int) else (exponentValue ds : Int))) = some e ↔
      ds ≠ [] ∧ (∀ x ∈ ds, x.isDigit = true) ∧ ∃ v, ExponentDigits ds v ∧ e = if neg then -(v : ℤ) else v := by
    intro neg ds e
    simp only [exponentValue_spec]
    by_cases h : (ds.isEmpty || !ds.all Char.isDigit) = true
    · rw [if_pos h]
      simp only [reduceCtorEq, false_iff]
      rintro ⟨h1, h2, -⟩
      simp only [Bool.or_eq_true, List.isEmpty_iff, Bool.not_eq_true', h1, false_or] at h
      have : ds.all Char.isDigit = true := by simpa using h2
      rw [h] at this; cases this
    · rw [if_neg h]
      simp only [Bool.or_eq_true, List.isEmpty_iff, Bool.not_eq_true', not_or, Bool.not_eq_false, List.all_eq_true] at h
      simp only [Option.some.injEq, exists_eq_left']
      constructor
      · rintro rfl; exact ⟨h.1, h.2, rfl⟩
      · rintro ⟨-, -, rfl⟩; rfl
  have hd : ∀ x : Char, (x = '-' ∨ x = '+') → x.isDigit = false := by rintro x (rfl | rfl) <;> rfl
  have nil0 : ¬ (c :: t = [] ∧ e = 0) := by simp
  unfold ExponentText parseExponent
  split
  next negative ds hsplit =>
  rw [key]
  split at hsplit <;> obtain ⟨rfl, rfl⟩ := Prod.mk.inj hsplit
  · next t' =>
    constructor
    · rintro (h | ⟨c', ds, v, hc', hne, hds, hv, h⟩)
      · exact absurd h nil0
      · rcases h with ⟨h, -⟩ | ⟨h, -⟩ | ⟨h, rfl⟩
        · simp at h; obtain ⟨-, rfl⟩ := h
          have := hds '-' (by simp); simp at this
        · simp at h
        · simp at h; obtain ⟨-, rfl⟩ := h
          exact ⟨hne, hds, v, hv, by simp⟩
    · rintro ⟨h1, h2, v, h3, h4⟩
      exact .inr ⟨c, t', v, hc, h1, h2, h3, .inr (.inr ⟨rfl, by simpa using h4⟩)⟩
  · next t' =>
    constructor
    · rintro (h | ⟨c', ds, v, hc', hne, hds, hv, h⟩)
      · exact absurd h nil0
      · rcases h with ⟨h, -⟩ | ⟨h, rfl⟩ | ⟨h, -⟩
        · simp at h; obtain ⟨-, rfl⟩ := h
          have := hds '+' (by simp); simp at this
        · simp at h; obtain ⟨-, rfl⟩ := h
          exact ⟨hne, hds, v, hv, by simp⟩
        · simp at h
    · rintro ⟨h1, h2, v, h3, h4⟩
      exact .inr ⟨c, t', v, hc, h1, h2, h3, .inr (.inl ⟨rfl, by simpa using h4⟩)⟩
  · next t' hm hp =>
    constructor
    · rintro (h | ⟨c', ds, v, hc', hne, hds, hv, h⟩)
      · exact absurd h nil0
      · rcases h with ⟨h, rfl⟩ | ⟨h, -⟩ | ⟨h, -⟩
        · simp at h; obtain ⟨-, rfl⟩ := h
          exact ⟨hne, hds, v, hv, by simp⟩
        · simp at h; exact absurd h.2 (hp _)
        · simp at h; exact absurd h.2 (hm _)
    · rintro ⟨h1, h2, v, h3, h4⟩
      exact .inr ⟨c, t, v, hc, h1, h2, h3, .inl ⟨rfl, by simpa using h4⟩⟩

/-- The end of `parseDecimal`: the exponent -/
def finishDecimal (whole frac tail : Str) : Option (Nat × ℤ) :=
  if (whole ++ frac).isEmpty then none
  else
    match tail with
    | [] => some (digitsToNat (whole ++ frac), -(frac.length : Int))
    | c :: t =>
      if c = 'e' ∨ c = 'E' then
        (parseExponent t).map fun e => (digitsToNat (whole ++ frac), -(frac.length : Int) + e)
      else none

theorem finishDecimal_iff {whole frac tail : Str} {d : Nat} {e : ℤ} :
    finishDecimal whole frac tail = some (d, e) ↔
      whole ++ frac ≠ [] ∧ ∃ e', ExponentText tail e' ∧ d = decValue (whole ++ frac) ∧ e = e' - frac.length := by
  unfold finishDecimal
  by_cases h : (whole ++ frac).isEmpty = true
  · rw [if_pos h]
    simp only [reduceCtorEq, false_iff]
    rintro ⟨h1, -⟩
    exact h1 (by simpa using h)
  · rw [if_neg h]
    have h' : whole ++ frac ≠ [] := by simpa using h
    simp only [digitsToNat_eq]
    cases tail with
    | nil =>
      simp only [Option.some.injEq, Prod.mk.injEq]
      constructor
      · rintro ⟨rfl, rfl⟩
        exact ⟨h', 0, .inl ⟨rfl, rfl⟩, rfl, by omega⟩
      · rintro ⟨-, e', he, rfl, rfl⟩
        rcases he with ⟨-, rfl⟩ | ⟨c, ds, v, -, -, -, -, h⟩
        · exact ⟨rfl, by omega⟩
        · rcases h with ⟨h, -⟩ | ⟨h, -⟩ | ⟨h, -⟩ <;> cases h
    | cons c t =>
      simp only
      by_cases hc : c = 'e' ∨ c = 'E'
      · rw [if_pos hc]
        simp only [parseExponent_iff hc, Option.map_eq_some_iff, Prod.mk.injEq]
        constructor
        · rintro ⟨e', h1, rfl, rfl⟩; exact ⟨h', e', h1, rfl, by omega⟩
        · rintro ⟨-, e', h1, rfl, rfl⟩; exact ⟨e', h1, rfl, by omega⟩
      · rw [if_neg hc]
        simp only [reduceCtorEq, false_iff]
        rintro ⟨-, e', he, -⟩
        rcases he with ⟨h, -⟩ | ⟨c', ds, v, hc', -, -, -, h⟩
        · cases h
        · rcases h with ⟨h, -⟩ | ⟨h, -⟩ | ⟨h, -⟩ <;> (cases h; exact hc hc')

theorem parseDecimal_point' {whole frac tail : Str} (h1 : ∀ c ∈ whole, c.isDigit = true) (h2 : ∀ c ∈ frac, c.isDigit = true)
    (h3 : ∀ c ∈ tail.head?, c.isDigit = false) :
    parseDecimal (whole ++ '.' :: (frac ++ tail)) = finishDecimal whole frac tail := by
  obtain ⟨e1, e2⟩ := takeWhile_digits (t := '.' :: (frac ++ tail)) h1 (by simp)
  obtain ⟨e3, e4⟩ := takeWhile_digits (t := tail) h2 h3
  unfold parseDecimal finishDecimal
  simp only [e1, e2, e3, e4]
  rfl

theorem parseDecimal_whole' {whole tail : Str} (h1 : ∀ c ∈ whole, c.isDigit = true)
    (h3 : ∀ c ∈ tail.head?, c.isDigit = false ∧ c ≠ '.') :
    parseDecimal (whole ++ tail) = finishDecimal whole [] tail := by
  obtain ⟨e1, e2⟩ := takeWhile_digits (t := tail) h1 fun c hc => (h3 c hc).1
  unfold parseDecimal finishDecimal
  simp only [e1, e2]
  split
  · next t => exact absurd rfl (h3 '.' (by simp)).2
  · rfl

theorem ExponentText.head {tail : Str} {e : ℤ} (h : ExponentText tail e) : ∀ c ∈ tail.head?, c.isDigit = false ∧ c ≠ '.' := by
  rcases h with ⟨rfl, -⟩ | ⟨c, ds, v, hc, -, -, -, h⟩
  · simp
  · have : tail.head? = some c := by rcases h with ⟨rfl, -⟩ | ⟨rfl, -⟩ | ⟨rfl, -⟩ <;> rfl
    rw [this]
    intro x hx
    simp at hx
    subst hx
    rcases hc with rfl | rfl <;> exact ⟨rfl, by decide⟩

theorem split_digits (t : Str) : ∃ whole rest, t = whole ++ rest ∧ (∀ c ∈ whole, c.isDigit = true) ∧
    ∀ c ∈ rest.head?, c.isDigit = false := by
  induction t with
  | nil => exact ⟨[], [], rfl, by simp, by simp⟩
  | cons c t ih =>
    by_cases h : c.isDigit = true
    · obtain ⟨w, r, rfl, h1, h2⟩ := ih
      refine ⟨c :: w, r, rfl, ?_, h2⟩
      simpa using ⟨h, h1⟩
    · exact ⟨[], c :: t, rfl, by simp, by simpa using h⟩

theorem parseDecimal_iff {t : Str} {x : ℚ} :
    DecimalText t x ↔ ∃ d e, parseDecimal t = some (d, e) ∧ x = (d : ℚ) * 10 ^ e := by
  constructor
  · rintro ⟨whole, frac, tail, e, h1, h2, h3, h4, rfl⟩
    refine ⟨_, _, ?_, rfl⟩
    have hf := finishDecimal_iff.2 ⟨h2, e, h3, rfl, rfl⟩
    rcases h4 with rfl | ⟨rfl, rfl⟩
    · rw [parseDecimal_point' (fun c hc => h1 c (by simp [hc])) (fun c hc => h1 c (by simp [hc])) fun c hc => (h3.head c hc).1]
      exact hf
    · rw [parseDecimal_whole' (fun c hc => h1 c (by simp [hc])) h3.head]
      exact hf
  · rintro ⟨d, e, h, rfl⟩
    obtain ⟨whole, rest, rfl, h1, h2⟩ := split_digits t
    by_cases hp : rest.head? = some '.'
    · obtain ⟨r, rfl⟩ : ∃ r, rest = '.' :: r := by
        cases rest with
        | nil => cases hp
        | cons c r => simp at hp; exact ⟨r, by rw [hp]⟩
      obtain ⟨frac, tail, rfl, h3, h4⟩ := split_digits r
      rw [parseDecimal_point' h1 h3 h4] at h
      obtain ⟨h5, e', h6, rfl, rfl⟩ := finishDecimal_iff.1 h
      refine ⟨whole, frac, tail, e', ?_, h5, h6, .inl rfl, rfl⟩
      intro c hc
      rcases List.mem_append.1 hc with hc | hc
      · exact h1 c hc
      · exact h3 c hc
    · rw [parseDecimal_whole' h1 fun c hc => ⟨h2 c hc, by rintro rfl; exact hp hc⟩] at h
      obtain ⟨h5, e', h6, rfl, rfl⟩ := finishDecimal_iff.1 h
      exact ⟨whole, [], rest, e', by simpa using h1, h5, h6, .inr ⟨rfl, rfl⟩, rfl⟩

theorem DecimalText.head {t : Str} {x : ℚ} (h : DecimalText t x) : ∃ c r, t = c :: r ∧ (c.isDigit = true ∨ c = '.') := by
  obtain ⟨whole, frac, tail, e, h1, h2, h3, h4, -⟩ := h
  cases whole with
  | nil =>
    rcases h4 with rfl | ⟨rfl, rfl⟩
    · exact ⟨_, _, rfl, .inr rfl⟩
    · exact absurd rfl h2
  | cons c w =>
    have hc := h1 c (by simp)
    rcases h4 with rfl | ⟨rfl, rfl⟩ <;> exact ⟨_, _, rfl, .inl hc⟩

theorem parseDecimal_letters {c : Char} {r : Str} (h1 : c.isDigit = false) (h2 : c ≠ '.') : parseDecimal (c :: r) = none := by
  cases h : parseDecimal (c :: r) with
  | none => rfl
  | some p =>
    exfalso
    obtain ⟨d, e⟩ := p
    obtain ⟨c', r', he, h3⟩ := (parseDecimal_iff.2 ⟨d, e, h, rfl⟩).head
    cases he
    rcases h3 with h3 | h3
    · rw [h1] at h3; cases h3
    · exact h2 h3

theorem asciiLower_letter {c l : Char} (h : asciiLower c = l) (hl : l = 'i' ∨ l = 'n') : c.isDigit = false ∧ c ≠ '.' ∧ c ≠ '-' ∧ c ≠ '+' := by
  refine ⟨?_, ?_, ?_, ?_⟩
  · by_contra hd
    have hd : c.isDigit = true := by simpa using hd
    have e : asciiLower c = c := by
      unfold asciiLower
      rw [if_neg]
      simp [Char.isDigit] at hd
      intro hc
      simp only [Bool.and_eq_true, decide_eq_true_eq] at hc
      have h1 := hc.1
      have h2 : '9'.toNat < 'A'.toNat := by decide
      have h3 : c.toNat ≤ '9'.toNat := hd.2
      have h4 : 'A'.toNat ≤ c.toNat := h1
      omega
    rw [e] at h
    subst h
    rcases hl with rfl | rfl <;> cases hd
  all_goals
    rintro rfl
    rcases hl with rfl | rfl <;> revert h <;> decide

namespace FloatFormat
variable {F : FloatFormat}

theorem parseSpecial_iff {t : Str} {b : Nat} : F.parseSpecial t = some b ↔
    ((t.map asciiLower = c%"inf" ∨ t.map asciiLower = c%"infinity") ∧ b = F.infinity) ∨
      (t.map asciiLower = c%"nan" ∧ b = F.infinity + 2 ^ (F.mb - 1)) := by
  unfold parseSpecial
  simp only
  by_cases h1 : t.map asciiLower = c%"inf" ∨ t.map asciiLower = c%"infinity"
  · rw [if_pos h1]
    have : t.map asciiLower ≠ c%"nan" := by rcases h1 with h | h <;> rw [h] <;> decide
    simp only [this, false_and, or_false, h1, true_and, Option.some.injEq]
    exact eq_comm
  · rw [if_neg h1]
    by_cases h2 : t.map asciiLower = c%"nan"
    · rw [if_pos h2]
      have h3 : ¬(c%"nan" = c%"inf" ∨ c%"nan" = c%"infinity") := by decide
      simp only [h2, h3, false_and, false_or, true_and, Option.some.injEq]
      exact eq_comm
    · rw [if_neg h2]
      simp [h1, h2]

theorem parseSpecial_head {t : Str} {b : Nat} (h : F.parseSpecial t = some b) :
    ∃ c r, t = c :: r ∧ c.isDigit = false ∧ c ≠ '.' ∧ c ≠ '-' ∧ c ≠ '+' := by
  have key : ∀ l r, t.map asciiLower = l :: r → (l = 'i' ∨ l = 'n') → ∃ c r, t = c :: r ∧ c.isDigit = false ∧ c ≠ '.' ∧ c ≠ '-' ∧ c ≠ '+' := by
    intro l r h hl
    cases t with
    | nil => cases h
    | cons c t =>
      rw [List.map_cons, List.cons.injEq] at h
      exact ⟨c, t, rfl, asciiLower_letter h.1 hl⟩
  rcases parseSpecial_iff.1 h with ⟨h | h, -⟩ | ⟨h, -⟩
  · exact key _ _ h (.inl rfl)
  · exact key _ _ h (.inl rfl)
  · exact key _ _ h (.inr rfl)

/-- The magnitude read from a text without sign -/
def readMagnitude (F : FloatFormat) (t : Str) : Option Nat :=
  match parseDecimal t with
  | some (d, e) => some (F.ofDecimal d e)
  | none => F.parseSpecial t

theorem magnitude_iff (hF : F.Proper) {t : Str} {b : Nat} : MagnitudeText F t b ↔ F.readMagnitude t = some b := by
  have hx : ∀ (d : Nat) (e : ℤ), (0 : ℚ) ≤ (d : ℚ) * 10 ^ e := fun d e => by positivity
  unfold readMagnitude
  constructor
  · rintro (⟨x, h1, h2⟩ | h)
    · obtain ⟨d, e, h3, rfl⟩ := parseDecimal_iff.1 h1
      rw [h3]
      simp only [Option.some.injEq]
      exact (ofDecimal_rounds hF d e).unique hF (hx d e) h2
    · have h := parseSpecial_iff.2 h
      obtain ⟨c, r, rfl, h1, h2, -⟩ := parseSpecial_head h
      rw [parseDecimal_letters h1 h2]
      exact h
  · intro h
    cases hp : parseDecimal t with
    | some p =>
      obtain ⟨d, e⟩ := p
      rw [hp] at h
      simp only [Option.some.injEq] at h
      subst h
      exact .inl ⟨_, parseDecimal_iff.2 ⟨d, e, hp, rfl⟩, ofDecimal_rounds hF d e⟩
    | none =>
      rw [hp] at h
      exact .inr (parseSpecial_iff.1 h)

theorem readMagnitude_head {t : Str} {b : Nat} (h : F.readMagnitude t = some b) : ∃ c r, t = c :: r ∧ c ≠ '-' ∧ c ≠ '+' := by
  unfold readMagnitude at h
  split at h
  · next d e hp =>
    obtain ⟨c, r, rfl, hc⟩ := (parseDecimal_iff.2 ⟨d, e, hp, rfl⟩).head
    refine ⟨c, r, rfl, ?_, ?_⟩ <;> rintro rfl <;> revert hc <;> decide
  · obtain ⟨c, r, rfl, -, -, h1, h2⟩ := parseSpecial_head h
    exact ⟨c, r, rfl, h1, h2⟩

theorem parse_eq (s : Str) : F.parse s = match s with
    | [] => .error .empty
    | c :: t => match F.readMagnitude (if c = '-' ∨ c = '+' then t else s) with
      | some b => .ok ((if c = '-' then F.signBit else 0) + b)
      | none => .error .invalid := by
  unfold parse readMagnitude
  cases s with
  | nil => rfl
  | cons c t =>
    simp only
    generalize (if c = '-' ∨ c = '+' then t else c :: t) = u
    rcases parseDecimal u with _ | ⟨d, e⟩
    · rcases F.parseSpecial u with _ | m <;> rfl
    · rfl

/-- Reading a float gives what the text stands for. -/
theorem parse_iff (hF : F.Proper) {t : Str} {bits : Nat} : F.parse t = .ok bits ↔ FloatText F t bits := by
  unfold FloatText
  simp only [magnitude_iff hF]
  rw [parse_eq]
  cases t with
  | nil =>
    simp only [reduceCtorEq, false_and, exists_false, or_false, false_iff]
    intro h
    obtain ⟨c, r, h, -⟩ := readMagnitude_head h
    cases h
  | cons c t =>
    simp only [List.cons.injEq]
    by_cases h1 : c = '-'
    · subst h1
      have e0 : F.readMagnitude ('-' :: t) = none := by
        cases h : F.readMagnitude ('-' :: t) with
        | none => rfl
        | some b => obtain ⟨c, r, he, h1, -⟩ := readMagnitude_head h; cases he; exact absurd rfl h1
      rw [e0]
      simp only [true_or, if_true, reduceCtorEq, false_or, Char.reduceEq, false_and, exists_false, true_and]
      cases h : F.readMagnitude t with
      | none =>
        simp only [reduceCtorEq, false_iff]
        rintro ⟨u, b, rfl, h', -⟩
        rw [h] at h'; cases h'
      | some b =>
        simp only [Except.ok.injEq]
        constructor
        · rintro rfl; exact ⟨t, b, rfl, h, rfl⟩
        · rintro ⟨u, b', rfl, h', rfl⟩
          rw [h] at h'; cases h'; rfl
    · by_cases h2 : c = '+'
      · subst h2
        have e0 : F.readMagnitude ('+' :: t) = none := by
          cases h : F.readMagnitude ('+' :: t) with
          | none => rfl
          | some b => obtain ⟨c, r, he, -, h1⟩ := readMagnitude_head h; cases he; exact absurd rfl h1
        rw [e0]
        simp only [or_true, if_true, reduceCtorEq, false_or, Char.reduceEq, false_and, exists_false, true_and, or_false, if_false,
          Nat.zero_add, exists_eq_left']
        cases h : F.readMagnitude t <;> simp
      · simp only [h1, h2, false_or, if_false, false_and, exists_false, or_false, Nat.zero_add]
        cases h : F.readMagnitude (c :: t) <;> simp

end FloatFormat
end Sdp
