import Verif.Lemmas.Num
import Verif.Spec.NumError
/-!
# Which error a failed number parse gives
-/

namespace Sdp

theorem digitLoop_error {lim acc : Nat} (hacc : acc < lim) (s : Str) :
    digitLoop 10 lim acc s =
      if lim ≤ (s.takeWhile Char.isDigit).foldl (fun acc c => acc * 10 + (c.toNat - '0'.toNat)) acc then .error .posOverflow
      else if s.takeWhile Char.isDigit = s then .ok (s.foldl (fun acc c => acc * 10 + (c.toNat - '0'.toNat)) acc)
      else .error .invalidDigit := by
  have mono (t : Str) (a : Nat) : a ≤ t.foldl (fun acc c => acc * 10 + (c.toNat - '0'.toNat)) a := by
    induction t generalizing a with
    | nil => exact Nat.le_refl _
    | cons c t ih => exact Nat.le_trans (by show a ≤ a * 10 + _; omega) (ih _)
  induction s generalizing acc with
  | nil => simp [digitLoop, hacc]
  | cons c cs ih =>
    simp only [digitLoop, toDigit_ten]
    by_cases hd : c.isDigit = true
    · simp only [hd, if_true, List.takeWhile_cons, List.foldl_cons, List.cons.injEq, true_and]
      have e : c.toNat - '0'.toNat = c.toNat - 48 := rfl
      rw [e]
      by_cases h1 : acc * 10 + (c.toNat - 48) < lim
      · rw [if_pos (by omega), if_pos h1, ih h1]
      · have h2 := mono (cs.takeWhile Char.isDigit) (acc * 10 + (c.toNat - 48))
        rw [if_neg h1, ite_self, if_pos (by omega)]
    · have hd : c.isDigit = false := by simpa using hd
      simp [hd, hacc]

theorem parseRadix_error {lim : Nat} (hlim : 0 < lim) (s : Str) (e : IntErr) :
    parseRadix 10 lim s = .error e ↔ numberError lim s = some e := by
  have key (t : Str) (ht : t ≠ []) : digitLoop 10 lim 0 t = .error e ↔
      (if lim ≤ decValue (t.takeWhile Char.isDigit) then some IntErr.posOverflow
       else if t.takeWhile Char.isDigit = [] ∨ t.takeWhile Char.isDigit ≠ t then some .invalidDigit
       else none) = some e := by
    rw [digitLoop_error hlim]
    unfold decValue
    split
    · simp
    · by_cases h : t.takeWhile Char.isDigit = t
      · rw [if_pos h, if_neg (by simp only [h]; simp [ht])]; simp
      · rw [if_neg h, if_pos (.inr h)]; simp
  have hz : ¬ lim = 0 := by omega
  unfold numberError leadingDigits
  by_cases h0 : s = []
  · subst h0; simp [parseRadix]
  by_cases hp : ∃ ds, s = '+' :: ds
  · obtain ⟨ds, rfl⟩ := hp
    have hu : unsigned ('+' :: ds) = ds := rfl
    rw [hu, if_neg h0]
    by_cases hd : ds = []
    · subst hd; simp [parseRadix, decValue, hz]
    · have h1 : parseRadix 10 lim ('+' :: ds) = digitLoop 10 lim 0 ds := by
        unfold parseRadix; split
        · rename_i h; cases h
        · rename_i h; cases h; exact absurd rfl hd
        · rename_i h; cases h; rfl
        · rename_i h; exact absurd rfl (h ds)
      rw [h1]; exact key ds hd
  · have hu : unsigned s = s := by
      unfold unsigned; split
      · exact absurd ⟨_, rfl⟩ hp
      · rfl
    have h1 : parseRadix 10 lim s = digitLoop 10 lim 0 s := by
      unfold parseRadix; split
      · exact absurd rfl h0
      · exact absurd ⟨_, rfl⟩ hp
      · exact absurd ⟨_, rfl⟩ hp
      · rfl
    rw [hu, h1, if_neg h0]
    exact key s h0

end Sdp
