import Verif.Spec.WF
import Verif.Lemmas.Ws
import Verif.Lemmas.Num
import Verif.Lemmas.Ip
import Verif.Lemmas.Dispatch
/-!
# Words and trimmed texts
-/

namespace Sdp

theorem Token.noWs {s : Str} (h : Token s) : NoWs s := h.2
theorem Token.ne {s : Str} (h : Token s) : s ≠ [] := h.1

theorem Token.both {s : Str} (h : Token s) : NoWs s ∧ s ≠ [] := ⟨h.2, h.1⟩

theorem BeginsClean.append {a b : Str} (h : BeginsClean a) : BeginsClean (a ++ b) := by
  obtain ⟨c, r, rfl, hc⟩ := h; exact ⟨c, r ++ b, rfl, hc⟩

theorem EndsClean.append {a b : Str} (h : EndsClean b) : EndsClean (a ++ b) := by
  obtain ⟨r, c, rfl, hc⟩ := h; exact ⟨a ++ r, c, by simp, hc⟩

theorem EndsClean.cons {c : Char} {b : Str} (h : EndsClean b) : EndsClean (c :: b) :=
  EndsClean.append (a := [c]) h

theorem BeginsClean.ne {a : Str} (h : BeginsClean a) : a ≠ [] := by
  obtain ⟨c, r, rfl, -⟩ := h; simp

theorem EndsClean.ne {a : Str} (h : EndsClean a) : a ≠ [] := by
  obtain ⟨c, r, rfl, -⟩ := h; simp

theorem Token.begins {s : Str} (h : Token s) : BeginsClean s := by
  obtain ⟨h1, h2⟩ := h
  cases s with
  | nil => exact absurd rfl h1
  | cons c r => exact ⟨c, r, rfl, h2 c (by simp)⟩

theorem Token.ends {s : Str} (h : Token s) : EndsClean s := by
  obtain ⟨h1, h2⟩ := h
  rcases List.eq_nil_or_concat s with rfl | ⟨r, c, rfl⟩
  · exact absurd rfl h1
  · exact ⟨r, c, by simp, h2 c (by simp)⟩

theorem Token.trimmed {s : Str} (h : Token s) : Trimmed s := ⟨h.begins, h.ends⟩

theorem Trimmed.trim {s : Str} (h : Trimmed s) : Sdp.trim s = s := by
  obtain ⟨⟨c, r, h1, hc⟩, r', d, h2, hd⟩ := h
  refine trim_id ?_ ?_
  · intro x hx; rw [h1] at hx; cases hx; exact hc
  · intro x hx; rw [h2] at hx; simp at hx; subst hx; exact hd

theorem isDigit_ws {c : Char} (h : c.isDigit = true) : isWs c = false := by
  have := isDigit_iff.1 h
  simp [isWs]; omega

theorem Token.showNat (n : Nat) : Token (showNat n) :=
  ⟨showNat_ne_nil n, fun _ hc => isDigit_ws (showNat_digits hc)⟩

theorem Token.u8 (n : UInt8) : Token (showU8 n) := Token.showNat _
theorem Token.u16 (n : UInt16) : Token (showU16 n) := Token.showNat _
theorem Token.u32 (n : UInt32) : Token (showU32 n) := Token.showNat _
theorem Token.u64 (n : UInt64) : Token (showU64 n) := Token.showNat _

theorem Token.joinS_ends {l : List Str} {sep : Str} (h : l ≠ []) (ht : ∀ t ∈ l, EndsClean t) :
    EndsClean (joinS sep l) := by
  induction l with
  | nil => exact absurd rfl h
  | cons x xs ih =>
    cases xs with
    | nil => exact ht x (by simp)
    | cons y ys => exact (ih (by simp) fun t h => ht t (by simp [h])).append

theorem Token.joinS_begins {l : List Str} {sep : Str} (h : l ≠ []) (ht : ∀ t ∈ l, BeginsClean t) :
    BeginsClean (joinS sep l) := by
  cases l with
  | nil => exact absurd rfl h
  | cons x xs =>
    cases xs with
    | nil => exact ht x (by simp)
    | cons y ys => exact ((ht x (by simp)).append).append

theorem tokens_trimmed {l : List Str} (h : l ≠ []) (ht : ∀ t ∈ l, Token t) : Trimmed (joinS [' '] l) :=
  ⟨Token.joinS_begins h fun t hm => (ht t hm).begins, Token.joinS_ends h fun t hm => (ht t hm).ends⟩

theorem splitWs_tokens {l : List Str} (ht : ∀ t ∈ l, Token t) : splitWs (joinS [' '] l) = l :=
  splitWs_joinS fun t h => (ht t h).both

end Sdp
