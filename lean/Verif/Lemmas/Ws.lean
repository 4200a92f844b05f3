import Verif.Lemmas.Scan
/-!
# Whitespace around a text
-/

namespace Sdp

theorem splitP_snoc_true {p : Char → Bool} {c : Char} {s : Str} (h : p c = true) :
    splitP p (s ++ [c]) = splitP p s ++ [[]] := by
  induction s with
  | nil => simp [splitP, h]
  | cons x xs ih =>
    simp only [List.cons_append, splitP]
    by_cases hx : p x = true
    · simp [hx, ih]
    · simp only [hx, ih]
      cases hs : splitP p xs with
      | nil => exact absurd hs (splitP_ne_nil _ _)
      | cons y ys => simp

theorem splitWs_ws_append {w s : Str} (h : Blank w) : splitWs (w ++ s) = splitWs s := by
  induction w with
  | nil => rfl
  | cons c w ih =>
    rw [List.cons_append, splitWs_cons_ws (h c (by simp)), ih fun x hx => h x (by simp [hx])]

theorem splitWs_append_ws {w s : Str} (h : Blank w) : splitWs (s ++ w) = splitWs s := by
  induction w generalizing s with
  | nil => simp
  | cons c w ih =>
    have : s ++ c :: w = (s ++ [c]) ++ w := by simp
    rw [this, ih fun x hx => h x (by simp [hx])]
    unfold splitWs
    rw [splitP_snoc_true (h c (by simp))]
    simp

theorem mem_takeWhile_true {α : Type} {p : α → Bool} {l : List α} {x : α} (h : x ∈ l.takeWhile p) : p x = true := by
  induction l with
  | nil => simp at h
  | cons y ys ih =>
    rw [List.takeWhile_cons] at h
    by_cases hy : p y = true
    · simp only [hy, if_true, List.mem_cons] at h
      rcases h with rfl | h
      · exact hy
      · exact ih h
    · simp [hy] at h

theorem trimStart_spec (s : Str) : ∃ w, Blank w ∧ s = w ++ trimStart s :=
  ⟨s.takeWhile isWs, fun x hx => mem_takeWhile_true hx, (List.takeWhile_append_dropWhile).symm⟩

theorem trimEnd_spec (s : Str) : ∃ w, Blank w ∧ s = trimEnd s ++ w := by
  refine ⟨(s.reverse.takeWhile isWs).reverse, fun x hx => mem_takeWhile_true (List.mem_reverse.1 hx), ?_⟩
  unfold trimEnd
  rw [← List.reverse_append, List.takeWhile_append_dropWhile, List.reverse_reverse]

theorem trim_spec (s : Str) : ∃ w1 w2, Blank w1 ∧ Blank w2 ∧ s = w1 ++ trim s ++ w2 := by
  obtain ⟨w1, h1, e1⟩ := trimStart_spec s
  obtain ⟨w2, h2, e2⟩ := trimEnd_spec (trimStart s)
  refine ⟨w1, w2, h1, h2, ?_⟩
  rw [List.append_assoc]
  unfold trim
  rw [← e2, ← e1]

theorem splitWs_trim (s : Str) : splitWs (trim s) = splitWs s := by
  obtain ⟨w1, w2, h1, h2, e⟩ := trim_spec s
  conv_rhs => rw [e]
  rw [splitWs_append_ws h2, splitWs_ws_append h1]

theorem trimStart_ws_append {w s : Str} (h : Blank w) : trimStart (w ++ s) = trimStart s := by
  unfold trimStart; rw [List.dropWhile_append_of_pos]; exact fun x hx => h x hx

theorem trimEnd_append_ws {w s : Str} (h : Blank w) : trimEnd (s ++ w) = trimEnd s := by
  unfold trimEnd
  rw [List.reverse_append, List.dropWhile_append_of_pos]
  exact fun x hx => h x (List.mem_reverse.1 hx)

theorem trimStart_append {s w : Str} (h : ¬ Blank s) : trimStart (s ++ w) = trimStart s ++ w := by
  unfold trimStart
  rw [List.dropWhile_append]
  have : s.dropWhile isWs ≠ [] := fun h' => h (trimStart_eq_nil.1 h')
  simp [this]

theorem trim_append_ws {s w : Str} (h : Blank w) : trim (s ++ w) = trim s := by
  by_cases hs : Blank s
  · rw [trim_eq_nil.2 hs, trim_eq_nil]
    intro x hx
    simp only [List.mem_append] at hx
    rcases hx with hx | hx
    · exact hs x hx
    · exact h x hx
  · unfold trim; rw [trimStart_append hs, trimEnd_append_ws h]

theorem trim_ws_append {s w : Str} (h : Blank w) : trim (w ++ s) = trim s := by
  unfold trim; rw [trimStart_ws_append h]

/-- Whitespace around a text does not change its trimmed form. -/
theorem trim_pad {s w1 w2 : Str} (h1 : Blank w1) (h2 : Blank w2) : trim (w1 ++ s ++ w2) = trim s := by
  rw [trim_append_ws h2, trim_ws_append h1]

theorem trim_trim (s : Str) : trim (trim s) = trim s := by
  obtain ⟨w1, w2, h1, h2, e⟩ := trim_spec s
  conv_rhs => rw [e]
  rw [trim_pad h1 h2]

/-- A text without whitespace at its ends is its own trimmed form. -/
theorem trim_id {s : Str} (h1 : ∀ c, s.head? = some c → isWs c = false)
    (h2 : ∀ c, s.getLast? = some c → isWs c = false) : trim s = s := by
  obtain ⟨w1, w2, k1, k2, e⟩ := trim_spec s
  have e1 : w1 = [] := by
    cases w1 with
    | nil => rfl
    | cons x xs =>
      have := h1 x (by rw [e]; simp)
      rw [k1 x (by simp)] at this; cases this
  have e2 : w2 = [] := by
    rcases List.eq_nil_or_concat w2 with h | ⟨ys, y, h⟩
    · exact h
    · have := h2 y (by rw [e, h]; simp)
      rw [k2 y (by simp [h])] at this; cases this
  subst e1 e2
  simpa using e.symm

theorem trim_noWs {s : Str} (h : NoWs s) : trim s = s :=
  trim_id (fun c hc => h c (List.mem_of_mem_head? hc)) (fun c hc => h c (List.mem_of_getLast? hc))

end Sdp
