import Verif.Lemmas.Outcome
/-!
# Lemmas about the string functions
-/

namespace Sdp

/-! ## breakC, splitn -/

theorem breakC_eq_none {c : Char} {s : Str} : breakC c s = none ↔ c ∉ s := by
  induction s with
  | nil => simp [breakC]
  | cons x xs ih =>
    simp only [breakC, List.mem_cons, not_or]
    by_cases h : x = c
    · simp [h]
    · simp only [beq_iff_eq, h, if_false]
      cases hb : breakC c xs with
      | none => simp [hb] at ih; simp [ih, Ne.symm h]
      | some p => simp [hb] at ih; simp [ih]

theorem breakC_eq_some {c : Char} {s a b : Str} :
    breakC c s = some (a, b) ↔ s = a ++ c :: b ∧ c ∉ a := by
  induction s generalizing a b with
  | nil => simp [breakC]
  | cons x xs ih =>
    simp only [breakC]
    by_cases h : x = c
    · simp only [h, beq_self_eq_true, if_true]
      constructor
      · rintro ⟨⟩; simp
      · rintro ⟨h1, h2⟩
        cases a with
        | nil => simp at h1; simp [h1]
        | cons y ys => simp at h1; simp [h1.1] at h2
    · simp only [beq_iff_eq, h, if_false]
      cases hb : breakC c xs with
      | none =>
        simp only [reduceCtorEq, false_iff]
        rintro ⟨h1, h2⟩
        cases a with
        | nil => simp at h1; exact h h1.1
        | cons y ys =>
          simp at h1
          have := breakC_eq_none.1 hb
          simp [h1.2] at this
      | some p =>
        obtain ⟨p, q⟩ := p
        have := ih.1 hb
        constructor
        · intro he; simp at he; obtain ⟨rfl, rfl⟩ := he
          simp [this.1, this.2, Ne.symm h]
        · rintro ⟨h1, h2⟩
          cases a with
          | nil => simp at h1; exact absurd h1.1 h
          | cons y ys =>
            simp only [List.cons_append, List.cons.injEq] at h1
            obtain ⟨rfl, h1⟩ := h1
            have : breakC c xs = some (ys, b) := ih.2 ⟨h1, by simp at h2; exact h2.2⟩
            rw [hb] at this; simp at this; simp [this]

theorem breakC_append {c : Char} {a b : Str} (h : c ∉ a) : breakC c (a ++ c :: b) = some (a, b) :=
  breakC_eq_some.2 ⟨rfl, h⟩

theorem splitn_two {c : Char} {s : Str} :
    splitn 2 c s = match breakC c s with | none => [s] | some (a, b) => [a, b] := by
  simp only [splitn]
  rcases breakC c s with _ | ⟨a, b⟩ <;> rfl

theorem splitn_two_of_not_mem {c : Char} {s : Str} (h : c ∉ s) : splitn 2 c s = [s] := by
  rw [splitn_two, breakC_eq_none.2 h]

theorem splitn_two_append {c : Char} {a b : Str} (h : c ∉ a) : splitn 2 c (a ++ c :: b) = [a, b] := by
  rw [splitn_two, breakC_append h]

theorem splitn_two_of_mem {c : Char} {s : Str} (h : c ∈ s) :
    ∃ a b, splitn 2 c s = [a, b] ∧ s = a ++ c :: b ∧ c ∉ a := by
  cases hb : breakC c s with
  | none => exact absurd h (breakC_eq_none.1 hb)
  | some p =>
    obtain ⟨a, b⟩ := p
    exact ⟨a, b, by rw [splitn_two, hb], breakC_eq_some.1 hb⟩

theorem splitn_two_cases (c : Char) (s : Str) :
    (splitn 2 c s = [s] ∧ c ∉ s) ∨ ∃ a b, splitn 2 c s = [a, b] ∧ s = a ++ c :: b ∧ c ∉ a := by
  by_cases h : c ∈ s
  · exact .inr (splitn_two_of_mem h)
  · exact .inl ⟨splitn_two_of_not_mem h, h⟩

theorem splitn_length_le (n : Nat) (c : Char) (s : Str) : (splitn n c s).length ≤ n := by
  induction n generalizing s with
  | zero => simp [splitn]
  | succ n ih =>
    cases n with
    | zero => simp [splitn]
    | succ n =>
      simp only [splitn]
      split
      · simp
      · simp; exact ih _

theorem splitn_succ_ne_nil (n : Nat) (c : Char) (s : Str) : splitn (n + 1) c s ≠ [] := by
  cases n with
  | zero => simp [splitn]
  | succ n => simp only [splitn]; split <;> simp

/-! ## splitP -/

theorem splitP_ne_nil (p : Char → Bool) (s : Str) : splitP p s ≠ [] := by
  cases s with
  | nil => simp [splitP]
  | cons c cs => simp only [splitP]; split; · simp
                 · split <;> simp

theorem splitP_cons_false {p : Char → Bool} {c : Char} {s : Str} (h : p c = false) :
    ∃ x xs, splitP p s = x :: xs ∧ splitP p (c :: s) = (c :: x) :: xs := by
  cases hs : splitP p s with
  | nil => exact absurd hs (splitP_ne_nil p s)
  | cons x xs => exact ⟨x, xs, rfl, by simp [splitP, h, hs]⟩

theorem splitP_cons_true {p : Char → Bool} {c : Char} {s : Str} (h : p c = true) :
    splitP p (c :: s) = [] :: splitP p s := by simp [splitP, h]

theorem splitP_length (p : Char → Bool) (s : Str) : (splitP p s).length = s.countP p + 1 := by
  induction s with
  | nil => simp [splitP]
  | cons c cs ih =>
    cases h : p c with
    | true => simp [splitP, h, ih]
    | false =>
      obtain ⟨x, xs, h1, h2⟩ := splitP_cons_false (s := cs) h
      rw [h2, List.countP_cons]; simp [h, ← ih, h1]

/-- A piece without separator comes first. -/
theorem splitP_append {p : Char → Bool} {a : Str} {c : Char} {b : Str} (ha : ∀ x ∈ a, p x = false)
    (hc : p c = true) : splitP p (a ++ c :: b) = a :: splitP p b := by
  induction a with
  | nil => simp [splitP, hc]
  | cons x xs ih =>
    have hx := ha x (by simp)
    have := ih (fun y hy => ha y (by simp [hy]))
    simp [splitP, hx, this]

theorem splitP_of_all_false {p : Char → Bool} {a : Str} (ha : ∀ x ∈ a, p x = false) :
    splitP p a = [a] := by
  induction a with
  | nil => simp [splitP]
  | cons x xs ih =>
    have hx := ha x (by simp)
    have := ih (fun y hy => ha y (by simp [hy]))
    simp [splitP, hx, this]

/-- No piece contains a separator. -/
theorem splitP_mem {p : Char → Bool} {s t : Str} (h : t ∈ splitP p s) : ∀ x ∈ t, p x = false := by
  induction s generalizing t with
  | nil => simp [splitP] at h; simp [h]
  | cons c cs ih =>
    cases hc : p c with
    | true =>
      rw [splitP_cons_true hc] at h; simp at h
      rcases h with rfl | h
      · simp
      · exact ih h
    | false =>
      obtain ⟨x, xs, h1, h2⟩ := splitP_cons_false (s := cs) hc
      rw [h2] at h; simp at h
      rcases h with rfl | h
      · intro y hy; simp at hy
        rcases hy with rfl | hy
        · exact hc
        · exact ih (by rw [h1]; simp) y hy
      · exact ih (by rw [h1]; simp [h])

/-- Every character of a piece is a character of the text. -/
theorem splitP_mem_sub {p : Char → Bool} {s t : Str} (h : t ∈ splitP p s) : ∀ x ∈ t, x ∈ s := by
  induction s generalizing t with
  | nil => simp [splitP] at h; simp [h]
  | cons c cs ih =>
    cases hc : p c with
    | true =>
      rw [splitP_cons_true hc] at h; simp at h
      rcases h with rfl | h
      · simp
      · intro x hx; exact List.mem_cons_of_mem _ (ih h x hx)
    | false =>
      obtain ⟨x, xs, h1, h2⟩ := splitP_cons_false (s := cs) hc
      rw [h2] at h; simp at h
      rcases h with rfl | h
      · intro y hy; simp at hy
        rcases hy with rfl | hy
        · simp
        · exact List.mem_cons_of_mem _ (ih (by rw [h1]; simp) y hy)
      · intro y hy; exact List.mem_cons_of_mem _ (ih (by rw [h1]; simp [h]) y hy)

/-! ## splitC -/

theorem splitC_ne_nil (c : Char) (s : Str) : splitC c s ≠ [] := splitP_ne_nil _ _

theorem splitC_length (c : Char) (s : Str) : (splitC c s).length = s.count c + 1 := by
  simp only [splitC, splitP_length, List.count]

theorem splitC_append {c : Char} {a b : Str} (h : c ∉ a) : splitC c (a ++ c :: b) = a :: splitC c b :=
  splitP_append (fun x hx => by simp; rintro rfl; exact h hx) (by simp)

theorem splitC_of_not_mem {c : Char} {a : Str} (h : c ∉ a) : splitC c a = [a] :=
  splitP_of_all_false (fun x hx => by simp; rintro rfl; exact h hx)

theorem splitC_not_mem {c : Char} {s t : Str} (h : t ∈ splitC c s) : c ∉ t := by
  intro hc; have := splitP_mem h c hc; simp at this

theorem splitC_mem_sub {c : Char} {s t : Str} (h : t ∈ splitC c s) : ∀ x ∈ t, x ∈ s := splitP_mem_sub h

theorem splitC_two_le {c : Char} {s : Str} (h : c ∈ s) : 2 ≤ (splitC c s).length := by
  rw [splitC_length]; have := List.count_pos_iff.2 h; omega

/-- Splitting a joined list gives the list back. -/
theorem splitC_joinS {c : Char} {l : List Str} (hne : l ≠ []) (h : ∀ t ∈ l, c ∉ t) :
    splitC c (joinS [c] l) = l := by
  induction l with
  | nil => exact absurd rfl hne
  | cons x xs ih =>
    cases xs with
    | nil => simp [joinS, splitC_of_not_mem (h x (by simp))]
    | cons y ys =>
      simp only [joinS, List.append_assoc, List.cons_append, List.nil_append]
      rw [splitC_append (h x (by simp)), ih (by simp) (fun t ht => h t (by simp at ht ⊢; tauto))]

/-- Joining the pieces gives the text back. -/
theorem joinS_splitC {c : Char} {s : Str} : joinS [c] (splitC c s) = s := by
  induction s with
  | nil => simp [splitC, splitP, joinS]
  | cons x xs ih =>
    cases h : (x == c) with
    | true =>
      have hx : x = c := by simpa using h
      simp only [splitC, splitP, h, if_true]
      simp only [splitC] at ih
      cases hs : splitP (fun x => x == c) xs with
      | nil => exact absurd hs (splitP_ne_nil _ _)
      | cons y ys => rw [hs] at ih; simp [joinS, ih, hx]
    | false =>
      obtain ⟨y, ys, h1, h2⟩ := splitP_cons_false (p := fun x => x == c) (s := xs) h
      simp only [splitC] at ih ⊢
      rw [h2]; rw [h1] at ih
      cases ys with
      | nil => simp [joinS] at ih ⊢; exact ih
      | cons z zs => simp [joinS] at ih ⊢; exact ih

/-! ## splitWs -/

/-- No white space in the string. -/
def NoWs (s : Str) : Prop := ∀ x ∈ s, isWs x = false

theorem splitWs_append {a b : Str} {c : Char} (ha : NoWs a) (hne : a ≠ []) (hc : isWs c = true) :
    splitWs (a ++ c :: b) = a :: splitWs b := by
  unfold splitWs
  rw [splitP_append ha hc]; simp [hne]

theorem splitWs_space {a b : Str} (ha : NoWs a) (hne : a ≠ []) :
    splitWs (a ++ ' ' :: b) = a :: splitWs b := splitWs_append ha hne (by decide)

theorem splitWs_single {a : Str} (ha : NoWs a) (hne : a ≠ []) : splitWs a = [a] := by
  unfold splitWs; rw [splitP_of_all_false ha]; simp [hne]

@[simp] theorem splitWs_nil : splitWs [] = [] := by simp [splitWs, splitP]

theorem splitWs_cons_ws {c : Char} {b : Str} (hc : isWs c = true) : splitWs (c :: b) = splitWs b := by
  unfold splitWs; rw [splitP_cons_true hc]; simp

theorem splitWs_mem {s t : Str} (h : t ∈ splitWs s) : NoWs t ∧ t ≠ [] := by
  simp only [splitWs, List.mem_filter] at h
  exact ⟨splitP_mem h.1, by simpa using h.2⟩

theorem splitWs_mem_sub {s t : Str} (h : t ∈ splitWs s) : ∀ x ∈ t, x ∈ s := by
  simp only [splitWs, List.mem_filter] at h
  exact splitP_mem_sub h.1

theorem splitWs_joinS {l : List Str} (h : ∀ t ∈ l, NoWs t ∧ t ≠ []) : splitWs (joinS [' '] l) = l := by
  induction l with
  | nil => simp [joinS]
  | cons x xs ih =>
    have hx := h x (by simp)
    cases xs with
    | nil => simp [joinS, splitWs_single hx.1 hx.2]
    | cons y ys =>
      simp only [joinS, List.append_assoc, List.cons_append, List.nil_append]
      rw [splitWs_space hx.1 hx.2, ih (fun t ht => h t (by simp at ht ⊢; tauto))]

end Sdp
