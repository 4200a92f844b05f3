import Verif.Model.Anon
import Mathlib.Data.List.Forall2
/-!
# Lemmas about `Outcome`
-/

namespace Sdp

variable {ε α β : Type}

@[simp] theorem pure_eq_ok (a : α) : (pure a : Outcome ε α) = .ok a := rfl
@[simp] theorem ok_bind (a : α) (f : α → Outcome ε β) : (Outcome.ok a >>= f) = f a := rfl
@[simp] theorem err_bind (e : ε) (f : α → Outcome ε β) : ((Outcome.err e : Outcome ε α) >>= f) = .err e := rfl
@[simp] theorem panic_bind (f : α → Outcome ε β) : ((Outcome.panic : Outcome ε α) >>= f) = .panic := rfl

theorem bind_eq_ok {x : Outcome ε α} {f : α → Outcome ε β} {b : β} :
    (x >>= f) = .ok b ↔ ∃ a, x = .ok a ∧ f a = .ok b := by
  cases x <;> simp

theorem bind_eq_err {x : Outcome ε α} {f : α → Outcome ε β} {e : ε} :
    (x >>= f) = .err e ↔ x = .err e ∨ ∃ a, x = .ok a ∧ f a = .err e := by
  cases x <;> simp

theorem bind_eq_panic {x : Outcome ε α} {f : α → Outcome ε β} :
    (x >>= f) = .panic ↔ x = .panic ∨ ∃ a, x = .ok a ∧ f a = .panic := by
  cases x <;> simp

@[simp] theorem egeneric_eq_ok {m : Str} {a : α} : (egeneric m = .ok a) ↔ False := by simp [egeneric]
@[simp] theorem eunsupported_eq_ok {m : Str} {a : α} : (eunsupported m = .ok a) ↔ False := by
  simp [eunsupported]
@[simp] theorem seqError_eq_ok {m : Str} {a : α} : (seqError m = .ok a) ↔ False := by simp [seqError]

theorem okOr_eq_ok {o : Option α} {e : ε} {a : α} : Outcome.okOr o e = .ok a ↔ o = some a := by
  cases o <;> simp [Outcome.okOr]

theorem unwrap_eq_ok {o : Option α} {a : α} : (Outcome.unwrap o : Outcome ε α) = .ok a ↔ o = some a := by
  cases o <;> simp [Outcome.unwrap]

theorem idx_eq_ok {l : List α} {i : Nat} {a : α} : (idx l i : Outcome ε α) = .ok a ↔ l[i]? = some a := by
  unfold idx; cases l[i]? <;> simp

theorem sliceFrom_eq_ok {l : List α} {i : Nat} {r : List α} :
    (sliceFrom l i : Outcome ε (List α)) = .ok r ↔ i ≤ l.length ∧ l.drop i = r := by
  unfold sliceFrom; split <;> simp [*]

theorem ite_cases {α : Sort _} {c : Prop} [Decidable c] {a b x : α} (h : (if c then a else b) = x) :
    (c ∧ a = x) ∨ (¬ c ∧ b = x) := by
  by_cases hc : c
  · left; rw [if_pos hc] at h; exact ⟨hc, h⟩
  · right; rw [if_neg hc] at h; exact ⟨hc, h⟩

/-- The outcome is not a panic. -/
def NP (x : Outcome ε α) : Prop := x ≠ .panic

theorem NP.ok (a : α) : NP (Outcome.ok a : Outcome ε α) := by simp [NP]
theorem NP.pure (a : α) : NP (Pure.pure a : Outcome ε α) := by simp [NP]
theorem NP.err (e : ε) : NP (Outcome.err e : Outcome ε α) := by simp [NP]
theorem NP.egeneric (m : Str) : NP (egeneric m : IRes α) := by simp [NP, Sdp.egeneric]
theorem NP.eunsupported (m : Str) : NP (eunsupported m : IRes α) := by simp [NP, Sdp.eunsupported]
theorem NP.seqError (m : Str) : NP (seqError m : Outcome ParserError α) := by simp [NP, Sdp.seqError]
theorem NP.bind {x : Outcome ε α} {f : α → Outcome ε β} (h : NP x) (h' : ∀ a, x = .ok a → NP (f a)) :
    NP (x >>= f) := by
  intro hp
  rcases bind_eq_panic.1 hp with hx | ⟨a, ha, hf⟩
  · exact h hx
  · exact h' a ha hf
theorem NP.okOr {o : Option α} {e : ε} : NP (Outcome.okOr o e) := by
  cases o <;> simp [NP, Outcome.okOr]
theorem NP.unwrap {o : Option α} (h : o.isSome) : NP (Outcome.unwrap o : Outcome ε α) := by
  cases o <;> simp_all [NP, Outcome.unwrap]
theorem NP.idx {l : List α} {i : Nat} (h : i < l.length) : NP (Sdp.idx l i : Outcome ε α) := by
  simp [NP, Sdp.idx, h]
theorem NP.sliceFrom {l : List α} {i : Nat} (h : i ≤ l.length) : NP (Sdp.sliceFrom l i : Outcome ε (List α)) := by
  simp [NP, Sdp.sliceFrom, h]
theorem NP.mapErr {ε' : Type} {x : Outcome ε α} {f : ε → ε'} (h : NP x) : NP (x.mapErr f) := by
  cases x <;> simp_all [NP, Outcome.mapErr]
theorem NP.collect {f : α → Outcome ε β} {l : List α} (h : ∀ x ∈ l, NP (f x)) : NP (Sdp.collect f l) := by
  induction l with
  | nil => exact NP.ok _
  | cons x xs ih =>
    simp only [Sdp.collect]
    refine NP.bind (h x (by simp)) fun a _ => NP.bind (ih fun y hy => h y (by simp [hy])) fun b _ => NP.pure _

theorem collect_eq_ok_length {f : α → Outcome ε β} {l : List α} {r : List β}
    (h : Sdp.collect f l = .ok r) : r.length = l.length := by
  induction l generalizing r with
  | nil => simp [Sdp.collect] at h; simp [← h]
  | cons x xs ih =>
    simp only [Sdp.collect, bind_eq_ok, pure_eq_ok] at h
    obtain ⟨a, _, b, hb, hr⟩ := h
    simp at hr; subst hr; simp [ih hb]

/-- `collect` succeeds exactly when `f` succeeds on every element. -/
theorem collect_eq_ok {f : α → Outcome ε β} {l : List α} {r : List β} :
    Sdp.collect f l = .ok r ↔ List.Forall₂ (fun x y => f x = .ok y) l r := by
  induction l generalizing r with
  | nil => cases r <;> simp [Sdp.collect]
  | cons x xs ih =>
    cases r with
    | nil => simp [Sdp.collect, bind_eq_ok]
    | cons y ys =>
      simp only [Sdp.collect, bind_eq_ok, pure_eq_ok, List.forall₂_cons, ← ih]
      constructor
      · rintro ⟨a, ha, b, hb, h⟩; simp at h; obtain ⟨rfl, rfl⟩ := h; exact ⟨ha, hb⟩
      · rintro ⟨h1, h2⟩; exact ⟨y, h1, ys, h2, rfl⟩

theorem collect_mem {f : α → Outcome ε β} {l : List α} {r : List β} (h : Sdp.collect f l = .ok r)
    {y : β} (hy : y ∈ r) : ∃ x ∈ l, f x = .ok y := by
  rw [collect_eq_ok] at h
  induction h with
  | nil => simp at hy
  | cons h1 _ ih =>
    simp only [List.mem_cons] at hy
    rcases hy with rfl | hy
    · exact ⟨_, by simp, h1⟩
    · obtain ⟨x, hx, he⟩ := ih hy; exact ⟨x, by simp [hx], he⟩

end Sdp
