import Verif.Model.Eq
import Verif.Spec.Equal
import Verif.Lemmas.FloatShow
import Verif.Props.RoundTrip
import Verif.Spec.Sample
/-!
# C96: equality of image attributes
-/

namespace Sdp

theorem F32.eqv_ge (x y : F32) : x.eqv y = (x.ge y && y.ge x) := by
  unfold F32.eqv F32.ge
  cases x.isNan <;> cases y.isNan <;> simp
  rw [← Bool.decide_and]
  congr 1
  rw [eq_iff_iff]
  constructor <;> intro h <;> omega

theorem F32.eqv_iff (x y : F32) : x.eqv y = true ↔ x.SameNumber y := by
  rw [F32.eqv_ge, Bool.and_eq_true, F32.ge_iff, F32.ge_iff]
  unfold F32.AtLeast F32.SameNumber
  constructor
  · rintro ⟨⟨h1, h2, h3⟩, -, -, h4⟩; exact ⟨h1, h2, le_antisymm h4 h3⟩
  · rintro ⟨h1, h2, h3⟩; exact ⟨⟨h1, h2, h3.ge⟩, h2, h1, h3.le⟩

theorem optionEqv_iff {α : Type} {eq : α → α → Bool} {R : α → α → Prop} (h : ∀ a b, eq a b = true ↔ R a b)
    (a b : Option α) : optionEqv eq a b = true ↔ BothIf R a b := by
  cases a <;> cases b <;> simp [optionEqv, BothIf, h]

theorem vecEqv_iff {α : Type} {eq : α → α → Bool} {R : α → α → Prop} (h : ∀ a b, eq a b = true ↔ R a b) :
    ∀ a b : List α, vecEqv eq a b = true ↔ Each R a b
  | [], [] => by simp [vecEqv, Each]
  | [], _ :: _ => by simp [vecEqv, Each]
  | _ :: _, [] => by simp [vecEqv, Each]
  | a :: as, b :: bs => by simp [vecEqv, Each, h, vecEqv_iff h as bs]

theorem each_eq {α : Type} : ∀ a b : List α, Each (· = ·) a b ↔ a = b
  | [], [] => by simp [Each]
  | [], _ :: _ => by simp [Each]
  | _ :: _, [] => by simp [Each]
  | a :: as, b :: bs => by simp [Each, each_eq as bs]

theorem XyRange.eqv_iff (a b : XyRange) : a.eqv b = true ↔ a = b := by
  cases a <;> cases b <;> simp [XyRange.eqv, optionEqv_iff (R := (· = ·)) (fun a b => beq_iff_eq),
    vecEqv_iff (R := (· = ·)) (fun a b => beq_iff_eq), each_eq, and_assoc]
  rename_i s _ _ t
  cases s <;> cases t <;> simp [BothIf]

theorem SRange.eqv_iff (a b : SRange) : a.eqv b = true ↔ a.Same b := by
  cases a <;> cases b <;> simp [SRange.eqv, SRange.Same, F32.eqv_iff, vecEqv_iff F32.eqv_iff]

theorem PRange.eqv_iff (a b : PRange) : a.eqv b = true ↔ a.Same b := by
  simp [PRange.eqv, PRange.Same, F32.eqv_iff]

theorem ImageAttrSet.eqv_iff (a b : ImageAttrSet) : a.eqv b = true ↔ a.Same b := by
  simp only [ImageAttrSet.eqv, Bool.and_eq_true, XyRange.eqv_iff, optionEqv_iff SRange.eqv_iff, optionEqv_iff PRange.eqv_iff,
    optionEqv_iff F32.eqv_iff]
  exact ⟨fun ⟨⟨⟨⟨h1, h2⟩, h3⟩, h4⟩, h5⟩ => ⟨h1, h2, h3, h4, h5⟩, fun ⟨h1, h2, h3, h4, h5⟩ => ⟨⟨⟨⟨h1, h2⟩, h3⟩, h4⟩, h5⟩⟩

/-- **C96.** Image attributes are equal exactly if they say the same: the same sizes, and the same numbers. -/
theorem C96_meaning (a b : ImageAttrSetList) : a.eqv b = true ↔ a.Same b := by
  cases a <;> cases b <;> simp [ImageAttrSetList.eqv, ImageAttrSetList.Same, vecEqv_iff ImageAttrSet.eqv_iff]

/-- **C96.** Floats are the same number exactly if they are no NaN and are identical or both zero. -/
theorem C96_numbers (x y : F32) : x.SameNumber y ↔ ¬ x.IsNaN ∧ (x = y ∨ (x.IsZero ∧ y.IsZero)) := by
  rw [← F32.eqv_iff, ← F32.isNan_iff]
  have hx := x.bits.toNat_lt
  have hy := y.bits.toNat_lt
  have ext : x = y ↔ x.bits.toNat = y.bits.toNat := by
    cases x; cases y; simp [UInt32.toNat_inj]
  rw [ext]
  clear ext
  have e : x.eqv y = true ↔ (¬ x.isNan = true ∧ ¬ y.isNan = true) ∧ x.key = y.key := by
    unfold F32.eqv
    rw [Bool.and_eq_true, Bool.and_eq_true, decide_eq_true_iff]
    simp
  rw [e]
  simp only [F32.isNan, F32.key, F32.IsZero, decide_eq_true_eq]
  generalize x.bits.toNat = a at *
  generalize y.bits.toNat = b at *
  constructor
  · rintro ⟨⟨h1, h2⟩, h3⟩
    refine ⟨h1, ?_⟩
    split at h3 <;> split at h3 <;> omega
  · rintro ⟨h1, h | ⟨h2, h3⟩⟩
    · subst h; simp [h1]
    · refine ⟨⟨h1, by omega⟩, ?_⟩
      split <;> split <;> omega

section

variable {α : Type} {R : α → α → Prop}

theorem each_symm (h : ∀ a b, R a b → R b a) : ∀ a b : List α, Each R a b → Each R b a
  | [], [], _ => trivial
  | _ :: as, _ :: bs, h1 => ⟨h _ _ h1.1, each_symm h as bs h1.2⟩

theorem each_trans (h : ∀ a b c, R a b → R b c → R a c) : ∀ a b c : List α, Each R a b → Each R b c → Each R a c
  | [], [], [], _, _ => trivial
  | _ :: as, _ :: bs, _ :: cs, h1, h2 => ⟨h _ _ _ h1.1 h2.1, each_trans h as bs cs h1.2 h2.2⟩

theorem each_refl : ∀ a : List α, Each R a a ↔ ∀ x ∈ a, R x x
  | [] => by simp [Each]
  | a :: as => by simp [Each, each_refl as]

theorem each_identical (p : α → Prop) (h : ∀ a b, R a b → p a → a = b) : ∀ a b : List α, Each R a b → (∀ x ∈ a, p x) → a = b
  | [], [], _, _ => rfl
  | a :: as, b :: bs, h1, h2 => by
    rw [h _ _ h1.1 (h2 a (by simp)), each_identical p h as bs h1.2 fun x hx => h2 x (by simp [hx])]

theorem both_symm (h : ∀ a b, R a b → R b a) (a b : Option α) (h1 : BothIf R a b) : BothIf R b a := by
  cases a <;> cases b <;> simp_all [BothIf]

theorem both_trans (h : ∀ a b c, R a b → R b c → R a c) (a b c : Option α) (h1 : BothIf R a b) (h2 : BothIf R b c) :
    BothIf R a c := by
  cases a <;> cases b <;> cases c <;> simp_all [BothIf]
  exact h _ _ _ h1 h2

end

theorem F32.same_symm (x y : F32) (h : x.SameNumber y) : y.SameNumber x := ⟨h.2.1, h.1, h.2.2.symm⟩
theorem F32.same_trans (x y z : F32) (h : x.SameNumber y) (h' : y.SameNumber z) : x.SameNumber z :=
  ⟨h.1, h'.2.1, h.2.2.trans h'.2.2⟩
theorem F32.same_refl (x : F32) : x.SameNumber x ↔ ¬ x.IsNaN := by simp [F32.SameNumber]

theorem SRange.same_symm (a b : SRange) (h : a.Same b) : b.Same a := by
  cases a <;> cases b <;> simp only [SRange.Same] at h ⊢
  · exact ⟨F32.same_symm _ _ h.1, F32.same_symm _ _ h.2⟩
  · exact each_symm F32.same_symm _ _ h

theorem SRange.same_trans (a b c : SRange) (h : a.Same b) (h' : b.Same c) : a.Same c := by
  cases a <;> cases b <;> cases c <;> simp only [SRange.Same] at h h' ⊢
  · exact ⟨F32.same_trans _ _ _ h.1 h'.1, F32.same_trans _ _ _ h.2 h'.2⟩
  · exact each_trans F32.same_trans _ _ _ h h'

theorem ImageAttrSet.same_symm (a b : ImageAttrSet) (h : a.Same b) : b.Same a :=
  ⟨h.x.symm, h.y.symm, both_symm SRange.same_symm _ _ h.sar,
    both_symm (fun _ _ h => ⟨F32.same_symm _ _ h.1, F32.same_symm _ _ h.2⟩) _ _ h.par, both_symm F32.same_symm _ _ h.q⟩

theorem ImageAttrSet.same_trans (a b c : ImageAttrSet) (h : a.Same b) (h' : b.Same c) : a.Same c :=
  ⟨h.x.trans h'.x, h.y.trans h'.y, both_trans SRange.same_trans _ _ _ h.sar h'.sar,
    both_trans (fun _ _ _ h h' => ⟨F32.same_trans _ _ _ h.1 h'.1, F32.same_trans _ _ _ h.2 h'.2⟩) _ _ _ h.par h'.par,
    both_trans F32.same_trans _ _ _ h.q h'.q⟩

/-- **C96.** Equality is symmetric and transitive. -/
theorem C96_symmetric_transitive :
    (∀ a b : ImageAttrSetList, a.eqv b = true → b.eqv a = true) ∧
    (∀ a b c : ImageAttrSetList, a.eqv b = true → b.eqv c = true → a.eqv c = true) := by
  simp only [C96_meaning]
  refine ⟨fun a b h => ?_, fun a b c h h' => ?_⟩
  · cases a <;> cases b <;> simp only [ImageAttrSetList.Same] at h ⊢
    exact each_symm ImageAttrSet.same_symm _ _ h
  · cases a <;> cases b <;> cases c <;> simp only [ImageAttrSetList.Same] at h h' ⊢
    exact each_trans ImageAttrSet.same_trans _ _ _ h h'

theorem ImageAttrSet.same_refl (s : ImageAttrSet) : s.Same s ↔ ∀ x ∈ s.floats, ¬ x.IsNaN := by
  obtain ⟨x, y, sar, par, q⟩ := s
  have h : ∀ s : ImageAttrSet, s.Same s ↔ BothIf SRange.Same s.sar s.sar ∧ BothIf PRange.Same s.par s.par ∧
      BothIf F32.SameNumber s.q s.q :=
    fun s => ⟨fun h => ⟨h.sar, h.par, h.q⟩, fun h => ⟨rfl, rfl, h.1, h.2.1, h.2.2⟩⟩
  rw [h]
  simp only [ImageAttrSet.floats, List.mem_append, or_imp, forall_and]
  refine and_assoc.symm.trans (and_congr (and_congr ?_ ?_) ?_)
  · cases sar with
    | none => simp [BothIf]
    | some r => cases r <;> simp [BothIf, SRange.Same, SRange.floats, F32.same_refl, each_refl]
  · cases par <;> simp [BothIf, PRange.Same, F32.same_refl]
  · cases q <;> simp [BothIf, F32.same_refl]

/-- **C96.** A value is equal to itself exactly if there is no NaN in it. -/
theorem C96_reflexive (a : ImageAttrSetList) : a.eqv a = true ↔ ∀ x ∈ a.floats, ¬ x.IsNaN := by
  rw [C96_meaning]
  cases a with
  | wildcard => simp [ImageAttrSetList.Same, ImageAttrSetList.floats]
  | sets l =>
    simp only [ImageAttrSetList.Same, ImageAttrSetList.floats, each_refl, ImageAttrSet.same_refl, List.mem_flatMap]
    exact ⟨fun h x ⟨s, hs, hx⟩ => h s hs x hx, fun h s hs x hx => h x ⟨s, hs, hx⟩⟩

/-- **C96.** Equal values are identical, but for the signs of zeros. -/
theorem C96_identical (a b : ImageAttrSetList) (h : a.eqv b = true) (hz : ∀ x ∈ a.floats, ¬ x.IsZero) : a = b := by
  have num (x y : F32) (h : x.SameNumber y) (hz : ¬ x.IsZero) : x = y := by
    rcases ((C96_numbers x y).1 h).2 with h | h
    · exact h
    · exact absurd h.1 hz
  have rng (a b : SRange) (h : a.Same b) (hz : ∀ x ∈ a.floats, ¬ x.IsZero) : a = b := by
    cases a <;> cases b <;> simp only [SRange.Same, SRange.floats] at h hz
    · rw [num _ _ h.1 (hz _ (by simp)), num _ _ h.2 (hz _ (by simp))]
    · rw [each_identical _ num _ _ h hz]
  have set (a b : ImageAttrSet) (h : a.Same b) (hz : ∀ x ∈ a.floats, ¬ x.IsZero) : a = b := by
    obtain ⟨x, y, sar, par, q⟩ := a
    obtain ⟨x', y', sar', par', q'⟩ := b
    obtain ⟨h1, h2, h3, h4, h5⟩ := h
    simp only [ImageAttrSet.floats, List.mem_append, or_imp, forall_and] at h1 h2 h3 h4 h5 hz
    obtain ⟨⟨z1, z2⟩, z3⟩ := hz
    have e3 : sar = sar' := by
      cases sar <;> cases sar' <;> simp only [BothIf] at h3
      · rfl
      · rw [rng _ _ h3 z1]
    have e4 : par = par' := by
      cases par with
      | none => cases par' <;> simp only [BothIf] at h4; rfl
      | some r =>
        cases par' with
        | none => simp only [BothIf] at h4
        | some r' =>
          obtain ⟨a, b⟩ := r
          obtain ⟨a', b'⟩ := r'
          simp only [BothIf, PRange.Same] at h4
          rw [num _ _ h4.1 (z2 _ (by simp)), num _ _ h4.2 (z2 _ (by simp))]
    have e5 : q = q' := by
      cases q <;> cases q' <;> simp only [BothIf] at h5
      · rfl
      · rw [num _ _ h5 (z3 _ (by simp))]
    rw [h1, h2, e3, e4, e5]
  rw [C96_meaning] at h
  cases a <;> cases b <;> simp only [ImageAttrSetList.Same] at h
  · rw [each_identical _ set _ _ h fun s hs x hx => hz x (List.mem_flatMap.2 ⟨s, hs, hx⟩)]
  · rfl

/-- **C96.** A well-formed image attribute that is written and read again is equal to what it was exactly if there
is no NaN in it. -/
theorem C96_read_back [Env] (a b : ImageAttr) (h : (Attribute.imageAttr a).WF)
    (hb : attrFromStr (showAttribute (.imageAttr a)) = .ok (.imageAttr b)) :
    (a.send.eqv b.send = true ↔ ∀ x ∈ a.send.floats, ¬ x.IsNaN) ∧
    (a.recv.eqv b.recv = true ↔ ∀ x ∈ a.recv.floats, ¬ x.IsNaN) := by
  rw [(C24_attribute_round_trip _ h).1] at hb
  cases hb
  exact ⟨C96_reflexive _, C96_reflexive _⟩

section
attribute [local instance] sampleEnv

/-- **C96.** The parser accepts texts whose values are not equal to themselves. -/
theorem C96_parsed_not_reflexive : ∃ a, attrFromStr c%"imageattr:* send [x=320,y=240,q=nan]" = .ok (.imageAttr a) ∧
    a.send.eqv a.send = false ∧ a.recv.eqv a.recv = true :=
  ⟨_, rfl, by decide +kernel⟩

/-- **C96.** Equal values can have different texts. -/
theorem C96_different_texts : ∃ a b, attrFromStr c%"imageattr:* send [x=320,y=240,q=0]" = .ok (.imageAttr a) ∧
    attrFromStr c%"imageattr:* send [x=320,y=240,q=-0.0]" = .ok (.imageAttr b) ∧
    a.send.eqv b.send = true ∧ a.send ≠ b.send ∧
    showAttribute (.imageAttr a) = c%"imageattr:* send [x=320,y=240,q=0]" ∧
    showAttribute (.imageAttr b) = c%"imageattr:* send [x=320,y=240,q=-0]" :=
  ⟨_, _, rfl, rfl, by decide +kernel⟩

example : ∃ a, attrFromStr c%"imageattr:97 recv [x=[480:16:800],y=320,sar=[0.5-1.5],par=[1.2-1.3],q=0.6]" = .ok (.imageAttr a) ∧
    a.recv.eqv a.recv = true ∧ a.recv.floats.length = 5 :=
  ⟨_, rfl, by decide +kernel⟩

end

end Sdp
