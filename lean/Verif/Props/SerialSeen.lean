import Verif.Spec.SerialSeen
import Verif.Props.Serial
/-!
# C72 without a condition on floats
-/

namespace Sdp

private theorem lists {α β : Type} [Ser α] {f : α → β} (hf : ∀ a b : α, ser a = ser b ↔ f a = f b) :
    ∀ {l m : List α}, l.map ser = m.map ser ↔ l.map f = m.map f
  | [], [] => by simp
  | [], _ :: _ => by simp
  | _ :: _, [] => by simp
  | a :: l, b :: m => by simp only [List.map_cons, List.cons.injEq, hf, lists hf]

private theorem f32_seen (a b : F32) : ser a = ser b ↔ a.seen = b.seen := by
  have nan : ¬(⟨0x7fc00000⟩ : F32).Finite := by decide
  unfold F32.seen
  by_cases ha : a.Finite <;> by_cases hb : b.Finite <;> simp only [ha, hb, ↓reduceIte]
  · exact ⟨ser_f32 ha hb, fun h => h ▸ rfl⟩
  · refine ⟨fun h => ?_, fun h => absurd (h ▸ ha) nan⟩
    unfold F32.Finite at ha hb
    simp [ser, if_pos ha, if_neg hb] at h
  · refine ⟨fun h => ?_, fun h => absurd (h.symm ▸ hb) nan⟩
    unfold F32.Finite at ha hb
    simp [ser, if_neg ha, if_pos hb] at h
  · unfold F32.Finite at ha hb
    simp [ser, if_neg ha, if_neg hb]

private theorem f64_seen (a b : F64) : ser a = ser b ↔ a.seen = b.seen := by
  have nan : ¬(⟨0x7ff8000000000000⟩ : F64).Finite := by decide
  unfold F64.seen
  by_cases ha : a.Finite <;> by_cases hb : b.Finite <;> simp only [ha, hb, ↓reduceIte]
  · exact ⟨ser_f64 ha hb, fun h => h ▸ rfl⟩
  · refine ⟨fun h => ?_, fun h => absurd (h ▸ ha) nan⟩
    unfold F64.Finite at ha hb
    simp [ser, if_pos ha, if_neg hb] at h
  · refine ⟨fun h => ?_, fun h => absurd (h.symm ▸ hb) nan⟩
    unfold F64.Finite at ha hb
    simp [ser, if_neg ha, if_pos hb] at h
  · unfold F64.Finite at ha hb
    simp [ser, if_neg ha, if_neg hb]

private theorem q_seen (a b : Option F32) :
    ser a = ser b ↔ (a.filter fun x => decide x.Finite) = b.filter fun x => decide x.Finite := by
  have key : ∀ x : F32, ¬x.Finite → ser x = .null := by
    intro x h
    unfold F32.Finite at h
    simp [ser, if_neg h]
  cases a with
  | none =>
    cases b with
    | none => simp
    | some b =>
      by_cases hb : b.Finite
      · simp only [Option.filter, hb, decide_true, ↓reduceIte, reduceCtorEq, iff_false]
        exact fun h => ser_f32_ne hb h.symm
      · simp only [Option.filter, hb, decide_false, Bool.false_eq_true, ↓reduceIte, iff_true]
        exact (key b hb).symm
  | some a =>
    by_cases ha : a.Finite
    · cases b with
      | none =>
        simp only [Option.filter, ha, decide_true, ↓reduceIte, reduceCtorEq, iff_false]
        exact fun h => ser_f32_ne ha h
      | some b =>
        by_cases hb : b.Finite
        · simp only [Option.filter, ha, hb, decide_true, ↓reduceIte, Option.some.injEq]
          exact ⟨ser_f32 ha hb, fun h => h ▸ rfl⟩
        · simp only [Option.filter, ha, hb, decide_true, decide_false, Bool.false_eq_true, ↓reduceIte, reduceCtorEq, iff_false]
          exact fun h => ser_f32_ne ha ((show ser a = ser b from h).trans (key b hb))
    · have h0 : ser (some a) = ser (none : Option F32) := key a ha
      have h1 : ((some a).filter fun x => decide x.Finite) = none := by simp [Option.filter, ha]
      rw [h0, h1]
      cases b with
      | none => simp
      | some b =>
        by_cases hb : b.Finite
        · simp only [Option.filter, hb, decide_true, ↓reduceIte, reduceCtorEq, iff_false]
          exact fun h => ser_f32_ne hb h.symm
        · simp only [Option.filter, hb, decide_false, Bool.false_eq_true, ↓reduceIte, iff_true]
          exact (key b hb).symm

private theorem options {α β : Type} [Ser α] [SerSome α] {f : α → β} (hf : ∀ a b : α, ser a = ser b ↔ f a = f b) (a b : Option α) :
    ser a = ser b ↔ a.map f = b.map f := by
  cases a <;> cases b
  · simp
  · simp only [Option.map_none, Option.map_some, reduceCtorEq, iff_false]
    exact fun h => SerSome.ne (α := α) _ h.symm
  · simp only [Option.map_none, Option.map_some, reduceCtorEq, iff_false]
    exact fun h => SerSome.ne (α := α) _ h
  · simp only [Option.map_some, Option.some.injEq]
    exact hf _ _

private theorem srange_seen (a b : SRange) : ser a = ser b ↔ a.seen = b.seen := by
  cases a <;> cases b
  · simp only [ser, Json.obj.injEq, List.cons.injEq, Prod.mk.injEq, Json.arr.injEq, true_and, and_true, SRange.seen, SRange.range.injEq]
    exact and_congr (f32_seen _ _) (f32_seen _ _)
  · simp [SRange.seen, ser]
  · simp [SRange.seen, ser]
  · simp only [ser, Json.obj.injEq, List.cons.injEq, Prod.mk.injEq, Json.arr.injEq, true_and, and_true, SRange.seen, SRange.discrete.injEq]
    exact lists f32_seen

private instance : SerSome SRange := ⟨by intro a h; cases a <;> cases h⟩
private instance : SerSome PRange := ⟨by intro a h; cases h⟩

private theorem prange_seen (a b : PRange) : ser a = ser b ↔ (⟨a.min.seen, a.max.seen⟩ : PRange) = ⟨b.min.seen, b.max.seen⟩ := by
  cases a; cases b
  simp only [ser, Json.obj.injEq, List.cons.injEq, Prod.mk.injEq, true_and, and_true, PRange.mk.injEq]
  exact and_congr (f32_seen _ _) (f32_seen _ _)

private theorem set_seen (a b : ImageAttrSet) : ser a = ser b ↔ a.seen = b.seen := by
  obtain ⟨x, y, sar, par, q⟩ := a
  obtain ⟨x', y', sar', par', q'⟩ := b
  have k : ser (ImageAttrSet.mk x y sar par q) = ser (ImageAttrSet.mk x' y' sar' par' q') ↔
      ser x = ser x' ∧ ser y = ser y' ∧ ser sar = ser sar' ∧ ser par = ser par' ∧ ser q = ser q' := by
    constructor
    · intro h
      injection h with h
      simpa only [List.cons.injEq, Prod.mk.injEq, true_and, and_true] using h
    · rintro ⟨h1, h2, h3, h4, h5⟩
      show Json.obj _ = Json.obj _
      simp only [h1, h2, h3, h4, h5]
  rw [k, ser_eq, ser_eq, options srange_seen, options prange_seen, q_seen]
  simp only [ImageAttrSet.seen, ImageAttrSet.mk.injEq]

private theorem sets_seen (a b : ImageAttrSetList) : ser a = ser b ↔ a.seen = b.seen := by
  cases a <;> cases b
  · simp only [ser, Json.obj.injEq, List.cons.injEq, Prod.mk.injEq, Json.arr.injEq, true_and, and_true, ImageAttrSetList.seen,
      ImageAttrSetList.sets.injEq]
    exact lists set_seen
  · simp [ImageAttrSetList.seen, ser]
  · simp [ImageAttrSetList.seen, ser]
  · simp

/-- An attribute looks like what is seen of it. -/
private theorem seen_type (a : Attribute) : a.seen.type = a.type := by cases a <;> rfl

private theorem image_seen (a b : ImageAttr) :
    ser a = ser b ↔ ({ a with send := a.send.seen, recv := a.recv.seen } : ImageAttr) = { b with send := b.send.seen, recv := b.recv.seen } := by
  obtain ⟨pt, s, r⟩ := a
  obtain ⟨pt', s', r'⟩ := b
  have k : ser (ImageAttr.mk pt s r) = ser (ImageAttr.mk pt' s' r') ↔ ser pt = ser pt' ∧ ser s = ser s' ∧ ser r = ser r' := by
    constructor
    · intro h
      injection h with h
      simpa only [List.cons.injEq, Prod.mk.injEq, true_and, and_true] using h
    · rintro ⟨h1, h2, h3⟩
      show Json.obj _ = Json.obj _
      simp only [h1, h2, h3]
  rw [k, ser_eq, sets_seen, sets_seen]
  simp only [ImageAttr.mk.injEq]

/-- **C72.** Any two attributes have the same JSON exactly if they are the same but for floats that are not finite. -/
theorem C72_attribute_exact (a b : Attribute) : ser a = ser b ↔ a.seen = b.seen := by
  by_cases h : a.type = .imageAttr ∨ a.type = .frameRate
  · by_cases h' : b.type = a.type
    · cases a <;> simp only [Attribute.type, reduceCtorEq, or_self, or_true, true_or, or_false, false_or] at h <;>
        cases b <;> simp only [Attribute.type, reduceCtorEq] at h'
      · simp only [ser, Json.obj.injEq, List.cons.injEq, Prod.mk.injEq, true_and, and_true, Attribute.seen, Attribute.frameRate.injEq]
        exact f64_seen _ _
      · simp only [Attribute.seen, Attribute.imageAttr.injEq]
        rw [← image_seen]
        constructor
        · intro h
          injection h with h
          simpa only [List.cons.injEq, Prod.mk.injEq, true_and, and_true] using h
        · intro h
          show Json.obj [(_, _)] = Json.obj [(_, _)]
          rw [h]
    · constructor
      · intro e
        exfalso
        cases a <;> simp only [Attribute.type, reduceCtorEq, or_self, or_true, true_or, or_false, false_or] at h <;>
          cases b <;> first | exact h' rfl | cases e
      · intro e
        exact absurd (by rw [← seen_type b, ← e, seen_type]) h'
  · by_cases h' : b.type = .imageAttr ∨ b.type = .frameRate
    · constructor
      · intro e
        exfalso
        cases b <;> simp only [Attribute.type, reduceCtorEq, or_self, or_true, true_or, or_false, false_or] at h' <;>
          cases a <;> first | exact h (.inl rfl) | exact h (.inr rfl) | cases e
      · intro e
        exfalso
        rw [← seen_type a, e, seen_type] at h
        exact h h'
    · have fin : ∀ c : Attribute, ¬(c.type = .imageAttr ∨ c.type = .frameRate) → c.Finite ∧ c.seen = c := by
        intro c hc
        cases c <;> first | exact ⟨trivial, rfl⟩ | exact absurd (.inl rfl) hc | exact absurd (.inr rfl) hc
      rw [(fin a h).2, (fin b h').2]
      exact C72_attribute (fin a h).1 (fin b h').1

/-- **C72.** Any two sections. -/
theorem C72_media_exact (a b : Media) : ser a = ser b ↔ a.seen = b.seen := by
  obtain ⟨m, c, bw, as⟩ := a
  obtain ⟨m', c', bw', as'⟩ := b
  simp only [Media.seen, Media.mk.injEq]
  rw [← lists C72_attribute_exact]
  constructor
  · intro h
    ser_fields at h
    obtain ⟨h1, h2, h3, h4⟩ := h
    exact ⟨h1, h2, h3, Json.arr.inj h4⟩
  · rintro ⟨rfl, rfl, rfl, h⟩
    have h := congrArg Json.arr h
    simp only [ser, Json.obj.injEq, List.cons.injEq, Prod.mk.injEq, true_and, and_true]
    exact h

/-- **C72.** Any two sessions. -/
theorem C72_session_exact (a b : Session) :
    ser a = ser b ↔ a.seen = b.seen ∧ a.warnings.map ParserError.view = b.warnings.map ParserError.view := by
  cases a; cases b
  simp only [Session.seen, Session.mk.injEq]
  rw [← lists C72_attribute_exact, ← lists C72_media_exact]
  constructor
  · intro h
    ser_fields at h
    obtain ⟨h1, h2, h3, h4, h5, h6, h7, h8, h9⟩ := h
    exact ⟨⟨h1, h2, h3, h4, h5, h6, Json.arr.inj h7, Json.arr.inj h8, trivial⟩, ser_errors.1 (Json.arr.inj h9)⟩
  · rintro ⟨⟨rfl, rfl, rfl, rfl, rfl, rfl, h7, h8, -⟩, h9⟩
    have h7 := congrArg Json.arr h7
    have h8 := congrArg Json.arr h8
    have h9 := congrArg Json.arr (ser_errors.2 h9)
    simp only [ser, Json.obj.injEq, List.cons.injEq, Prod.mk.injEq, true_and, and_true]
    exact ⟨h7, h8, h9⟩

/-- Different values that are seen alike, and different ones that are not. -/
example : (Attribute.frameRate ⟨0x7ff0000000000000⟩).seen = (Attribute.frameRate ⟨0xfff0000000000000⟩).seen := by decide
example : ser (Attribute.frameRate ⟨0x7ff0000000000000⟩) ≠ ser (Attribute.frameRate ⟨0x3ff0000000000000⟩) := by
  rw [Ne, C72_attribute_exact]; decide
example : ser (Attribute.imageAttr ⟨.wildcard, .sets [⟨.discrete [1], .discrete [1], some (.discrete [⟨0x7f800000⟩]), none, none⟩], .sets []⟩) ≠
    ser (Attribute.imageAttr ⟨.wildcard, .sets [⟨.discrete [1], .discrete [1], none, none, none⟩], .sets []⟩) := by
  rw [Ne, C72_attribute_exact]; decide

end Sdp
