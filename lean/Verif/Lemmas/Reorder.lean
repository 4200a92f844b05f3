import Verif.Lemmas.Compose
/-!
# Reordering lines
-/

namespace Sdp

/-- Of these lines one counts more than the others. -/
def SdpLine.keepsPlace (l : SdpLine) : Bool :=
  match l.sdpType with
  | .connection _ | .timing _ | .attr (.simulcast _) => true
  | _ => false

/-- The same lines in an order that does not matter. -/
structure Shuffled (a b : List SdpLine) : Prop where
  perm : a.Perm b
  kept : a.filter SdpLine.keepsPlace = b.filter SdpLine.keepsPlace

theorem Shuffled.refl (a : List SdpLine) : Shuffled a a := ⟨.refl a, rfl⟩

theorem Shuffled.append {a b c d : List SdpLine} (h : Shuffled a b) (k : Shuffled c d) : Shuffled (a ++ c) (b ++ d) :=
  ⟨h.perm.append k.perm, by rw [List.filter_append, List.filter_append, h.kept, k.kept]⟩

theorem filterMap_filter_of {α β : Type} {f : α → Option β} {p : α → Bool} (h : ∀ x y, f x = some y → p x = true)
    (l : List α) : (l.filter p).filterMap f = l.filterMap f := by
  induction l with
  | nil => rfl
  | cons x l ih =>
    rw [List.filter_cons]
    cases hf : f x with
    | none =>
      rw [List.filterMap_cons, hf, ← ih]
      split
      · rw [List.filterMap_cons, hf]
      · rfl
    | some y => rw [if_pos (h x y hf), List.filterMap_cons, List.filterMap_cons, ih]

theorem Shuffled.attrs {a b : List SdpLine} (h : Shuffled a b) : (attrsOf a).Perm (attrsOf b) := h.perm.filterMap _

theorem Shuffled.bandwidths {a b : List SdpLine} (h : Shuffled a b) : (bandwidthsOf a).Perm (bandwidthsOf b) :=
  h.perm.filterMap _

theorem Shuffled.connections {a b : List SdpLine} (h : Shuffled a b) : connectionsOf a = connectionsOf b := by
  have e (l : List SdpLine) : connectionsOf (l.filter SdpLine.keepsPlace) = connectionsOf l := by
    refine filterMap_filter_of ?_ l
    rintro ⟨n, t, x⟩ y h
    cases t <;> first | rfl | (simp at h)
  rw [← e a, ← e b, h.kept]

theorem Shuffled.timings {a b : List SdpLine} (h : Shuffled a b) : timingsOf a = timingsOf b := by
  have e (l : List SdpLine) : timingsOf (l.filter SdpLine.keepsPlace) = timingsOf l := by
    refine filterMap_filter_of ?_ l
    rintro ⟨n, t, x⟩ y h
    cases t <;> first | rfl | (simp at h)
  rw [← e a, ← e b, h.kept]

/-- The simulcast attributes, in order. -/
def simulcastsIn (as : List Attribute) : List Simulcast :=
  as.filterMap fun a => match a with | .simulcast x => some x | _ => none

theorem Shuffled.simulcasts {a b : List SdpLine} (h : Shuffled a b) :
    simulcastsIn (attrsOf a) = simulcastsIn (attrsOf b) := by
  have e (l : List SdpLine) : simulcastsIn (attrsOf (l.filter SdpLine.keepsPlace)) = simulcastsIn (attrsOf l) := by
    unfold simulcastsIn attrsOf
    rw [List.filterMap_filterMap, List.filterMap_filterMap]
    refine filterMap_filter_of ?_ l
    rintro ⟨n, t, x⟩ y h
    cases t with
    | attr a => cases a <;> first | rfl | (simp at h)
    | _ => simp at h
  rw [← e a, ← e b, h.kept]

theorem firstSimulcast_head {m : Media} {sc : Simulcast} : FirstSimulcast m sc ↔ (simulcastsIn m.attrs).head? = some sc := by
  unfold FirstSimulcast
  generalize m.attrs = as
  have nil {as : List Attribute} (h : ∀ x, Attribute.simulcast x ∉ as) : simulcastsIn as = [] := by
    unfold simulcastsIn
    rw [List.filterMap_eq_nil_iff]
    intro a ha
    cases a with
    | simulcast x => exact absurd ha (h x)
    | _ => rfl
  constructor
  · rintro ⟨pre, post, rfl, h⟩
    unfold simulcastsIn
    rw [List.filterMap_append]
    have := nil h
    unfold simulcastsIn at this
    rw [this]; rfl
  · intro h
    induction as with
    | nil => cases h
    | cons a as ih =>
      by_cases ha : ∃ x, a = .simulcast x
      · obtain ⟨x, rfl⟩ := ha
        have : x = sc := Option.some.inj h
        subst this
        exact ⟨[], as, rfl, by simp⟩
      · have e : simulcastsIn (a :: as) = simulcastsIn as := by
          unfold simulcastsIn
          rw [List.filterMap_cons]
          cases a <;> first | rfl | exact absurd ⟨_, rfl⟩ ha
        rw [e] at h
        obtain ⟨pre, post, rfl, hp⟩ := ih h
        refine ⟨a :: pre, post, rfl, fun x hx => ?_⟩
        rcases List.mem_cons.1 hx with hx | hx
        · exact ha ⟨x, hx.symm⟩
        · exact hp x hx

theorem Shuffled.good {a b : List SdpLine} (h : Shuffled a b) (hg : GoodSection a) : GoodSection b :=
  ⟨fun l hl => hg.kinds l (h.perm.mem_iff.2 hl), by rw [← h.connections]; exact hg.oneConnection,
    fun x hx => hg.levels x (h.attrs.mem_iff.2 hx)⟩

theorem Shuffled.goodPart {a b : List SdpLine} (h : Shuffled a b) (hg : GoodSessionPart a) : GoodSessionPart b :=
  ⟨fun l hl => hg.kinds l (h.perm.mem_iff.2 hl), fun x hx => hg.levels x (h.attrs.mem_iff.2 hx)⟩

theorem simulcastsIn_dtls (as : List Attribute) : simulcastsIn (as.filter fun a => !isDtls a) = simulcastsIn as := by
  refine filterMap_filter_of ?_ as
  intro a y h
  cases a <;> first | rfl | (simp at h)

theorem Shuffled.media {a b : List SdpLine} (h : Shuffled a b) (m : MediaLine) :
    (sectionMedia (m, a)).Reordered (sectionMedia (m, b)) ∧
    simulcastsIn (sectionMedia (m, a)).attrs = simulcastsIn (sectionMedia (m, b)).attrs :=
  ⟨⟨rfl, by simp only [sectionMedia, h.connections], h.bandwidths, h.attrs.filter _⟩, by
    simp only [sectionMedia, simulcastsIn_dtls, h.simulcasts]⟩

theorem takeWhile_shuffled (p : List SdpLine) {x y : List SdpLine} (q : List SdpLine) (h : Shuffled x y)
    (hx : ∀ l ∈ x, notMedia l = true) :
    Shuffled ((p ++ (x ++ q)).takeWhile notMedia) ((p ++ (y ++ q)).takeWhile notMedia) := by
  have hy : ∀ l ∈ y, notMedia l = true := fun l hl => hx l (h.perm.mem_iff.2 hl)
  induction p with
  | nil =>
    rw [List.nil_append, List.nil_append, List.takeWhile_append_of_pos hx, List.takeWhile_append_of_pos hy]
    exact h.append (.refl _)
  | cons l p ih =>
    simp only [List.cons_append, List.takeWhile_cons]
    split
    · exact (Shuffled.refl [l]).append ih
    · exact .refl _

theorem sectionsOf_shuffled (p : List SdpLine) {x y : List SdpLine} (q : List SdpLine) (h : Shuffled x y)
    (hx : ∀ l ∈ x, notMedia l = true) :
    List.Forall₂ (fun a b => a.1 = b.1 ∧ Shuffled a.2 b.2) (sectionsOf (p ++ (x ++ q))) (sectionsOf (p ++ (y ++ q))) := by
  have hy : ∀ l ∈ y, notMedia l = true := fun l hl => hx l (h.perm.mem_iff.2 hl)
  have refl : ∀ l : List (MediaLine × List SdpLine), List.Forall₂ (fun a b => a.1 = b.1 ∧ Shuffled a.2 b.2) l l := by
    intro l
    induction l with
    | nil => exact .nil
    | cons a l ih => exact .cons ⟨rfl, .refl _⟩ ih
  induction p with
  | nil =>
    rw [List.nil_append, List.nil_append, sectionsOf_head hx, sectionsOf_head hy]
    exact refl _
  | cons l p ih =>
    obtain ⟨n, t, z⟩ := l
    cases t <;> simp only [List.cons_append, sectionsOf] <;> first
      | exact ih
      | exact .cons ⟨rfl, takeWhile_shuffled p q h hx⟩ ih

theorem forall₂_mem_right {α β : Type} {R : α → β → Prop} {l : List α} {l' : List β} (h : List.Forall₂ R l l') :
    ∀ b ∈ l', ∃ a ∈ l, R a b := by
  induction h with
  | nil => simp
  | cons h _ ih =>
    intro b hb
    rcases List.mem_cons.1 hb with rfl | hb
    · exact ⟨_, by simp, h⟩
    · obtain ⟨a, ha, hr⟩ := ih b hb
      exact ⟨a, by simp [ha], hr⟩

theorem forall₂_mem_left {α β : Type} {R : α → β → Prop} {l : List α} {l' : List β} (h : List.Forall₂ R l l') :
    ∀ a ∈ l, ∃ b ∈ l', R a b := by
  induction h with
  | nil => simp
  | cons h _ ih =>
    intro b hb
    rcases List.mem_cons.1 hb with rfl | hb
    · exact ⟨_, by simp, h⟩
    · obtain ⟨a, ha, hr⟩ := ih b hb
      exact ⟨a, by simp [ha], hr⟩

/-- Reordering keeps the rules of a section. -/
theorem ConsistentMedia.reordered {m m' : Media} (h : m.Reordered m')
    (hs : simulcastsIn m.attrs = simulcastsIn m'.attrs) (hm : ConsistentMedia m) : ConsistentMedia m' := by
  have mem {a : Attribute} : a ∈ m'.attrs ↔ a ∈ m.attrs := h.attrs.mem_iff.symm
  refine ⟨?_, ?_, ?_⟩
  · rw [mem, mem]; exact hm.mux
  · intro r hr
    rw [mem] at hr
    rw [h.media]
    exact hm.ridFormats r hr
  · intro sc hsc
    rw [firstSimulcast_head, ← hs, ← firstSimulcast_head] at hsc
    obtain ⟨h1, h2⟩ := hm.simulcast sc hsc
    have rid {d : SingleDirection} {i : Str} (hr : HasRid m d i) : HasRid m' d i := by
      obtain ⟨r, hr, h⟩ := hr
      exact ⟨r, mem.2 hr, h⟩
    exact ⟨fun v hv i hi => rid (h1 v hv i hi), fun v hv i hi => rid (h2 v hv i hi)⟩

/-- The line may not be one of the first three, nor an m= line. -/
def SdpLine.Movable (l : SdpLine) : Prop :=
  match l.sdpType with
  | .version _ | .origin _ | .session _ | .media _ => False
  | _ => True

theorem SdpLine.Movable.notMedia {l : SdpLine} (h : l.Movable) : notMedia l = true := by
  obtain ⟨n, t, x⟩ := l
  cases t <;> first | rfl | exact h.elim

theorem describes_shuffled {p x y q : List SdpLine} (h : Shuffled x y) (hx : ∀ l ∈ x, l.Movable) {r : Session}
    (hr : Describes (p ++ (x ++ q)) r) : ∃ r', Describes (p ++ (y ++ q)) r' ∧ r.Reordered r' := by
  have refl (m : Media) : m.Reordered m := ⟨rfl, rfl, .refl _, .refl _⟩
  by_cases hne : x = []
  · subst hne
    have : y = [] := List.nil_perm.1 h.perm
    subst this
    refine ⟨r, hr, rfl, rfl, rfl, rfl, rfl, .refl _, .refl _, ?_⟩
    generalize r.media = ms
    induction ms with
    | nil => exact .nil
    | cons m ms ih => exact .cons (refl m) ih
  have hxm : ∀ l ∈ x, notMedia l = true := fun l hl => (hx l hl).notMedia
  obtain ⟨a, x', rfl⟩ := List.exists_cons_of_ne_nil hne
  have ha := hx a (by simp)
  obtain ⟨l0, l1, l2, rest, v, o, nm, g1, g2, g3, g4, g5, g6, g7, g8, g9⟩ := hr
  match p, g1 with
  | [], g1 => simp at g1; obtain ⟨rfl, -⟩ := g1; unfold SdpLine.Movable at ha; rw [g3] at ha; exact ha.elim
  | [_], g1 => simp at g1; obtain ⟨-, rfl, -⟩ := g1; unfold SdpLine.Movable at ha; rw [g4] at ha; exact ha.elim
  | [_, _], g1 => simp at g1; obtain ⟨-, -, rfl, -⟩ := g1; unfold SdpLine.Movable at ha; rw [g5] at ha; exact ha.elim
  | b :: c :: d :: p, g1 =>
    simp only [List.cons_append, List.cons.injEq] at g1
    obtain ⟨rfl, rfl, rfl, rfl⟩ := g1
    have hw := takeWhile_shuffled p q h hxm
    have hs := sectionsOf_shuffled p q h hxm
    rw [List.cons_append] at hw hs
    have hmed : List.Forall₂ (fun m m' : Media => m.Reordered m' ∧ simulcastsIn m.attrs = simulcastsIn m'.attrs)
        ((sectionsOf (p ++ a :: (x' ++ q))).map sectionMedia) ((sectionsOf (p ++ (y ++ q))).map sectionMedia) := by
      rw [List.forall₂_map_left_iff, List.forall₂_map_right_iff]
      refine hs.imp ?_
      rintro ⟨m, ls⟩ ⟨m', ls'⟩ ⟨e, hsh⟩
      simp only at e hsh
      subst e
      exact hsh.media m
    have hro : r.Reordered (assemble v o nm (p ++ (y ++ q)) []) := by
      rw [g8]
      refine ⟨rfl, rfl, rfl, ?_, ?_, hw.bandwidths, hw.attrs, hmed.imp fun _ _ h => h.1⟩
      · simp only [assemble, hw.connections]
      · simp only [assemble, hw.timings]
    refine ⟨_, ⟨b, c, d, p ++ (y ++ q), v, o, nm, rfl, ?_, g3, g4, g5, hw.goodPart g6, ?_, rfl, ?_⟩, hro⟩
    · intro hc
      have : y = [] := by
        rcases List.append_eq_nil_iff.1 hc with ⟨-, hc⟩
        exact (List.append_eq_nil_iff.1 hc).1
      subst this
      exact absurd (List.perm_nil.1 h.perm) (by simp)
    · intro s hsm
      obtain ⟨s0, hs0, -, hsh⟩ := forall₂_mem_right hs s hsm
      exact hsh.good (g7 s0 hs0)
    · rw [g8] at g9
      obtain ⟨k1, k2, k3, k4⟩ := g9
      rw [g8] at hro
      refine ⟨?_, ?_, ?_, ?_⟩
      · rw [hro.timing]; exact k1
      · rcases k2 with k2 | k2
        · left; rw [hro.connection]; exact k2
        · right
          intro m hm
          obtain ⟨m0, hm0, h0, -⟩ := forall₂_mem_right hmed m hm
          rw [h0.connection]; exact k2 m0 hm0
      · rintro ⟨⟨e, he⟩, m, hm, e', he'⟩
        obtain ⟨m0, hm0, h0, -⟩ := forall₂_mem_right hmed m hm
        exact k3 ⟨⟨e, hro.attrs.mem_iff.2 he⟩, m0, hm0, e', h0.attrs.mem_iff.2 he'⟩
      · intro m hm
        obtain ⟨m0, hm0, h0, h1⟩ := forall₂_mem_right hmed m hm
        exact (k4 m0 hm0).reordered h0 h1

end Sdp
