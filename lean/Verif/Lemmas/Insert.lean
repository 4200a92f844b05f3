import Verif.Spec.Insert
import Verif.Lemmas.Reorder
/-!
# Adding or removing one line
-/

namespace Sdp

/-! ## The lines -/

theorem attrsOf_append (a b : List SdpLine) : attrsOf (a ++ b) = attrsOf a ++ attrsOf b := List.filterMap_append
theorem bandwidthsOf_append (a b : List SdpLine) : bandwidthsOf (a ++ b) = bandwidthsOf a ++ bandwidthsOf b :=
  List.filterMap_append
theorem connectionsOf_append (a b : List SdpLine) : connectionsOf (a ++ b) = connectionsOf a ++ connectionsOf b :=
  List.filterMap_append
theorem timingsOf_append (a b : List SdpLine) : timingsOf (a ++ b) = timingsOf a ++ timingsOf b := List.filterMap_append

theorem goodPart_append {a b : List SdpLine} : GoodSessionPart (a ++ b) ↔ GoodSessionPart a ∧ GoodSessionPart b := by
  constructor
  · rintro ⟨h1, h2⟩
    rw [attrsOf_append] at h2
    exact ⟨⟨fun l hl => h1 l (by simp [hl]), fun l hl => h2 l (by simp [hl])⟩,
      ⟨fun l hl => h1 l (by simp [hl]), fun l hl => h2 l (by simp [hl])⟩⟩
  · rintro ⟨⟨h1, h2⟩, h3, h4⟩
    refine ⟨fun l hl => (List.mem_append.1 hl).elim (h1 l) (h3 l), fun l hl => ?_⟩
    rw [attrsOf_append] at hl
    exact (List.mem_append.1 hl).elim (h2 l) (h4 l)

theorem sectionsOf_notMedia {x : SdpLine} (hx : notMedia x = true) (q : List SdpLine) :
    sectionsOf (x :: q) = sectionsOf q := sectionsOf_head (h := [x]) (by simpa using hx)

/-- A session, seen from a place in the session part. -/
theorem describes_at {l0 l1 l2 : SdpLine} {p q : List SdpLine} {v : UInt64} {o : Origin} {nm : Str} {r : Session}
    (h0 : l0.sdpType = .version v) (h1 : l1.sdpType = .origin o) (h2 : l2.sdpType = .session nm)
    (hp : ∀ l ∈ p, notMedia l = true) :
    Describes (l0 :: l1 :: l2 :: (p ++ q)) r ↔ p ++ q ≠ [] ∧ GoodSessionPart p ∧ GoodSessionPart (q.takeWhile notMedia) ∧
      (∀ s ∈ sectionsOf q, GoodSection s.2) ∧
      r = { version := v, origin := o, session := if Blank nm then none else some (trim nm)
            connection := (connectionsOf p ++ connectionsOf (q.takeWhile notMedia)).getLast?
            bandwidth := bandwidthsOf p ++ bandwidthsOf (q.takeWhile notMedia)
            timing := (timingsOf p ++ timingsOf (q.takeWhile notMedia)).getLast?
            attrs := attrsOf p ++ attrsOf (q.takeWhile notMedia)
            media := (sectionsOf q).map sectionMedia
            warnings := [] } ∧ Consistent r := by
  have et : (p ++ q).takeWhile notMedia = p ++ q.takeWhile notMedia := List.takeWhile_append_of_pos hp
  have ea : assemble v o nm (p ++ q) [] =
      { version := v, origin := o, session := if Blank nm then none else some (trim nm)
        connection := (connectionsOf p ++ connectionsOf (q.takeWhile notMedia)).getLast?
        bandwidth := bandwidthsOf p ++ bandwidthsOf (q.takeWhile notMedia)
        timing := (timingsOf p ++ timingsOf (q.takeWhile notMedia)).getLast?
        attrs := attrsOf p ++ attrsOf (q.takeWhile notMedia)
        media := (sectionsOf q).map sectionMedia
        warnings := [] } := by
    unfold assemble
    simp only [et, sectionsOf_head hp, attrsOf_append, bandwidthsOf_append, connectionsOf_append, timingsOf_append]
  rw [← ea]
  constructor
  · rintro ⟨k0, k1, k2, rest, v', o', nm', g, g1, g2, g3, g4, g5, g6, g7, g8⟩
    simp only [List.cons.injEq] at g
    obtain ⟨rfl, rfl, rfl, rfl⟩ := g
    rw [h0] at g2; cases g2
    rw [h1] at g3; cases g3
    rw [h2] at g4; cases g4
    rw [et, goodPart_append] at g5
    rw [sectionsOf_head hp] at g6
    exact ⟨g1, g5.1, g5.2, g6, g7, g8⟩
  · rintro ⟨g1, g5, g5', g6, g7, g8⟩
    refine ⟨_, _, _, _, v, o, nm, rfl, g1, h0, h1, h2, ?_, ?_, g7, g8⟩
    · rw [et, goodPart_append]; exact ⟨g5, g5'⟩
    · rw [sectionsOf_head hp]; exact g6

/-- A session, seen from a place in a media section. -/
theorem describes_in {l0 l1 l2 m : SdpLine} {p p2 q : List SdpLine} {v : UInt64} {o : Origin} {nm : Str} {ml : MediaLine}
    {r : Session} (h0 : l0.sdpType = .version v) (h1 : l1.sdpType = .origin o) (h2 : l2.sdpType = .session nm)
    (hm : m.sdpType = .media ml) (hp : ∀ l ∈ p2, notMedia l = true) :
    Describes (l0 :: l1 :: l2 :: (p ++ m :: (p2 ++ q))) r ↔ GoodSessionPart (p.takeWhile notMedia) ∧
      (∀ s ∈ sectionsOf p, GoodSection s.2) ∧ GoodSection (p2 ++ q.takeWhile notMedia) ∧
      (∀ s ∈ sectionsOf q, GoodSection s.2) ∧
      r = { assemble v o nm p [] with
            media := (sectionsOf p).map sectionMedia ++ sectionMedia (ml, p2 ++ q.takeWhile notMedia) ::
              (sectionsOf q).map sectionMedia } ∧ Consistent r := by
  have hn : notMedia m = false := by
    obtain ⟨n, t, x⟩ := m
    simp only at hm; subst hm; rfl
  have et (y : List SdpLine) : (p ++ m :: y).takeWhile notMedia = p.takeWhile notMedia := by
    clear * - hn
    induction p with
    | nil => simp [hn]
    | cons a p ih => simp only [List.cons_append, List.takeWhile_cons, ih]
  have es : sectionsOf (p ++ m :: (p2 ++ q)) = sectionsOf p ++ (ml, p2 ++ q.takeWhile notMedia) :: sectionsOf q := by
    rw [sectionsOf_append (by simpa using hn)]
    congr 1
    have : sectionsOf (m :: (p2 ++ q)) = (ml, (p2 ++ q).takeWhile notMedia) :: sectionsOf (p2 ++ q) := by
      obtain ⟨n, t, x⟩ := m
      simp only at hm; subst hm; rfl
    rw [this, List.takeWhile_append_of_pos hp, sectionsOf_head hp]
  have ea : assemble v o nm (p ++ m :: (p2 ++ q)) [] =
      { assemble v o nm p [] with
        media := (sectionsOf p).map sectionMedia ++ sectionMedia (ml, p2 ++ q.takeWhile notMedia) ::
              (sectionsOf q).map sectionMedia } := by
    unfold assemble
    simp only [et, es, List.map_append, List.map_cons]
  rw [← ea]
  constructor
  · rintro ⟨k0, k1, k2, rest, v', o', nm', g, g1, g2, g3, g4, g5, g6, g7, g8⟩
    simp only [List.cons.injEq] at g
    obtain ⟨rfl, rfl, rfl, rfl⟩ := g
    rw [h0] at g2; cases g2
    rw [h1] at g3; cases g3
    rw [h2] at g4; cases g4
    rw [et] at g5
    rw [es] at g6
    exact ⟨g5, fun s hs => g6 s (by simp [hs]), g6 (ml, _) (by simp), fun s hs => g6 s (by simp [hs]), g7, g8⟩
  · rintro ⟨g5, g6, g6', g6'', g7, g8⟩
    refine ⟨_, _, _, _, v, o, nm, rfl, by simp, h0, h1, h2, ?_, ?_, g7, g8⟩
    · rw [et]; exact g5
    · rw [es]
      intro s hs
      simp only [List.mem_append, List.mem_cons] at hs
      rcases hs with hs | rfl | hs
      · exact g6 s hs
      · exact g6'
      · exact g6'' s hs

/-! ## The rules -/

theorem SectionTakes.dtls {r : Session} {m : Media} {before : List Attribute} {a : Attribute} (h : isDtls a = true) :
    SectionTakes r m before a := by
  cases a <;> first | trivial | (cases h)

theorem mem_insert {a b : Attribute} {A B : List Attribute} : b ∈ A ++ a :: B ↔ b = a ∨ b ∈ A ++ B := by
  simp only [List.mem_append, List.mem_cons]
  tauto

theorem hasRid_insert {m : Media} {A B : List Attribute} {a : Attribute} (hm : m.attrs = A ++ B) {d : SingleDirection} {id : Str}
    (h : HasRid m d id) : HasRid { m with attrs := A ++ a :: B } d id := by
  obtain ⟨r, h1, h2⟩ := h
  exact ⟨r, mem_insert.2 (.inr (hm ▸ h1)), h2⟩

theorem defined_insert {m : Media} {A B : List Attribute} {a : Attribute} (hm : m.attrs = A ++ B) {sc : Simulcast}
    (h : SimulcastDefined m sc) : SimulcastDefined { m with attrs := A ++ a :: B } sc :=
  ⟨fun v hv i hi => hasRid_insert hm (h.1 v hv i hi), fun v hv i hi => hasRid_insert hm (h.2 v hv i hi)⟩

theorem hasRid_same {m : Media} {A B : List Attribute} {a : Attribute} (hm : m.attrs = A ++ B) (ha : ∀ r, a ≠ .rid r)
    {d : SingleDirection} {id : Str} (h : HasRid { m with attrs := A ++ a :: B } d id) : HasRid m d id := by
  obtain ⟨r, h1, h2⟩ := h
  rcases mem_insert.1 h1 with h1 | h1
  · exact absurd h1.symm (ha r)
  · exact ⟨r, hm ▸ h1, h2⟩

theorem defined_same {m : Media} {A B : List Attribute} {a : Attribute} (hm : m.attrs = A ++ B) (ha : ∀ r, a ≠ .rid r)
    {sc : Simulcast} (h : SimulcastDefined { m with attrs := A ++ a :: B } sc) : SimulcastDefined m sc :=
  ⟨fun v hv i hi => hasRid_same hm ha (h.1 v hv i hi), fun v hv i hi => hasRid_same hm ha (h.2 v hv i hi)⟩

theorem simulcastsIn_append (a b : List Attribute) : simulcastsIn (a ++ b) = simulcastsIn a ++ simulcastsIn b :=
  List.filterMap_append

theorem first_same {m : Media} {A B : List Attribute} {a : Attribute} (hm : m.attrs = A ++ B) (ha : ∀ x, a ≠ .simulcast x)
    {sc : Simulcast} : FirstSimulcast { m with attrs := A ++ a :: B } sc ↔ FirstSimulcast m sc := by
  rw [firstSimulcast_head, firstSimulcast_head, hm]
  have : simulcastsIn (a :: B) = simulcastsIn B := by
    unfold simulcastsIn
    rw [List.filterMap_cons]
    cases a <;> first | rfl | exact absurd rfl (ha _)
  simp only [simulcastsIn_append, this]

theorem first_insert {m : Media} {A B : List Attribute} {x : Simulcast} (hm : m.attrs = A ++ B)
    {sc : Simulcast} : FirstSimulcast { m with attrs := A ++ .simulcast x :: B } sc ↔
      ((∃ y, Attribute.simulcast y ∈ A) ∧ FirstSimulcast m sc) ∨ ((∀ y, Attribute.simulcast y ∉ A) ∧ sc = x) := by
  rw [firstSimulcast_head, firstSimulcast_head, hm]
  have hc : simulcastsIn (.simulcast x :: B) = x :: simulcastsIn B := rfl
  have hA : simulcastsIn A = [] ↔ ∀ y, Attribute.simulcast y ∉ A := by
    unfold simulcastsIn
    rw [List.filterMap_eq_nil_iff]
    constructor
    · intro h y hy
      exact absurd (h _ hy) (by simp)
    · intro h a ha
      cases a <;> first | rfl | exact absurd ha (h _)
  simp only [simulcastsIn_append, hc]
  cases hs : simulcastsIn A with
  | nil =>
    have h := hA.1 hs
    have h' : ¬ ∃ y, Attribute.simulcast y ∈ A := by rintro ⟨y, hy⟩; exact h y hy
    simp [h, eq_comm]
  | cons y ys =>
    have h : ¬ ∀ y, Attribute.simulcast y ∉ A := by rw [← hA, hs]; simp
    have h' : ∃ y, Attribute.simulcast y ∈ A := by simpa using h
    simp [h, h']

/-- What a consistent section needs to stay so with one more attribute. -/
theorem consistent_insert {m : Media} {A B : List Attribute} {a : Attribute} (hm : m.attrs = A ++ B)
    (hc : ConsistentMedia m) : ConsistentMedia { m with attrs := A ++ a :: B } ↔
      (a = .rtcpMuxOnly → Attribute.rtcpMux ∈ m.attrs) ∧
      (∀ x, a = .rid x → ∀ f ∈ x.formats, ListsFormat m.media.formats f.toNat) ∧
      (∀ sc, a = .simulcast sc → (∃ x, Attribute.simulcast x ∈ A) ∨ SimulcastDefined m sc) := by
  constructor
  · rintro ⟨h1, h2, h3⟩
    refine ⟨?_, ?_, ?_⟩
    · rintro rfl
      rcases mem_insert.1 (h1 (mem_insert.2 (.inl rfl))) with h | h
      · cases h
      · rwa [hm]
    · rintro x rfl
      exact h2 x (mem_insert.2 (.inl rfl))
    · rintro sc rfl
      by_cases hA : ∃ x, Attribute.simulcast x ∈ A
      · exact .inl hA
      · refine .inr (defined_same hm (by simp) (h3 sc ((first_insert hm).2 (.inr ⟨by simpa using hA, rfl⟩))))
  · rintro ⟨h1, h2, h3⟩
    refine ⟨fun h => ?_, fun x hx => ?_, fun sc hsc => ?_⟩
    · rcases mem_insert.1 h with h | h
      · exact mem_insert.2 (.inr (hm ▸ h1 h.symm))
      · exact mem_insert.2 (.inr (hm ▸ hc.mux (hm ▸ h)))
    · rcases mem_insert.1 hx with h | h
      · exact h2 x h.symm
      · exact hc.ridFormats x (hm ▸ h)
    · by_cases ha : ∃ x, a = .simulcast x
      · obtain ⟨x, rfl⟩ := ha
        rcases (first_insert hm).1 hsc with ⟨-, h⟩ | ⟨hA, rfl⟩
        · exact defined_insert hm (hc.simulcast sc h)
        · exact defined_insert hm ((h3 sc rfl).resolve_left (by rintro ⟨y, hy⟩; exact hA y hy))
      · exact defined_insert hm (hc.simulcast sc ((first_same hm (fun x h => ha ⟨x, h⟩)).1 hsc))

/-- What a consistent section needs to stay so without an attribute. -/
theorem consistent_remove {m : Media} {A B : List Attribute} {a : Attribute} (hm : m.attrs = A ++ B)
    (hc : ConsistentMedia { m with attrs := A ++ a :: B }) : ConsistentMedia m ↔ SectionSpares m a := by
  constructor
  · rintro ⟨h1, h2, h3⟩
    cases a <;> first | trivial | exact h1 | exact h3
  · intro h
    have mux (ha : a ≠ .rtcpMux) : Attribute.rtcpMuxOnly ∈ m.attrs → Attribute.rtcpMux ∈ m.attrs := by
      intro hx
      rcases mem_insert.1 (hc.mux (mem_insert.2 (.inr (hm ▸ hx)))) with h | h
      · exact absurd h.symm ha
      · rwa [hm]
    have sim (h1 : ∀ r, a ≠ .rid r) (h2 : ∀ x, a ≠ .simulcast x) (sc : Simulcast) (hs : FirstSimulcast m sc) :
        SimulcastDefined m sc := defined_same hm h1 (hc.simulcast sc ((first_same hm h2).2 hs))
    refine ⟨?_, fun r hr => hc.ridFormats r (mem_insert.2 (.inr (hm ▸ hr))), ?_⟩
    · by_cases ha : a = .rtcpMux
      · subst ha; exact h
      · exact mux ha
    · by_cases h1 : ∃ r, a = .rid r
      · obtain ⟨r, rfl⟩ := h1; exact h
      · by_cases h2 : ∃ x, a = .simulcast x
        · obtain ⟨x, rfl⟩ := h2; exact h
        · exact sim (fun r e => h1 ⟨r, e⟩) (fun x e => h2 ⟨x, e⟩)

end Sdp
