import Verif.Lemmas.Insert
/-!
# The lines of a text with one line more or less
-/

namespace Sdp.Insert

section
variable [Env]

theorem bare_noMedia' {h : List Str} (hh : NoMediaLine h) : ∀ l ∈ bareLines h, notMedia l = true := by
  intro l hl
  obtain ⟨t, ht, rfl⟩ := List.mem_map.1 hl
  obtain ⟨x, hx, hr⟩ := List.mem_filterMap.1 ht
  have := hh x hx
  rw [readType_some] at hr
  unfold isMediaLine at this
  rw [hr] at this
  cases t <;> first | rfl | exact absurd this (by simp)

theorem bare_cons {l : Str} {t : SdpType} (h : lineMeaning l = .ok t) (q : List Str) :
    bareLines (l :: q) = ⟨0, t, []⟩ :: bareLines q := by
  unfold bareLines
  rw [List.filterMap_cons, readType_some.2 h]
  rfl

theorem attrsOf_bareLines (p : List Str) : attrsOf (bareLines p) = attrsRead p := by
  induction p with
  | nil => rfl
  | cons l p ih =>
    unfold attrsRead
    rw [List.filterMap_cons]
    cases h : lineMeaning l with
    | ok t =>
      rw [bare_cons h]
      unfold attrsRead at ih
      cases t <;> simp only [attrsOf, List.filterMap_cons] at ih ⊢ <;> rw [ih]
    | err e =>
      have : readType l = none := by unfold readType; rw [h]
      have e : bareLines (l :: p) = bareLines p := by unfold bareLines; rw [List.filterMap_cons, this]
      rw [e]; exact ih
    | panic =>
      have : readType l = none := by unfold readType; rw [h]
      have e : bareLines (l :: p) = bareLines p := by unfold bareLines; rw [List.filterMap_cons, this]
      rw [e]; exact ih

theorem bandwidthsOf_bareLines (p : List Str) : bandwidthsOf (bareLines p) = bandwidthsRead p := by
  induction p with
  | nil => rfl
  | cons l p ih =>
    unfold bandwidthsRead
    rw [List.filterMap_cons]
    cases h : lineMeaning l with
    | ok t =>
      rw [bare_cons h]
      unfold bandwidthsRead at ih
      cases t <;> simp only [bandwidthsOf, List.filterMap_cons] at ih ⊢ <;> rw [ih]
    | err e =>
      have : readType l = none := by unfold readType; rw [h]
      have e : bareLines (l :: p) = bareLines p := by unfold bareLines; rw [List.filterMap_cons, this]
      rw [e]; exact ih
    | panic =>
      have : readType l = none := by unfold readType; rw [h]
      have e : bareLines (l :: p) = bareLines p := by unfold bareLines; rw [List.filterMap_cons, this]
      rw [e]; exact ih

theorem sectionsOf_count (p : List Str) : (sectionsOf (bareLines p)).length = p.countP isMediaLine := by
  induction p with
  | nil => rfl
  | cons l p ih =>
    rw [List.countP_cons, ← ih]
    unfold isMediaLine
    cases h : lineMeaning l with
    | ok t =>
      rw [bare_cons h]
      cases t <;> simp [sectionsOf]
    | err e =>
      have : readType l = none := by unfold readType; rw [h]
      have e : bareLines (l :: p) = bareLines p := by unfold bareLines; rw [List.filterMap_cons, this]
      rw [e]; rfl
    | panic =>
      have : readType l = none := by unfold readType; rw [h]
      have e : bareLines (l :: p) = bareLines p := by unfold bareLines; rw [List.filterMap_cons, this]
      rw [e]; rfl

/-- The first three lines are in front of a line that is none of them. -/
theorem first_three {p y : List SdpLine} {x : SdpLine} {r : Session} (h : Describes (p ++ x :: y) r)
    (hx : ∀ v o n, x.sdpType ≠ .version v ∧ x.sdpType ≠ .origin o ∧ x.sdpType ≠ .session n) :
    ∃ l0 l1 l2 p' v o nm, p = l0 :: l1 :: l2 :: p' ∧ l0.sdpType = .version v ∧ l1.sdpType = .origin o ∧
      l2.sdpType = .session nm := by
  obtain ⟨l0, l1, l2, rest, v, o, nm, g, -, g2, g3, g4, -⟩ := h
  match p, g with
  | [], g => cases g; exact absurd g2 (hx v o nm).1
  | [a], g => cases g; exact absurd g3 (hx v o nm).2.1
  | [a, b], g => cases g; exact absurd g4 (hx v o nm).2.2
  | a :: b :: c :: p, g =>
    simp only [List.cons_append, List.cons.injEq] at g
    obtain ⟨rfl, rfl, rfl, -⟩ := g
    exact ⟨_, _, _, _, _, _, _, rfl, g2, g3, g4⟩

/-- They are in front of anything that comes after the name. -/
theorem first_three_name {p y : List SdpLine} {r : Session} (h : Describes (p ++ y) r)
    (hx : ∃ l ∈ p, ∃ n, l.sdpType = .session n) :
    ∃ l0 l1 l2 p' v o nm, p = l0 :: l1 :: l2 :: p' ∧ l0.sdpType = .version v ∧ l1.sdpType = .origin o ∧
      l2.sdpType = .session nm := by
  obtain ⟨x, hx, n, hn⟩ := hx
  obtain ⟨l0, l1, l2, rest, v, o, nm, g, -, g2, g3, g4, -⟩ := h
  match p, g with
  | [a], g =>
    cases g
    rw [List.mem_singleton] at hx; subst hx
    rw [g2] at hn; cases hn
  | [a, b], g =>
    cases g
    simp only [List.mem_cons, List.not_mem_nil, or_false] at hx
    rcases hx with rfl | rfl
    · rw [g2] at hn; cases hn
    · rw [g3] at hn; cases hn
  | a :: b :: c :: p, g =>
    simp only [List.cons_append, List.cons.injEq] at g
    obtain ⟨rfl, rfl, rfl, -⟩ := g
    exact ⟨_, _, _, _, _, _, _, rfl, g2, g3, g4⟩

theorem hasName_bare {p : List Str} (h : HasName p) : ∃ l ∈ bareLines p, ∃ n, l.sdpType = .session n := by
  obtain ⟨l, hl, n, hn⟩ := h
  exact ⟨⟨0, .session n, []⟩, List.mem_map.2 ⟨_, List.mem_filterMap.2 ⟨l, hl, readType_some.2 hn⟩, rfl⟩, n, rfl⟩

/-- The three first lines are neither attributes nor bandwidths. -/
theorem attrs_three {l0 l1 l2 : SdpLine} {p : List SdpLine} {v : UInt64} {o : Origin} {nm : Str}
    (h0 : l0.sdpType = .version v) (h1 : l1.sdpType = .origin o) (h2 : l2.sdpType = .session nm) :
    attrsOf (l0 :: l1 :: l2 :: p) = attrsOf p ∧ bandwidthsOf (l0 :: l1 :: l2 :: p) = bandwidthsOf p ∧
    sectionsOf (l0 :: l1 :: l2 :: p) = sectionsOf p := by
  obtain ⟨_, _, _⟩ := l0
  obtain ⟨_, _, _⟩ := l1
  obtain ⟨_, _, _⟩ := l2
  simp only at h0 h1 h2
  subst h0 h1 h2
  exact ⟨rfl, rfl, rfl⟩

/-- The lines that are read are the same, but for one. -/
theorem fine_insert {f : Bool} {p q : List Str} {l : Str} {t : SdpType} (h : lineMeaning l = .ok t) :
    (∀ x ∈ p ++ l :: q, LineFine f x) ↔ ∀ x ∈ p ++ q, LineFine f x := by
  have hl : LineFine f l := .inr (.inl ⟨t, h⟩)
  simp only [List.mem_append, List.mem_cons]
  constructor
  · intro g x hx
    exact g x (by tauto)
  · rintro g x (hx | rfl | hx)
    · exact g x (.inl hx)
    · exact hl
    · exact g x (.inr hx)

theorem accepts {s : Str} {f : Bool} {ls : List Str} (hs : lines s = ls) (hb : 51 ≤ byteLen s)
    (hf : ∀ x ∈ ls, LineFine f x) : (∃ r, parseSdp s f = .ok r) ↔ ∃ r, Describes (bareLines ls) r := by
  rw [accepts_lines, hs]
  exact ⟨fun h => h.2.2, fun h => ⟨hb, hf, h⟩⟩

theorem describes_of {s : Str} {f : Bool} {r : Session} {ls : List Str} (hs : lines s = ls) (h : parseSdp s f = .ok r) :
    (∀ x ∈ ls, LineFine f x) ∧ Describes (bareLines ls) { r with warnings := [] } := by
  obtain ⟨-, h2, h3, -⟩ := parseSdp_lines.1 h
  rw [hs] at h2 h3
  exact ⟨h2, h3⟩

theorem bare_warnings {r r' : Session} (h : ({ r' with warnings := [] } : Session) = { r with warnings := [] }) :
    r' = { r with warnings := r'.warnings } := by
  have := congrArg (fun x : Session => { x with warnings := r'.warnings }) h
  exact this

theorem consistent_bare {r : Session} {w : List ParserError} : Consistent { r with warnings := w } ↔ Consistent r :=
  ⟨fun ⟨a, b, c, d⟩ => ⟨a, b, c, d⟩, fun ⟨a, b, c, d⟩ => ⟨a, b, c, d⟩⟩

/-- An a= or b= line. -/
def Inner (t : SdpType) : Prop := (∃ a, t = .attr a) ∨ ∃ b, t = .bandwidth b

theorem at_session {p q : List Str} {l : Str} {t : SdpType} (hp : NoMediaLine p) (hl : lineMeaning l = .ok t)
    (ht : Inner t)
    (h3 : ∃ l0 l1 l2 p' v o nm, bareLines p = l0 :: l1 :: l2 :: p' ∧ l0.sdpType = .version v ∧ l1.sdpType = .origin o ∧
      l2.sdpType = .session nm) :
    ∃ (base : Session) (B : List Attribute) (D : List Bandwidth) (G : Prop), base.warnings = [] ∧
      (∀ r, Describes (bareLines (p ++ q)) r ↔ G ∧
        r = { base with attrs := attrsRead p ++ B, bandwidth := bandwidthsRead p ++ D } ∧ Consistent r) ∧
      (∀ r, Describes (bareLines (p ++ l :: q)) r ↔ G ∧ GoodSessionPart [⟨0, t, []⟩] ∧
        r = { base with attrs := attrsRead p ++ (attrsOf [⟨0, t, []⟩] ++ B)
                        bandwidth := bandwidthsRead p ++ (bandwidthsOf [⟨0, t, []⟩] ++ D) } ∧ Consistent r) := by
  obtain ⟨l0, l1, l2, p', v, o, nm, e, h0, h1, h2⟩ := h3
  have hA : attrsRead p = attrsOf p' := by rw [← attrsOf_bareLines, e, (attrs_three h0 h1 h2).1]
  have hD : bandwidthsRead p = bandwidthsOf p' := by rw [← bandwidthsOf_bareLines, e, (attrs_three h0 h1 h2).2.1]
  have hpm' : ∀ l ∈ p', notMedia l = true := fun l hl => bare_noMedia' hp l (by rw [e]; simp [hl])
  have hbare : bareLines (p ++ l :: q) = l0 :: l1 :: l2 :: (p' ++ ⟨0, t, []⟩ :: bareLines q) := by
    rw [bareLines_append, bare_cons hl, e]; rfl
  have hbare' : bareLines (p ++ q) = l0 :: l1 :: l2 :: (p' ++ bareLines q) := by rw [bareLines_append, e]; rfl
  have hnm : notMedia ⟨0, t, []⟩ = true := by rcases ht with ⟨a, rfl⟩ | ⟨b, rfl⟩ <;> rfl
  have hc : connectionsOf [⟨0, t, []⟩] = [] ∧ timingsOf [⟨0, t, []⟩] = [] := by
    rcases ht with ⟨a, rfl⟩ | ⟨b, rfl⟩ <;> exact ⟨rfl, rfl⟩
  have et : (⟨0, t, []⟩ :: bareLines q).takeWhile notMedia = [⟨0, t, []⟩] ++ (bareLines q).takeWhile notMedia := by
    rw [List.takeWhile_cons, if_pos hnm]; rfl
  refine ⟨{ version := v, origin := o, session := if Blank nm then none else some (trim nm)
            connection := (connectionsOf p' ++ connectionsOf ((bareLines q).takeWhile notMedia)).getLast?
            bandwidth := []
            timing := (timingsOf p' ++ timingsOf ((bareLines q).takeWhile notMedia)).getLast?
            attrs := []
            media := (sectionsOf (bareLines q)).map sectionMedia
            warnings := [] }, attrsOf ((bareLines q).takeWhile notMedia), bandwidthsOf ((bareLines q).takeWhile notMedia),
    GoodSessionPart p' ∧ GoodSessionPart ((bareLines q).takeWhile notMedia) ∧ ∀ s ∈ sectionsOf (bareLines q), GoodSection s.2,
    rfl, fun r => ?_, fun r => ?_⟩
  · rw [hbare', describes_at h0 h1 h2 hpm', hA, hD]
    constructor
    · rintro ⟨-, g1, g2, g3, g4, g5⟩; exact ⟨⟨g1, g2, g3⟩, g4, g5⟩
    · rintro ⟨⟨g1, g2, g3⟩, g4, g5⟩
      refine ⟨fun hn => ?_, g1, g2, g3, g4, g5⟩
      obtain ⟨h1, h2⟩ := List.append_eq_nil_iff.1 hn
      obtain ⟨x, hx⟩ := g5.timing
      rw [g4] at hx
      simp only [h1, h2] at hx
      cases hx
  · rw [hbare, describes_at h0 h1 h2 hpm', hA, hD, et, sectionsOf_notMedia hnm, goodPart_append]
    simp only [attrsOf_append, bandwidthsOf_append, connectionsOf_append, timingsOf_append, hc, List.nil_append]
    constructor
    · rintro ⟨-, g1, ⟨g2, g2'⟩, g3, g4, g5⟩; exact ⟨⟨g1, g2', g3⟩, g2, g4, g5⟩
    · rintro ⟨⟨g1, g2, g3⟩, g2', g4, g5⟩; exact ⟨by simp, g1, ⟨g2', g2⟩, g3, g4, g5⟩

theorem goodSection_insert {a b : List SdpLine} {x : SdpLine} (hc : connectionsOf [x] = []) :
    GoodSection (a ++ ([x] ++ b)) ↔ GoodSection (a ++ b) ∧ GoodSection [x] := by
  have e : connectionsOf (a ++ ([x] ++ b)) = connectionsOf (a ++ b) := by
    rw [connectionsOf_append, connectionsOf_append, hc, connectionsOf_append]; rfl
  constructor
  · rintro ⟨h1, h2, h3⟩
    rw [e] at h2
    simp only [attrsOf_append, List.mem_append] at h1 h3
    exact ⟨⟨fun l hl => h1 l (by rcases List.mem_append.1 hl with h | h <;> tauto), h2,
        fun y hy => h3 y (by rw [attrsOf_append] at hy; rcases List.mem_append.1 hy with h | h <;> tauto)⟩,
      ⟨fun l hl => h1 l (by tauto), by rw [hc]; simp, fun y hy => h3 y (by tauto)⟩⟩
  · rintro ⟨⟨h1, h2, h3⟩, ⟨k1, k2, k3⟩⟩
    rw [attrsOf_append] at h3
    refine ⟨fun l hl => ?_, by rw [e]; exact h2, fun y hy => ?_⟩
    · simp only [List.mem_append] at hl
      rcases hl with hl | hl | hl
      · exact h1 l (by simp [hl])
      · exact k1 l hl
      · exact h1 l (by simp [hl])
    · simp only [attrsOf_append, List.mem_append] at hy
      rcases hy with hl | hl | hl
      · exact h3 y (by simp [hl])
      · exact k3 y hl
      · exact h3 y (by simp [hl])

theorem at_section {p1 p2 q : List Str} {m l : Str} {ml : MediaLine} {t : SdpType}
    (hm : lineMeaning m = .ok (.media ml)) (hp : NoMediaLine p2) (hl : lineMeaning l = .ok t) (ht : Inner t)
    (h3 : ∃ l0 l1 l2 p' v o nm, bareLines p1 = l0 :: l1 :: l2 :: p' ∧ l0.sdpType = .version v ∧ l1.sdpType = .origin o ∧
      l2.sdpType = .session nm) :
    ∃ (base : Session) (before after : List Media) (con : Option Connection) (B : List Attribute) (D : List Bandwidth) (G : Prop),
      base.warnings = [] ∧ before.length = p1.countP isMediaLine ∧
      (∀ r, Describes (bareLines (p1 ++ m :: (p2 ++ q))) r ↔ G ∧
        r = { base with media := before ++ { media := ml, connection := con, bandwidth := bandwidthsRead p2 ++ D
                                             attrs := (attrsRead p2).filter (fun a => !isDtls a) ++ B } :: after } ∧ Consistent r) ∧
      (∀ r, Describes (bareLines (p1 ++ m :: (p2 ++ l :: q))) r ↔ G ∧ GoodSection [⟨0, t, []⟩] ∧
        r = { base with media := before ++ { media := ml, connection := con
                                             bandwidth := bandwidthsRead p2 ++ (bandwidthsOf [⟨0, t, []⟩] ++ D)
                                             attrs := (attrsRead p2).filter (fun a => !isDtls a) ++
                                               ((attrsOf [⟨0, t, []⟩]).filter (fun a => !isDtls a) ++ B) } :: after } ∧
        Consistent r) := by
  obtain ⟨l0, l1, l2, p', v, o, nm, e, h0, h1, h2⟩ := h3
  have hcount : (sectionsOf p').length = p1.countP isMediaLine := by
    rw [← sectionsOf_count, e, (attrs_three h0 h1 h2).2.2]
  have hbare (y : List Str) : bareLines (p1 ++ m :: (p2 ++ y)) =
      l0 :: l1 :: l2 :: (p' ++ ⟨0, .media ml, []⟩ :: (bareLines p2 ++ bareLines y)) := by
    rw [bareLines_append, bare_cons hm, e, bareLines_append]; rfl
  have hnm : notMedia ⟨0, t, []⟩ = true := by rcases ht with ⟨a, rfl⟩ | ⟨b, rfl⟩ <;> rfl
  have hc : connectionsOf [⟨0, t, []⟩] = [] := by
    rcases ht with ⟨a, rfl⟩ | ⟨b, rfl⟩ <;> rfl
  have et : (⟨0, t, []⟩ :: bareLines q).takeWhile notMedia = [⟨0, t, []⟩] ++ (bareLines q).takeWhile notMedia := by
    rw [List.takeWhile_cons, if_pos hnm]; rfl
  refine ⟨assemble v o nm p' [], (sectionsOf p').map sectionMedia, (sectionsOf (bareLines q)).map sectionMedia,
    (connectionsOf (bareLines p2 ++ (bareLines q).takeWhile notMedia)).head?,
    (attrsOf ((bareLines q).takeWhile notMedia)).filter (fun a => !isDtls a), bandwidthsOf ((bareLines q).takeWhile notMedia),
    GoodSessionPart (p'.takeWhile notMedia) ∧ (∀ s ∈ sectionsOf p', GoodSection s.2) ∧
      GoodSection (bareLines p2 ++ (bareLines q).takeWhile notMedia) ∧ ∀ s ∈ sectionsOf (bareLines q), GoodSection s.2,
    rfl, by rw [List.length_map, hcount], fun r => ?_, fun r => ?_⟩
  · rw [hbare, describes_in h0 h1 h2 (by rfl) (bare_noMedia' hp)]
    simp only [sectionMedia, attrsOf_append, bandwidthsOf_append, List.filter_append, attrsOf_bareLines, bandwidthsOf_bareLines]
    exact ⟨fun ⟨a, b, c, d, e⟩ => ⟨⟨a, b, c, d⟩, e⟩, fun ⟨⟨a, b, c, d⟩, e⟩ => ⟨a, b, c, d, e⟩⟩
  · rw [hbare, bare_cons hl, describes_in h0 h1 h2 (by rfl) (bare_noMedia' hp), et, sectionsOf_notMedia hnm,
      goodSection_insert hc]
    simp only [sectionMedia, attrsOf_append, bandwidthsOf_append, connectionsOf_append, hc, List.nil_append,
      List.filter_append, attrsOf_bareLines, bandwidthsOf_bareLines]
    exact ⟨fun ⟨a, b, ⟨c, c'⟩, d, e⟩ => ⟨⟨a, b, c, d⟩, c', e⟩, fun ⟨⟨a, b, c, d⟩, c', e⟩ => ⟨a, b, ⟨c, c'⟩, d, e⟩⟩

theorem goodPart_attr {a : Attribute} : GoodSessionPart [⟨0, .attr a, []⟩] ↔ a.type ∉ mediaOnly :=
  ⟨fun h => h.levels a (by simp [attrsOf]), fun h => ⟨by simp [SessionLine], by simpa [attrsOf] using h⟩⟩

theorem three_attr {p q : List Str} {l : Str} {t : SdpType} {r : Session} (hl : lineMeaning l = .ok t)
    (ht : Inner t) (hd : Describes (bareLines (p ++ l :: q)) r) :
    ∃ l0 l1 l2 p' v o nm, bareLines p = l0 :: l1 :: l2 :: p' ∧ l0.sdpType = .version v ∧ l1.sdpType = .origin o ∧
      l2.sdpType = .session nm := by
  rw [bareLines_append, bare_cons hl] at hd
  refine first_three hd ?_
  rcases ht with ⟨a, rfl⟩ | ⟨b, rfl⟩ <;> simp

theorem of_bare {r b : Session} (h : ({ r with warnings := [] } : Session) = b) :
    ∃ w, r = { b with warnings := w } := by
  subst h; exact ⟨r.warnings, rfl⟩

end

end Sdp.Insert
