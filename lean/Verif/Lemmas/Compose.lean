import Verif.Spec.Compose
import Verif.Spec.Document
import Verif.Lemmas.ReadsBackSession
/-!
# Composing texts from sections, and reordering their lines
-/

namespace Sdp

/-! ## Lines without numbers -/

/-- The line without its number and text. -/
def SdpLine.bare (l : SdpLine) : SdpLine := ⟨0, l.sdpType, []⟩

theorem attrsOf_bare (ls : List SdpLine) : attrsOf (ls.map SdpLine.bare) = attrsOf ls := by
  unfold attrsOf; rw [List.filterMap_map]; rfl

theorem bandwidthsOf_bare (ls : List SdpLine) : bandwidthsOf (ls.map SdpLine.bare) = bandwidthsOf ls := by
  unfold bandwidthsOf; rw [List.filterMap_map]; rfl

theorem connectionsOf_bare (ls : List SdpLine) : connectionsOf (ls.map SdpLine.bare) = connectionsOf ls := by
  unfold connectionsOf; rw [List.filterMap_map]; rfl

theorem timingsOf_bare (ls : List SdpLine) : timingsOf (ls.map SdpLine.bare) = timingsOf ls := by
  unfold timingsOf; rw [List.filterMap_map]; rfl

theorem takeWhile_bare (ls : List SdpLine) :
    (ls.map SdpLine.bare).takeWhile notMedia = (ls.takeWhile notMedia).map SdpLine.bare := by
  rw [List.takeWhile_map]; rfl

theorem sectionsOf_bare (ls : List SdpLine) :
    sectionsOf (ls.map SdpLine.bare) = (sectionsOf ls).map fun p => (p.1, p.2.map SdpLine.bare) := by
  induction ls with
  | nil => rfl
  | cons l ls ih =>
    obtain ⟨n, t, x⟩ := l
    cases t <;> simp only [List.map_cons, SdpLine.bare, sectionsOf] <;> first
      | exact ih
      | (rw [ih, takeWhile_bare])

theorem goodSection_bare {ls : List SdpLine} : GoodSection (ls.map SdpLine.bare) ↔ GoodSection ls := by
  constructor
  · rintro ⟨h1, h2, h3⟩
    rw [connectionsOf_bare] at h2; rw [attrsOf_bare] at h3
    exact ⟨fun l hl => h1 l.bare (List.mem_map_of_mem hl), h2, h3⟩
  · rintro ⟨h1, h2, h3⟩
    refine ⟨fun l hl => ?_, by rwa [connectionsOf_bare], by rwa [attrsOf_bare]⟩
    obtain ⟨x, hx, rfl⟩ := List.mem_map.1 hl
    exact h1 x hx

theorem goodSessionPart_bare {ls : List SdpLine} : GoodSessionPart (ls.map SdpLine.bare) ↔ GoodSessionPart ls := by
  constructor
  · rintro ⟨h1, h3⟩
    rw [attrsOf_bare] at h3
    exact ⟨fun l hl => h1 l.bare (List.mem_map_of_mem hl), h3⟩
  · rintro ⟨h1, h3⟩
    refine ⟨fun l hl => ?_, by rwa [attrsOf_bare]⟩
    obtain ⟨x, hx, rfl⟩ := List.mem_map.1 hl
    exact h1 x hx

theorem sectionMedia_bare (p : MediaLine × List SdpLine) : sectionMedia (p.1, p.2.map SdpLine.bare) = sectionMedia p := by
  unfold sectionMedia
  simp only [attrsOf_bare, bandwidthsOf_bare, connectionsOf_bare]

theorem assemble_bare (v : UInt64) (o : Origin) (nm : Str) (rest : List SdpLine) (ws : List ParserError) :
    assemble v o nm (rest.map SdpLine.bare) ws = assemble v o nm rest ws := by
  unfold assemble
  simp only [takeWhile_bare, attrsOf_bare, bandwidthsOf_bare, connectionsOf_bare, timingsOf_bare, sectionsOf_bare,
    List.map_map, Session.mk.injEq, true_and, and_true]
  exact List.map_congr_left fun p _ => sectionMedia_bare p

theorem describes_bare {vs : List SdpLine} {r : Session} : Describes (vs.map SdpLine.bare) r ↔ Describes vs r := by
  constructor
  · rintro ⟨l0, l1, l2, rest, v, o, nm, h, h1, h2, h3, h4, h5, h6, h7, h8⟩
    match vs, h with
    | a :: b :: c :: vs, h =>
      simp only [List.map_cons, List.cons.injEq] at h
      obtain ⟨rfl, rfl, rfl, rfl⟩ := h
      rw [takeWhile_bare, goodSessionPart_bare] at h5
      rw [sectionsOf_bare] at h6
      rw [assemble_bare] at h7
      refine ⟨a, b, c, vs, v, o, nm, rfl, by rintro rfl; exact h1 rfl, h2, h3, h4, h5, fun p hp => ?_, h7, h8⟩
      exact goodSection_bare.1 (h6 (p.1, p.2.map SdpLine.bare) (List.mem_map.2 ⟨p, hp, rfl⟩))
  · rintro ⟨l0, l1, l2, rest, v, o, nm, rfl, h1, h2, h3, h4, h5, h6, h7, h8⟩
    refine ⟨l0.bare, l1.bare, l2.bare, rest.map SdpLine.bare, v, o, nm, rfl, by simpa using h1, h2, h3, h4, ?_, ?_, ?_, h8⟩
    · rw [takeWhile_bare, goodSessionPart_bare]; exact h5
    · rw [sectionsOf_bare]
      intro p hp
      obtain ⟨q, hq, rfl⟩ := List.mem_map.1 hp
      exact goodSection_bare.2 (h6 q hq)
    · rw [assemble_bare]; exact h7

section
variable [Env]

/-- The values of the lines, without numbers. -/
def bareLines (ls : List Str) : List SdpLine := (ls.filterMap readType).map fun t => ⟨0, t, []⟩

theorem acceptedLines_bare (n : Nat) (ls : List Str) :
    (acceptedLines (contentFrom n ls)).map SdpLine.bare = bareLines ls := by
  unfold bareLines
  rw [← accepted_types n, List.map_map]
  rfl

/-- The line is no obstacle. -/
def LineFine (f : Bool) (l : Str) : Prop :=
  Blank l ∨ (∃ t, lineMeaning l = .ok t) ∨ (f = false ∧ ∃ m, lineMeaning l = .err (.unsupported m))

theorem scan_fine {f : Bool} {n : Nat} {ls : List Str} :
    ((∀ p ∈ contentFrom n ls, parseSdpLine p.1 p.2 ≠ .panic) ∧ hardErrors (contentFrom n ls) = [] ∧
      (f = true → unsupportedErrors (contentFrom n ls) = [])) ↔ ∀ l ∈ ls, LineFine f l := by
  induction ls generalizing n with
  | nil => simp [contentFrom_nil, hardErrors, unsupportedErrors]
  | cons l ls ih =>
    rw [contentFrom_cons]
    by_cases hb : Blank l
    · rw [if_pos hb, ih]
      simp only [List.mem_cons, forall_eq_or_imp]
      exact ⟨fun h => ⟨.inl hb, h⟩, fun h => h.2⟩
    · rw [if_neg hb, hardErrors_cons, unsupportedErrors_cons]
      simp only [List.mem_cons, forall_eq_or_imp]
      rw [← ih (n := n + 1)]
      unfold LineFine
      rw [parseSdpLine_record]
      cases hm : lineMeaning l with
      | ok t => simp [recordLine, hb]
      | panic => simp [recordLine, hb]
      | err e => cases e <;> cases f <;> simp [recordLine, classifyErr, hb]

/-- What is accepted, without line numbers. -/
theorem parseSdp_lines {s : Str} {f : Bool} {r : Session} :
    parseSdp s f = .ok r ↔ 51 ≤ byteLen s ∧ (∀ l ∈ lines s, LineFine f l) ∧
      Describes (bareLines (lines s)) { r with warnings := [] } ∧ r.warnings = unsupportedErrors (contentLines s) := by
  rw [parseSdp_spec, ← scan_fine (n := 0), ← acceptedLines_bare 0, describes_bare]
  have hcons : Consistent { r with warnings := [] } ↔ Consistent r :=
    ⟨fun ⟨a, b, c, d⟩ => ⟨a, b, c, d⟩, fun ⟨a, b, c, d⟩ => ⟨a, b, c, d⟩⟩
  constructor
  · rintro ⟨h1, h2, h3, h4, l0, l1, l2, rest, v, o, nm, g1, g2, g3, g4, g5, g6, g7, g8, g9⟩
    exact ⟨h1, ⟨h2, h3, h4⟩, ⟨l0, l1, l2, rest, v, o, nm, g1, g2, g3, g4, g5, g6, g7, by rw [g8]; rfl, hcons.2 g9⟩,
      by rw [g8]; rfl⟩
  · rintro ⟨h1, ⟨h2, h3, h4⟩, ⟨l0, l1, l2, rest, v, o, nm, g1, g2, g3, g4, g5, g6, g7, g8, g9⟩, g10⟩
    refine ⟨h1, h2, h3, h4, l0, l1, l2, rest, v, o, nm, g1, g2, g3, g4, g5, g6, g7, ?_, hcons.1 g9⟩
    rw [← g10]
    have := congrArg (fun x : Session => { x with warnings := r.warnings }) g8
    exact this

theorem accepts_lines {s : Str} {f : Bool} :
    (∃ r, parseSdp s f = .ok r) ↔ 51 ≤ byteLen s ∧ (∀ l ∈ lines s, LineFine f l) ∧ ∃ r, Describes (bareLines (lines s)) r := by
  constructor
  · rintro ⟨r, h⟩
    obtain ⟨h1, h2, h3, -⟩ := parseSdp_lines.1 h
    exact ⟨h1, h2, _, h3⟩
  · rintro ⟨h1, h2, r, h3⟩
    have hw : r.warnings = [] := by
      obtain ⟨_, _, _, _, _, _, _, _, _, _, _, _, _, _, h, _⟩ := h3
      rw [h]; rfl
    refine ⟨{ r with warnings := unsupportedErrors (contentLines s) }, parseSdp_lines.2 ⟨h1, h2, ?_, rfl⟩⟩
    have e : ({ r with warnings := [] } : Session) = r := by rw [← hw]
    exact e.symm ▸ h3

theorem bareLines_append (a b : List Str) : bareLines (a ++ b) = bareLines a ++ bareLines b := by
  simp [bareLines]

theorem bareLines_flatten (bs : List (List Str)) : bareLines bs.flatten = (bs.map bareLines).flatten := by
  induction bs with
  | nil => rfl
  | cons b bs ih => simp [bareLines_append, ih]

end

/-! ## Sections -/

/-- The part of the rules that concerns the session part. -/
def HeadFine (h : List SdpLine) (r : Session) : Prop :=
  ∃ l0 l1 l2 part v o nm, h = l0 :: l1 :: l2 :: part ∧
    l0.sdpType = .version v ∧ l1.sdpType = .origin o ∧ l2.sdpType = .session nm ∧ GoodSessionPart part ∧
    { r with media := [] } = assemble v o nm part [] ∧ ∃ t, r.timing = some t

/-- The part of the rules that concerns one section and the session part. -/
def SectionFine (r : Session) (m : Media) : Prop :=
  ((∃ c, r.connection = some c) ∨ ∃ c, m.connection = some c) ∧
  ¬ ((∃ e, Attribute.extmap e ∈ r.attrs) ∧ ∃ e, Attribute.extmap e ∈ m.attrs) ∧ ConsistentMedia m

theorem sectionsOf_head {h x : List SdpLine} (hh : ∀ l ∈ h, notMedia l = true) : sectionsOf (h ++ x) = sectionsOf x := by
  induction h with
  | nil => rfl
  | cons l h ih =>
    have hl := hh l (by simp)
    have ih := ih fun y hy => hh y (by simp [hy])
    obtain ⟨n, t, y⟩ := l
    cases t <;> first | exact ih | (simp [notMedia] at hl)

theorem takeWhile_notMedia {h x : List SdpLine} (hh : ∀ l ∈ h, notMedia l = true)
    (hx : ∀ l ∈ x.head?, notMedia l = false) : (h ++ x).takeWhile notMedia = h := by
  rw [List.takeWhile_append_of_pos hh]
  cases x with
  | nil => simp
  | cons l x => simp [hx l (by simp)]

theorem sectionsOf_append {a x : List SdpLine} (hx : ∀ l ∈ x.head?, notMedia l = false) :
    sectionsOf (a ++ x) = sectionsOf a ++ sectionsOf x := by
  induction a with
  | nil => rfl
  | cons l a ih =>
    have hw : (a ++ x).takeWhile notMedia = a.takeWhile notMedia := by
      clear ih
      induction a with
      | nil =>
        cases x with
        | nil => rfl
        | cons y x => simp [hx y (by simp)]
      | cons y a ih => simp only [List.cons_append, List.takeWhile_cons, ih]
    obtain ⟨n, t, y⟩ := l
    cases t <;> simp only [List.cons_append, sectionsOf] <;> first
      | exact ih
      | rw [ih, hw]

theorem sectionsOf_flatten {bs : List (List SdpLine)} (h : ∀ b ∈ bs, ∃ l rest, b = l :: rest ∧ notMedia l = false) :
    sectionsOf bs.flatten = bs.flatMap sectionsOf := by
  induction bs with
  | nil => rfl
  | cons b bs ih =>
    have h' := fun x hx => h x (List.mem_cons_of_mem b hx)
    rw [List.flatten_cons, sectionsOf_append, ih h', List.flatMap_cons]
    intro l hl
    cases bs with
    | nil => cases hl
    | cons c bs =>
      obtain ⟨y, rest, rfl, hy⟩ := h' c (by simp)
      simp at hl
      subst hl; exact hy

theorem describes_head {h x : List SdpLine} (hh : ∀ l ∈ h, notMedia l = true)
    (hx : ∃ l rest, x = l :: rest ∧ notMedia l = false) {r : Session} :
    Describes (h ++ x) r ↔ HeadFine h r ∧ (∀ p ∈ sectionsOf x, GoodSection p.2) ∧
      r.media = (sectionsOf x).map sectionMedia ∧ ∀ m ∈ r.media, SectionFine r m := by
  have hx' : ∀ l ∈ x.head?, notMedia l = false := by
    obtain ⟨l, rest, rfl, hl⟩ := hx
    intro y hy
    simp at hy; subst hy; exact hl
  have hmed : ∀ l ∈ x.head?, ∃ m, l.sdpType = .media m := by
    intro l hl
    have := hx' l hl
    obtain ⟨n, t, y⟩ := l
    cases t <;> first | exact ⟨_, rfl⟩ | (simp [notMedia] at this)
  have hcons (r : Session) : Consistent r ↔ (∃ t, r.timing = some t) ∧ ∀ m ∈ r.media, SectionFine r m := by
    constructor
    · rintro ⟨h1, h2, h3, h4⟩
      refine ⟨h1, fun m hm => ⟨?_, ?_, h4 m hm⟩⟩
      · rcases h2 with h2 | h2
        · exact .inl h2
        · exact .inr (h2 m hm)
      · rintro ⟨a, e, b⟩
        exact h3 ⟨a, m, hm, e, b⟩
    · rintro ⟨h1, h2⟩
      refine ⟨h1, ?_, ?_, fun m hm => (h2 m hm).2.2⟩
      · by_cases hc : ∃ c, r.connection = some c
        · exact .inl hc
        · exact .inr fun m hm => ((h2 m hm).1).resolve_left hc
      · rintro ⟨a, m, hm, e, b⟩
        exact (h2 m hm).2.1 ⟨a, e, b⟩
  obtain ⟨y, xs, rfl, hy⟩ := hx
  obtain ⟨ml, hml⟩ := hmed y (by simp)
  constructor
  · rintro ⟨l0, l1, l2, rest, v, o, nm, g1, g2, g3, g4, g5, g6, g7, g8, g9⟩
    match h, g1 with
    | [], g1 => cases g1; rw [g3] at hml; cases hml
    | [a], g1 => cases g1; rw [g4] at hml; cases hml
    | [a, b], g1 => cases g1; rw [g5] at hml; cases hml
    | a :: b :: c :: part, g1 =>
      simp only [List.cons_append, List.cons.injEq] at g1
      obtain ⟨rfl, rfl, rfl, rfl⟩ := g1
      have hp : ∀ l ∈ part, notMedia l = true := fun l hl => hh l (by simp [hl])
      rw [takeWhile_notMedia hp hx'] at g6
      rw [sectionsOf_head hp] at g7
      have ht := (hcons r).1 g9
      refine ⟨⟨_, _, _, part, v, o, nm, rfl, g3, g4, g5, g6, ?_, ht.1⟩, g7, ?_, ht.2⟩
      · rw [g8]
        unfold assemble
        have e : part.takeWhile notMedia = part := by simpa using takeWhile_notMedia (x := []) hp (by simp)
        have e2 : sectionsOf part = [] := by simpa [sectionsOf] using sectionsOf_head (x := []) hp
        simp only [takeWhile_notMedia hp hx', e, e2, List.map_nil]
      · rw [g8]
        show (sectionsOf (part ++ y :: xs)).map sectionMedia = _
        rw [sectionsOf_head hp]
  · rintro ⟨⟨l0, l1, l2, part, v, o, nm, rfl, g3, g4, g5, g6, g8, g9⟩, g7, hm, hs⟩
    have hp : ∀ l ∈ part, notMedia l = true := fun l hl => hh l (by simp [hl])
    refine ⟨l0, l1, l2, part ++ y :: xs, v, o, nm, rfl, by simp, g3, g4, g5, ?_, ?_, ?_, (hcons r).2 ⟨g9, hs⟩⟩
    · rw [takeWhile_notMedia hp hx']; exact g6
    · rw [sectionsOf_head hp]; exact g7
    · have := congrArg (fun z : Session => { z with media := r.media }) g8
      refine (this : r = _).trans ?_
      have e : part.takeWhile notMedia = part := by simpa using takeWhile_notMedia (x := []) hp (by simp)
      unfold assemble
      simp only [takeWhile_notMedia hp hx', e, hm, sectionsOf_head hp]

theorem HeadFine.media {h : List SdpLine} {r : Session} (hr : HeadFine h r) (ms : List Media) :
    HeadFine h { r with media := ms } := hr

theorem HeadFine.unique {h : List SdpLine} {r r' : Session} (hr : HeadFine h r) (hr' : HeadFine h r') :
    r' = { r with media := r'.media } := by
  obtain ⟨l0, l1, l2, part, v, o, nm, rfl, g3, g4, g5, -, g8, -⟩ := hr
  obtain ⟨k0, k1, k2, part', v', o', nm', g2, g3', g4', g5', -, g8', -⟩ := hr'
  cases g2
  rw [g3] at g3'; cases g3'
  rw [g4] at g4'; cases g4'
  rw [g5] at g5'; cases g5'
  have := congrArg (fun z : Session => { z with media := r'.media }) (g8'.trans g8.symm)
  exact this

end Sdp
