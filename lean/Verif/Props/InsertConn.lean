import Verif.Lemmas.InsertText
import Verif.Spec.InsertConn
import Verif.Props.Insert
import Verif.Spec.Sample
/-!
# C98: which c= and t= lines count, and which are needed
-/

namespace Sdp
open Insert

section
variable [Env]

theorem bareLines_skip {l : Str} (h : ∀ t, lineMeaning l ≠ .ok t) (q : List Str) : bareLines (l :: q) = bareLines q := by
  have : readType l = none := by
    unfold readType
    cases hm : lineMeaning l with
    | ok t => exact absurd hm (h t)
    | err e => rfl
    | panic => rfl
  unfold bareLines; rw [List.filterMap_cons, this]

theorem connectionsOf_bareLines (p : List Str) : connectionsOf (bareLines p) = connectionsRead p := by
  induction p with
  | nil => rfl
  | cons l p ih =>
    unfold connectionsRead at ih ⊢
    rw [List.filterMap_cons]
    cases h : lineMeaning l with
    | ok t =>
      rw [bare_cons h]
      cases t <;> simp only [connectionsOf, List.filterMap_cons] at ih ⊢ <;> rw [ih]
    | err e => rw [bareLines_skip (by simp [h])]; exact ih
    | panic => rw [bareLines_skip (by simp [h])]; exact ih

theorem timingsOf_bareLines (p : List Str) : timingsOf (bareLines p) = timingsRead p := by
  induction p with
  | nil => rfl
  | cons l p ih =>
    unfold timingsRead at ih ⊢
    rw [List.filterMap_cons]
    cases h : lineMeaning l with
    | ok t =>
      rw [bare_cons h]
      cases t <;> simp only [timingsOf, List.filterMap_cons] at ih ⊢ <;> rw [ih]
    | err e => rw [bareLines_skip (by simp [h])]; exact ih
    | panic => rw [bareLines_skip (by simp [h])]; exact ih

theorem takeWhile_bareLines (q : List Str) : (bareLines q).takeWhile notMedia = bareLines (upToMedia q) := by
  induction q with
  | nil => rfl
  | cons l q ih =>
    unfold upToMedia at ih ⊢
    rw [List.takeWhile_cons]
    cases h : lineMeaning l with
    | ok t =>
      rw [bare_cons h, List.takeWhile_cons]
      have hm : isMediaLine l = !notMedia ⟨0, t, []⟩ := by
        unfold isMediaLine
        rw [h]
        cases t <;> rfl
      rw [hm, Bool.not_not, ih]
      cases notMedia ⟨0, t, []⟩ with
      | true => simp only [if_true]; rw [bare_cons h]
      | false => rfl
    | err e =>
      rw [bareLines_skip (by simp [h]), ih]
      have : isMediaLine l = false := by unfold isMediaLine; rw [h]
      rw [this]; simp only [Bool.not_false, if_true]; rw [bareLines_skip (by simp [h])]
    | panic =>
      rw [bareLines_skip (by simp [h]), ih]
      have : isMediaLine l = false := by unfold isMediaLine; rw [h]
      rw [this]; simp only [Bool.not_false, if_true]; rw [bareLines_skip (by simp [h])]

/-- A c= or t= line. -/
private def Single (t : SdpType) : Prop := (∃ c, t = .connection c) ∨ ∃ x, t = .timing x

private theorem three_single {p q : List Str} {l : Str} {t : SdpType} {r : Session} (hl : lineMeaning l = .ok t)
    (ht : Single t) (hd : Describes (bareLines (p ++ l :: q)) r) :
    ∃ l0 l1 l2 p' v o nm, bareLines p = l0 :: l1 :: l2 :: p' ∧ l0.sdpType = .version v ∧ l1.sdpType = .origin o ∧
      l2.sdpType = .session nm := by
  rw [bareLines_append, bare_cons hl] at hd
  refine first_three hd ?_
  rcases ht with ⟨a, rfl⟩ | ⟨b, rfl⟩ <;> simp

private theorem at_session' {p q : List Str} {l : Str} {t : SdpType} (hp : NoMediaLine p) (hl : lineMeaning l = .ok t)
    (ht : Single t)
    (h3 : ∃ l0 l1 l2 p' v o nm, bareLines p = l0 :: l1 :: l2 :: p' ∧ l0.sdpType = .version v ∧ l1.sdpType = .origin o ∧
      l2.sdpType = .session nm) :
    ∃ (base : Session) (G : Prop), base.warnings = [] ∧
      (∀ r, Describes (bareLines (p ++ q)) r ↔ G ∧
        r = { base with connection := (connectionsRead p ++ connectionsRead (upToMedia q)).getLast?
                        timing := (timingsRead p ++ timingsRead (upToMedia q)).getLast? } ∧ Consistent r) ∧
      (∀ r, Describes (bareLines (p ++ l :: q)) r ↔ G ∧
        r = { base with connection := (connectionsRead p ++ (connectionsOf [⟨0, t, []⟩] ++ connectionsRead (upToMedia q))).getLast?
                        timing := (timingsRead p ++ (timingsOf [⟨0, t, []⟩] ++ timingsRead (upToMedia q))).getLast? } ∧
        Consistent r) := by
  obtain ⟨l0, l1, l2, p', v, o, nm, e, h0, h1, h2⟩ := h3
  have h3' : connectionsOf (l0 :: l1 :: l2 :: p') = connectionsOf p' ∧ timingsOf (l0 :: l1 :: l2 :: p') = timingsOf p' := by
    clear e
    obtain ⟨_, _, _⟩ := l0
    obtain ⟨_, _, _⟩ := l1
    obtain ⟨_, _, _⟩ := l2
    simp only at h0 h1 h2
    subst h0 h1 h2
    exact ⟨rfl, rfl⟩
  have hA : connectionsRead p = connectionsOf p' := by rw [← connectionsOf_bareLines, e, h3'.1]
  have hD : timingsRead p = timingsOf p' := by rw [← timingsOf_bareLines, e, h3'.2]
  have hpm' : ∀ l ∈ p', notMedia l = true := fun l hl => bare_noMedia' hp l (by rw [e]; simp [hl])
  have hbare : bareLines (p ++ l :: q) = l0 :: l1 :: l2 :: (p' ++ ⟨0, t, []⟩ :: bareLines q) := by
    rw [bareLines_append, bare_cons hl, e]; rfl
  have hbare' : bareLines (p ++ q) = l0 :: l1 :: l2 :: (p' ++ bareLines q) := by rw [bareLines_append, e]; rfl
  have hnm : notMedia ⟨0, t, []⟩ = true := by rcases ht with ⟨a, rfl⟩ | ⟨b, rfl⟩ <;> rfl
  have hc : attrsOf [⟨0, t, []⟩] = [] ∧ bandwidthsOf [⟨0, t, []⟩] = [] := by
    rcases ht with ⟨a, rfl⟩ | ⟨b, rfl⟩ <;> exact ⟨rfl, rfl⟩
  have hg : GoodSessionPart [⟨0, t, []⟩] := by
    rcases ht with ⟨a, rfl⟩ | ⟨b, rfl⟩ <;> exact ⟨by simp [SessionLine], by simp [attrsOf]⟩
  have et : (⟨0, t, []⟩ :: bareLines q).takeWhile notMedia = [⟨0, t, []⟩] ++ (bareLines q).takeWhile notMedia := by
    rw [List.takeWhile_cons, if_pos hnm]; rfl
  have eC : connectionsOf ((bareLines q).takeWhile notMedia) = connectionsRead (upToMedia q) := by
    rw [takeWhile_bareLines, connectionsOf_bareLines]
  have eT : timingsOf ((bareLines q).takeWhile notMedia) = timingsRead (upToMedia q) := by
    rw [takeWhile_bareLines, timingsOf_bareLines]
  refine ⟨{ version := v, origin := o, session := if Blank nm then none else some (trim nm)
            connection := none
            bandwidth := bandwidthsOf p' ++ bandwidthsOf ((bareLines q).takeWhile notMedia)
            timing := none
            attrs := attrsOf p' ++ attrsOf ((bareLines q).takeWhile notMedia)
            media := (sectionsOf (bareLines q)).map sectionMedia
            warnings := [] }, 
    GoodSessionPart p' ∧ GoodSessionPart ((bareLines q).takeWhile notMedia) ∧ ∀ s ∈ sectionsOf (bareLines q), GoodSection s.2,
    rfl, fun r => ?_, fun r => ?_⟩
  · rw [hbare', describes_at h0 h1 h2 hpm', hA, hD, eC, eT]
    constructor
    · rintro ⟨-, g1, g2, g3, g4, g5⟩; exact ⟨⟨g1, g2, g3⟩, g4, g5⟩
    · rintro ⟨⟨g1, g2, g3⟩, g4, g5⟩
      refine ⟨fun hn => ?_, g1, g2, g3, g4, g5⟩
      obtain ⟨h1, h2⟩ := List.append_eq_nil_iff.1 hn
      obtain ⟨x, hx⟩ := g5.timing
      rw [g4, ← eT] at hx
      simp only [h1, h2] at hx
      cases hx
  · rw [hbare, describes_at h0 h1 h2 hpm', hA, hD, et, sectionsOf_notMedia hnm, goodPart_append]
    simp only [attrsOf_append, bandwidthsOf_append, connectionsOf_append, timingsOf_append, hc, List.nil_append, eC, eT]
    constructor
    · rintro ⟨-, g1, ⟨g2, g2'⟩, g3, g4, g5⟩; exact ⟨⟨g1, g2', g3⟩, g4, g5⟩
    · rintro ⟨⟨g1, g2, g3⟩, g4, g5⟩; exact ⟨by simp, g1, ⟨hg, g2⟩, g3, g4, g5⟩

omit [Env] in
private theorem last_insert {α : Type} (a b : List α) (x : α) :
    (a ++ ([x] ++ b)).getLast? = if b = [] then some x else (a ++ b).getLast? := by
  cases b with
  | nil => simp
  | cons y b => simp [List.getLast?_append]

omit [Env] in
theorem last_some {α : Type} {l : List α} : (∃ x, l.getLast? = some x) ↔ l ≠ [] := by
  rw [← Option.isSome_iff_exists, List.getLast?_isSome]

/-- **C98.** A c= line is put between the s= line and the first m= line of a text, or taken out of there.
The text with it is accepted if the text without it is; the connection of the session is then that line's, unless there is a
later c= line before the first m= line. The text without it is accepted, if the text with it is, exactly when there is another
c= line in front of the first m= line or every section has its own; the connection is then the last of those other lines'. -/
theorem C98_connection_of_session {p q : List Str} {l s s' : Str} {c : Connection} {f : Bool}
    (hp : NoMediaLine p) (hn : HasName p) (hl : lineMeaning l = .ok (.connection c)) (hs : lines s = p ++ q)
    (hs' : lines s' = p ++ l :: q) (hb : 51 ≤ byteLen s) (hb' : 51 ≤ byteLen s') :
    (∀ r, parseSdp s f = .ok r → ∃ w, parseSdp s' f = .ok { r with
        connection := if connectionsRead (upToMedia q) = [] then some c else r.connection, warnings := w }) ∧
    (∀ r, parseSdp s' f = .ok r →
      ((∃ r', parseSdp s f = .ok r') ↔ connectionsRead p ≠ [] ∨ connectionsRead (upToMedia q) ≠ [] ∨
        ∀ m ∈ r.media, m.connection ≠ none) ∧
      ∀ r', parseSdp s f = .ok r' → r' = { r with
        connection := (connectionsRead p ++ connectionsRead (upToMedia q)).getLast?, warnings := r'.warnings }) := by
  constructor
  · intro r hr
    obtain ⟨hfine, hd⟩ := describes_of hs hr
    have h3 := first_three_name (by rw [bareLines_append] at hd; exact hd) (hasName_bare hn)
    obtain ⟨base, G, hw, k1, k2⟩ := at_session' (q := q) hp hl (.inl ⟨c, rfl⟩) h3
    obtain ⟨hG, er, hc⟩ := (k1 _).1 hd
    rw [er] at hc
    obtain ⟨w, rfl⟩ := of_bare er
    obtain ⟨r', h⟩ := (accepts hs' hb' ((fine_insert hl).2 hfine)).2
      ⟨_, (k2 _).2 ⟨hG, rfl, hc.timing, .inl (last_some.2 (by simp [connectionsOf])), hc.extmap, hc.media⟩⟩
    obtain ⟨w', rfl⟩ := of_bare ((k2 _).1 (describes_of hs' h).2).2.1
    refine ⟨w', ?_⟩
    rw [h]
    simp only [connectionsOf, timingsOf, List.filterMap_cons, List.filterMap_nil, List.nil_append, last_insert]
  · intro r hr
    obtain ⟨hfine, hd⟩ := describes_of hs' hr
    have h3 := three_single hl (.inl ⟨c, rfl⟩) hd
    obtain ⟨base, G, hw, k1, k2⟩ := at_session' (q := q) hp hl (.inl ⟨c, rfl⟩) h3
    obtain ⟨hG, er, hc⟩ := (k2 _).1 hd
    rw [er] at hc
    obtain ⟨w, rfl⟩ := of_bare er
    refine ⟨?_, fun r' h => ?_⟩
    · rw [accepts hs hb ((fine_insert hl).1 hfine)]
      have e : (connectionsRead p ≠ [] ∨ connectionsRead (upToMedia q) ≠ []) ↔
          connectionsRead p ++ connectionsRead (upToMedia q) ≠ [] := by
        rw [Ne, Ne, Ne, List.append_eq_nil_iff]; tauto
      rw [← or_assoc, e]
      constructor
      · rintro ⟨r', h⟩
        obtain ⟨-, rfl, h2⟩ := (k1 _).1 h
        rcases h2.connection with h | h
        · exact .inl (last_some.1 h)
        · refine .inr fun m hm hn => ?_
          obtain ⟨x, hx⟩ := h m hm
          rw [hn] at hx; cases hx
      · intro h
        refine ⟨_, (k1 _).2 ⟨hG, rfl, hc.timing, ?_, hc.extmap, hc.media⟩⟩
        rcases h with h | h
        · exact .inl (last_some.2 h)
        · exact .inr fun m hm => Option.ne_none_iff_exists'.1 (h m hm)
    · obtain ⟨w', rfl⟩ := of_bare ((k1 _).1 (describes_of hs h).2).2.1
      rfl

/-- **C98.** A t= line is put between the s= line and the first m= line of a text, or taken out of there.
The text with it is accepted if the text without it is; the timing of the session is then that line's, unless there is a
later t= line. The text without it is accepted, if the text with it is, exactly when there is another t= line in front of the
first m= line; the timing is then the last of those other lines'. -/
theorem C98_timing_of_session {p q : List Str} {l s s' : Str} {t : Timing} {f : Bool}
    (hp : NoMediaLine p) (hn : HasName p) (hl : lineMeaning l = .ok (.timing t)) (hs : lines s = p ++ q)
    (hs' : lines s' = p ++ l :: q) (hb : 51 ≤ byteLen s) (hb' : 51 ≤ byteLen s') :
    (∀ r, parseSdp s f = .ok r → ∃ w, parseSdp s' f = .ok { r with
        timing := if timingsRead (upToMedia q) = [] then some t else r.timing, warnings := w }) ∧
    (∀ r, parseSdp s' f = .ok r →
      ((∃ r', parseSdp s f = .ok r') ↔ timingsRead p ≠ [] ∨ timingsRead (upToMedia q) ≠ []) ∧
      ∀ r', parseSdp s f = .ok r' → r' = { r with
        timing := (timingsRead p ++ timingsRead (upToMedia q)).getLast?, warnings := r'.warnings }) := by
  constructor
  · intro r hr
    obtain ⟨hfine, hd⟩ := describes_of hs hr
    have h3 := first_three_name (by rw [bareLines_append] at hd; exact hd) (hasName_bare hn)
    obtain ⟨base, G, hw, k1, k2⟩ := at_session' (q := q) hp hl (.inr ⟨t, rfl⟩) h3
    obtain ⟨hG, er, hc⟩ := (k1 _).1 hd
    rw [er] at hc
    obtain ⟨w, rfl⟩ := of_bare er
    obtain ⟨r', h⟩ := (accepts hs' hb' ((fine_insert hl).2 hfine)).2
      ⟨_, (k2 _).2 ⟨hG, rfl, last_some.2 (by simp [timingsOf]), hc.connection, hc.extmap, hc.media⟩⟩
    obtain ⟨w', rfl⟩ := of_bare ((k2 _).1 (describes_of hs' h).2).2.1
    refine ⟨w', ?_⟩
    rw [h]
    simp only [connectionsOf, timingsOf, List.filterMap_cons, List.filterMap_nil, List.nil_append, last_insert]
  · intro r hr
    obtain ⟨hfine, hd⟩ := describes_of hs' hr
    have h3 := three_single hl (.inr ⟨t, rfl⟩) hd
    obtain ⟨base, G, hw, k1, k2⟩ := at_session' (q := q) hp hl (.inr ⟨t, rfl⟩) h3
    obtain ⟨hG, er, hc⟩ := (k2 _).1 hd
    rw [er] at hc
    obtain ⟨w, rfl⟩ := of_bare er
    refine ⟨?_, fun r' h => ?_⟩
    · rw [accepts hs hb ((fine_insert hl).1 hfine)]
      have e : (timingsRead p ≠ [] ∨ timingsRead (upToMedia q) ≠ []) ↔
          timingsRead p ++ timingsRead (upToMedia q) ≠ [] := by
        rw [Ne, Ne, Ne, List.append_eq_nil_iff]; tauto
      rw [e]
      constructor
      · rintro ⟨r', h⟩
        obtain ⟨-, rfl, h2⟩ := (k1 _).1 h
        exact last_some.1 h2.timing
      · intro h
        exact ⟨_, (k1 _).2 ⟨hG, rfl, last_some.2 h, hc.connection, hc.extmap, hc.media⟩⟩
    · obtain ⟨w', rfl⟩ := of_bare ((k1 _).1 (describes_of hs h).2).2.1
      rfl

/-! ## Sections -/

private theorem three_media' {p q : List Str} {m : Str} {ml : MediaLine} {r : Session} (hm : lineMeaning m = .ok (.media ml))
    (hd : Describes (bareLines (p ++ m :: q)) r) :
    ∃ l0 l1 l2 p' v o nm, bareLines p = l0 :: l1 :: l2 :: p' ∧ l0.sdpType = .version v ∧ l1.sdpType = .origin o ∧
      l2.sdpType = .session nm := by
  rw [bareLines_append, bare_cons hm] at hd
  exact first_three hd (by simp)

omit [Env] in
private theorem goodSection_connection {a b : List SdpLine} {c : Connection} :
    GoodSection (a ++ ([⟨0, .connection c, []⟩] ++ b)) ↔ GoodSection (a ++ b) ∧ connectionsOf (a ++ b) = [] := by
  have ea : attrsOf (a ++ ([⟨0, .connection c, []⟩] ++ b)) = attrsOf (a ++ b) := by
    simp only [attrsOf_append]; rfl
  have ec : (connectionsOf (a ++ ([⟨0, .connection c, []⟩] ++ b))).length = (connectionsOf (a ++ b)).length + 1 := by
    simp only [connectionsOf_append, List.length_append]
    simp only [connectionsOf, List.filterMap_cons, List.filterMap_nil, List.length_cons, List.length_nil]
    omega
  constructor
  · rintro ⟨h1, h2, h3⟩
    rw [ec] at h2
    rw [ea] at h3
    have h0 : connectionsOf (a ++ b) = [] := List.length_eq_zero_iff.1 (by omega)
    exact ⟨⟨fun l hl => h1 l (by rcases List.mem_append.1 hl with h | h <;> simp [h]), by rw [h0]; simp, h3⟩, h0⟩
  · rintro ⟨⟨h1, h2, h3⟩, h0⟩
    refine ⟨fun l hl => ?_, by rw [ec, h0]; simp, by rw [ea]; exact h3⟩
    simp only [List.mem_append, List.mem_singleton] at hl
    rcases hl with hl | rfl | hl
    · exact h1 l (by simp [hl])
    · simp [SectionLine]
    · exact h1 l (by simp [hl])

private theorem at_section' {p1 p2 q : List Str} {m l : Str} {ml : MediaLine} {c : Connection}
    (hm : lineMeaning m = .ok (.media ml)) (hp : NoMediaLine p2) (hl : lineMeaning l = .ok (.connection c))
    (h3 : ∃ l0 l1 l2 p' v o nm, bareLines p1 = l0 :: l1 :: l2 :: p' ∧ l0.sdpType = .version v ∧ l1.sdpType = .origin o ∧
      l2.sdpType = .session nm) :
    ∃ (base : Session) (before after : List Media) (con : Option Connection) (A : List Attribute) (D : List Bandwidth) (G : Prop),
      base.warnings = [] ∧ before.length = p1.countP isMediaLine ∧
      (∀ r, Describes (bareLines (p1 ++ m :: (p2 ++ q))) r ↔ G ∧
        r = { base with media := before ++ ⟨ml, con, D, A⟩ :: after } ∧ Consistent r) ∧
      (∀ r, Describes (bareLines (p1 ++ m :: (p2 ++ l :: q))) r ↔ G ∧ con = none ∧
        r = { base with media := before ++ ⟨ml, some c, D, A⟩ :: after } ∧ Consistent r) := by
  obtain ⟨l0, l1, l2, p', v, o, nm, e, h0, h1, h2⟩ := h3
  have hcount : (sectionsOf p').length = p1.countP isMediaLine := by
    rw [← sectionsOf_count, e, (attrs_three h0 h1 h2).2.2]
  have hbare (y : List Str) : bareLines (p1 ++ m :: (p2 ++ y)) =
      l0 :: l1 :: l2 :: (p' ++ ⟨0, .media ml, []⟩ :: (bareLines p2 ++ bareLines y)) := by
    rw [bareLines_append, bare_cons hm, e, bareLines_append]; rfl
  have et : (⟨0, .connection c, []⟩ :: bareLines q).takeWhile notMedia =
      [⟨0, .connection c, []⟩] ++ (bareLines q).takeWhile notMedia := rfl
  refine ⟨assemble v o nm p' [], (sectionsOf p').map sectionMedia, (sectionsOf (bareLines q)).map sectionMedia,
    (connectionsOf (bareLines p2 ++ (bareLines q).takeWhile notMedia)).head?,
    (attrsOf (bareLines p2 ++ (bareLines q).takeWhile notMedia)).filter (fun a => !isDtls a),
    bandwidthsOf (bareLines p2 ++ (bareLines q).takeWhile notMedia),
    GoodSessionPart (p'.takeWhile notMedia) ∧ (∀ s ∈ sectionsOf p', GoodSection s.2) ∧
      GoodSection (bareLines p2 ++ (bareLines q).takeWhile notMedia) ∧ ∀ s ∈ sectionsOf (bareLines q), GoodSection s.2,
    rfl, by rw [List.length_map, hcount], fun r => ?_, fun r => ?_⟩
  · rw [hbare, describes_in h0 h1 h2 (by rfl) (bare_noMedia' hp)]
    exact ⟨fun ⟨a, b, c, d, e⟩ => ⟨⟨a, b, c, d⟩, e⟩, fun ⟨⟨a, b, c, d⟩, e⟩ => ⟨a, b, c, d, e⟩⟩
  · rw [hbare, bare_cons hl, describes_in h0 h1 h2 (by rfl) (bare_noMedia' hp), et, sectionsOf_notMedia rfl,
      goodSection_connection, List.head?_eq_none_iff]
    have es (hn : connectionsOf (bareLines p2 ++ (bareLines q).takeWhile notMedia) = []) :
        sectionMedia (ml, bareLines p2 ++ ([⟨0, .connection c, []⟩] ++ (bareLines q).takeWhile notMedia)) =
        ⟨ml, some c, bandwidthsOf (bareLines p2 ++ (bareLines q).takeWhile notMedia),
          (attrsOf (bareLines p2 ++ (bareLines q).takeWhile notMedia)).filter (fun a => !isDtls a)⟩ := by
      rw [connectionsOf_append, List.append_eq_nil_iff] at hn
      simp only [sectionMedia, connectionsOf_append, attrsOf_append, bandwidthsOf_append, hn.1]
      rfl
    constructor
    · rintro ⟨a, b, ⟨d, d'⟩, e, g, h⟩
      rw [es d'] at g
      exact ⟨⟨a, b, d, e⟩, d', g, h⟩
    · rintro ⟨⟨a, b, d, e⟩, d', g, h⟩
      rw [← es d'] at g
      exact ⟨a, b, ⟨d, d'⟩, e, g, h⟩

omit [Env] in
private theorem consistent_conn {base : Session} {before after : List Media} {ml : MediaLine} {con con' : Option Connection}
    {D : List Bandwidth} {A : List Attribute} (hc : Consistent { base with media := before ++ ⟨ml, con, D, A⟩ :: after }) :
    Consistent { base with media := before ++ ⟨ml, con', D, A⟩ :: after } ↔
      (con = none ∨ con' ≠ none ∨ ∃ x, base.connection = some x) := by
  have key {P : Media → Prop} : (∀ x ∈ before ++ ⟨ml, con', D, A⟩ :: after, P x) ↔
      (∀ x ∈ before ++ after, P x) ∧ P ⟨ml, con', D, A⟩ := by
    simp only [List.mem_append, List.mem_cons]
    constructor
    · intro h; exact ⟨fun x hx => h x (by tauto), h _ (.inr (.inl rfl))⟩
    · rintro ⟨h, h'⟩ x (hx | rfl | hx)
      · exact h x (.inl hx)
      · exact h'
      · exact h x (.inr hx)
  have hold {x : Media} (hx : x ∈ before ++ after) : x ∈ before ++ (⟨ml, con, D, A⟩ : Media) :: after := by
    rcases List.mem_append.1 hx with h | h <;> simp [h]
  have hme : (⟨ml, con, D, A⟩ : Media) ∈ before ++ (⟨ml, con, D, A⟩ : Media) :: after := by simp
  constructor
  · intro h
    rcases h.connection with h | h
    · exact .inr (.inr h)
    · refine .inr (.inl ?_)
      obtain ⟨x, hx⟩ := h ⟨ml, con', D, A⟩ (by simp)
      simp only at hx
      rw [hx]; simp
  · intro h
    refine ⟨hc.timing, ?_, ?_, ?_⟩
    · rcases hc.connection with k | k
      · exact .inl k
      · rcases h with h | h | h
        · obtain ⟨x, hx⟩ := k _ hme
          rw [h] at hx; cases hx
        · refine .inr (key.2 ⟨fun x hx => k x (hold hx), Option.ne_none_iff_exists'.1 h⟩)
        · exact .inl h
    · rintro ⟨k1, x, hx, k2⟩
      have : ∀ x ∈ before ++ (⟨ml, con', D, A⟩ : Media) :: after, ¬ ∃ e, Attribute.extmap e ∈ x.attrs :=
        key.2 ⟨fun x hx hk => hc.extmap ⟨k1, x, hold hx, hk⟩, fun hk => hc.extmap ⟨k1, _, hme, hk⟩⟩
      exact this x hx k2
    · refine key.2 ⟨fun x hx => hc.media x (hold hx), ?_⟩
      have := hc.media _ hme
      exact ⟨this.mux, this.ridFormats, this.simulcast⟩

/-- **C98.** A c= line is put into a section of a text, or taken out of it.
The text with it is accepted, if the text without it is, exactly when the section has no connection yet. The text without
it is accepted, if the text with it is, exactly when the session has a connection. The connection of the section is all that
changes. -/
theorem C98_connection_of_section {p1 p2 q : List Str} {m l s s' : Str} {ml : MediaLine} {c : Connection} {f : Bool}
    (hm : lineMeaning m = .ok (.media ml)) (hp : NoMediaLine p2) (hl : lineMeaning l = .ok (.connection c))
    (hs : lines s = p1 ++ m :: (p2 ++ q)) (hs' : lines s' = p1 ++ m :: (p2 ++ l :: q)) (hb : 51 ≤ byteLen s)
    (hb' : 51 ≤ byteLen s') :
    (∀ r, parseSdp s f = .ok r → ∃ before sec after, r.media = before ++ sec :: after ∧
      before.length = p1.countP isMediaLine ∧ ((∃ r', parseSdp s' f = .ok r') ↔ sec.connection = none) ∧
      ∀ r', parseSdp s' f = .ok r' →
        r' = { r with media := before ++ { sec with connection := some c } :: after, warnings := r'.warnings }) ∧
    (∀ r, parseSdp s' f = .ok r → ∃ before sec after, r.media = before ++ sec :: after ∧
      before.length = p1.countP isMediaLine ∧ sec.connection = some c ∧
      ((∃ r', parseSdp s f = .ok r') ↔ r.connection ≠ none) ∧
      ∀ r', parseSdp s f = .ok r' →
        r' = { r with media := before ++ { sec with connection := none } :: after, warnings := r'.warnings }) := by
  have hf := fine_insert (p := p1 ++ m :: p2) (q := q) hl (f := f)
  simp only [List.append_assoc, List.cons_append] at hf
  constructor
  · intro r hr
    obtain ⟨hfine, hd⟩ := describes_of hs hr
    obtain ⟨base, before, after, con, A, D, G, hw, hlen, k1, k2⟩ := at_section' (q := q) hm hp hl (three_media' hm hd)
    obtain ⟨hG, er, hc⟩ := (k1 _).1 hd
    rw [er] at hc
    obtain ⟨w, rfl⟩ := of_bare er
    refine ⟨before, _, after, rfl, hlen, ?_, fun r' h => ?_⟩
    · rw [accepts hs' hb' (hf.2 hfine)]
      constructor
      · rintro ⟨r', h⟩
        exact ((k2 _).1 h).2.1
      · intro h
        exact ⟨_, (k2 _).2 ⟨hG, h, rfl, (consistent_conn hc).2 (.inl h)⟩⟩
    · obtain ⟨w', rfl⟩ := of_bare ((k2 _).1 (describes_of hs' h).2).2.2.1
      rfl
  · intro r hr
    obtain ⟨hfine, hd⟩ := describes_of hs' hr
    obtain ⟨base, before, after, con, A, D, G, hw, hlen, k1, k2⟩ := at_section' (q := q) hm hp hl (three_media' hm hd)
    obtain ⟨hG, rfl, er, hc⟩ := (k2 _).1 hd
    rw [er] at hc
    obtain ⟨w, rfl⟩ := of_bare er
    refine ⟨before, _, after, rfl, hlen, rfl, ?_, fun r' h => ?_⟩
    · rw [accepts hs hb (hf.1 hfine)]
      constructor
      · rintro ⟨r', h⟩
        obtain ⟨-, rfl, h2⟩ := (k1 _).1 h
        have := (consistent_conn hc).1 h2
        simp only [reduceCtorEq, ne_eq, not_true_eq_false, false_or] at this
        exact Option.ne_none_iff_exists'.2 this
      · intro h
        exact ⟨_, (k1 _).2 ⟨hG, rfl, (consistent_conn hc).2 (.inr (.inr (Option.ne_none_iff_exists'.1 h)))⟩⟩
    · obtain ⟨w', rfl⟩ := of_bare ((k1 _).1 (describes_of hs h).2).2.1
      rfl

omit [Env] in
private theorem mem_part {ls : List SdpLine} {x : SdpLine} (hx : x ∈ ls) (hn : notMedia x = true) :
    x ∈ ls.takeWhile notMedia ∨ ∃ s ∈ sectionsOf ls, x ∈ s.2 := by
  induction ls with
  | nil => cases hx
  | cons l ls ih =>
    by_cases hl : notMedia l = true
    · rw [List.takeWhile_cons, if_pos hl, sectionsOf_notMedia hl]
      rcases List.mem_cons.1 hx with rfl | hx
      · exact .inl List.mem_cons_self
      · exact (ih hx).imp (fun h => List.mem_cons_of_mem _ h) id
    · have hx : x ∈ ls := by
        rcases List.mem_cons.1 hx with rfl | hx
        · exact absurd hn hl
        · exact hx
      obtain ⟨mm, hmm⟩ : ∃ mm, sectionsOf (l :: ls) = (mm, ls.takeWhile notMedia) :: sectionsOf ls := by
        obtain ⟨n, t, y⟩ := l
        cases t <;> first | exact ⟨_, rfl⟩ | exact absurd rfl hl
      rw [hmm]
      refine .inr ?_
      rcases ih hx with h | ⟨s, hs, h⟩
      · exact ⟨_, List.mem_cons_self, h⟩
      · exact ⟨s, List.mem_cons_of_mem _ hs, h⟩

/-- The lines after the name are those of the session part or of the sections. -/
private theorem place {p q : List Str} {l s : Str} {t : SdpType} {f : Bool} {r : Session} (hs : lines s = p ++ l :: q)
    (hr : parseSdp s f = .ok r) (hl : lineMeaning l = .ok t) (hn : notMedia ⟨0, t, []⟩ = true)
    (hp : HasName p ∨ ¬ NoMediaLine p) :
    SectionLine ⟨0, t, []⟩ ∨ NoMediaLine p ∧ SessionLine ⟨0, t, []⟩ := by
  obtain ⟨-, hd⟩ := describes_of hs hr
  rw [bareLines_append, bare_cons hl] at hd
  by_cases hm : NoMediaLine p
  · have hd' := hd
    obtain ⟨l0, l1, l2, p', v, o, nm, e, h0, h1, h2⟩ := first_three_name hd' (hasName_bare (hp.resolve_right (not_not.2 hm)))
    rw [e] at hd
    obtain ⟨k0, k1, k2, rest, v', o', nm', g, -, -, -, -, g5, g6, -⟩ := hd
    simp only [List.cons_append, List.cons.injEq] at g
    obtain ⟨-, -, -, rfl⟩ := g
    rcases mem_part (ls := p' ++ ⟨0, t, []⟩ :: bareLines q) (x := ⟨0, t, []⟩) (by simp) hn with h | ⟨s, h, h'⟩
    · exact .inr ⟨hm, g5.kinds _ h⟩
    · exact .inl ((g6 s h).kinds _ h')
  · have hm' := hm
    unfold NoMediaLine at hm
    push Not at hm
    obtain ⟨y, hy, hy'⟩ := hm
    obtain ⟨mm, hmm⟩ : ∃ mm, lineMeaning y = .ok (.media mm) := by
      unfold isMediaLine at hy'
      split at hy'
      · next h => exact ⟨_, h⟩
      · exact absurd rfl hy'
    obtain ⟨a, b, rfl⟩ := List.append_of_mem hy
    rw [bareLines_append, bare_cons hmm, List.append_assoc] at hd
    obtain ⟨l0, l1, l2, p', v, o, nm, e, h0, h1, h2⟩ := first_three hd (by simp)
    rw [e] at hd
    obtain ⟨k0, k1, k2, rest, v', o', nm', g, -, -, -, -, -, g6, -⟩ := hd
    simp only [List.cons_append, List.cons.injEq] at g
    obtain ⟨-, -, -, rfl⟩ := g
    rw [sectionsOf_append (by simp [notMedia])] at g6
    have e' : sectionsOf (⟨0, .media mm, []⟩ :: (bareLines b ++ ⟨0, t, []⟩ :: bareLines q)) =
      (mm, (bareLines b ++ ⟨0, t, []⟩ :: bareLines q).takeWhile notMedia) ::
        sectionsOf (bareLines b ++ ⟨0, t, []⟩ :: bareLines q) := rfl
    rw [e'] at g6
    rcases mem_part (ls := bareLines b ++ ⟨0, t, []⟩ :: bareLines q) (x := ⟨0, t, []⟩) (by simp) hn with h | ⟨s, h, h'⟩
    · exact .inl ((g6 _ (List.mem_append_right _ List.mem_cons_self)).kinds _ h)
    · exact .inl ((g6 s (List.mem_append_right _ (List.mem_cons_of_mem _ h))).kinds _ h')

/-- **C98.** No accepted text has a t= line after an m= line. -/
theorem C98_no_timing_in_section {p q : List Str} {l s : Str} {t : Timing} {f : Bool} {r : Session}
    (hp : ¬ NoMediaLine p) (hl : lineMeaning l = .ok (.timing t)) (hs : lines s = p ++ l :: q) :
    parseSdp s f ≠ .ok r := by
  intro hr
  rcases place hs hr hl rfl (.inr hp) with h | h
  · exact h
  · exact hp h.1

/-- **C98.** No accepted text has another v=, o= or s= line after its s= line. -/
theorem C98_no_second_header {p q : List Str} {l s : Str} {f : Bool} {r : Session} (hp : HasName p)
    (hl : (∃ v, lineMeaning l = .ok (.version v)) ∨ (∃ o, lineMeaning l = .ok (.origin o)) ∨
      ∃ n, lineMeaning l = .ok (.session n))
    (hs : lines s = p ++ l :: q) : parseSdp s f ≠ .ok r := by
  intro hr
  rcases hl with ⟨v, hl⟩ | ⟨o, hl⟩ | ⟨n, hl⟩ <;>
  · rcases place hs hr hl rfl (.inl hp) with h | h
    · exact h
    · exact h.2

end

/-! ## The hypotheses are met -/

section
attribute [local instance] sampleEnv

private def ok {ε α : Type} : Outcome ε α → Bool
  | .ok _ => true
  | _ => false

private def isConn : Outcome LineErr SdpType → Bool
  | .ok (.connection _) => true
  | _ => false

private def isTiming : Outcome LineErr SdpType → Bool
  | .ok (.timing _) => true
  | _ => false

/-- A head without c= line, and a section. -/
def connHead : List Str := [c%"v=0", c%"o=- 1 2 IN IP4 127.0.0.1", c%"s=-", c%"t=1 2"]
def connLine : Str := c%"c=IN IP4 10.0.0.1"
def connM : Str := c%"m=audio 9 UDP/TLS/RTP/SAVPF 0"
def connTiming : Str := c%"t=0 0"

example : isConn (lineMeaning connLine) = true ∧ isTiming (lineMeaning connTiming) = true ∧
    (∃ l ∈ connHead, ∃ name, lineMeaning l = .ok (.session name)) := by
  refine ⟨by decide +kernel, by decide +kernel, c%"s=-", by decide +kernel, c%"-", by decide +kernel⟩

/-- The c= line of the session can go if all sections have one; the c= line of a section if the session has one. -/
theorem C98_needed :
    (∀ ls ∈ [connHead ++ [connLine, connM], connHead ++ [connM, connLine], connHead ++ [connLine, connM, connLine],
        connHead ++ [connLine, connLine, connM], connHead ++ [connLine, connM, connM, connLine],
        connHead ++ [connTiming, connLine, connM], connHead ++ [c%"a=ice-lite"]],
      lines (crlf ls) = ls ∧ 51 ≤ byteLen (crlf ls) ∧ ok (parseSdp (crlf ls) true) = true) ∧
    (∀ ls ∈ [connHead ++ [connM], connHead ++ [connM, connM, connLine], connHead ++ [connM, connLine, connLine],
        connHead ++ [connLine, connM, connTiming], connHead.take 3 ++ [connLine, connM]],
      lines (crlf ls) = ls ∧ 51 ≤ byteLen (crlf ls) ∧ ok (parseSdp (crlf ls) true) = false) := by
  decide +kernel

end

end Sdp
