import Verif.Spec.Script
import Verif.Props.Build
import Verif.Props.InsertConn
import Verif.Lemmas.Sense
import Verif.Spec.Sample
/-!
# C117: a description is a sequence of calls
-/

namespace Sdp
open Insert

section
variable [Env]

/-- The session takes the call: it succeeds, or it would give a dtls-message to a section, and it does not replace the connection
of a section. -/
def Session.Takes (s : Session) : BuildOp → Prop
  | .session (.addAttribute a) => (s.addAttribute a).2 = .ok ()
  | .inSection i (.addAttribute a) => ∀ m, s.media[i]? = some m → isDtls a = true ∨ (m.addAttribute a).2 = .ok ()
  | .inSection i (.setConnection _) => ∀ m, s.media[i]? = some m → m.getConnection = none
  | _ => True

/-- From the first session, calls for these values, all of them taken, lead to the second one. -/
inductive Acts : Session → List SdpType → Session → Prop
  | done {s : Session} : Acts s [] s
  | call {s r : Session} {v : SdpType} {vs : List SdpType} {op : BuildOp} :
      callFor s.media.length v = some op → s.Takes op → Acts (s.build op) vs r → Acts s (v :: vs) r

private theorem acts_nil {s r : Session} : Acts s [] r ↔ r = s := by
  constructor
  · intro h; cases h; rfl
  · rintro rfl; exact .done

private theorem acts_cons {s r : Session} {v : SdpType} {vs : List SdpType} :
    Acts s (v :: vs) r ↔ ∃ op, callFor s.media.length v = some op ∧ s.Takes op ∧ Acts (s.build op) vs r := by
  constructor
  · intro h; cases h with | call h1 h2 h3 => exact ⟨_, h1, h2, h3⟩
  · rintro ⟨op, h1, h2, h3⟩; exact .call h1 h2 h3

private theorem acts_append {s r : Session} {vs ws : List SdpType} :
    Acts s (vs ++ ws) r ↔ ∃ r0, Acts s vs r0 ∧ Acts r0 ws r := by
  induction vs generalizing s with
  | nil => simp [acts_nil]
  | cons v vs ih =>
    simp only [List.cons_append, acts_cons, ih]
    constructor
    · rintro ⟨op, h1, h2, r0, h3, h4⟩; exact ⟨r0, ⟨op, h1, h2, h3⟩, h4⟩
    · rintro ⟨r0, ⟨op, h1, h2, h3⟩, h4⟩; exact ⟨op, h1, h2, r0, h3, h4⟩

private def more (m : Media) (ls : List SdpLine) : Media where
  media := m.media
  connection := m.connection.or (connectionsOf ls).head?
  bandwidth := m.bandwidth ++ bandwidthsOf ls
  attrs := m.attrs ++ (attrsOf ls).filter (fun a => !isDtls a)

private structure GoodMore (m : Media) (ls : List SdpLine) : Prop where
  kinds : ∀ l ∈ ls, SectionLine l
  oneConnection : m.connection.toList.length + (connectionsOf ls).length ≤ 1
  levels : ∀ a ∈ attrsOf ls, isDtls a = true ∨ a.type ∉ sessionOnly

private theorem modify_last {pre : List Media} {m : Media} (f : Media → Media) :
    (pre ++ [m]).modify pre.length f = pre ++ [f m] := by
  induction pre with
  | nil => rfl
  | cons a pre ih => simp [ih]

private theorem build_last {s : Session} {pre : List Media} {m : Media} (h : s.media = pre ++ [m]) (op : MediaOp) :
    s.build (.inSection pre.length op) = { s with media := pre ++ [m.apply op] } := by
  simp only [Session.build, h, modify_last]

private theorem add_eq (m : Media) (a : Attribute) (h : isDtls a = true ∨ a.type ∉ sessionOnly) :
    (m.addAttribute a).1 = { m with attrs := m.attrs ++ [a].filter (fun a => !isDtls a) } := by
  rcases addAttribute_eq m a with ⟨h1, h2⟩ | ⟨h1, e, h2⟩
  · rw [h2]
    have : isDtls a = false := by
      cases a <;> first | rfl | simp [Attribute.type, sessionOnly] at h1
    simp [this]
  · rw [h2]
    have : isDtls a = true := h.resolve_right fun h => h h1
    simp [this]

private theorem takes_last {s : Session} {pre : List Media} {m : Media} (h : s.media = pre ++ [m]) (a : Attribute) :
    s.Takes (.inSection pre.length (.addAttribute a)) ↔ isDtls a = true ∨ a.type ∉ sessionOnly := by
  simp only [Session.Takes, h, List.getElem?_concat_length, Option.some.injEq, forall_eq']
  rcases addAttribute_eq m a with ⟨h1, h2⟩ | ⟨h1, e, h2⟩
  · simp [h2, h1]
  · simp [h2, h1]

private theorem acts_section {vals : List SdpType} {s r : Session} {pre : List Media} {m : Media} (h : s.media = pre ++ [m]) :
    Acts s vals r ↔ GoodMore m ((valueLines vals).takeWhile notMedia) ∧ (∀ p ∈ sectionsOf (valueLines vals), GoodSection p.2) ∧
      r = { s with media := pre ++ [more m ((valueLines vals).takeWhile notMedia)] ++ (sectionsOf (valueLines vals)).map sectionMedia } := by
  induction vals generalizing s pre m with
  | nil =>
    rw [acts_nil]
    have e : more m [] = m := by
      cases m; simp [more, connectionsOf, bandwidthsOf, attrsOf]
    have g : GoodMore m [] := ⟨by simp, by cases m.connection <;> simp [connectionsOf], by simp [attrsOf]⟩
    simp only [valueLines, List.map_nil, List.takeWhile_nil, sectionsOf, e, ← h, List.append_nil]
    exact ⟨fun h => ⟨g, by simp, h⟩, fun h => h.2.2⟩
  | cons v vals ih =>
    have hn : s.media.length = pre.length + 1 := by simp [h]
    rw [acts_cons, hn]
    cases v with
    | attr a =>
      simp only [callFor, Nat.add_one_ne_zero, if_false, Nat.add_sub_cancel, Option.some.injEq, exists_eq_left', takes_last h]
      rw [build_last h, ih rfl]
      have hm : (valueLines (.attr a :: vals)).takeWhile notMedia = ⟨0, .attr a, []⟩ :: (valueLines vals).takeWhile notMedia := rfl
      have hs : sectionsOf (valueLines (.attr a :: vals)) = sectionsOf (valueLines vals) := rfl
      rw [hm, hs]
      generalize (valueLines vals).takeWhile notMedia = L
      have ha : attrsOf (⟨0, .attr a, []⟩ :: L) = a :: attrsOf L := rfl
      have hc : connectionsOf (⟨0, .attr a, []⟩ :: L) = connectionsOf L := rfl
      have hb : bandwidthsOf (⟨0, .attr a, []⟩ :: L) = bandwidthsOf L := rfl
      have e (h1 : isDtls a = true ∨ a.type ∉ sessionOnly) : more (m.apply (.addAttribute a)) L = more m (⟨0, .attr a, []⟩ :: L) := by
        simp only [more, ha, hc, hb, Media.apply, add_eq m a h1, List.append_assoc, ← List.filter_append, List.singleton_append]
      constructor
      · rintro ⟨h1, ⟨g1, g2, g3⟩, h2, rfl⟩
        simp only [Media.apply, add_eq m a h1] at g2 ⊢
        refine ⟨⟨?_, by rw [hc]; exact g2, ?_⟩, h2, ?_⟩
        · simp only [List.mem_cons, forall_eq_or_imp]; exact ⟨trivial, g1⟩
        · rw [ha]; simp only [List.mem_cons, forall_eq_or_imp]; exact ⟨h1, g3⟩
        · rw [← e h1, Media.apply, add_eq m a h1]
      · rintro ⟨⟨g1, g2, g3⟩, h2, rfl⟩
        rw [ha] at g3
        simp only [List.mem_cons, forall_eq_or_imp] at g1 g3
        rw [hc] at g2
        simp only [Media.apply, add_eq m a g3.1]
        refine ⟨g3.1, ⟨g1.2, g2, g3.2⟩, h2, ?_⟩
        rw [← e g3.1, Media.apply, add_eq m a g3.1]
    | bandwidth b =>
      simp only [callFor, Nat.add_one_ne_zero, if_false, Nat.add_sub_cancel, Option.some.injEq, exists_eq_left', Session.Takes, true_and]
      rw [build_last h, ih rfl]
      have hm : (valueLines (.bandwidth b :: vals)).takeWhile notMedia = ⟨0, .bandwidth b, []⟩ :: (valueLines vals).takeWhile notMedia := rfl
      have hs : sectionsOf (valueLines (.bandwidth b :: vals)) = sectionsOf (valueLines vals) := rfl
      rw [hm, hs]
      generalize (valueLines vals).takeWhile notMedia = L
      have ha : attrsOf (⟨0, .bandwidth b, []⟩ :: L) = attrsOf L := rfl
      have hc : connectionsOf (⟨0, .bandwidth b, []⟩ :: L) = connectionsOf L := rfl
      have hb : bandwidthsOf (⟨0, .bandwidth b, []⟩ :: L) = b :: bandwidthsOf L := rfl
      have e : more (m.apply (.addBandwidth b)) L = more m (⟨0, .bandwidth b, []⟩ :: L) := by
        simp [more, ha, hc, hb, Media.apply, Media.addBandwidth]
      rw [e]
      refine and_congr_left fun _ => ?_
      constructor
      · rintro ⟨g1, g2, g3⟩
        exact ⟨by simp only [List.mem_cons, forall_eq_or_imp]; exact ⟨trivial, g1⟩, by rw [hc]; exact g2, by rw [ha]; exact g3⟩
      · rintro ⟨g1, g2, g3⟩
        simp only [List.mem_cons, forall_eq_or_imp] at g1
        exact ⟨g1.2, by rw [hc] at g2; exact g2, by rw [ha] at g3; exact g3⟩
    | connection c =>
      simp only [callFor, Nat.add_one_ne_zero, if_false, Nat.add_sub_cancel, Option.some.injEq, exists_eq_left', Session.Takes, h,
        List.getElem?_concat_length, forall_eq', Media.getConnection]
      rw [build_last h, ih rfl]
      have hm : (valueLines (.connection c :: vals)).takeWhile notMedia = ⟨0, .connection c, []⟩ :: (valueLines vals).takeWhile notMedia := rfl
      have hs : sectionsOf (valueLines (.connection c :: vals)) = sectionsOf (valueLines vals) := rfl
      rw [hm, hs]
      generalize (valueLines vals).takeWhile notMedia = L
      have ha : attrsOf (⟨0, .connection c, []⟩ :: L) = attrsOf L := rfl
      have hc : connectionsOf (⟨0, .connection c, []⟩ :: L) = c :: connectionsOf L := rfl
      have hb : bandwidthsOf (⟨0, .connection c, []⟩ :: L) = bandwidthsOf L := rfl
      have e (h0 : m.connection = none) : more (m.apply (.setConnection c)) L = more m (⟨0, .connection c, []⟩ :: L) := by
        simp [more, ha, hc, hb, Media.apply, Media.setConnection, h0]
      constructor
      · rintro ⟨h0, ⟨g1, g2, g3⟩, h2, rfl⟩
        refine ⟨⟨by simp only [List.mem_cons, forall_eq_or_imp]; exact ⟨trivial, g1⟩, ?_, by rw [ha]; exact g3⟩, h2, by rw [e h0]⟩
        simp only [Media.apply, Media.setConnection, Option.toList_some, List.length_singleton] at g2
        rw [hc, h0]
        simp only [Option.toList_none, List.length_nil, List.length_cons]
        omega
      · rintro ⟨⟨g1, g2, g3⟩, h2, rfl⟩
        rw [hc] at g2
        rw [ha] at g3
        simp only [List.mem_cons, forall_eq_or_imp] at g1
        have h0 : m.connection = none := by
          cases hm : m.connection with
          | none => rfl
          | some x => rw [hm] at g2; simp at g2
        refine ⟨h0, ⟨g1.2, ?_, g3⟩, h2, by rw [e h0]⟩
        simp only [h0, Option.toList_none, List.length_nil, List.length_cons] at g2
        simp only [Media.apply, Media.setConnection, Option.toList_some, List.length_singleton]
        omega
    | media ml =>
      simp only [callFor, Option.some.injEq, exists_eq_left', Session.Takes, true_and]
      have hb : s.build (.session (.extendMedia [⟨ml, none, [], []⟩])) = { s with media := (pre ++ [m]) ++ [⟨ml, none, [], []⟩] } := by
        simp [Session.build, Session.apply, Session.extendMedia, h]
      rw [hb, ih rfl]
      have hm : (valueLines (.media ml :: vals)).takeWhile notMedia = [] := rfl
      have hs : sectionsOf (valueLines (.media ml :: vals)) =
        (ml, (valueLines vals).takeWhile notMedia) :: sectionsOf (valueLines vals) := rfl
      rw [hm, hs]
      generalize (valueLines vals).takeWhile notMedia = L
      have g : GoodMore m [] := ⟨by simp, by cases m.connection <;> simp [connectionsOf], by simp [attrsOf]⟩
      have e : more m [] = m := by
        cases m; simp [more, connectionsOf, bandwidthsOf, attrsOf]
      have e2 : more ⟨ml, none, [], []⟩ L = sectionMedia (ml, L) := by simp [more, sectionMedia]
      have e3 : GoodMore ⟨ml, none, [], []⟩ L ↔ GoodSection L := by
        constructor
        · rintro ⟨a, b, c⟩; exact ⟨a, by simpa using b, c⟩
        · rintro ⟨a, b, c⟩; exact ⟨a, by simpa using b, c⟩
      rw [e, e2, e3]
      simp only [List.mem_cons, forall_eq_or_imp, List.map_cons, List.append_assoc, List.cons_append, List.nil_append, g, true_and, and_assoc]
    | timing t =>
      simp only [callFor, Nat.add_one_ne_zero, if_false]
      constructor
      · rintro ⟨op, h, -⟩; cases h
      · rintro ⟨⟨g1, -, -⟩, -⟩
        rw [show (valueLines (.timing t :: vals)).takeWhile notMedia = ⟨0, .timing t, []⟩ :: (valueLines vals).takeWhile notMedia from rfl] at g1
        exact (g1 _ List.mem_cons_self).elim
    | version t =>
      constructor
      · rintro ⟨op, h, -⟩; cases h
      · rintro ⟨⟨g1, -, -⟩, -⟩
        rw [show (valueLines (.version t :: vals)).takeWhile notMedia = ⟨0, .version t, []⟩ :: (valueLines vals).takeWhile notMedia from rfl] at g1
        exact (g1 _ List.mem_cons_self).elim
    | origin t =>
      constructor
      · rintro ⟨op, h, -⟩; cases h
      · rintro ⟨⟨g1, -, -⟩, -⟩
        rw [show (valueLines (.origin t :: vals)).takeWhile notMedia = ⟨0, .origin t, []⟩ :: (valueLines vals).takeWhile notMedia from rfl] at g1
        exact (g1 _ List.mem_cons_self).elim
    | session t =>
      constructor
      · rintro ⟨op, h, -⟩; cases h
      · rintro ⟨⟨g1, -, -⟩, -⟩
        rw [show (valueLines (.session t :: vals)).takeWhile notMedia = ⟨0, .session t, []⟩ :: (valueLines vals).takeWhile notMedia from rfl] at g1
        exact (g1 _ List.mem_cons_self).elim

private theorem session_add (s : Session) (a : Attribute) :
    ((s.addAttribute a).2 = .ok () ↔ a.type ∉ mediaOnly) ∧ (a.type ∉ mediaOnly → (s.addAttribute a).1 = { s with attrs := s.attrs ++ [a] }) := by
  have h := allowedAtSessionLevel_iff a
  unfold Session.addAttribute
  by_cases ha : a.allowedAtSessionLevel = true
  · simp [ha, h.1 ha]
  · have : ¬ a.type ∉ mediaOnly := fun h' => ha (h.2 h')
    simp only [this, iff_false, false_implies, and_true, ha, Bool.not_false, if_true]
    simp [egeneric]

private theorem acts_session {vals : List SdpType} {s r : Session} (h : s.media = []) :
    Acts s vals r ↔ GoodSessionPart ((valueLines vals).takeWhile notMedia) ∧ (∀ p ∈ sectionsOf (valueLines vals), GoodSection p.2) ∧
      r = { withSessionPart s ((valueLines vals).takeWhile notMedia) with media := (sectionsOf (valueLines vals)).map sectionMedia } := by
  induction vals generalizing s with
  | nil =>
    rw [acts_nil]
    have e : ({ withSessionPart s [] with media := [] } : Session) = s := by
      cases s; simp_all [withSessionPart, attrsOf, bandwidthsOf, timingsOf, connectionsOf]
    have g : GoodSessionPart [] := ⟨by simp, by simp [attrsOf]⟩
    simp only [valueLines, List.map_nil, List.takeWhile_nil, sectionsOf, e]
    exact ⟨fun h => ⟨g, by simp, h⟩, fun h => h.2.2⟩
  | cons v vals ih =>
    have good (hk : SessionLine ⟨0, v, []⟩) (L : List SdpLine) : GoodSessionPart (⟨0, v, []⟩ :: L) ↔
        (∀ a, v = .attr a → a.type ∉ mediaOnly) ∧ GoodSessionPart L := by
      have : attrsOf (⟨0, v, []⟩ :: L) = (match v with | .attr a => [a] | _ => []) ++ attrsOf L := by cases v <;> rfl
      constructor
      · rintro ⟨g1, g2⟩
        simp only [List.mem_cons, forall_eq_or_imp] at g1
        rw [this] at g2
        refine ⟨?_, g1.2, fun a ha => g2 a (List.mem_append_right _ ha)⟩
        rintro a rfl
        exact g2 a (by simp)
      · rintro ⟨g1, g2, g3⟩
        refine ⟨by simp only [List.mem_cons, forall_eq_or_imp]; exact ⟨hk, g2⟩, ?_⟩
        rw [this]
        intro a ha
        rcases List.mem_append.1 ha with ha | ha
        · cases v <;> simp at ha
          subst ha; exact g1 _ rfl
        · exact g3 a ha
    have step (hk : SessionLine ⟨0, v, []⟩) : (valueLines (v :: vals)).takeWhile notMedia = ⟨0, v, []⟩ :: (valueLines vals).takeWhile notMedia ∧
        sectionsOf (valueLines (v :: vals)) = sectionsOf (valueLines vals) := by
      cases v <;> first | exact ⟨rfl, rfl⟩ | exact hk.elim
    rw [acts_cons, h]
    cases v with
    | attr a =>
      rw [(step trivial).1, (step trivial).2, good trivial]
      simp only [callFor, List.length_nil, if_true, Option.some.injEq, exists_eq_left', Session.Takes, (session_add s a).1]
      generalize hL : (valueLines vals).takeWhile notMedia = L at ih ⊢
      constructor
      · rintro ⟨h1, h2⟩
        have hb : s.build (.session (.addAttribute a)) = { s with attrs := s.attrs ++ [a] } := (session_add s a).2 h1
        rw [hb, ih (by exact h)] at h2
        obtain ⟨g1, g2, rfl⟩ := h2
        refine ⟨⟨?_, g1⟩, g2, ?_⟩
        · intro b hb; cases hb; exact h1
        · simp [withSessionPart, attrsOf, bandwidthsOf, timingsOf, connectionsOf]
      · rintro ⟨⟨g0, g1⟩, g2, rfl⟩
        have h1 := g0 a rfl
        have hb : s.build (.session (.addAttribute a)) = { s with attrs := s.attrs ++ [a] } := (session_add s a).2 h1
        rw [hb, ih (by exact h)]
        exact ⟨h1, g1, g2, by simp [withSessionPart, attrsOf, bandwidthsOf, timingsOf, connectionsOf]⟩
    | bandwidth b =>
      rw [(step trivial).1, (step trivial).2, good trivial]
      simp only [callFor, List.length_nil, if_true, Option.some.injEq, exists_eq_left', Session.Takes, true_and]
      rw [ih (by exact h)]
      simp [withSessionPart, attrsOf, bandwidthsOf, timingsOf, connectionsOf, Session.build, Session.apply, Session.addBandwidth]
    | connection c =>
      rw [(step trivial).1, (step trivial).2, good trivial]
      simp only [callFor, List.length_nil, if_true, Option.some.injEq, exists_eq_left', Session.Takes, true_and]
      rw [ih (by exact h)]
      generalize (valueLines vals).takeWhile notMedia = L
      have e : (connectionsOf (⟨0, .connection c, []⟩ :: L)).getLast?.or s.connection = (connectionsOf L).getLast?.or (some c) := by
        rw [show connectionsOf (⟨0, .connection c, []⟩ :: L) = c :: connectionsOf L from rfl]
        cases h : connectionsOf L with
        | nil => rfl
        | cons x l => rw [List.getLast?_cons_cons, List.getLast?_eq_some_getLast (by simp)]; rfl
      simp only [withSessionPart, e]
      simp [attrsOf, bandwidthsOf, timingsOf, Session.build, Session.apply, Session.setConnection]
    | timing c =>
      rw [(step trivial).1, (step trivial).2, good trivial]
      simp only [callFor, List.length_nil, if_true, Option.some.injEq, exists_eq_left', Session.Takes, true_and]
      rw [ih (by exact h)]
      generalize (valueLines vals).takeWhile notMedia = L
      have e : (timingsOf (⟨0, .timing c, []⟩ :: L)).getLast?.or s.timing = (timingsOf L).getLast?.or (some c) := by
        rw [show timingsOf (⟨0, .timing c, []⟩ :: L) = c :: timingsOf L from rfl]
        cases h : timingsOf L with
        | nil => rfl
        | cons x l => rw [List.getLast?_cons_cons, List.getLast?_eq_some_getLast (by simp)]; rfl
      simp only [withSessionPart, e]
      simp [attrsOf, bandwidthsOf, connectionsOf, Session.build, Session.apply, Session.setTiming]
    | media ml =>
      simp only [callFor, Option.some.injEq, exists_eq_left', Session.Takes, true_and]
      have hb : s.build (.session (.extendMedia [⟨ml, none, [], []⟩])) = { s with media := [] ++ [⟨ml, none, [], []⟩] } := by
        simp [Session.build, Session.apply, Session.extendMedia, h]
      rw [hb, acts_section rfl]
      have hm : (valueLines (.media ml :: vals)).takeWhile notMedia = [] := rfl
      have hs : sectionsOf (valueLines (.media ml :: vals)) =
        (ml, (valueLines vals).takeWhile notMedia) :: sectionsOf (valueLines vals) := rfl
      rw [hm, hs]
      generalize (valueLines vals).takeWhile notMedia = L
      have g : GoodSessionPart [] := ⟨by simp, by simp [attrsOf]⟩
      have e2 : more ⟨ml, none, [], []⟩ L = sectionMedia (ml, L) := by simp [more, sectionMedia]
      have e3 : GoodMore ⟨ml, none, [], []⟩ L ↔ GoodSection L := by
        constructor
        · rintro ⟨a, b, c⟩; exact ⟨a, by simpa using b, c⟩
        · rintro ⟨a, b, c⟩; exact ⟨a, by simpa using b, c⟩
      rw [e2, e3]
      simp only [List.mem_cons, forall_eq_or_imp, List.map_cons, List.nil_append, List.cons_append, g, true_and, and_assoc]
      simp [withSessionPart, attrsOf, bandwidthsOf, timingsOf, connectionsOf]
    | version t =>
      constructor
      · rintro ⟨op, h, -⟩; cases h
      · rintro ⟨⟨g1, -⟩, -⟩
        rw [show (valueLines (.version t :: vals)).takeWhile notMedia = ⟨0, .version t, []⟩ :: (valueLines vals).takeWhile notMedia from rfl] at g1
        exact (g1 _ List.mem_cons_self).elim
    | origin t =>
      constructor
      · rintro ⟨op, h, -⟩; cases h
      · rintro ⟨⟨g1, -⟩, -⟩
        rw [show (valueLines (.origin t :: vals)).takeWhile notMedia = ⟨0, .origin t, []⟩ :: (valueLines vals).takeWhile notMedia from rfl] at g1
        exact (g1 _ List.mem_cons_self).elim
    | session t =>
      constructor
      · rintro ⟨op, h, -⟩; cases h
      · rintro ⟨⟨g1, -⟩, -⟩
        rw [show (valueLines (.session t :: vals)).takeWhile notMedia = ⟨0, .session t, []⟩ :: (valueLines vals).takeWhile notMedia from rfl] at g1
        exact (g1 _ List.mem_cons_self).elim

private theorem describes_acts {vals : List SdpType} {r : Session} :
    Describes (valueLines vals) r ↔ ∃ v o name vs, vals = .version v :: .origin o :: .session name :: vs ∧
      Acts (Session.new v o name) vs r ∧ Consistent r := by
  have key (v : UInt64) (o : Origin) (name : Str) (vs : List SdpType) :
      ({ withSessionPart (Session.new v o name) ((valueLines vs).takeWhile notMedia) with
        media := (sectionsOf (valueLines vs)).map sectionMedia } : Session) = assemble v o name (valueLines vs) [] := by
    simp only [withSessionPart, Session.new, assemble, List.nil_append, Option.or_none]
    by_cases hb : Blank name
    · simp [hb, trim_isEmpty.2 hb]
    · have : ¬ (trim name).isEmpty = true := fun h => hb (trim_isEmpty.1 h)
      simp [hb, this]
  constructor
  · rintro ⟨l0, l1, l2, rest, v, o, name, h, h0, h1, h2, h3, h4, h5, h6, h7⟩
    match vals, h with
    | a :: b :: c :: vs, h =>
      simp only [valueLines, List.map_cons, List.cons.injEq] at h
      obtain ⟨rfl, rfl, rfl, rfl⟩ := h
      simp only at h1 h2 h3
      subst h1 h2 h3
      refine ⟨v, o, name, vs, rfl, (acts_session rfl).2 ⟨h4, h5, ?_⟩, h7⟩
      rw [h6, key]; rfl
  · rintro ⟨v, o, name, vs, rfl, h, hc⟩
    obtain ⟨h1, h2, h3⟩ := (acts_session rfl).1 h
    rw [key] at h3
    refine ⟨_, _, _, valueLines vs, v, o, name, rfl, ?_, rfl, rfl, rfl, h1, h2, h3, hc⟩
    rintro h
    obtain ⟨t, ht⟩ := hc.timing
    rw [h3, h] at ht
    simp [assemble, timingsOf] at ht

private theorem values_lines (ls : List Str) : bareLines ls = valueLines (valuesRead ls) := rfl

private theorem valuesRead_append (a b : List Str) : valuesRead (a ++ b) = valuesRead a ++ valuesRead b := by
  simp [valuesRead]

/-- **C117.** What `parse_sdp` makes of a text is what the API makes of it line by line: `SdpSession::new` with the version, the
origin and the name of the first three lines, and then one call for each line, all of them taken. -/
theorem C117_calls {s : Str} {f : Bool} {r : Session} (h : parseSdp s f = .ok r) :
    ∃ v o name vals, valuesRead (lines s) = .version v :: .origin o :: .session name :: vals ∧
      Acts (Session.new v o name) vals { r with warnings := [] } := by
  obtain ⟨-, -, h3, -⟩ := parseSdp_lines.1 h
  rw [values_lines, describes_acts] at h3
  obtain ⟨v, o, name, vs, h1, h2, -⟩ := h3
  exact ⟨v, o, name, vs, h1, h2⟩

/-- **C117.** A text is accepted exactly if it is long enough, no line is wrong, the first three lines are v=, o= and s=, the calls
for the other lines are all taken, and the session they lead to is consistent. -/
theorem C117_accepted {s : Str} {f : Bool} :
    (∃ r, parseSdp s f = .ok r) ↔ 51 ≤ byteLen s ∧
      (∀ l ∈ lines s, Blank l ∨ (∃ t, lineMeaning l = .ok t) ∨ (f = false ∧ ∃ m, lineMeaning l = .err (.unsupported m))) ∧
      ∃ v o name vals r, valuesRead (lines s) = .version v :: .origin o :: .session name :: vals ∧
        Acts (Session.new v o name) vals r ∧ Consistent r := by
  rw [accepts_lines, values_lines]
  simp only [describes_acts]
  refine and_congr_right fun _ => and_congr_right fun _ => ?_
  constructor
  · rintro ⟨r, v, o, name, vs, h⟩; exact ⟨v, o, name, vs, r, h⟩
  · rintro ⟨v, o, name, vs, r, h⟩; exact ⟨r, v, o, name, vs, h⟩

/-- **C117.** The calls lead to one session at most. -/
theorem C117_one {s r r' : Session} {vals : List SdpType} (h : Acts s vals r) (h' : Acts s vals r') : r = r' := by
  induction h with
  | done => exact (acts_nil.1 h').symm
  | call h1 h2 _ ih =>
    obtain ⟨op, g1, -, g3⟩ := acts_cons.1 h'
    rw [h1, Option.some.injEq] at g1
    subst g1
    exact ih g3

private theorem acts_fold {s r : Session} {vals : List SdpType} (h : Acts s vals r) :
    ∃ ops : List BuildOp, ops.length = vals.length ∧ r = ops.foldl Session.build s := by
  induction h with
  | done => exact ⟨[], rfl, rfl⟩
  | call h1 h2 _ ih =>
    obtain ⟨ops, h, e⟩ := ih
    exact ⟨_ :: ops, by simp [h], e⟩

/-- **C117.** Everything that can be parsed can be built: with `SdpSession::new` and one call per line. -/
theorem C117_built {s : Str} {f : Bool} {r : Session} (h : parseSdp s f = .ok r) :
    ∃ v o name, ∃ ops : List BuildOp, ops.length + 3 = (valuesRead (lines s)).length ∧
      { r with warnings := [] } = ops.foldl Session.build (Session.new v o name) := by
  obtain ⟨v, o, name, vals, h1, h2⟩ := C117_calls h
  obtain ⟨ops, h3, h4⟩ := acts_fold h2
  exact ⟨v, o, name, ops, by rw [h1]; simp [h3], h4⟩

private theorem acts_warnings {s r : Session} {vals : List SdpType} (h : Acts s vals r) (w : List ParserError) :
    Acts { s with warnings := w } vals { r with warnings := w } := by
  induction h with
  | done => exact .done
  | @call s r v vs op h1 h2 _ ih =>
    have e : { s with warnings := w }.build op = { s.build op with warnings := w } := by
      cases op with
      | session op =>
        cases v <;> simp only [callFor] at h1
        all_goals first | cases h1 | split at h1 <;> cases h1
        all_goals first | rfl | skip
        simp only [Session.build, Session.apply, Session.addAttribute]
        split <;> rfl
      | inSection i op => rfl
    refine .call h1 ?_ (by rw [e]; exact ih)
    rcases op with op | ⟨i, op⟩ <;> cases op <;> first | exact h2 | trivial | skip
    simp only [Session.Takes, (session_add _ _).1] at h2 ⊢
    exact h2

private theorem acts_kept {s r : Session} {vals : List SdpType} (h : Acts s vals r) : r.warnings = s.warnings := by
  have := C117_one (acts_warnings h s.warnings) h
  rw [← this]

private theorem contentFrom_append (n : Nat) (a b : List Str) :
    contentFrom n (a ++ b) = contentFrom n a ++ contentFrom (n + a.length) b := by
  unfold contentFrom
  rw [List.zipIdx_append, List.filter_append]

/-- **C117.** Lines that are appended to a text act on the session of the text as the calls for them do, and the longer text is
accepted exactly if the calls are taken and the session they lead to is consistent. -/
theorem C117_append {s s' : Str} {f : Bool} {r r' : Session} {q : List Str} (hr : parseSdp s f = .ok r)
    (hq : ∀ l ∈ q, Blank l ∨ ∃ t, lineMeaning l = .ok t) (hs : lines s' = lines s ++ q) (hl : 51 ≤ byteLen s') :
    parseSdp s' f = .ok r' ↔ Acts r (valuesRead q) r' ∧ Consistent r' := by
  obtain ⟨-, h2, h3, h4⟩ := parseSdp_lines.1 hr
  rw [values_lines, describes_acts] at h3
  obtain ⟨v, o, name, vs, g1, g2, g3⟩ := h3
  have hw : unsupportedErrors (contentLines s') = r.warnings := by
    rw [h4]
    unfold contentLines
    rw [hs, contentFrom_append]
    unfold unsupportedErrors
    rw [List.filterMap_append]
    have := (scan_fine (f := true) (n := 0 + (lines s).length) (ls := q)).2 fun l hl => (hq l hl).imp_right .inl
    have := this.2.2 rfl
    unfold unsupportedErrors at this
    rw [this, List.append_nil]
  rw [parseSdp_lines, values_lines, describes_acts, hs, valuesRead_append, g1, hw]
  constructor
  · rintro ⟨-, -, ⟨v', o', name', vs', e, a1, a2⟩, a3⟩
    simp only [List.cons_append, List.cons.injEq, SdpType.version.injEq, SdpType.origin.injEq, SdpType.session.injEq] at e
    obtain ⟨rfl, rfl, rfl, rfl⟩ := e
    obtain ⟨r0, b1, b2⟩ := acts_append.1 a1
    cases C117_one g2 b1
    have := acts_warnings b2 r'.warnings
    rw [consistent_bare] at a2
    refine ⟨?_, a2⟩
    rw [a3] at this
    have e : { r' with warnings := r.warnings } = r' := by rw [← a3]
    rw [← e]
    exact this
  · rintro ⟨h1, h5⟩
    have h6 : r'.warnings = r.warnings := acts_kept h1
    refine ⟨hl, ?_, ⟨v, o, name, vs ++ valuesRead q, rfl, acts_append.2 ⟨_, g2, acts_warnings h1 []⟩, consistent_bare.2 h5⟩, h6⟩
    intro l hl
    rcases List.mem_append.1 hl with hl | hl
    · exact h2 l hl
    · exact (hq l hl).imp_right .inl

end

/-! ## The hypotheses are met -/

section
attribute [local instance] sampleEnv

private def isOk {ε α : Type} : Outcome ε α → Bool
  | .ok _ => true
  | _ => false

/-- A text without sections, and lines that are appended to it. -/
def scriptHead : List Str := [c%"v=0", c%"o=- 1 2 IN IP4 127.0.0.1", c%"s=-", c%"t=1 2", c%"c=IN IP4 10.0.0.1", c%"a=ice-lite"]
def scriptTail : List Str :=
  [c%"b=AS:64", c%"m=audio 9 UDP/TLS/RTP/SAVPF 0", c%"c=IN IP4 10.0.0.2", c%"", c%"a=sendrecv", c%"m=video 9 UDP/TLS/RTP/SAVPF 96", c%"a=rtpmap:96 VP8/90000"]

example : isOk (parseSdp (crlf scriptHead) true) = true ∧ isOk (parseSdp (crlf (scriptHead ++ scriptTail)) true) = true ∧
    lines (crlf (scriptHead ++ scriptTail)) = lines (crlf scriptHead) ++ scriptTail ∧ 51 ≤ byteLen (crlf (scriptHead ++ scriptTail)) ∧
    (∀ l ∈ scriptTail, trim l = [] ∨ isOk (lineMeaning l) = true) ∧ (valuesRead scriptTail).length = 6 := by
  decide +kernel

/-- Each condition is needed: appended to the same text, a second c= line of a section, an attribute at the wrong level, a t= line of
a section and a rtcp-mux-only without rtcp-mux are refused. A dtls-message of a section is not. -/
theorem C117_needed :
    (∀ q ∈ [[c%"c=IN IP4 10.0.0.3", c%"c=IN IP4 10.0.0.4"], [c%"a=ice-lite"], [c%"t=1 2"], [c%"a=rtcp-mux-only"], [c%"v=0"]],
      lines (crlf (scriptHead ++ scriptTail ++ q)) = lines (crlf (scriptHead ++ scriptTail)) ++ q ∧
      (∀ l ∈ q, isOk (lineMeaning l) = true) ∧ isOk (parseSdp (crlf (scriptHead ++ scriptTail ++ q)) true) = false) ∧
    (∀ q ∈ [[c%"c=IN IP4 10.0.0.3"], [c%"a=dtls-message:client x"], [c%"a=rtcp-mux-only", c%"a=rtcp-mux"]],
      lines (crlf (scriptHead ++ scriptTail ++ q)) = lines (crlf (scriptHead ++ scriptTail)) ++ q ∧
      (∀ l ∈ q, isOk (lineMeaning l) = true) ∧ isOk (parseSdp (crlf (scriptHead ++ scriptTail ++ q)) true) = true) := by
  decide +kernel

end

end Sdp
