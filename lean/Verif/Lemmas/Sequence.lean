import Verif.Spec.Sequence
import Verif.Lemmas.Consistent
/-!
# The first fault of a list of lines
-/

namespace Sdp

theorem first_cons {α : Type} {G : List α → Prop} {g : α → Prop} {F : List α → α → Prop} (h0 : G [])
    (hc : ∀ x xs, G (x :: xs) ↔ g x ∧ G xs) {l : α} {ls : List α} :
    (∃ pre x post, l :: ls = pre ++ x :: post ∧ G pre ∧ F pre x) ↔
      F [] l ∨ (g l ∧ ∃ pre x post, ls = pre ++ x :: post ∧ G pre ∧ F (l :: pre) x) := by
  constructor
  · rintro ⟨_ | ⟨y, pre⟩, x, post, e, h1, h2⟩
    · simp only [List.nil_append, List.cons.injEq] at e
      obtain ⟨rfl, rfl⟩ := e; exact .inl h2
    · simp only [List.cons_append, List.cons.injEq] at e
      obtain ⟨rfl, rfl⟩ := e
      have := (hc _ _).1 h1
      exact .inr ⟨this.1, pre, x, post, rfl, this.2, h2⟩
  · rintro (h | ⟨h1, pre, x, post, rfl, h2, h3⟩)
    · exact ⟨[], l, ls, rfl, h0, h⟩
    · exact ⟨l :: pre, x, post, rfl, (hc _ _).2 ⟨h1, h2⟩, h3⟩

theorem unit_bind_err {ε α : Type} {x : Outcome ε Unit} {f : Unit → Outcome ε α} {e : ε} :
    (x >>= f) = .err e ↔ x = .err e ∨ (x = .ok () ∧ f () = .err e) := by
  rw [bind_eq_err]
  exact or_congr_right ⟨fun ⟨a, h1, h2⟩ => ⟨h1, h2⟩, fun ⟨h1, h2⟩ => ⟨(), h1, h2⟩⟩

theorem goodSessionPart_nil : GoodSessionPart [] := ⟨by simp, by simp [attrsOf]⟩

theorem goodSessionPart_cons (x : SdpLine) (ls : List SdpLine) : GoodSessionPart (x :: ls) ↔
    (SessionLine x ∧ ∀ a, x.sdpType = .attr a → a.type ∉ mediaOnly) ∧ GoodSessionPart ls := by
  constructor
  · rintro ⟨a, b⟩
    rw [attrsOf_cons] at b
    exact ⟨⟨a x (by simp), fun y hy => b y (by simp [hy])⟩, fun y hy => a y (by simp [hy]), fun y hy => b y (by simp [hy])⟩
  · rintro ⟨⟨a, b⟩, c, d⟩
    refine ⟨by simp; exact ⟨a, c⟩, ?_⟩
    rw [attrsOf_cons]
    intro y hy
    simp only [List.mem_append] at hy
    rcases hy with hy | hy
    · split at hy
      · rename_i z hz; simp at hy; subst hy; exact b _ hz
      · simp at hy
    · exact d y hy

section
variable [Env]

theorem parseVector_fault {s : Session} {ls : List SdpLine} {e : ParserError} (hn : ∀ l ∈ ls, notMedia l = true) :
    (∃ s', s.parseVector ls = (s', .err e)) ↔
      ∃ pre l post, ls = pre ++ l :: post ∧ GoodSessionPart pre ∧
        ∃ m, SessionLineFault l m ∧ e = .sequence m l.lineNumber := by
  induction ls generalizing s with
  | nil => simp [Session.parseVector]
  | cons l ls ih =>
    rw [first_cons goodSessionPart_nil goodSessionPart_cons (F := fun _ l => ∃ m, SessionLineFault l m ∧ e = .sequence m l.lineNumber)]
    have ih {s} := ih (s := s) fun x hx => hn x (by simp [hx])
    have hl := hn l (by simp)
    obtain ⟨n, ty, txt⟩ := l
    cases ty with
    | attr a =>
      simp only [Session.parseVector, Session.addAttribute]
      have := allowedAtSessionLevel_iff a
      by_cases h : a.allowedAtSessionLevel = true
      · simp only [h, Bool.not_true, Bool.false_eq_true, if_false, ih]
        simp [SessionLine, SessionLineFault, this.1 h]
      · have hm : a.type ∈ mediaOnly := by by_contra hc; exact h (this.2 hc)
        simp [h, egeneric, hm, SessionLineFault, showInternalError, SessionLine, eq_comm]
    | bandwidth b => simp only [Session.parseVector, ih]; simp [SessionLine, SessionLineFault]
    | timing b => simp only [Session.parseVector, ih]; simp [SessionLine, SessionLineFault]
    | connection b => simp only [Session.parseVector, ih]; simp [SessionLine, SessionLineFault]
    | media b => simp [notMedia] at hl
    | origin b => simp [Session.parseVector, SessionLine, SessionLineFault, eq_comm]
    | session b => simp [Session.parseVector, SessionLine, SessionLineFault, eq_comm]
    | version b => simp [Session.parseVector, SessionLine, SessionLineFault, eq_comm]

/-- The first fault of the lines after the beginning of a section. -/
def RestFault (cur : Media) (ls : List SdpLine) (e : ParserError) : Prop :=
  ∃ pre l post, ls = pre ++ l :: post ∧ GoodRest cur pre ∧
    ∃ m, (SectionLineFault pre l m ∨ ∃ c, l.sdpType = .connection c ∧ cur.connection ≠ none ∧
      m = c%"connection type already exists at this media level") ∧ e = .sequence m l.lineNumber

def SectionsFault (ls : List (MediaLine × List SdpLine)) (e : ParserError) : Prop :=
  ∃ before m pre l post after, ls = before ++ (m, pre ++ l :: post) :: after ∧ (∀ p ∈ before, GoodSection p.2) ∧
    GoodSection pre ∧ ∃ msg, SectionLineFault pre l msg ∧ e = .sequence msg l.lineNumber

theorem goodRest_new {m : MediaLine} {ls : List SdpLine} : GoodRest (Media.new m) ls ↔ GoodSection ls :=
  ⟨fun ⟨a, b, c⟩ => ⟨a, by simpa [Media.new] using b, c⟩, fun ⟨a, b, c⟩ => ⟨a, by simpa [Media.new] using b, c⟩⟩

theorem restFault_new {m : MediaLine} {ls : List SdpLine} {e : ParserError} : RestFault (Media.new m) ls e ↔
    ∃ pre l post, ls = pre ++ l :: post ∧ GoodSection pre ∧ ∃ msg, SectionLineFault pre l msg ∧ e = .sequence msg l.lineNumber := by
  unfold RestFault
  have hc : (Media.new m).connection = none := rfl
  simp [goodRest_new, hc]

theorem sectionsFault_cons {m : MediaLine} {x : List SdpLine} {ls : List (MediaLine × List SdpLine)} {e : ParserError} :
    SectionsFault ((m, x) :: ls) e ↔ RestFault (Media.new m) x e ∨ (GoodSection x ∧ SectionsFault ls e) := by
  rw [restFault_new]
  constructor
  · rintro ⟨_ | ⟨p, before⟩, m', pre, l, post, after, h, h1, h2, h3⟩
    · simp only [List.nil_append, List.cons.injEq, Prod.mk.injEq] at h
      obtain ⟨⟨rfl, rfl⟩, rfl⟩ := h
      exact .inl ⟨pre, l, post, rfl, h2, h3⟩
    · simp only [List.cons_append, List.cons.injEq] at h
      obtain ⟨rfl, rfl⟩ := h
      exact .inr ⟨h1 _ (List.mem_cons_self ..), before, m', pre, l, post, after, rfl, fun p hp => h1 p (by simp [hp]), h2, h3⟩
  · rintro (⟨pre, l, post, rfl, h2, h3⟩ | ⟨h, before, m', pre, l, post, after, rfl, h1, h2, h3⟩)
    · exact ⟨[], m, pre, l, post, ls, rfl, by simp, h2, h3⟩
    · refine ⟨(m, x) :: before, m', pre, l, post, after, rfl, ?_, h2, h3⟩
      intro p hp
      rcases List.mem_cons.1 hp with rfl | hp
      · exact h
      · exact h1 p hp

/-- A line that may follow, and the section after it. -/
theorem restFault_cons {cur cur' : Media} {l : SdpLine} {ls : List SdpLine} {e : ParserError}
    (hg : ∀ xs, GoodRest cur (l :: xs) ↔ GoodRest cur' xs)
    (hc : (connectionsOf [l] ≠ [] ∨ cur.connection ≠ none) ↔ cur'.connection ≠ none)
    (hl : ∀ m, ¬ SectionLineFault [] l m) (hl' : ∀ c, l.sdpType = .connection c → cur.connection = none) :
    RestFault cur (l :: ls) e ↔ RestFault cur' ls e := by
  have fault {pre : List SdpLine} {x : SdpLine} {m : Str} :
      (SectionLineFault (l :: pre) x m ∨ ∃ c, x.sdpType = .connection c ∧ cur.connection ≠ none ∧
        m = c%"connection type already exists at this media level") ↔
      (SectionLineFault pre x m ∨ ∃ c, x.sdpType = .connection c ∧ cur'.connection ≠ none ∧
        m = c%"connection type already exists at this media level") := by
    rw [← hc]
    have e : connectionsOf (l :: pre) = connectionsOf [l] ++ connectionsOf pre := by
      rw [connectionsOf_cons, connectionsOf_cons]; simp [connectionsOf]
    cases hx : x.sdpType <;> simp [SectionLineFault, hx, e]
    tauto
  constructor
  · rintro ⟨_ | ⟨y, pre⟩, x, post, e, h1, m, h2, h3⟩
    · simp only [List.nil_append, List.cons.injEq] at e
      obtain ⟨rfl, rfl⟩ := e
      rcases h2 with h2 | ⟨c, h2, h4, -⟩
      · exact absurd h2 (hl m)
      · exact absurd (hl' c h2) h4
    · simp only [List.cons_append, List.cons.injEq] at e
      obtain ⟨rfl, rfl⟩ := e
      exact ⟨pre, x, post, rfl, (hg _).1 h1, m, fault.1 h2, h3⟩
  · rintro ⟨pre, x, post, rfl, h1, m, h2, h3⟩
    exact ⟨l :: pre, x, post, rfl, (hg _).2 h1, m, fault.2 h2, h3⟩

theorem goodRest_nil (cur : Media) : GoodRest cur [] :=
  ⟨by simp, by simp [connectionsOf]; split <;> omega, by simp [attrsOf]⟩

/-- A line that must not follow. -/
theorem restFault_bad {cur : Media} {l : SdpLine} {ls : List SdpLine} {e : ParserError}
    (hg : ∀ xs, ¬ GoodRest cur (l :: xs)) :
    RestFault cur (l :: ls) e ↔ ∃ m, (SectionLineFault [] l m ∨ ∃ c, l.sdpType = .connection c ∧ cur.connection ≠ none ∧
      m = c%"connection type already exists at this media level") ∧ e = .sequence m l.lineNumber := by
  constructor
  · rintro ⟨_ | ⟨y, pre⟩, x, post, e, h1, m, h2, h3⟩
    · simp only [List.nil_append, List.cons.injEq] at e
      obtain ⟨rfl, rfl⟩ := e
      exact ⟨m, h2, h3⟩
    · simp only [List.cons_append, List.cons.injEq] at e
      obtain ⟨rfl, rfl⟩ := e
      exact absurd h1 (hg _)
  · rintro ⟨m, h1, h2⟩
    exact ⟨[], l, ls, rfl, goodRest_nil cur, m, h1, h2⟩

theorem mediaAttrLine_error {m : Media} {a : Attribute} (h : isDtls a = false) (h' : a.type ∈ sessionOnly) :
    mediaAttrLine m a = (m, .err (.generic (showAttribute a ++ c%" not allowed at media level"))) := by
  have h2 : mediaAttrLine m a = m.addAttribute a := by
    cases a <;> first | rfl | simp [isDtls] at h
  have h3 : ¬ a.allowedAtMediaLevel = true := fun hc => (allowedAtMediaLevel_iff a).1 hc h'
  rw [h2, Media.addAttribute, if_pos (by simpa using h3)]; rfl

theorem mediaLoop_fault {done : List Media} {cur : Media} {ls : List SdpLine} {e : ParserError} :
    mediaLoop done cur ls = .err e ↔
      RestFault cur (ls.takeWhile notMedia) e ∨
      (GoodRest cur (ls.takeWhile notMedia) ∧ SectionsFault (sectionsOf ls) e) := by
  induction ls generalizing done cur with
  | nil => simp [mediaLoop, RestFault, SectionsFault, sectionsOf]
  | cons l ls ih =>
    obtain ⟨n, ty, txt⟩ := l
    have bad (hn : notMedia ⟨n, ty, txt⟩ = true) (hk : ¬ SectionLine ⟨n, ty, txt⟩)
        (hm : ∀ m, SectionLineFault [] ⟨n, ty, txt⟩ m ↔ m = c%"invalid type in media section")
        (hc : ∀ c, ty ≠ .connection c) :
        .err (.sequence c%"invalid type in media section" n) = (.err e : Outcome ParserError (List Media)) ↔
      RestFault cur ((⟨n, ty, txt⟩ :: ls).takeWhile notMedia) e ∨
      (GoodRest cur ((⟨n, ty, txt⟩ :: ls).takeWhile notMedia) ∧ SectionsFault (sectionsOf (⟨n, ty, txt⟩ :: ls)) e) := by
      have hg (xs) : ¬ GoodRest cur (⟨n, ty, txt⟩ :: xs) := fun h => hk (h.1 _ (List.mem_cons_self ..))
      rw [List.takeWhile_cons_of_pos hn, restFault_bad hg]
      simp [hg, hm, hc, eq_comm]
    cases ty with
    | attr a =>
      rw [show List.takeWhile notMedia (⟨n, .attr a, txt⟩ :: ls) = ⟨n, .attr a, txt⟩ :: List.takeWhile notMedia ls from rfl]
      rw [show sectionsOf (⟨n, .attr a, txt⟩ :: ls) = sectionsOf ls from rfl]
      simp only [mediaLoop]
      rcases mediaAttrLine_eq cur a with ⟨h1, h2⟩ | ⟨h1, h2, h3⟩ | ⟨h1, h2, -⟩
      · have g (xs) : GoodRest cur (⟨n, .attr a, txt⟩ :: xs) ↔ GoodRest cur xs := by
          simp [GoodRest, attrsOf_cons, connectionsOf_cons, SectionLine, h1]
        rw [h2, restFault_cons g (by simp [connectionsOf]) (by simp [SectionLineFault, h1]) (by simp), g]
        exact ih
      · have g (xs) : GoodRest cur (⟨n, .attr a, txt⟩ :: xs) ↔ GoodRest { cur with attrs := cur.attrs ++ [a] } xs := by
          simp [GoodRest, attrsOf_cons, connectionsOf_cons, SectionLine, h2]
        rw [h3, restFault_cons g (by simp [connectionsOf]) (by simp [SectionLineFault, h2]) (by simp), g]
        exact ih
      · have g (xs) : ¬ GoodRest cur (⟨n, .attr a, txt⟩ :: xs) := by
          simp [GoodRest, attrsOf_cons, h1, h2]
        rw [mediaAttrLine_error h1 h2, restFault_bad g]
        simp [g, SectionLineFault, h1, h2, showInternalError, eq_comm]
    | bandwidth b =>
      rw [show List.takeWhile notMedia (⟨n, .bandwidth b, txt⟩ :: ls) = ⟨n, .bandwidth b, txt⟩ :: List.takeWhile notMedia ls from rfl]
      rw [show sectionsOf (⟨n, .bandwidth b, txt⟩ :: ls) = sectionsOf ls from rfl]
      have g (xs) : GoodRest cur (⟨n, .bandwidth b, txt⟩ :: xs) ↔ GoodRest (cur.addBandwidth b) xs := by
        have hc : (cur.addBandwidth b).connection = cur.connection := rfl
        simp [GoodRest, attrsOf_cons, connectionsOf_cons, SectionLine, hc]
      rw [restFault_cons g (by simp [connectionsOf, Media.addBandwidth]) (by simp [SectionLineFault]) (by simp), g]
      exact ih
    | connection c =>
      rw [show List.takeWhile notMedia (⟨n, .connection c, txt⟩ :: ls) = ⟨n, .connection c, txt⟩ :: List.takeWhile notMedia ls from rfl]
      rw [show sectionsOf (⟨n, .connection c, txt⟩ :: ls) = sectionsOf ls from rfl]
      simp only [mediaLoop]
      cases hc : cur.connection with
      | some c' =>
        have g (xs) : ¬ GoodRest cur (⟨n, .connection c, txt⟩ :: xs) := by
          simp [GoodRest, connectionsOf_cons, hc]
        rw [restFault_bad g]
        simp [g, SectionLineFault, connectionsOf, hc, eq_comm]
      | none =>
        have g (xs) : GoodRest cur (⟨n, .connection c, txt⟩ :: xs) ↔ GoodRest (cur.setConnection c) xs := by
          simp [GoodRest, attrsOf_cons, connectionsOf_cons, SectionLine, Media.setConnection, hc]
        rw [restFault_cons g (by simp [connectionsOf, Media.setConnection])
          (by simp [SectionLineFault, connectionsOf]) (by simp [hc]), g]
        exact ih
    | media m =>
      rw [show List.takeWhile notMedia (⟨n, .media m, txt⟩ :: ls) = [] from rfl]
      rw [show sectionsOf (⟨n, .media m, txt⟩ :: ls) = (m, ls.takeWhile notMedia) :: sectionsOf ls from rfl]
      simp only [mediaLoop, ih, sectionsFault_cons, goodRest_nil, goodRest_new, true_and]
      simp [RestFault]
    | origin x => exact bad rfl (by simp [SectionLine]) (by simp [SectionLineFault]) (by simp)
    | session x => exact bad rfl (by simp [SectionLine]) (by simp [SectionLineFault]) (by simp)
    | timing x => exact bad rfl (by simp [SectionLine]) (by simp [SectionLineFault]) (by simp)
    | version x => exact bad rfl (by simp [SectionLine]) (by simp [SectionLineFault]) (by simp)

omit [Env] in
theorem checkRidFormats_fault {f : FormatList} {l : List UInt16} {e : ParserError} :
    checkRidFormats f l = .err e ↔ (∃ n ∈ l, formatDeclared f n = false) ∧
      e = .sequence c%"Rid pts must be declared in the media section" 0 := by
  induction l with
  | nil => simp [checkRidFormats]
  | cons n ns ih =>
    rw [checkRidFormats]
    by_cases h : formatDeclared f n = true
    · simp [h, ih]
    · rw [if_neg h]
      constructor
      · intro h'; cases h'; exact ⟨⟨n, by simp, by simpa using h⟩, rfl⟩
      · rintro ⟨-, rfl⟩; rfl

omit [Env] in
theorem checkDefinedRids_fault {ids : List Str} {l : List SimulcastId} {e : ParserError} :
    checkDefinedRids ids l = .err e ↔ (∃ i ∈ l, i.id ∉ ids) ∧
      e = .sequence c%"Simulcast RIDs must be defined in any rid attribute" 0 := by
  induction l with
  | nil => simp [checkDefinedRids]
  | cons n ns ih =>
    rw [checkDefinedRids]
    by_cases h : n.id ∈ ids
    · simp [h, ih]
    · rw [if_neg (by simpa using h)]
      constructor
      · intro h'; cases h'; exact ⟨⟨n, by simp, h⟩, rfl⟩
      · rintro ⟨-, rfl⟩; rfl

omit [Env] in
theorem checkMedia_fault {m : Media} {e : ParserError} :
    checkMedia m = .err e ↔ ∃ msg, MediaFault m msg ∧ e = .sequence msg 0 := by
  have hmux : ((m.getAttribute .rtcpMuxOnly).isSome = true ∧ (m.getAttribute .rtcpMux).isNone = true) ↔
      (Attribute.rtcpMuxOnly ∈ m.attrs ∧ Attribute.rtcpMux ∉ m.attrs) := by
    unfold Media.getAttribute
    rw [find_type_isSome, ← Option.not_isSome, Bool.not_eq_true', ← Bool.not_eq_true, find_type_isSome]
    simp [type_rtcpMux, type_rtcpMuxOnly]
  have hrid : (∃ n ∈ (mediaRids m).flatMap (fun r => r.formats), formatDeclared m.getFormats n = false) ↔
      ∃ r f, Attribute.rid r ∈ m.attrs ∧ f ∈ r.formats ∧ ¬ ListsFormat m.media.formats f.toNat := by
    simp only [List.mem_flatMap, mem_mediaRids, ← Bool.not_eq_true, formatDeclared_iff]
    constructor
    · rintro ⟨n, ⟨r, h1, h2⟩, h3⟩; exact ⟨r, n, h1, h2, h3⟩
    · rintro ⟨r, n, h1, h2, h3⟩; exact ⟨n, ⟨r, h1, h2⟩, h3⟩
  have hsim {d : SingleDirection} {vs : List SimulcastVersion} :
      (∃ i ∈ vs.flatMap (fun v : SimulcastVersion => v.ids), i.id ∉ ridsOfDirection d (mediaRids m)) ↔
      ¬ ∀ v ∈ vs, ∀ i ∈ v.ids, HasRid m d i.id := by
    simp only [List.mem_flatMap, mem_ridsOfDirection, not_forall]
    constructor
    · rintro ⟨i, ⟨v, h1, h2⟩, h3⟩; exact ⟨v, h1, i, h2, h3⟩
    · rintro ⟨v, h1, i, h2, h3⟩; exact ⟨i, ⟨v, h1, h2⟩, h3⟩
  have hsim' {d : SingleDirection} {vs : List SimulcastVersion} :
      checkDefinedRids (ridsOfDirection d (mediaRids m)) (vs.flatMap (fun v : SimulcastVersion => v.ids)) = .ok () ↔
      ∀ v ∈ vs, ∀ i ∈ v.ids, HasRid m d i.id := by
    rw [checkDefinedRids_ok]
    simp only [List.mem_flatMap, mem_ridsOfDirection]
    constructor
    · intro h v h1 i h2; exact h i ⟨v, h1, h2⟩
    · rintro h i ⟨v, h1, h2⟩; exact h v h1 i h2
  unfold checkMedia
  simp only [hmux]
  by_cases hx : Attribute.rtcpMuxOnly ∈ m.attrs ∧ Attribute.rtcpMux ∉ m.attrs
  · rw [if_pos hx]
    constructor
    · intro h; cases h; exact ⟨_, .mux hx.1 hx.2, rfl⟩
    · rintro ⟨msg, h, rfl⟩
      cases h with
      | mux => rfl
      | rid h => exact absurd (h hx.1) hx.2
      | simulcast h => exact absurd (h hx.1) hx.2
  · rw [if_neg hx]
    have hx' : Attribute.rtcpMuxOnly ∈ m.attrs → Attribute.rtcpMux ∈ m.attrs := fun h => by
      by_contra hc; exact hx ⟨h, hc⟩
    have rids : (∀ n ∈ (mediaRids m).flatMap (fun r => r.formats), formatDeclared m.getFormats n = true) ↔
        ∀ r, Attribute.rid r ∈ m.attrs → ∀ f ∈ r.formats, ListsFormat m.media.formats f.toNat := by
      simp only [List.mem_flatMap, mem_mediaRids, formatDeclared_iff]
      constructor
      · intro h r h1 f h2; exact h f ⟨r, h1, h2⟩
      · rintro h f ⟨r, h1, h2⟩; exact h r h1 f h2
    have tail : (match m.getAttribute .simulcast with
        | some (.simulcast sc) => (do
          checkDefinedRids (ridsOfDirection .recv (mediaRids m)) (sc.receive.flatMap (fun v : SimulcastVersion => v.ids))
          checkDefinedRids (ridsOfDirection .send (mediaRids m)) (sc.send.flatMap (fun v : SimulcastVersion => v.ids)) : Outcome ParserError Unit)
        | _ => return ()) = .err e ↔
        (∃ sc, FirstSimulcast m sc ∧ ¬ SimulcastDefined m sc) ∧
          e = .sequence c%"Simulcast RIDs must be defined in any rid attribute" 0 := by
      obtain ⟨g1, g2⟩ := getAttribute_simulcast (m := m)
      cases hg : m.getAttribute .simulcast with
      | none =>
        simp only [pure_eq_ok, reduceCtorEq, false_iff]
        rintro ⟨⟨sc, h, -⟩, -⟩
        rw [(g1 sc).2 h] at hg; simp at hg
      | some a =>
        obtain ⟨sc, rfl⟩ := g2 a hg
        have first : ∀ x, FirstSimulcast m x ↔ x = sc := by
          intro x
          rw [← g1 x, hg]
          simp [eq_comm]
        simp only [first, exists_eq_left, unit_bind_err, checkDefinedRids_fault, hsim, hsim', SimulcastDefined]
        constructor
        · rintro (⟨h1, h2⟩ | ⟨-, h1, h2⟩)
          · exact ⟨fun h => h1 h.2, h2⟩
          · exact ⟨fun h => h1 h.1, h2⟩
        · rintro ⟨h1, h2⟩
          by_cases hr : ∀ v ∈ sc.receive, ∀ i ∈ v.ids, HasRid m .recv i.id
          · exact .inr ⟨hr, fun h => h1 ⟨h, hr⟩, h2⟩
          · exact .inl ⟨hr, h2⟩
    rw [unit_bind_err, checkRidFormats_fault, hrid]
    refine Iff.trans (or_congr_right (and_congr (checkRidFormats_ok.trans rids) tail)) ?_
    constructor
    · rintro (⟨⟨r, f, h1, h2, h3⟩, rfl⟩ | ⟨h1, ⟨sc, h2, h3⟩, rfl⟩)
      · exact ⟨_, .rid hx' h1 h2 h3, rfl⟩
      · exact ⟨_, .simulcast hx' h1 h2 h3, rfl⟩
    · rintro ⟨msg, h, rfl⟩
      cases h with
      | mux h1 h2 => exact absurd (hx' h1) h2
      | rid _ h1 h2 h3 => exact .inl ⟨⟨_, _, h1, h2, h3⟩, rfl⟩
      | simulcast _ h1 h2 h3 => exact .inr ⟨h1, ⟨_, h2, h3⟩, rfl⟩

omit [Env] in
theorem checkMediaList_fault {l : List Media} {e : ParserError} : checkMediaList l = .err e ↔
    ∃ before m after, l = before ++ m :: after ∧ (∀ x ∈ before, ConsistentMedia x) ∧
      ∃ msg, MediaFault m msg ∧ e = .sequence msg 0 := by
  induction l with
  | nil => simp [checkMediaList]
  | cons m ms ih =>
    rw [checkMediaList, unit_bind_err, checkMedia_fault, checkMedia_ok]
    rw [first_cons (G := fun l => ∀ x ∈ l, ConsistentMedia x) (g := ConsistentMedia)
      (F := fun _ m => ∃ msg, MediaFault m msg ∧ e = .sequence msg 0) (by simp) (by simp), ← ih]

omit [Env] in
theorem sanityCheck_fault {s : Session} {e : ParserError} :
    sanityCheck s = .err e ↔ ∃ msg, Inconsistency s msg ∧ e = .sequence msg 0 := by
  have hx : ((s.getAttribute .extmap).isSome = true ∧
        s.media.any (fun m => (m.getAttribute .extmap).isSome) = true) ↔
      ((∃ e, Attribute.extmap e ∈ s.attrs) ∧ ∃ m ∈ s.media, ∃ e, Attribute.extmap e ∈ m.attrs) := by
    unfold Session.getAttribute Media.getAttribute
    simp only [List.any_eq_true, find_type_isSome, type_extmap]
    constructor
    · rintro ⟨⟨a, h1, x, rfl⟩, m, h2, b, h3, y, rfl⟩; exact ⟨⟨x, h1⟩, m, h2, y, h3⟩
    · rintro ⟨⟨x, h1⟩, m, h2, y, h3⟩; exact ⟨⟨_, h1, x, rfl⟩, m, h2, _, h3, y, rfl⟩
  have hc : ((!(s.media.all (fun m => m.getConnection.isSome))) = true ∧ s.getConnection.isNone = true) ↔
      (s.connection = none ∧ ∃ m ∈ s.media, m.connection = none) := by
    simp [Media.getConnection, Session.getConnection, and_comm]
  unfold sanityCheck
  by_cases h1 : s.timing = none
  · rw [if_pos (by simp [h1])]
    constructor
    · intro h; cases h; exact ⟨_, .timing h1, rfl⟩
    · rintro ⟨msg, h, rfl⟩
      cases h with
      | timing => rfl
      | connection h => exact absurd h1 h
      | extmap h => exact absurd h1 h
      | media h => exact absurd h1 h
  rw [if_neg (by simp [h1])]
  by_cases h2 : s.connection = none ∧ ∃ m ∈ s.media, m.connection = none
  · rw [if_pos (hc.2 h2)]
    have no : ¬ (s.connection ≠ none ∨ ∀ m ∈ s.media, m.connection ≠ none) := by
      obtain ⟨h2, m, h3, h4⟩ := h2
      rintro (h | h)
      · exact h h2
      · exact h m h3 h4
    constructor
    · intro h; cases h
      obtain ⟨h2, m, h3, h4⟩ := h2
      exact ⟨_, .connection h1 h2 h3 h4, rfl⟩
    · rintro ⟨msg, h, rfl⟩
      cases h with
      | timing h => exact absurd h h1
      | connection => rfl
      | extmap _ h => exact absurd h no
      | media _ h => exact absurd h no
  rw [if_neg (fun h => h2 (hc.1 h))]
  have h2' : s.connection ≠ none ∨ ∀ m ∈ s.media, m.connection ≠ none := by
    by_cases hn : s.connection = none
    · right; intro m hm hcm; exact h2 ⟨hn, m, hm, hcm⟩
    · exact .inl hn
  by_cases h3 : (∃ e, Attribute.extmap e ∈ s.attrs) ∧ ∃ m ∈ s.media, ∃ e, Attribute.extmap e ∈ m.attrs
  · rw [if_pos (hx.2 h3)]
    obtain ⟨⟨x, h3⟩, m, h4, y, h5⟩ := h3
    constructor
    · intro h; cases h
      exact ⟨_, .extmap h1 h2' h3 h4 h5, rfl⟩
    · rintro ⟨msg, h, rfl⟩
      cases h with
      | timing h => exact absurd h h1
      | connection _ g1 g2 g3 => exact absurd ⟨g1, _, g2, g3⟩ h2
      | extmap => rfl
      | media _ _ h => exact absurd h5 (h x y m h3 h4)
  rw [if_neg (fun h => h3 (hx.1 h)), checkMediaList_fault]
  have h3' : ∀ x y m, Attribute.extmap x ∈ s.attrs → m ∈ s.media → Attribute.extmap y ∉ m.attrs :=
    fun x y m g1 g2 g3 => h3 ⟨⟨x, g1⟩, m, g2, y, g3⟩
  constructor
  · rintro ⟨before, m, after, g1, g2, msg, g3, rfl⟩
    exact ⟨msg, .media h1 h2' h3' g1 g2 g3, rfl⟩
  · rintro ⟨msg, h, rfl⟩
    cases h with
    | timing h => exact absurd h h1
    | connection _ g1 g2 g3 => exact absurd ⟨g1, _, g2, g3⟩ h2
    | extmap _ _ g1 g2 g3 => exact absurd ⟨⟨_, g1⟩, _, g2, _, g3⟩ h3
    | media _ _ _ g1 g2 g3 => exact ⟨_, _, _, g1, g2, _, g3, rfl⟩

theorem finishSession_fault {v : UInt64} {o : Origin} {nm : Str} {rest : List SdpLine} {e : ParserError} :
    finishSession (Session.new v o nm) rest = .err e ↔
      (∃ pre l post, rest.takeWhile notMedia = pre ++ l :: post ∧ GoodSessionPart pre ∧
        ∃ m, SessionLineFault l m ∧ e = .sequence m l.lineNumber) ∨
      (GoodSessionPart (rest.takeWhile notMedia) ∧ SectionsFault (sectionsOf rest) e) ∨
      (GoodSessionPart (rest.takeWhile notMedia) ∧ (∀ p ∈ sectionsOf rest, GoodSection p.2) ∧
        ∃ msg, Inconsistency (assemble v o nm rest []) msg ∧ e = .sequence msg 0) := by
  have he : (withSessionPart (Session.new v o nm) (rest.takeWhile notMedia)).extendMedia
      ((sectionsOf rest).map sectionMedia) = assemble v o nm rest [] := by
    have hn : (trim nm).isEmpty = true ↔ Blank nm := trim_isEmpty
    simp [withSessionPart, Session.new, Session.extendMedia, assemble, hn]
  have hv := parseVector_fault (s := Session.new v o nm) (ls := rest.takeWhile notMedia) (e := e)
    (List.all_eq_true.1 List.all_takeWhile)
  have hok {s'} := parseVector_ok (s := Session.new v o nm) (ls := rest.takeWhile notMedia) (s' := s')
  rw [← hv]
  have hm := mediaPart_eq (ls := rest)
  have hms (e : ParserError) (hne : mediaPart rest ≠ []) : parseMediaVector (mediaPart rest) = .err e ↔ SectionsFault (sectionsOf rest) e := by
    rw [← sectionsOf_mediaPart]
    rcases mediaPart_nil_or rest with ⟨h, -⟩ | ⟨l, r, m, h, h'⟩
    · exact absurd h hne
    · obtain ⟨n, ty, txt⟩ := l
      simp only at h'; subst h'
      rw [h]
      simp only [parseMediaVector]
      rw [mediaLoop_fault, show sectionsOf (⟨n, .media m, txt⟩ :: r) = (m, r.takeWhile notMedia) :: sectionsOf r from rfl,
        sectionsFault_cons, goodRest_new]
  have hmo (ms : List Media) (hne : mediaPart rest ≠ []) : parseMediaVector (mediaPart rest) = .ok ms ↔
      (∀ p ∈ sectionsOf rest, GoodSection p.2) ∧ ms = (sectionsOf rest).map sectionMedia := by
    rw [parseMediaVector_ok, sectionsOf_mediaPart]
    rcases mediaPart_nil_or rest with ⟨h, -⟩ | ⟨l, r, m, h, h'⟩
    · exact absurd h hne
    · exact and_iff_right ⟨l, r, m, h, h'⟩
  unfold finishSession
  rw [bind_eq_err]
  have fin (s : Session) : (sanityCheck s >>= fun _ => (pure s : Outcome ParserError Session)) = .err e ↔
      ∃ msg, Inconsistency s msg ∧ e = .sequence msg 0 := by
    rw [bind_eq_err, sanityCheck_fault]; simp
  simp only [fin]
  cases hf : rest.findIdx? SdpLine.isMedia with
  | some p =>
    rw [hf] at hm
    simp only at hm
    obtain ⟨h1, h2, h3⟩ := hm
    simp only []
    rw [← h1, ← h2, sessionPart_eq]
    rcases hp : (Session.new v o nm).parseVector (rest.takeWhile notMedia) with ⟨s1, r⟩
    cases r with
    | ok u =>
      obtain ⟨g1, rfl⟩ := hok.1 hp
      simp only [bind_eq_err, bind_eq_ok, pure_eq_ok, hms _ h3, hmo _ h3, g1, true_and, reduceCtorEq, and_false, exists_const, or_false,
        Outcome.ok.injEq, Prod.mk.injEq, exists_false, false_or]
      constructor
      · rintro (h | ⟨s, ⟨ms, ⟨g2, rfl⟩, rfl⟩, h⟩)
        · exact .inl h
        · rw [he] at h; exact .inr ⟨g2, h⟩
      · rintro (h | ⟨g2, h⟩)
        · exact .inl h
        · exact .inr ⟨_, ⟨_, ⟨g2, rfl⟩, rfl⟩, by rw [he]; exact h⟩
    | err e' =>
      have ng : ¬ GoodSessionPart (rest.takeWhile notMedia) := fun h => by
        have := hok.2 ⟨h, rfl⟩; rw [hp] at this; simp at this
      simp [ng]
    | panic =>
      have ng : ¬ GoodSessionPart (rest.takeWhile notMedia) := fun h => by
        have := hok.2 ⟨h, rfl⟩; rw [hp] at this; simp at this
      simp [ng]
  | none =>
    rw [hf] at hm
    simp only at hm
    obtain ⟨h1, h2⟩ := hm
    have h4 : sectionsOf rest = [] := by rw [← sectionsOf_mediaPart, h2]; rfl
    rw [sessionPart_eq] at h1
    have nof : ¬ SectionsFault [] e := by simp [SectionsFault]
    simp only [h4, nof, and_false, false_or]
    rw [h4] at he
    rw [h1] at hv hok he ⊢
    rcases hp : (Session.new v o nm).parseVector rest with ⟨s1, r⟩
    cases r with
    | ok u =>
      obtain ⟨g1, rfl⟩ := hok.1 hp
      rw [← he]
      simp [g1, Session.extendMedia]
    | err e' =>
      have ng : ¬ GoodSessionPart rest := fun h => by
        have := hok.2 ⟨h, rfl⟩; rw [hp] at this; simp at this
      simp [ng]
    | panic =>
      have ng : ¬ GoodSessionPart rest := fun h => by
        have := hok.2 ⟨h, rfl⟩; rw [hp] at this; simp at this
      simp [ng]

end

end Sdp
