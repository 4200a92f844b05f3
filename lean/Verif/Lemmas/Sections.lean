import Verif.Spec.Sections
import Verif.Lemmas.Scan
/-!
# The section loops compute the specified sections
-/

namespace Sdp

theorem allowedAtMediaLevel_iff (a : Attribute) : a.allowedAtMediaLevel = true ↔ a.type ∉ sessionOnly := by
  cases a <;> simp [Attribute.allowedAtMediaLevel, Attribute.type, sessionOnly]

theorem allowedAtSessionLevel_iff (a : Attribute) : a.allowedAtSessionLevel = true ↔ a.type ∉ mediaOnly := by
  cases a <;> simp [Attribute.allowedAtSessionLevel, Attribute.type, mediaOnly]

theorem notMedia_eq (l : SdpLine) : notMedia l = !l.isMedia := by
  unfold notMedia SdpLine.isMedia; cases l.sdpType <;> rfl

section
variable {l : SdpLine} {ls : List SdpLine}
theorem attrsOf_cons : attrsOf (l :: ls) =
    (match l.sdpType with | .attr a => [a] | _ => []) ++ attrsOf ls := by
  unfold attrsOf; rw [List.filterMap_cons]; cases l.sdpType <;> rfl
theorem bandwidthsOf_cons : bandwidthsOf (l :: ls) =
    (match l.sdpType with | .bandwidth a => [a] | _ => []) ++ bandwidthsOf ls := by
  unfold bandwidthsOf; rw [List.filterMap_cons]; cases l.sdpType <;> rfl
theorem connectionsOf_cons : connectionsOf (l :: ls) =
    (match l.sdpType with | .connection a => [a] | _ => []) ++ connectionsOf ls := by
  unfold connectionsOf; rw [List.filterMap_cons]; cases l.sdpType <;> rfl
theorem timingsOf_cons : timingsOf (l :: ls) =
    (match l.sdpType with | .timing a => [a] | _ => []) ++ timingsOf ls := by
  unfold timingsOf; rw [List.filterMap_cons]; cases l.sdpType <;> rfl
end

/-- A section in progress, extended by the lines up to the next m= line. -/
def extendSection (cur : Media) (ls : List SdpLine) : Media where
  media := cur.media
  connection := cur.connection.or (connectionsOf ls).head?
  bandwidth := cur.bandwidth ++ bandwidthsOf ls
  attrs := cur.attrs ++ (attrsOf ls).filter (fun a => !isDtls a)

/-- The lines may follow the section in progress. -/
def GoodRest (cur : Media) (ls : List SdpLine) : Prop :=
  (∀ l ∈ ls, SectionLine l) ∧
  (connectionsOf ls).length + (if cur.connection.isSome then 1 else 0) ≤ 1 ∧
  ∀ a ∈ attrsOf ls, isDtls a = true ∨ a.type ∉ sessionOnly

variable [Env]

theorem mediaAttrLine_eq (m : Media) (a : Attribute) :
    (isDtls a = true ∧ mediaAttrLine m a = (m, .ok ())) ∨
    (isDtls a = false ∧ a.type ∉ sessionOnly ∧
      mediaAttrLine m a = ({ m with attrs := m.attrs ++ [a] }, .ok ())) ∨
    (isDtls a = false ∧ a.type ∈ sessionOnly ∧ ∃ e, mediaAttrLine m a = (m, .err e)) := by
  have key : (a.type ∉ sessionOnly ∧ m.addAttribute a = ({ m with attrs := m.attrs ++ [a] }, .ok ())) ∨
      (a.type ∈ sessionOnly ∧ ∃ e, m.addAttribute a = (m, .err e)) := by
    unfold Media.addAttribute
    have := allowedAtMediaLevel_iff a
    by_cases h : a.allowedAtMediaLevel = true
    · left; exact ⟨this.1 h, by simp [h]⟩
    · right; refine ⟨by by_contra hc; exact h (this.2 hc), _, by rw [if_pos (by simpa using h)]; rfl⟩
  by_cases h : isDtls a = true
  · left; refine ⟨h, ?_⟩; cases a <;> simp [isDtls] at h; rfl
  · right
    have h' : isDtls a = false := by simpa using h
    have h2 : mediaAttrLine m a = m.addAttribute a := by
      cases a <;> first | rfl | simp [isDtls] at h
    rw [h2]
    rcases key with ⟨k1, k2⟩ | ⟨k1, k2⟩
    · left; exact ⟨h', k1, k2⟩
    · right; exact ⟨h', k1, k2⟩

theorem mediaLoop_ok {done : List Media} {cur : Media} {ls : List SdpLine} {ms : List Media} :
    mediaLoop done cur ls = .ok ms ↔
      GoodRest cur (ls.takeWhile notMedia) ∧ (∀ p ∈ sectionsOf ls, GoodSection p.2) ∧
      ms = done ++ extendSection cur (ls.takeWhile notMedia) :: (sectionsOf ls).map sectionMedia := by
  induction ls generalizing done cur with
  | nil =>
    have : GoodRest cur [] := ⟨by simp, by simp [connectionsOf]; split <;> omega, by simp [attrsOf]⟩
    simp only [mediaLoop, sectionsOf, extendSection, attrsOf, connectionsOf, bandwidthsOf]
    simp [eq_comm, this]
  | cons l ls ih =>
    obtain ⟨n, ty, txt⟩ := l
    cases ty with
    | attr a =>
      rw [show List.takeWhile notMedia (⟨n, .attr a, txt⟩ :: ls) = ⟨n, .attr a, txt⟩ :: List.takeWhile notMedia ls from rfl]
      rw [show sectionsOf (⟨n, .attr a, txt⟩ :: ls) = sectionsOf ls from rfl]
      simp only [mediaLoop]
      rcases mediaAttrLine_eq cur a with ⟨h1, h2⟩ | ⟨h1, h2, h3⟩ | ⟨h1, h2, e, h3⟩
      · rw [h2]; simp only [ih]
        simp [GoodRest, extendSection, attrsOf_cons, connectionsOf_cons, bandwidthsOf_cons, SectionLine, h1]
      · rw [h3]; simp only [ih]
        simp [GoodRest, extendSection, attrsOf_cons, connectionsOf_cons, bandwidthsOf_cons, SectionLine, h1, h2]
      · rw [h3]
        simp [GoodRest, attrsOf_cons, h1, h2]
    | bandwidth b =>
      rw [show List.takeWhile notMedia (⟨n, .bandwidth b, txt⟩ :: ls) = ⟨n, .bandwidth b, txt⟩ :: List.takeWhile notMedia ls from rfl]
      rw [show sectionsOf (⟨n, .bandwidth b, txt⟩ :: ls) = sectionsOf ls from rfl]
      simp only [mediaLoop, ih]
      simp [GoodRest, extendSection, attrsOf_cons, connectionsOf_cons, bandwidthsOf_cons, SectionLine,
        Media.addBandwidth]
      exact fun _ _ _ _ => Iff.rfl
    | connection c =>
      rw [show List.takeWhile notMedia (⟨n, .connection c, txt⟩ :: ls) = ⟨n, .connection c, txt⟩ :: List.takeWhile notMedia ls from rfl]
      rw [show sectionsOf (⟨n, .connection c, txt⟩ :: ls) = sectionsOf ls from rfl]
      simp only [mediaLoop]
      cases hc : cur.connection with
      | some c' =>
        simp [GoodRest, connectionsOf_cons, hc]
      | none =>
        simp only [Option.isSome_none, Bool.false_eq_true, if_false, ih]
        simp [GoodRest, extendSection, attrsOf_cons, connectionsOf_cons, bandwidthsOf_cons, SectionLine,
          Media.setConnection, hc]
    | media m =>
      rw [show List.takeWhile notMedia (⟨n, .media m, txt⟩ :: ls) = [] from rfl]
      rw [show sectionsOf (⟨n, .media m, txt⟩ :: ls) = (m, ls.takeWhile notMedia) :: sectionsOf ls from rfl]
      simp only [mediaLoop, ih]
      have h1 : GoodRest cur [] := ⟨by simp, by simp [connectionsOf]; split <;> omega, by simp [attrsOf]⟩
      have h2 : extendSection cur [] = cur := by
        simp [extendSection, connectionsOf, bandwidthsOf, attrsOf]
      have h3 : extendSection (Media.new m) (ls.takeWhile notMedia) = sectionMedia (m, ls.takeWhile notMedia) := by
        simp [extendSection, sectionMedia, Media.new]
      have h4 : GoodRest (Media.new m) (ls.takeWhile notMedia) ↔ GoodSection (ls.takeWhile notMedia) :=
        ⟨fun ⟨a, b, c⟩ => ⟨a, by simpa [Media.new] using b, c⟩, fun ⟨a, b, c⟩ => ⟨a, by simpa [Media.new] using b, c⟩⟩
      rw [h2, h3, h4]
      simp [h1, and_assoc]
    | origin x =>
      simp only [mediaLoop, reduceCtorEq, false_iff]
      exact fun h => h.1.1 ⟨n, .origin x, txt⟩ (List.mem_cons_self ..)
    | session x =>
      simp only [mediaLoop, reduceCtorEq, false_iff]
      exact fun h => h.1.1 ⟨n, .session x, txt⟩ (List.mem_cons_self ..)
    | timing x =>
      simp only [mediaLoop, reduceCtorEq, false_iff]
      exact fun h => h.1.1 ⟨n, .timing x, txt⟩ (List.mem_cons_self ..)
    | version x =>
      simp only [mediaLoop, reduceCtorEq, false_iff]
      exact fun h => h.1.1 ⟨n, .version x, txt⟩ (List.mem_cons_self ..)

theorem parseMediaVector_ok {ls : List SdpLine} {ms : List Media} :
    parseMediaVector ls = .ok ms ↔
      (∃ l rest m, ls = l :: rest ∧ l.sdpType = .media m) ∧ (∀ p ∈ sectionsOf ls, GoodSection p.2) ∧
      ms = (sectionsOf ls).map sectionMedia := by
  cases ls with
  | nil => simp [parseMediaVector]
  | cons l rest =>
    obtain ⟨n, ty, txt⟩ := l
    cases ty with
    | media m =>
      have := mediaLoop_ok (done := []) (cur := Media.new m) (ls := rest) (ms := ms)
      simp only [parseMediaVector, this]
      rw [show sectionsOf (⟨n, .media m, txt⟩ :: rest) = (m, rest.takeWhile notMedia) :: sectionsOf rest from rfl]
      have h3 : extendSection (Media.new m) (rest.takeWhile notMedia) = sectionMedia (m, rest.takeWhile notMedia) := by
        simp [extendSection, sectionMedia, Media.new]
      have h4 : GoodRest (Media.new m) (rest.takeWhile notMedia) ↔ GoodSection (rest.takeWhile notMedia) :=
        ⟨fun ⟨a, b, c⟩ => ⟨a, by simpa [Media.new] using b, c⟩, fun ⟨a, b, c⟩ => ⟨a, by simpa [Media.new] using b, c⟩⟩
      rw [h3, h4]
      simp [and_assoc]
    | _ => simp [parseMediaVector]

theorem parseVector_ok {s s' : Session} {ls : List SdpLine} :
    s.parseVector ls = (s', .ok ()) ↔ GoodSessionPart ls ∧ s' = withSessionPart s ls := by
  induction ls generalizing s with
  | nil =>
    have : GoodSessionPart [] := ⟨by simp, by simp [attrsOf]⟩
    simp [Session.parseVector, this, withSessionPart, attrsOf, bandwidthsOf, timingsOf, connectionsOf, eq_comm]
  | cons l ls ih =>
    have cons (x : SdpLine) : GoodSessionPart (x :: ls) ↔
        SessionLine x ∧ (∀ a, x.sdpType = .attr a → a.type ∉ mediaOnly) ∧ GoodSessionPart ls := by
      constructor
      · rintro ⟨a, b⟩
        rw [attrsOf_cons] at b
        refine ⟨a x (by simp), fun y hy => b y (by simp [hy]), fun y hy => a y (by simp [hy]), fun y hy => b y (by simp [hy])⟩
      · rintro ⟨a, b, c, d⟩
        refine ⟨by simp; exact ⟨a, c⟩, ?_⟩
        rw [attrsOf_cons]
        intro y hy
        simp only [List.mem_append] at hy
        rcases hy with hy | hy
        · split at hy
          · rename_i z hz; simp at hy; subst hy; exact b _ hz
          · simp at hy
        · exact d y hy
    rw [cons]
    obtain ⟨n, ty, txt⟩ := l
    cases ty with
    | attr a =>
      simp only [Session.parseVector, Session.addAttribute]
      have := allowedAtSessionLevel_iff a
      by_cases h : a.allowedAtSessionLevel = true
      · simp only [h, Bool.not_true, Bool.false_eq_true, if_false, ih]
        simp [SessionLine, withSessionPart, attrsOf_cons, bandwidthsOf_cons, timingsOf_cons, connectionsOf_cons,
          this.1 h]
      · have hm : a.type ∈ mediaOnly := by by_contra hc; exact h (this.2 hc)
        simp [h, egeneric, hm]
    | bandwidth b =>
      simp only [Session.parseVector, ih]
      simp [SessionLine, withSessionPart, attrsOf_cons, bandwidthsOf_cons, timingsOf_cons, connectionsOf_cons,
        Session.addBandwidth]
    | timing t =>
      simp only [Session.parseVector, ih]
      simp [SessionLine, withSessionPart, attrsOf_cons, bandwidthsOf_cons, timingsOf_cons, connectionsOf_cons,
        Session.setTiming, List.getLast?_cons]
    | connection c =>
      simp only [Session.parseVector, ih]
      simp [SessionLine, withSessionPart, attrsOf_cons, bandwidthsOf_cons, timingsOf_cons, connectionsOf_cons,
        Session.setConnection, List.getLast?_cons]
    | _ => simp [Session.parseVector, SessionLine]

end Sdp
