import Mathlib.Logic.Function.Iterate
import Verif.Props.Sections
import Verif.Lemmas.Sequence
import Verif.Spec.Vectors
import Verif.Spec.Sample
/-!
# C87: the parsers of line vectors, called directly
-/

namespace Sdp

section
variable [Env]

omit [Env] in
theorem withSessionPart_nil (s : Session) : withSessionPart s [] = s := by
  simp [withSessionPart, attrsOf, bandwidthsOf, timingsOf, connectionsOf]

omit [Env] in
theorem withSessionPart_cons (s : Session) (l : SdpLine) (ls : List SdpLine) :
    withSessionPart s (l :: ls) = withSessionPart (withSessionPart s [l]) ls :=
  withSessionPart_append s [l] ls

theorem goodSessionPart_one {l : SdpLine} : GoodSessionPart [l] ↔
    SessionLine l ∧ ∀ a, l.sdpType = .attr a → a.type ∉ mediaOnly :=
  (goodSessionPart_cons l []).trans ⟨And.left, fun h => ⟨h, goodSessionPart_nil⟩⟩

theorem vector_attr_bad (s : Session) (n : Nat) (a : Attribute) (t : Str) (ls : List SdpLine) (h : a.type ∈ mediaOnly) :
    s.parseVector (⟨n, .attr a, t⟩ :: ls) =
      (s, .err (.sequence (c%"Parsing error: " ++ (showAttribute a ++ c%" not allowed at session level")) n)) ∧
    s.parseVectorLeft (⟨n, .attr a, t⟩ :: ls) = ls := by
  have h' : a.allowedAtSessionLevel = false := by
    have := (allowedAtSessionLevel_iff a).1
    by_contra hc
    exact this (by simpa using hc) h
  simp [Session.parseVector, Session.parseVectorLeft, Session.addAttribute, h', egeneric, showInternalError]

theorem vector_attr_good (s : Session) (n : Nat) (a : Attribute) (t : Str) (ls : List SdpLine) (h : a.type ∉ mediaOnly) :
    s.parseVectorLeft (⟨n, .attr a, t⟩ :: ls) = (withSessionPart s [⟨n, .attr a, t⟩]).parseVectorLeft ls := by
  have h' : a.allowedAtSessionLevel = true := (allowedAtSessionLevel_iff a).2 h
  simp [Session.parseVectorLeft, Session.addAttribute, h', withSessionPart, attrsOf, bandwidthsOf, timingsOf,
    connectionsOf]

theorem vector_left_good {s : Session} {l : SdpLine} {ls : List SdpLine} (h : GoodSessionPart [l]) :
    s.parseVectorLeft (l :: ls) = (withSessionPart s [l]).parseVectorLeft ls := by
  rw [goodSessionPart_one] at h
  obtain ⟨n, ty, t⟩ := l
  cases ty with
  | attr a => exact vector_attr_good s n a t ls (h.2 a rfl)
  | bandwidth b => simp [Session.parseVectorLeft, withSessionPart, Session.addBandwidth, attrsOf, bandwidthsOf, timingsOf, connectionsOf]
  | connection b => simp [Session.parseVectorLeft, withSessionPart, Session.setConnection, attrsOf, bandwidthsOf, timingsOf, connectionsOf]
  | timing b => simp [Session.parseVectorLeft, withSessionPart, Session.setTiming, attrsOf, bandwidthsOf, timingsOf, connectionsOf]
  | media m => exact h.1.elim
  | origin m => exact h.1.elim
  | session m => exact h.1.elim
  | version m => exact h.1.elim

theorem vector_bad (s : Session) {l : SdpLine} (ls : List SdpLine) (h : ¬ GoodSessionPart [l]) :
    ∃ msg, DirectFault l msg ∧ s.parseVector (l :: ls) = (s, .err (.sequence msg l.lineNumber)) ∧
      s.parseVectorLeft (l :: ls) = ls := by
  rw [goodSessionPart_one] at h
  obtain ⟨n, ty, t⟩ := l
  cases ty with
  | attr a =>
    by_cases ha : a.type ∈ mediaOnly
    · exact ⟨_, .inl ⟨ha, rfl⟩, vector_attr_bad s n a t ls ha⟩
    · exact (h ⟨trivial, fun b hb => by cases hb; exact ha⟩).elim
  | bandwidth b => exact (h ⟨trivial, fun b hb => nomatch hb⟩).elim
  | connection b => exact (h ⟨trivial, fun b hb => nomatch hb⟩).elim
  | timing b => exact (h ⟨trivial, fun b hb => nomatch hb⟩).elim
  | media m => exact ⟨c%"media line not allowed in session parser", .inr ⟨m, rfl, rfl⟩, by simp [Session.parseVector], by simp [Session.parseVectorLeft]⟩
  | origin m => exact ⟨c%"version, origin or session at wrong level", .inl rfl, by simp [Session.parseVector], by simp [Session.parseVectorLeft]⟩
  | session m => exact ⟨c%"version, origin or session at wrong level", .inl rfl, by simp [Session.parseVector], by simp [Session.parseVectorLeft]⟩
  | version m => exact ⟨c%"version, origin or session at wrong level", .inl rfl, by simp [Session.parseVector], by simp [Session.parseVectorLeft]⟩

theorem directFault_unique {l : SdpLine} {a b : Str} (h : DirectFault l a) (k : DirectFault l b) : a = b := by
  obtain ⟨n, ty, t⟩ := l
  cases ty <;> simp [DirectFault, SessionLineFault] at h k
  all_goals simp_all

theorem directFault_bad {l : SdpLine} {a : Str} (h : DirectFault l a) : ¬ GoodSessionPart [l] := by
  rw [goodSessionPart_one]
  obtain ⟨n, ty, t⟩ := l
  cases ty <;> simp [DirectFault, SessionLineFault, SessionLine] at h ⊢
  exact h.1

theorem sessionVector_cons {s s' : Session} {l : SdpLine} {ls left : List SdpLine} {o : Outcome ParserError Unit}
    (h : GoodSessionPart [l]) (k : SessionVector (withSessionPart s [l]) ls s' left o) :
    SessionVector s (l :: ls) s' left o := by
  cases k with
  | all hg =>
    rw [← withSessionPart_cons]
    exact .all (GoodSessionPart.append (a := [l]).2 ⟨h, hg⟩)
  | @wrong pre post l' msg e hg hf =>
    rw [← withSessionPart_cons]
    exact .wrong (by rw [e]; rfl) (GoodSessionPart.append (a := [l]).2 ⟨h, hg⟩) hf

theorem sessionVector_holds (s : Session) (ls : List SdpLine) :
    SessionVector s ls (s.parseVector ls).1 (s.parseVectorLeft ls) (s.parseVector ls).2 := by
  induction ls generalizing s with
  | nil => have := SessionVector.all (s := s) goodSessionPart_nil; rwa [withSessionPart_nil] at this
  | cons l ls ih =>
    by_cases h : GoodSessionPart [l]
    · rw [parseVector_cons_good h, vector_left_good h]
      exact sessionVector_cons h (ih _)
    · obtain ⟨msg, hf, e1, e2⟩ := vector_bad s ls h
      rw [e1, e2]
      have := SessionVector.wrong (s := s) (ls := l :: ls) (pre := []) rfl goodSessionPart_nil hf
      rwa [withSessionPart_nil] at this

theorem vector_good_append {s : Session} {pre : List SdpLine} (rest : List SdpLine) (h : GoodSessionPart pre) :
    s.parseVector (pre ++ rest) = (withSessionPart s pre).parseVector rest ∧
    s.parseVectorLeft (pre ++ rest) = (withSessionPart s pre).parseVectorLeft rest := by
  induction pre generalizing s with
  | nil => rw [withSessionPart_nil]; exact ⟨rfl, rfl⟩
  | cons l pre ih =>
    obtain ⟨h1, h2⟩ := GoodSessionPart.append (a := [l]).1 h
    rw [withSessionPart_cons, List.cons_append, parseVector_cons_good h1, vector_left_good h1]
    exact ih h2

/-- **C87.** What `parse_session_vector` does to the session, leaves in the vector and returns, for every
session and every vector. -/
theorem C87_session_vector {s s' : Session} {ls left : List SdpLine} {o : Outcome ParserError Unit} :
    (s.parseVector ls = (s', o) ∧ s.parseVectorLeft ls = left) ↔ SessionVector s ls s' left o := by
  constructor
  · rintro ⟨h, rfl⟩
    have := sessionVector_holds s ls
    rwa [h] at this
  · intro h
    cases h with
    | all h =>
      have := vector_good_append (s := s) [] h
      rw [List.append_nil] at this
      exact this
    | @wrong pre _ l msg e hg hf =>
      subst e
      have := vector_good_append (s := s) (l :: left) hg
      obtain ⟨msg', h1, h2, h3⟩ := vector_bad (withSessionPart s pre) left (directFault_bad hf)
      rw [this.1, this.2, h2, h3, directFault_unique hf h1]
      exact ⟨rfl, rfl⟩

/-- One call on the session and the vector. -/
def vectorCall (p : Session × List SdpLine) : Session × List SdpLine :=
  ((p.1.parseVector p.2).1, p.1.parseVectorLeft p.2)

omit [Env] in
theorem goodLines_good {ls : List SdpLine} (h : GoodSessionPart ls) : goodLines ls = ls := by
  refine List.filter_eq_self.2 fun l hl => ?_
  have h1 := h.1 l hl
  obtain ⟨n, ty, t⟩ := l
  cases ty with
  | attr a =>
    have := h.2 a (List.mem_filterMap.2 ⟨_, hl, rfl⟩)
    simpa using this
  | bandwidth => rfl
  | connection => rfl
  | timing => rfl
  | media => exact h1.elim
  | origin => exact h1.elim
  | session => exact h1.elim
  | version => exact h1.elim

theorem goodLines_bad {pre post : List SdpLine} {l : SdpLine} {msg : Str} (h : GoodSessionPart pre)
    (hf : DirectFault l msg) : goodLines (pre ++ l :: post) = pre ++ goodLines post := by
  have e : goodLines (pre ++ l :: post) = goodLines pre ++ goodLines (l :: post) := List.filter_append ..
  rw [e, goodLines_good h]
  congr 1
  refine List.filter_cons_of_neg ?_
  obtain ⟨n, ty, t⟩ := l
  cases ty <;> simp [DirectFault, SessionLineFault] at hf ⊢
  exact hf.1

/-- **C87.** A caller that goes on with the lines left after every error gets a session that has taken over
exactly the good lines, in order, and the vector is empty: every call consumes at least one line. -/
theorem C87_session_vector_resumed (s : Session) (ls : List SdpLine) {n : Nat} (h : ls.length ≤ n) :
    vectorCall^[n] (s, ls) = (withSessionPart s (goodLines ls), []) := by
  induction n generalizing s ls with
  | zero =>
    obtain rfl : ls = [] := List.length_eq_zero_iff.1 (by omega)
    exact Prod.ext (withSessionPart_nil s).symm rfl
  | succ n ih =>
    rw [Function.iterate_succ_apply]
    have hv := sessionVector_holds s ls
    have e : vectorCall (s, ls) = ((s.parseVector ls).1, s.parseVectorLeft ls) := rfl
    generalize (s.parseVector ls).2 = o at hv
    rw [e]
    generalize (s.parseVector ls).1 = s' at *
    generalize s.parseVectorLeft ls = left at *
    cases hv with
    | all hg => rw [ih _ [] (by simp), goodLines_good hg]; simp [goodLines, withSessionPart_nil]
    | @wrong pre _ l msg e' hg hf =>
      subst e'
      rw [ih _ left (by simp at h; omega), goodLines_bad hg hf, withSessionPart_append]

/-- A line of a section either leads to another state of the loop, or ends it. -/
theorem section_step (done : List Media) (cur : Media) (l : SdpLine) :
    (∃ done' cur', ∀ xs, mediaLoop done cur (l :: xs) = mediaLoop done' cur' xs ∧
      mediaLoopLeft cur (l :: xs) = mediaLoopLeft cur' xs) ∨
    (∃ msg, SectionFault cur l msg ∧ ∀ xs, mediaLoop done cur (l :: xs) = .err (.sequence msg l.lineNumber) ∧
      mediaLoopLeft cur (l :: xs) = xs) := by
  obtain ⟨n, ty, t⟩ := l
  cases ty with
  | attr a =>
    by_cases ha : isDtls a = false ∧ a.type ∈ sessionOnly
    · refine .inr ⟨c%"Parsing error: " ++ (showAttribute a ++ c%" not allowed at media level"),
        ⟨ha.1, ha.2, rfl⟩, fun xs => ?_⟩
      simp only [mediaLoop, mediaLoopLeft, mediaAttrLine_error ha.1 ha.2, showInternalError]
      exact ⟨trivial, trivial⟩
    · rcases mediaAttrLine_eq cur a with ⟨h1, h2⟩ | ⟨h1, h2, h3⟩ | ⟨h1, h2, -⟩
      · exact .inl ⟨_, _, fun xs => by simp only [mediaLoop, mediaLoopLeft, h2]; exact ⟨rfl, rfl⟩⟩
      · exact .inl ⟨_, _, fun xs => by simp only [mediaLoop, mediaLoopLeft, h3]; exact ⟨rfl, rfl⟩⟩
      · exact absurd ⟨h1, h2⟩ ha
  | connection c =>
    cases hc : cur.connection with
    | some c' =>
      refine .inr ⟨c%"connection type already exists at this media level", ⟨by simp [hc], rfl⟩, fun xs => ?_⟩
      simp [mediaLoop, mediaLoopLeft, hc]
    | none => exact .inl ⟨_, _, fun xs => by simp only [mediaLoop, mediaLoopLeft, hc]; exact ⟨rfl, rfl⟩⟩
  | bandwidth b => exact .inl ⟨_, _, fun xs => by simp only [mediaLoop, mediaLoopLeft]; exact ⟨rfl, rfl⟩⟩
  | media m => exact .inl ⟨_, _, fun xs => by simp only [mediaLoop, mediaLoopLeft]; exact ⟨rfl, rfl⟩⟩
  | timing m => exact .inr ⟨c%"invalid type in media section", rfl, fun xs => by simp only [mediaLoop, mediaLoopLeft]; exact ⟨trivial, trivial⟩⟩
  | origin m => exact .inr ⟨c%"invalid type in media section", rfl, fun xs => by simp only [mediaLoop, mediaLoopLeft]; exact ⟨trivial, trivial⟩⟩
  | session m => exact .inr ⟨c%"invalid type in media section", rfl, fun xs => by simp only [mediaLoop, mediaLoopLeft]; exact ⟨trivial, trivial⟩⟩
  | version m => exact .inr ⟨c%"invalid type in media section", rfl, fun xs => by simp only [mediaLoop, mediaLoopLeft]; exact ⟨trivial, trivial⟩⟩

theorem mediaLoop_prefix {done : List Media} {cur : Media} {pre : List SdpLine} {ms : List Media}
    (h : mediaLoop done cur pre = .ok ms) :
    ∃ done' cur', ms = done' ++ [cur'] ∧ ∀ rest, mediaLoop done cur (pre ++ rest) = mediaLoop done' cur' rest ∧
      mediaLoopLeft cur (pre ++ rest) = mediaLoopLeft cur' rest := by
  induction pre generalizing done cur with
  | nil => exact ⟨done, cur, (Outcome.ok.inj h).symm, fun _ => ⟨rfl, rfl⟩⟩
  | cons l pre ih =>
    rcases section_step done cur l with ⟨done', cur', k⟩ | ⟨msg, -, k⟩
    · rw [(k pre).1] at h
      obtain ⟨d, c, e, r⟩ := ih h
      exact ⟨d, c, e, fun rest => by rw [List.cons_append, (k _).1, (k _).2]; exact r rest⟩
    · rw [(k pre).1] at h
      exact absurd h (by simp)

theorem mediaLoop_cases (done : List Media) (cur : Media) (ls : List SdpLine) :
    (∃ ms, mediaLoop done cur ls = .ok ms ∧ mediaLoopLeft cur ls = []) ∨
    ∃ pre l post done' cur' msg, ls = pre ++ l :: post ∧ mediaLoop done cur pre = .ok (done' ++ [cur']) ∧
      SectionFault cur' l msg ∧ mediaLoop done cur ls = .err (.sequence msg l.lineNumber) ∧
      mediaLoopLeft cur ls = post := by
  induction ls generalizing done cur with
  | nil => exact .inl ⟨_, rfl, rfl⟩
  | cons l ls ih =>
    rcases section_step done cur l with ⟨done', cur', k⟩ | ⟨msg, hf, k⟩
    · rcases ih done' cur' with ⟨ms, h1, h2⟩ | ⟨pre, b, post, d, c, msg, e, h1, h2, h3, h4⟩
      · exact .inl ⟨ms, (k _).1.trans h1, (k _).2.trans h2⟩
      · exact .inr ⟨l :: pre, b, post, d, c, msg, by rw [e]; rfl, (k _).1.trans h1, h2, (k _).1.trans h3, (k _).2.trans h4⟩
    · exact .inr ⟨[], l, ls, done, cur, msg, rfl, rfl, hf, (k _).1, (k _).2⟩

theorem goodSections_iff {ls : List SdpLine} : GoodSections ls ↔
    parseMediaVector ls = .ok ((sectionsOf ls).map sectionMedia) :=
  (C10_parse_media_vector_iff.trans ⟨fun ⟨a, b, _⟩ => ⟨a, b⟩, fun ⟨a, b⟩ => ⟨a, b, rfl⟩⟩).symm

omit [Env] in
theorem isMedia_dec (l : SdpLine) : (∃ m, l.sdpType = .media m) ∨ ∀ m, l.sdpType ≠ .media m := by
  by_cases h : ∃ m, l.sdpType = .media m
  · exact .inl h
  · exact .inr fun m hm => h ⟨m, hm⟩

theorem mediaVector_first {l : SdpLine} {ls : List SdpLine} (h : ∀ m, l.sdpType ≠ .media m) :
    parseMediaVector (l :: ls) =
      .err (.sequence c%"first line in media section needs to be a media line" l.lineNumber) ∧
    parseMediaVectorLeft (l :: ls) = ls := by
  obtain ⟨n, ty, t⟩ := l
  cases ty with
  | media m => exact absurd rfl (h m)
  | _ => simp only [parseMediaVector, parseMediaVectorLeft]; exact ⟨trivial, trivial⟩

theorem mediaVector_media {l : SdpLine} {m : MediaLine} (ls : List SdpLine) (h : l.sdpType = .media m) :
    parseMediaVector (l :: ls) = mediaLoop [] (Media.new m) ls ∧
    parseMediaVectorLeft (l :: ls) = mediaLoopLeft (Media.new m) ls := by
  simp only [parseMediaVector, parseMediaVectorLeft, h]; exact ⟨trivial, trivial⟩

theorem mediaVector_holds (ls : List SdpLine) : MediaVector ls (parseMediaVectorLeft ls) (parseMediaVector ls) := by
  cases ls with
  | nil => exact .empty rfl
  | cons l ls =>
    rcases isMedia_dec l with ⟨m, h⟩ | h
    · have e := mediaVector_media ls h
      rcases mediaLoop_cases [] (Media.new m) ls with ⟨ms, h1, h2⟩ | ⟨pre, b, post, d, c, msg, e', h1, h2, h3, h4⟩
      · have hok := e.1.trans h1
        have := C10_parse_media_vector_iff.1 hok
        rw [hok, e.2.trans h2, this.2.2]
        exact .all ⟨this.1, this.2.1⟩
      · rw [e.1.trans h3, e.2.trans h4]
        have hok := (mediaVector_media pre h).1.trans h1
        have := C10_parse_media_vector_iff.1 hok
        exact .wrong (pre := l :: pre) (by rw [e']; rfl) ⟨this.1, this.2.1⟩ (by rw [← this.2.2]; simp) h2
    · rw [(mediaVector_first h).1, (mediaVector_first h).2]
      exact .first rfl h

theorem sectionFault_unique {m : Media} {l : SdpLine} {a b : Str} (h : SectionFault m l a) (k : SectionFault m l b) :
    a = b := by
  obtain ⟨n, ty, t⟩ := l
  cases ty <;> simp [SectionFault] at h k
  all_goals simp_all

/-- The loop ends at a line that cannot be added. -/
theorem section_fault (done : List Media) {cur : Media} {l : SdpLine} {msg : Str} (h : SectionFault cur l msg) (xs : List SdpLine) :
    mediaLoop done cur (l :: xs) = .err (.sequence msg l.lineNumber) ∧ mediaLoopLeft cur (l :: xs) = xs := by
  obtain ⟨n, ty, t⟩ := l
  cases ty with
  | attr a =>
    obtain ⟨h1, h2, rfl⟩ := h
    simp only [mediaLoop, mediaLoopLeft, mediaAttrLine_error h1 h2, showInternalError]; exact ⟨trivial, trivial⟩
  | connection c =>
    obtain ⟨h1, rfl⟩ := h
    have : cur.connection.isSome = true := Option.isSome_iff_ne_none.2 h1
    simp [mediaLoop, mediaLoopLeft, this]
  | bandwidth b => exact h.elim
  | media b => exact h.elim
  | timing b => cases (h : msg = _); simp only [mediaLoop, mediaLoopLeft]; exact ⟨trivial, trivial⟩
  | origin b => cases (h : msg = _); simp only [mediaLoop, mediaLoopLeft]; exact ⟨trivial, trivial⟩
  | session b => cases (h : msg = _); simp only [mediaLoop, mediaLoopLeft]; exact ⟨trivial, trivial⟩
  | version b => cases (h : msg = _); simp only [mediaLoop, mediaLoopLeft]; exact ⟨trivial, trivial⟩

/-- **C87.** What `parse_media_vector` returns and leaves in the vector, for every vector. -/
theorem C87_media_vector {ls left : List SdpLine} {o : Outcome ParserError (List Media)} :
    (parseMediaVector ls = o ∧ parseMediaVectorLeft ls = left) ↔ MediaVector ls left o := by
  constructor
  · rintro ⟨rfl, rfl⟩; exact mediaVector_holds ls
  · intro h
    cases h with
    | empty h => subst h; exact ⟨rfl, rfl⟩
    | all h =>
      have hp := goodSections_iff.1 h
      refine ⟨hp, ?_⟩
      obtain ⟨⟨l, rest, m, rfl, hm⟩, -⟩ := h
      rw [(mediaVector_media rest hm).1] at hp
      rw [(mediaVector_media rest hm).2]
      obtain ⟨d, c, -, r⟩ := mediaLoop_prefix hp
      have := (r []).2
      rw [List.append_nil] at this
      exact this
    | first e h => subst e; exact mediaVector_first h
    | @wrong pre _ l m msg e hg hl hf =>
      subst e
      have hp := goodSections_iff.1 hg
      obtain ⟨⟨l0, rest, m0, rfl, hm⟩, -⟩ := hg
      rw [(mediaVector_media rest hm).1] at hp
      rw [List.cons_append, (mediaVector_media _ hm).1, (mediaVector_media _ hm).2]
      obtain ⟨d, c, e, r⟩ := mediaLoop_prefix hp
      rw [e] at hl
      obtain rfl : c = m := by simpa using hl
      rw [(r _).1, (r _).2]
      exact section_fault d hf left

end

section
attribute [local instance] sampleEnv

/-- A session part with a media-level attribute and an m= line between good lines. -/
def sampleVector : List SdpLine :=
  [⟨3, .attr .sendrecv, []⟩, ⟨4, .attr (.mid c%"1"), []⟩, ⟨5, .bandwidth (.as 5), []⟩,
   ⟨6, .media ⟨.audio, 9, 0, .rtpSavpf, .integers [0]⟩, []⟩, ⟨7, .attr .iceLite, []⟩]

def sampleTarget : Session := Session.new 0 ⟨c%"-", 1, 2, .ip (.v4 0)⟩ c%"-"

example : sampleTarget.parseVector sampleVector = ({ sampleTarget with attrs := [.sendrecv] },
      .err (.sequence c%"Parsing error: mid:1 not allowed at session level" 4)) ∧
    sampleTarget.parseVectorLeft sampleVector = sampleVector.drop 2 := by decide +kernel

example : vectorCall^[3] (sampleTarget, sampleVector) =
    ({ sampleTarget with attrs := [.sendrecv, .iceLite], bandwidth := [.as 5] }, []) := by decide +kernel

example : parseMediaVector (sampleMediaLines ++ [⟨11, .connection ⟨.ip (.v4 1), none, none⟩, []⟩, ⟨12, .attr .recvonly, []⟩]) =
      .err (.sequence c%"connection type already exists at this media level" 11) ∧
    parseMediaVectorLeft (sampleMediaLines ++ [⟨11, .connection ⟨.ip (.v4 1), none, none⟩, []⟩, ⟨12, .attr .recvonly, []⟩]) =
      [⟨12, .attr .recvonly, []⟩] := by decide +kernel

end

end Sdp
