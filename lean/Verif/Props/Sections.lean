import Verif.Spec.Sample
import Verif.Lemmas.Consistent
/-!
# C10, C11: how lines become sections
-/

namespace Sdp

/-- **C10.** `parse_media_vector` succeeds exactly when the list starts with an m= line and every
section is fine; the result has one section per m= line, in order, with exactly the lines up to the
next m= line. -/
theorem C10_parse_media_vector_iff [Env] {ls : List SdpLine} {ms : List Media} :
    parseMediaVector ls = .ok ms ↔
      (∃ l rest m, ls = l :: rest ∧ l.sdpType = .media m) ∧ (∀ p ∈ sectionsOf ls, GoodSection p.2) ∧
      ms = (sectionsOf ls).map sectionMedia := parseMediaVector_ok

/-- A list of lines with two sections, a dtls-message and a c= line. -/
def sampleMediaLines : List SdpLine :=
  [⟨4, .media ⟨.audio, 9, 0, .rtpSavpf, .integers [0]⟩, []⟩, ⟨5, .attr .sendrecv, []⟩,
   ⟨6, .attr (.dtlsMessage (.client c%"x")), []⟩,
   ⟨7, .media ⟨.video, 9, 0, .rtpSavpf, .integers [120]⟩, []⟩,
   ⟨8, .connection ⟨.ip (.v4 1), none, none⟩, []⟩, ⟨9, .bandwidth (.as 5), []⟩, ⟨10, .attr (.mid c%"1"), []⟩]

example : letI := sampleEnv; parseMediaVector sampleMediaLines = .ok
    [⟨⟨.audio, 9, 0, .rtpSavpf, .integers [0]⟩, none, [], [.sendrecv]⟩,
     ⟨⟨.video, 9, 0, .rtpSavpf, .integers [120]⟩, some ⟨.ip (.v4 1), none, none⟩, [.as 5], [.mid c%"1"]⟩] := by
  decide +kernel

/-- **C10.** Nothing is lost or duplicated: the m= lines of the sections are the m= lines of the
list. -/
theorem C10_media_lines [Env] {ls : List SdpLine} {ms : List Media} (h : parseMediaVector ls = .ok ms) :
    ms.map (fun m => m.media) =
      ls.filterMap (fun l => match l.sdpType with | .media m => some m | _ => none) := by
  obtain ⟨h1, h2, rfl⟩ := parseMediaVector_ok.1 h
  rw [List.map_map]
  clear h h1 h2
  induction ls with
  | nil => rfl
  | cons l ls ih =>
    obtain ⟨n, ty, t⟩ := l
    rw [List.filterMap_cons]
    cases ty with
    | media m =>
      rw [show sectionsOf (⟨n, .media m, t⟩ :: ls) = (m, ls.takeWhile notMedia) :: sectionsOf ls from rfl]
      simp only [List.map_cons, ih]
      rfl
    | _ => exact ih

/-- **C11.** `parse_session_vector` succeeds exactly on a=, b=, c=, t= lines without media-level
attributes, and then only adds what they say. -/
theorem C11_parse_session_vector_iff [Env] {s s' : Session} {ls : List SdpLine} :
    s.parseVector ls = (s', .ok ()) ↔ GoodSessionPart ls ∧ s' = withSessionPart s ls := parseVector_ok

theorem GoodSessionPart.append {a b : List SdpLine} :
    GoodSessionPart (a ++ b) ↔ GoodSessionPart a ∧ GoodSessionPart b := by
  have : attrsOf (a ++ b) = attrsOf a ++ attrsOf b := List.filterMap_append
  constructor
  · rintro ⟨h1, h2⟩
    rw [this] at h2
    exact ⟨⟨fun l hl => h1 l (by simp [hl]), fun l hl => h2 l (by simp [hl])⟩,
      ⟨fun l hl => h1 l (by simp [hl]), fun l hl => h2 l (by simp [hl])⟩⟩
  · rintro ⟨⟨h1, h2⟩, h3, h4⟩
    refine ⟨fun l hl => ?_, fun l hl => ?_⟩
    · rcases List.mem_append.1 hl with h | h
      · exact h1 l h
      · exact h3 l h
    · rw [this] at hl
      rcases List.mem_append.1 hl with h | h
      · exact h2 l h
      · exact h4 l h

theorem withSessionPart_append (s : Session) (a b : List SdpLine) :
    withSessionPart s (a ++ b) = withSessionPart (withSessionPart s a) b := by
  simp [withSessionPart, attrsOf, bandwidthsOf, timingsOf, connectionsOf, List.filterMap_append,
    List.getLast?_append, Option.or_assoc]

theorem parseVector_cons_good [Env] {s : Session} {l : SdpLine} {ls : List SdpLine} (h : GoodSessionPart [l]) :
    s.parseVector (l :: ls) = (withSessionPart s [l]).parseVector ls := by
  have := parseVector_ok.2 ⟨h, (rfl : withSessionPart s [l] = _)⟩
  obtain ⟨n, ty, t⟩ := l
  cases ty with
  | attr a =>
    simp only [Session.parseVector] at this ⊢
    split
    · rename_i s1 hs
      rw [hs] at this
      simp [Session.parseVector] at this
      rw [this]
    · rename_i hs; rw [hs] at this; simp at this
    · rename_i hs; rw [hs] at this; simp at this
  | bandwidth b => simp [Session.parseVector] at this ⊢; rw [this]
  | timing b => simp [Session.parseVector] at this ⊢; rw [this]
  | connection b => simp [Session.parseVector] at this ⊢; rw [this]
  | _ => simp [Session.parseVector] at this

/-- **C11.** When it fails, the session has been changed by exactly the lines before the first bad
one, and the error carries the number of that line. -/
theorem C11_failure_prefix [Env] {s s' : Session} {ls : List SdpLine} {e : ParserError}
    (h : s.parseVector ls = (s', .err e)) :
    ∃ pre bad post, ls = pre ++ bad :: post ∧ GoodSessionPart pre ∧ ¬ GoodSessionPart [bad] ∧
      s' = withSessionPart s pre ∧ ∃ msg, e = .sequence msg bad.lineNumber := by
  induction ls generalizing s with
  | nil => simp [Session.parseVector] at h
  | cons l ls ih =>
    have hw0 : withSessionPart s [] = s := by
      simp [withSessionPart, attrsOf, bandwidthsOf, timingsOf, connectionsOf]
    have hg0 : GoodSessionPart [] := ⟨by simp, by simp [attrsOf]⟩
    by_cases hg : GoodSessionPart [l]
    · rw [parseVector_cons_good hg] at h
      obtain ⟨pre, bad, post, k1, k2, k3, k4, k5⟩ := ih h
      refine ⟨l :: pre, bad, post, by simp [k1], ?_, k3, ?_, k5⟩
      · exact GoodSessionPart.append (a := [l]).2 ⟨hg, k2⟩
      · rw [k4]; exact (withSessionPart_append s [l] pre).symm
    · refine ⟨[], l, ls, rfl, hg0, hg, ?_⟩
      rw [hw0]
      obtain ⟨n, ty, t⟩ := l
      cases ty with
      | attr a =>
        simp only [Session.parseVector] at h
        have hb : a.allowedAtSessionLevel = false := by
          by_contra hc
          rw [Bool.not_eq_false, allowedAtSessionLevel_iff] at hc
          exact hg ⟨by simp [SessionLine], by simpa [attrsOf] using hc⟩
        simp [Session.addAttribute, hb, egeneric] at h
        exact ⟨h.1.symm, _, h.2.symm⟩
      | bandwidth b => exact absurd ⟨by simp [SessionLine], by simp [attrsOf]⟩ hg
      | timing b => exact absurd ⟨by simp [SessionLine], by simp [attrsOf]⟩ hg
      | connection b => exact absurd ⟨by simp [SessionLine], by simp [attrsOf]⟩ hg
      | _ =>
        simp [Session.parseVector] at h
        exact ⟨h.1.symm, _, h.2.symm⟩

/-- A session and lines that meet the hypotheses: two good lines, then an m= line. -/
example : letI := sampleEnv
    ∃ e, (Session.new 0 ⟨[], 0, 0, .ip (.v4 0)⟩ []).parseVector
      [⟨3, .timing ⟨1, 2⟩, []⟩, ⟨4, .attr .iceLite, []⟩, ⟨5, .media ⟨.audio, 9, 0, .rtpSavpf, .integers [0]⟩, []⟩]
      = (withSessionPart (Session.new 0 ⟨[], 0, 0, .ip (.v4 0)⟩ [])
          [⟨3, .timing ⟨1, 2⟩, []⟩, ⟨4, .attr .iceLite, []⟩], .err e) :=
  ⟨_, by rfl⟩

end Sdp
