import Verif.Spec.Meaning
import Verif.Lemmas.Erase
import Verif.Lemmas.Ws
/-!
# `parse_sdp` depends only on what the lines mean
-/

namespace Sdp

section
variable [Env]

/-- `parse_sdp_line` on the two sides of the equals sign. -/
def lineOutcome (a b : Str) : IRes SdpType :=
  if byteLen (trim a) > 1 then egeneric c%"type too long"
  else if (trim a).isEmpty then egeneric c%"type is empty"
  else if (trim b).isEmpty ∧ lower (trim a) ≠ c%"s" then egeneric c%"value is empty"
  else parseLineValue (lower (trim a)) (trim b) b

omit [Env] in
/-- ... and the record of the line. -/
def recordLine (l : Str) (n : Nat) : IRes SdpType → Outcome ParserError SdpLine
  | .ok x => .ok ⟨n, x, l⟩
  | .err e => .err (classifyErr l n e)
  | .panic => .panic

theorem parseSdpLine_split {a b : Str} (h : '=' ∉ a) (n : Nat) :
    parseSdpLine (a ++ '=' :: b) n = recordLine (a ++ '=' :: b) n (lineOutcome a b) := by
  unfold parseSdpLine lineOutcome
  have hm : '=' ∈ a ++ '=' :: b := by simp
  simp only [hm, not_true_eq_false, if_false, splitn_two_append h]
  by_cases h1 : byteLen (trim a) > 1
  · simp only [h1, if_true]; rfl
  simp only [h1, if_false]
  by_cases h2 : (trim a).isEmpty = true
  · simp only [h2, if_true]; rfl
  simp only [h2, if_false, Bool.false_eq_true]
  by_cases h3 : (trim b).isEmpty = true ∧ lower (trim a) ≠ c%"s"
  · simp only [if_pos h3]; rfl
  simp only [if_neg h3]
  cases parseLineValue (lower (trim a)) (trim b) b <;> rfl

theorem parseSdpLine_noEq {l : Str} (h : '=' ∉ l) (n : Nat) :
    parseSdpLine l n = recordLine l n (egeneric c%"missing = character in line") := by
  unfold parseSdpLine
  simp only [h, not_false_eq_true, if_true]; rfl

/-- Every line is a recorded outcome. -/
theorem parseSdpLine_record (l : Str) (n : Nat) : parseSdpLine l n = recordLine l n (lineMeaning l) := by
  have key : ∀ x : IRes SdpType, (∀ k, parseSdpLine l k = recordLine l k x) →
      parseSdpLine l n = recordLine l n (lineMeaning l) := by
    intro x hx
    have : lineMeaning l = x := by
      unfold lineMeaning
      rw [hx]
      cases x with
      | ok => rfl
      | panic => rfl
      | err e => cases e <;> rfl
    rw [this]; exact hx n
  by_cases h : '=' ∈ l
  · obtain ⟨a, b, -, rfl, h3⟩ := splitn_two_of_mem h
    exact key _ fun k => parseSdpLine_split h3 k
  · exact key _ fun k => parseSdpLine_noEq h k

theorem lineMeaning_split {a b : Str} (h : '=' ∉ a) : lineMeaning (a ++ '=' :: b) = lineOutcome a b := by
  unfold lineMeaning
  rw [parseSdpLine_split h]
  cases lineOutcome a b with
  | ok => rfl
  | panic => rfl
  | err e => cases e <;> rfl

/-! ## The whole text -/

/-- The line with its session name trimmed. -/
def SdpLine.trimmed (l : SdpLine) : SdpLine := { l with sdpType := l.sdpType.trimmed }

omit [Env] in
theorem SdpLine.trimmed_isMedia (l : SdpLine) : l.trimmed.isMedia = l.isMedia := by
  obtain ⟨n, t, x⟩ := l
  cases t <;> rfl

omit [Env] in
theorem Session.new_trim (v : UInt64) (o : Origin) (t : Str) : Session.new v o (trim t) = Session.new v o t := by
  simp only [Session.new, trim_trim]

theorem mediaLoop_trimmed (done : List Media) (cur : Media) (ls : List SdpLine) :
    mediaLoop done cur (ls.map SdpLine.trimmed) = mediaLoop done cur ls := by
  induction ls generalizing done cur with
  | nil => rfl
  | cons l ls ih =>
    obtain ⟨n, t, x⟩ := l
    cases t <;> simp only [List.map_cons, mediaLoop, SdpLine.trimmed, SdpType.trimmed, ih]

theorem parseVector_trimmed (s : Session) (ls : List SdpLine) :
    s.parseVector (ls.map SdpLine.trimmed) = s.parseVector ls := by
  induction ls generalizing s with
  | nil => rfl
  | cons l ls ih =>
    obtain ⟨n, t, x⟩ := l
    cases t <;> simp only [List.map_cons, Session.parseVector, SdpLine.trimmed, SdpType.trimmed, ih]

theorem parseMediaVector_trimmed (ls : List SdpLine) :
    parseMediaVector (ls.map SdpLine.trimmed) = parseMediaVector ls := by
  cases ls with
  | nil => rfl
  | cons l ls =>
    obtain ⟨n, t, x⟩ := l
    cases t <;> simp only [List.map_cons, parseMediaVector, SdpLine.trimmed, SdpType.trimmed,
      mediaLoop_trimmed]

theorem finishSession_trimmed (s : Session) (ls : List SdpLine) :
    finishSession s (ls.map SdpLine.trimmed) = finishSession s ls := by
  unfold finishSession
  have : (ls.map SdpLine.trimmed).findIdx? SdpLine.isMedia = ls.findIdx? SdpLine.isMedia := by
    rw [List.findIdx?_map]
    congr 1
    funext l
    exact l.trimmed_isMedia
  rw [this]
  cases ls.findIdx? SdpLine.isMedia with
  | none => simp only [parseVector_trimmed]
  | some p => simp only [← List.map_take, ← List.map_drop, parseVector_trimmed, parseMediaVector_trimmed]

theorem parseSdpVector_trimmed (ls : List SdpLine) :
    parseSdpVector (ls.map SdpLine.trimmed) = parseSdpVector ls := by
  unfold parseSdpVector
  simp only [List.length_map]
  split
  · rfl
  · rename_i h4
    rcases ls with _ | ⟨a0, _ | ⟨a1, _ | ⟨a2, a⟩⟩⟩
    · simp at h4
    · simp at h4
    · simp at h4
    obtain ⟨n0, t0, x0⟩ := a0
    obtain ⟨n1, t1, x1⟩ := a1
    obtain ⟨n2, t2, x2⟩ := a2
    simp only [List.map_cons, removeFirst, ok_bind]
    cases t0 with
    | version v =>
      cases t1 with
      | origin o =>
        cases t2 with
        | session t =>
          simp only [SdpLine.trimmed, SdpType.trimmed, Session.new_trim]
          exact finishSession_trimmed _ _
        | _ => rfl
      | _ => rfl
    | _ => rfl

theorem scan_kind {a b : List (Str × Nat)} (h : a.map (fun p => lineKind p.1) = b.map (fun p => lineKind p.1)) :
    SameLines ((acceptedLines a).map SdpLine.trimmed) ((acceptedLines b).map SdpLine.trimmed) ∧
    (unsupportedErrors a).length = (unsupportedErrors b).length ∧
    (hardErrors a).length = (hardErrors b).length ∧
    ((∃ p ∈ a, parseSdpLine p.1 p.2 = .panic) ↔ ∃ p ∈ b, parseSdpLine p.1 p.2 = .panic) := by
  induction a generalizing b with
  | nil =>
    cases b with
    | nil => exact ⟨rfl, rfl, rfl, Iff.rfl⟩
    | cons y b => simp at h
  | cons x a ih =>
    cases b with
    | nil => simp at h
    | cons y b =>
      obtain ⟨l, n⟩ := x
      obtain ⟨l', m⟩ := y
      simp only [List.map_cons, List.cons.injEq] at h
      obtain ⟨h1, h2⟩ := h
      obtain ⟨i1, i2, i3, i4⟩ := ih h2
      simp only [acceptedLines_cons, unsupportedErrors_cons, hardErrors_cons, SameLines, List.map_append,
        List.mem_cons, exists_eq_or_imp, i2, i3, i4, List.length_append]
      unfold SameLines at i1
      rw [i1, parseSdpLine_record l n, parseSdpLine_record l' m]
      unfold lineKind at h1
      cases h3 : lineMeaning l with
      | ok v =>
        rw [h3] at h1
        cases h4 : lineMeaning l' with
        | ok v' =>
          rw [h4] at h1
          simp only [Outcome.kind, Outcome.ok.injEq] at h1
          simp [recordLine, SdpLine.trimmed, h1]
        | panic => rw [h4] at h1; simp [Outcome.kind] at h1
        | err e => rw [h4] at h1; cases e <;> simp [Outcome.kind] at h1
      | panic =>
        rw [h3] at h1
        cases h4 : lineMeaning l' with
        | ok v' => rw [h4] at h1; simp [Outcome.kind] at h1
        | panic => simp [recordLine]
        | err e => rw [h4] at h1; cases e <;> simp [Outcome.kind] at h1
      | err e =>
        rw [h3] at h1
        cases h4 : lineMeaning l' with
        | ok v' => rw [h4] at h1; cases e <;> simp [Outcome.kind] at h1
        | panic => rw [h4] at h1; cases e <;> simp [Outcome.kind] at h1
        | err e' =>
          rw [h4] at h1
          cases e <;> cases e' <;> simp_all [Outcome.kind, recordLine, classifyErr]

/-- Texts whose non-blank lines are of the same kind: success carries over. -/
theorem parseSdp_kind {s s' : Str} (h' : 51 ≤ byteLen s')
    (hl : (contentLines s).map (fun p => lineKind p.1) = (contentLines s').map (fun p => lineKind p.1))
    {f : Bool} {r : Session} (hr : parseSdp s f = .ok r) :
    ∃ ws, parseSdp s' f = .ok { r with warnings := ws } ∧ ws.length = r.warnings.length := by
  obtain ⟨h1, h2, h3, h4⟩ := scan_kind hl
  obtain ⟨_, h5, hnp, h6, h7, r0, h8, rfl⟩ := parseSdp_ok.1 hr
  have hv := parseSdpVector_same h1
  rw [parseSdpVector_trimmed, parseSdpVector_trimmed] at hv
  refine ⟨unsupportedErrors (contentLines s'), ?_, h2.symm⟩
  refine parseSdp_ok.2 ⟨?_, h', ?_, ?_, ?_, r0, (unnum_ok hv).1 h8, rfl⟩
  · rintro rfl; simp [byteLen] at h'
  · intro p hp hc
    obtain ⟨q, hq, hc⟩ := h4.2 ⟨p, hp, hc⟩
    exact hnp q hq hc
  · rw [h6] at h3; exact List.eq_nil_of_length_eq_zero h3.symm
  · intro hf
    rw [h7 hf] at h2; exact List.eq_nil_of_length_eq_zero h2.symm

end

end Sdp
