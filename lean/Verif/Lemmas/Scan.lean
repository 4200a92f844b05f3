import Verif.Spec.Lines
import Verif.Lemmas.NoPanic2
/-!
# The line scan as filters, and inversion of a successful parse
-/

namespace Sdp

theorem dropWhile_eq_nil_iff' {α : Type} {p : α → Bool} {l : List α} :
    l.dropWhile p = [] ↔ ∀ x ∈ l, p x = true := by
  induction l with
  | nil => simp
  | cons x xs ih =>
    rw [List.dropWhile_cons]
    cases h : p x <;> simp [h, ih]

theorem trimStart_eq_nil {s : Str} : trimStart s = [] ↔ Blank s := by
  unfold trimStart Blank
  rw [dropWhile_eq_nil_iff']

theorem trimEnd_eq_nil {s : Str} : trimEnd s = [] ↔ Blank s := by
  unfold trimEnd Blank
  rw [List.reverse_eq_nil_iff, dropWhile_eq_nil_iff']
  simp

theorem trim_eq_nil {s : Str} : trim s = [] ↔ Blank s := by
  unfold trim
  rw [trimEnd_eq_nil]
  constructor
  · intro h
    rw [← trimStart_eq_nil]
    unfold trimStart
    by_contra hne
    have h1 := List.head_dropWhile_not isWs hne
    have := h _ (List.head_mem hne)
    unfold trimStart at this
    rw [this] at h1; simp at h1
  · intro h c hc
    rw [trimStart_eq_nil.2 h] at hc; simp at hc

theorem trim_isEmpty {s : Str} : (trim s).isEmpty = true ↔ Blank s := by
  rw [List.isEmpty_iff, trim_eq_nil]

theorem contentFrom_nil (n : Nat) : contentFrom n [] = [] := rfl

theorem contentFrom_cons (n : Nat) (l : Str) (ls : List Str) :
    contentFrom n (l :: ls) =
      if Blank l then contentFrom (n + 1) ls else (l, n) :: contentFrom (n + 1) ls := by
  unfold contentFrom
  simp only [List.zipIdx_cons, List.filter_cons]
  by_cases h : Blank l <;> simp [h]

variable [Env]

theorem acceptedLines_cons (p : Str × Nat) (l : List (Str × Nat)) :
    acceptedLines (p :: l) = (match parseSdpLine p.1 p.2 with | .ok x => [x] | _ => []) ++ acceptedLines l := by
  unfold acceptedLines
  rw [List.filterMap_cons]
  cases parseSdpLine p.1 p.2 <;> rfl

theorem unsupportedErrors_cons (p : Str × Nat) (l : List (Str × Nat)) :
    unsupportedErrors (p :: l) =
      (match parseSdpLine p.1 p.2 with | .err (.unsupported e t k) => [.unsupported e t k] | _ => [])
        ++ unsupportedErrors l := by
  unfold unsupportedErrors
  rw [List.filterMap_cons]
  cases h : parseSdpLine p.1 p.2 with
  | ok => rfl
  | panic => rfl
  | err e => cases e <;> rfl

theorem hardErrors_cons (p : Str × Nat) (l : List (Str × Nat)) :
    hardErrors (p :: l) =
      (match parseSdpLine p.1 p.2 with | .err (.unsupported _ _ _) => [] | .err e => [e] | _ => [])
        ++ hardErrors l := by
  unfold hardErrors
  rw [List.filterMap_cons]
  cases h : parseSdpLine p.1 p.2 with
  | ok => rfl
  | panic => rfl
  | err e => cases e <;> rfl

/-- The loop of `parse_sdp` as three filters. -/
theorem scanLines_eq_ok {n : Nat} {ls : List Str} {sc sc' : Scan} :
    scanLines n ls sc = .ok sc' ↔
      (∀ p ∈ contentFrom n ls, parseSdpLine p.1 p.2 ≠ .panic) ∧
      sc' = ⟨sc.errors ++ hardErrors (contentFrom n ls),
             sc.warnings ++ unsupportedErrors (contentFrom n ls),
             sc.lines ++ acceptedLines (contentFrom n ls)⟩ := by
  induction ls generalizing n sc with
  | nil => simp [scanLines, contentFrom_nil, hardErrors, unsupportedErrors, acceptedLines, eq_comm]
  | cons l ls ih =>
    rw [contentFrom_cons]
    simp only [scanLines, trim_isEmpty]
    by_cases hb : Blank l
    · simp only [hb, if_true]; exact ih
    · simp only [hb, if_false, List.forall_mem_cons, acceptedLines_cons, unsupportedErrors_cons, hardErrors_cons]
      cases h : parseSdpLine l n with
      | ok x => simp only [ih]; simp [h]
      | panic => simp [h]
      | err e => cases e <;> (simp only [ih]; simp [h])

theorem scanLines_panic {n : Nat} {ls : List Str} {sc : Scan} :
    scanLines n ls sc = .panic ↔ ∃ p ∈ contentFrom n ls, parseSdpLine p.1 p.2 = .panic := by
  induction ls generalizing n sc with
  | nil => simp [scanLines, contentFrom_nil]
  | cons l ls ih =>
    rw [contentFrom_cons]
    simp only [scanLines, trim_isEmpty]
    by_cases hb : Blank l
    · simp only [hb, if_true]; exact ih
    · simp only [hb, if_false, List.mem_cons, exists_eq_or_imp]
      cases h : parseSdpLine l n with
      | ok x => simp only [ih]; simp [h]
      | panic => simp [h]
      | err e => cases e <;> (simp only [ih]; simp [h])

theorem scanLines_ne_err {n : Nat} {ls : List Str} {sc : Scan} {e} : scanLines n ls sc ≠ .err e := by
  induction ls generalizing n sc with
  | nil => simp [scanLines]
  | cons l ls ih =>
    simp only [scanLines]
    split
    · exact ih
    · split <;> first | exact ih | simp

/-- Inversion of `parse_sdp_line`'s success. -/
theorem parseSdpLine_ok {l : Str} {n : Nat} {x : SdpLine} (h : parseSdpLine l n = .ok x) :
    ∃ a b, l = a ++ '=' :: b ∧ '=' ∉ a ∧ byteLen (trim a) ≤ 1 ∧ trim a ≠ [] ∧
      ¬ (trim b = [] ∧ lower (trim a) ≠ c%"s") ∧
      parseLineValue (lower (trim a)) (trim b) b = .ok x.sdpType ∧ x.lineNumber = n ∧ x.text = l := by
  unfold parseSdpLine at h
  simp only [] at h
  split at h
  · simp at h
  · rename_i hm; simp at hm
    obtain ⟨a, b, h1, h2, h3⟩ := splitn_two_of_mem hm
    rw [h1] at h; simp only [] at h
    split at h
    · simp at h
    · rename_i h4
      split at h
      · simp at h
      · rename_i h5
        split at h
        · simp at h
        · rename_i h6
          split at h
          · rename_i x' hx
            simp at h; subst h
            refine ⟨a, b, h2, h3, by omega, by simpa using h5, by simpa using h6, hx, rfl, rfl⟩
          · simp at h
          · simp at h

theorem parseSdpLine_err {l : Str} {n : Nat} {e : ParserError} (h : parseSdpLine l n = .err e) :
    (∃ i, e = .line i l n ∧ ∀ m, i ≠ .unsupported m) ∨ (∃ m, e = .unsupported (.unsupported m) l n) := by
  unfold parseSdpLine at h
  simp only [] at h
  have key : ∀ i, classifyErr l n i = e →
      (∃ i, e = .line i l n ∧ ∀ m, i ≠ .unsupported m) ∨ (∃ m, e = .unsupported (.unsupported m) l n) := by
    intro i hi
    subst hi
    cases i <;> simp [classifyErr]
  split at h
  · simp at h; left; exact ⟨_, h.symm, by simp⟩
  · rename_i hm; simp at hm
    obtain ⟨a, b, h1, h2, h3⟩ := splitn_two_of_mem hm
    rw [h1] at h; simp only [] at h
    split at h
    · simp at h; left; exact ⟨_, h.symm, by simp⟩
    · split at h
      · simp at h; left; exact ⟨_, h.symm, by simp⟩
      · split at h
        · simp at h; left; exact ⟨_, h.symm, by simp⟩
        · split at h
          · simp at h
          · simp at h; exact key _ h
          · simp at h

/-- What a successful `parse_sdp_vector` means. -/
theorem parseSdpVector_ok {ls : List SdpLine} {s : Session} :
    parseSdpVector ls = .ok s ↔
      ∃ l0 l1 l2 rest v o nm, ls = l0 :: l1 :: l2 :: rest ∧ rest ≠ [] ∧
        l0.sdpType = .version v ∧ l1.sdpType = .origin o ∧ l2.sdpType = .session nm ∧
        finishSession (Session.new v o nm) rest = .ok s := by
  constructor
  · intro h
    unfold parseSdpVector at h
    match ls with
    | [] => simp at h
    | [_] => simp at h
    | [_, _] => simp at h
    | [_, _, _] => simp at h
    | a :: b :: c :: d :: r =>
      rw [if_neg (by simp)] at h
      simp only [removeFirst, ok_bind] at h
      split at h
      · split at h
        · split at h
          · rename_i h1 _ _ h2 _ _ h3
            exact ⟨a, b, c, d :: r, _, _, _, rfl, by simp, h1, h2, h3, h⟩
          · simp at h
        · simp at h
      · simp at h
  · rintro ⟨l0, l1, l2, rest, v, o, nm, rfl, hne, h1, h2, h3, h⟩
    cases rest with
    | nil => exact absurd rfl hne
    | cons d r =>
      unfold parseSdpVector
      rw [if_neg (by simp)]
      simp only [removeFirst, ok_bind, h1, h2, h3]
      exact h

/-- The lines before the first m= line. -/
def sessionPart (ls : List SdpLine) : List SdpLine := ls.takeWhile (fun l => !l.isMedia)
/-- The lines from the first m= line on. -/
def mediaPart (ls : List SdpLine) : List SdpLine := ls.dropWhile (fun l => !l.isMedia)

theorem mediaPart_eq {ls : List SdpLine} :
    (match ls.findIdx? SdpLine.isMedia with
     | some p => sessionPart ls = ls.take p ∧ mediaPart ls = ls.drop p ∧ mediaPart ls ≠ []
     | none => sessionPart ls = ls ∧ mediaPart ls = []) := by
  induction ls with
  | nil => simp [sessionPart, mediaPart]
  | cons l ls ih =>
    rw [List.findIdx?_cons]
    cases hl : l.isMedia with
    | true => simp [sessionPart, mediaPart, hl]
    | false =>
      simp only [sessionPart, mediaPart] at ih
      simp only [sessionPart, mediaPart, Bool.false_eq_true, if_false, hl, Bool.not_false,
        List.takeWhile_cons_of_pos, List.dropWhile_cons_of_pos]
      cases hf : ls.findIdx? SdpLine.isMedia with
      | none => rw [hf] at ih; simp at ih ⊢; exact ih
      | some p => rw [hf] at ih; simp at ih ⊢; exact ih

/-- What a successful run after the first three lines means. -/
theorem finishSession_ok {s s' : Session} {ls : List SdpLine} :
    finishSession s ls = .ok s' ↔
      ∃ s1 ms, s.parseVector (sessionPart ls) = (s1, .ok ()) ∧
        ((mediaPart ls = [] ∧ ms = []) ∨ parseMediaVector (mediaPart ls) = .ok ms) ∧
        s' = s1.extendMedia ms ∧ sanityCheck s' = .ok () := by
  have hm := mediaPart_eq (ls := ls)
  unfold finishSession
  cases hf : ls.findIdx? SdpLine.isMedia with
  | some p =>
    rw [hf] at hm
    simp only [] at hm
    obtain ⟨h1, h2, h3⟩ := hm
    simp only [← h1, ← h2]
    constructor
    · intro h
      rw [bind_eq_ok] at h
      obtain ⟨a, ha, h⟩ := h
      rw [bind_eq_ok] at h
      obtain ⟨u, hu, h⟩ := h
      simp at h; subst h
      split at ha
      · rename_i s1 hv
        rw [bind_eq_ok] at ha
        obtain ⟨ms, hms, ha⟩ := ha
        simp at ha
        exact ⟨s1, ms, hv, .inr hms, ha.symm, hu⟩
      · simp at ha
      · simp at ha
    · rintro ⟨s1, ms, hv, hms, hs, hu⟩
      rcases hms with ⟨hms, _⟩ | hms
      · exact absurd hms h3
      · simp only [hv, hms, ok_bind, pure_eq_ok, ← hs, hu]
  | none =>
    rw [hf] at hm
    simp only [] at hm
    obtain ⟨h1, h2⟩ := hm
    simp only [h1, h2]
    constructor
    · intro h
      rw [bind_eq_ok] at h
      obtain ⟨a, ha, h⟩ := h
      rw [bind_eq_ok] at h
      obtain ⟨u, hu, h⟩ := h
      simp at h; subst h
      split at ha
      · rename_i s1 hv
        simp at ha; subst ha
        exact ⟨s1, [], hv, .inl ⟨by simp, rfl⟩, by simp [Session.extendMedia], hu⟩
      · simp at ha
      · simp at ha
    · rintro ⟨s1, ms, hv, hms, hs, hu⟩
      rcases hms with ⟨_, rfl⟩ | hms
      · have : s' = s1 := by rw [hs]; simp [Session.extendMedia]
        simp only [hv, ok_bind, ← this, hu, pure_eq_ok]
      · simp [parseMediaVector] at hms

/-- What a successful `parse_sdp` means. -/
theorem parseSdp_ok {s : Str} {f : Bool} {r : Session} :
    parseSdp s f = .ok r ↔
      s ≠ [] ∧ 51 ≤ byteLen s ∧
      (∀ p ∈ contentLines s, parseSdpLine p.1 p.2 ≠ .panic) ∧
      hardErrors (contentLines s) = [] ∧
      (f = true → unsupportedErrors (contentLines s) = []) ∧
      ∃ r0, parseSdpVector (acceptedLines (contentLines s)) = .ok r0 ∧
        r = { r0 with warnings := unsupportedErrors (contentLines s) } := by
  unfold parseSdp
  constructor
  · intro h
    split at h
    · simp at h
    · rename_i h1
      split at h
      · simp at h
      · rename_i h2
        rw [bind_eq_ok] at h
        obtain ⟨sc, hsc, h⟩ := h
        rw [scanLines_eq_ok] at hsc
        obtain ⟨hp, rfl⟩ := hsc
        simp only [List.nil_append] at h
        unfold finishScan at h
        refine ⟨by simpa using h1, by omega, hp, ?_⟩
        split at h
        · simp at h
        · rename_i hw
          split at h
          · simp at h
          · rename_i he
            rw [bind_eq_ok] at h
            obtain ⟨r0, hr0, h⟩ := h
            simp at h
            refine ⟨List.getLast?_eq_none_iff.1 he, ?_, r0, hr0, h.symm⟩
            intro hf
            by_contra hne
            obtain ⟨w, ws, hws⟩ := List.exists_cons_of_ne_nil hne
            exact hw w ws hf hws
  · rintro ⟨h1, h2, hp, he, hf, r0, hr0, rfl⟩
    have h1' : ¬ s.isEmpty = true := by simpa using h1
    rw [if_neg h1', if_neg (by omega)]
    have : scanLines 0 (lines s) ⟨[], [], []⟩ =
        .ok ⟨[], unsupportedErrors (contentLines s), acceptedLines (contentLines s)⟩ := by
      rw [scanLines_eq_ok]; exact ⟨hp, by simp [← he, contentLines]⟩
    rw [this, ok_bind]
    unfold finishScan
    cases f with
    | false => simp [hr0]
    | true => rw [hf rfl]; simp [hr0]

end Sdp
