import Verif.Spec.Sample
import Verif.Lemmas.Erase
/-!
# C13-C17: the line scan of `parse_sdp`
-/

namespace Sdp

section
variable [Env]

/-- **C13.** With `fail_on_warning` exactly the texts without warnings are accepted, with the same
result. -/
theorem C13_fail_on_warning (s : Str) (r : Session) :
    parseSdp s true = .ok r ↔ parseSdp s false = .ok r ∧ r.warnings = [] := by
  simp only [parseSdp_ok]
  constructor
  · rintro ⟨h1, h2, h3, h4, h5, r0, h6, h7⟩
    exact ⟨⟨h1, h2, h3, h4, by simp, r0, h6, h7⟩, by rw [h7]; exact h5 trivial⟩
  · rintro ⟨⟨h1, h2, h3, h4, _, r0, h6, h7⟩, h8⟩
    refine ⟨h1, h2, h3, h4, fun _ => ?_, r0, h6, h7⟩
    rw [h7] at h8; exact h8

/-- **C13.** With `fail_on_warning`, the first unsupported line decides, even before errors. -/
theorem C13_first_warning_wins {s : Str} (h : 51 ≤ byteLen s) (h' : byteLen s < 2^31) {w : ParserError}
    {ws : List ParserError} (hw : unsupportedErrors (contentLines s) = w :: ws) :
    parseSdp s true = .err w := by
  have hnp := np_parseSdp h' true
  rw [parseSdp_eq h] at hnp ⊢
  by_cases hp : ∃ p ∈ contentLines s, parseSdpLine p.1 p.2 = .panic
  · rw [if_pos hp] at hnp; exact absurd rfl hnp
  · rw [if_neg hp, hw]; rfl

/-- **C13.** Otherwise the last erroneous line decides. -/
theorem C13_last_error_wins {s : Str} (h : 51 ≤ byteLen s) (h' : byteLen s < 2^31) {f : Bool}
    (hf : f = true → unsupportedErrors (contentLines s) = []) {e : ParserError}
    (he : (hardErrors (contentLines s)).getLast? = some e) :
    parseSdp s f = .err e := by
  have hnp := np_parseSdp h' f
  rw [parseSdp_eq h] at hnp ⊢
  by_cases hp : ∃ p ∈ contentLines s, parseSdpLine p.1 p.2 = .panic
  · rw [if_pos hp] at hnp; exact absurd rfl hnp
  · rw [if_neg hp]
    unfold finishScan
    cases f with
    | false => simp [he]
    | true => rw [hf rfl]; simp [he]
end

/-- A text with an unsupported line (3) and two erroneous lines (4, 6). -/
def badText : Str :=
  c%"v=0\r\no=- 42 7 IN IP4 10.0.0.1\r\ns=-\r\na=foo\r\nt=0\r\na=rtcp-mux:1\r\nx=1\r\nm=foo 1 2 3\r\n"

example : letI := sampleEnv
    51 ≤ byteLen badText ∧ byteLen badText < 2^31 ∧
    (unsupportedErrors (contentLines badText)).length = 2 ∧
    (hardErrors (contentLines badText)).length = 3 ∧
    (∃ m, parseSdp badText true = .err (.unsupported m c%"a=foo" 3)) ∧
    (∃ m, parseSdp badText false = .err (.line m c%"x=1" 6)) := by
  exact ⟨by decide +kernel, by decide +kernel, by decide +kernel, by decide +kernel,
    ⟨.unsupported c%"Unknown attribute type foo", by decide +kernel⟩,
    ⟨.generic c%"unknown sdp type", by decide +kernel⟩⟩

section
variable [Env]

/-- Which pairs are content lines. -/
theorem mem_contentFrom {n : Nat} {ls : List Str} {l : Str} {k : Nat} :
    (l, k) ∈ contentFrom n ls ↔ n ≤ k ∧ ls[k - n]? = some l ∧ ¬ Blank l := by
  unfold contentFrom
  rw [List.mem_filter, List.mem_zipIdx_iff_le_and_getElem?_sub]
  simp [and_assoc]

theorem mem_contentLines {s : Str} {l : Str} {k : Nat} :
    (l, k) ∈ contentLines s ↔ (lines s)[k]? = some l ∧ ¬ Blank l := by
  unfold contentLines
  rw [mem_contentFrom]; simp

theorem contentFrom_sorted (n : Nat) (ls : List Str) :
    (contentFrom n ls).Pairwise (fun p q => p.2 < q.2) := by
  induction ls generalizing n with
  | nil => exact List.Pairwise.nil
  | cons l ls ih =>
    rw [contentFrom_cons]
    split
    · exact ih _
    · refine List.Pairwise.cons ?_ (ih _)
      rintro ⟨t, k⟩ hk
      have := (mem_contentFrom.1 hk).1
      show n < k
      omega

/-- The number stored in an error. -/
def ParserError.number : ParserError → Nat
  | .line _ _ n | .unsupported _ _ n | .sequence _ n => n

theorem mem_unsupportedErrors {l : List (Str × Nat)} {w : ParserError} :
    w ∈ unsupportedErrors l ↔ ∃ p ∈ l, ∃ e t k, w = .unsupported e t k ∧ parseSdpLine p.1 p.2 = .err w := by
  unfold unsupportedErrors
  rw [List.mem_filterMap]
  constructor
  · rintro ⟨p, hp, h⟩
    split at h
    · rename_i e t k he
      simp at h
      exact ⟨p, hp, e, t, k, h.symm, by rw [← h]; exact he⟩
    · simp at h
  · rintro ⟨p, hp, e, t, k, rfl, h⟩
    exact ⟨p, hp, by rw [h]⟩

theorem unsupportedErrors_sorted {l : List (Str × Nat)} (h : l.Pairwise (fun p q => p.2 < q.2)) :
    (unsupportedErrors l).Pairwise (fun a b => a.number < b.number) := by
  induction l with
  | nil => exact List.Pairwise.nil
  | cons p l ih =>
    rw [List.pairwise_cons] at h
    rw [unsupportedErrors_cons]
    cases hp : parseSdpLine p.1 p.2 with
    | ok => exact ih h.2
    | panic => exact ih h.2
    | err e =>
      cases e with
      | line => exact ih h.2
      | sequence => exact ih h.2
      | unsupported e t k =>
        refine List.Pairwise.cons ?_ (ih h.2)
        intro w hw
        obtain ⟨q, hq, e', t', k', rfl, h2⟩ := mem_unsupportedErrors.1 hw
        have hlt := h.1 q hq
        rcases parseSdpLine_err hp with ⟨i, hi, _⟩ | ⟨m, hm⟩
        · simp at hi
        rcases parseSdpLine_err h2 with ⟨i', hi', _⟩ | ⟨m', hm'⟩
        · simp at hi'
        simp at hm hm'
        simp [ParserError.number, hm.2.2, hm'.2.2]
        exact hlt

/-- **C14.** The warnings of an accepted text are exactly the `Unsupported` errors of its non-blank
lines, each with the full text and the 0-based number of its line, in the order of the lines. -/
theorem C14_warnings {s : Str} {f : Bool} {r : Session} (h : parseSdp s f = .ok r) :
    (∀ w, w ∈ r.warnings ↔ ∃ l n m, (lines s)[n]? = some l ∧ ¬ Blank l ∧
      w = .unsupported (.unsupported m) l n ∧ parseSdpLine l n = .err w) ∧
    r.warnings.Pairwise (fun a b => a.number < b.number) := by
  obtain ⟨_, _, _, _, _, r0, _, rfl⟩ := parseSdp_ok.1 h
  simp only []
  refine ⟨fun w => ?_, unsupportedErrors_sorted (contentFrom_sorted _ _)⟩
  rw [mem_unsupportedErrors]
  constructor
  · rintro ⟨⟨l, n⟩, hp, e, t, k, hw, he⟩
    rw [mem_contentLines] at hp
    rcases parseSdpLine_err he with ⟨i, hi, _⟩ | ⟨m, hm⟩
    · rw [hw] at hi; simp at hi
    · exact ⟨l, n, m, hp.1, hp.2, hm, he⟩
  · rintro ⟨l, n, m, h1, h2, h3, h4⟩
    exact ⟨(l, n), mem_contentLines.2 ⟨h1, h2⟩, _, _, _, h3, h4⟩

/-- **C14.** An accepted text has no other failing line. -/
theorem C14_no_other_failure {s : Str} {f : Bool} {r : Session} (h : parseSdp s f = .ok r)
    {l : Str} {n : Nat} (hl : (lines s)[n]? = some l) (hb : ¬ Blank l) :
    (∃ x, parseSdpLine l n = .ok x) ∨ ∃ w ∈ r.warnings, parseSdpLine l n = .err w := by
  obtain ⟨_, _, h1, h2, _, r0, _, rfl⟩ := parseSdp_ok.1 h
  have hm := mem_contentLines.2 ⟨hl, hb⟩
  cases hp : parseSdpLine l n with
  | ok x => exact .inl ⟨x, rfl⟩
  | panic => exact absurd hp (h1 _ hm)
  | err e =>
    right
    rcases parseSdpLine_err hp with ⟨i, hi, hne⟩ | ⟨m, hm'⟩
    · exfalso
      have : e ∈ hardErrors (contentLines s) := by
        unfold hardErrors
        rw [List.mem_filterMap]
        exact ⟨(l, n), hm, by simp only [hp]; rw [hi]⟩
      rw [h2] at this; simp at this
    · exact ⟨e, mem_unsupportedErrors.2 ⟨_, hm, _, _, _, hm', hp⟩, rfl⟩

theorem mediaLoop_err {done : List Media} {cur : Media} {ls : List SdpLine} {e : ParserError}
    (h : mediaLoop done cur ls = .err e) : ∃ l ∈ ls, ∃ m, e = .sequence m l.lineNumber := by
  induction ls generalizing done cur with
  | nil => simp [mediaLoop] at h
  | cons l ls ih =>
    have next {d c} (h : mediaLoop d c ls = .err e) : ∃ x ∈ l :: ls, ∃ m, e = .sequence m x.lineNumber := by
      obtain ⟨x, hx, m, hm⟩ := ih h
      exact ⟨x, by simp [hx], m, hm⟩
    simp only [mediaLoop] at h
    split at h
    · split at h
      · simp at h; exact ⟨l, by simp, _, h.symm⟩
      · exact next h
    · exact next h
    · split at h
      · exact next h
      · simp at h; exact ⟨l, by simp, _, h.symm⟩
      · simp at h
    · exact next h
    all_goals (simp at h; exact ⟨l, by simp, _, h.symm⟩)

theorem parseMediaVector_err {ls : List SdpLine} {e : ParserError} (h : parseMediaVector ls = .err e) :
    ∃ l ∈ ls, ∃ m, e = .sequence m l.lineNumber := by
  cases ls with
  | nil => simp [parseMediaVector] at h
  | cons l ls =>
    simp only [parseMediaVector] at h
    split at h
    · obtain ⟨x, hx, m, hm⟩ := mediaLoop_err h
      exact ⟨x, by simp [hx], m, hm⟩
    · simp at h; exact ⟨l, by simp, _, h.symm⟩

theorem seqError_err {α : Type} {m : Str} {e : ParserError} (h : (seqError m : Outcome ParserError α) = .err e) :
    ∃ m, e = .sequence m 0 := by
  simp [seqError] at h; exact ⟨_, h.symm⟩

theorem checkRidFormats_err {f : FormatList} {l : List UInt16} {e} (h : checkRidFormats f l = .err e) :
    ∃ m, e = .sequence m 0 := by
  induction l with
  | nil => simp [checkRidFormats] at h
  | cons n ns ih =>
    rw [checkRidFormats] at h
    split at h
    · exact ih h
    · exact seqError_err h

theorem checkDefinedRids_err {f : List Str} {l : List SimulcastId} {e} (h : checkDefinedRids f l = .err e) :
    ∃ m, e = .sequence m 0 := by
  induction l with
  | nil => simp [checkDefinedRids] at h
  | cons n ns ih =>
    rw [checkDefinedRids] at h
    split at h
    · exact ih h
    · exact seqError_err h

theorem checkMedia_err {m : Media} {e} (h : checkMedia m = .err e) : ∃ m, e = .sequence m 0 := by
  unfold checkMedia at h
  split at h
  · exact seqError_err h
  · rcases bind_eq_err.1 h with h | ⟨_, _, h⟩
    · exact checkRidFormats_err h
    · split at h
      · rcases bind_eq_err.1 h with h | ⟨_, _, h⟩
        · exact checkDefinedRids_err h
        · exact checkDefinedRids_err h
      · simp at h

theorem sanityCheck_err {s : Session} {e} (h : sanityCheck s = .err e) : ∃ m, e = .sequence m 0 := by
  unfold sanityCheck at h
  split at h
  · exact seqError_err h
  split at h
  · exact seqError_err h
  split at h
  · exact seqError_err h
  · generalize s.media = l at h
    induction l with
    | nil => simp [checkMediaList] at h
    | cons m ms ih =>
      rw [checkMediaList] at h
      rcases bind_eq_err.1 h with h | ⟨_, _, h⟩
      · exact checkMedia_err h
      · exact ih h

theorem finishSession_err {s : Session} {ls : List SdpLine} {e : ParserError}
    (h : finishSession s ls = .err e) :
    (∃ m, e = .sequence m 0) ∨ ∃ l ∈ ls, ∃ m, e = .sequence m l.lineNumber := by
  unfold finishSession at h
  have hv {a : List SdpLine} {s'} (h : s.parseVector a = (s', .err e)) :
      ∃ l ∈ a, ∃ m, e = .sequence m l.lineNumber := by
    obtain ⟨pre, bad, post, h1, _, _, _, m, hm⟩ := C11_failure_prefix h
    exact ⟨bad, by simp [h1], m, hm⟩
  rcases bind_eq_err.1 h with h | ⟨s1, _, h⟩
  · right
    split at h
    · rename_i p hp
      split at h
      · rcases bind_eq_err.1 h with h | ⟨_, _, h⟩
        · obtain ⟨l, hl, hm⟩ := parseMediaVector_err h
          exact ⟨l, List.mem_of_mem_drop hl, hm⟩
        · simp at h
      · rename_i hx; simp at h; subst h
        obtain ⟨l, hl, hm⟩ := hv hx
        exact ⟨l, List.mem_of_mem_take hl, hm⟩
      · simp at h
    · split at h
      · simp at h
      · rename_i hx; simp at h; subst h; exact hv hx
      · simp at h
  · left
    rcases bind_eq_err.1 h with h | ⟨_, _, h⟩
    · exact sanityCheck_err h
    · simp at h

theorem parseSdpVector_err {ls : List SdpLine} {e : ParserError} (h : parseSdpVector ls = .err e) :
    (∃ m n, e = .sequence m n ∧ n ≤ 2) ∨ ∃ l ∈ ls, ∃ m, e = .sequence m l.lineNumber := by
  unfold parseSdpVector at h
  split at h
  · simp at h; left; exact ⟨_, _, h.symm, by omega⟩
  · rename_i h4
    rcases ls with _ | ⟨a0, _ | ⟨a1, _ | ⟨a2, a⟩⟩⟩
    · simp at h4
    · simp at h4
    · simp at h4
    simp only [removeFirst, ok_bind] at h
    split at h
    · split at h
      · split at h
        · rcases finishSession_err h with ⟨m, hm⟩ | ⟨l, hl, hm⟩
          · left; exact ⟨m, 0, hm, by omega⟩
          · right; exact ⟨l, by simp [hl], hm⟩
        · simp at h; left; exact ⟨_, _, h.symm, by omega⟩
      · simp at h; left; exact ⟨_, _, h.symm, by omega⟩
    · simp at h; left; exact ⟨_, _, h.symm, by omega⟩

/-- **C15.** Where the errors of `parse_sdp` point to. -/
theorem C15_error_location {s : Str} {f : Bool} {e : ParserError} (hs : 51 ≤ byteLen s)
    (h : parseSdp s f = .err e) :
    PointsInto s e := by
  rw [parseSdp_eq hs] at h
  split at h
  · simp at h
  have hw {l : Str} {n : Nat} (hm : (l, n) ∈ contentLines s) (he : parseSdpLine l n = .err e) :
      PointsInto s e := by
    have hc := mem_contentLines.1 hm
    rcases parseSdpLine_err he with ⟨i, rfl, _⟩ | ⟨m, rfl⟩
    · exact ⟨hc.1, hc.2, he⟩
    · exact ⟨hc.1, hc.2, he⟩
  unfold finishScan at h
  split at h
  · rename_i _ _ w ws hws
    simp at h; subst h
    have hmem : w ∈ unsupportedErrors (contentLines s) := by
      simp only [] at hws; rw [hws]; simp
    obtain ⟨⟨l, n⟩, hp, _, _, _, _, he⟩ := mem_unsupportedErrors.1 hmem
    exact hw hp he
  · split at h
    · rename_i e' he'
      simp at h; subst h
      have hmem := List.mem_of_getLast? he'
      simp only [hardErrors, List.mem_filterMap] at hmem
      obtain ⟨⟨l, n⟩, hp, hx⟩ := hmem
      split at hx
      · simp at hx
      · rename_i hx2; simp at hx; subst hx; exact hw hp hx2
      · simp at hx
    · rcases bind_eq_err.1 h with h | ⟨_, _, h⟩
      · rcases parseSdpVector_err h with ⟨m, n, rfl, hn⟩ | ⟨l, hl, m, rfl⟩
        · exact .inl hn
        · obtain ⟨⟨t, k⟩, hp, hx⟩ := mem_acceptedLines.1 hl
          obtain ⟨_, _, _, _, _, _, _, _, hn, ht⟩ := parseSdpLine_ok hx
          have := mem_contentLines.1 hp
          right
          exact ⟨t, by rw [hn]; exact this.1, this.2⟩
      · simp at h

/-- **C15.** A text that is too short is reported as a whole, at line 0. -/
theorem C15_short_text {s : Str} {f : Bool} (hs : byteLen s < 51) :
    ∃ m, parseSdp s f = .err (.line (.generic m) s 0) := by
  unfold parseSdp
  by_cases h : s.isEmpty = true
  · exact ⟨_, by rw [if_pos h]⟩
  · exact ⟨_, by rw [if_neg h, if_pos hs]⟩

/-- **C16.** If two texts have the same non-blank lines apart from lines that `parse_sdp_line` calls
unsupported, `parse_sdp(_, false)` gives the same result, apart from the warnings (and the line
number of an error). -/
theorem C16_unsupported_lines_do_not_matter {s s' : Str} (h : 51 ≤ byteLen s) (h' : 51 ≤ byteLen s')
    (hl : ((lines s).filter (fun l => decide (¬ Blank l))).filter (fun l => !isUnsupported l) =
      ((lines s').filter (fun l => decide (¬ Blank l))).filter (fun l => !isUnsupported l)) :
    withoutWarnings (parseSdp s false) = withoutWarnings (parseSdp s' false) :=
  parseSdp_supported h h' (by rw [map_fst_contentLines, map_fst_contentLines]; exact hl)

/-- **C16.** In particular: removing the unsupported lines of a list of lines. -/
theorem C16_remove_unsupported {ls : List (Str × Bool)} (ht : ∀ p ∈ ls, LineText p.1)
    (h : 51 ≤ byteLen (renderLines (ls.filter fun p => !isUnsupported p.1))) :
    withoutWarnings (parseSdp (renderLines ls) false) =
      withoutWarnings (parseSdp (renderLines (ls.filter fun p => !isUnsupported p.1)) false) := by
  have hle : byteLen (renderLines (ls.filter fun p => !isUnsupported p.1)) ≤ byteLen (renderLines ls) := by
    clear h ht
    induction ls with
    | nil => simp
    | cons p ls ih =>
      have e (q : Str × Bool) (l : List (Str × Bool)) : byteLen (renderLines (q :: l)) =
          byteLen (q.1 ++ (if q.2 then ['\r', '\n'] else ['\n'])) + byteLen (renderLines l) := by
        simp [renderLines, byteLen]; omega
      rw [List.filter_cons]
      split
      · rw [e, e]; omega
      · rw [e]; omega
  refine C16_unsupported_lines_do_not_matter (by omega) h ?_
  rw [lines_renderLines ht, lines_renderLines fun p hp => ht p (List.mem_filter.1 hp).1]
  rw [List.filter_filter, List.filter_filter, List.filter_map, List.filter_map, List.filter_filter]
  congr 1
  refine List.filter_congr fun p _ => ?_
  simp only [Function.comp_def]
  cases isUnsupported p.1 <;> simp

/-- **C17.** Two texts with the same non-blank lines give the same result, apart from line numbers. -/
theorem C17_only_nonblank_lines_matter {s s' : Str} (h : 51 ≤ byteLen s) (h' : 51 ≤ byteLen s')
    (hl : (lines s).filter (fun l => decide (¬ Blank l)) = (lines s').filter (fun l => decide (¬ Blank l)))
    (f : Bool) : unnumbered (parseSdp s f) = unnumbered (parseSdp s' f) :=
  parseSdp_same h h' (by rw [map_fst_contentLines, map_fst_contentLines]; exact hl) f

/-- **C17.** Line ends (LF or CRLF, chosen line by line) and blank lines do not matter. -/
theorem C17_line_ends_and_blank_lines {ls ls' : List (Str × Bool)} (ht : ∀ p ∈ ls, LineText p.1)
    (ht' : ∀ p ∈ ls', LineText p.1) (h : 51 ≤ byteLen (renderLines ls)) (h' : 51 ≤ byteLen (renderLines ls'))
    (hl : (ls.map Prod.fst).filter (fun l => decide (¬ Blank l)) =
      (ls'.map Prod.fst).filter (fun l => decide (¬ Blank l))) (f : Bool) :
    unnumbered (parseSdp (renderLines ls) f) = unnumbered (parseSdp (renderLines ls') f) :=
  C17_only_nonblank_lines_matter h h' (by rw [lines_renderLines ht, lines_renderLines ht']; exact hl) f

end

/-- Lines that meet the hypotheses of C16 and C17: mixed line ends, a blank line, an unsupported
m= line followed by an attribute that ends up in the section before it. -/
def mixedLines : List (Str × Bool) :=
  [(c%"v=0", true), (c%"o=- 42 7 IN IP4 10.0.0.1", false), (c%"s=-", true), (c%" ", false), (c%"t=0 0", true),
   (c%"c=IN IP4 10.0.0.1", true), (c%"m=audio 9 RTP/SAVPF 0", true), (c%"m=image 9 RTP/SAVPF 0", false),
   (c%"a=mid:1", true)]

example : letI := sampleEnv
    (∀ p ∈ mixedLines, p.1.getLast? ≠ some '\r' ∧ '\n' ∉ p.1) ∧
    51 ≤ byteLen (renderLines (mixedLines.filter fun p => !isUnsupported p.1)) ∧
    (mixedLines.filter fun p => isUnsupported p.1) = [(c%"m=image 9 RTP/SAVPF 0", false)] ∧
    (match parseSdp (renderLines mixedLines) false with
     | .ok r => decide (r.media.map (fun m => m.attrs) = [[.mid c%"1"]] ∧ r.warnings.length = 1)
     | _ => false) = true := by
  decide +kernel

end Sdp
