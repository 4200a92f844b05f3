import Verif.Spec.Erase
import Verif.Lemmas.Consistent
import Verif.Props.Sections
/-!
# `parse_sdp` does not depend on line numbers, blank lines and line ends
-/

namespace Sdp

theorem endsWithC_iff {c : Char} {s : Str} : endsWithC c s = true ↔ s.getLast? = some c := by
  simp [endsWithC]

theorem stripCR_of_lineText {l : Str} (h : LineText l) : stripCR l = l := by
  unfold stripCR
  rw [if_neg]
  rw [endsWithC_iff]; exact h.2

theorem stripCR_cr (l : Str) : stripCR (l ++ ['\r']) = l := by
  unfold stripCR
  rw [if_pos]
  · simp
  · rw [endsWithC_iff]; simp

theorem linesGo_cons {l : Str} {ls : List Str} (h : ls ≠ []) : linesGo (l :: ls) = stripCR l :: linesGo ls := by
  cases ls with
  | nil => exact absurd rfl h
  | cons m ls => rfl

/-- The lines of a rendered text are the lines it was made of. -/
theorem lines_render_cons {l : Str} (h : LineText l) (b : Bool) (t : Str) :
    lines (l ++ (if b then ['\r', '\n'] else ['\n']) ++ t) = l :: lines t := by
  unfold lines
  cases b with
  | false =>
    rw [show l ++ (if false = true then ['\r', '\n'] else ['\n']) ++ t = l ++ '\n' :: t by simp,
      splitC_append h.1, linesGo_cons (splitC_ne_nil _ _), stripCR_of_lineText h]
  | true =>
    rw [show l ++ (if true = true then ['\r', '\n'] else ['\n']) ++ t = (l ++ ['\r']) ++ '\n' :: t by simp,
      splitC_append (by simp [h.1]), linesGo_cons (splitC_ne_nil _ _), stripCR_cr]

theorem lines_renderLines {ls : List (Str × Bool)} (h : ∀ p ∈ ls, LineText p.1) :
    lines (renderLines ls) = ls.map Prod.fst := by
  induction ls with
  | nil => rfl
  | cons p ls ih =>
    rw [show renderLines (p :: ls) = p.1 ++ (if p.2 then ['\r', '\n'] else ['\n']) ++ renderLines ls by
      simp [renderLines]]
    rw [lines_render_cons (h p (by simp)), ih fun q hq => h q (by simp [hq])]
    rfl

theorem map_fst_contentFrom (n : Nat) (ls : List Str) :
    (contentFrom n ls).map Prod.fst = ls.filter (fun l => decide (¬ Blank l)) := by
  induction ls generalizing n with
  | nil => rfl
  | cons l ls ih =>
    rw [contentFrom_cons, List.filter_cons]
    by_cases hb : Blank l <;> simp [hb, ih]

/-- The texts of the non-blank lines. -/
theorem map_fst_contentLines (s : Str) :
    (contentLines s).map Prod.fst = (lines s).filter (fun l => decide (¬ Blank l)) := map_fst_contentFrom _ _

section
variable [Env]

/-- The number given to `parse_sdp_line` is only recorded. -/
theorem parseSdpLine_number (l : Str) (n m : Nat) :
    (match parseSdpLine l n with
     | .ok x => parseSdpLine l m = .ok { x with lineNumber := m }
     | .err (.line e t _) => parseSdpLine l m = .err (.line e t m)
     | .err (.unsupported e t _) => parseSdpLine l m = .err (.unsupported e t m)
     | .err (.sequence _ _) => False
     | .panic => parseSdpLine l m = .panic) := by
  have hc (e : InternalError) : (∃ i t, classifyErr l n e = .line i t n ∧ classifyErr l m e = .line i t m) ∨
      (∃ i t, classifyErr l n e = .unsupported i t n ∧ classifyErr l m e = .unsupported i t m) := by
    cases e <;> simp [classifyErr]
  unfold parseSdpLine
  simp only []
  by_cases h1 : '=' ∉ l
  · simp only [h1, not_false_eq_true, if_true]
  · simp only [h1, if_false]
    rcases splitn 2 '=' l with _ | ⟨t, rest⟩
    · simp only []
    · simp only []
      by_cases h2 : byteLen (trim t) > 1
      · simp only [h2, if_true]
      · simp only [h2, if_false]
        by_cases h3 : (trim t).isEmpty = true
        · simp only [h3, if_true]
        · simp only [h3, if_false]
          rcases rest with _ | ⟨v, more⟩
          · simp
          · simp only [Bool.false_eq_true, if_false]
            by_cases h4 : (trim v).isEmpty = true ∧ lower (trim t) ≠ c%"s"
            · simp only [if_pos h4]
            · simp only [if_neg h4]
              cases parseLineValue (lower (trim t)) (trim v) v with
              | ok x => rfl
              | panic => rfl
              | err e =>
                simp only []
                rcases hc e with ⟨i, t, h5, h6⟩ | ⟨i, t, h5, h6⟩ <;> simp only [h5, h6]

/-- Same contents, apart from line numbers and recorded text. -/
def SameLines (a b : List SdpLine) : Prop := a.map (fun l => l.sdpType) = b.map (fun l => l.sdpType)

def unnumberedM : Outcome ParserError (List Media) → Outcome ParserError (List Media)
  | .err e => .err e.unnumbered
  | x => x

theorem mediaLoop_same {a b : List SdpLine} (h : SameLines a b) (done : List Media) (cur : Media) :
    unnumberedM (mediaLoop done cur a) = unnumberedM (mediaLoop done cur b) := by
  induction a generalizing b done cur with
  | nil =>
    cases b with
    | nil => rfl
    | cons y b => simp [SameLines] at h
  | cons x a ih =>
    cases b with
    | nil => simp [SameLines] at h
    | cons y b =>
      simp only [SameLines, List.map_cons, List.cons.injEq] at h
      obtain ⟨h1, h2⟩ := h
      simp only [mediaLoop, h1]
      cases y.sdpType with
      | attr a =>
        simp only []
        cases hm : mediaAttrLine cur a with
        | mk c r =>
          cases r with
          | ok u => exact ih h2 _ _
          | err e => rfl
          | panic => rfl
      | bandwidth a => exact ih h2 _ _
      | connection c =>
        simp only []
        split
        · rfl
        · exact ih h2 _ _
      | media m => exact ih h2 _ _
      | _ => rfl

theorem parseMediaVector_same {a b : List SdpLine} (h : SameLines a b) :
    unnumberedM (parseMediaVector a) = unnumberedM (parseMediaVector b) := by
  cases a with
  | nil =>
    cases b with
    | nil => rfl
    | cons y b => simp [SameLines] at h
  | cons x a =>
    cases b with
    | nil => simp [SameLines] at h
    | cons y b =>
      simp only [SameLines, List.map_cons, List.cons.injEq] at h
      obtain ⟨h1, h2⟩ := h
      simp only [parseMediaVector, h1]
      cases y.sdpType <;> first | exact mediaLoop_same h2 _ _ | rfl

def unnumberedV : Session × Outcome ParserError Unit → Session × Outcome ParserError Unit
  | (s, .err e) => (s, .err e.unnumbered)
  | x => x

theorem parseVector_same {a b : List SdpLine} (h : SameLines a b) (s : Session) :
    unnumberedV (s.parseVector a) = unnumberedV (s.parseVector b) := by
  induction a generalizing b s with
  | nil =>
    cases b with
    | nil => rfl
    | cons y b => simp [SameLines] at h
  | cons x a ih =>
    cases b with
    | nil => simp [SameLines] at h
    | cons y b =>
      simp only [SameLines, List.map_cons, List.cons.injEq] at h
      obtain ⟨h1, h2⟩ := h
      simp only [Session.parseVector, h1]
      cases y.sdpType with
      | attr a =>
        simp only []
        cases hm : s.addAttribute a with
        | mk c r =>
          cases r with
          | ok u => exact ih h2 _
          | err e => rfl
          | panic => rfl
      | bandwidth a => exact ih h2 _
      | connection c => exact ih h2 _
      | timing m => exact ih h2 _
      | _ => rfl

theorem SameLines.isMedia {a b : List SdpLine} (h : SameLines a b) :
    a.findIdx? SdpLine.isMedia = b.findIdx? SdpLine.isMedia := by
  have key (l : List SdpLine) : l.findIdx? SdpLine.isMedia =
      (l.map (fun l => l.sdpType)).findIdx? (fun t => match t with | .media _ => true | _ => false) := by
    rw [List.findIdx?_map]; rfl
  rw [key, key, h]

theorem SameLines.take {a b : List SdpLine} (h : SameLines a b) (n : Nat) : SameLines (a.take n) (b.take n) := by
  unfold SameLines at *; rw [List.map_take, List.map_take, h]

theorem SameLines.drop {a b : List SdpLine} (h : SameLines a b) (n : Nat) : SameLines (a.drop n) (b.drop n) := by
  unfold SameLines at *; rw [List.map_drop, List.map_drop, h]

/-- Forget the number of an error of an outcome. -/
def unnum {α : Type} : Outcome ParserError α → Outcome ParserError α
  | .err e => .err e.unnumbered
  | x => x

theorem unnum_bind {α β : Type} {x y : Outcome ParserError α} {f : α → Outcome ParserError β}
    (h : unnum x = unnum y) : unnum (x >>= f) = unnum (y >>= f) := by
  cases x <;> cases y <;> simp_all [unnum]

theorem finishSession_same {a b : List SdpLine} (h : SameLines a b) (s : Session) :
    unnum (finishSession s a) = unnum (finishSession s b) := by
  unfold finishSession
  apply unnum_bind
  rw [h.isMedia]
  have hv (a b : List SdpLine) (h : SameLines a b) : 
      (∃ s', s.parseVector a = (s', .ok ()) ∧ s.parseVector b = (s', .ok ())) ∨
      (∃ s' e e', s.parseVector a = (s', .err e) ∧ s.parseVector b = (s', .err e') ∧ e.unnumbered = e'.unnumbered) ∨
      (∃ s', s.parseVector a = (s', .panic) ∧ s.parseVector b = (s', .panic)) := by
    have := parseVector_same h s
    rcases h1 : s.parseVector a with ⟨s1, r1⟩
    rcases h2 : s.parseVector b with ⟨s2, r2⟩
    rw [h1, h2] at this
    cases r1 <;> cases r2 <;> simp_all [unnumberedV]
  cases b.findIdx? SdpLine.isMedia with
  | none =>
    simp only []
    rcases hv a b h with ⟨s', h1, h2⟩ | ⟨s', e, e', h1, h2, h3⟩ | ⟨s', h1, h2⟩
    · simp [h1, h2]
    · simp [h1, h2, h3, unnum]
    · simp [h1, h2]
  | some p =>
    simp only []
    rcases hv _ _ (h.take p) with ⟨s', h1, h2⟩ | ⟨s', e, e', h1, h2, h3⟩ | ⟨s', h1, h2⟩
    · simp only [h1, h2]
      apply unnum_bind
      have := parseMediaVector_same (h.drop p)
      cases h5 : parseMediaVector (a.drop p) <;> cases h6 : parseMediaVector (b.drop p) <;>
        simp_all [unnumberedM, unnum]
    · simp [h1, h2, h3, unnum]
    · simp [h1, h2]

theorem parseSdpVector_same {a b : List SdpLine} (h : SameLines a b) :
    unnum (parseSdpVector a) = unnum (parseSdpVector b) := by
  have hl : a.length = b.length := by
    have := congrArg List.length h; simpa using this
  unfold parseSdpVector
  rw [hl]
  split
  · rfl
  · rename_i h4
    rcases a with _ | ⟨a0, _ | ⟨a1, _ | ⟨a2, a⟩⟩⟩
    · simp at hl; omega
    · simp at hl; omega
    · simp at hl; omega
    rcases b with _ | ⟨b0, _ | ⟨b1, _ | ⟨b2, b⟩⟩⟩
    · simp at h4
    · simp at h4
    · simp at h4
    simp only [SameLines, List.map_cons, List.cons.injEq] at h
    obtain ⟨h0, h1, h2, h3⟩ := h
    simp only [removeFirst, ok_bind, h0, h1, h2]
    cases b0.sdpType with
    | version v =>
      simp only []
      cases b1.sdpType with
      | origin o =>
        simp only []
        cases b2.sdpType with
        | session nm => exact finishSession_same h3 _
        | _ => rfl
      | _ => rfl
    | _ => rfl

end

section
variable [Env]

theorem unnum_ok {α : Type} {x y : Outcome ParserError α} {a : α} (h : unnum x = unnum y) :
    x = .ok a ↔ y = .ok a := by
  cases x <;> cases y <;> simp_all [unnum]

/-- What the numbered scan sees, for lists of lines with the same texts. -/
theorem scan_same {a b : List (Str × Nat)} (h : a.map Prod.fst = b.map Prod.fst) :
    SameLines (acceptedLines a) (acceptedLines b) ∧
    (unsupportedErrors a).map ParserError.unnumbered = (unsupportedErrors b).map ParserError.unnumbered ∧
    (hardErrors a).map ParserError.unnumbered = (hardErrors b).map ParserError.unnumbered ∧
    ((∃ p ∈ a, parseSdpLine p.1 p.2 = .panic) ↔ ∃ p ∈ b, parseSdpLine p.1 p.2 = .panic) := by
  induction a generalizing b with
  | nil =>
    cases b with
    | nil => exact ⟨rfl, rfl, rfl, Iff.rfl⟩
    | cons y b => simp at h
  | cons x a ih =>
    cases b with
    | nil => simp at h
    | cons y b =>
      obtain ⟨l, n⟩ := x
      obtain ⟨l', m⟩ := y
      simp only [List.map_cons, List.cons.injEq] at h
      obtain ⟨rfl, h2⟩ := h
      obtain ⟨i1, i2, i3, i4⟩ := ih h2
      have key := parseSdpLine_number l n m
      simp only [acceptedLines_cons, unsupportedErrors_cons, hardErrors_cons, SameLines, List.map_append,
        List.mem_cons, exists_eq_or_imp, i2, i3, i4]
      unfold SameLines at i1
      rw [i1]
      cases hp : parseSdpLine l n with
      | ok z => rw [hp] at key; simp only [] at key; simp [key]
      | panic => rw [hp] at key; simp only [] at key; simp [key]
      | err e =>
        rw [hp] at key
        cases e <;> simp only [] at key
        · simp [key, ParserError.unnumbered]
        · simp [key, ParserError.unnumbered]

theorem parseSdp_eq {s : Str} (h : 51 ≤ byteLen s) (f : Bool) :
    parseSdp s f =
      if ∃ p ∈ contentLines s, parseSdpLine p.1 p.2 = .panic then .panic
      else finishScan ⟨hardErrors (contentLines s), unsupportedErrors (contentLines s),
        acceptedLines (contentLines s)⟩ f := by
  unfold parseSdp
  have hne : s.isEmpty = false := by
    cases s with
    | nil => simp [byteLen] at h
    | cons => rfl
  rw [if_neg (by simp [hne]), if_neg (by omega)]
  by_cases hp : ∃ p ∈ contentLines s, parseSdpLine p.1 p.2 = .panic
  · rw [if_pos hp, scanLines_panic.2 hp]; rfl
  · rw [if_neg hp]
    rw [scanLines_eq_ok.2 ⟨fun p hm hc => hp ⟨p, hm, hc⟩, rfl⟩]
    simp [contentLines]

theorem getLast?_map_eq {α β : Type} {g : α → β} {a b : List α} (h : a.map g = b.map g) :
    a.getLast?.map g = b.getLast?.map g := by
  rw [← List.getLast?_map, ← List.getLast?_map, h]

/-- C17: only the texts of the non-blank lines matter. -/
theorem parseSdp_same {s s' : Str} (h : 51 ≤ byteLen s) (h' : 51 ≤ byteLen s')
    (hl : (contentLines s).map Prod.fst = (contentLines s').map Prod.fst) (f : Bool) :
    unnumbered (parseSdp s f) = unnumbered (parseSdp s' f) := by
  obtain ⟨h1, h2, h3, h4⟩ := scan_same hl
  rw [parseSdp_eq h, parseSdp_eq h']
  by_cases hp : ∃ p ∈ contentLines s, parseSdpLine p.1 p.2 = .panic
  · rw [if_pos hp, if_pos (h4.1 hp)]
  · rw [if_neg hp, if_neg (fun hc => hp (h4.2 hc))]
    generalize hardErrors (contentLines s) = he at *
    generalize hardErrors (contentLines s') = he' at *
    generalize unsupportedErrors (contentLines s) = wa at *
    generalize unsupportedErrors (contentLines s') = wa' at *
    have tail : unnumbered (match he.getLast? with
        | some e => .err e
        | none => do
          let s ← parseSdpVector (acceptedLines (contentLines s))
          return { s with warnings := wa }) =
        unnumbered (match he'.getLast? with
        | some e => .err e
        | none => do
          let s ← parseSdpVector (acceptedLines (contentLines s'))
          return { s with warnings := wa' }) := by
      have hg := getLast?_map_eq h3
      cases h5 : he.getLast? with
      | some e =>
        cases h6 : he'.getLast? with
        | some e' => rw [h5, h6] at hg; simp at hg; simp [unnumbered, hg]
        | none => rw [h5, h6] at hg; simp at hg
      | none =>
        cases h6 : he'.getLast? with
        | some e' => rw [h5, h6] at hg; simp at hg
        | none =>
          simp only []
          have := parseSdpVector_same h1
          cases h7 : parseSdpVector (acceptedLines (contentLines s)) <;>
            cases h8 : parseSdpVector (acceptedLines (contentLines s')) <;>
            simp_all [unnum, unnumbered]
    unfold finishScan
    cases f with
    | false => exact tail
    | true =>
      cases wa with
      | nil =>
        cases wa' with
        | nil => exact tail
        | cons => simp at h2
      | cons w wa =>
        cases wa' with
        | nil => simp at h2
        | cons => simp at h2; simp [unnumbered, h2.1]

/-- The non-blank lines of a text that are not unsupported. -/
theorem scan_supported (a : List (Str × Nat)) :
    acceptedLines (a.filter fun p => !isUnsupported p.1) = acceptedLines a ∧
    hardErrors (a.filter fun p => !isUnsupported p.1) = hardErrors a ∧
    ((∃ p ∈ (a.filter fun p => !isUnsupported p.1), parseSdpLine p.1 p.2 = .panic) ↔
      ∃ p ∈ a, parseSdpLine p.1 p.2 = .panic) := by
  induction a with
  | nil => simp
  | cons p a ih =>
    obtain ⟨l, n⟩ := p
    obtain ⟨i1, i2, i3⟩ := ih
    rw [List.filter_cons]
    by_cases hu : isUnsupported l = true
    · have : ∃ e t k, parseSdpLine l n = .err (.unsupported e t k) := by
        have key := parseSdpLine_number l 0 n
        unfold isUnsupported at hu
        split at hu
        · rename_i h0; rw [h0] at key; exact ⟨_, _, _, key⟩
        · simp at hu
      obtain ⟨e, t, k, he⟩ := this
      simp [hu, acceptedLines_cons, hardErrors_cons, he, i1, i2]
      simpa using i3
    · simp only [hu, Bool.not_false, if_true, acceptedLines_cons, hardErrors_cons, i1, i2,
        List.mem_cons, exists_eq_or_imp, i3]
      trivial

/-- C16: unsupported lines only give warnings. -/
theorem parseSdp_supported {s s' : Str} (h : 51 ≤ byteLen s) (h' : 51 ≤ byteLen s')
    (hl : ((contentLines s).map Prod.fst).filter (fun l => !isUnsupported l) =
      ((contentLines s').map Prod.fst).filter (fun l => !isUnsupported l)) :
    withoutWarnings (parseSdp s false) = withoutWarnings (parseSdp s' false) := by
  rw [List.filter_map, List.filter_map] at hl
  obtain ⟨h1, h2, h3, h4⟩ := scan_same hl
  obtain ⟨a1, a2, a3⟩ := scan_supported (contentLines s)
  obtain ⟨b1, b2, b3⟩ := scan_supported (contentLines s')
  simp only [Function.comp_def] at h1 h2 h3 h4
  rw [a1, b1] at h1
  rw [a2, b2] at h3
  rw [a3, b3] at h4
  rw [parseSdp_eq h, parseSdp_eq h']
  by_cases hp : ∃ p ∈ contentLines s, parseSdpLine p.1 p.2 = .panic
  · rw [if_pos hp, if_pos (h4.1 hp)]
  · rw [if_neg hp, if_neg (fun hc => hp (h4.2 hc))]
    generalize hardErrors (contentLines s) = he at *
    generalize hardErrors (contentLines s') = he' at *
    unfold finishScan
    simp only []
    have hg := getLast?_map_eq h3
    cases h5 : he.getLast? with
    | some e =>
      cases h6 : he'.getLast? with
      | some e' => rw [h5, h6] at hg; simp at hg; simp [withoutWarnings, hg]
      | none => rw [h5, h6] at hg; simp at hg
    | none =>
      cases h6 : he'.getLast? with
      | some e' => rw [h5, h6] at hg; simp at hg
      | none =>
        simp only []
        have := parseSdpVector_same h1
        cases h7 : parseSdpVector (acceptedLines (contentLines s)) <;>
          cases h8 : parseSdpVector (acceptedLines (contentLines s')) <;>
          simp_all [unnum, withoutWarnings]
end

end Sdp
