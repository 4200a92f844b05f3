import Verif.Props.Document
import Verif.Props.Text
import Verif.Props.RoundTrip
import Verif.Spec.Sense
import Verif.Lemmas.Sense
/-!
# C100: only what the lines say counts
-/

set_option linter.constructorNameAsVariable false

namespace Sdp

section
variable [Env]

/-- The line without its text, and with its session name trimmed. -/
private def erase (l : SdpLine) : SdpLine := { l with sdpType := l.sdpType.trimmed, text := [] }

omit [Env] in
private theorem erase_isMedia (l : SdpLine) : (erase l).isMedia = l.isMedia := by
  obtain ⟨n, t, x⟩ := l
  cases t <;> rfl

private theorem mediaLoop_erase (done : List Media) (cur : Media) (ls : List SdpLine) :
    mediaLoop done cur (ls.map erase) = mediaLoop done cur ls := by
  induction ls generalizing done cur with
  | nil => rfl
  | cons l ls ih =>
    obtain ⟨n, t, x⟩ := l
    cases t <;> simp only [List.map_cons, mediaLoop, erase, SdpType.trimmed, ih]

private theorem parseVector_erase (s : Session) (ls : List SdpLine) :
    s.parseVector (ls.map erase) = s.parseVector ls := by
  induction ls generalizing s with
  | nil => rfl
  | cons l ls ih =>
    obtain ⟨n, t, x⟩ := l
    cases t <;> simp only [List.map_cons, Session.parseVector, erase, SdpType.trimmed, ih]

private theorem parseMediaVector_erase (ls : List SdpLine) :
    parseMediaVector (ls.map erase) = parseMediaVector ls := by
  cases ls with
  | nil => rfl
  | cons l ls =>
    obtain ⟨n, t, x⟩ := l
    cases t <;> simp only [List.map_cons, parseMediaVector, erase, SdpType.trimmed, mediaLoop_erase]

private theorem finishSession_erase (s : Session) (ls : List SdpLine) :
    finishSession s (ls.map erase) = finishSession s ls := by
  unfold finishSession
  have : (ls.map erase).findIdx? SdpLine.isMedia = ls.findIdx? SdpLine.isMedia := by
    rw [List.findIdx?_map]
    congr 1
    funext l
    exact erase_isMedia l
  rw [this]
  cases ls.findIdx? SdpLine.isMedia with
  | none => simp only [parseVector_erase]
  | some p => simp only [← List.map_take, ← List.map_drop, parseVector_erase, parseMediaVector_erase]

private theorem parseSdpVector_erase (ls : List SdpLine) : parseSdpVector (ls.map erase) = parseSdpVector ls := by
  unfold parseSdpVector
  simp only [List.length_map]
  split
  · rfl
  · rename_i h4
    rcases ls with _ | ⟨a0, _ | ⟨a1, _ | ⟨a2, a⟩⟩⟩
    · simp at h4
    · simp at h4
    · simp at h4
    obtain ⟨n0, t0, x0⟩ := a0
    obtain ⟨n1, t1, x1⟩ := a1
    obtain ⟨n2, t2, x2⟩ := a2
    simp only [List.map_cons, removeFirst, ok_bind]
    cases t0 with
    | version v =>
      cases t1 with
      | origin o =>
        cases t2 with
        | session t =>
          simp only [erase, SdpType.trimmed, Session.new_trim]
          exact finishSession_erase _ _
        | _ => rfl
      | _ => rfl
    | _ => rfl

private theorem says_of {l : Str} {t : SdpType} (h : LineDenotes l t) : Says l t.trimmed := by
  cases t <;> first | exact h | exact ⟨_, h, stripped_iff.2 rfl⟩

private theorem of_says {l : Str} {t : SdpType} (h : Says l t) : ∃ t', LineDenotes l t' ∧ t'.trimmed = t := by
  cases t with
  | session s =>
    obtain ⟨raw, h1, h2⟩ := h
    exact ⟨_, h1, by rw [SdpType.trimmed, stripped_iff.1 h2]⟩
  | _ => simp only [Says] at h; exact ⟨_, h, rfl⟩

private theorem denotes_unique {l : Str} (hl : l.length < 2^31) {t t' : SdpType} (h : LineDenotes l t) (h' : LineDenotes l t') :
    t = t' := by
  have a := (C77_line (n := 0) (x := ⟨0, t, l⟩) hl).2 ⟨h, rfl, rfl⟩
  have b := (C77_line (n := 0) (x := ⟨0, t', l⟩) hl).2 ⟨h', rfl, rfl⟩
  rw [a] at b
  simpa using b

private theorem scan_sense {a b : List Str} (h : Each SameSense a b) (ha : ∀ l ∈ a, l.length < 2^31)
    (hb : ∀ l ∈ b, l.length < 2^31) (n : Nat) :
    (acceptedLines (contentFrom n a)).map erase = (acceptedLines (contentFrom n b)).map erase ∧
    Each ParserError.SamePlace (unsupportedErrors (contentFrom n a)) (unsupportedErrors (contentFrom n b)) ∧
    Each ParserError.SamePlace (hardErrors (contentFrom n a)) (hardErrors (contentFrom n b)) := by
  induction a generalizing b n with
  | nil => cases b with
    | nil => exact ⟨rfl, trivial, trivial⟩
    | cons => exact h.elim
  | cons l a ih => cases b with
    | nil => exact h.elim
    | cons l' b =>
      obtain ⟨hs, h⟩ := h
      obtain ⟨i1, i2, i3⟩ := ih h (fun x hx => ha x (by simp [hx])) (fun x hx => hb x (by simp [hx])) (n + 1)
      rw [contentFrom_cons, contentFrom_cons]
      by_cases hbl : Blank l
      · rw [if_pos hbl, if_pos (hs.blank.1 hbl)]; exact ⟨i1, i2, i3⟩
      · rw [if_neg hbl, if_neg fun hc => hbl (hs.blank.2 hc)]
        simp only [acceptedLines_cons, unsupportedErrors_cons, hardErrors_cons, List.map_append]
        have hl := ha l (by simp)
        have hl' := hb l' (by simp)
        rcases line_classes hl n with ⟨t, h1, h2, h3⟩ | ⟨m, h1, h2, h3⟩ | ⟨i, h1, -, h2, h3⟩
        · obtain ⟨t', g1, g2⟩ := of_says ((hs.value _).1 (says_of h2))
          have g3 := (C77_line (n := n) (x := ⟨n, t', l'⟩) hl').2 ⟨g1, rfl, rfl⟩
          rw [h1, g3]
          refine ⟨?_, i2, i3⟩
          simp only [List.map_cons, List.map_nil, i1, erase, g2]
        · rcases line_classes hl' n with ⟨t, g1, g2, g3⟩ | ⟨m', g1, g2, g3⟩ | ⟨i, g1, -, g2, g3⟩
          · exact absurd (hs.unsupported.1 h2) g3
          · rw [h1, g1]
            exact ⟨i1, ⟨rfl, i2⟩, i3⟩
          · exact absurd (hs.unsupported.1 h2) g2
        · rcases line_classes hl' n with ⟨t, g1, g2, g3⟩ | ⟨m', g1, g2, g3⟩ | ⟨i, g1, -, g2, g3⟩
          · obtain ⟨t', k1, k2⟩ := of_says ((hs.value _).2 (says_of g2))
            exact absurd k1 (h3 _)
          · exact absurd (hs.unsupported.2 g2) h2
          · rw [h1, g1]
            exact ⟨i1, i2, ⟨rfl, i3⟩⟩

omit [Env] in
private theorem each_getLast {α : Type} {R : α → α → Prop} {a b : List α} (h : Each R a b) :
    (a.getLast? = none ∧ b.getLast? = none) ∨ ∃ x y, a.getLast? = some x ∧ b.getLast? = some y ∧ R x y := by
  induction a generalizing b with
  | nil => cases b with
    | nil => exact .inl ⟨rfl, rfl⟩
    | cons => exact h.elim
  | cons x a ih => cases b with
    | nil => exact h.elim
    | cons y b =>
      rcases ih h.2 with ⟨h1, h2⟩ | ⟨u, v, h1, h2, h3⟩
      · rw [List.getLast?_eq_none_iff] at h1 h2
        subst h1; subst h2
        exact .inr ⟨x, y, rfl, rfl, h.1⟩
      · exact .inr ⟨u, v, by rw [List.getLast?_cons, h1]; rfl, by rw [List.getLast?_cons, h2]; rfl, h3⟩

omit [Env] in
private theorem samePlace_refl (e : ParserError) : e.SamePlace e := by
  cases e <;> simp [ParserError.SamePlace]

/-- **C100.** If the lines of two texts say the same one by one, the outcomes are the same: the same session with warnings
about the same lines, or an error of the same kind about the same line. -/
theorem C100_only_sense_counts {s s' : Str} {ls ls' : List Str} (h : 51 ≤ byteLen s) (h' : 51 ≤ byteLen s')
    (hb : byteLen s < 2^31) (hb' : byteLen s' < 2^31) (ht : TextLines s ls) (ht' : TextLines s' ls')
    (hs : Each SameSense ls ls') (f : Bool) : SameOutcome (parseSdp s f) (parseSdp s' f) := by
  rw [textLines_iff] at ht ht'
  subst ht; subst ht'
  have hl := fun l (hl : l ∈ lines s) => lines_short hb _ hl
  have hl' := fun l (hl : l ∈ lines s') => lines_short hb' _ hl
  obtain ⟨h1, h2, h3⟩ := scan_sense hs hl hl' 0
  have np {s : Str} (hl : ∀ l ∈ lines s, l.length < 2^31) : ¬ ∃ p ∈ contentLines s, parseSdpLine p.1 p.2 = .panic := by
    rintro ⟨p, hp, hc⟩
    exact np_parseSdpLine _ (hl _ (List.mem_of_getElem? (mem_contentLines.1 hp).1)) hc
  rw [parseSdp_eq h, parseSdp_eq h', if_neg (np hl), if_neg (np hl')]
  have hv : parseSdpVector (acceptedLines (contentLines s)) = parseSdpVector (acceptedLines (contentLines s')) := by
    rw [← parseSdpVector_erase, ← parseSdpVector_erase (acceptedLines (contentLines s'))]
    exact congrArg _ h1
  change Each _ (unsupportedErrors (contentLines s)) (unsupportedErrors (contentLines s')) at h2
  change Each _ (hardErrors (contentLines s)) (hardErrors (contentLines s')) at h3
  unfold finishScan
  simp only [hv]
  generalize unsupportedErrors (contentLines s) = us at *
  generalize unsupportedErrors (contentLines s') = us' at *
  generalize hardErrors (contentLines s) = ws at *
  generalize hardErrors (contentLines s') = ws' at *
  have ho := np_parseSdpVector (acceptedLines (contentLines s'))
  generalize parseSdpVector (acceptedLines (contentLines s')) = o at ho
  have tail : SameOutcome
      (match ws.getLast? with | some e => .err e | none => do let s ← o; return { s with warnings := us })
      (match ws'.getLast? with | some e => .err e | none => do let s ← o; return { s with warnings := us' }) := by
    rcases each_getLast h3 with ⟨e1, e2⟩ | ⟨x, y, e1, e2, e3⟩
    · rw [e1, e2]
      cases o with
      | ok r => exact ⟨rfl, h2⟩
      | err e => exact samePlace_refl e
      | panic => exact absurd rfl ho
    · rw [e1, e2]; exact e3
  cases us with
  | nil => cases us' with
    | nil => cases f <;> exact tail
    | cons => exact h2.elim
  | cons u us => cases us' with
    | nil => exact h2.elim
    | cons u' us' =>
      cases f
      · exact tail
      · exact h2.1

/-! ## The converse -/

private theorem meaning_iff {l : Str} (hl : l.length < 2^31) {t : SdpType} : lineMeaning l = .ok t ↔ LineDenotes l t := by
  have a := C77_line (n := 0) (x := ⟨0, t, l⟩) hl
  rw [parseSdpLine_record] at a
  simp only [and_true] at a
  rw [← a]
  cases lineMeaning l <;> simp [recordLine]

/-- Lines that read as these values. -/
private def Writes (ls : List Str) (ts : List SdpType) : Prop :=
  Each (fun l t => '\n' ∉ l ∧ lineMeaning l = .ok t) ls ts

private theorem Writes.read {ls : List Str} {ts : List SdpType} (h : Writes ls ts) : ls.filterMap readType = ts := by
  induction ls generalizing ts with
  | nil => cases ts with
    | nil => rfl
    | cons => exact h.elim
  | cons l ls ih => cases ts with
    | nil => exact h.elim
    | cons t ts => rw [List.filterMap_cons, readType_some.2 h.1.2, ih h.2]

private theorem Writes.fine {ls : List Str} {ts : List SdpType} (h : Writes ls ts) :
    ∀ l ∈ ls, '\n' ∉ l ∧ ∃ t, lineMeaning l = .ok t := by
  induction ls generalizing ts with
  | nil => simp
  | cons l ls ih => cases ts with
    | nil => exact h.elim
    | cons t ts =>
      intro x hx
      rcases List.mem_cons.1 hx with rfl | hx
      · exact ⟨h.1.1, _, h.1.2⟩
      · exact ih h.2 x hx

private theorem Writes.append {ls ls' : List Str} {ts ts' : List SdpType} (h : Writes ls ts) (h' : Writes ls' ts') :
    Writes (ls ++ ls') (ts ++ ts') := by
  induction ls generalizing ts with
  | nil => cases ts with
    | nil => exact h'
    | cons => exact h.elim
  | cons l ls ih => cases ts with
    | nil => exact h.elim
    | cons t ts => exact ⟨h.1, ih h.2⟩

omit [Env] in
private def pad : Str := List.replicate 51 ' '

omit [Env] in
private theorem pad_blank : Blank pad := by
  intro c hc
  rw [List.eq_of_mem_replicate hc]
  decide

private theorem pad_reads : readType pad = none := by
  cases h : readType pad with
  | none => rfl
  | some t =>
    rw [readType_some, meaning_iff (by decide)] at h
    exact absurd h ((blank_denotes pad_blank).1 t)

omit [Env] in
private theorem pad_long (ls : List Str) : 51 ≤ byteLen (crlf (pad :: ls)) := by
  refine Nat.le_trans ?_ (length_le_byteLen _)
  rw [crlf_length]
  simp [pad]
  omega

private theorem parse_in {a b : List Str} {A B : List SdpType} (ha : Writes a A) (hb : Writes b B) {l : Str} (hn : '\n' ∉ l)
    {r : Session} : parseSdp (crlf (pad :: (a ++ l :: b))) false = .ok r ↔ LineFine false l ∧
      Describes (valueLines (A ++ ((readType l).toList ++ B))) { r with warnings := [] } ∧
      r.warnings = unsupportedErrors (contentFrom 0 (pad :: (a ++ l :: b))) := by
  have hf := ha.fine
  have hg := hb.fine
  have hp : '\n' ∉ pad := by decide
  have e : lines (crlf (pad :: (a ++ l :: b))) = pad :: (a ++ l :: b) := by
    apply lines_crlf_any
    intro x hx
    simp only [List.mem_cons, List.mem_append] at hx
    rcases hx with rfl | hx | rfl | hx
    · exact hp
    · exact (hf x hx).1
    · exact hn
    · exact (hg x hx).1
  have eb : bareLines (pad :: (a ++ l :: b)) = valueLines (A ++ ((readType l).toList ++ B)) := by
    unfold bareLines valueLines
    rw [List.filterMap_cons, pad_reads, List.filterMap_append, List.filterMap_cons, ha.read, hb.read]
    cases readType l <;> rfl
  have ef : (∀ x ∈ pad :: (a ++ l :: b), LineFine false x) ↔ LineFine false l := by
    constructor
    · intro h; exact h l (by simp)
    · intro h x hx
      simp only [List.mem_cons, List.mem_append] at hx
      rcases hx with rfl | hx | rfl | hx
      · exact .inl pad_blank
      · exact .inr (.inl (hf x hx).2)
      · exact h
      · exact .inr (.inl (hg x hx).2)
  rw [parseSdp_lines, contentLines, e, eb, ef]
  exact ⟨fun h => h.2, fun h => ⟨pad_long _, h⟩⟩

private theorem sense_of_value {l l' : Str} (hl : l.length < 2^31) (hl' : l'.length < 2^31) {t t' : SdpType}
    (h : lineMeaning l = .ok t) (h' : lineMeaning l' = .ok t') (e : t'.trimmed = t.trimmed) : SameSense l l' := by
  rw [meaning_iff hl] at h
  rw [meaning_iff hl'] at h'
  have key {l : Str} (hl : l.length < 2^31) {t : SdpType} (h : LineDenotes l t) (u : SdpType) : Says l u ↔ u = t.trimmed := by
    constructor
    · intro hu
      obtain ⟨t', h1, h2⟩ := of_says hu
      rw [← h2, denotes_unique hl h h1]
    · rintro rfl; exact says_of h
  have un {l : Str} (hl : l.length < 2^31) {t : SdpType} (h : LineDenotes l t) : ¬ UnsupportedText l := by
    rcases line_classes hl 0 with ⟨_, -, -, h3⟩ | ⟨_, -, -, h3⟩ | ⟨_, -, -, h3, -⟩
    · exact h3
    · exact absurd h (h3 _)
    · exact h3
  constructor
  · exact ⟨fun hb => absurd h ((blank_denotes hb).1 _), fun hb => absurd h' ((blank_denotes hb).1 _)⟩
  · intro u; rw [key hl h, key hl' h', e]
  · exact ⟨fun hu => absurd hu (un hl h), fun hu => absurd hu (un hl' h')⟩

private theorem sameOutcome_symm {x y : Outcome ParserError Session} (h : SameOutcome x y) : SameOutcome y x := by
  have sp {a b : ParserError} (h : a.SamePlace b) : b.SamePlace a := by
    cases a <;> cases b <;> simp_all [ParserError.SamePlace]
  have ea {a b : List ParserError} (h : Each ParserError.SamePlace a b) : Each ParserError.SamePlace b a := by
    induction a generalizing b with
    | nil => cases b with
      | nil => trivial
      | cons => exact h.elim
    | cons x a ih => cases b with
      | nil => exact h.elim
      | cons y b => exact ⟨sp h.1, ih h.2⟩
  cases x <;> cases y <;> first | exact h.elim | exact ⟨h.1.symm, ea h.2⟩ | exact sp h

private theorem line_meaning {l : Str} {t : SdpType} (h : parseSdpLine l 0 = .ok ⟨0, t, l⟩) : lineMeaning l = .ok t := by
  unfold lineMeaning; rw [h]

private def tellM (fs : List UInt16) : Str := c%"m=" ++ showMediaLine (tellMedia fs)

omit [Env] in
private theorem tellMedia_wf (fs : List UInt16) : (tellMedia fs).WF := by
  refine ⟨show (9 : UInt32).toNat ≤ 65535 by decide, ?_⟩
  show _ ∧ _
  refine ⟨by simp, ?_⟩
  intro t ht
  rcases List.mem_cons.1 ht with rfl | ht
  · exact ⟨by decide, by decide⟩
  · obtain ⟨n, -, rfl⟩ := List.mem_map.1 ht
    exact Token.showNat _

omit [Env] in
private theorem tellM_line (fs : List UInt16) : '\n' ∉ tellM fs := by
  intro h
  have e : tellM fs = (c%"m=" ++ (showMediaValue .application ++ c%" " ++ showU32 9 ++ maybeParam c%"/" (0 : UInt32) 0 ++ c%" "
      ++ showProtocol .dtlsSctp ++ c%" ")) ++ joinS c%" " (c%"x" :: fs.map fun n => decimal n.toNat) := by
    rw [tellM, showMediaLine, ← List.append_assoc]; rfl
  rw [e, List.mem_append] at h
  rcases h with h | h
  · exact absurd h (by decide +kernel)
  · rcases mem_joinS h with h | ⟨t, ht, h⟩
    · exact absurd h (by decide)
    · rcases List.mem_cons.1 ht with rfl | ht
      · exact absurd h (by decide)
      · obtain ⟨n, -, rfl⟩ := List.mem_map.1 ht
        have := (Token.showNat n.toNat).2 _ h
        exact absurd this (by decide)

private def vLine : Str := c%"v=" ++ showU64 0
private def oLine : Str := c%"o=" ++ showOrigin tellOrigin
private def sLine : Str := c%"s=" ++ c%"x"
private def tLine : Str := c%"t=" ++ showTiming ⟨0, 0⟩
private def cLine : Str := c%"c=" ++ showConnection tellConnection
private def iLine : Str := c%"a=" ++ showAttribute .iceLite
private def muxLine : Str := c%"a=" ++ showAttribute .rtcpMux
private def ridLine : Str := c%"a=" ++ showAttribute (.rid tellRid)
private def simLine : Str := c%"a=" ++ showAttribute (.simulcast tellSimulcast)

private abbrev Reads (l : Str) (t : SdpType) : Prop := '\n' ∉ l ∧ lineMeaning l = .ok t

private theorem vReads : Reads vLine (.version 0) := ⟨by decide, line_meaning (C25_version_line 0)⟩
private theorem oReads : Reads oLine (.origin tellOrigin) :=
  ⟨by decide +kernel, line_meaning (C25_origin_line tellOrigin ⟨⟨by decide, by decide⟩, trivial⟩ 0)⟩
private theorem sReads : Reads sLine (.session c%"x") := ⟨by decide, line_meaning (C25_session_line _ 0)⟩
private theorem tReads : Reads tLine (.timing ⟨0, 0⟩) := ⟨by decide, line_meaning (C25_timing_line _ 0)⟩
private theorem cReads : Reads cLine (.connection tellConnection) :=
  ⟨by decide +kernel, line_meaning (C25_connection_line tellConnection ⟨trivial, fun _ => rfl⟩ 0)⟩
private theorem iReads : Reads iLine (.attr .iceLite) := ⟨by decide, line_meaning (C24_attribute_line .iceLite trivial 0)⟩
private theorem muxReads : Reads muxLine (.attr .rtcpMux) := ⟨by decide, line_meaning (C24_attribute_line .rtcpMux trivial 0)⟩
private theorem ridReads : Reads ridLine (.attr (.rid tellRid)) := by
  refine ⟨by decide +kernel, line_meaning (C24_attribute_line _ ?_ 0)⟩
  constructor <;> simp [tellRid, BeginsClean, Rid.Bare]
  decide
private theorem simReads : Reads simLine (.attr (.simulcast tellSimulcast)) := by
  refine ⟨by decide +kernel, line_meaning (C24_attribute_line _ ?_ 0)⟩
  constructor
  · intro v hv
    simp [tellSimulcast] at hv
    subst hv
    constructor
    · intro i hi
      simp at hi
      subst hi
      exact ⟨by decide, by decide⟩
    · simp
    · simp
  · simp [tellSimulcast]
  · simp [tellSimulcast]
private theorem mReads (fs : List UInt16) : Reads (tellM fs) (.media (tellMedia fs)) :=
  ⟨tellM_line fs, line_meaning (C25_media_line _ (tellMedia_wf fs) 0)⟩

private theorem head_writes : Writes [vLine, oLine, sLine, tLine, cLine] tellHead :=
  ⟨vReads, oReads, sReads, tReads, cReads, trivial⟩

/-- Any value can be told. -/
private theorem told (t : SdpType) : ∃ a b A B, Tells A B t ∧ Writes a A ∧ Writes b B := by
  have e : Writes [] [] := trivial
  have h4 : Writes [vLine, oLine, sLine, tLine] [.version 0, .origin tellOrigin, .session c%"x", .timing ⟨0, 0⟩] :=
    ⟨vReads, oReads, sReads, tReads, trivial⟩
  cases t with
  | version v => exact ⟨[], [oLine, sLine, tLine], _, _, tells_version v, e, ⟨oReads, sReads, tReads, trivial⟩⟩
  | origin o => exact ⟨[vLine], [sLine, tLine], _, _, tells_origin o, ⟨vReads, trivial⟩, ⟨sReads, tReads, trivial⟩⟩
  | session n => exact ⟨[vLine, oLine], [tLine], _, _, tells_session n, ⟨vReads, oReads, trivial⟩, ⟨tReads, trivial⟩⟩
  | timing t => exact ⟨[vLine, oLine, sLine], [iLine], _, _, tells_timing t, ⟨vReads, oReads, sReads, trivial⟩, ⟨iReads, trivial⟩⟩
  | connection c => exact ⟨_, [], _, _, tells_connection c, h4, e⟩
  | bandwidth b => exact ⟨_, [], _, _, tells_bandwidth b, h4, e⟩
  | media m => exact ⟨_, [], _, _, tells_media m, head_writes, e⟩
  | attr a =>
    by_cases ha : a.type ∈ mediaOnly
    · have hm : Writes [tellM (formatsIn a), muxLine, ridLine, simLine] [.media (tellMedia (formatsIn a)), .attr .rtcpMux,
          .attr (.rid tellRid), .attr (.simulcast tellSimulcast)] := ⟨mReads _, muxReads, ridReads, simReads, trivial⟩
      exact ⟨_, [], _, _, tells_mediaAttr ha, head_writes.append hm, e⟩
    · exact ⟨_, [], _, _, tells_attr ha, h4, e⟩

/-- Lines around two lines under which they have different outcomes. -/
private def Apart (l l' : Str) : Prop :=
  ∃ a b, (∀ x ∈ a ++ b, '\n' ∉ x) ∧ 51 ≤ byteLen (crlf (a ++ l :: b)) ∧ 51 ≤ byteLen (crlf (a ++ l' :: b)) ∧
    ¬ SameOutcome (parseSdp (crlf (a ++ l :: b)) false) (parseSdp (crlf (a ++ l' :: b)) false)

private theorem Apart.symm {l l' : Str} : Apart l l' → Apart l' l :=
  fun ⟨a, b, h0, h1, h2, h3⟩ => ⟨a, b, h0, h2, h1, fun h => h3 (sameOutcome_symm h)⟩

private theorem surrounds {a b : List Str} {A B : List SdpType} (ha : Writes a A) (hb : Writes b B) :
    ∀ x ∈ (pad :: a) ++ b, '\n' ∉ x := by
  intro x hx
  simp only [List.cons_append, List.mem_cons, List.mem_append] at hx
  rcases hx with rfl | hx | hx
  · decide
  · exact (ha.fine x hx).1
  · exact (hb.fine x hx).1

private theorem apart_value {l l' : Str} (hn : '\n' ∉ l) (hn' : '\n' ∉ l') (hl : l.length < 2^31) (hl' : l'.length < 2^31)
    {t : SdpType} (ht : lineMeaning l = .ok t) (h : ¬ SameSense l l') : Apart l l' := by
  obtain ⟨a, b, A, B, ⟨r0, h1, h2⟩, ha, hb⟩ := told t
  refine ⟨pad :: a, b, surrounds ha hb, pad_long _, pad_long _, ?_⟩
  simp only [List.cons_append]
  have w0 : { r0 with warnings := [] } = r0 := by
    obtain ⟨_, _, _, _, _, _, _, rfl, _⟩ := of_describes h1
    rfl
  intro hs
  cases h3 : parseSdp (crlf (pad :: (a ++ l :: b))) false with
  | panic => rw [h3] at hs; exact hs
  | err e =>
    have : parseSdp (crlf (pad :: (a ++ l :: b))) false =
        .ok { r0 with warnings := unsupportedErrors (contentFrom 0 (pad :: (a ++ l :: b))) } := by
      rw [parse_in ha hb hn]
      refine ⟨.inr (.inl ⟨_, ht⟩), ?_, rfl⟩
      rw [readType_some.2 ht]
      show Describes _ { r0 with warnings := [] }
      rw [w0]
      exact h1
    rw [this] at h3
    cases h3
  | ok r =>
    cases h4 : parseSdp (crlf (pad :: (a ++ l' :: b))) false with
    | panic => rw [h3, h4] at hs; exact hs
    | err e => rw [h3, h4] at hs; exact hs
    | ok r' =>
      rw [h3, h4] at hs
      have e := hs.1
      obtain ⟨-, g3, -⟩ := (parse_in ha hb hn).1 h3
      obtain ⟨-, g4, -⟩ := (parse_in ha hb hn').1 h4
      rw [readType_some.2 ht] at g3
      have er : { r with warnings := [] } = r0 := by
        obtain ⟨_, _, _, _, e1, _, _, e2, _⟩ := of_describes g3
        obtain ⟨_, _, _, _, e3, _, _, e4, _⟩ := of_describes h1
        simp only [Option.toList_some, List.cons_append, List.nil_append] at e1
        rw [e1] at e3
        simp only [List.cons.injEq, SdpType.version.injEq, SdpType.origin.injEq, SdpType.session.injEq] at e3
        obtain ⟨rfl, rfl, rfl, rfl⟩ := e3
        rw [e2, e4]
      rw [← e, er] at g4
      obtain ⟨x', k1, k2⟩ := h2 _ g4
      exact h (sense_of_value hl hl' ht (readType_some.1 k1) k2)

private theorem warnings_tail {ls : List Str} {ts : List SdpType} (h : Writes ls ts) (n : Nat) (l : Str) :
    unsupportedErrors (contentFrom n (ls ++ [l])) = unsupportedErrors (contentFrom (n + ls.length) [l]) := by
  induction ls generalizing ts n with
  | nil => simp
  | cons x ls ih => cases ts with
    | nil => exact h.elim
    | cons t ts =>
      rw [List.cons_append, contentFrom_cons]
      have e := ih h.2 (n + 1)
      rw [show n + 1 + ls.length = n + (x :: ls).length by simp; omega] at e
      split
      · exact e
      · rw [unsupportedErrors_cons, parseSdpLine_record, h.1.2, e]
        simp [recordLine]

private theorem apart_plain {l l' : Str} (hn : '\n' ∉ l) (hn' : '\n' ∉ l') (hl : l.length < 2^31) (hl' : l'.length < 2^31)
    (ht : ∀ t, lineMeaning l ≠ .ok t) (ht' : ∀ t, lineMeaning l' ≠ .ok t) (h : ¬ SameSense l l') : Apart l l' := by
  have ha : Writes [vLine, oLine, sLine, tLine, cLine] tellHead := head_writes
  have hb : Writes [] [] := trivial
  refine ⟨pad :: [vLine, oLine, sLine, tLine, cLine], [], surrounds ha hb, pad_long _, pad_long _, ?_⟩
  change ¬ SameOutcome (parseSdp (crlf (pad :: ([vLine, oLine, sLine, tLine, cLine] ++ [l]))) false)
    (parseSdp (crlf (pad :: ([vLine, oLine, sLine, tLine, cLine] ++ [l']))) false)
  -- what the line is, by the outcome
  have key {l : Str} (hn : '\n' ∉ l) (hl : l.length < 2^31) (ht : ∀ t, lineMeaning l ≠ .ok t) :
      (Blank l ∧ ¬ UnsupportedText l ∧ ∃ r, parseSdp (crlf (pad :: ([vLine, oLine, sLine, tLine, cLine] ++ [l]))) false = .ok r ∧ r.warnings = []) ∨
      (¬ Blank l ∧ UnsupportedText l ∧ ∃ r e, parseSdp (crlf (pad :: ([vLine, oLine, sLine, tLine, cLine] ++ [l]))) false = .ok r ∧ r.warnings = [e]) ∨
      (¬ Blank l ∧ ¬ UnsupportedText l ∧ ∀ r, parseSdp (crlf (pad :: ([vLine, oLine, sLine, tLine, cLine] ++ [l]))) false ≠ .ok r) := by
    have none : readType l = none := by
      cases e : readType l with
      | none => rfl
      | some t => exact absurd (readType_some.1 e) (ht t)
    have desc : ∃ r0 : Session, Describes (valueLines (tellHead ++ ((readType l).toList ++ []))) { r0 with warnings := [] } := by
      rw [none]
      exact ⟨assemble 0 tellOrigin c%"x" (valueLines [.timing ⟨0, 0⟩, .connection tellConnection]) [], describes_values (rest := [.timing ⟨0, 0⟩, .connection tellConnection]) (by simp)
        (goodPart (ts := [.timing ⟨0, 0⟩, .connection tellConnection]) (by simp [SessionLine]) (by simp))
        (by simp [valueLines, sectionsOf])
        (by constructor <;> simp [assemble, valueLines, List.takeWhile_cons, notMedia, timingsOf, connectionsOf, attrsOf, sectionsOf])⟩
    obtain ⟨r0, desc⟩ := desc
    have wt : unsupportedErrors (contentFrom 0 (pad :: ([vLine, oLine, sLine, tLine, cLine] ++ [l]))) =
        unsupportedErrors (contentFrom 6 [l]) := by
      rw [contentFrom_cons, if_pos pad_blank, warnings_tail ha]
      rfl
    by_cases hbl : Blank l
    · refine .inl ⟨hbl, (blank_denotes hbl).2, { r0 with warnings := [] }, ?_, rfl⟩
      rw [parse_in ha hb hn, wt, contentFrom_cons, if_pos hbl]
      exact ⟨.inl hbl, desc, rfl⟩
    · rcases line_classes hl 6 with ⟨t, h1, -, -⟩ | ⟨m, h1, h2, -⟩ | ⟨i, h1, h3, h2, -⟩
      · rw [parseSdpLine_record] at h1
        cases hm : lineMeaning l with
        | ok t => exact absurd hm (ht t)
        | err e => rw [hm] at h1; simp [recordLine] at h1
        | panic => rw [hm] at h1; simp [recordLine] at h1
      · refine .inr (.inl ⟨hbl, h2, { r0 with warnings := [.unsupported (.unsupported m) l 6] }, _, ?_, rfl⟩)
        rw [parse_in ha hb hn, wt, contentFrom_cons, if_neg hbl, unsupportedErrors_cons, h1]
        refine ⟨.inr (.inr ⟨rfl, ?_⟩), desc, rfl⟩
        rw [parseSdpLine_record] at h1
        cases hm : lineMeaning l with
        | ok t => exact absurd hm (ht t)
        | err e => rw [hm] at h1; cases e <;> simp [recordLine, classifyErr] at h1 ⊢
        | panic => rw [hm] at h1; simp [recordLine] at h1
      · refine .inr (.inr ⟨hbl, h2, fun r hr => ?_⟩)
        obtain ⟨hf, -⟩ := (parse_in ha hb hn).1 hr
        rcases hf with hf | ⟨t, hf⟩ | ⟨-, m, hf⟩
        · exact hbl hf
        · exact ht t hf
        · rw [parseSdpLine_record, hf] at h1
          simp [recordLine, classifyErr] at h1
  have nosay {l : Str} (hl : l.length < 2^31) (ht : ∀ t, lineMeaning l ≠ .ok t) (u : SdpType) : ¬ Says l u := by
    intro hu
    obtain ⟨t, h1, -⟩ := of_says hu
    exact ht t ((meaning_iff hl).2 h1)
  intro hs
  apply h
  refine ⟨?_, fun u => ⟨fun hu => absurd hu (nosay hl ht u), fun hu => absurd hu (nosay hl' ht' u)⟩, ?_⟩
  all_goals
    rcases key hn hl ht with ⟨k1, k2, r, k3, k4⟩ | ⟨k1, k2, r, e, k3, k4⟩ | ⟨k1, k2, k3⟩ <;>
    rcases key hn' hl' ht' with ⟨k1', k2', r', k3', k4'⟩ | ⟨k1', k2', r', e', k3', k4'⟩ | ⟨k1', k2', k3'⟩ <;>
    first
      | exact iff_of_true k1 k1'
      | exact iff_of_true k2 k2'
      | exact iff_of_false k1 k1'
      | exact iff_of_false k2 k2'
      | (exfalso
         rw [k3, k3'] at hs
         have := hs.2
         rw [k4, k4'] at this
         exact this.elim)
      | (exfalso
         rw [k3] at hs
         revert hs
         cases q : parseSdp (crlf (pad :: ([vLine, oLine, sLine, tLine, cLine] ++ [l']))) false with
         | ok r => exact absurd q (k3' r)
         | err e => exact id
         | panic => exact id)
      | (exfalso
         rw [k3'] at hs
         revert hs
         cases q : parseSdp (crlf (pad :: ([vLine, oLine, sLine, tLine, cLine] ++ [l]))) false with
         | ok r => exact absurd q (k3 r)
         | err e => exact id
         | panic => exact id)

/-- **C100.** Conversely, two lines that do not say the same can be told apart: there are lines to put before and after them
such that the outcomes differ. -/
theorem C100_told_apart {l l' : Str} (hn : '\n' ∉ l) (hn' : '\n' ∉ l') (hl : l.length < 2^31) (hl' : l'.length < 2^31)
    (h : ¬ SameSense l l') :
    ∃ a b, (∀ x ∈ a ++ b, '\n' ∉ x) ∧ 51 ≤ byteLen (crlf (a ++ l :: b)) ∧ 51 ≤ byteLen (crlf (a ++ l' :: b)) ∧
      ¬ SameOutcome (parseSdp (crlf (a ++ l :: b)) false) (parseSdp (crlf (a ++ l' :: b)) false) := by
  change Apart l l'
  by_cases h1 : ∃ t, lineMeaning l = .ok t
  · obtain ⟨t, ht⟩ := h1
    exact apart_value hn hn' hl hl' ht h
  · by_cases h2 : ∃ t, lineMeaning l' = .ok t
    · obtain ⟨t, ht⟩ := h2
      exact (apart_value hn' hn hl' hl ht fun hc => h ⟨hc.blank.symm, fun u => (hc.value u).symm, hc.unsupported.symm⟩).symm
    · exact apart_plain hn hn' hl hl' (fun t ht => h1 ⟨t, ht⟩) (fun t ht => h2 ⟨t, ht⟩) h

end

section
attribute [local instance] sampleEnv

private def senseA : List Str := [c%"v=0", c%"o=- 1 1 IN IP4 127.0.0.1", c%"s=-", c%"t=0 0", c%"c=IN IP4 0.0.0.0",
  c%"m=audio 9 UDP/TLS/RTP/SAVPF 0 8", c%"", c%"a=setup:active", c%"a=x-unknown"]

private def senseB : List Str := [c%"V = 00", c%"o=-  1 1 IN IP4 127.0.0.1 ", c%"s= - ", c%"t=0 00", c%"c=in ip4 0.0.0.0",
  c%"M=AUDIO 9 udp/tls/rtp/savpf 0 08", c%" ", c%"a=SETUP: Active", c%"a=y-unknown:1"]

/-- A value that both lines have, up to the white space around a session name. -/
private def sameValue (l l' : Str) : Bool :=
  match lineMeaning l, lineMeaning l' with
  | .ok t, .ok t' => decide (t'.trimmed = t.trimmed)
  | _, _ => false

private def sameGap (l l' : Str) : Bool :=
  (decide (Blank l) && decide (Blank l')) ||
    (match parseSdpLine l 0, parseSdpLine l' 0 with
     | .err (.unsupported _ _ _), .err (.unsupported _ _ _) => !decide (Blank l) && !decide (Blank l')
     | _, _ => false)

private theorem sense_of_checks {l l' : Str} (hl : l.length < 2^31) (hl' : l'.length < 2^31)
    (h : (sameValue l l' || sameGap l l') = true) : SameSense l l' := by
  rw [Bool.or_eq_true] at h
  rcases h with h | h
  · unfold sameValue at h
    split at h
    · rename_i t t' e e'
      exact sense_of_value hl hl' e e' (of_decide_eq_true h)
    · cases h
  · unfold sameGap at h
    rw [Bool.or_eq_true] at h
    rcases h with h | h
    · rw [Bool.and_eq_true] at h
      have b := of_decide_eq_true h.1
      have b' := of_decide_eq_true h.2
      have no {l : Str} (b : Blank l) (t : SdpType) : ¬ Says l t := fun hs =>
        let ⟨_, h1, _⟩ := of_says hs
        (blank_denotes b).1 _ h1
      exact ⟨iff_of_true b b', fun t => iff_of_false (no b t) (no b' t), iff_of_false (blank_denotes b).2 (blank_denotes b').2⟩
    · have cls {l : Str} (hl : l.length < 2^31) {i : InternalError} {x : Str} {n : Nat}
          (e : parseSdpLine l 0 = .err (.unsupported i x n)) : UnsupportedText l ∧ ∀ t, ¬ Says l t := by
        rcases line_classes hl 0 with ⟨t, h1, -, -⟩ | ⟨m, h1, h2, h3⟩ | ⟨i, h1, -, -, -⟩
        · rw [e] at h1; cases h1
        · exact ⟨h2, fun t hs => let ⟨_, k1, _⟩ := of_says hs; h3 _ k1⟩
        · rw [e] at h1; cases h1
      split at h
      · rename_i e e'
        rw [Bool.and_eq_true] at h
        have b : ¬ Blank l := by simpa using h.1
        have b' : ¬ Blank l' := by simpa using h.2
        exact ⟨iff_of_false b b', fun t => iff_of_false ((cls hl e).2 t) ((cls hl' e').2 t), iff_of_true (cls hl e).1 (cls hl' e').1⟩
      · cases h

/-- Two texts whose lines differ but say the same: the hypotheses of C100. -/
example : Each SameSense senseA senseB ∧ senseA ≠ senseB ∧ TextLines (crlf senseA) senseA ∧ TextLines (crlf senseB) senseB ∧
    51 ≤ byteLen (crlf senseA) ∧ byteLen (crlf senseA) < 2^31 ∧ 51 ≤ byteLen (crlf senseB) ∧ byteLen (crlf senseB) < 2^31 := by
  refine ⟨?_, by decide +kernel, textLines_iff.2 (by decide +kernel), textLines_iff.2 (by decide +kernel), by decide +kernel,
    by decide +kernel, by decide +kernel, by decide +kernel⟩
  unfold senseA senseB
  refine ⟨?_, ?_, ?_, ?_, ?_, ?_, ?_, ?_, ?_, trivial⟩
  all_goals exact sense_of_checks (by decide +kernel) (by decide +kernel) (by decide +kernel)

/-- Both are accepted, with one warning each. -/
example : (match parseSdp (crlf senseA) false, parseSdp (crlf senseB) false with
    | .ok r, .ok r' => decide ({ r with warnings := [] } = { r' with warnings := [] } ∧ r.warnings.length = 1 ∧ r'.warnings.length = 1 ∧
        r.media.length = 1)
    | _, _ => false) = true := by decide +kernel

/-- Two lines that say different things, and two of which one says nothing: the hypotheses of the converse. -/
example : ¬ SameSense c%"a=ptime:20" c%"a=ptime:21" ∧ ¬ SameSense c%"a=x-unknown" c%"" := by
  constructor
  · intro h
    have h1 : LineDenotes c%"a=ptime:20" (.attr (.ptime 20)) := (meaning_iff (by decide)).1 (by decide +kernel)
    have h2 : LineDenotes c%"a=ptime:21" (.attr (.ptime 21)) := (meaning_iff (by decide)).1 (by decide +kernel)
    have h0 : LineDenotes c%"a=ptime:21" (.attr (.ptime 20)) := (h.value (.attr (.ptime 20))).1 h1
    have h3 := denotes_unique (by decide) h0 h2
    exact absurd h3 (by decide)
  · intro h
    exact absurd (h.blank.2 (by decide)) (by decide)

end

end Sdp
