import Verif.Spec.Alike
import Verif.Props.Range
import Verif.Props.Settle
/-!
# C122: which parsed values are written alike
-/

namespace Sdp

section
variable [Env]

/-! ### Lines -/

omit [Env] in
private theorem take_block {P : Str → Prop} [DecidablePred P] {x y x' y' : List Str} (h : x ++ y = x' ++ y')
    (hx : ∀ l ∈ x, P l) (hx' : ∀ l ∈ x', P l) (hy : ∀ l, y.head? = some l → ¬ P l) (hy' : ∀ l, y'.head? = some l → ¬ P l) :
    x = x' ∧ y = y' := by
  induction x generalizing x' with
  | nil =>
    cases x' with
    | nil => exact ⟨rfl, h⟩
    | cons a x' =>
      rw [List.nil_append] at h
      exact absurd (hx' a (by simp)) (hy a (by rw [h]; rfl))
  | cons a x ih =>
    cases x' with
    | nil =>
      rw [List.nil_append] at h
      exact absurd (hx a (by simp)) (hy' a (by rw [← h]; rfl))
    | cons b x' =>
      rw [List.cons_append, List.cons_append, List.cons.injEq] at h
      obtain ⟨e1, e2⟩ := ih h.2 (fun l hl => hx l (by simp [hl])) (fun l hl => hx' l (by simp [hl]))
      exact ⟨by rw [h.1, e1], e2⟩

/-- The first character of a line. -/
private abbrev Letter (c : Char) (l : Str) : Prop := l.head? = some c

omit [Env] in
private theorem textLines_letter {c : Char} {ts : List Str} : ∀ l ∈ textLines [c, '='] ts, Letter c l := by
  intro l hl
  unfold textLines at hl
  split at hl
  · cases hl
  · split at hl
    · rw [List.mem_singleton.1 hl]; rfl
    · obtain ⟨t, _, rfl⟩ := List.mem_map.1 hl; rfl

omit [Env] in
private theorem head_append {α : Type} {x y : List α} {l : α} (h : (x ++ y).head? = some l) :
    x.head? = some l ∨ x = [] ∧ y.head? = some l := by
  cases x with
  | nil => exact .inr ⟨rfl, h⟩
  | cons a x => exact .inl h

omit [Env] in
private theorem media_head {ms : List Media} : ∀ l, (ms.flatMap Media.lines).head? = some l → Letter 'm' l := by
  intro l hl
  cases ms with
  | nil => cases hl
  | cons m ms => cases hl; rfl

omit [Env] in
private theorem bandwidth_ne (b : Bandwidth) : showBandwidth b ≠ [] := by
  cases b <;> simp [showBandwidth]

omit [Env] in
private theorem bandwidth_lines (bs : List Bandwidth) :
    textLines c%"b=" (bs.map showBandwidth) = bs.map fun b => c%"b=" ++ showBandwidth b := by
  cases bs with
  | nil => rfl
  | cons b bs =>
    have hf : ((b :: bs).map showBandwidth).filter (fun t => decide (t ≠ [])) = (b :: bs).map showBandwidth := by
      rw [List.filter_eq_self]
      intro t ht
      obtain ⟨c, _, rfl⟩ := List.mem_map.1 ht
      simpa using bandwidth_ne c
    unfold textLines
    rw [if_neg (by simp), if_neg (fun h => bandwidth_ne b (h _ (by simp))), hf, List.map_map]
    rfl

omit [Env] in
/-- The a= lines are the same exactly if the attributes are alike. -/
private theorem attr_lines (as bs : List Attribute) :
    textLines c%"a=" (as.map showAttribute) = textLines c%"a=" (bs.map showAttribute) ↔ AttrsAlike as bs := by
  have key : ∀ ts : List Str, textLines c%"a=" ts =
      if ts.filter (fun t => decide (t ≠ [])) = [] then (if ts = [] then [] else [c%"a="])
      else (ts.filter (fun t => decide (t ≠ []))).map fun t => c%"a=" ++ t := by
    intro ts
    unfold textLines
    by_cases h1 : ts = []
    · subst h1; rfl
    · rw [if_neg h1]
      by_cases h2 : ∀ t ∈ ts, t = []
      · rw [if_pos h2, if_pos, if_neg h1]
        rw [List.filter_eq_nil_iff]
        intro t ht
        simp [h2 t ht]
      · rw [if_neg h2, if_neg]
        rw [List.filter_eq_nil_iff]
        intro h
        exact h2 fun t ht => by simpa using h t ht
  have inj : Function.Injective fun t : Str => c%"a=" ++ t := fun a b h => List.append_cancel_left h
  have long : ∀ ts : List Str, ts.filter (fun t => decide (t ≠ [])) ≠ [] →
      (ts.filter (fun t => decide (t ≠ []))).map (fun t => c%"a=" ++ t) ≠ [c%"a="] := by
    intro ts h e
    obtain ⟨t, rest, e'⟩ := List.exists_cons_of_ne_nil h
    have hm : t ∈ ts.filter (fun t => decide (t ≠ [])) := by rw [e']; simp
    rw [e', List.map_cons, List.cons.injEq] at e
    have : t = [] := inj (a₂ := []) e.1
    simp [this] at hm
  constructor
  · intro h
    rw [key, key] at h
    by_cases h1 : (as.map showAttribute).filter (fun t => decide (t ≠ [])) = [] <;>
    by_cases h2 : (bs.map showAttribute).filter (fun t => decide (t ≠ [])) = []
    · rw [if_pos h1, if_pos h2] at h
      refine ⟨h1.trans h2.symm, ?_⟩
      cases as <;> cases bs <;> simp at h ⊢
    · rw [if_pos h1, if_neg h2] at h
      exfalso
      split at h
      · exact h2 (List.map_eq_nil_iff.1 h.symm)
      · exact long _ h2 h.symm
    · rw [if_neg h1, if_pos h2] at h
      exfalso
      split at h
      · exact h1 (List.map_eq_nil_iff.1 h)
      · exact long _ h1 h
    · rw [if_neg h1, if_neg h2] at h
      refine ⟨List.map_injective_iff.2 inj h, ?_⟩
      constructor
      · rintro rfl; exact absurd rfl h1
      · rintro rfl; exact absurd rfl h2
  · rintro ⟨h1, h2⟩
    rw [key, key, h1]
    simp only [List.map_eq_nil_iff, h2]

omit [Env] in
private theorem body_split {bs bs' : List Bandwidth} {c c' : Option Connection} {as as' : List Attribute} {ms ms' : List Media}
    (h : bodyLines bs c as ++ ms.flatMap Media.lines = bodyLines bs' c' as' ++ ms'.flatMap Media.lines) :
    (bs.map fun b => c%"b=" ++ showBandwidth b) = (bs'.map fun b => c%"b=" ++ showBandwidth b) ∧
    (c.toList.map fun c => c%"c=" ++ showConnection c) = (c'.toList.map fun c => c%"c=" ++ showConnection c) ∧
    AttrsAlike as as' ∧ ms.flatMap Media.lines = ms'.flatMap Media.lines := by
  have hc : ∀ o : Option Connection, ∀ l ∈ (o.toList.map fun c => c%"c=" ++ showConnection c), Letter 'c' l := by
    intro o l hl
    obtain ⟨x, _, rfl⟩ := List.mem_map.1 hl; rfl
  have ne : ∀ {c d : Char} {l : Str}, c ≠ d → Letter c l → ¬ Letter d l := by
    intro c d l hcd h h'
    exact hcd (Option.some.inj (h.symm.trans h'))
  have hhead : ∀ {x : List Str} {l : Str} {c : Char}, (∀ l ∈ x, Letter c l) → x.head? = some l → Letter c l :=
    fun hx hl => hx _ (List.mem_of_head? hl)
  unfold bodyLines at h
  simp only [List.append_assoc] at h
  obtain ⟨e1, h⟩ := take_block (P := Letter 'b') h (textLines_letter) (textLines_letter)
    (fun l hl => by
      rcases head_append hl with hl | ⟨-, hl⟩
      · exact ne (by decide) (hhead (hc c) hl)
      · rcases head_append hl with hl | ⟨-, hl⟩
        · exact ne (by decide) (hhead (textLines_letter (c := 'a')) hl)
        · exact ne (by decide) (media_head l hl))
    (fun l hl => by
      rcases head_append hl with hl | ⟨-, hl⟩
      · exact ne (by decide) (hhead (hc c') hl)
      · rcases head_append hl with hl | ⟨-, hl⟩
        · exact ne (by decide) (hhead (textLines_letter (c := 'a')) hl)
        · exact ne (by decide) (media_head l hl))
  obtain ⟨e2, h⟩ := take_block (P := Letter 'c') h (hc c) (hc c')
    (fun l hl => by
      rcases head_append hl with hl | ⟨-, hl⟩
      · exact ne (by decide) (hhead (textLines_letter (c := 'a')) hl)
      · exact ne (by decide) (media_head l hl))
    (fun l hl => by
      rcases head_append hl with hl | ⟨-, hl⟩
      · exact ne (by decide) (hhead (textLines_letter (c := 'a')) hl)
      · exact ne (by decide) (media_head l hl))
  obtain ⟨e3, h⟩ := take_block (P := Letter 'a') h (textLines_letter) (textLines_letter)
    (fun l hl => ne (by decide) (media_head l hl)) (fun l hl => ne (by decide) (media_head l hl))
  rw [bandwidth_lines, bandwidth_lines] at e1
  exact ⟨e1, e2, (attr_lines _ _).1 e3, h⟩

private theorem origin_inj {o o' : Origin} (h : o.WF) (h' : o'.WF) (e : c%"o=" ++ showOrigin o = c%"o=" ++ showOrigin o') : o = o' := by
  have h1 := C25_origin_line o h 0
  rw [e, C25_origin_line o' h' 0] at h1
  simpa using h1.symm

private theorem timing_inj {t t' : Timing} (e : c%"t=" ++ showTiming t = c%"t=" ++ showTiming t') : t = t' := by
  have h1 := C25_timing_line t 0
  rw [e, C25_timing_line t' 0] at h1
  simpa using h1.symm

private theorem connection_inj {c c' : Connection} (h : c.WF) (h' : c'.WF)
    (e : c%"c=" ++ showConnection c = c%"c=" ++ showConnection c') : c = c' := by
  have h1 := C25_connection_line c h 0
  rw [e, C25_connection_line c' h' 0] at h1
  simpa using h1.symm

private theorem media_inj {m m' : MediaLine} (h : m.WF) (h' : m'.WF)
    (e : c%"m=" ++ showMediaLine m = c%"m=" ++ showMediaLine m') : m = m' := by
  have h1 := C25_media_line m h 0
  rw [e, C25_media_line m' h' 0] at h1
  simpa using h1.symm

private theorem bandwidth_inj {bs bs' : List Bandwidth} (h : ∀ b ∈ bs, b.WF) (h' : ∀ b ∈ bs', b.WF)
    (e : (bs.map fun b => c%"b=" ++ showBandwidth b) = bs'.map fun b => c%"b=" ++ showBandwidth b) : bs = bs' := by
  induction bs generalizing bs' with
  | nil => cases bs' with
    | nil => rfl
    | cons b bs' => cases e
  | cons b bs ih =>
    cases bs' with
    | nil => cases e
    | cons b' bs' =>
      rw [List.map_cons, List.map_cons, List.cons.injEq] at e
      have h1 := C25_bandwidth_line b (h b (by simp)) 0
      rw [e.1, C25_bandwidth_line b' (h' b' (by simp)) 0] at h1
      rw [ih (fun b hb => h b (by simp [hb])) (fun b hb => h' b (by simp [hb])) e.2]
      simpa using h1.symm

private theorem option_inj {c c' : Option Connection} (h : ∀ x, c = some x → x.WF) (h' : ∀ x, c' = some x → x.WF)
    (e : (c.toList.map fun c => c%"c=" ++ showConnection c) = c'.toList.map fun c => c%"c=" ++ showConnection c) : c = c' := by
  cases c <;> cases c'
  · rfl
  · cases e
  · cases e
  · simp only [Option.toList, List.map_cons, List.map_nil, List.cons.injEq, and_true] at e
    rw [connection_inj (h _ rfl) (h' _ rfl) e]

private theorem sections_inj {ms ms' : List Media} (h : ∀ m ∈ ms, m.Readable) (h' : ∀ m ∈ ms', m.Readable)
    (e : ms.flatMap Media.lines = ms'.flatMap Media.lines) : List.Forall₂ Media.Alike ms ms' := by
  induction ms generalizing ms' with
  | nil => cases ms' with
    | nil => exact .nil
    | cons m ms' => simp [Media.lines] at e
  | cons m ms ih =>
    cases ms' with
    | nil => simp [Media.lines] at e
    | cons m' ms' =>
      obtain ⟨e1, e2⟩ := List.cons.inj (show (c%"m=" ++ showMediaLine m.media) ::
        (bodyLines m.bandwidth m.connection m.attrs ++ ms.flatMap Media.lines) = (c%"m=" ++ showMediaLine m'.media) ::
        (bodyLines m'.bandwidth m'.connection m'.attrs ++ ms'.flatMap Media.lines) from e)
      obtain ⟨b1, b2, b3, b4⟩ := body_split e2
      have r := h m (by simp)
      have r' := h' m' (by simp)
      exact .cons ⟨media_inj r.media r'.media e1, bandwidth_inj r.bandwidth r'.bandwidth b1,
        option_inj r.connection r'.connection b2, b3⟩
        (ih (fun m hm => h m (by simp [hm])) (fun m hm => h' m (by simp [hm])) b4)

omit [Env] in
private theorem sections_alike {ms ms' : List Media} (h : List.Forall₂ Media.Alike ms ms') :
    ms.flatMap Media.lines = ms'.flatMap Media.lines := by
  induction h with
  | nil => rfl
  | cons h _ ih =>
    rw [List.flatMap_cons, List.flatMap_cons, ih, Media.lines, Media.lines, bodyLines, bodyLines, h.media, h.bandwidth,
      h.connection, (attr_lines _ _).2 h.attrs]

/-- **C122.** Two sessions that can be read have the same text exactly if they are alike: all that is written is the
same, field by field, and of the attributes the texts are the same. -/
theorem C122_session {s s' : Session} (h : s.Readable) (h' : s'.Readable) :
    showSession s = showSession s' ↔ s.Alike s' := by
  rw [showSession_lines, showSession_lines]
  constructor
  · intro e
    have el : s.lines = s'.lines := by
      rw [← lines_crlf_any (ls := s.lines) (Free.sessionLines (.inl rfl) h.lineFeeds), e,
        lines_crlf_any (Free.sessionLines (.inl rfl) h'.lineFeeds)]
    obtain ⟨_, el⟩ := List.cons.inj (show _ :: _ = _ :: _ from el)
    obtain ⟨e2, el⟩ := List.cons.inj (show _ :: _ = _ :: _ from el)
    obtain ⟨e3, e4⟩ := List.cons.inj (show _ :: _ = _ :: _ from el)
    have ht : ∀ o : Option Timing, ∀ l ∈ (o.toList.map fun t => c%"t=" ++ showTiming t), Letter 't' l := by
      intro o l hl
      obtain ⟨x, _, rfl⟩ := List.mem_map.1 hl; rfl
    have hb : ∀ (bs : List Bandwidth) (c : Option Connection) (as : List Attribute) (ms : List Media) l,
        (bodyLines bs c as ++ ms.flatMap Media.lines).head? = some l → ¬ Letter 't' l := by
      intro bs c as ms l hl hh
      have ne : ∀ {c : Char}, c ≠ 't' → ¬ Letter c l := by
        intro c hc h
        exact hc (Option.some.inj (h.symm.trans hh))
      rcases head_append hl with hl | ⟨-, hl⟩
      · have hm := List.mem_of_head? hl
        unfold bodyLines at hm
        rcases List.mem_append.1 hm with hm | hm
        · exact ne (by decide) (textLines_letter l hm)
        · rcases List.mem_append.1 hm with hm | hm
          · obtain ⟨x, _, rfl⟩ := List.mem_map.1 hm
            exact ne (c := 'c') (by decide) rfl
          · exact ne (by decide) (textLines_letter l hm)
      · exact ne (by decide) (media_head l hl)
    change (s.timing.toList.map fun t => c%"t=" ++ showTiming t) ++ (bodyLines s.bandwidth s.connection s.attrs ++
      s.media.flatMap Media.lines) = (s'.timing.toList.map fun t => c%"t=" ++ showTiming t) ++
      (bodyLines s'.bandwidth s'.connection s'.attrs ++ s'.media.flatMap Media.lines) at e4
    obtain ⟨e5, e6⟩ := take_block (P := Letter 't') e4 (ht _) (ht _) (hb _ _ _ _) (hb _ _ _ _)
    obtain ⟨b1, b2, b3, b4⟩ := body_split e6
    refine ⟨h.version.trans h'.version.symm, origin_inj h.origin h'.origin e2, ?_, ?_, bandwidth_inj h.bandwidth h'.bandwidth b1,
      option_inj h.connection h'.connection b2, b3, sections_inj h.media h'.media b4⟩
    · have hne : ∀ t, Trimmed t → t ≠ c%" " := by
        rintro t ht rfl
        obtain ⟨⟨c, r, e, hc⟩, -⟩ := ht
        cases e
        revert hc; decide
      have e3 := List.append_cancel_left (as := c%"s=") e3
      cases hs : s.session with
      | none =>
        cases hs' : s'.session with
        | none => rfl
        | some t =>
          rw [hs, hs'] at e3
          exact absurd e3.symm (hne t (h'.name t hs'))
      | some t =>
        cases hs' : s'.session with
        | none =>
          rw [hs, hs'] at e3
          exact absurd e3 (hne t (h.name t hs))
        | some t' =>
          rw [hs, hs'] at e3
          rw [show t = t' from e3]
    · cases hs : s.timing <;> cases hs' : s'.timing <;> rw [hs, hs'] at e5
      · cases e5
      · cases e5
      · simp only [Option.toList, List.map_cons, List.map_nil, List.cons.injEq, and_true] at e5
        rw [timing_inj e5]
  · intro a
    rw [Session.lines, Session.lines, a.version, a.origin, a.session, a.timing, bodyLines, bodyLines, a.bandwidth, a.connection,
      (attr_lines _ _).2 a.attrs, sections_alike a.media]

/-! ### Attributes -/

omit [Env] in
private theorem plain_of_type {a : Attribute} (h : a.type ∉ ambiguousTypes) : a.Plain := by
  cases a <;> first | trivial | exact absurd (by simp [Attribute.type, ambiguousTypes]) h

/-- The first character tells the types apart. -/
private def initial : AttributeType → Option Char
  | .fmtp => some 'f'
  | .imageAttr => some 'i'
  | .msidSemantic => some 'm'
  | .rid => some 'r'
  | .simulcast => some 's'
  | _ => none

omit [Env] in
private theorem attrToString_head {t : AttributeType} {v : Str} (h : t ∈ ambiguousTypes) (hv : v ≠ []) :
    (attrToString t v).head? = initial t := by
  unfold attrToString
  rw [if_neg (by simpa using hv)]
  revert h
  cases t <;> first | (intro; rfl) | (intro h; exact absurd h (by decide))

omit [Env] in
private theorem joinS_ne {sep x : Str} {l : List Str} (hx : x ∈ l) (h : x ≠ []) : joinS sep l ≠ [] := by
  induction l with
  | nil => cases hx
  | cons y l ih =>
    cases l with
    | nil => rw [List.mem_singleton.1 hx] at h; exact h
    | cons z l =>
      rcases List.mem_cons.1 hx with rfl | hx
      · simp [joinS, h]
      · simp [joinS, ih hx]

private theorem text_initial {a : Attribute} (h : a.Readable) (ht : a.type ∈ ambiguousTypes) :
    showAttribute a = [] ∧ a.type = .fmtp ∨ (showAttribute a).head? = initial a.type := by
  have go : ∀ t v, t ∈ ambiguousTypes → v ≠ [] → (attrToString t v).head? = initial t := fun t v => attrToString_head
  cases a with
  | fmtp f =>
    by_cases hv : showFmtp f = []
    · left; exact ⟨by show attrToString _ _ = _; rw [hv]; rfl, rfl⟩
    · exact .inr (go _ _ (by decide) hv)
  | imageAttr i =>
    refine .inr (go _ _ (by decide) ?_)
    have : showPayloadType i.pt ≠ [] := by
      cases i.pt with
      | wildcard => simp [showPayloadType]
      | pt p => exact fun h => showNat_ne_nil _ h
    simp [showImageAttr, this]
  | msidSemantic m => exact .inr (go _ _ (by decide) (by simp [showMsidSemantic]))
  | rid r => exact .inr (go _ _ (by decide) (by simp [showRid]))
  | simulcast x =>
    refine .inr (go _ _ (by decide) ?_)
    have hm : ∀ p : Str, ∀ l : List SimulcastVersion, p ≠ [] → l ≠ [] → maybeVec p [] c%";" (l.map showSimulcastVersion) ≠ [] := by
      intro p l hp hl
      obtain ⟨v, l, rfl⟩ := List.exists_cons_of_ne_nil hl
      simp [maybeVec, hp]
    rcases h.some with hs | hs
    · have := hm c%"send " _ (by simp) hs
      refine joinS_ne (x := maybeVec c%"send " [] c%";" (x.send.map showSimulcastVersion)) ?_ this
      simp only [nonEmpty, List.mem_filter, List.mem_cons, true_or, true_and]
      simpa using this
    · have := hm c%"recv " _ (by simp) hs
      refine joinS_ne (x := maybeVec c%"recv " [] c%";" (x.receive.map showSimulcastVersion)) ?_ this
      simp only [nonEmpty, List.mem_filter, List.mem_cons, true_or, or_true, true_and]
      simpa using this
  | _ => exact absurd ht (by simp [Attribute.type, ambiguousTypes])

theorem plain_inj (L : Laws) {a b : Attribute} (ha : a.Readable) (hb : b.Readable) (pa : a.Plain) (pb : b.Plain)
    (e : showAttribute a = showAttribute b) : a = b := by
  have h1 := (C88_attribute_iff L a).2 ((C120_wf L a).2 ⟨ha, pa⟩)
  rw [e, (C88_attribute_iff L b).2 ((C120_wf L b).2 ⟨hb, pb⟩)] at h1
  cases h1; rfl

/-- **C122.** Two attributes that can be read and have the same text are equal, unless they are of the same one of five
types and one of them at least does not survive printing. -/
theorem C122_attribute (L : Laws) {a b : Attribute} (ha : a.Readable) (hb : b.Readable)
    (e : showAttribute a = showAttribute b) :
    a = b ∨ a.type = b.type ∧ a.type ∈ ambiguousTypes ∧ ¬ (a.Plain ∧ b.Plain) := by
  have mixed : ∀ {a b : Attribute}, a.Readable → b.Readable → a.Plain → showAttribute a = showAttribute b → a.type = b.type := by
    intro a b ha hb pa e
    obtain ⟨l, hl⟩ := (C120_attribute L b).2 hb
    have h1 := (C88_attribute_iff L a).2 ((C120_wf L a).2 ⟨ha, pa⟩)
    rw [e] at h1
    exact (C90_attribute L hl h1).1
  have amb : ∀ {a : Attribute}, ¬ a.Plain → a.type ∈ ambiguousTypes := fun h => by
    by_contra hc
    exact h (plain_of_type hc)
  by_cases pa : a.Plain <;> by_cases pb : b.Plain
  · exact .inl (plain_inj L ha hb pa pb e)
  · have := mixed ha hb pa e
    exact .inr ⟨this, this ▸ amb pb, fun h => pb h.2⟩
  · have := mixed hb ha pb e.symm
    exact .inr ⟨this.symm, amb pa, fun h => pa h.1⟩
  · refine .inr ⟨?_, amb pa, fun h => pa h.1⟩
    have ta := amb pa
    have tb := amb pb
    rcases text_initial ha ta with ⟨e1, t1⟩ | t1 <;> rcases text_initial hb tb with ⟨e2, t2⟩ | t2
    · rw [t1, t2]
    · rw [← e, e1] at t2
      revert t2 tb
      generalize b.type = t
      cases t <;> first | (intro h; exact absurd h (by decide)) | (intro _ h; cases h)
    · rw [e, e2] at t1
      revert t1 ta
      generalize a.type = t
      cases t <;> first | (intro h; exact absurd h (by decide)) | (intro _ h; cases h)
    · rw [e, t2] at t1
      clear e t2 amb mixed
      revert t1 ta tb
      generalize a.type = t
      generalize b.type = u
      intro ta tb
      simp only [ambiguousTypes, List.mem_cons, List.not_mem_nil, or_false] at ta tb
      rcases ta with rfl | rfl | rfl | rfl | rfl <;> rcases tb with rfl | rfl | rfl | rfl | rfl <;> simp [initial]

/-- **C122.** msid-semantic: no ids are written as the id `*`, and nothing else is written alike. -/
theorem C122_msidSemantic (L : Laws) {m n : MsidSemantic} (hm : (Attribute.msidSemantic m).Readable)
    (hn : (Attribute.msidSemantic n).Readable) :
    showAttribute (.msidSemantic m) = showAttribute (.msidSemantic n) ↔ m.semantic = n.semantic ∧
      (if m.msids = [] then [c%"*"] else m.msids) = (if n.msids = [] then [c%"*"] else n.msids) := by
  have hshow : ∀ m : MsidSemantic, showAttribute (.msidSemantic m) =
      showAttribute (.msidSemantic ⟨m.semantic, if m.msids = [] then [c%"*"] else m.msids⟩) := by
    intro m
    obtain ⟨s, l⟩ := m
    cases l <;> rfl
  have hr : ∀ m : MsidSemantic, (Attribute.msidSemantic m).Readable →
      (Attribute.msidSemantic ⟨m.semantic, if m.msids = [] then [c%"*"] else m.msids⟩).Readable ∧
      (Attribute.msidSemantic ⟨m.semantic, if m.msids = [] then [c%"*"] else m.msids⟩).Plain := by
    intro m h
    obtain ⟨s, l⟩ := m
    cases l with
    | nil => exact ⟨⟨h.1, fun t ht => by rw [List.mem_singleton.1 ht]; exact ⟨by decide, by decide⟩⟩, by simp [Attribute.Plain]⟩
    | cons x l => exact ⟨by simpa using h, by simp [Attribute.Plain]⟩
  constructor
  · intro e
    rw [hshow m, hshow n] at e
    have := plain_inj L (hr m hm).1 (hr n hn).1 (hr m hm).2 (hr n hn).2 e
    simpa using this
  · rintro ⟨e1, e2⟩
    rw [hshow m, hshow n, e1, e2]

omit [Env] in
private theorem float_unsigned (x : F32) : F32.text x.unsigned = F32.text x := by
  unfold F32.unsigned
  split
  · rename_i h; rw [h]; decide +kernel
  · rfl

omit [Env] in
private theorem set_unsigned (s : ImageAttrSet) : showImageAttrSet s.unsigned = showImageAttrSet s := by
  obtain ⟨x, y, sar, par, q⟩ := s
  have h1 : optStr c%",sar=" showSRange (sar.map SRange.unsigned) = optStr c%",sar=" showSRange sar := by
    cases sar with
    | none => rfl
    | some r =>
      cases r with
      | range => rfl
      | discrete l =>
        match l with
        | [] => rfl
        | [v] =>
          show c%",sar=" ++ showDiscrete F32.text [v.unsigned] = c%",sar=" ++ showDiscrete F32.text [v]
          simp only [showDiscrete, float_unsigned]
        | _ :: _ :: _ => rfl
  have h2 : optStr c%",q=" F32.text (q.map F32.unsigned) = optStr c%",q=" F32.text q := by
    cases q with
    | none => rfl
    | some v => simp only [Option.map_some, optStr, float_unsigned]
  simp only [showImageAttrSet, ImageAttrSet.unsigned, h1, h2]

omit [Env] in
private theorem list_unsigned (p : Str) (l : ImageAttrSetList) :
    optStr p showImageAttrSetList (maybeSets l.unsigned) = optStr p showImageAttrSetList (maybeSets l) := by
  cases l with
  | wildcard => rfl
  | sets l =>
    cases l with
    | nil => rfl
    | cons s l =>
      show p ++ joinS c%" " (((s :: l).map ImageAttrSet.unsigned).map showImageAttrSet) =
        p ++ joinS c%" " ((s :: l).map showImageAttrSet)
      rw [List.map_map, show showImageAttrSet ∘ ImageAttrSet.unsigned = showImageAttrSet from funext set_unsigned]

omit [Env] in
private theorem float_plain (x : F32) : x.unsigned ≠ ⟨0xffc00000⟩ := by
  unfold F32.unsigned
  split
  · decide
  · assumption

omit [Env] in
private theorem float_readable {x : F32} (h : FloatReadable x) : FloatReadable x.unsigned := by
  unfold F32.unsigned
  split
  · exact fun _ => .inl rfl
  · exact h

omit [Env] in
private theorem set_good {s : ImageAttrSet} (h : s.Readable) : s.unsigned.Readable ∧ s.unsigned.Plain := by
  obtain ⟨x, y, sar, par, q⟩ := s
  refine ⟨⟨h.x, h.y, ?_, h.par, ?_⟩, ⟨?_, ?_⟩⟩
  · intro r hr
    cases sar with
    | none => cases hr
    | some r0 =>
      obtain rfl : r0.unsigned = r := Option.some.inj hr
      rcases h.sar r0 rfl with hw | ⟨v, rfl, hv⟩
      · match r0 with
        | .range _ _ => exact .inl hw
        | .discrete [] => exact .inl hw
        | .discrete (_ :: _ :: _) => exact .inl hw
        | .discrete [v] =>
          by_cases hv : v = ⟨0xffc00000⟩
          · right; exact ⟨_, rfl, by subst hv; exact fun _ => .inl rfl⟩
          · left
            have : v.unsigned = v := by unfold F32.unsigned; rw [if_neg hv]
            show SRange.WF (.discrete [v.unsigned])
            rw [this]; exact hw
      · right; exact ⟨_, rfl, float_readable hv⟩
  · intro v hv
    cases q with
    | none => cases hv
    | some w =>
      obtain rfl : w.unsigned = v := Option.some.inj hv
      exact float_readable (h.q w rfl)
  · intro v hv
    cases sar with
    | none => cases hv
    | some r =>
      match r with
      | .range _ _ => cases hv
      | .discrete [] => cases hv
      | .discrete (_ :: _ :: _) => cases hv
      | .discrete [w] =>
        obtain rfl : w.unsigned = v := by simpa [ImageAttrSet.unsigned, SRange.unsigned] using hv
        exact float_plain w
  · intro v hv
    cases q with
    | none => cases hv
    | some w =>
      obtain rfl : w.unsigned = v := Option.some.inj hv
      exact float_plain w

omit [Env] in
private theorem list_good {l : ImageAttrSetList} (h : l.Readable) : l.unsigned.Readable ∧ l.unsigned.Plain ∧ l.unsigned.count = l.count := by
  cases l with
  | wildcard => exact ⟨trivial, trivial, rfl⟩
  | sets l =>
    refine ⟨fun s hs => ?_, fun s hs => ?_, by simp [ImageAttrSetList.unsigned, ImageAttrSetList.count]⟩
    · obtain ⟨t, ht, rfl⟩ := List.mem_map.1 hs
      exact (set_good (h t ht)).1
    · obtain ⟨t, ht, rfl⟩ := List.mem_map.1 hs
      exact (set_good (h t ht)).2

/-- **C122.** imageattr: values are written alike exactly if they differ in the signs of NaNs only. -/
theorem C122_imageAttr (L : Laws) {i j : ImageAttr} (hi : (Attribute.imageAttr i).Readable)
    (hj : (Attribute.imageAttr j).Readable) :
    showAttribute (.imageAttr i) = showAttribute (.imageAttr j) ↔ i.unsigned = j.unsigned := by
  have hshow : ∀ i : ImageAttr, showAttribute (.imageAttr i) = showAttribute (.imageAttr i.unsigned) := by
    intro i
    show attrToString _ (showImageAttr i) = attrToString _ (showImageAttr i.unsigned)
    simp only [showImageAttr, ImageAttr.unsigned, list_unsigned]
  have good : ∀ {i : ImageAttr}, (Attribute.imageAttr i).Readable →
      (Attribute.imageAttr i.unsigned).Readable ∧ (Attribute.imageAttr i.unsigned).Plain := by
    rintro i ⟨h1, h2, h3⟩
    obtain ⟨a1, a2, a3⟩ := list_good h1
    obtain ⟨b1, b2, b3⟩ := list_good h2
    exact ⟨⟨a1, b1, by show ImageAttrSetList.count _ + _ ≠ 0; rw [show i.unsigned.send.count = i.send.count from a3, show i.unsigned.recv.count = i.recv.count from b3]; exact h3⟩, a2, b2⟩
  constructor
  · intro e
    rw [hshow i, hshow j] at e
    have := plain_inj L (good hi).1 (good hj).1 (good hi).2 (good hj).2 e
    simpa using this
  · intro e
    rw [hshow i, hshow j, e]

/-! ### Sessions without ambiguous attributes -/

private theorem attrs_inj (L : Laws) {as bs : List Attribute} (ha : ∀ a ∈ as, a.Readable ∧ a.Plain) (hb : ∀ b ∈ bs, b.Readable ∧ b.Plain)
    (h : AttrsAlike as bs) : as = bs := by
  have full : ∀ {as : List Attribute}, (∀ a ∈ as, a.Readable ∧ a.Plain) →
      (as.map showAttribute).filter (fun t => decide (t ≠ [])) = as.map showAttribute := by
    intro as ha
    rw [List.filter_eq_self]
    intro t ht
    obtain ⟨a, hm, rfl⟩ := List.mem_map.1 ht
    simp only [decide_eq_true_eq]
    intro e
    have := (C88_attribute_iff L a).2 ((C120_wf L a).2 (ha a hm))
    rw [e] at this
    have h0 : ∀ a, attrFromStr [] ≠ .ok a := by
      intro a h
      cases h
    exact h0 a this
  have e := h.texts
  rw [full ha, full hb] at e
  clear h full
  induction as generalizing bs with
  | nil => cases bs with
    | nil => rfl
    | cons b bs => cases e
  | cons a as ih =>
    cases bs with
    | nil => cases e
    | cons b bs =>
      rw [List.map_cons, List.map_cons, List.cons.injEq] at e
      rw [plain_inj L (ha a (by simp)).1 (hb b (by simp)).1 (ha a (by simp)).2 (hb b (by simp)).2 e.1,
        ih (fun a h => ha a (by simp [h])) (fun b h => hb b (by simp [h])) e.2]

/-- **C122.** Two parsed sessions in which the printer loses nothing and that have the same text are equal but for the
warnings, even if the text cannot be read. -/
theorem C122_plain (L : Laws) {t t' : Str} {f f' : Bool} {s s' : Session} (h : parseSdp t f = .ok s) (h' : parseSdp t' f' = .ok s')
    (p : s.Plain) (p' : s'.Plain) (e : showSession s = showSession s') :
    { s with warnings := [] } = { s' with warnings := [] } := by
  have r := parsed_readable L h
  have r' := parsed_readable L h'
  have a := (C122_session r r').1 e
  have hm : s.media = s'.media := by
    have hms := a.media
    have q1 : ∀ m ∈ s.media, ∀ a ∈ m.attrs, a.Readable ∧ a.Plain := fun m hm a ha => ⟨(r.media m hm).attrs a ha, p.media m hm a ha⟩
    have q2 : ∀ m ∈ s'.media, ∀ a ∈ m.attrs, a.Readable ∧ a.Plain := fun m hm a ha => ⟨(r'.media m hm).attrs a ha, p'.media m hm a ha⟩
    clear a e
    generalize s.media = ms at *
    generalize s'.media = ms' at *
    clear r r' p p' h h'
    induction hms with
    | nil => rfl
    | @cons m n ms ms' hmn _ ih =>
      rw [ih (fun x hx => q1 x (by simp [hx])) (fun x hx => q2 x (by simp [hx]))]
      congr 1
      have := attrs_inj L (q1 m (by simp)) (q2 n (by simp)) hmn.attrs
      obtain ⟨h1, h2, h3, -⟩ := hmn
      cases m; cases n
      simp only at h1 h2 h3 this
      subst h1 h2 h3 this
      rfl
  have ha := attrs_inj L (fun x hx => ⟨r.attrs x hx, p.attrs x hx⟩) (fun x hx => ⟨r'.attrs x hx, p'.attrs x hx⟩) a.attrs
  obtain ⟨a1, a2, a3, a4, a5, a6, -, -⟩ := a
  cases s; cases s'
  simp only at a1 a2 a3 a4 a5 a6 ha hm
  subst a1 a2 a3 a4 a5 a6 ha hm
  rfl

end

section
attribute [local instance] sampleEnv

/-- **C122.** The other three types: different parsed values with the same text. Two unknown fmtp parameters and one that
contains both; a simulcast stream with an empty alternative and one without; an rid that has an unknown parameter named
`pt` and one with that format. -/
theorem C122_ambiguous :
    (∃ a b, attrFromStr c%"fmtp:96 x=1;y=2" = .ok (.fmtp a) ∧ attrFromStr c%"fmtp:96 x=1,y=2" = .ok (.fmtp b) ∧ a ≠ b ∧
      showAttribute (.fmtp a) = showAttribute (.fmtp b)) ∧
    (∃ a b, attrFromStr c%"simulcast:send 1;;2" = .ok (.simulcast a) ∧ attrFromStr c%"simulcast:send 1;2" = .ok (.simulcast b) ∧
      a ≠ b ∧ showAttribute (.simulcast a) = showAttribute (.simulcast b)) ∧
    ∃ a b, attrFromStr c%"rid:1 send max-width=0;pt=96" = .ok (.rid a) ∧ attrFromStr c%"rid:1 send pt=96" = .ok (.rid b) ∧
      a ≠ b ∧ showAttribute (.rid a) = showAttribute (.rid b) :=
  ⟨⟨_, _, rfl, rfl, by decide +kernel, by decide +kernel⟩, ⟨_, _, rfl, rfl, by decide +kernel, by decide +kernel⟩,
    ⟨_, _, rfl, rfl, by decide +kernel, by decide +kernel⟩⟩

private theorem both_ok {ε α : Type} {p q : Outcome ε α} {P : α → α → Bool}
    (h : (match p, q with | .ok s, .ok s' => P s s' | _, _ => false) = true) :
    ∃ s s', p = .ok s ∧ q = .ok s' ∧ P s s' = true := by
  cases p <;> cases q <;> first | exact absurd h Bool.false_ne_true | exact ⟨_, _, rfl, rfl, h⟩

private def alikeText (x : Str) : Str :=
  c%"v=0\r\no=- 1 2 IN IP4 127.0.0.1\r\ns=-\r\nt=0 0\r\nc=IN IP4 127.0.0.1\r\nm=audio 9 RTP/AVP 96\r\n" ++ x ++ c%"a=sendrecv\r\n"

/-- **C122.** Sessions that differ in their attributes and have the same text: one has an fmtp attribute that is not written. -/
theorem C122_not_injective : ∃ t t' s s', parseSdp t true = .ok s ∧ parseSdp t' true = .ok s' ∧ showSession s = showSession s' ∧
    s.media ≠ s'.media := by
  obtain ⟨s, s', h1, h2, h⟩ := both_ok (p := parseSdp (alikeText []) true)
    (q := parseSdp (alikeText c%"a=fmtp:96 stereo=0\r\n") true) (P := fun s s' =>
      decide (showSession s = showSession s' ∧ s.media ≠ s'.media)) (by decide +kernel)
  exact ⟨_, _, s, s', h1, h2, of_decide_eq_true h⟩

example : showAttribute (.msidSemantic ⟨c%"WMS", []⟩) = showAttribute (.msidSemantic ⟨c%"WMS", [c%"*"]⟩) := by
  refine (C122_msidSemantic sampleLaws ⟨⟨by decide, by decide⟩, by simp⟩ ⟨⟨by decide, by decide⟩, fun t ht => ?_⟩).2 ⟨rfl, by decide⟩
  rw [List.mem_singleton.1 ht]
  exact ⟨by decide, by decide⟩

end

end Sdp
