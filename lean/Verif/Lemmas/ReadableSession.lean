import Verif.Lemmas.Readable
import Verif.Lemmas.ReadsBackSession
import Verif.Props.Scan
/-!
# What is read is readable, and texts for whole sessions
-/

namespace Sdp

section
variable [Env]

/-- A readable attribute has a text. -/
theorem attribute_text {a : Attribute} (h : a.Readable) : ∃ l, Trimmed l ∧ attrFromStr l = .ok a ∧
    ((∀ s ∈ a.strings, '\n' ∉ s) → '\n' ∉ l) := by
  have special {t : AttributeType} (hf : isFlagName t.name = false) (hw : Written t a) :
      ∃ l, Trimmed l ∧ attrFromStr l = .ok a ∧ ((∀ s ∈ a.strings, '\n' ∉ s) → '\n' ∉ l) := by
    obtain ⟨v, hv, hl⟩ := hw
    obtain ⟨h1, h2⟩ := round_value hf hv
    refine ⟨_, h1, h2, fun hs => ?_⟩
    simp only [List.mem_append, List.mem_cons, not_or]
    exact ⟨by cases t <;> decide, by decide, hl hs⟩
  have plain (hw : a.WF) : ∃ l, Trimmed l ∧ attrFromStr l = .ok a ∧ ((∀ s ∈ a.strings, '\n' ∉ s) → '\n' ∉ l) :=
    ⟨_, (attr_round hw).1, (attr_round hw).2, fun hs => Free.attribute (.inl rfl) hs⟩
  cases a with
  | fmtp f => exact special rfl (written_fmtp h)
  | imageAttr i => exact special rfl (written_imageAttr h.1 h.2.1 h.2.2)
  | msidSemantic m => exact special rfl (written_msidSemantic h.1 h.2)
  | rid r => exact special rfl (written_rid h)
  | simulcast s => exact special rfl (written_simulcast h)
  | _ => exact plain h

/-! ## What is read is readable -/

theorem fmtp_readable (s : Str) : Post (fun a => a.Readable) (parseFmtp s) := by
  unfold parseFmtp
  simp only []
  refine Post.ite (fun _ => Post.eunsupported _) fun hl => ?_
  rcases splitn_two_cases ' ' s with ⟨h, -⟩ | ⟨a, b, h, e, ha⟩
  · simp [h] at hl
  rw [h]
  refine Post.bind fun pt _ => Post.bind fun bs hbs => Post.bind fun p hp => Post.bind fun x _ => Post.ok ?_
  obtain ⟨-, rfl⟩ := sliceFrom_eq_ok.1 hbs
  show p.Readable
  have hrange := fmtpBlocks_range FmtpInRange.default _ p hp
  simp only [List.drop_succ_cons, List.drop_zero, fmtpBlocks] at hp
  obtain ⟨q, hp, hq⟩ := bind_eq_ok.1 hp
  cases hq
  unfold fmtpBlock at hp
  split_ifs at hp with h1 h2 h3
  · obtain ⟨hf, hu, henc, htones⟩ := paramList_facts hp
    have hacc := (paramList_accepts.1 ⟨_, hp⟩).1
    refine .params hrange henc htones fun t ht => ?_
    rw [hu] at ht
    obtain ⟨ht, hn⟩ := List.mem_filter.1 ht
    exact ⟨(hacc t ht).1, splitC_not_mem (List.mem_filter.1 ht).1, by simpa using hn⟩
  · obtain ⟨ns, g1, rfl⟩ := fmtpRed_ok.1 hp
    have hlen := g1.length_eq
    have h2' := splitC_two_le h2
    exact .red (by simpa [FmtpParams.default] using hlen ▸ h2') hrange.encodings (fun f _ => by cases f <;> rfl) rfl rfl rfl
  · cases hp
    exact .tones (toneList_iff.1 h3) (fun f _ => by cases f <;> rfl) rfl rfl rfl
  · cases hp
    refine .tones ?_ (fun f _ => by cases f <;> rfl) rfl rfl rfl
    show ToneList c%"0-15"
    exact toneList_iff.1 (by decide +kernel)

theorem msidSemantic_readable (s : Str) : Post (fun a => a.Readable) (parseMsidSemantic s) := by
  unfold parseMsidSemantic
  simp only []
  refine Post.ite (fun _ => Post.egeneric _) fun _ => Post.bind fun t ht => Post.bind fun ts hts => Post.ok ?_
  obtain ⟨-, rfl⟩ := sliceFrom_eq_ok.1 hts
  exact ⟨tok (List.mem_of_getElem? (idx_eq_ok.1 ht)), fun t ht => tok (List.mem_of_mem_drop ht)⟩

theorem rid_readable {s : Str} (hs : Trimmed s) : Post (fun a => a.Readable) (parseRid s) := by
  intro a h
  obtain ⟨r, rfl, h1, h2, h3⟩ := rid_facts hs a h
  exact ⟨h1, h2, h3⟩

omit [Env] in
theorem version_readable {s : Str} (hs : ∀ c ∈ s, isWs c = false) {v : SimulcastVersion}
    (hv : v ∈ makeVersionList s) : v.ids ≠ [] ∧ ∀ i ∈ v.ids, i.Readable := by
  obtain ⟨t, ht, rfl⟩ := List.mem_map.1 hv
  have hsc : ';' ∉ t := splitC_not_mem ht
  have hws : ∀ c ∈ t, isWs c = false := fun c hc => hs c (splitC_mem_sub ht c hc)
  refine ⟨?_, ?_⟩
  · simp only [SimulcastVersion.new]
    intro h
    exact splitC_ne_nil ',' t (List.map_eq_nil_iff.1 h)
  · intro i hi
    obtain ⟨u, hu, rfl⟩ := List.mem_map.1 hi
    have hsub : ∀ c ∈ (SimulcastId.new u).id, c ∈ u := by
      intro c hc
      unfold SimulcastId.new at hc
      split at hc
      · rename_i r hr
        have := stripPrefix_eq_some.1 hr
        rw [this]; simp at hc ⊢; exact .inr hc
      · exact hc
    refine ⟨fun c hc => ?_, ?_⟩
    · have hcu := hsub c hc
      have hct := splitC_mem_sub hu c hcu
      refine ⟨hws c hct, ?_, ?_⟩
      · rintro rfl; exact splitC_not_mem hu hcu
      · rintro rfl; exact hsc hct
    · unfold SimulcastId.new
      split
      · intro h; cases h
      · rename_i hn
        intro _ hh
        cases u with
        | nil => simp at hh
        | cons x xs =>
          simp at hh; subst hh
          simp [stripPrefix] at hn

theorem simulcast_readable (s : Str) : Post (fun a => a.Readable) (parseSimulcast s) := by
  unfold parseSimulcast
  have ht : ∀ t ∈ splitWs s, Token t := fun t => tok
  split
  · exact Post.egeneric _
  rename_i t0 ts h0
  refine Post.bind fun dir _ => ?_
  split
  · exact Post.egeneric _
  rename_i t1 ts
  rw [h0] at ht
  refine Post.bind fun l1 h1 => Post.bind fun l2 h2 => ?_
  obtain ⟨u1, hu1, rfl⟩ := versionList_ok l1 h1
  have w1 : ∀ v ∈ makeVersionList u1, v.ids ≠ [] ∧ ∀ i ∈ v.ids, i.Readable :=
    fun v hv => version_readable (fun c hc => (ht t1 (by simp)).2 c (hu1 c hc)) hv
  have w2 : ∀ v ∈ l2, v.ids ≠ [] ∧ ∀ i ∈ v.ids, i.Readable := by
    unfold parseSecondVersionList at h2
    split at h2
    · cases h2; simp
    · obtain ⟨_, _, h2⟩ := bind_eq_ok.1 h2
      split at h2
      · cases h2
      · split at h2
        · cases h2
        · rename_i y _ _
          obtain ⟨u2, hu2, rfl⟩ := versionList_ok l2 h2
          exact fun v hv => version_readable (fun c hc => (ht y (by simp)).2 c (hu2 c hc)) hv
  cases dir with
  | send => exact Post.ok ⟨w1, w2, .inl (versionList_ne _)⟩
  | recv => exact Post.ok ⟨w2, w1, .inr (versionList_ne _)⟩

omit [Env] in
theorem FloatReadable.of_mend {x : F32} (h : FloatWF32 x.mend) : FloatReadable x := by
  intro hn
  by_cases hx : x = ⟨0xffc00000⟩
  · exact .inr hx
  · rw [F32.mend_eq hx] at h
    exact .inl (h hn)

omit [Env] in
theorem ImageAttrSet.Readable.of_mend {s : ImageAttrSet} (h : s.mend.WF) : s.Readable := by
  obtain ⟨x, y, sar, par, q⟩ := s
  obtain ⟨h1, h2, h3, h4, h5⟩ := h
  refine ⟨h1, h2, ?_, h4, ?_⟩
  · rintro r ⟨⟩
    have := h3 r.mend rfl
    match r, this with
    | .discrete [x], h =>
      rcases h with ⟨z, e, hz⟩ | ⟨h, -⟩
      · simp at e; subst e
        exact .inr ⟨x, rfl, .of_mend hz⟩
      · simp at h
    | .discrete [], h => exact .inl h
    | .discrete (_ :: _ :: _), h => exact .inl h
    | .range _ _, h => exact .inl h
  · rintro v ⟨⟩
    exact .of_mend (h5 v.mend rfl)

omit [Env] in
theorem ImageAttrSetList.Readable.of_mend {l : ImageAttrSetList} (h : l.mend.WF) : l.Readable := by
  cases l with
  | wildcard => trivial
  | sets l => exact fun s hs => .of_mend (h _ (List.mem_map_of_mem hs))

theorem imageAttr_readable (L : Laws) (s : Str) : Post (fun a => a.Readable) (parseImageAttr s) := by
  intro a h
  obtain ⟨i, rfl, h1, h2, h3⟩ := imageAttr_mend L s a h
  refine ⟨.of_mend h1, .of_mend h2, ?_⟩
  have h3 : i.send.mend.count + i.recv.mend.count ≠ 0 := h3
  rwa [ImageAttrSetList.mend_count, ImageAttrSetList.mend_count] at h3

theorem attrValue_readable (L : Laws) {t : AttributeType} {v : Str} (hv : trim v = v) :
    Post (fun a => a.Readable) (parseAttrValue t v) := by
  intro a h
  have hty := (parseAttrValue_range t v a h).1
  by_cases hne : v = []
  · subst hne
    by_cases hf : t.name ∈ flagNames
    · revert hf
      cases t <;> intro hf <;> first
        | (exfalso; revert hf; decide)
        | (cases h; trivial)
    · obtain ⟨e, he⟩ := parseAttrValue_nil hf
      rw [he] at h; cases h
  have ht := trimmed_of_trim hv hne
  have plain (hp : a.Plain) : a.WF := attrValue_wf L hv a h hp
  cases a with
  | fmtp f => cases hty; exact fmtp_readable v _ h
  | imageAttr i => cases hty; exact imageAttr_readable L v _ h
  | msidSemantic m => cases hty; exact msidSemantic_readable v _ h
  | rid r => cases hty; exact rid_readable ht _ h
  | simulcast s => cases hty; exact simulcast_readable v _ h
  | _ => exact plain trivial

theorem attr_readable (L : Laws) {l : Str} {a : Attribute} (h : attrFromStr l = .ok a) : a.Readable := by
  rcases colon_cases l with hc | ⟨n, v, rfl, hn⟩
  · rw [attrFromStr_plain hc] at h
    split at h
    · exact attrValue_readable L (by rfl) a h
    · cases h
  · rw [attrFromStr_colon hn] at h
    split at h
    · cases h
    · split at h
      · exact attrValue_readable L (trim_trim v) a h
      · cases h

theorem parsed_readable (L : Laws) {t : Str} {f : Bool} {s : Session} (h : parseSdp t f = .ok s) : s.Readable := by
  have P := parseSdp_parts h
  constructor
  · exact (C03_version_and_timing h).1
  · obtain ⟨v, -, ho⟩ := P.origin
    exact origin_wf L ho
  · intro n hn
    obtain ⟨⟨-, h1⟩, h2⟩ := P.session n hn
    exact trimmed_of_trim h1 h2
  · intro b hb
    obtain ⟨v, hv, hb⟩ := P.bandwidth b hb
    exact bandwidth_wf hv.2 hb
  · intro c hc
    obtain ⟨v, -, hc⟩ := P.connection c hc
    exact connection_wf L hc
  · intro a ha
    obtain ⟨v, -, hv⟩ := P.attrs a ha
    exact attr_readable L hv
  · exact (C09_levels h).1
  · intro m hm
    constructor
    · obtain ⟨v, -, hv⟩ := P.mline m hm
      exact mediaLine_wf hv
    · intro b hb
      obtain ⟨v, hv, hb⟩ := P.mbandwidth m hm b hb
      exact bandwidth_wf hv.2 hb
    · intro c hc
      obtain ⟨v, -, hc⟩ := P.mconnection m hm c hc
      exact connection_wf L hc
    · intro a ha
      obtain ⟨v, -, hv⟩ := P.mattrs m hm a ha
      exact attr_readable L hv
    · exact (C09_levels h).2 m hm
  · exact clean_session (fun h d hd hx => absurd ((L.host h d hd).1.2 _ hx) (by decide)) (by decide) contentLines_lf P
  · exact accepted_consistent h

/-! ## Texts for sessions -/

/-- The lines of the body, with given texts for the attributes. -/
def bodyText (w : Attribute → Str) (bs : List Bandwidth) (c : Option Connection) (as : List Attribute) : List Str :=
  bs.map (fun b => c%"b=" ++ showBandwidth b) ++ (c.toList.map (fun c => c%"c=" ++ showConnection c) ++
    as.map fun a => c%"a=" ++ w a)

def sessionText (w : Attribute → Str) (s : Session) : List Str :=
  (c%"v=" ++ showU64 s.version) :: (c%"o=" ++ showOrigin s.origin) :: (c%"s=" ++ s.session.getD c%" ") ::
    (s.timing.toList.map (fun t => c%"t=" ++ showTiming t) ++ (bodyText w s.bandwidth s.connection s.attrs ++
      s.media.flatMap fun m => (c%"m=" ++ showMediaLine m.media) :: bodyText w m.bandwidth m.connection m.attrs))

/-- What is asked of the texts. -/
def GoodText (w : Attribute → Str) : Prop :=
  ∀ a : Attribute, a.Readable → Trimmed (w a) ∧ attrFromStr (w a) = .ok a ∧ ((∀ s ∈ a.strings, '\n' ∉ s) → '\n' ∉ w a)

theorem exists_goodText : ∃ w, GoodText w := by
  classical
  refine ⟨fun a => if h : a.Readable then (attribute_text h).choose else [], fun a h => ?_⟩
  simp only [h, dif_pos]
  exact (attribute_text h).choose_spec

theorem GoodText.line {w : Attribute → Str} (hw : GoodText w) {a : Attribute} (h : a.Readable) :
    LinePrints 'a' (w a) (.attr a) := by
  obtain ⟨h1, h2, -⟩ := hw a h
  refine ⟨h1, ?_⟩
  show parseAttribute _ = _
  simp [parseAttribute, h1.trim, h2]

theorem bodyText_reads {w : Attribute → Str} (hw : GoodText w) {bs : List Bandwidth} {c : Option Connection} {as : List Attribute}
    (hb : ∀ b ∈ bs, b.WF) (hc : ∀ x, c = some x → x.WF) (ha : ∀ a ∈ as, a.Readable) :
    ReadAs (bodyText w bs c as) (bodyTypes bs c as) := by
  refine ReadAs.append (.map fun b h => ?_) (ReadAs.append (.map fun c h => ?_) (.map fun a h => ?_))
  · exact (LinePrints.bandwidth (hb b h)).reads (by decide)
  · exact (LinePrints.connection (hc c (by simpa using h))).reads (by decide)
  · exact (hw.line (ha a h)).reads (by decide)

theorem sessionText_reads {w : Attribute → Str} (hw : GoodText w) {s : Session} (h : s.Readable) :
    ReadAs (sessionText w s) (.version s.version :: .origin s.origin :: .session (s.session.getD c%" ") :: s.restTypes) := by
  refine .cons ((LinePrints.version h.version).reads (by decide)) (.cons ((LinePrints.origin h.origin).reads (by decide))
    (.cons (sessionName_reads _) ?_))
  refine ReadAs.append (.map fun t _ => (LinePrints.timing t).reads (by decide)) (ReadAs.append
    (bodyText_reads hw h.bandwidth h.connection h.attrs) (.flatMap fun m hm => ?_))
  have hm := h.media m hm
  exact .cons ((LinePrints.media hm.media).reads (by decide)) (bodyText_reads hw hm.bandwidth hm.connection hm.attrs)

theorem LinePrints.lineText {x : Char} {v : Str} {t : SdpType} (h : LinePrints x v t) (hx : x ≠ '\n') (hv : '\n' ∉ v) :
    LineText (x :: '=' :: v) := by
  refine ⟨?_, Trimmed.noCr h.1.2 [x, '=']⟩
  simp only [List.mem_cons, not_or]
  exact ⟨hx.symm, by decide, hv⟩

theorem bodyText_lineText {w : Attribute → Str} (hw : GoodText w) {bs : List Bandwidth} {c : Option Connection} {as : List Attribute}
    (hb : ∀ b ∈ bs, b.WF) (hc : ∀ x, c = some x → x.WF) (ha : ∀ a ∈ as, a.Readable)
    (sb : ∀ b ∈ bs, ∀ t ∈ b.strings, '\n' ∉ t) (sc : ∀ y, c = some y → ∀ t ∈ y.address.strings, '\n' ∉ t)
    (sa : ∀ a ∈ as, ∀ t ∈ a.strings, '\n' ∉ t) : ∀ l ∈ bodyText w bs c as, LineText l := by
  intro l hl
  simp only [bodyText, List.mem_append, List.mem_map] at hl
  rcases hl with ⟨b, h, rfl⟩ | ⟨x, h, rfl⟩ | ⟨a, h, rfl⟩
  · exact (LinePrints.bandwidth (hb b h)).lineText (by decide) (Free.bandwidth (.inl rfl) (sb b h))
  · have h : c = some x := by simpa using h
    exact (LinePrints.connection (hc x h)).lineText (by decide) (Free.connection (.inl rfl) (sc x h))
  · exact (hw.line (ha a h)).lineText (by decide) ((hw a (ha a h)).2.2 (sa a h))

theorem sessionText_lineText {w : Attribute → Str} (hw : GoodText w) {s : Session} (h : s.Readable) :
    ∀ l ∈ sessionText w s, LineText l := by
  have hl0 : LineEnd '\n' := .inl rfl
  have hs := h.lineFeeds
  simp only [Session.strings, List.mem_cons, List.mem_append, List.mem_flatMap] at hs
  intro l hl
  simp only [sessionText, List.mem_append, List.mem_cons] at hl
  rcases hl with rfl | rfl | rfl | hl | hl | hl
  · exact (LinePrints.version h.version).lineText (by decide) (Free.u64 hl0 _)
  · refine (LinePrints.origin h.origin).lineText (by decide) ?_
    have h1 := Free.typed hl0 (a := s.origin.unicastAddr) fun t ht => hs t (.inr (.inl ht))
    have h2 : Free '\n' s.origin.username := hs _ (.inl rfl)
    show Free '\n' _
    have h := hl0
    unfold showOrigin; free
  · cases hn : s.session with
    | none => exact ⟨by decide, by decide⟩
    | some t =>
      refine ⟨?_, Trimmed.noCr (h.name t hn).2 _⟩
      simp only [Option.getD_some, List.mem_append, not_or]
      exact ⟨by decide, hs t (.inr (.inr (.inl (by simp [hn]))))⟩
  · obtain ⟨t, -, rfl⟩ := List.mem_map.1 hl
    refine (LinePrints.timing t).lineText (by decide) ?_
    have h := hl0
    show Free '\n' _
    unfold showTiming; free
  · refine bodyText_lineText hw h.bandwidth h.connection h.attrs (fun b hb t ht => hs t ?_) (fun y hy t ht => hs t ?_)
      (fun a ha t ht => hs t ?_) l hl
    · exact .inr (.inr (.inr (.inl ⟨b, hb, ht⟩)))
    · exact .inr (.inr (.inr (.inr (.inl ⟨y, by simp [hy], ht⟩))))
    · exact .inr (.inr (.inr (.inr (.inr (.inl ⟨a, ha, ht⟩)))))
  · obtain ⟨m, hm, hl⟩ := List.mem_flatMap.1 hl
    have hr := h.media m hm
    have hm' : ∀ t ∈ m.strings, '\n' ∉ t := fun t ht => hs t (.inr (.inr (.inr (.inr (.inr (.inr ⟨m, hm, ht⟩))))))
    simp only [Media.strings, List.mem_append, List.mem_flatMap] at hm'
    rcases List.mem_cons.1 hl with rfl | hl
    · exact (LinePrints.media hr.media).lineText (by decide) (Free.mediaLine hl0 fun t ht => hm' t (.inl ht))
    · refine bodyText_lineText hw hr.bandwidth hr.connection hr.attrs (fun b hb t ht => hm' t ?_) (fun y hy t ht => hm' t ?_)
        (fun a ha t ht => hm' t ?_) l hl
      · exact .inr (.inl ⟨b, hb, ht⟩)
      · exact .inr (.inr (.inl ⟨y, by simp [hy], ht⟩))
      · exact .inr (.inr (.inr ⟨a, ha, ht⟩))

omit [Env] in
/-- Blank lines at the end are not seen. -/
theorem contentFrom_blanks (n k : Nat) (ls : List Str) : contentFrom n (ls ++ List.replicate k []) = contentFrom n ls := by
  unfold contentFrom
  have e : ((List.replicate k ([] : Str)).zipIdx (n + ls.length)).filter (fun p => decide (¬ Blank p.1)) = [] := by
    rw [List.filter_eq_nil_iff]
    rintro ⟨l, i⟩ hp
    have : l ∈ List.replicate k ([] : Str) := List.fst_mem_of_mem_zipIdx hp
    rw [List.eq_of_mem_replicate this]
    simp [Blank]
  rw [List.zipIdx_append, List.filter_append, e, List.append_nil]

omit [Env] in
theorem contentFrom_after (n : Nat) (a b : List Str) :
    contentFrom n (a ++ b) = contentFrom n a ++ contentFrom (n + a.length) b := by
  unfold contentFrom
  rw [List.zipIdx_append, List.filter_append]

theorem blank_err {l : Str} (h : Blank l) (n : Nat) : ∃ e, parseSdpLine l n = .err (.line e l n) := by
  have : '=' ∉ l := fun hm => absurd (h _ hm) (by decide)
  exact ⟨_, by unfold parseSdpLine; simp only [this, not_false_eq_true, if_true]; rfl⟩

/-- Lines that give warnings and nothing else. -/
theorem warning_lines {ws : List ParserError} (hp : ws.Pairwise fun a b => a.number < b.number)
    (hw : ∀ w ∈ ws, Warning w) (n : Nat) (hn : ∀ w ∈ ws, n ≤ w.number) : ∃ ls : List Str, (∀ l ∈ ls, '\n' ∉ l) ∧
      acceptedLines (contentFrom n ls) = [] ∧ unsupportedErrors (contentFrom n ls) = ws ∧
      hardErrors (contentFrom n ls) = [] ∧ ∀ p ∈ contentFrom n ls, parseSdpLine p.1 p.2 ≠ .panic := by
  induction ws generalizing n with
  | nil => exact ⟨[], by simp, rfl, rfl, rfl, by simp [contentFrom]⟩
  | cons w ws ih =>
    obtain ⟨l, k, m, hwe, hlf, hpl⟩ := hw w (by simp)
    obtain ⟨hp1, hp2⟩ := List.pairwise_cons.1 hp
    have hk : n ≤ k := by simpa [hwe, ParserError.number] using hn w (by simp)
    obtain ⟨ls, g1, g2, g3, g4, g5⟩ := ih hp2 (fun w h => hw w (by simp [h])) (k + 1) (fun v hv => by
      have := hp1 v hv
      rw [hwe] at this
      exact this)
    have hb : ¬ Blank l := by
      intro hb
      obtain ⟨m', h'⟩ := blank_err hb k
      rw [h', hwe] at hpl
      cases hpl
    have e : contentFrom n (List.replicate (k - n) [] ++ l :: ls) = (l, k) :: contentFrom (k + 1) ls := by
      rw [contentFrom_after, ← List.nil_append (List.replicate (k - n) ([] : Str)), contentFrom_blanks, List.nil_append,
        List.length_replicate, show n + (k - n) = k by omega]
      rw [contentFrom_cons, if_neg hb]
      rfl
    refine ⟨List.replicate (k - n) [] ++ l :: ls, ?_, ?_, ?_, ?_, ?_⟩
    · intro x hx
      rcases List.mem_append.1 hx with hx | hx
      · rw [List.eq_of_mem_replicate hx]; simp
      · rcases List.mem_cons.1 hx with rfl | hx
        · exact hlf
        · exact g1 x hx
    · rw [e, ← g2]; simp [acceptedLines, hpl]
    · rw [e, ← g3]; simp [unsupportedErrors, hpl, hwe]
    · rw [e, ← g4]; simp [hardErrors, hpl, hwe]
    · intro p hp
      rw [e] at hp
      rcases List.mem_cons.1 hp with rfl | hp
      · rw [hpl]; simp
      · exact g5 p hp

theorem session_text {s : Session} (h : s.Readable) {ws : List ParserError}
    (hp : ws.Pairwise fun a b => a.number < b.number) (hw : ∀ w ∈ ws, Warning w) :
    ∃ t, ∀ f, (f = true → ws = []) → parseSdp t f = .ok { s with warnings := ws } := by
  obtain ⟨w, hg⟩ := exists_goodText
  obtain ⟨pre, g1, g2, g3, g4, g5⟩ := warning_lines hp hw 0 (fun _ _ => Nat.zero_le _)
  obtain ⟨rs, e1, e2, e3, e4, e5⟩ := (sessionText_reads hg h).scan (0 + pre.length)
  have hlf : ∀ l ∈ (pre ++ sessionText w s) ++ List.replicate 51 [], '\n' ∉ l := by
    intro l hl
    rcases List.mem_append.1 hl with hl | hl
    · rcases List.mem_append.1 hl with hl | hl
      · exact g1 l hl
      · exact (sessionText_lineText hg h l hl).1
    · rw [List.eq_of_mem_replicate hl]; simp
  have ec : contentLines (crlf ((pre ++ sessionText w s) ++ List.replicate 51 [])) =
      contentFrom 0 pre ++ contentFrom (0 + pre.length) (sessionText w s) := by
    unfold contentLines
    rw [lines_crlf_any hlf, contentFrom_blanks, contentFrom_after]
  refine ⟨crlf ((pre ++ sessionText w s) ++ List.replicate 51 []), fun f hf =>
    Session.parse_of_scan (rs := rs) ?_ e2 ?_ ?_ ?_ h.name h.levels (fun m hm => (h.media m hm).levels) h.consistent ?_ hf⟩
  · rw [ec, ← e1]
    unfold acceptedLines at g2 ⊢
    rw [List.filterMap_append, g2, List.nil_append]
  · rw [ec, ← g3]
    unfold unsupportedErrors at e3 ⊢
    rw [List.filterMap_append, e3, List.append_nil]
  · rw [ec]
    unfold hardErrors at e4 g4 ⊢
    rw [List.filterMap_append, e4, g4, List.append_nil]
  · intro p hp
    rw [ec] at hp
    rcases List.mem_append.1 hp with hp | hp
    · exact g5 p hp
    · exact e5 p hp
  · refine Nat.le_trans ?_ (length_le_byteLen _)
    rw [crlf_length, List.map_append, List.sum_append]
    simp only [List.map_replicate, List.sum_replicate, List.length_nil]
    simp

end

end Sdp
