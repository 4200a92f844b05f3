import Verif.Lemmas.Shrink
import Verif.Lemmas.ReadsBackSession
import Verif.Spec.Settle
/-!
# Reading a printed session again does not make its text longer
-/

namespace Sdp

section
variable [Env]

theorem section_reread {q : MediaLine × List SdpLine} {m : Media} (h1 : q.1 = m.reread.media)
    (h2 : q.2.map (fun l => l.sdpType) = bodyTypes m.reread.bandwidth m.reread.connection m.reread.attrs) :
    sectionMedia q = { m with attrs := (readAttrs m.attrs).filter (fun a => !isDtls a) } := by
  obtain ⟨m, c, b, a⟩ := m
  simp only [Media.reread] at h1 h2
  unfold sectionMedia
  rw [connectionsOf_types, bandwidthsOf_types, attrsOf_types, h2, body_conns, body_bands, body_attrs, h1]
  cases c <;> rfl

/-- What a printed session is read as, if it is: the same but for the attributes, which are those of the lines
that can be read. -/
theorem session_reread (L : Laws) {s s' : Session} {f : Bool} (hF : s.Frame)
    (h : parseSdp (showSession s) f = .ok s') :
    s' = { s with
      attrs := readAttrs s.attrs
      media := s.media.map fun m => { m with attrs := (readAttrs m.attrs).filter (fun a => !isDtls a) }
      warnings := s'.warnings } := by
  have hlines : Sdp.lines (showSession s) = s.lines := by
    rw [showSession_lines]
    exact lines_crlf_any (Free.sessionLines (.inl rfl) hF.lineFeeds)
  obtain ⟨-, -, -, -, l0, l1, l2, rest, v, o, nm, e1, -, t0, t1, t2, -, -, hasm, -⟩ := parseSdp_spec.1 h
  have hty := accepted_types 0 s.lines
  rw [show contentFrom 0 s.lines = contentLines (showSession s) by unfold contentLines; rw [hlines], e1, hF.types] at hty
  simp only [List.map_cons, List.cons.injEq] at hty
  obtain ⟨y0, y1, y2, et⟩ := hty
  rw [t0] at y0
  rw [t1] at y1
  rw [t2] at y2
  cases y0; cases y1; cases y2
  have hnm : ∀ t ∈ s.timing.toList.map SdpType.timing ++ bodyTypes s.bandwidth s.connection (readAttrs s.attrs),
      isMediaType t = false := by
    intro t ht
    rcases List.mem_append.1 ht with ht | ht
    · obtain ⟨_, _, rfl⟩ := List.mem_map.1 ht; rfl
    · exact body_noMedia _ _ _ t ht
  have et' : rest.map (fun l => l.sdpType) = (s.timing.toList.map SdpType.timing ++
      bodyTypes s.bandwidth s.connection (readAttrs s.attrs)) ++ (s.media.map Media.reread).flatMap Media.types := by
    rw [et, Session.restTypes, List.append_assoc]; rfl
  have epart : (rest.takeWhile notMedia).map (fun l => l.sdpType) =
      s.timing.toList.map SdpType.timing ++ bodyTypes s.bandwidth s.connection (readAttrs s.attrs) := by
    rw [takeWhile_types, et', takeWhile_part hnm]
  have htt : ∀ {β : Type} (g : SdpType → Option β), (∀ t, g (.timing t) = none) →
      (s.timing.toList.map SdpType.timing).filterMap g = [] := by
    intro β g hg
    cases s.timing <;> simp [hg]
  have esec := sectionsOf_part hnm et'
  have e6 : (sectionsOf rest).map sectionMedia =
      s.media.map fun m => { m with attrs := (readAttrs m.attrs).filter (fun a => !isDtls a) } := by
    clear et et'
    generalize sectionsOf rest = ps at esec
    generalize s.media = ms at esec
    induction ms generalizing ps with
    | nil => cases esec; rfl
    | cons m ms ih =>
      rw [List.map_cons] at esec
      cases esec with
      | cons hp hps =>
        rw [List.map_cons, List.map_cons, ih _ hps, section_reread hp.1 hp.2]
  have k1 : connectionsOf (rest.takeWhile notMedia) = s.connection.toList := by
    rw [connectionsOf_types, epart, List.filterMap_append, htt _ (fun _ => rfl), body_conns]; rfl
  have k2 : bandwidthsOf (rest.takeWhile notMedia) = s.bandwidth := by
    rw [bandwidthsOf_types, epart, List.filterMap_append, htt _ (fun _ => rfl), body_bands]; rfl
  have k3 : attrsOf (rest.takeWhile notMedia) = readAttrs s.attrs := by
    rw [attrsOf_types, epart, List.filterMap_append, htt _ (fun _ => rfl), body_attrs]; rfl
  have k4 : timingsOf (rest.takeWhile notMedia) = s.timing.toList := by
    rw [timingsOf_types, epart, List.filterMap_append, body_times]
    cases s.timing <;> rfl
  have hses : (if Blank (s.session.getD c%" ") then none else some (trim (s.session.getD c%" "))) = s.session := by
    cases hs : s.session with
    | none => simp [Blank]; decide
    | some t =>
      have ht := hF.name t hs
      have hb : ¬ Blank t := by
        obtain ⟨c, r, rfl, hc⟩ := ht.1
        intro hb; have := hb c (by simp); rw [hc] at this; cases this
      simp [hb, ht.trim]
  unfold assemble at hasm
  simp only at hasm
  rw [e6, k1, k2, k3, k4, hses] at hasm
  rw [hasm]
  have last {α : Type} (o : Option α) : o.toList.getLast? = o := by cases o <;> rfl
  simp only [last]

/-- The lines of a list of attributes, read again. -/
theorem block_shrink (L : Laws) {as : List Attribute} (ha : ∀ a ∈ as, ∃ v, attrFromStr v = .ok a) (p : Attribute → Bool) :
    Shrinks (crlf (textLines c%"a=" (as.map showAttribute)))
      (crlf (textLines c%"a=" (((readAttrs as).filter p).map showAttribute))) := by
  have hempty : readType c%"a=" = none := by
    cases hr : readType c%"a=" with
    | none => rfl
    | some t =>
      obtain ⟨a, -, h⟩ := readType_attr (v := []) hr
      cases h
  by_cases h0 : as = []
  · subst h0; exact .refl _
  by_cases hall : ∀ t ∈ as.map showAttribute, t = []
  · have e : textLines c%"a=" (as.map showAttribute) = [c%"a="] := by
      unfold textLines
      rw [if_neg (by simpa using h0), if_pos hall]
    have : readAttrs as = [] := by
      unfold readAttrs
      rw [e]
      simp [hempty]
    rw [this, e]
    exact .inr (by simp [textLines, crlf])
  -- the lines with text
  have key : ∀ as : List Attribute, (∀ a ∈ as, ∃ v, attrFromStr v = .ok a) →
      Shrinks (crlf (((as.map showAttribute).filter (fun t => decide (t ≠ []))).map (fun t => c%"a=" ++ t)))
        (crlf (((((((((as.map showAttribute).filter (fun t => decide (t ≠ []))).map
          (fun t => c%"a=" ++ t)).filterMap readType).filterMap attrT).filter p).map showAttribute).filter
            (fun t => decide (t ≠ []))).map (fun t => c%"a=" ++ t))) := by
    intro as
    induction as with
    | nil => intro _; exact .refl _
    | cons a as ih =>
      intro ha
      have ih := ih fun x hx => ha x (by simp [hx])
      rw [List.map_cons]
      by_cases hn : showAttribute a = []
      · rw [List.filter_cons, if_neg (by simpa using hn)]
        exact ih
      rw [List.filter_cons, if_pos (by simpa using hn), List.map_cons, crlf_cons, List.filterMap_cons]
      have drop {S T U : Str} (h : Shrinks S T) : Shrinks (U ++ S) T :=
        Shrinks.append (a := U) (c := []) (by
          by_cases hU : U = []
          · subst hU; exact .refl _
          · exact .inr (List.length_pos_iff.2 hU)) h
      cases hr : readType (c%"a=" ++ showAttribute a) with
      | none => exact drop ih
      | some t =>
        obtain ⟨b, rfl, hb⟩ := readType_attr hr
        rw [attrFromStr_trim_show] at hb
        obtain ⟨v, hv⟩ := ha a (by simp)
        have hs := attr_shrink L hv hb
        simp only [List.filterMap_cons, attrT]
        rw [List.filter_cons]
        by_cases hp : p b = true
        · rw [if_pos hp, List.map_cons, List.filter_cons]
          by_cases hbn : showAttribute b = []
          · rw [if_neg (by simpa using hbn)]
            exact drop ih
          · rw [if_pos (by simpa using hbn), List.map_cons, crlf_cons]
            exact ((hs.prefix_ _).append (.refl _)).append ih
        · rw [if_neg hp]
          exact drop ih
  have e : textLines c%"a=" (as.map showAttribute) =
      ((as.map showAttribute).filter (fun t => decide (t ≠ []))).map (fun t => c%"a=" ++ t) := by
    unfold textLines
    rw [if_neg (by simpa using h0), if_neg hall]
  have k := key as ha
  rw [← e] at k
  change Shrinks _ (crlf ((((readAttrs as).filter p).map showAttribute).filter (fun t => decide (t ≠ [])) |>.map (fun t => c%"a=" ++ t))) at k
  generalize ((readAttrs as).filter p).map showAttribute = us at k ⊢
  unfold textLines at k ⊢
  by_cases hu0 : us = []
  · subst hu0; simpa using k
  by_cases hua : ∀ t ∈ us, t = []
  · rw [if_neg hu0, if_pos hua, ← textLines, e]
    refine .inr ?_
    push Not at hall
    obtain ⟨t, ht, hne⟩ := hall
    have hm : t ∈ (as.map showAttribute).filter (fun t => decide (t ≠ [])) := List.mem_filter.2 ⟨ht, by simpa using hne⟩
    obtain ⟨l1, l2, hl⟩ := List.append_of_mem hm
    rw [hl, List.map_append, List.map_cons, crlf_append, crlf_cons]
    have := List.length_pos_iff.2 hne
    simp [crlf]
    omega
  · rw [if_neg hu0, if_neg hua]
    exact k

/-- The text of a printed session that is read again is the same or shorter. -/
theorem session_shrink (L : Laws) {t : Str} {f g : Bool} {s s' : Session} (h : parseSdp t f = .ok s)
    (h' : parseSdp (showSession s) g = .ok s') : Shrinks (showSession s) (showSession s') := by
  have P := parseSdp_parts h
  have e := session_reread L (parsed_frame L h) h'
  rw [showSession_lines, showSession_lines, e]
  have body (bs : List Bandwidth) (c : Option Connection) {as : List Attribute} (p : Attribute → Bool)
      (ha : ∀ a ∈ as, ∃ v, attrFromStr v = .ok a) :
      Shrinks (crlf (bodyLines bs c as)) (crlf (bodyLines bs c ((readAttrs as).filter p))) := by
    unfold bodyLines
    simp only [crlf_append]
    exact Shrinks.prefix_ _ (Shrinks.prefix_ _ (block_shrink L ha p))
  have ha : ∀ a ∈ s.attrs, ∃ v, attrFromStr v = .ok a := fun a ha => let ⟨v, _, h⟩ := P.attrs a ha; ⟨v, h⟩
  have hm : ∀ m ∈ s.media, ∀ a ∈ m.attrs, ∃ v, attrFromStr v = .ok a :=
    fun m hm a ha => let ⟨v, _, h⟩ := P.mattrs m hm a ha; ⟨v, h⟩
  unfold Session.lines
  simp only [crlf_append]
  refine Shrinks.prefix_ _ (Shrinks.prefix_ _ (Shrinks.append ?_ ?_))
  · have := body s.bandwidth s.connection (fun _ => true) ha
    rwa [List.filter_true] at this
  · generalize s.media = ms at hm
    induction ms with
    | nil => exact .refl _
    | cons m ms ih =>
      simp only [List.map_cons, List.flatMap_cons, crlf_append]
      refine Shrinks.append ?_ (ih fun x hx => hm x (by simp [hx]))
      unfold Media.lines
      simp only [crlf_cons]
      exact Shrinks.prefix_ _ (body _ _ _ (hm m (by simp)))

theorem readType_show (a : Attribute) : (readType (c%"a=" ++ showAttribute a)).bind attrT = rereadAttr a := by
  unfold rereadAttr
  cases hr : readType (c%"a=" ++ showAttribute a) with
  | some t =>
    obtain ⟨b, rfl, hb⟩ := readType_attr hr
    rw [attrFromStr_trim_show] at hb
    rw [hb]; rfl
  | none =>
    cases hs : attrFromStr (showAttribute a) with
    | ok b =>
      exfalso
      have hne : trim (showAttribute a) ≠ [] := by
        intro hc
        rw [← attrFromStr_trim_show, hc] at hs
        cases hs
      have : lineMeaning ([('a' : Char)] ++ '=' :: showAttribute a) = .ok (.attr b) := by
        rw [lineMeaning_letter (by decide) hne]
        show parseAttribute (trim (showAttribute a)) = _
        unfold parseAttribute
        rw [trim_trim, attrFromStr_trim_show, hs]
        rfl
      have : readType (c%"a=" ++ showAttribute a) = some (.attr b) := readType_some.2 this
      rw [hr] at this
      cases this
    | err e => rfl
    | panic => rfl

theorem readAttrs_eq (as : List Attribute) : readAttrs as = as.filterMap rereadAttr := by
  have hempty : readType c%"a=" = none := by
    cases hr : readType c%"a=" with
    | none => rfl
    | some t =>
      obtain ⟨a, -, h⟩ := readType_attr (v := []) hr
      cases h
  have he {a : Attribute} (h : showAttribute a = []) : rereadAttr a = none := by
    unfold rereadAttr; rw [h]; rfl
  by_cases h0 : as = []
  · subst h0; rfl
  unfold readAttrs textLines
  rw [if_neg (by simpa using h0)]
  split
  · rename_i hall
    have : as.filterMap rereadAttr = [] := by
      rw [List.filterMap_eq_nil_iff]
      exact fun a ha => he (hall _ (List.mem_map_of_mem ha))
    rw [this]
    simp [hempty]
  · clear h0
    induction as with
    | nil => rfl
    | cons a as ih =>
      have ih : ((((as.map showAttribute).filter (fun t => decide (t ≠ []))).map (fun t => c%"a=" ++ t)).filterMap
          readType).filterMap attrT = as.filterMap rereadAttr := by
        by_cases hall : ∀ t ∈ as.map showAttribute, t = []
        · have h1 : (as.map showAttribute).filter (fun t => decide (t ≠ [])) = [] :=
            List.filter_eq_nil_iff.2 fun t ht => by simpa using hall t ht
          have h2 : as.filterMap rereadAttr = [] := by
            rw [List.filterMap_eq_nil_iff]
            exact fun a ha => he (hall _ (List.mem_map_of_mem ha))
          rw [h1, h2]; rfl
        · exact ih hall
      rw [List.map_cons, List.filter_cons, List.filterMap_cons]
      by_cases hn : showAttribute a = []
      · rw [if_neg (by simpa using hn), he hn]
        exact ih
      · rw [if_pos (by simpa using hn), List.map_cons, List.filterMap_cons, ← readType_show]
        cases hr : readType (c%"a=" ++ showAttribute a) with
        | none => exact ih
        | some t =>
          obtain ⟨b, rfl, -⟩ := readType_attr hr
          simp only [List.filterMap_cons, attrT, Option.bind_some]
          rw [ih]

theorem attr_reread_type (L : Laws) {a b : Attribute} {v : Str} (ha : attrFromStr v = .ok a)
    (hb : attrFromStr (showAttribute a) = .ok b) : b.type = a.type := by
  by_cases hp : a.Plain
  · have := (attr_round (attr_wf L ha hp)).2
    rw [hb] at this
    rw [Outcome.ok.inj this]
  cases a with
  | fmtp f => exact (parseAttrValue_range _ _ b (value_back (t := .fmtp) rfl hb).2).1
  | imageAttr i => exact (parseAttrValue_range _ _ b (value_back (t := .imageAttr) rfl hb).2).1
  | msidSemantic m => exact (parseAttrValue_range _ _ b (value_back (t := .msidSemantic) rfl hb).2).1
  | rid r => exact (parseAttrValue_range _ _ b (value_back (t := .rid) rfl hb).2).1
  | simulcast s => exact (parseAttrValue_range _ _ b (value_back (t := .simulcast) rfl hb).2).1
  | _ => exact absurd trivial hp

theorem rereadAttr_type (L : Laws) {a b : Attribute} {v : Str} (hv : attrFromStr v = .ok a) (h : rereadAttr a = some b) :
    b.type = a.type := by
  have hb : attrFromStr (showAttribute a) = .ok b := by
    unfold rereadAttr at h
    split at h
    · rename_i h'; cases h; exact h'
    · cases h
  exact attr_reread_type L hv hb

/-- Only rid and simulcast attributes may need more than one round. -/
theorem attr_settled (L : Laws) {a b : Attribute} {v : Str} (ha : attrFromStr v = .ok a)
    (hb : attrFromStr (showAttribute a) = .ok b) (h1 : a.type ≠ .rid) (h2 : a.type ≠ .simulcast) : b.WF := by
  by_cases hp : a.Plain
  · have hw := attr_wf L ha hp
    have := (attr_round hw).2
    rw [hb] at this
    rw [Outcome.ok.inj this]
    exact hw
  obtain ⟨v, hv, ha⟩ := attr_value ha
  cases a with
  | fmtp f =>
    obtain ⟨hne, h⟩ := value_back (t := .fmtp) rfl hb
    have ha : parseFmtp v = .ok (.fmtp f) := ha
    obtain ⟨m, hw, hm⟩ := fmtp_mend ha hne
    have h2 := (value_back (t := .fmtp) rfl (attr_round (a := .fmtp m) hw).2).2
    have e : trim (trimEnd (showFmtp f)) = trim (showFmtp f) := trim_trimEnd _
    have h2 : parseAttrValue .fmtp (trim (showFmtp m)) = .ok (.fmtp m) := h2
    rw [hm, e, h] at h2
    rw [Outcome.ok.inj h2]
    exact hw
  | imageAttr i =>
    obtain ⟨j, hj, hw⟩ := imageAttr_mend L _ _ ha
    cases hj
    have e : showAttribute (.imageAttr i.mend) = showAttribute (.imageAttr i) := by
      show attrToString _ (showImageAttr _) = attrToString _ (showImageAttr _)
      unfold showImageAttr ImageAttr.mend
      rw [showMaybeSets_mend, showMaybeSets_mend]
    have hm := (attr_round (a := .imageAttr i.mend) hw).2
    rw [e, hb] at hm
    rw [Outcome.ok.inj hm]
    exact hw
  | msidSemantic m =>
    refine attr_wf L hb ?_
    obtain ⟨-, h⟩ := value_back (t := .msidSemantic) rfl hb
    have ht := (parseAttrValue_range _ _ b h).1
    cases b with
    | msidSemantic n =>
      have hm : m.msids = [] := by
        by_contra hc; exact hp hc
      have h : parseMsidSemantic (trim (showMsidSemantic m)) = .ok (.msidSemantic n) := h
      show n.msids ≠ []
      have hs : Token m.semantic := by
        have ha : parseMsidSemantic v = .ok (.msidSemantic m) := ha
        unfold parseMsidSemantic at ha
        simp only [] at ha
        split_ifs at ha
        · cases ha
        simp only [bind_eq_ok] at ha
        obtain ⟨x, hx, y, hy, ha⟩ := ha
        cases ha
        exact tok (List.mem_of_getElem? (idx_eq_ok.1 hx))
      intro hc
      have e : splitWs (m.semantic ++ c%" " ++ c%"*") = m.semantic :: [c%"*"] := by
        rw [List.append_assoc]
        have : splitWs (m.semantic ++ ' ' :: c%"*") = m.semantic :: splitWs c%"*" := splitWs_space hs.2 hs.1
        rw [show m.semantic ++ (c%" " ++ c%"*") = m.semantic ++ ' ' :: c%"*" from rfl, this]
        rfl
      unfold parseMsidSemantic at h
      rw [splitWs_trim] at h
      unfold showMsidSemantic at h
      rw [hm] at h
      simp only [e] at h
      cases h
      cases hc
    | _ => cases ht
  | rid r => exact absurd rfl h1
  | simulcast s => exact absurd rfl h2
  | _ => exact absurd trivial hp

end

end Sdp
