import Verif.Spec.Readable
import Verif.Lemmas.ParsedWF
import Verif.Lemmas.Print3
import Verif.Lemmas.Print4
import Verif.Lemmas.PrintSession
/-!
# Texts for the values that can be read
-/

namespace Sdp

section
variable [Env]

/-- There is a text of an attribute that denotes the value. -/
def Written (t : AttributeType) (a : Attribute) : Prop :=
  ∃ v, Prints t v a ∧ ((∀ s ∈ a.strings, '\n' ∉ s) → '\n' ∉ v)

omit [Env] in
theorem lf_of_ws {v : Str} (h : ∀ c ∈ v, isWs c = false) : '\n' ∉ v := fun hm => absurd (h _ hm) (by decide)

omit [Env] in
theorem lf_joinS {c : Char} (hc : c ≠ '\n') {l : List Str} (h : ∀ t ∈ l, '\n' ∉ t) : '\n' ∉ joinS [c] l := by
  intro hm
  rcases mem_joinS hm with hm | ⟨t, ht, hm⟩
  · exact hc (List.mem_singleton.1 hm).symm
  · exact h t ht hm

/-! ## msid-semantic -/

theorem written_msidSemantic {m : MsidSemantic} (h : Token m.semantic) (ht : ∀ t ∈ m.msids, Token t) :
    Written .msidSemantic (.msidSemantic m) := by
  obtain ⟨s, l⟩ := m
  have ht' : ∀ t ∈ s :: l, Token t := by
    intro t hm
    rcases List.mem_cons.1 hm with rfl | hm
    · exact h
    · exact ht t hm
  refine ⟨joinS c%" " (s :: l), ⟨tokens_trimmed (by simp) ht', ?_⟩, fun _ => ?_⟩
  · show parseMsidSemantic _ = _
    unfold parseMsidSemantic
    rw [splitWs_tokens ht']
    simp [idx, sliceFrom]
  · exact lf_joinS (by decide) fun t h => lf_of_ws (ht' t h).2

/-! ## simulcast -/

omit [Env] in
theorem SimulcastId.Readable.new_show {i : SimulcastId} (h : i.Readable) : SimulcastId.new (showSimulcastId i) = i := by
  obtain ⟨s, p⟩ := i
  cases p with
  | true => simp [showSimulcastId, SimulcastId.new, stripPrefix]
  | false =>
    have := h.tilde rfl
    dsimp only at this
    cases s with
    | nil => simp [showSimulcastId, SimulcastId.new, stripPrefix]
    | cons c r =>
      have hc : c ≠ '~' := by simpa using this
      simp [showSimulcastId, SimulcastId.new, stripPrefix, hc.symm]

omit [Env] in
theorem SimulcastId.Readable.chars' {i : SimulcastId} (h : i.Readable) :
    ∀ c ∈ showSimulcastId i, isWs c = false ∧ c ≠ ',' ∧ c ≠ ';' := by
  intro c hc
  unfold showSimulcastId at hc
  rcases List.mem_append.1 hc with hc | hc
  · have : c = '~' := by
      by_cases hp : i.paused = true
      · simpa [hp] using hc
      · simp [hp] at hc
    subst this; decide
  · exact h.chars c hc

theorem parseVersionList_text {l : List SimulcastVersion} (hn : l ≠ [])
    (h : ∀ v ∈ l, v.ids ≠ [] ∧ ∀ i ∈ v.ids, i.Readable) :
    parseVersionList (c%"rid=" ++ joinS c%";" (l.map showSimulcastVersion)) = .ok l ∧
      Token (c%"rid=" ++ joinS c%";" (l.map showSimulcastVersion)) := by
  have hv : ∀ v ∈ l, ∀ c ∈ showSimulcastVersion v, isWs c = false ∧ c ≠ ';' := by
    intro v hv c hc
    rcases mem_joinS hc with hc | ⟨t, ht, hc⟩
    · simp at hc; subst hc; decide
    · obtain ⟨i, hi, rfl⟩ := List.mem_map.1 ht
      obtain ⟨h1, -, h2⟩ := ((h v hv).2 i hi).chars' c hc
      exact ⟨h1, h2⟩
  have key : ∀ c ∈ joinS c%";" (l.map showSimulcastVersion), isWs c = false := by
    intro c hc
    rcases mem_joinS hc with hc | ⟨t, ht, hc⟩
    · simp at hc; subst hc; decide
    · obtain ⟨v, hv', rfl⟩ := List.mem_map.1 ht
      exact (hv v hv' c hc).1
  have hnew : ∀ v ∈ l, SimulcastVersion.new (showSimulcastVersion v) = v := by
    intro v hv
    obtain ⟨h1, h2⟩ := h v hv
    obtain ⟨ids⟩ := v
    unfold SimulcastVersion.new showSimulcastVersion
    rw [splitC_joinS (by simpa using h1) (by
      intro t ht hm
      obtain ⟨i, hi, rfl⟩ := List.mem_map.1 ht
      exact ((h2 i hi).chars' _ hm).2.1 rfl)]
    simp only [List.map_map, SimulcastVersion.mk.injEq]
    conv_rhs => rw [← List.map_id ids]
    exact List.map_congr_left fun i hi => (h2 i hi).new_show
  refine ⟨?_, by simp, ?_⟩
  · unfold parseVersionList
    rw [if_pos (by simp), show (c%"rid=") = c%"rid" ++ ['='] from rfl, List.append_assoc, List.singleton_append,
      splitn_two_append (by decide)]
    simp only [List.getElem?_cons_zero, List.getElem?_cons_succ, Outcome.unwrap, ok_bind, if_true]
    unfold makeVersionList
    rw [splitC_joinS (by simpa using hn) (by
      intro t ht hm
      obtain ⟨v, hv', rfl⟩ := List.mem_map.1 ht
      exact (hv v hv' _ hm).2 rfl)]
    simp only [List.map_map]
    refine congrArg Outcome.ok ?_
    conv_rhs => rw [← List.map_id l]
    exact List.map_congr_left fun v hv => hnew v hv
  · intro c hc
    rcases List.mem_append.1 hc with hc | hc
    · exact (by decide : ∀ c ∈ c%"rid=", isWs c = false) c hc
    · exact key c hc

theorem written_simulcast {s : Simulcast} (h : s.Readable) : Written .simulcast (.simulcast s) := by
  obtain ⟨sd, rc⟩ := s
  obtain ⟨h1, h2, h3⟩ := h
  dsimp only at h1 h2 h3
  have tS : Token c%"send" := ⟨by decide, by decide⟩
  have tR : Token c%"recv" := ⟨by decide, by decide⟩
  have lf : ∀ {ts : List Str}, (∀ t ∈ ts, Token t) → '\n' ∉ joinS c%" " ts :=
    fun h => lf_joinS (by decide) fun t ht => lf_of_ws (h t ht).2
  by_cases hs : sd = []
  · have hr : rc ≠ [] := by rcases h3 with h | h; exacts [absurd hs h, h]
    subst hs
    obtain ⟨p2, t2⟩ := parseVersionList_text hr h2
    have ht : ∀ t ∈ [c%"recv", c%"rid=" ++ joinS c%";" (rc.map showSimulcastVersion)], Token t := by
      intro t ht
      rcases List.mem_cons.1 ht with rfl | ht
      · exact tR
      · rw [List.mem_singleton.1 ht]; exact t2
    refine ⟨_, ⟨tokens_trimmed (by simp) ht, ?_⟩, fun _ => lf ht⟩
    rw [show ∀ s, parseAttrValue .simulcast s = parseSimulcast s from fun _ => rfl]
    unfold parseSimulcast
    rw [splitWs_tokens ht]
    dsimp only
    rw [show parseSingleDirection c%"recv" = .ok .recv from rfl, ok_bind, p2]
    rfl
  · obtain ⟨p1, t1⟩ := parseVersionList_text hs h1
    by_cases hr : rc = []
    · subst hr
      have ht : ∀ t ∈ [c%"send", c%"rid=" ++ joinS c%";" (sd.map showSimulcastVersion)], Token t := by
        intro t ht
        rcases List.mem_cons.1 ht with rfl | ht
        · exact tS
        · rw [List.mem_singleton.1 ht]; exact t1
      refine ⟨_, ⟨tokens_trimmed (by simp) ht, ?_⟩, fun _ => lf ht⟩
      rw [show ∀ s, parseAttrValue .simulcast s = parseSimulcast s from fun _ => rfl]
      unfold parseSimulcast
      rw [splitWs_tokens ht]
      dsimp only
      rw [show parseSingleDirection c%"send" = .ok .send from rfl, ok_bind, p1]
      rfl
    · obtain ⟨p2, t2⟩ := parseVersionList_text hr h2
      have ht : ∀ t ∈ [c%"send", c%"rid=" ++ joinS c%";" (sd.map showSimulcastVersion), c%"recv",
          c%"rid=" ++ joinS c%";" (rc.map showSimulcastVersion)], Token t := by
        intro t ht
        simp only [List.mem_cons, List.not_mem_nil, or_false] at ht
        rcases ht with rfl | rfl | rfl | rfl
        exacts [tS, t1, tR, t2]
      refine ⟨_, ⟨tokens_trimmed (by simp) ht, ?_⟩, fun _ => lf ht⟩
      rw [show ∀ s, parseAttrValue .simulcast s = parseSimulcast s from fun _ => rfl]
      unfold parseSimulcast
      rw [splitWs_tokens ht]
      dsimp only
      rw [show parseSingleDirection c%"send" = .ok .send from rfl, ok_bind, p1, ok_bind]
      dsimp only [parseSecondVersionList]
      rw [show parseSingleDirection c%"recv" = .ok .recv from rfl, ok_bind, if_neg (by simp), p2]
      rfl

/-! ## rid -/

omit [Env] in
theorem ridParam_num {name : Str} (hn : '=' ∉ name) (v : UInt32) (st : RidState) : ridParam st (name ++ '=' :: showU32 v) =
      (if name = c%"max-width" then .ok { st with params := { st.params with maxWidth := v } }
      else if name = c%"max-height" then .ok { st with params := { st.params with maxHeight := v } }
      else if name = c%"max-fps" then .ok { st with params := { st.params with maxFps := v } }
      else if name = c%"max-fs" then .ok { st with params := { st.params with maxFs := v } }
      else if name = c%"max-br" then .ok { st with params := { st.params with maxBr := v } }
      else if name = c%"max-pps" then .ok { st with params := { st.params with maxPps := v } }
      else if name = c%"depends" then .ok { st with depends := st.depends ++ splitC ',' (showU32 v) }
      else .ok { st with params := { st.params with unknown := st.params.unknown ++ [name ++ '=' :: showU32 v] } }) := by
  unfold ridParam
  rw [splitn_two_append hn]
  simp [idx, parseU32_show]

/-- The numeric parameters that are put at the end. -/
def ridLastText (p : RidParams) : List Str :=
  [c%"max-height" ++ '=' :: showU32 p.maxHeight, c%"max-fps" ++ '=' :: showU32 p.maxFps, c%"max-fs" ++ '=' :: showU32 p.maxFs,
   c%"max-br" ++ '=' :: showU32 p.maxBr, c%"max-pps" ++ '=' :: showU32 p.maxPps]

def ridDepText (d : List Str) : List Str := if d = [] then [] else [c%"depends" ++ '=' :: joinS c%"," d]

def ridTexts (r : Rid) : List Str :=
  (c%"max-width" ++ '=' :: showU32 r.params.maxWidth) :: (r.params.unknown ++ (ridDepText r.depends ++ ridLastText r.params))

theorem ridItems_ok {r : Rid} (h : r.Readable) : ridParamList RidState.default (ridTexts r) = .ok ⟨r.params, r.depends⟩ := by
  obtain ⟨id, dir, fs, ⟨w, he, fps, fs', br, pps, un⟩, dep⟩ := r
  have hun := h.unknown
  have hdep := h.depends
  dsimp only at hun hdep
  unfold ridTexts ridLastText
  dsimp only
  have s7 : ∀ st : RidState, st.depends = [] → ridParamList st (ridDepText dep) = .ok { st with depends := dep } := by
    intro st hs
    unfold ridDepText
    by_cases hw : dep = []
    · obtain ⟨_, _⟩ := st; subst hw; cases hs; rfl
    · have hsp : splitC ',' (joinS c%"," dep) = dep := splitC_joinS hw fun t ht => (hdep t ht).1
      rw [if_neg hw, ridParamList]
      unfold ridParam
      rw [splitn_two_append (by decide)]
      simp [idx, hsp, hs, ridParamList]
  rw [ridParamList, ridParam_num (by decide), if_pos rfl, ok_bind, ridParamList_append,
    ridParamList_unknown (fun u hu => ⟨(hun u hu).1, (hun u hu).2.2⟩), ok_bind, ridParamList_append, s7 _ rfl, ok_bind]
  simp only [ridParamList]
  rw [ridParam_num (by decide), if_neg (by decide), if_pos rfl, ok_bind,
    ridParam_num (by decide), if_neg (by decide), if_neg (by decide), if_pos rfl, ok_bind,
    ridParam_num (by decide), if_neg (by decide), if_neg (by decide), if_neg (by decide), if_pos rfl, ok_bind,
    ridParam_num (by decide), if_neg (by decide), if_neg (by decide), if_neg (by decide), if_neg (by decide), if_pos rfl, ok_bind,
    ridParam_num (by decide), if_neg (by decide), if_neg (by decide), if_neg (by decide), if_neg (by decide),
    if_neg (by decide), if_pos rfl, ok_bind]
  rfl

omit [Env] in
theorem u32_clean (n : UInt32) {c : Char} (hc : c.isDigit = false) : c ∉ showU32 n := by
  intro h; have := showNat_digits h; rw [hc] at this; cases this

omit [Env] in
theorem ridItems_chars {r : Rid} {c : Char} (hc : c = ';' ∨ c = '\n') (hu : ∀ u ∈ r.params.unknown, c ∉ u)
    (hd : ∀ d ∈ r.depends, c ∉ d) : ∀ t ∈ ridHead r ++ ridTexts r, c ∉ t := by
  have num : ∀ {name : Str} {v : UInt32}, c ∉ name → c ∉ name ++ '=' :: showU32 v := by
    intro name v hn
    simp only [List.mem_append, List.mem_cons, not_or]
    exact ⟨hn, by rcases hc with rfl | rfl <;> decide, u32_clean v (by rcases hc with rfl | rfl <;> decide)⟩
  intro t ht
  simp only [List.mem_append, ridTexts, List.mem_cons] at ht
  rcases ht with ht | rfl | ht | ht | ht
  · unfold ridHead at ht
    split at ht
    · cases ht
    · rw [List.mem_singleton.1 ht]
      simp only [List.mem_append, not_or]
      refine ⟨by rcases hc with rfl | rfl <;> decide, fun hm => ?_⟩
      rcases mem_joinS hm with hm | ⟨t, ht, hm⟩
      · rcases hc with rfl | rfl <;> simp at hm
      · obtain ⟨n, -, rfl⟩ := List.mem_map.1 ht
        have := showNat_digits hm
        rcases hc with rfl | rfl <;> exact absurd this (by decide)
  · exact num (by rcases hc with rfl | rfl <;> decide)
  · exact hu t ht
  · unfold ridDepText at ht
    split at ht
    · cases ht
    · rw [List.mem_singleton.1 ht]
      simp only [List.mem_append, List.mem_cons, not_or]
      refine ⟨by rcases hc with rfl | rfl <;> decide, by rcases hc with rfl | rfl <;> decide, fun hm => ?_⟩
      rcases mem_joinS hm with hm | ⟨t, ht, hm⟩
      · rcases hc with rfl | rfl <;> simp at hm
      · exact hd t ht hm
  · simp only [ridLastText, List.mem_cons, List.not_mem_nil, or_false] at ht
    rcases ht with rfl | rfl | rfl | rfl | rfl <;> exact num (by rcases hc with rfl | rfl <;> decide)

theorem written_rid {r : Rid} (h : r.Readable) : Written .rid (.rid r) := by
  have hdir : Token (showSingleDirection r.direction) := by cases r.direction <;> exact ⟨by decide, by decide⟩
  have pdir : parseSingleDirection (showSingleDirection r.direction) = .ok r.direction := by
    cases r.direction <;> rfl
  have hne : ridHead r ++ ridTexts r ≠ [] := by simp [ridTexts]
  have hsp : splitC ';' (joinS c%";" (ridHead r ++ ridTexts r)) = ridHead r ++ ridTexts r :=
    splitC_joinS hne (ridItems_chars (.inl rfl) (fun u hu => (h.unknown u hu).2.1) fun d hd => (h.depends d hd).2)
  have hfm : ridFormats (ridHead r ++ ridTexts r) = .ok (r.formats, ridTexts r) := by
    unfold ridHead
    by_cases hf : r.formats = []
    · rw [if_pos hf, List.nil_append, hf]
      unfold ridTexts ridFormats
      dsimp only
      rw [stripPrefix_pt_none (by rw [takeWhile_stop (by decide)]; decide)]
    · rw [if_neg hf]
      have hs : stripPrefix c%"pt=" (c%"pt=" ++ joinS c%"," (r.formats.map showU16)) =
          some (joinS c%"," (r.formats.map showU16)) := by simp [stripPrefix]
      simp only [List.cons_append, List.nil_append] at hs ⊢
      unfold ridFormats
      dsimp only
      rw [hs]
      simp only
      rw [splitC_joinS (by simpa using hf) (by
        intro t ht hm
        obtain ⟨n, -, rfl⟩ := List.mem_map.1 ht
        have := showNat_digits hm; exact absurd this (by decide)),
        collect_map_id (f := fun f => parseU16 (trim f)) (fun n _ => by
          rw [(Token.u16 n).trimmed.trim, parseU16_show])]
      rfl
  refine ⟨r.id ++ ' ' :: (showSingleDirection r.direction ++ ' ' :: joinS c%";" (ridHead r ++ ridTexts r)), ⟨⟨h.id.1.append, ?_⟩, ?_⟩, ?_⟩
  · refine (EndsClean.cons (EndsClean.append (EndsClean.cons ?_))).append
    refine joinS_endsClean (t := c%"max-pps" ++ '=' :: showU32 r.params.maxPps) ?_ ((Token.u32 _).ends.cons.append)
    have : ridHead r ++ ridTexts r = (ridHead r ++ ((c%"max-width" ++ '=' :: showU32 r.params.maxWidth) :: (r.params.unknown ++
        (ridDepText r.depends ++ (ridLastText r.params).dropLast)))) ++ [c%"max-pps" ++ '=' :: showU32 r.params.maxPps] := by
      simp [ridTexts, ridLastText]
    rw [this]
    exact List.getLast?_concat ..
  · show parseRid _ = _
    unfold parseRid
    rw [splitn_append h.id.2, splitn_append hdir.not_space]
    simp [idx, splitn, pdir, hsp, hfm, ridItems_ok h]
  · intro hs
    have hs' : ∀ t ∈ r.id :: (r.params.unknown ++ r.depends), '\n' ∉ t := hs
    simp only [List.mem_append, List.mem_cons, not_or]
    refine ⟨hs' _ (by simp), by decide, lf_of_ws hdir.2, by decide, ?_⟩
    exact lf_joinS (by decide) (ridItems_chars (.inr rfl) (fun u hu => hs' u (by simp [hu])) fun d hd => hs' d (by simp [hd]))

/-! ## fmtp -/

theorem unknown_params {l : List Str} (hl : ∀ t ∈ l, '=' ∈ t ∧ ';' ∉ t ∧ paramName t ∉ fmtpNames) (q : FmtpParams) :
    fmtpParamList q l = .ok { q with unknownTokens := q.unknownTokens ++ l } := by
  induction l generalizing q with
  | nil => simp [fmtpParamList]
  | cons t ts ih =>
    have ht := hl t (by simp)
    obtain ⟨n1, n2⟩ := not_mem_fmtpNames.1 ht.2.2
    rw [fmtpParamList, fmtpParam_iff.2 (FmtpStep.unknown ht.1 n1 n2), ok_bind,
      ih (fun t h => hl t (by simp [h]))]
    simp

/-- The items for the retransmission fields. -/
def rtxTexts : Option RtxParams → List Str
  | none => []
  | some ⟨apt, none⟩ => [c%"apt" ++ '=' :: showU8 apt]
  | some ⟨apt, some t⟩ => [c%"apt" ++ '=' :: showU8 apt, c%"rtx-time" ++ '=' :: showU32 t]

theorem rtxItems_ok (r : Option RtxParams) :
    fmtpParamList FmtpParams.default (rtxTexts r) = .ok { FmtpParams.default with rtx := r } := by
  have happ : ∀ apt q, fmtpParam q (c%"apt" ++ '=' :: showU8 apt) = .ok { q with rtx := some ⟨apt, none⟩ } := by
    intro apt q
    have := (fmtpParam_field (f := .apt) (p := q) (p' := { q with rtx := some ⟨apt, none⟩ }) (a := c%"apt")
      (v := showU8 apt) (by decide) rfl).2 ⟨apt.toNat, DecText.show _, by
        show apt.toNat ≤ 255
        have := apt.toNat_lt; omega, by simp [FmtpField.set]⟩
    exact this
  match r with
  | none => rfl
  | some ⟨apt, none⟩ => rw [rtxTexts, fmtpParamList, happ]; rfl
  | some ⟨apt, some t⟩ =>
    rw [rtxTexts, fmtpParamList, happ, ok_bind, fmtpParamList]
    have := (fmtpParam_rtx_time (p := { FmtpParams.default with rtx := some ⟨apt, none⟩ })
      (p' := { FmtpParams.default with rtx := some ⟨apt, some t⟩ }) (a := c%"rtx-time") (v := showU32 t) (by decide) rfl).2
      ⟨⟨apt, none⟩, rfl, t.toNat, DecText.show _, u32_max t, by simp⟩
    rw [this]; rfl

omit [Env] in
theorem rtxItems_chars {r : Option RtxParams} : ∀ t ∈ rtxTexts r, '=' ∈ t ∧ ';' ∉ t ∧ '\n' ∉ t := by
  have h8 : ∀ (n : UInt8) (c : Char), c.isDigit = false → c ∉ showU8 n := by
    intro n c hc h; have := showNat_digits h; rw [hc] at this; cases this
  have a : ∀ n : UInt8, ∀ t, t = c%"apt" ++ '=' :: showU8 n → '=' ∈ t ∧ ';' ∉ t ∧ '\n' ∉ t := by
    rintro n _ rfl
    refine ⟨by simp, ?_, ?_⟩ <;> simp only [List.mem_append, List.mem_cons, not_or]
    · exact ⟨by decide, by decide, h8 n _ (by decide)⟩
    · exact ⟨by decide, by decide, h8 n _ (by decide)⟩
  match r with
  | none => simp [rtxTexts]
  | some ⟨apt, none⟩ => intro t ht; rw [rtxTexts, List.mem_singleton] at ht; exact a apt t ht
  | some ⟨apt, some u⟩ =>
    intro t ht
    simp only [rtxTexts, List.mem_cons, List.not_mem_nil, or_false] at ht
    rcases ht with ht | rfl
    · exact a apt t ht
    · refine ⟨by simp, ?_, ?_⟩ <;> simp only [List.mem_append, List.mem_cons, not_or]
      · exact ⟨by decide, by decide, u32_clean u (by decide)⟩
      · exact ⟨by decide, by decide, u32_clean u (by decide)⟩

/-- The items of named parameters; the last one is always a number. -/
def fmtpTexts (p : FmtpParams) : List Str :=
  (rtxTexts p.rtx ++ (p.unknownTokens ++ nonEmpty (fmtpOrder.map (pieceOf p)))) ++ [c%"max-fr" ++ '=' :: showU32 p.maxFr]

omit [Env] in
theorem pieceOf_lf (p : FmtpParams) (f : FmtpField) : '\n' ∉ pieceOf p f := by
  have h : LineEnd '\n' := .inl rfl
  show Free '\n' (pieceOf p f)
  cases f <;> simp only [pieceOf] <;> first
    | exact Free.nil
    | exact Free.maybeParam h (Free.lit h (by decide) (by decide))
    | exact Free.maybeBool h (Free.lit h (by decide) (by decide))
    | exact Free.maybeParamS (Free.lit h (by decide) (by decide)) (Free.hexPad h _ _)
    | exact Free.optStr (Free.lit h (by decide) (by decide)) fun x _ => Free.u8 h x

omit [Env] in
theorem fmtpItems_lf {p : FmtpParams} (hs : ∀ t ∈ p.unknownTokens, '\n' ∉ t) :
    ∀ t ∈ fmtpTexts p, '\n' ∉ t := by
  intro t ht
  simp only [fmtpTexts, List.mem_append, List.mem_singleton] at ht
  rcases ht with (ht | ht | ht) | rfl
  · exact (rtxItems_chars t ht).2.2
  · exact hs t ht
  · simp only [nonEmpty, List.mem_filter] at ht
    obtain ⟨ht, hne⟩ := ht
    obtain ⟨f, -, rfl⟩ := List.mem_map.1 ht
    exact pieceOf_lf p f
  · simp only [List.mem_append, List.mem_cons, not_or]
    exact ⟨by decide, by decide, u32_clean _ (by decide)⟩

theorem fmtpItems_chars {p : FmtpParams} (range : FmtpInRange p)
    (unknown : ∀ t ∈ p.unknownTokens, '=' ∈ t ∧ ';' ∉ t ∧ paramName t ∉ fmtpNames) :
    ∀ t ∈ fmtpTexts p, '=' ∈ t ∧ ';' ∉ t := by
  intro t ht
  simp only [fmtpTexts, List.mem_append, List.mem_singleton] at ht
  rcases ht with (ht | ht | ht) | rfl
  · exact ⟨(rtxItems_chars t ht).1, (rtxItems_chars t ht).2.1⟩
  · exact ⟨(unknown t ht).1, (unknown t ht).2.1⟩
  · simp only [nonEmpty, List.mem_filter] at ht
    obtain ⟨ht, hne⟩ := ht
    obtain ⟨f, hf, rfl⟩ := List.mem_map.1 ht
    rcases pieceOf_cases range (f := f) (by rintro rfl; simp [fmtpOrder] at hf) with ⟨h1, -⟩ | ⟨n, -, h⟩
    · rw [h1] at hne; simp at hne
    · exact ⟨h.facts.2.1, h.facts.2.2.1⟩
  · refine ⟨by simp, ?_⟩
    simp only [List.mem_append, List.mem_cons, not_or]
    exact ⟨by decide, by decide, u32_clean _ (by decide)⟩

theorem fmtpItems_ok {p : FmtpParams} (range : FmtpInRange p) (enc : p.encodings = []) (tones : p.dtmfTones = [])
    (unknown : ∀ t ∈ p.unknownTokens, '=' ∈ t ∧ ';' ∉ t ∧ paramName t ∉ fmtpNames) :
    fmtpParamList FmtpParams.default (fmtpTexts p) = .ok p := by
  unfold fmtpTexts
  refine fmtpParamList_append.2 ?_
  obtain ⟨r, k1, k2, -, k4, k5, k6, k7⟩ := paramList_pieces range (fs := fmtpOrder) (by decide) (by decide)
    (q := { FmtpParams.default with rtx := p.rtx, unknownTokens := p.unknownTokens }) (by
      intro f hf
      rw [← get_default f]
      cases f <;> first | rfl | exact absurd hf (by decide))
  refine ⟨r, fmtpParamList_append.2 ⟨_, rtxItems_ok _, fmtpParamList_append.2 ⟨_, unknown_params unknown _, k1⟩⟩, ?_⟩
  have e : r = p := FmtpParams.ext_get (fun f hf => k2 f (fmtpOrder_mem hf)) k4 k5 (by rw [k6, enc]; rfl) (by rw [k7, tones]; rfl)
  rw [e, fmtpParamList]
  have := (fmtpParam_field (f := .maxFr) (p := p) (p' := p) (a := c%"max-fr") (v := showU32 p.maxFr) (by decide) rfl).2
    ⟨p.maxFr.toNat, DecText.show _, u32_max _, by simp [FmtpField.set]⟩
  rw [this]; rfl

theorem written_fmtp {f : Fmtp} (h : f.parameters.Readable) : Written .fmtp (.fmtp f) := by
  obtain ⟨pt, p⟩ := f
  have key : ∀ b, fmtpBlock FmtpParams.default b = .ok p → EndsClean b → Prints .fmtp (showU8 pt ++ ' ' :: b) (.fmtp ⟨pt, p⟩) := by
    intro b h1 h2
    refine ⟨⟨(Token.u8 _).begins.append, h2.cons.append⟩, ?_⟩
    show parseFmtp _ = _
    unfold parseFmtp
    rw [splitn_two_append (Token.u8 _).not_space]
    simp [idx, sliceFrom, fmtpBlocks, h1, parseU8_show]
  have lf : ∀ b, '\n' ∉ b → '\n' ∉ showU8 pt ++ ' ' :: b := by
    intro b hb
    simp only [List.mem_append, List.mem_cons, not_or]
    exact ⟨lf_of_ws (Token.u8 _).2, by decide, hb⟩
  have wf : p.WF → Written .fmtp (.fmtp ⟨pt, p⟩) := fun hw =>
    ⟨_, prints_fmtp (f := ⟨pt, p⟩) ⟨hw⟩, fun hs =>
      Free.fmtp (.inl rfl) (hs _ (by simp [Attribute.strings])) fun t ht => hs t (by simp [Attribute.strings, ht])⟩
  dsimp only at h
  cases h with
  | tones h rest unknown enc rtx => exact wf (.tones h rest unknown enc rtx)
  | red h le rest unknown tones rtx => exact wf (.red h le rest unknown tones rtx)
  | params range enc tones unknown =>
    have hc := fmtpItems_chars range unknown
    have hne : fmtpTexts p ≠ [] := by simp [fmtpTexts]
    refine ⟨_, key (joinS c%";" (fmtpTexts p)) ?_ ?_, fun hs => lf _ (lf_joinS (by decide) (fmtpItems_lf ?_))⟩
    · unfold fmtpBlock
      rw [if_pos, splitC_joinS hne fun t ht => (hc t ht).2, List.filter_eq_self.2]
      · exact fmtpItems_ok range enc tones unknown
      · intro t ht
        have := List.ne_nil_of_mem (hc t ht).1
        simpa using this
      · cases hx : fmtpTexts p with
        | nil => exact absurd hx hne
        | cons s ss =>
          have := (hc s (by rw [hx]; simp)).1
          cases ss with
          | nil => exact this
          | cons _ _ => simp [joinS, this]
    · exact joinS_endsClean (t := c%"max-fr" ++ '=' :: showU32 p.maxFr) (List.getLast?_concat ..) ((Token.u32 _).ends.cons.append)
    · exact fun t ht => hs t (by simp [Attribute.strings, ht])

/-! ## imageattr -/

/-- An item of a set and what it does to the keys. -/
def KeyText (t : Str) (f : ImgKeys → ImgKeys) : Prop :=
  ItemOk ',' t ∧ (∀ c ∈ t, isWs c = false) ∧ ∀ k, imageKey k t = .ok (f k)

omit [Env] in
theorem ws_append {pre v : Str} (h1 : ∀ c ∈ pre, isWs c = false) (h2 : ∀ c ∈ v, isWs c = false) :
    ∀ c ∈ pre ++ v, isWs c = false := by
  intro c hc
  rcases List.mem_append.1 hc with hc | hc
  · exact h1 c hc
  · exact h2 c hc

omit [Env] in
theorem parseF32_negNan : parseF32 c%"-NaN" = .ok ⟨0xffc00000⟩ := by
  have : F32.ofText c%"-NaN" = .ok ⟨0xffc00000⟩ := by decide +kernel
  unfold parseF32
  rw [this]

theorem sar_text {r : SRange} (h : r.WF ∨ ∃ x, r = .discrete [x] ∧ FloatReadable x) :
    ∃ t, KeyText t fun k => { k with sar := some r } := by
  have wf : r.WF → ∃ t, KeyText t fun k => { k with sar := some r } := fun h =>
    ⟨_, (imageKey_sar h ⟨none, none, none⟩).1, ws_append (by decide) (imageKey_sar h ⟨none, none, none⟩).2.2,
      fun k => (imageKey_sar h k).2.1⟩
  rcases h with h | ⟨x, rfl, hx⟩
  · exact wf h
  · by_cases hn : x = ⟨0xffc00000⟩
    · subst hn
      refine ⟨c%"sar=-NaN", itemOk_plain (by decide) (by decide) (by decide), by decide, fun k => ?_⟩
      unfold imageKey
      rw [show (c%"sar=-NaN") = c%"sar=" ++ c%"-NaN" from rfl, strip_sar]
      dsimp only
      rw [if_neg (by decide), parseF32_negNan]
      rfl
    · exact wf (.inl ⟨x, rfl, fun h => (hx h).resolve_right hn⟩)

theorem q_text {x : F32} (hx : FloatReadable x) : ∃ t, KeyText t fun k => { k with q := some x } := by
  by_cases hn : x = ⟨0xffc00000⟩
  · subst hn
    refine ⟨c%"q=-NaN", itemOk_plain (by decide) (by decide) (by decide), by decide, fun k => ?_⟩
    have s1 : stripPrefix c%"sar=" c%"q=-NaN" = none := by decide
    have s2 : stripPrefix c%"par=" c%"q=-NaN" = none := by decide
    have s3 : stripPrefix c%"q=" c%"q=-NaN" = some c%"-NaN" := by decide
    unfold imageKey
    rw [s1]
    dsimp only
    rw [s2]
    dsimp only
    rw [s3]
    dsimp only
    rw [parseF32_negNan]
    rfl
  · have h : FloatWF32 x := fun h => (hx h).resolve_right hn
    exact ⟨_, (imageKey_q h ⟨none, none, none⟩).1, ws_append (by decide) (imageKey_q h ⟨none, none, none⟩).2.2,
      fun k => (imageKey_q h k).2.1⟩

theorem par_text {r : PRange} (h : RangeFloatWF r.min ∧ RangeFloatWF r.max ∧ ¬ r.min.AtLeast r.max) :
    ∃ t, KeyText t fun k => { k with par := some r } :=
  ⟨_, (imageKey_par h ⟨none, none, none⟩).1, ws_append (by decide) (imageKey_par h ⟨none, none, none⟩).2.2,
    fun k => (imageKey_par h k).2.1⟩

/-- Items that set the keys. -/
theorem key_texts {s : ImageAttrSet} (h : s.Readable) : ∃ ts : List Str,
    (∀ t ∈ ts, ItemOk ',' t ∧ ∀ c ∈ t, isWs c = false) ∧ imageKeys ⟨none, none, none⟩ ts = .ok ⟨s.sar, s.par, s.q⟩ := by
  have opt : ∀ {α : Type} (o : Option α) (f : α → ImgKeys → ImgKeys), (∀ a, o = some a → ∃ t, KeyText t (f a)) →
      ∃ ts : List Str, (∀ t ∈ ts, ItemOk ',' t ∧ ∀ c ∈ t, isWs c = false) ∧
        ∀ k, imageKeys k ts = .ok (match o with | none => k | some a => f a k) := by
    intro α o f ho
    cases o with
    | none => exact ⟨[], by simp, fun _ => rfl⟩
    | some a =>
      obtain ⟨t, h1, h2, h3⟩ := ho a rfl
      refine ⟨[t], by simpa using ⟨h1, h2⟩, fun k => ?_⟩
      simp only [imageKeys]
      rw [h3]; rfl
  obtain ⟨t1, a1, b1⟩ := opt s.sar (fun r k => { k with sar := some r }) fun r hr => sar_text (h.sar r hr)
  obtain ⟨t2, a2, b2⟩ := opt s.par (fun r k => { k with par := some r }) fun r hr => par_text (h.par r hr)
  obtain ⟨t3, a3, b3⟩ := opt s.q (fun r k => { k with q := some r }) fun r hr => q_text (h.q r hr)
  refine ⟨t1 ++ (t2 ++ t3), ?_, ?_⟩
  · intro t ht
    simp only [List.mem_append] at ht
    rcases ht with ht | ht | ht
    exacts [a1 t ht, a2 t ht, a3 t ht]
  · rw [imageKeys_append, b1, ok_bind, imageKeys_append, b2, ok_bind, b3]
    cases s.sar <;> cases s.par <;> cases s.q <;> rfl

/-- A text of a set. -/
def SetText (t : Str) (s : ImageAttrSet) : Prop :=
  parseBracedSet t = .ok s ∧ (∀ c ∈ t, isWs c = false) ∧ ∃ u, t = '[' :: (u ++ [']'])

theorem set_text {s : ImageAttrSet} (h : s.Readable) : ∃ t, SetText t s := by
  obtain ⟨ts, h1, h2⟩ := key_texts h
  obtain ⟨ax, -, bx⟩ := showXyRange_shape h.x (pre := c%"x=") (by decide) (by decide) (by decide)
  obtain ⟨ay, -, b_y⟩ := showXyRange_shape h.y (pre := c%"y=") (by decide) (by decide) (by decide)
  have px := (showXyRange_shape h.x (pre := []) (by simp) (by simp) (by simp)).2.1
  have py := (showXyRange_shape h.y (pre := []) (by simp) (by simp) (by simp)).2.1
  have hall : ∀ t ∈ (c%"x=" ++ showXyRange s.x) :: (c%"y=" ++ showXyRange s.y) :: ts,
      ItemOk ',' t ∧ ∀ c ∈ t, isWs c = false := by
    intro t ht
    simp only [List.mem_cons] at ht
    rcases ht with rfl | rfl | ht
    · exact ⟨ax, ws_append (by decide) bx⟩
    · exact ⟨ay, ws_append (by decide) b_y⟩
    · exact h1 t ht
  refine ⟨'[' :: (joinS c%"," ((c%"x=" ++ showXyRange s.x) :: (c%"y=" ++ showXyRange s.y) :: ts) ++ [']']), ?_, ?_, _, rfl⟩
  · unfold parseBracedSet
    rw [bracedToken_braces]
    simp only [Outcome.okOr, ok_bind]
    unfold parseImageSet
    rw [imageTokens_join (by simp) fun t ht => (hall t ht).1, ok_bind]
    dsimp only
    have sx : ∀ v, startsWith c%"x=" (c%"x=" ++ v) = true := by intro v; simp [startsWith, stripPrefix]
    have sy : ∀ v, startsWith c%"y=" (c%"y=" ++ v) = true := by intro v; simp [startsWith, stripPrefix]
    rw [sx]
    simp only [Bool.not_true, Bool.false_eq_true, if_false]
    have l2 : ∀ (a b : Char) (v : Str), sliceFrom ([a, b] ++ v) 2 = (.ok v : IRes Str) := by
      intro a b v; simp [sliceFrom]
    rw [l2, ok_bind, px, ok_bind, sy]
    simp only [Bool.not_true, Bool.false_eq_true, if_false]
    rw [l2, ok_bind, py, ok_bind, h2]
    rfl
  · intro c hc
    simp only [List.mem_append, List.mem_cons, List.not_mem_nil, or_false] at hc
    rcases hc with rfl | hc | rfl
    · decide
    · rcases mem_joinS hc with hm | ⟨t, ht, hm⟩
      · simp only [List.mem_cons, List.not_mem_nil, or_false] at hm; subst hm; decide
      · exact (hall t (by simpa using ht)).2 c hm
    · decide

theorem SetText.token {t : Str} {s : ImageAttrSet} (h : SetText t s) : Token t ∧ ItemOk ' ' t := by
  obtain ⟨-, hw, u, hu⟩ := h
  refine ⟨⟨by rw [hu]; simp, hw⟩, .inl ⟨?_, ?_⟩⟩
  · intro hm; exact absurd (hw _ hm) (by decide)
  · rw [hu]; simp

theorem moreSets_texts {l : List ImageAttrSet} (h : ∀ s ∈ l, s.Readable) : ∃ ts : List Str,
    (∀ t ∈ ts, Token t ∧ ItemOk ' ' t) ∧
      ∀ rest : List Str, (∀ t, rest.head? = some t → startsWithC '[' t = false) → moreSets (ts ++ rest) = .ok (l, rest) := by
  induction l with
  | nil =>
    refine ⟨[], by simp, fun rest hr => ?_⟩
    cases rest with
    | nil => rfl
    | cons t ts => have := hr t rfl; simp [moreSets, this]
  | cons s l ih =>
    obtain ⟨ts, h1, h2⟩ := ih fun s hs => h s (by simp [hs])
    obtain ⟨t, ht⟩ := set_text (h s (by simp))
    refine ⟨t :: ts, fun u hu => ?_, fun rest hr => ?_⟩
    · rcases List.mem_cons.1 hu with rfl | hu
      · exact ht.token
      · exact h1 u hu
    · have hs : startsWithC '[' t = true := by obtain ⟨-, -, u, rfl⟩ := ht; simp [startsWithC]
      simp only [List.cons_append, moreSets]
      rw [if_pos hs, ht.1, ok_bind, h2 rest hr]
      rfl

theorem setList_texts {l : ImageAttrSetList} (h : l.Readable) (hc : l.count ≠ 0) : ∃ ts : List Str,
    (∀ t ∈ ts, Token t ∧ ItemOk ' ' t) ∧
      ∀ rest : List Str, (∀ t, rest.head? = some t → startsWithC '[' t = false) → parseSetList (ts ++ rest) = .ok (l, rest) := by
  cases l with
  | wildcard =>
    refine ⟨[c%"*"], ?_, fun _ _ => rfl⟩
    intro t ht
    rw [List.mem_singleton.1 ht]
    exact ⟨⟨by decide, by decide⟩, itemOk_plain (by decide) (by decide) (by decide)⟩
  | sets l =>
    cases l with
    | nil => exact absurd rfl hc
    | cons s l =>
      obtain ⟨ts, h1, h2⟩ := moreSets_texts (l := l) fun t ht => h t (by simp [ht])
      obtain ⟨t, ht⟩ := set_text (h s (by simp))
      refine ⟨t :: ts, fun u hu => ?_, fun rest hr => ?_⟩
      · rcases List.mem_cons.1 hu with rfl | hu
        · exact ht.token
        · exact h1 u hu
      · have hne : t ≠ c%"*" := by obtain ⟨-, -, u, rfl⟩ := ht; simp
        simp only [List.cons_append, parseSetList]
        rw [if_neg hne, ht.1, ok_bind, h2 rest hr]
        rfl

theorem written_imageAttr {i : ImageAttr} (h1 : i.send.Readable) (h2 : i.recv.Readable)
    (h3 : i.send.count + i.recv.count ≠ 0) : Written .imageAttr (.imageAttr i) := by
  obtain ⟨pt, s, r⟩ := i
  dsimp only at h1 h2 h3
  have hpt : (Token (showPayloadType pt) ∧ ItemOk ' ' (showPayloadType pt)) ∧ parsePayloadType (showPayloadType pt) = .ok pt := by
    cases pt with
    | pt n =>
      refine ⟨⟨Token.u8 n, itemOk_plain (Token.u8 n).not_space (fun h => absurd (showNat_digits h) (by decide))
        fun h => absurd (showNat_digits h) (by decide)⟩, ?_⟩
      show parsePayloadType (showNat n.toNat) = _
      unfold parsePayloadType
      rw [if_neg]
      · rw [show showNat n.toNat = showU8 n from rfl, parseU8_show]; rfl
      · intro h
        have := showNat_digits (n := n.toNat) (c := '*') (by rw [h]; simp)
        exact absurd this (by decide)
    | wildcard => exact ⟨⟨⟨by decide, by decide⟩, itemOk_plain (by decide) (by decide) (by decide)⟩, rfl⟩
  have hS : Token c%"send" ∧ ItemOk ' ' c%"send" :=
    ⟨⟨by decide, by decide⟩, itemOk_plain (by decide) (by decide) (by decide)⟩
  have hR : Token c%"recv" ∧ ItemOk ' ' c%"recv" :=
    ⟨⟨by decide, by decide⟩, itemOk_plain (by decide) (by decide) (by decide)⟩
  have empty : ∀ l : ImageAttrSetList, l.count = 0 → l = .sets [] := by
    intro l hl
    cases l with
    | wildcard => cases hl
    | sets l => cases l with
      | nil => rfl
      | cons _ _ => cases hl
  have fin : ∀ (ts : List Str) (a : Attribute), (∀ t ∈ ts, Token t ∧ ItemOk ' ' t) →
      (imageTokens (joinS c%" " (showPayloadType pt :: ts)) ' ' = .ok (showPayloadType pt :: ts) →
        parseImageAttr (joinS c%" " (showPayloadType pt :: ts)) = .ok a) → Written .imageAttr a := by
    intro ts a hts hp
    have hall : ∀ t ∈ showPayloadType pt :: ts, Token t ∧ ItemOk ' ' t := by
      intro t ht
      rcases List.mem_cons.1 ht with rfl | ht
      · exact hpt.1
      · exact hts t ht
    refine ⟨_, ⟨tokens_trimmed (by simp) fun t ht => (hall t ht).1, ?_⟩, fun _ => lf_joinS (by decide) fun t ht => lf_of_ws (hall t ht).1.2⟩
    rw [show ∀ s, parseAttrValue .imageAttr s = parseImageAttr s from fun _ => rfl]
    exact hp (imageTokens_join (by simp) fun t ht => (hall t ht).2)
  by_cases c1 : s.count = 0
  · have c2 : r.count ≠ 0 := by omega
    obtain rfl := empty s c1
    obtain ⟨ts, k1, k2⟩ := setList_texts h2 c2
    have k2 := k2 [] (by simp)
    rw [List.append_nil] at k2
    refine fin (c%"recv" :: ts) _ (fun t ht => ?_) fun e => ?_
    · rcases List.mem_cons.1 ht with rfl | ht
      · exact hR
      · exact k1 t ht
    · unfold parseImageAttr
      rw [e, ok_bind]
      dsimp only
      rw [hpt.2, ok_bind]
      rw [show parseSingleDirection c%"recv" = .ok .recv from rfl, ok_bind, k2]
      rfl
  · obtain ⟨ts, k1, k2⟩ := setList_texts h1 c1
    by_cases c2 : r.count = 0
    · obtain rfl := empty r c2
      have k2 := k2 [] (by simp)
      rw [List.append_nil] at k2
      refine fin (c%"send" :: ts) _ (fun t ht => ?_) fun e => ?_
      · rcases List.mem_cons.1 ht with rfl | ht
        · exact hS
        · exact k1 t ht
      · unfold parseImageAttr
        rw [e, ok_bind]
        dsimp only
        rw [hpt.2, ok_bind]
        rw [show parseSingleDirection c%"send" = .ok .send from rfl, ok_bind, k2]
        rfl
    · obtain ⟨us, l1, l2⟩ := setList_texts h2 c2
      have l2 := l2 [] (by simp)
      rw [List.append_nil] at l2
      have k2 := k2 (c%"recv" :: us) (by intro t ht; cases ht; rfl)
      refine fin (c%"send" :: (ts ++ c%"recv" :: us)) _ (fun t ht => ?_) fun e => ?_
      · simp only [List.mem_cons, List.mem_append] at ht
        rcases ht with rfl | ht | rfl | ht
        exacts [hS, k1 t ht, hR, l1 t ht]
      · unfold parseImageAttr
        rw [e, ok_bind]
        dsimp only
        rw [hpt.2, ok_bind]
        rw [show parseSingleDirection c%"send" = .ok .send from rfl, ok_bind, k2, ok_bind]
        dsimp only [parseSecondSetList]
        rw [show parseSingleDirection c%"recv" = .ok .recv from rfl, ok_bind, if_neg (by simp), l2]
        rfl

end

end Sdp
