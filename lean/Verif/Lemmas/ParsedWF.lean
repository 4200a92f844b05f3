import Verif.Lemmas.FloatShow
import Verif.Spec.Plain
import Verif.Props.Fmtp
import Verif.Props.Attrs
import Verif.Props.Accepted
import Verif.Props.Candidate
import Verif.Lemmas.Text
import Verif.Lemmas.Clean
import Verif.Lemmas.Print2
/-!
# What the parser returns is well-formed
-/

namespace Sdp

/-! ## Texts -/

theorem tok {s t : Str} (h : t ∈ splitWs s) : Token t := ⟨(splitWs_mem h).2, (splitWs_mem h).1⟩

theorem trimmed_of_trim {s : Str} (h : trim s = s) (hne : s ≠ []) : Trimmed s := by
  constructor
  · obtain ⟨c, r, rfl⟩ := List.exists_cons_of_ne_nil hne
    refine ⟨c, r, rfl, ?_⟩
    by_contra hc
    have hc : isWs c = true := by simpa using hc
    have h1 := trim_ws_append (s := r) (w := [c]) (by intro x hx; simp at hx; subst hx; exact hc)
    have h2 := congrArg List.length (h1.symm.trans h)
    obtain ⟨w1, w2, -, -, e⟩ := trim_spec r
    have h3 := congrArg List.length e
    simp at h2 h3; omega
  · rcases List.eq_nil_or_concat s with rfl | ⟨r, c, rfl⟩
    · exact absurd rfl hne
    · refine ⟨r, c, by simp, ?_⟩
      by_contra hc
      have hc : isWs c = true := by simpa using hc
      have h1 := trim_append_ws (s := r) (w := [c]) (by intro x hx; simp at hx; subst hx; exact hc)
      have h2 := congrArg List.length (h1.symm.trans (by simpa using h))
      obtain ⟨w1, w2, -, -, e⟩ := trim_spec r
      have h3 := congrArg List.length e
      simp at h2 h3; omega

theorem EndsClean.suffix {a b : Str} (h : EndsClean (a ++ b)) (hb : b ≠ []) : EndsClean b := by
  obtain ⟨r, c, e, hc⟩ := h
  rcases List.eq_nil_or_concat b with rfl | ⟨b', x, rfl⟩
  · exact absurd rfl hb
  · have e : (a ++ b') ++ [x] = r ++ [c] := by simpa using e
    obtain ⟨-, e2⟩ := List.append_inj' e rfl
    simp at e2; subst e2
    exact ⟨b', x, by simp, hc⟩

theorem EndsClean.after {a b : Str} {c : Char} (h : EndsClean (a ++ c :: b)) (hc : isWs c = true) : EndsClean b := by
  have h' : EndsClean ((a ++ [c]) ++ b) := by simpa using h
  refine h'.suffix ?_
  rintro rfl
  obtain ⟨r, x, e, hx⟩ := h
  obtain ⟨-, e2⟩ := List.append_inj' e rfl
  simp at e2; subst e2; simp [hc] at hx

theorem BeginsClean.before {a b : Str} {c : Char} (h : BeginsClean (a ++ c :: b)) (hc : isWs c = true) : BeginsClean a := by
  obtain ⟨x, r, e, hx⟩ := h
  cases a with
  | nil => simp at e; rw [← e.1, hc] at hx; cases hx
  | cons y a => simp at e; exact ⟨y, a, rfl, by rw [e.1]; exact hx⟩

theorem joinS_mem {l : List Str} {t sep : Str} (h : t ∈ l) : ∀ x ∈ t, x ∈ joinS sep l := by
  intro x hx
  induction l with
  | nil => simp at h
  | cons a l ih =>
    cases l with
    | nil => simp at h; subst h; simpa [joinS] using hx
    | cons b l =>
      simp only [joinS, List.mem_append]
      rcases List.mem_cons.1 h with rfl | h
      · exact .inl (.inl hx)
      · exact .inr (ih h)

/-! ## Addresses and floats -/

section
variable [Env]

theorem address_wf (L : Laws) (s : Str) : Post Address.WF (parseAddress s) := by
  unfold parseAddress
  intro a h
  simp only [] at h
  have via {e : Option InternalError} (h : (match hostParse s with
      | .domain d => .ok (.fqdn d)
      | .ipv4 a => .ok (.ip (.v4 a))
      | .ipv6 a => .ok (.ip (.v6 a))
      | .error m => .err (e.getD (.domain m)) : IRes Address) = .ok a) : a.WF := by
    split at h
    · rename_i d hd
      cases h
      unfold hostParse at hd
      split at hd
      · cases hd
      · exact L.host _ _ hd
    · cases h; trivial
    · cases h; trivial
    · cases h
  split at h
  · split at h
    · cases h; trivial
    · exact via h
  · exact via (e := none) h

theorem typed_wf (L : Laws) (t : AddressType) (s : Str) : Post TypedAddress.WF (typedTryFrom t s) := by
  unfold typedTryFrom
  refine Post.bind fun a ha => ?_
  have := address_wf L s a ha
  cases a with
  | ip _ => exact Post.ite (fun _ => Post.err _) fun _ => Post.ok trivial
  | fqdn d => exact Post.ok this

omit [Env] in
theorem f32_ok {s : Str} {x : F32} (h : parseF32 s = .ok x) : F32.ofText s = .ok x := by
  unfold parseF32 at h
  split at h <;> cases h
  assumption

/-! ## Attributes one by one -/

theorem candidate_ext_wf (L : Laws) {c : Candidate} (hc : c.WF) {n v : Str} (hn : Token n) (hv : Token v) :
    Post Candidate.WF (candExt c n v) := by
  obtain ⟨h1, h2, h3, h4, h5, h6, h7⟩ := hc
  unfold candExt
  simp only []
  split_ifs with e1 e2 e3 e4 e5 e6
  · exact Post.bind fun _ _ => Post.ok ⟨h1, h2, h3, h4, h5, h6, h7⟩
  · exact Post.bind fun _ _ => Post.ok ⟨h1, h2, h3, h4, h5, h6, h7⟩
  · refine Post.bind fun a ha => Post.ok ⟨h1, h2, h3, ?_, h5, h6, h7⟩
    rintro _ ⟨⟩; exact address_wf L v a ha
  · refine Post.bind fun a ha => Post.ite (fun _ => Post.egeneric _) fun h => Post.ok ⟨h1, h2, h3, h4, ?_, h6, h7⟩
    rintro _ ⟨⟩; exact not_gt_u32 h
  · exact Post.bind fun _ _ => Post.ok ⟨h1, h2, h3, h4, h5, h6, h7⟩
  · refine Post.ok ⟨h1, h2, h3, h4, h5, ?_, h7⟩
    rintro _ ⟨⟩; exact hv
  · refine Post.ok ⟨h1, h2, h3, h4, h5, h6, ?_⟩
    intro p hp
    simp only [List.mem_append, List.mem_singleton] at hp
    rcases hp with hp | rfl
    · exact h7 p hp
    · refine ⟨hn, hv, ?_⟩
      simp [candExtNames, e1, e2, e3, e4, e5, e6]

theorem candidate_exts_wf (L : Laws) {c : Candidate} (hc : c.WF) {l : List Str} (hl : ∀ t ∈ l, Token t) :
    Post Candidate.WF (candExts c l) := by
  induction c, l using candExts.induct with
  | case1 c n v rest ih =>
    rw [candExts]
    exact Post.bind fun c' hc' => ih c' (candidate_ext_wf L hc (hl _ (by simp)) (hl _ (by simp)) c' hc')
      fun t ht => hl t (by simp [ht])
  | case2 c => rw [candExts]; exact Post.eunsupported _
  | case3 c => rw [candExts]; exact Post.ok hc

theorem candidate_wf (L : Laws) (s : Str) : Post (fun a => a.WF) (parseCandidate s) := by
  unfold parseCandidate
  simp only []
  post
  rename_i hf _ hc
  refine candidate_exts_wf L ?_ (fun t ht => tok (List.mem_of_mem_drop ht)) _ hc
  refine ⟨tok (List.mem_of_getElem? (idx_eq_ok.1 hf)), address_wf L _ _ (by assumption), not_gt_u32 ‹_›, ?_, ?_, ?_, ?_⟩ <;>
    simp

theorem dtls_wf {s : Str} (hs : Trimmed s) : Post (fun a => a.WF) (parseDtlsMessage s) := by
  unfold parseDtlsMessage
  simp only []
  refine Post.ite (fun _ => Post.egeneric _) fun hl => ?_
  rcases hsp : splitC ' ' s with _ | ⟨r, _ | ⟨m, _ | ⟨z, zs⟩⟩⟩ <;> simp [hsp] at hl
  have hm : ' ' ∉ m := splitC_not_mem (s := s) (by rw [hsp]; simp)
  have he : EndsClean m := by
    have := joinS_splitC (c := ' ') (s := s)
    rw [hsp] at this
    simp only [joinS] at this
    have h2 := hs.2
    rw [← this] at h2
    exact EndsClean.after (a := r) (c := ' ') (b := m) (by simpa using h2) (by decide)
  refine Post.bind fun a ha => Post.bind fun b hb => ?_
  have hb := idx_eq_ok.1 hb
  simp at hb; subst hb
  post <;> exact ⟨hm, he⟩

theorem extmap_wf (s : Str) : Post (fun a => a.WF) (parseExtmap s) := by
  unfold parseExtmap
  simp only []
  post
  · refine ⟨tok (List.mem_of_getElem? (idx_eq_ok.1 ‹_›)), ?_⟩
    simp
  · rename_i h2 l hl hv u hu
    refine ⟨tok (List.mem_of_getElem? (idx_eq_ok.1 hu)), ?_⟩
    rintro _ ⟨⟩
    obtain ⟨hle, rfl⟩ := sliceFrom_eq_ok.1 hl
    refine ⟨_, ?_, ?_, rfl⟩
    · intro h
      have := congrArg List.length h
      simp at this
      omega
    · intro t ht
      refine ⟨tok (List.mem_of_mem_drop ht), fun h0 => hv ?_⟩
      have := joinS_mem (sep := [' ']) ht _ h0
      simp [validByteString, this]

/-! fmtp -/

theorem fmtp_wf {s : Str} (hs : Trimmed s) : Post (fun a => a.Plain → a.WF) (parseFmtp s) := by
  unfold parseFmtp
  simp only []
  refine Post.ite (fun _ => Post.eunsupported _) fun hl => ?_
  rcases splitn_two_cases ' ' s with ⟨h, -⟩ | ⟨a, b, h, e, ha⟩
  · simp [h] at hl
  rw [h]
  refine Post.bind fun pt _ => Post.bind fun bs hbs => Post.bind fun p hp => Post.bind fun x _ => Post.ok fun hpl => ?_
  obtain ⟨-, rfl⟩ := sliceFrom_eq_ok.1 hbs
  have hpl : p.Plain := hpl
  refine ⟨?_⟩
  have hrange := fmtpBlocks_range FmtpInRange.default _ p hp
  simp only [List.drop_succ_cons, List.drop_zero, fmtpBlocks] at hp
  obtain ⟨q, hp, hq⟩ := bind_eq_ok.1 hp
  cases hq
  unfold fmtpBlock at hp
  split_ifs at hp with h1 h2 h3
  · -- a parameter list
    obtain ⟨hf, hu, henc, htones⟩ := paramList_facts hp
    have hacc := (paramList_accepts.1 ⟨_, hp⟩).1
    cases hr : p.rtx with
    | some r =>
      obtain ⟨g1, g2⟩ := hpl.rtx (by simp [hr])
      exact .rtx r hr g1 g2 henc htones
    | none =>
      refine .params hrange hr henc htones hpl.one ?_ (hpl.some hr henc htones)
      intro t ht
      have hcl := hpl.unknown t ht
      rw [hu] at ht
      obtain ⟨ht, hn⟩ := List.mem_filter.1 ht
      have hmem := (List.mem_filter.1 ht).1
      exact ⟨(hacc t ht).1, splitC_not_mem hmem, by simpa using hn, hcl⟩
  · -- a redundancy list
    obtain ⟨ns, g1, rfl⟩ := fmtpRed_ok.1 hp
    have hlen := g1.length_eq
    have h2' := splitC_two_le h2
    exact .red (by simpa [FmtpParams.default] using hlen ▸ h2') hrange.encodings (fun f _ => by cases f <;> rfl) rfl rfl rfl
  · cases hp
    exact .tones (toneList_iff.1 h3) (fun f _ => by cases f <;> rfl) rfl rfl rfl
  · cases hp
    refine .tones ?_ (fun f _ => by cases f <;> rfl) rfl rfl rfl
    show ToneList c%"0-15"
    exact toneList_iff.1 (by decide +kernel)

theorem framerate_wf (s : Str) : Post (fun a => a.WF) (parseFramerate s) := by
  unfold parseFramerate
  refine Post.bind fun x _ => ?_
  refine Post.ite (fun _ => Post.egeneric _) fun h1 => Post.ite (fun _ => Post.egeneric _) fun h2 =>
    Post.ite (fun _ => Post.egeneric _) fun h3 => Post.ok ?_
  have h1 : x.isNan = false := by simpa using h1
  refine ⟨?_, ?_⟩
  · simpa [F64.isZero] using h3
  · simp only [F64.isNan, F64.isInf, decide_eq_false_iff_not, decide_eq_true_eq] at h1 h2
    omega

theorem group_wf (s : Str) : Post (fun a => a.WF) (parseGroup s) := by
  unfold parseGroup
  have ht : ∀ t ∈ splitWs s, Token t := fun t => tok
  split
  · exact Post.egeneric _
  · rename_i x ts hx
    rw [hx] at ht
    exact Post.bind fun _ _ => Post.ok fun t h => ht t (by simp [h])

theorem msid_wf (s : Str) : Post (fun a => a.WF) (parseMsid s) := by
  unfold parseMsid
  have ht : ∀ t ∈ splitWs s, Token t := fun t => tok
  split
  · exact Post.egeneric _
  · rename_i x ts hx
    rw [hx] at ht
    refine Post.ok ⟨ht x (by simp), fun a ha => ht a ?_⟩
    exact List.mem_cons_of_mem _ (List.mem_of_head? ha)

theorem msidSemantic_wf (s : Str) : Post (fun a => a.Plain → a.WF) (parseMsidSemantic s) := by
  unfold parseMsidSemantic
  simp only []
  refine Post.ite (fun _ => Post.egeneric _) fun _ => Post.bind fun t ht => Post.bind fun ts hts => Post.ok fun hp => ?_
  obtain ⟨-, rfl⟩ := sliceFrom_eq_ok.1 hts
  exact ⟨tok (List.mem_of_getElem? (idx_eq_ok.1 ht)), hp, fun t ht => tok (List.mem_of_mem_drop ht)⟩

theorem splitWs_ne {s : Str} (h : Trimmed s) : splitWs s ≠ [] := by
  obtain ⟨⟨c, r, rfl, hc⟩, -⟩ := h
  intro h0
  have hb : ∀ t ∈ splitP isWs (c :: r), t = [] := by
    intro t ht
    by_contra hne
    have : t ∈ splitWs (c :: r) := by
      unfold splitWs
      exact List.mem_filter.2 ⟨ht, by simpa using hne⟩
    rw [h0] at this; simp at this
  obtain ⟨x, xs, -, e⟩ := splitP_cons_false (p := isWs) (s := r) hc
  rw [e] at hb
  simpa using hb (c :: x) (by simp)

theorem iceOptions_wf {s : Str} (hs : Trimmed s) : Post (fun a => a.WF) (parseIceOptions s) := by
  unfold parseIceOptions
  exact Post.ite (fun _ => Post.egeneric _) fun _ => Post.ok ⟨splitWs_ne hs, fun t => tok⟩

theorem remoteCandidates_wf (L : Laws) (s : Str) : Post (fun a => a.WF) (parseRemoteCandidates s) := by
  unfold parseRemoteCandidates
  post
  exact ⟨address_wf L _ _ (by assumption), not_gt_u32 ‹_›⟩

theorem rtcp_wf (L : Laws) (s : Str) : Post (fun a => a.WF) (parseRtcp s) := by
  unfold parseRtcp
  post
  · rintro _ ⟨⟩
  · rintro _ ⟨⟩; exact typed_wf L _ _ _ (by assumption)

theorem rtpmap_wf (s : Str) : Post (fun a => a.WF) (parseRtpmap s) := by
  unfold parseRtpmap
  have key {t name : Str} {l : List Str} {ts : List Str} {t0 : Str} (h1 : splitWs s = t0 :: t :: ts)
      (h2 : splitC '/' t = name :: l) : '/' ∉ name ∧ ∀ c ∈ name, isWs c = false := by
    refine ⟨splitC_not_mem (s := t) (by rw [h2]; simp), fun c hc => ?_⟩
    have : t ∈ splitWs s := by rw [h1]; simp
    exact (tok this).2 c (splitC_mem_sub (s := t) (c := '/') (t := name) (by rw [h2]; simp) c hc)
  have le {x : UInt8} (h : ¬ x > 127) : x.toNat ≤ 127 := by
    have := UInt8.not_lt.1 h
    simpa [UInt8.le_iff_toNat_le] using this
  post
  · exact ⟨le ‹_›, key (by assumption) (by assumption)⟩
  · exact ⟨le ‹_›, key (by assumption) (by assumption)⟩

theorem ssrc_wf {s : Str} (hs : Trimmed s) : Post (fun a => a.WF) (parseSsrc s) := by
  unfold parseSsrc
  rcases splitn_two_cases ' ' s with ⟨h, -⟩ | ⟨i, a, h, e, hi⟩
  · rw [h]
    exact Post.bind fun _ _ => Post.ok ⟨by simp, by simp⟩
  · rw [h]
    refine Post.bind fun n _ => ?_
    have ha : EndsClean a := EndsClean.after (e ▸ hs.2) (by decide)
    show Post _ (Ssrc.setAttribute _ a)
    unfold Ssrc.setAttribute
    refine Post.ite (fun h0 => Post.ok ⟨?_, ?_⟩) fun h0 => ?_
    · rintro _ ⟨⟩; exact ⟨h0, fun _ => ha⟩
    · rintro _ ⟨⟩
    · rcases splitn_two_cases ':' a with ⟨h, hx⟩ | ⟨u, v, h, e, hu⟩
      · exact absurd hx h0
      · simp only [h]
        refine Post.bind fun v0 h0 => Post.bind fun v1 h1 => Post.ok ⟨?_, ?_⟩
        · have h0 := idx_eq_ok.1 h0; simp at h0; subst h0
          rintro _ ⟨⟩; exact ⟨hu, fun h => by cases h⟩
        · have h1 := idx_eq_ok.1 h1; simp at h1; subst h1
          rintro _ ⟨⟩
          refine ⟨by simp, ?_⟩
          by_cases hv : v = []
          · exact .inl hv
          · refine .inr ?_
            rw [e, ← List.singleton_append, ← List.append_assoc] at ha
            exact ha.suffix hv

theorem ssrcGroup_wf (s : Str) : Post (fun a => a.WF) (parseSsrcGroup s) := by
  unfold parseSsrcGroup
  have ht : ∀ t ∈ splitWs s, Token t := fun t => tok
  split
  · exact Post.egeneric _
  · rename_i x ts hx
    rw [hx] at ht
    refine Post.bind fun _ _ => Post.bind fun l hl => Post.ite (fun _ => Post.egeneric _) fun hne => Post.ok ?_
    refine ⟨by simpa using hne, fun y hy => ?_⟩
    obtain ⟨t, htm, hy⟩ := collect_mem hl hy
    have hns : ' ' ∉ t := fun h => absurd ((ht t (by simp [htm])).2 _ h) (by decide)
    unfold parseSsrc at hy
    rw [splitn_two_of_not_mem hns] at hy
    obtain ⟨_, _, hy⟩ := bind_eq_ok.1 hy
    cases hy; exact ⟨rfl, rfl⟩

/-! rtcp-fb -/

theorem splitn_last {n : Nat} {c : Char} {s t : Str} (h : (splitn (n + 1) c s)[n]? = some t) :
    ∃ a, s = a ++ t := by
  induction n generalizing s with
  | zero => simp [splitn] at h; exact ⟨[], by simp [h]⟩
  | succ n ih =>
    simp only [splitn] at h
    cases hb : breakC c s with
    | none => simp [hb] at h
    | some p =>
      obtain ⟨x, y⟩ := p
      obtain ⟨rfl, -⟩ := breakC_eq_some.1 hb
      simp only [hb, List.getElem?_cons_succ] at h
      obtain ⟨a, rfl⟩ := ih h
      exact ⟨x ++ c :: a, by simp⟩

theorem rtcpfb_wf {s : Str} (hs : Trimmed s) : Post (fun a => a.WF) (parseRtcpFb s) := by
  unfold parseRtcpFb
  simp only []
  refine Post.bind fun ty _ => Post.bind fun p hp => Post.bind fun t ht => Post.bind fun pt hpt => Post.ok ?_
  refine ⟨?_, ?_⟩
  · unfold parseFbParam at hp
    cases ty <;> cases hx : (splitn 4 ' ' s)[2]? <;>
      simp only [hx, egeneric, eunsupported, reduceCtorEq] at hp
    · rcases ite_cases hp with ⟨h, hp⟩ | ⟨-, hp⟩ <;> cases hp
      simpa using h
    · cases hp; simp
    · rcases ite_cases hp with ⟨h, hp⟩ | ⟨-, hp⟩ <;> cases hp
      simp [h]
    · cases hp; simp
    · rcases ite_cases hp with ⟨h, hp⟩ | ⟨-, hp⟩ <;> cases hp
      simp [h]
    · rcases ite_cases hp with ⟨h, hp⟩ | ⟨-, hp⟩ <;> cases hp
      cases hn : parseU32 p <;> simp [hn, Outcome.isOk] at h
      rename_i n
      exact ⟨n.toNat, n.toNat_lt, parseU32_ok.1 hn⟩
    · cases hp; rfl
    · cases hp; rfl
  · show (splitn 4 ' ' s)[3]?.getD [] ≠ [] → p ≠ [] ∧ EndsClean ((splitn 4 ' ' s)[3]?.getD [])
    intro hne
    cases h3 : (splitn 4 ' ' s)[3]? with
    | none => simp [h3] at hne
    | some e =>
      have hne : e ≠ [] := by simpa [h3] using hne
      obtain ⟨a, ha⟩ := splitn_last h3
      refine ⟨?_, (ha ▸ hs.2).suffix hne⟩
      have hlt : 3 < (splitn 4 ' ' s).length := (List.getElem?_eq_some_iff.1 h3).1
      have h2 : (splitn 4 ' ' s)[2]? = some (splitn 4 ' ' s)[2] := List.getElem?_eq_getElem (by omega)
      rw [h2] at hp
      generalize (splitn 4 ' ' s)[2] = x2 at hp
      unfold parseFbParam at hp
      rintro rfl
      cases ty <;> simp only [egeneric, eunsupported, reduceCtorEq] at hp <;>
        rcases ite_cases hp with ⟨h, hp⟩ | ⟨-, hp⟩ <;> cases hp <;>
        simp [parseU32, parseRadix, Outcome.isOk] at h

/-! rid -/

theorem rid_param_wf {st : RidState} {t : Str} (ht : ';' ∉ t)
    (h : (∀ u ∈ st.params.unknown, '=' ∈ u ∧ ';' ∉ u ∧ u.takeWhile (fun c => decide (c ≠ '=')) ∉ ridNames) ∧
      ∀ d ∈ st.depends, ',' ∉ d ∧ ';' ∉ d) :
    Post (fun st : RidState => (∀ u ∈ st.params.unknown, '=' ∈ u ∧ ';' ∉ u ∧
        u.takeWhile (fun c => decide (c ≠ '=')) ∉ ridNames) ∧ ∀ d ∈ st.depends, ',' ∉ d ∧ ';' ∉ d)
      (ridParam st t) := by
  unfold ridParam
  simp only []
  refine Post.ite (fun _ => Post.egeneric _) fun hl => ?_
  rcases splitn_two_cases '=' t with ⟨h, -⟩ | ⟨n, v, hs, e, hn⟩
  · simp [h] at hl
  have i0 : (idx [n, v] 0 : IRes Str) = .ok n := rfl
  have i1 : (idx [n, v] 1 : IRes Str) = .ok v := rfl
  simp only [hs, i0, i1, ok_bind]
  have htk : t.takeWhile (fun c => decide (c ≠ '=')) = n := by
    rw [e, List.takeWhile_append_of_pos]
    · simp
    · intro a ha; simp; rintro rfl; exact hn ha
  split_ifs with e1 e2 e3 e4 e5 e6 e7
  all_goals first
    | exact Post.bind fun _ _ => Post.ok h
    | skip
  · refine Post.ok ⟨h.1, fun d hd => ?_⟩
    rcases List.mem_append.1 hd with hd | hd
    · exact h.2 d hd
    · refine ⟨splitC_not_mem hd, fun hc => ht ?_⟩
      rw [e]; simp [splitC_mem_sub hd _ hc]
  · refine Post.ok ⟨fun u hu => ?_, h.2⟩
    rcases List.mem_append.1 hu with hu | hu
    · exact h.1 u hu
    · simp at hu; subst hu
      refine ⟨by rw [e]; simp, ht, ?_⟩
      rw [htk]
      simp [ridNames, e1, e2, e3, e4, e5, e6, e7]

theorem rid_params_wf {st : RidState} {l : List Str} (hl : ∀ t ∈ l, ';' ∉ t)
    (h : (∀ u ∈ st.params.unknown, '=' ∈ u ∧ ';' ∉ u ∧ u.takeWhile (fun c => decide (c ≠ '=')) ∉ ridNames) ∧
      ∀ d ∈ st.depends, ',' ∉ d ∧ ';' ∉ d) :
    Post (fun st : RidState => (∀ u ∈ st.params.unknown, '=' ∈ u ∧ ';' ∉ u ∧
        u.takeWhile (fun c => decide (c ≠ '=')) ∉ ridNames) ∧ ∀ d ∈ st.depends, ',' ∉ d ∧ ';' ∉ d)
      (ridParamList st l) := by
  induction l generalizing st with
  | nil => exact Post.ok h
  | cons t ts ih =>
    exact Post.bind fun st' h' => ih (fun t ht => hl t (by simp [ht])) (rid_param_wf (hl t (by simp)) h st' h')

theorem ridFormats_sub {l : List Str} : Post (fun r => ∀ t ∈ r.2, t ∈ l) (ridFormats l) := by
  unfold ridFormats
  split
  · exact Post.ok (by simp)
  · split
    · refine Post.bind fun _ _ => Post.ok fun t ht => ?_
      exact List.mem_cons_of_mem _ ht
    · exact Post.ok fun t ht => ht

theorem rid_facts {s : Str} (hs : Trimmed s) : Post (fun a => ∃ r, a = .rid r ∧ (BeginsClean r.id ∧ ' ' ∉ r.id) ∧
    (∀ u ∈ r.params.unknown, '=' ∈ u ∧ ';' ∉ u ∧ u.takeWhile (fun c => decide (c ≠ '=')) ∉ ridNames) ∧
    ∀ d ∈ r.depends, ',' ∉ d ∧ ';' ∉ d) (parseRid s) := by
  unfold parseRid
  simp only []
  refine Post.ite (fun _ => Post.egeneric _) fun hlen => Post.bind fun q hq => Post.bind fun i hi =>
    Post.bind fun dt _ => Post.bind fun d hd => Post.ok ?_
  obtain ⟨fs, st⟩ := q
  have hst : (∀ u ∈ st.params.unknown, '=' ∈ u ∧ ';' ∉ u ∧ u.takeWhile (fun c => decide (c ≠ '=')) ∉ ridNames) ∧
      ∀ d ∈ st.depends, ',' ∉ d ∧ ';' ∉ d := by
    have h0 : (∀ u ∈ RidState.default.params.unknown, '=' ∈ u ∧ ';' ∉ u ∧
        u.takeWhile (fun c => decide (c ≠ '=')) ∉ ridNames) ∧ ∀ d ∈ RidState.default.depends, ',' ∉ d ∧ ';' ∉ d := by
      simp [RidState.default]
    split at hq
    · cases hq; exact h0
    · simp only [bind_eq_ok] at hq
      obtain ⟨r, hr, st', hst, hq⟩ := hq
      cases hq
      exact rid_params_wf (fun t ht => splitC_not_mem (ridFormats_sub r hr t ht)) h0 _ hst
  refine ⟨_, rfl, ?_, hst⟩
  show BeginsClean i ∧ ' ' ∉ i
  rcases splitn_two_cases ' ' s with ⟨-, h⟩ | ⟨a, b, -, e, ha⟩
  · exfalso
    rw [splitn_of_not_mem (n := 2) h] at hlen
    simp at hlen
  · have hi := idx_eq_ok.1 hi
    rw [e, splitn_append (n := 1) ha] at hi
    simp at hi; subst hi
    exact ⟨BeginsClean.before (e ▸ hs.1) (by decide), ha⟩

theorem rid_wf {s : Str} (hs : Trimmed s) : Post (fun a => a.Plain → a.WF) (parseRid s) := by
  intro a h hp
  obtain ⟨r, rfl, h1, h2, h3⟩ := rid_facts hs a h
  refine ⟨h1, h2, ?_, hp.first, hp.lastUnknown, hp.lastDepends⟩
  rcases hp.depends with h | h
  · exact .inl h
  · exact .inr fun d hd => ⟨h d hd, h3 d hd⟩

/-! simulcast -/

theorem version_wf {s : Str} (hs : ∀ c ∈ s, isWs c = false) {v : SimulcastVersion}
    (hv : v ∈ makeVersionList s) (hp : v.Plain) : v.WF := by
  obtain ⟨t, ht, rfl⟩ := List.mem_map.1 hv
  have hsc : ';' ∉ t := splitC_not_mem ht
  have hws : ∀ c ∈ t, isWs c = false := fun c hc => hs c (splitC_mem_sub ht c hc)
  refine ⟨?_, ?_, hp.1⟩
  · intro i hi
    have heq := hp.2 i hi
    obtain ⟨u, hu, rfl⟩ := List.mem_map.1 hi
    have hsub : ∀ c ∈ (SimulcastId.new u).id, c ∈ u := by
      intro c hc
      unfold SimulcastId.new at hc
      split at hc
      · rename_i r hr
        have := stripPrefix_eq_some.1 hr
        rw [this]; simp at hc ⊢; exact .inr hc
      · exact hc
    refine ⟨fun c hc => ?_, ?_⟩
    · have hcu := hsub c hc
      have hct := splitC_mem_sub hu c hcu
      refine ⟨hws c hct, ?_, ?_, ?_⟩
      · rintro rfl; exact splitC_not_mem hu hcu
      · rintro rfl; exact hsc hct
      · rintro rfl; exact heq hc
    · unfold SimulcastId.new
      split
      · intro h; cases h
      · rename_i hn
        intro _ hh
        cases u with
        | nil => simp at hh
        | cons x xs =>
          simp at hh; subst hh
          simp [stripPrefix] at hn
  · simp only [SimulcastVersion.new]
    intro h
    exact splitC_ne_nil ',' t (List.map_eq_nil_iff.1 h)

theorem versionList_ok {s : Str} : Post (fun l => ∃ t, (∀ c ∈ t, c ∈ s) ∧ l = makeVersionList t) (parseVersionList s) := by
  unfold parseVersionList
  refine Post.ite (fun h => ?_) fun _ => Post.ok ⟨s, fun c h => h, rfl⟩
  refine Post.bind fun d hd => Post.ite (fun _ => Post.bind fun l hl => Post.ok ⟨l, ?_, rfl⟩) fun _ => Post.egeneric _
  have := List.mem_of_getElem? (unwrap_eq_ok.1 hl)
  exact splitn_mem_sub this

theorem versionList_ne (t : Str) : makeVersionList t ≠ [] := fun h => splitC_ne_nil ';' t (List.map_eq_nil_iff.1 h)

theorem simulcast_wf (s : Str) : Post (fun a => a.Plain → a.WF) (parseSimulcast s) := by
  unfold parseSimulcast
  have ht : ∀ t ∈ splitWs s, Token t := fun t => tok
  split
  · exact Post.egeneric _
  rename_i t0 ts h0
  refine Post.bind fun dir _ => ?_
  split
  · exact Post.egeneric _
  rename_i t1 ts
  rw [h0] at ht
  refine Post.bind fun l1 h1 => Post.bind fun l2 h2 => ?_
  obtain ⟨u1, hu1, rfl⟩ := versionList_ok l1 h1
  have w1 : ∀ c ∈ u1, isWs c = false := fun c hc => (ht t1 (by simp)).2 c (hu1 c hc)
  have w2 : ∀ v ∈ l2, v.Plain → v.WF := by
    unfold parseSecondVersionList at h2
    split at h2
    · cases h2; simp
    · obtain ⟨_, _, h2⟩ := bind_eq_ok.1 h2
      split at h2
      · cases h2
      · split at h2
        · cases h2
        · rename_i y _ _
          obtain ⟨u2, hu2, rfl⟩ := versionList_ok l2 h2
          exact fun v hv hp => version_wf (fun c hc => (ht y (by simp)).2 c (hu2 c hc)) hv hp
  cases dir with
  | send =>
    exact Post.ok fun hp => ⟨fun v hv => version_wf w1 hv (hp.1 v hv), fun v hv => w2 v hv (hp.2 v hv), .inl (versionList_ne _)⟩
  | recv =>
    exact Post.ok fun hp => ⟨fun v hv => w2 v hv (hp.1 v hv), fun v hv => version_wf w1 hv (hp.2 v hv), .inr (versionList_ne _)⟩

/-! imageattr -/

theorem xyRange_wf (s : Str) : Post XyRange.WF (parseXyRange s) := by
  unfold parseXyRange
  simp only []
  post
  · trivial
  · trivial
  · rename_i hl
    show _ ≠ []
    rintro rfl
    simp at hl
  · show _ ≠ []
    simp

omit [Env] in
theorem psRange_wf (s : Str) :
    Post (fun r => RangeFloatWF r.1 ∧ RangeFloatWF r.2 ∧ ¬ r.1.AtLeast r.2) (parsePsRange s) := by
  unfold parsePsRange
  simp only []
  refine Post.ite (fun _ => Post.egeneric _) fun _ => Post.bind fun a ha => Post.bind fun x hx =>
    Post.bind fun b hb => Post.bind fun y hy => Post.ite (fun _ => Post.egeneric _) fun hge => Post.ok ?_
  have ha := splitC_not_mem (List.mem_of_getElem? (idx_eq_ok.1 ha))
  have hb := splitC_not_mem (List.mem_of_getElem? (idx_eq_ok.1 hb))
  exact ⟨F32.ofText_range (f32_ok hx) ha, F32.ofText_range (f32_ok hy) hb, F32.ge_false_iff.1 (by simpa using hge)⟩

theorem sarAscending_wf {x : F32} {l : List F32} (h : sarAscending x l = .ok ()) : AscendingFrom x l := by
  induction l generalizing x with
  | nil => trivial
  | cons y ys ih =>
    simp only [sarAscending] at h
    split at h
    · cases h
    · rename_i hg
      exact ⟨F32.ge_false_iff.1 (by simpa using hg), ih h⟩

/-- The negative NaN becomes positive. -/
def F32.mend (x : F32) : F32 := if x = ⟨0xffc00000⟩ then ⟨0x7fc00000⟩ else x

def SRange.mend : SRange → SRange
  | .discrete [x] => .discrete [x.mend]
  | r => r

def ImageAttrSet.mend (s : ImageAttrSet) : ImageAttrSet :=
  { s with sar := s.sar.map SRange.mend, q := s.q.map F32.mend }

def ImageAttrSetList.mend : ImageAttrSetList → ImageAttrSetList
  | .sets l => .sets (l.map ImageAttrSet.mend)
  | .wildcard => .wildcard

def ImageAttr.mend (i : ImageAttr) : ImageAttr := { i with send := i.send.mend, recv := i.recv.mend }

omit [Env] in
theorem F32.mend_eq {x : F32} (h : x ≠ ⟨0xffc00000⟩) : x.mend = x := if_neg h

omit [Env] in
theorem ImageAttrSet.mend_eq {s : ImageAttrSet} (h : s.Plain) : s.mend = s := by
  obtain ⟨x, y, sar, par, q⟩ := s
  obtain ⟨h1, h2⟩ := h
  dsimp only at h1 h2
  unfold ImageAttrSet.mend
  congr 1
  · cases sar with
    | none => rfl
    | some r =>
      match r, h1 with
      | .discrete [x], h1 => simp [SRange.mend, F32.mend_eq (h1 x rfl)]
      | .discrete [], _ => rfl
      | .discrete (_ :: _ :: _), _ => rfl
      | .range _ _, _ => rfl
  · cases q with
    | none => rfl
    | some x => simp [F32.mend_eq (h2 x rfl)]

omit [Env] in
theorem ImageAttrSetList.mend_eq {l : ImageAttrSetList} (h : l.Plain) : l.mend = l := by
  cases l with
  | wildcard => rfl
  | sets l =>
    refine congrArg ImageAttrSetList.sets ?_
    conv_rhs => rw [← List.map_id l]
    exact List.map_congr_left fun s hs => ImageAttrSet.mend_eq (h s hs)

omit [Env] in
theorem ImageAttrSetList.mend_count (l : ImageAttrSetList) : l.mend.count = l.count := by
  cases l <;> simp [ImageAttrSetList.mend, ImageAttrSetList.count]

/-- What holds of the keys; the single floats are fine once negative NaNs are made positive. -/
def KeysOk (k : ImgKeys) : Prop :=
  (∀ r, k.sar = some r → r.mend.WF) ∧
  (∀ r, k.par = some r → RangeFloatWF r.min ∧ RangeFloatWF r.max ∧ ¬ r.min.AtLeast r.max) ∧
  (∀ x, k.q = some x → FloatWF32 x.mend)

omit [Env] in
theorem mend_nan {t : Str} {x : F32} (h : F32.ofText t = .ok x) : FloatWF32 x.mend := by
  intro hn
  by_cases hx : x = ⟨0xffc00000⟩
  · rw [F32.mend, if_pos hx]
  · rw [F32.mend_eq hx] at hn ⊢
    exact (F32.ofText_nan h hn).resolve_right hx

theorem braced_sub {s t : Str} (h : bracedToken s = some t) : ∀ c ∈ t, c ∈ s := by
  unfold bracedToken at h
  split_ifs at h
  cases h
  exact fun c hc => List.drop_subset _ _ (List.dropLast_subset _ hc)

theorem imageKey_wf {k : ImgKeys} (hk : KeysOk k) (t : Str) : Post KeysOk (imageKey k t) := by
  obtain ⟨h1, h2, h3⟩ := hk
  unfold imageKey
  split
  · rename_i v hv
    refine Post.ite (fun _ => Post.bind fun i hi => ?_) fun _ => Post.bind fun x hx => Post.ok ⟨?_, h2, h3⟩
    · have hi := okOr_eq_ok.1 hi
      refine Post.ite (fun _ => Post.bind fun r hr => Post.ok ⟨?_, h2, h3⟩) fun hd => Post.ite (fun _ => ?_) fun _ => Post.ok ⟨h1, h2, h3⟩
      · rintro _ ⟨⟩; exact psRange_wf _ r hr
      · refine Post.bind fun l hl => Post.ite (fun _ => Post.egeneric _) fun hlen => Post.bind fun u hu => Post.ok ⟨?_, h2, h3⟩
        rintro _ ⟨⟩
        rw [show (SRange.discrete l).mend = .discrete l from by
          match l, hlen with
          | [], _ => rfl
          | [_], h => exact absurd (by simp) h
          | _ :: _ :: _, _ => rfl]
        refine .inr ⟨by omega, fun x hx => ?_, sarAscending_wf hu⟩
        obtain ⟨w, hw, hx⟩ := collect_mem hl hx
        exact F32.ofText_range (f32_ok hx) fun hm => hd (braced_sub hi _ (splitC_mem_sub hw _ hm))
    · rintro _ ⟨⟩
      exact .inl ⟨x.mend, rfl, mend_nan (f32_ok hx)⟩
  · split
    · rename_i v hv
      refine Post.ite (fun _ => Post.egeneric _) fun _ => Post.bind fun i hi => Post.bind fun r hr => Post.ok ⟨h1, ?_, h3⟩
      rintro _ ⟨⟩; exact psRange_wf _ r hr
    · split
      · refine Post.bind fun x hx => Post.ok ⟨h1, h2, ?_⟩
        rintro _ ⟨⟩; exact mend_nan (f32_ok hx)
      · exact Post.ok ⟨h1, h2, h3⟩

theorem imageKeys_wf {k : ImgKeys} (hk : KeysOk k) (l : List Str) : Post KeysOk (imageKeys k l) := by
  induction l generalizing k with
  | nil => exact Post.ok hk
  | cons t ts ih => exact Post.bind fun k' h' => ih (imageKey_wf hk t k' h')

theorem imageSet_wf (s : Str) : Post (fun i => i.mend.WF) (parseImageSet s) := by
  unfold parseImageSet
  refine Post.bind fun ts _ => ?_
  split
  · exact Post.egeneric _
  refine Post.ite (fun _ => Post.egeneric _) fun _ => Post.bind fun xt _ => Post.bind fun x hx => ?_
  split
  · exact Post.egeneric _
  refine Post.ite (fun _ => Post.egeneric _) fun _ => Post.bind fun yt _ => Post.bind fun y hy =>
    Post.bind fun k hk => Post.ok ?_
  obtain ⟨k1, k2, k3⟩ := imageKeys_wf (k := ⟨none, none, none⟩) ⟨by simp, by simp, by simp⟩ _ k hk
  refine ⟨xyRange_wf _ x hx, xyRange_wf _ y hy, fun r hr => ?_, k2, fun v hv => ?_⟩
  · obtain ⟨r', hr', rfl⟩ := Option.map_eq_some_iff.1 hr
    exact k1 r' hr'
  · obtain ⟨v', hv', rfl⟩ := Option.map_eq_some_iff.1 hv
    exact k3 v' hv'

theorem bracedSet_wf (L : Laws) (s : Str) : Post (fun i => i.mend.WF) (parseBracedSet s) := by
  unfold parseBracedSet
  exact Post.bind fun i _ => imageSet_wf i

theorem moreSets_wf (L : Laws) (l : List Str) : Post (fun r => ∀ i ∈ r.1, i.mend.WF) (moreSets l) := by
  induction l with
  | nil => exact Post.ok (by simp)
  | cons t ts ih =>
    unfold moreSets
    refine Post.ite (fun _ => Post.bind fun s hs => Post.bind fun r hr => Post.ok ?_) fun _ => Post.ok (by simp)
    intro i hi
    rcases List.mem_cons.1 hi with rfl | hi
    · exact bracedSet_wf L _ _ hs
    · exact ih r hr i hi

theorem setList_wf (L : Laws) (l : List Str) :
    Post (fun r => r.1.mend.WF ∧ r.1.count ≠ 0) (parseSetList l) := by
  unfold parseSetList
  split
  · exact Post.egeneric _
  refine Post.ite (fun _ => Post.ok ⟨trivial, by simp [ImageAttrSetList.count]⟩) fun _ =>
    Post.bind fun s hs => Post.bind fun r hr => Post.ok ⟨fun i hi => ?_, by simp [ImageAttrSetList.count]⟩
  obtain ⟨j, hj, rfl⟩ := List.mem_map.1 hi
  rcases List.mem_cons.1 hj with rfl | hj
  · exact bracedSet_wf L _ _ hs
  · exact moreSets_wf L _ r hr j hj

theorem secondSetList_wf (L : Laws) (d : SingleDirection) (l : List Str) :
    Post (fun r => r.1.mend.WF) (parseSecondSetList d l) := by
  unfold parseSecondSetList
  split
  · exact Post.ok (by simp [ImageAttrSetList.mend, ImageAttrSetList.WF])
  · exact Post.bind fun _ _ => Post.ite (fun _ => Post.egeneric _) fun _ r hr => (setList_wf L _ r hr).1

theorem imageAttr_mend (L : Laws) (s : Str) :
    Post (fun a => ∃ i, a = .imageAttr i ∧ i.mend.WF) (parseImageAttr s) := by
  unfold parseImageAttr
  refine Post.bind fun ts _ => ?_
  split
  · exact Post.egeneric _
  refine Post.bind fun pt _ => ?_
  split
  · exact Post.egeneric _
  refine Post.bind fun dir _ => Post.bind fun r1 h1 => Post.bind fun r2 h2 =>
    Post.ite (fun _ => Post.egeneric _) fun _ => ?_
  obtain ⟨w1, c1⟩ := setList_wf L _ r1 h1
  have w2 := secondSetList_wf L _ _ r2 h2
  cases dir with
  | send => exact Post.ok ⟨_, rfl, w1, w2, by
      show r1.1.mend.count + r2.1.mend.count ≠ 0; rw [ImageAttrSetList.mend_count]; omega⟩
  | recv => exact Post.ok ⟨_, rfl, w2, w1, by
      show r2.1.mend.count + r1.1.mend.count ≠ 0; rw [ImageAttrSetList.mend_count r1.1]; omega⟩

theorem imageAttr_wf (L : Laws) (s : Str) : Post (fun a => a.Plain → a.WF) (parseImageAttr s) := by
  intro a h hp
  obtain ⟨i, rfl, hi⟩ := imageAttr_mend L s a h
  have e : i.mend = i := by
    unfold ImageAttr.mend
    rw [ImageAttrSetList.mend_eq hp.1, ImageAttrSetList.mend_eq hp.2]
  rw [e] at hi
  exact hi

/-! ## All attributes -/

theorem attrValue_wf (L : Laws) {t : AttributeType} {v : Str} (hv : trim v = v) :
    Post (fun a => a.Plain → a.WF) (parseAttrValue t v) := by
  intro a h hp
  have hir := (parseAttrValue_range t v a h).2
  by_cases hne : v = []
  · subst hne
    by_cases hf : t.name ∈ flagNames
    · revert hf
      cases t <;> intro hf <;> first
        | (exfalso; revert hf; decide)
        | (cases h; trivial)
    · obtain ⟨e, he⟩ := parseAttrValue_nil hf
      rw [he] at h; cases h
  have ht := trimmed_of_trim hv hne
  have str {f : Str → Attribute} (hw : ∀ s, Trimmed s → (f s).WF)
      (h : (do return f (← stringOrEmpty v) : IRes Attribute) = .ok a) : a.WF := by
    obtain ⟨s, hs, h⟩ := bind_eq_ok.1 h
    cases h
    unfold stringOrEmpty at hs
    split at hs
    · cases hs
    · cases hs; exact hw _ ht
  have num {f : UInt64 → Attribute} (hw : ∀ s, (f s).WF)
      (h : (do return f (← parseU64 v) : IRes Attribute) = .ok a) : a.WF := by
    obtain ⟨s, -, h⟩ := bind_eq_ok.1 h
    cases h; exact hw s
  cases t with
  | candidate => exact candidate_wf L v a h
  | dtlsMessage => exact dtls_wf ht a h
  | extmap => exact extmap_wf v a h
  | fmtp => exact fmtp_wf ht a h hp
  | frameRate => exact framerate_wf v a h
  | group => exact group_wf v a h
  | msid => exact msid_wf v a h
  | msidSemantic => exact msidSemantic_wf v a h hp
  | iceOptions => exact iceOptions_wf ht a h
  | remoteCandidate => exact remoteCandidates_wf L v a h
  | rtcp => exact rtcp_wf L v a h
  | rtpmap => exact rtpmap_wf v a h
  | ssrcGroup => exact ssrcGroup_wf v a h
  | rtcpfb => exact rtcpfb_wf ht a h
  | rid => exact rid_wf ht a h hp
  | simulcast => exact simulcast_wf v a h hp
  | imageAttr => exact imageAttr_wf L v a h hp
  | icePwd => exact str (f := .icePwd) (fun _ h => h) h
  | iceUfrag => exact str (f := .iceUfrag) (fun _ h => h) h
  | identity => exact str (f := .identity) (fun _ h => h) h
  | label => exact str (f := .label) (fun _ h => h) h
  | mid => exact str (f := .mid) (fun _ h => h) h
  | maxMessageSize => exact num (f := .maxMessageSize) (fun _ => trivial) h
  | maxPtime => exact num (f := .maxPtime) (fun _ => trivial) h
  | ptime => exact num (f := .ptime) (fun _ => trivial) h
  | ssrc =>
    obtain ⟨s, hs, h⟩ := bind_eq_ok.1 h
    cases h
    exact ssrc_wf ht s hs
  | setup =>
    have h : parseSetup v = .ok a := h
    unfold parseSetup at h
    simp only [] at h
    split_ifs at h <;> cases h <;> trivial
  | sctpmap =>
    have hr := (parseAttrValue_range .sctpmap v a h).1
    cases a <;> first | trivial | cases hr
  | fingerprint =>
    have hr := (parseAttrValue_range .fingerprint v a h).1
    cases a <;> first | exact hir | cases hr
  | icePacing =>
    have hr := (parseAttrValue_range .icePacing v a h).1
    cases a <;> first | exact hir | cases hr
  | sctpPort =>
    have hr := (parseAttrValue_range .sctpPort v a h).1
    cases a <;> first | exact hir | cases hr
  | _ => cases h; trivial

theorem attr_wf (L : Laws) {l : Str} {a : Attribute} (h : attrFromStr l = .ok a) (hp : a.Plain) : a.WF := by
  rcases colon_cases l with hc | ⟨n, v, rfl, hn⟩
  · rw [attrFromStr_plain hc] at h
    split at h
    · exact attrValue_wf L (by rfl) a h hp
    · cases h
  · rw [attrFromStr_colon hn] at h
    split at h
    · cases h
    · split at h
      · exact attrValue_wf L (trim_trim v) a h hp
      · cases h

/-! ## Lines -/

theorem origin_wf (L : Laws) {v : Str} {o : Origin} (h : parseOrigin v = .ok (.origin o)) : o.WF := by
  have hl : ∀ t ∈ splitWs v, Token t := fun t => tok
  unfold parseOrigin at h
  rcases hs : splitWs v with _ | ⟨t0, _ | ⟨t1, _ | ⟨t2, _ | ⟨t3, _ | ⟨t4, _ | ⟨t5, r⟩⟩⟩⟩⟩⟩ <;>
    simp only [hs, bind_eq_ok, egeneric, reduceCtorEq, and_false, exists_false] at h
  obtain ⟨_, _, _, _, _, _, _, _, a, ha, h⟩ := h
  split at h
  · simp at h
  · cases h
    rw [hs] at hl
    exact ⟨hl t0 (by simp), typed_wf L _ _ a ha⟩

theorem connection_wf (L : Laws) {v : Str} {c : Connection} (h : parseConnection v = .ok (.connection c)) : c.WF := by
  unfold parseConnection at h
  simp only [] at h
  split at h
  · simp [egeneric] at h
  · simp only [bind_eq_ok] at h
    obtain ⟨_, _, _, _, _, _, _, _, t, _, p, hp, a, ha, h⟩ := h
    cases h
    refine ⟨typed_wf L _ _ a ha, ?_⟩
    unfold parseConnAddr at hp
    split at hp
    · simp only [bind_eq_ok] at hp
      obtain ⟨_, _, _, _, _, _, _, _, hp⟩ := hp
      cases hp
      intro h; cases h
    · cases hp; exact fun _ => rfl

theorem bandwidth_wf {v : Str} (hv : trim v = v) {b : Bandwidth} (h : parseBandwidth v = .ok (.bandwidth b)) : b.WF := by
  unfold parseBandwidth at h
  simp only [] at h
  split at h
  · simp [egeneric] at h
  rename_i hl
  simp only [bind_eq_ok] at h
  obtain ⟨_, _, n, _, t, ht, h⟩ := h
  have ht := idx_eq_ok.1 ht
  split_ifs at h <;> cases h
  · trivial
  · trivial
  · trivial
  · rename_i h1 h2 h3
    refine ⟨splitC_not_mem (List.mem_of_getElem? ht), ?_, by simp [h1, h2, h3]⟩
    by_cases hne : t = []
    · exact .inl hne
    · refine .inr ?_
      rcases hs : splitC ':' v with _ | ⟨x, _ | ⟨y, _ | ⟨z, zs⟩⟩⟩ <;> simp [hs] at hl
      rw [hs] at ht; simp at ht; subst ht
      have hj := joinS_splitC (c := ':') (s := v)
      rw [hs] at hj
      simp only [joinS] at hj
      have hb := (trimmed_of_trim hv (by rw [← hj]; simp)).1
      obtain ⟨c, r, e, hc⟩ := hb
      obtain ⟨c', x', rfl⟩ := List.exists_cons_of_ne_nil hne
      rw [← hj] at e
      simp at e
      exact ⟨c', x', rfl, by rw [e.1]; exact hc⟩

theorem mediaLine_wf {v : Str} {m : MediaLine} (h : parseMedia v = .ok (.media m)) : m.WF := by
  have hr := C21_media_line h
  refine ⟨hr.port, ?_⟩
  unfold parseMedia at h
  simp only [] at h
  split at h
  · simp [egeneric] at h
  rename_i hlen
  simp only [bind_eq_ok] at h
  obtain ⟨_, _, k, _, p, _, h⟩ := h
  split at h
  · simp [egeneric] at h
  simp only [bind_eq_ok] at h
  obtain ⟨_, _, h⟩ := h
  split at h
  · simp [egeneric] at h
  simp only [bind_eq_ok] at h
  obtain ⟨_, _, _, _, _, _, l, hl, f, hf, h⟩ := h
  cases h
  obtain ⟨-, rfl⟩ := sliceFrom_eq_ok.1 hl
  have hfm := hr.formats
  simp only at hfm ⊢
  cases k with
  | audio =>
    obtain ⟨l, rfl, h1, h2⟩ := hfm (by simp)
    exact ⟨h1, h2⟩
  | video =>
    obtain ⟨l, rfl, h1, h2⟩ := hfm (by simp)
    exact ⟨h1, h2⟩
  | application =>
    cases hf
    refine ⟨fun h => ?_, fun t ht => tok (List.mem_of_mem_drop ht)⟩
    have := congrArg List.length h
    simp at this
    omega

/-- **What was parsed is well-formed**, but for the listed exceptions. -/
theorem parsed_wf (L : Laws) {t : Str} {f : Bool} {s : Session} (h : parseSdp t f = .ok s) (hp : s.Plain) : s.WF := by
  have P := parseSdp_parts h
  constructor
  · exact (C03_version_and_timing h).1
  · obtain ⟨v, -, ho⟩ := P.origin
    exact origin_wf L ho
  · intro n hn
    obtain ⟨⟨-, h1⟩, h2⟩ := P.session n hn
    exact trimmed_of_trim h1 h2
  · intro b hb
    obtain ⟨v, hv, hb⟩ := P.bandwidth b hb
    exact bandwidth_wf hv.2 hb
  · intro c hc
    obtain ⟨v, -, hc⟩ := P.connection c hc
    exact connection_wf L hc
  · intro a ha
    obtain ⟨v, -, hv⟩ := P.attrs a ha
    exact attr_wf L hv (hp.attrs a ha)
  · exact (C09_levels h).1
  · intro m hm
    constructor
    · obtain ⟨v, -, hv⟩ := P.mline m hm
      exact mediaLine_wf hv
    · intro b hb
      obtain ⟨v, hv, hb⟩ := P.mbandwidth m hm b hb
      exact bandwidth_wf hv.2 hb
    · intro c hc
      obtain ⟨v, -, hc⟩ := P.mconnection m hm c hc
      exact connection_wf L hc
    · intro a ha
      obtain ⟨v, -, hv⟩ := P.mattrs m hm a ha
      exact attr_wf L hv (hp.media m hm a ha)
    · exact (C09_levels h).2 m hm
  · exact clean_session (fun h d hd hx => absurd ((L.host h d hd).1.2 _ hx) (by decide)) (by decide) contentLines_lf P
  · exact accepted_consistent h
end
end Sdp
