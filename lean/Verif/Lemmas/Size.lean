import Verif.Spec.Size
import Verif.Lemmas.Clean
/-!
# How much the parsers keep of a text
-/

namespace Sdp

/-! ## Texts and pieces -/

@[simp] theorem textsSize_nil : textsSize [] = 0 := rfl
@[simp] theorem textsSize_cons (t : Str) (l : List Str) : textsSize (t :: l) = t.length + 1 + textsSize l := by
  simp [textsSize]
@[simp] theorem textsSize_append (l k : List Str) : textsSize (l ++ k) = textsSize l + textsSize k := by
  simp [textsSize]

theorem textsSize_sublist {l k : List Str} (h : l.Sublist k) : textsSize l ≤ textsSize k := by
  induction h with
  | slnil => exact Nat.le_refl _
  | cons a _ ih => simp only [textsSize_cons]; omega
  | cons_cons a _ ih => simp only [textsSize_cons]; omega

theorem length_le_textsSize (l : List Str) : l.length ≤ textsSize l := by
  induction l with
  | nil => simp
  | cons a l ih => simp only [List.length_cons, textsSize_cons]; omega

theorem textsSize_splitP (p : Char → Bool) (s : Str) : textsSize (splitP p s) = s.length + 1 := by
  induction s with
  | nil => simp [splitP]
  | cons c cs ih =>
    simp only [splitP]
    split
    · simp [ih]; omega
    · split
      · rename_i h; rw [h] at ih; simp at ih
      · rename_i h; rw [h] at ih; simp at ih ⊢; omega

theorem textsSize_splitC (c : Char) (s : Str) : textsSize (splitC c s) = s.length + 1 := textsSize_splitP _ s

theorem splitC_length_le (c : Char) (s : Str) : (splitC c s).length ≤ s.length + 1 :=
  textsSize_splitC c s ▸ length_le_textsSize _

theorem textsSize_splitWs (s : Str) : textsSize (splitWs s) ≤ s.length + 1 :=
  textsSize_splitP isWs s ▸ textsSize_sublist List.filter_sublist

theorem textsSize_splitn (n : Nat) (c : Char) (s : Str) : textsSize (splitn n c s) ≤ s.length + 1 := by
  induction n generalizing s with
  | zero => simp [splitn]
  | succ n ih =>
    cases n with
    | zero => simp [splitn]
    | succ n =>
      simp only [splitn]
      cases hb : breakC c s with
      | none => simp
      | some p =>
        obtain ⟨a, b⟩ := p
        obtain ⟨rfl, -⟩ := breakC_eq_some.1 hb
        have := ih b
        simp; omega

theorem textsSize_get {l : List Str} {i : Nat} {t : Str} (h : l[i]? = some t) :
    textsSize (l.drop i) = t.length + 1 + textsSize (l.drop (i + 1)) := by
  obtain ⟨hi, rfl⟩ := List.getElem?_eq_some_iff.1 h
  rw [List.drop_eq_getElem_cons hi, textsSize_cons]

theorem textsSize_idx {l : List Str} {i : Nat} {t : Str} (h : (idx l i : IRes Str) = .ok t) :
    textsSize (l.drop i) = t.length + 1 + textsSize (l.drop (i + 1)) := textsSize_get (idx_eq_ok.1 h)

theorem textsSize_drop_le (l : List Str) {i j : Nat} (h : i ≤ j) : textsSize (l.drop j) ≤ textsSize (l.drop i) := by
  obtain ⟨k, rfl⟩ := Nat.exists_eq_add_of_le h
  rw [← List.drop_drop]
  exact textsSize_sublist (List.drop_sublist _ _)

theorem textsSize_drop (l : List Str) (i : Nat) : textsSize (l.drop i) ≤ textsSize l :=
  textsSize_sublist (List.drop_sublist _ _)

theorem textsSize_join {l : List Str} (h : l ≠ []) (c : Char) : (joinS [c] l).length + 1 = textsSize l := by
  induction l with
  | nil => simp at h
  | cons a l ih =>
    cases l with
    | nil => simp [joinS]
    | cons b l =>
      have := ih (by simp)
      simp only [joinS, List.length_append, List.length_cons, List.length_nil, textsSize_cons] at this ⊢
      omega

theorem textsSize_slice {l r : List Str} {i : Nat} (h : (sliceFrom l i : IRes (List Str)) = .ok r) :
    r = l.drop i := (sliceFrom_eq_ok.1 h).2.symm ▸ rfl

section
variable [Env] {w : Str → Nat}

/-! ## Addresses -/

theorem size_address (hw : HostCost w) (s : Str) : Post (fun a => a.size w ≤ s.length) (parseAddress s) := by
  have key : ∀ d, hostParse s = .domain d → w d ≤ s.length := by
    intro d hd
    unfold hostParse at hd
    split at hd
    · simp at hd
    · exact hw s d hd
  intro a ha
  unfold parseAddress at ha
  simp only [] at ha
  split_ifs at ha
  · split at ha
    · cases ha; simp [Address.size]
    · cases h : hostParse s with
      | domain d => rw [h] at ha; cases ha; simpa [Address.size] using key d h
      | ipv4 _ => rw [h] at ha; cases ha; simp [Address.size]
      | ipv6 _ => rw [h] at ha; cases ha; simp [Address.size]
      | error _ => rw [h] at ha; cases ha
  · cases h : hostParse s with
    | domain d => rw [h] at ha; cases ha; simpa [Address.size] using key d h
    | ipv4 _ => rw [h] at ha; cases ha; simp [Address.size]
    | ipv6 _ => rw [h] at ha; cases ha; simp [Address.size]
    | error _ => rw [h] at ha; cases ha

theorem size_typed (hw : HostCost w) (t : AddressType) (s : Str) :
    Post (fun a => a.size w ≤ s.length) (typedTryFrom t s) := by
  unfold typedTryFrom
  refine Post.bind fun a ha => ?_
  have := size_address hw s a ha
  cases a with
  | ip i => simp only []; post; simp [TypedAddress.size]
  | fqdn d => exact Post.ok this

/-! ## Attributes -/

/-- The attribute is not bigger than the value and three more characters. -/
def Fits (w : Str → Nat) (v : Str) (a : Attribute) : Prop := a.size w ≤ v.length + 3

theorem size_candExt (hw : HostCost w) {c : Candidate} {n v : Str} :
    Post (fun d => d.size w ≤ c.size w + n.length + v.length + 2) (candExt c n v) := by
  unfold candExt
  simp only []
  post
  all_goals first
    | (simp only [Candidate.size]; omega)
    | (have := size_address hw v _ ‹_›
       simp [Candidate.size]; omega)
    | (simp [Candidate.size]; omega)

theorem size_candExts (hw : HostCost w) {c : Candidate} {l : List Str} :
    Post (fun d => d.size w ≤ c.size w + textsSize l) (candExts c l) := by
  induction c, l using candExts.induct with
  | case1 c n v rest ih =>
    rw [candExts]
    refine Post.bind fun a ha => fun d hd => ?_
    have h1 := size_candExt hw a ha
    have h2 := ih a d hd
    simp only [textsSize_cons]; omega
  | case2 => rw [candExts]; exact Post.eunsupported _
  | case3 => rw [candExts]; exact Post.ok (by omega)

theorem size_candidate (hw : HostCost w) {v : Str} : Post (Fits w v) (parseCandidate v) := by
  have hl := textsSize_splitWs v
  unfold parseCandidate
  simp only []
  refine Post.ite (fun _ => Post.egeneric _) fun _ => ?_
  refine Post.bind fun _ _ => Post.bind fun _ _ => Post.bind fun _ _ => Post.bind fun _ _ => Post.bind fun _ _ =>
    Post.bind fun _ _ => Post.bind fun t4 h4 => Post.bind fun a ha => Post.bind fun _ _ => Post.bind fun _ _ => ?_
  refine Post.ite (fun _ => Post.egeneric _) fun _ => Post.bind fun _ _ => Post.ite (fun _ => Post.egeneric _) fun _ => ?_
  refine Post.bind fun _ _ => Post.bind fun _ _ => Post.bind fun f hf => Post.bind fun c hc => Post.pure ?_
  have h1 := size_candExts hw c hc
  have h2 := size_address hw _ a ha
  have h3 := textsSize_idx hf
  have h5 := textsSize_idx h4
  have h6 := textsSize_drop_le (splitWs v) (i := 1) (j := 4) (by omega)
  have h7 := textsSize_drop_le (splitWs v) (i := 5) (j := 8) (by omega)
  simp only [List.drop_zero, Nat.zero_add, Nat.reduceAdd] at h3 h5
  simp [Candidate.size] at h1
  simp only [Fits, Attribute.size, Candidate.size]
  omega

omit [Env] in
theorem size_dtls {v : Str} : Post (Fits w v) (parseDtlsMessage v) := by
  unfold parseDtlsMessage
  simp only []
  refine Post.ite (fun _ => Post.egeneric _) fun _ => Post.bind fun _ _ => Post.bind fun m hm => ?_
  have h1 := textsSize_idx hm
  have h2 := textsSize_drop (splitC ' ' v) 1
  have h3 := textsSize_splitC ' ' v
  post <;> (simp only [Fits, Attribute.size, textsSize_cons, textsSize_nil]; omega)

theorem size_extmap {v : Str} : Post (Fits w v) (parseExtmap v) := by
  have hl := textsSize_splitWs v
  unfold parseExtmap
  simp only []
  refine Post.ite (fun _ => Post.egeneric _) fun _ => Post.bind fun _ _ => Post.bind fun _ _ => ?_
  refine Post.ite (fun _ => Post.bind fun u hu => Post.pure ?_) fun _ => Post.bind fun r hr =>
    Post.ite (fun _ => Post.egeneric _) fun _ => Post.bind fun u hu => Post.pure ?_
  · have h1 := textsSize_idx hu
    have h2 := textsSize_drop (splitWs v) 1
    simp [Fits, Attribute.size]; omega
  · have h1 := textsSize_idx hu
    have h2 := textsSize_drop (splitWs v) 1
    rw [textsSize_slice hr]
    by_cases he : (splitWs v).drop 2 = []
    · rw [he] at h1 ⊢
      simp [Fits, Attribute.size, joinS]; simp [-List.drop_one] at h1; omega
    · have h3 := textsSize_join he ' '
      simp [Fits, Attribute.size]; simp [-List.drop_one] at h1; omega

/-- What fmtp parameters count. -/
def fmtpSize (p : FmtpParams) : Nat := p.dtmfTones.length + 1 + textsSize p.unknownTokens + p.encodings.length

theorem size_fmtpParam {p : FmtpParams} {t : Str} :
    Post (fun q => fmtpSize q ≤ fmtpSize p + t.length + 1 ) (fmtpParam p t) := by
  unfold fmtpParam
  simp only []
  refine Post.ite (fun _ => Post.egeneric _) fun _ => ?_
  post
  all_goals first
    | (simp only [fmtpSize]; omega)
    | (simp [fmtpSize]; omega)

theorem size_fmtpParamList {p : FmtpParams} {l : List Str} :
    Post (fun q => fmtpSize q ≤ fmtpSize p + textsSize l) (fmtpParamList p l) := by
  induction l generalizing p with
  | nil => exact Post.ok (by omega)
  | cons t ts ih =>
    refine Post.bind fun q hq => fun r hr => ?_
    have h1 := size_fmtpParam q hq
    have h2 := ih r hr
    simp only [textsSize_cons]; omega

omit [Env] in
theorem size_fmtpRed {p : FmtpParams} {l : List Str} :
    Post (fun q => fmtpSize q ≤ fmtpSize p + l.length) (fmtpRed p l) := by
  induction l generalizing p with
  | nil => exact Post.ok (by omega)
  | cons t ts ih =>
    refine Post.bind fun _ _ => Post.ite (fun _ => fun r hr => ?_) fun _ => Post.egeneric _
    have := ih r hr
    simp [fmtpSize] at this ⊢; omega

theorem size_fmtpBlock {p : FmtpParams} {b : Str} :
    Post (fun q => fmtpSize q ≤ fmtpSize p + b.length + 4) (fmtpBlock p b) := by
  unfold fmtpBlock
  refine Post.ite (fun _ => fun q hq => ?_) fun _ => Post.ite (fun _ => fun q hq => ?_) fun _ =>
    Post.ite (fun _ => Post.ok ?_) fun _ => Post.ok ?_
  · have h1 := size_fmtpParamList q hq
    have h2 := textsSize_sublist (List.filter_sublist (p := fun t : Str => !t.isEmpty) (l := splitC ';' b))
    have h3 := textsSize_splitC ';' b
    omega
  · have h1 := size_fmtpRed q hq
    have h2 := splitC_length_le '/' b
    omega
  · simp [fmtpSize]; omega
  · simp [fmtpSize]; omega

theorem size_fmtp {v : Str} : Post (Fits w v) (parseFmtp v) := by
  have hl := textsSize_splitn 2 ' ' v
  unfold parseFmtp
  simp only []
  refine Post.ite (fun _ => Post.eunsupported _) fun hn => Post.bind fun _ _ => Post.bind fun bs hbs =>
    Post.bind fun p hp => Post.bind fun pt hpt => Post.pure ?_
  rename_i payload h0
  have hne : payload ≠ [] := by rintro rfl; cases hpt
  have hpos := List.length_pos_of_ne_nil hne
  rw [textsSize_slice hbs] at hp
  have h1 := textsSize_idx h0
  have h2 : ∃ b, (splitn 2 ' ' v).drop 1 = [b] := by
    rcases hs : splitn 2 ' ' v with _ | ⟨a, _ | ⟨b, _ | ⟨c, r⟩⟩⟩ <;> simp [hs] at hn ⊢
  obtain ⟨b, hb⟩ := h2
  simp only [Nat.zero_add, hb, List.drop_zero, textsSize_cons, textsSize_nil] at h1
  rw [hb] at hp
  obtain ⟨q, hq, hp⟩ := bind_eq_ok.1 hp
  cases hp
  have h3 := size_fmtpBlock p hq
  simp [fmtpSize, FmtpParams.default] at h3
  simp [Fits, Attribute.size]; omega

theorem size_group {v : Str} : Post (Fits w v) (parseGroup v) := by
  have hl := textsSize_splitWs v
  unfold parseGroup
  cases hs : splitWs v with
  | nil => exact Post.egeneric _
  | cons s r =>
    rw [hs] at hl
    refine Post.bind fun _ _ => Post.pure ?_
    simp [Fits, Attribute.size] at hl ⊢; omega

omit [Env] in
theorem size_iceOptions {v : Str} : Post (Fits w v) (parseIceOptions v) := by
  have := textsSize_splitWs v
  unfold parseIceOptions; post; simp [Fits, Attribute.size]; omega

omit [Env] in
theorem size_msid {v : Str} : Post (Fits w v) (parseMsid v) := by
  have hl := textsSize_splitWs v
  unfold parseMsid
  cases hs : splitWs v with
  | nil => exact Post.egeneric _
  | cons s r =>
    rw [hs] at hl
    refine Post.ok ?_
    cases r <;> simp [Fits, Attribute.size] at hl ⊢ <;> omega

omit [Env] in
theorem size_msidSemantic {v : Str} : Post (Fits w v) (parseMsidSemantic v) := by
  have hl := textsSize_splitWs v
  unfold parseMsidSemantic
  simp only []
  refine Post.ite (fun _ => Post.egeneric _) fun _ => Post.bind fun _ h1 => Post.bind fun _ h2 => Post.pure ?_
  rw [textsSize_slice h2]
  have h1 := textsSize_idx h1
  simp [Fits, Attribute.size] at h1 ⊢; omega

/-- What was collected from rid parameters. -/
def ridSize (st : RidState) : Nat := textsSize st.params.unknown + textsSize st.depends

omit [Env] in
theorem size_ridParam {st : RidState} {p : Str} :
    Post (fun q => ridSize q ≤ ridSize st + p.length + 1) (ridParam st p) := by
  unfold ridParam
  simp only []
  refine Post.ite (fun _ => Post.egeneric _) fun _ => Post.bind fun _ _ => Post.bind fun v hv => ?_
  have h1 := textsSize_idx hv
  have h2 := textsSize_drop (splitn 2 '=' p) 1
  have h3 := textsSize_splitn 2 '=' p
  post
  all_goals first
    | (simp only [ridSize]; omega)
    | (simp [ridSize, textsSize_splitC]; omega)

omit [Env] in
theorem size_ridParamList {st : RidState} {l : List Str} :
    Post (fun q => ridSize q ≤ ridSize st + textsSize l) (ridParamList st l) := by
  induction l generalizing st with
  | nil => exact Post.ok (by omega)
  | cons t ts ih =>
    refine Post.bind fun q hq => fun r hr => ?_
    have h1 := size_ridParam q hq
    have h2 := ih r hr
    simp only [textsSize_cons]; omega

omit [Env] in
theorem size_ridFormats {l : List Str} : Post (fun r => r.1.length + textsSize r.2 ≤ textsSize l) (ridFormats l) := by
  unfold ridFormats
  cases l with
  | nil => exact Post.ok (by simp)
  | cons p ps =>
    simp only []
    cases hp : stripPrefix c%"pt=" p with
    | none => exact Post.ok (by simp)
    | some t =>
      refine Post.bind fun fs hfs => Post.pure ?_
      have h1 := collect_eq_ok_length hfs
      have h2 := splitC_length_le ',' t
      have h3 := congrArg List.length (stripPrefix_eq_some.1 hp)
      simp at h3 ⊢; omega

omit [Env] in
theorem size_rid {v : Str} : Post (Fits w v) (parseRid v) := by
  have hl := textsSize_splitn 3 ' ' v
  unfold parseRid
  simp only []
  refine Post.ite (fun _ => Post.egeneric _) fun _ => Post.bind fun fs hfs => Post.bind fun _ hid =>
    Post.bind fun _ _ => Post.bind fun _ _ => Post.pure ?_
  have hst : fs.1.length + ridSize fs.2 ≤ textsSize ((splitn 3 ' ' v).drop 2) := by
    cases ht : (splitn 3 ' ' v)[2]? with
    | none => rw [ht] at hfs; cases hfs; simp [ridSize, RidState.default]
    | some t =>
      rw [ht] at hfs
      obtain ⟨r, hr, hfs⟩ := bind_eq_ok.1 hfs
      obtain ⟨st, hst, hfs⟩ := bind_eq_ok.1 hfs
      cases hfs
      have h1 := size_ridParamList st hst
      have h2 := size_ridFormats r hr
      have h3 := textsSize_splitC ';' t
      have h4 := textsSize_get ht
      simp [ridSize, RidState.default] at h1 ⊢; omega
  have h1 := textsSize_idx hid
  have h2 := textsSize_drop_le (splitn 3 ' ' v) (i := 1) (j := 2) (by omega)
  simp [Fits, Attribute.size, ridSize, -List.drop_one] at hst h1 ⊢; omega

theorem size_remoteCandidates (hw : HostCost w) {v : Str} : Post (Fits w v) (parseRemoteCandidates v) := by
  have hl := textsSize_splitWs v
  unfold parseRemoteCandidates
  rcases hs : splitWs v with _ | ⟨t0, _ | ⟨t1, _ | ⟨t2, r⟩⟩⟩
  all_goals
    rw [hs] at hl
    try simp only [textsSize_cons] at hl
    post
  have := size_address hw _ _ ‹parseUnicastAddress _ = _›
  simp only [Fits, Attribute.size]; omega

omit [Env] in
theorem size_rtpmap {v : Str} : Post (Fits w v) (parseRtpmap v) := by
  have hl := textsSize_splitWs v
  unfold parseRtpmap
  rcases hs : splitWs v with _ | ⟨t0, _ | ⟨t1, r⟩⟩
  · exact Post.egeneric _
  · post
  · rw [hs] at hl
    simp only [textsSize_cons] at hl
    have hc := textsSize_splitC '/' t1
    refine Post.bind fun _ _ => Post.ite (fun _ => Post.egeneric _) fun _ => ?_
    simp only []
    rcases hp : splitC '/' t1 with _ | ⟨n, _ | ⟨f, _ | ⟨c, r⟩⟩⟩
    · exact Post.egeneric _
    · exact Post.egeneric _
    all_goals
      rw [hp] at hc
      simp only [textsSize_cons] at hc
      post
      simp [Fits, Attribute.size]; omega

theorem size_rtcp (hw : HostCost w) {v : Str} : Post (Fits w v) (parseRtcp v) := by
  have hl := textsSize_splitWs v
  unfold parseRtcp
  rcases hs : splitWs v with _ | ⟨t0, _ | ⟨t1, _ | ⟨t2, _ | ⟨t3, r⟩⟩⟩⟩
  all_goals
    rw [hs] at hl
    try simp only [textsSize_cons] at hl
    post
  all_goals first
    | (simp [Fits, Attribute.size]; done)
    | (have := size_typed hw _ _ _ ‹typedTryFrom _ _ = _›
       simp [Fits, Attribute.size]; omega)

theorem size_fbParam {ty : RtcpFbType} {t : Option Str} :
    Post (fun s => s.length ≤ (t.getD []).length) (parseFbParam ty t) := by
  unfold parseFbParam
  post
  all_goals simp

theorem size_rtcpfb {v : Str} : Post (Fits w v) (parseRtcpFb v) := by
  have hl := textsSize_splitn 4 ' ' v
  unfold parseRtcpFb
  simp only []
  refine Post.bind fun _ _ => Post.bind fun p hp => Post.bind fun _ _ => Post.bind fun _ _ => Post.pure ?_
  have h1 := size_fbParam p hp
  have key (i : Nat) : ((splitn 4 ' ' v)[i]?.getD []).length + textsSize ((splitn 4 ' ' v).drop (i + 1)) ≤
      textsSize ((splitn 4 ' ' v).drop i) := by
    cases ht : (splitn 4 ' ' v)[i]? with
    | none => simpa using textsSize_drop_le _ (by omega)
    | some t => have := textsSize_get ht; simp; omega
  have h2 := key 2
  have h3 := key 3
  have h4 := textsSize_drop (splitn 4 ' ' v) 2
  simp [Fits, Attribute.size] at h2 h3 ⊢; omega

omit [Env] in
theorem size_versions (s : Str) : ((makeVersionList s).map SimulcastVersion.size).sum ≤ s.length + 1 := by
  have one (t : Str) : (SimulcastVersion.new t).size ≤ t.length + 1 := by
    rw [← textsSize_splitC ',' t]
    simp only [SimulcastVersion.size, SimulcastVersion.new, List.map_map]
    generalize splitC ',' t = l
    induction l with
    | nil => simp
    | cons a l ih =>
      have : (SimulcastId.new a).id.length ≤ a.length := by
        unfold SimulcastId.new
        split
        · rename_i r hr; rw [stripPrefix_eq_some.1 hr]; simp
        · exact Nat.le_refl _
      simp only [List.map_cons, Function.comp_apply, textsSize_cons]; omega
  rw [← textsSize_splitC ';' s]
  simp only [makeVersionList, List.map_map]
  generalize splitC ';' s = l
  induction l with
  | nil => simp
  | cons a l ih =>
    have := one a
    simp only [List.map_cons, Function.comp_apply, textsSize_cons, List.sum_cons]; omega

theorem size_versionList {s : Str} :
    Post (fun l => (l.map SimulcastVersion.size).sum ≤ s.length + 1) (parseVersionList s) := by
  unfold parseVersionList
  simp only []
  post
  · have h1 := textsSize_get (unwrap_eq_ok.1 ‹Outcome.unwrap (splitn 2 '=' s)[1]? = _›)
    have h2 := textsSize_drop (splitn 2 '=' s) 1
    have h3 := textsSize_splitn 2 '=' s
    exact Nat.le_trans (size_versions _) (by omega)
  · exact size_versions s

theorem size_secondVersionList {d} {l : List Str} :
    Post (fun r => (r.map SimulcastVersion.size).sum ≤ textsSize l) (parseSecondVersionList d l) := by
  unfold parseSecondVersionList
  rcases l with _ | ⟨a, _ | ⟨b, r⟩⟩
  · exact Post.ok (by simp)
  · post
  · refine Post.bind fun _ _ => Post.ite (fun _ => Post.egeneric _) fun _ => fun q hq => ?_
    have := size_versionList q hq
    simp only [textsSize_cons]; omega

theorem size_simulcast {v : Str} : Post (Fits w v) (parseSimulcast v) := by
  have hl := textsSize_splitWs v
  unfold parseSimulcast
  rcases hs : splitWs v with _ | ⟨t0, _ | ⟨t1, r⟩⟩
  · exact Post.egeneric _
  · post
  · rw [hs] at hl
    simp only [textsSize_cons] at hl
    refine Post.bind fun d _ => Post.bind fun l1 h1 => Post.bind fun l2 h2 => ?_
    have c1 := size_versionList l1 h1
    have c2 := size_secondVersionList l2 h2
    cases d <;> refine Post.pure ?_ <;>
      simp only [Fits, Attribute.size, List.map_append, List.sum_append] <;> omega

omit [Env] in
theorem size_ssrc {v : Str} : Post (fun s => s.size ≤ v.length) (parseSsrc v) := by
  have hl := textsSize_splitn 2 ' ' v
  unfold parseSsrc
  rcases hs : splitn 2 ' ' v with _ | ⟨i, _ | ⟨a, r⟩⟩
  · exact Post.egeneric _
  · post; simp [Ssrc.size]
  · rw [hs] at hl
    simp only [textsSize_cons] at hl
    refine Post.bind fun _ _ => ?_
    simp only []
    unfold Ssrc.setAttribute
    refine Post.ite (fun _ => Post.ok (by simp [Ssrc.size]; omega)) fun _ => Post.bind fun v0 h0 => Post.bind fun v1 h1 => Post.pure ?_
    have h2 := textsSize_idx h0
    have h3 := textsSize_idx h1
    have h4 := textsSize_splitn 2 ':' a
    simp [Ssrc.size, -List.drop_one] at h2 h3 ⊢; omega

theorem size_ssrcGroup {v : Str} : Post (Fits w v) (parseSsrcGroup v) := by
  have hl := textsSize_splitWs v
  unfold parseSsrcGroup
  rcases hs : splitWs v with _ | ⟨s, r⟩
  · exact Post.egeneric _
  · rw [hs] at hl
    simp only [textsSize_cons] at hl
    refine Post.bind fun _ _ => Post.bind fun ss hss => Post.ite (fun _ => Post.egeneric _) fun _ => Post.pure ?_
    have : (ss.map fun s => s.size + 1).sum ≤ textsSize r := by
      replace hss := collect_eq_ok.1 hss
      clear * - hss
      induction hss with
      | nil => simp
      | cons h _ ih =>
        have := size_ssrc _ h
        simp only [List.map_cons, List.sum_cons, textsSize_cons]; omega
    simp only [Fits, Attribute.size]; omega

omit [Env] in
theorem size_fingerprint {v : Str} : Post (Fits w v) (parseFingerprint v) := by
  have hl := textsSize_splitWs v
  unfold parseFingerprint
  simp only []
  refine Post.ite (fun _ => Post.egeneric _) fun _ => Post.bind fun _ _ => Post.bind fun _ _ => Post.bind fun t ht =>
    Post.bind fun b hb => Post.bind fun f hf => Post.pure ?_
  have h1 := textsSize_idx ht
  have h2 := textsSize_drop (splitWs v) 1
  unfold fingerprintTryFrom at hf
  split at hf
  · cases hf
    unfold parseOctets at hb
    obtain ⟨c, hc, hb⟩ := bind_eq_ok.1 hb
    split at hb
    · cases hb
    · cases hb
      have h3 := collect_eq_ok_length hc
      have h4 := splitC_length_le ':' t
      simp only [Fits, Attribute.size]; omega
  · cases hf

/-! ### imageattr -/

omit [Env] in
theorem size_imageTokensLoop {sep : Char} {n : Int} {cur l : List Str} :
    Post (fun r => textsSize r ≤ textsSize cur + textsSize l) (imageTokensLoop sep n cur l) := by
  induction l generalizing n cur with
  | nil => exact Post.ok (by simp)
  | cons t ts ih =>
    simp only [imageTokensLoop]
    refine Post.ite (fun _ => Post.panic) fun _ => Post.ite (fun _ => Post.panic) fun _ => Post.ite (fun _ => ?_) fun _ => ?_
    · refine Post.bind fun r hr => Post.pure ?_
      have h1 := ih r hr
      have h2 := textsSize_join (l := cur ++ [t]) (by simp) sep
      simp only [textsSize_cons, textsSize_append, textsSize_nil] at h1 h2 ⊢; omega
    · intro r hr
      have := ih r hr
      simp only [textsSize_cons, textsSize_append, textsSize_nil] at this ⊢; omega

omit [Env] in
theorem size_imageTokens {s : Str} {sep : Char} : Post (fun r => textsSize r ≤ s.length + 1) (imageTokens s sep) := by
  intro r hr
  have := size_imageTokensLoop r hr
  rw [textsSize_splitC] at this
  simpa using this

omit [Env] in
theorem bracedToken_size {s t : Str} (h : bracedToken s = some t) : t.length + 1 ≤ s.length := by
  unfold bracedToken at h
  split at h
  · simp at h
  · split at h
    · simp at h
    · cases h
      cases s with
      | nil => rename_i h1 _; simp [startsWithC] at h1
      | cons a s => simp

omit [Env] in
theorem size_xyRange {s : Str} : Post (fun x => x.size ≤ s.length + 1) (parseXyRange s) := by
  unfold parseXyRange
  refine Post.ite (fun _ => Post.bind fun v hv => ?_) fun _ => ?_
  · have h1 := bracedToken_size (okOr_eq_ok.1 hv)
    refine Post.ite (fun _ => ?_) fun _ => Post.bind fun l hl => Post.ite (fun _ => Post.egeneric _) fun _ => Post.pure ?_
    · simp only []; post <;> simp [XyRange.size]
    · have h2 := collect_eq_ok_length hl
      have h3 := splitC_length_le ',' v
      simp only [XyRange.size]; omega
  · post; simp [XyRange.size]

/-- What the keys of an imageattr set count. -/
def keysSize (k : ImgKeys) : Nat := (k.sar.toList.map SRange.size).sum

omit [Env] in
theorem size_imageKey {k : ImgKeys} {t : Str} : Post (fun q => keysSize q ≤ keysSize k + t.length) (imageKey k t) := by
  unfold imageKey
  cases hs : stripPrefix c%"sar=" t with
  | some v =>
    have hlen := congrArg List.length (stripPrefix_eq_some.1 hs)
    simp only [List.length_append, List.length_cons, List.length_nil] at hlen
    simp only []
    refine Post.ite (fun _ => Post.bind fun i hi => ?_) fun _ => ?_
    · have h1 := bracedToken_size (okOr_eq_ok.1 hi)
      refine Post.ite (fun _ => Post.bind fun _ _ => Post.pure ?_) fun _ => Post.ite (fun _ => Post.bind fun l hl => ?_) fun _ => Post.pure ?_
      · simp [keysSize, SRange.size]
      · refine Post.ite (fun _ => Post.egeneric _) fun _ => Post.bind fun _ _ => Post.pure ?_
        have h2 := collect_eq_ok_length hl
        have h3 := splitC_length_le ',' i
        simp [keysSize, SRange.size]; omega
      · omega
    · post
      simp [keysSize, SRange.size]; omega
  | none =>
    simp only []
    post
    all_goals simp [keysSize]

omit [Env] in
theorem size_imageKeys {k : ImgKeys} {l : List Str} : Post (fun q => keysSize q ≤ keysSize k + textsSize l) (imageKeys k l) := by
  induction l generalizing k with
  | nil => exact Post.ok (by omega)
  | cons t ts ih =>
    refine Post.bind fun q hq => fun r hr => ?_
    have h1 := size_imageKey q hq
    have h2 := ih r hr
    simp only [textsSize_cons]; omega

omit [Env] in
theorem size_imageSet {s : Str} : Post (fun x => x.size ≤ s.length) (parseImageSet s) := by
  unfold parseImageSet
  refine Post.bind fun l hl => ?_
  have h0 := size_imageTokens l hl
  rcases l with _ | ⟨xt, rest⟩
  · exact Post.egeneric _
  · simp only []
    refine Post.ite (fun _ => Post.egeneric _) fun _ => Post.bind fun xs hxs => Post.bind fun x hx => ?_
    obtain ⟨hx2, rfl⟩ := sliceFrom_eq_ok.1 hxs
    have h1 := size_xyRange x hx
    rcases rest with _ | ⟨yt, rest⟩
    · exact Post.egeneric _
    · simp only []
      refine Post.ite (fun _ => Post.egeneric _) fun _ => Post.bind fun ys hys => Post.bind fun y hy =>
        Post.bind fun k hk => Post.pure ?_
      obtain ⟨hy2, rfl⟩ := sliceFrom_eq_ok.1 hys
      have h2 := size_xyRange y hy
      have h3 := size_imageKeys k hk
      simp only [textsSize_cons, List.length_drop] at h0 h1 h2
      simp [keysSize] at h3
      simp only [ImageAttrSet.size]; omega

omit [Env] in
theorem size_bracedSet {s : Str} : Post (fun x => x.size ≤ s.length) (parseBracedSet s) := by
  unfold parseBracedSet
  refine Post.bind fun i hi => fun x hx => ?_
  have h1 := bracedToken_size (okOr_eq_ok.1 hi)
  have h2 := size_imageSet x hx
  omega

omit [Env] in
theorem size_moreSets {l : List Str} :
    Post (fun r => (r.1.map ImageAttrSet.size).sum + textsSize r.2 ≤ textsSize l) (moreSets l) := by
  induction l with
  | nil => exact Post.ok (by simp)
  | cons t ts ih =>
    simp only [moreSets]
    refine Post.ite (fun _ => Post.bind fun s hs => Post.bind fun r hr => Post.pure ?_) fun _ => Post.ok (by simp)
    have h1 := size_bracedSet s hs
    have h2 := ih r hr
    simp only [List.map_cons, List.sum_cons, textsSize_cons]; omega

omit [Env] in
theorem size_setList {l : List Str} : Post (fun r => r.1.size + textsSize r.2 ≤ textsSize l) (parseSetList l) := by
  unfold parseSetList
  rcases l with _ | ⟨t, ts⟩
  · exact Post.egeneric _
  · simp only []
    refine Post.ite (fun _ => Post.ok ?_) fun _ => Post.bind fun s hs => Post.bind fun r hr => Post.pure ?_
    · simp [ImageAttrSetList.size]
    · have h1 := size_bracedSet s hs
      have h2 := size_moreSets r hr
      simp only [ImageAttrSetList.size, List.map_cons, List.sum_cons, textsSize_cons]; omega

omit [Env] in
theorem size_secondSetList {d} {l : List Str} :
    Post (fun r => r.1.size + textsSize r.2 ≤ textsSize l) (parseSecondSetList d l) := by
  unfold parseSecondSetList
  rcases l with _ | ⟨t, ts⟩
  · exact Post.ok (by simp [ImageAttrSetList.size])
  · simp only []
    refine Post.bind fun _ _ => Post.ite (fun _ => Post.egeneric _) fun _ => fun r hr => ?_
    have := size_setList r hr
    simp only [textsSize_cons]; omega

omit [Env] in
theorem size_imageAttr {v : Str} : Post (Fits w v) (parseImageAttr v) := by
  unfold parseImageAttr
  refine Post.bind fun l hl => ?_
  have h0 := size_imageTokens l hl
  rcases l with _ | ⟨t0, ts⟩
  · exact Post.egeneric _
  · simp only []
    refine Post.bind fun _ _ => ?_
    rcases ts with _ | ⟨t1, ts⟩
    · exact Post.egeneric _
    · simp only []
      refine Post.bind fun d _ => Post.bind fun r1 h1 => Post.bind fun r2 h2 => Post.ite (fun _ => Post.egeneric _) fun _ => ?_
      have h1 := size_setList r1 h1
      have h2 := size_secondSetList r2 h2
      simp only [textsSize_cons] at h0
      cases d <;> refine Post.pure ?_ <;> simp only [Fits, Attribute.size] <;> omega

omit [Env] in
theorem size_string {v : Str} : Post (fun s => s.length ≤ v.length) (stringOrEmpty v) := by
  unfold stringOrEmpty; post; exact Nat.le_refl _

theorem size_value (hw : HostCost w) (t : AttributeType) {v : Str} : Post (Fits w v) (parseAttrValue t v) := by
  cases t
  case candidate => exact size_candidate hw
  case dtlsMessage => exact size_dtls
  case extmap => exact size_extmap
  case fingerprint => exact size_fingerprint
  case fmtp => exact size_fmtp
  case group => exact size_group
  case iceOptions => exact size_iceOptions
  case imageAttr => exact size_imageAttr
  case msid => exact size_msid
  case msidSemantic => exact size_msidSemantic
  case rid => exact size_rid
  case remoteCandidate => exact size_remoteCandidates hw
  case rtpmap => exact size_rtpmap
  case rtcp => exact size_rtcp hw
  case rtcpfb => exact size_rtcpfb
  case simulcast => exact size_simulcast
  case ssrcGroup => exact size_ssrcGroup
  case ssrc => exact Post.bind fun s hs => Post.pure (by have := size_ssrc s hs; simp only [Fits, Attribute.size]; omega)
  case icePwd => exact Post.bind fun s hs => Post.pure (by have := size_string s hs; simp [Fits, Attribute.size]; omega)
  case iceUfrag => exact Post.bind fun s hs => Post.pure (by have := size_string s hs; simp [Fits, Attribute.size]; omega)
  case identity => exact Post.bind fun s hs => Post.pure (by have := size_string s hs; simp [Fits, Attribute.size]; omega)
  case label => exact Post.bind fun s hs => Post.pure (by have := size_string s hs; simp [Fits, Attribute.size]; omega)
  case mid => exact Post.bind fun s hs => Post.pure (by have := size_string s hs; simp [Fits, Attribute.size]; omega)
  all_goals
    intro a ha
    have ht := (parseAttrValue_range _ _ a ha).1
    cases a <;> simp only [Attribute.type, reduceCtorEq] at ht <;> simp [Fits, Attribute.size]

theorem size_attr (hw : HostCost w) {v : Str} (hv : v ≠ []) : Post (fun a => a.size w ≤ v.length + 2) (attrFromStr v) := by
  rcases colon_cases v with hs | ⟨n, u, rfl, hn⟩
  · rw [attrFromStr_plain hs]
    have := List.length_pos_of_ne_nil hv
    cases attrTypeOfName (lower v) with
    | none => exact Post.eunsupported _
    | some t =>
      intro a ha
      have h1 : a.size w ≤ 0 + 3 := size_value hw t a ha
      omega
  · rw [attrFromStr_colon hn]
    refine Post.ite (fun _ => Post.egeneric _) fun _ => ?_
    cases attrTypeOfName (lower n) with
    | none => exact Post.eunsupported _
    | some t =>
      intro a ha
      have h1 : a.size w ≤ (trim u).length + 3 := size_value hw t a ha
      have h2 := trim_length u
      simp; omega

/-! ## The other lines -/

theorem size_origin (hw : HostCost w) {v : Str} {o : Origin} (h : parseOrigin v = .ok (.origin o)) :
    o.username.length + 1 + o.unicastAddr.size w ≤ v.length + 1 := by
  have hl := textsSize_splitWs v
  unfold parseOrigin at h
  rcases hs : splitWs v with _ | ⟨t0, _ | ⟨t1, _ | ⟨t2, _ | ⟨t3, _ | ⟨t4, _ | ⟨t5, r⟩⟩⟩⟩⟩⟩ <;>
    simp only [hs, bind_eq_ok, egeneric, reduceCtorEq, and_false, exists_false] at h
  obtain ⟨_, _, _, _, _, _, _, _, a, ha, h⟩ := h
  split at h
  · simp at h
  · cases h
    rw [hs] at hl
    have := size_typed hw _ _ a ha
    simp only [textsSize_cons] at hl
    simp only []; omega

theorem size_connection (hw : HostCost w) {v : Str} {c : Connection} (h : parseConnection v = .ok (.connection c)) :
    c.address.size w ≤ v.length := by
  have hl := textsSize_splitWs v
  unfold parseConnection at h
  simp only [] at h
  split at h
  · simp [egeneric] at h
  · simp only [bind_eq_ok] at h
    obtain ⟨_, _, _, _, _, _, _, _, t, ht, p, hp, a, ha, h⟩ := h
    cases h
    have h1 := size_typed hw _ _ a ha
    have h2 := textsSize_idx ht
    have h3 := textsSize_drop (splitWs v) 2
    have h4 : p.1.length ≤ t.length := by
      unfold parseConnAddr at hp
      split at hp
      · simp only [bind_eq_ok] at hp
        obtain ⟨_, _, _, _, _, _, q, hq, hp⟩ := hp
        cases hp
        have h5 := textsSize_idx hq
        have h6 := textsSize_splitC '/' t
        simp at h5 ⊢; omega
      · cases hp; exact Nat.le_refl _
    simp only []; omega

theorem size_bandwidth {v : Str} {b : Bandwidth} (h : parseBandwidth v = .ok (.bandwidth b)) : b.size ≤ v.length + 1 := by
  have hl := textsSize_splitC ':' v
  unfold parseBandwidth at h
  simp only [] at h
  split at h
  · simp [egeneric] at h
  · simp only [bind_eq_ok] at h
    obtain ⟨_, _, _, _, t, ht, h⟩ := h
    have := textsSize_idx ht
    split_ifs at h <;> cases h <;> simp [Bandwidth.size] at this ⊢ <;> omega

theorem size_media {v : Str} {m : MediaLine} (h : parseMedia v = .ok (.media m)) : m.formats.size ≤ v.length + 1 := by
  have hv := textsSize_splitWs v
  unfold parseMedia at h
  simp only [] at h
  split at h
  · simp [egeneric] at h
  · simp only [bind_eq_ok] at h
    obtain ⟨_, _, k, _, p, _, h⟩ := h
    split at h
    · simp [egeneric] at h
    · simp only [bind_eq_ok] at h
      obtain ⟨_, _, h⟩ := h
      split at h
      · simp [egeneric] at h
      · simp only [bind_eq_ok] at h
        obtain ⟨_, _, _, _, _, _, l, hl, f, hf, h⟩ := h
        cases h
        have hl := textsSize_slice hl
        subst hl
        have h1 := textsSize_drop (splitWs v) 3
        have h2 := length_le_textsSize ((splitWs v).drop 3)
        unfold parseFormats at hf
        split at hf
        · obtain ⟨_, hc, hf⟩ := bind_eq_ok.1 hf; cases hf
          have := collect_eq_ok_length hc
          simp only [FormatList.size]; omega
        · obtain ⟨_, hc, hf⟩ := bind_eq_ok.1 hf; cases hf
          have := collect_eq_ok_length hc
          simp only [FormatList.size]; omega
        · cases hf; simp only [FormatList.size]; omega

/-- What a line contributes to a session. -/
def lineSize (w : Str → Nat) (l : SdpLine) : Nat :=
  match l.sdpType with
  | .attr a => a.size w + 1
  | .bandwidth b => b.size + 1
  | .connection c => c.address.size w
  | .media m => m.formats.size + 1
  | .origin o => o.username.length + 1 + o.unicastAddr.size w
  | .session n => n.length + 1
  | .timing _ => 0
  | .version _ => 1

theorem size_line (hw : HostCost w) {l : Str} {n : Nat} {x : SdpLine} (h : parseSdpLine l n = .ok x) :
    lineSize w x ≤ l.length + 1 := by
  obtain ⟨a, b, h1, h2, h3, h4, h5, h6, h7, h8⟩ := parseSdpLine_ok h
  have hlen := congrArg List.length h1
  simp only [List.length_append, List.length_cons] at hlen
  have ha : 0 < a.length := by
    rcases a with _ | ⟨c, a⟩
    · exact absurd rfl h4
    · simp
  have hb := trim_length b
  have htb := trim_length (trim b)
  unfold lineSize
  generalize x.sdpType = ty at h6
  obtain ⟨hlet, h6⟩ := parseLineValue_ok h6
  cases ty with
  | attr a =>
    simp only [parseAttribute] at h6
    obtain ⟨a', ha', h6⟩ := bind_eq_ok.1 h6
    simp at h6; subst h6
    have hne : trim (trim b) ≠ [] := by
      rw [trim_trim]
      exact fun e => h5 ⟨e, by rw [hlet]; simp [SdpType.letter]⟩
    have := size_attr hw hne _ ha'
    simp only []; omega
  | session n =>
    have h6 : n = b := h6
    simp only [h6]; omega
  | version n => simp
  | bandwidth _ => have := size_bandwidth h6; simp only []; omega
  | connection _ => have := size_connection hw h6; simp only []; omega
  | media _ => have := size_media h6; simp only []; omega
  | origin _ => have := size_origin hw h6; simp only []; omega
  | timing _ => simp

/-! ## The whole text -/

omit [Env] in
theorem size_lines (s : Str) : textsSize (lines s) ≤ s.length + 1 := by
  have go (l : List Str) : textsSize (linesGo l) ≤ textsSize l := by
    induction l using linesGo.induct with
    | case1 => simp [linesGo]
    | case2 u hu => simp [linesGo, hu]
    | case3 u hu => simp [linesGo, hu]
    | case4 u m ls ih =>
      have := stripCR_length u
      simp only [linesGo, textsSize_cons] at ih ⊢; omega
  exact textsSize_splitC '\n' s ▸ go _

omit [Env] in
theorem size_contentLines (s : Str) : textsSize ((contentLines s).map (·.1)) ≤ s.length + 1 := by
  refine Nat.le_trans (textsSize_sublist ?_) (size_lines s)
  have h := (List.filter_sublist (p := fun p : Str × Nat => decide (¬ Blank p.1)) (l := (lines s).zipIdx 0)).map (·.1)
  simpa [contentLines, contentFrom] using h

theorem size_scanned (hw : HostCost w) (l : List (Str × Nat)) :
    ((acceptedLines l).map (lineSize w)).sum + ((unsupportedErrors l).map ParserError.size).sum ≤
      textsSize (l.map (·.1)) := by
  induction l with
  | nil => simp [acceptedLines, unsupportedErrors]
  | cons p l ih =>
    simp only [acceptedLines, unsupportedErrors, List.filterMap_cons, List.map_cons, textsSize_cons] at ih ⊢
    cases hp : parseSdpLine p.1 p.2 with
    | ok x =>
      have := size_line hw hp
      simp only [List.map_cons, List.sum_cons]; omega
    | panic => simp only []; omega
    | err e =>
      cases e with
      | line e t k => simp only []; omega
      | sequence e t => simp only []; omega
      | unsupported e t k =>
        have ht : t = p.1 := by
          rcases parseSdpLine_err hp with ⟨i, hi, -⟩ | ⟨m, hm⟩
          · cases hi
          · cases hm; rfl
        subst ht
        simp only [List.map_cons, List.sum_cons, ParserError.size, textsSize_cons, textsSize_nil]; omega

/-- What the part before the first m= line contributes. -/
def partSize (w : Str → Nat) (ls : List SdpLine) : Nat :=
  ((attrsOf ls).map fun a => a.size w + 1).sum + ((bandwidthsOf ls).map fun b => b.size + 1).sum +
    ((connectionsOf ls).map fun c => c.address.size w).sum

omit [Env] in
theorem size_part (ls : List SdpLine) : partSize w ls ≤ (ls.map (lineSize w)).sum := by
  induction ls with
  | nil => simp [partSize, attrsOf, bandwidthsOf, connectionsOf]
  | cons l ls ih =>
    simp only [partSize, attrsOf, bandwidthsOf, connectionsOf, List.filterMap_cons, List.map_cons, List.sum_cons] at ih ⊢
    have hl : lineSize w l = lineSize w l := rfl
    conv at hl => rhs; unfold lineSize
    cases ht : l.sdpType <;> simp only [ht] at hl ⊢ <;> try simp only [List.map_cons, List.sum_cons]
    all_goals omega

omit [Env] in
theorem size_sections (ls : List SdpLine) :
    ((ls.takeWhile notMedia).map (lineSize w)).sum +
      ((sectionsOf ls).map fun p => p.1.formats.size + 1 + (p.2.map (lineSize w)).sum).sum =
    (ls.map (lineSize w)).sum := by
  induction ls with
  | nil => simp [sectionsOf]
  | cons l ls ih =>
    by_cases hm : ∃ m, l.sdpType = .media m
    · obtain ⟨m, hm⟩ := hm
      have h1 : notMedia l = false := by simp [notMedia, hm]
      have h2 : lineSize w l = m.formats.size + 1 := by simp [lineSize, hm]
      simp [sectionsOf, hm, List.takeWhile_cons, h1, h2]; omega
    · have h1 : notMedia l = true := by
        unfold notMedia; split
        · rename_i m h; exact absurd ⟨m, h⟩ hm
        · rfl
      have h2 : sectionsOf (l :: ls) = sectionsOf ls := by
        simp only [sectionsOf]
        split
        · rename_i m h; exact absurd ⟨m, h⟩ hm
        · rfl
      simp [h2, List.takeWhile_cons, h1]; omega

omit [Env] in
theorem sum_sublist {l k : List Nat} (h : l.Sublist k) : l.sum ≤ k.sum := by
  induction h with
  | slnil => exact Nat.le_refl _
  | cons a _ ih => simp only [List.sum_cons]; omega
  | cons_cons a _ ih => simp only [List.sum_cons]; omega

omit [Env] in
theorem sum_map_le {α : Type} {f g : α → Nat} {l : List α} (h : ∀ a ∈ l, f a ≤ g a) : (l.map f).sum ≤ (l.map g).sum := by
  induction l with
  | nil => simp
  | cons a l ih =>
    have h1 := h a (by simp)
    have h2 := ih fun b hb => h b (by simp [hb])
    simp only [List.map_cons, List.sum_cons]; omega

omit [Env] in
theorem sum_head (l : List Nat) : l.head?.toList.sum ≤ l.sum := by
  cases l <;> simp

omit [Env] in
theorem sum_getLast (l : List Nat) : l.getLast?.toList.sum ≤ l.sum := by
  cases h : l.getLast? with
  | none => simp
  | some a => simpa using sum_sublist (List.singleton_sublist.2 (List.mem_of_getLast? h))

omit [Env] in
theorem size_sectionMedia (p : MediaLine × List SdpLine) :
    (sectionMedia p).size w ≤ p.1.formats.size + (p.2.map (lineSize w)).sum := by
  have h := size_part (w := w) p.2
  have h1 := sum_head ((connectionsOf p.2).map fun c => c.address.size w)
  have h2 := sum_sublist ((List.filter_sublist (p := fun a => !isDtls a) (l := attrsOf p.2)).map fun a => a.size w + 1)
  rw [List.head?_map, Option.toList_map] at h1
  simp only [partSize] at h
  simp only [Media.size, sectionMedia]; omega

/-- A session is not bigger than the text it was read from. -/
theorem size_session (hw : HostCost w) {s : Str} {f : Bool} {r : Session} (h : parseSdp s f = .ok r) :
    r.size w ≤ s.length := by
  obtain ⟨_, _, _, _, l0, l1, l2, rest, v, o, nm, h1, h2, h3, h4, h5, hg, hm, h6, _⟩ := parseSdp_spec.1 h
  subst h6
  have a1 := size_scanned hw (contentLines s)
  have a2 := size_contentLines s
  rw [h1] at a1
  simp only [List.map_cons, List.sum_cons] at a1
  have b0 : lineSize w l0 = 1 := by simp [lineSize, h3]
  have b1 : lineSize w l1 = o.username.length + 1 + o.unicastAddr.size w := by simp [lineSize, h4]
  have b2 : lineSize w l2 = nm.length + 1 := by simp [lineSize, h5]
  have c1 := size_sections (w := w) rest
  have c2 := size_part (w := w) (rest.takeWhile notMedia)
  have c3 := sum_getLast ((connectionsOf (rest.takeWhile notMedia)).map fun c => c.address.size w)
  rw [List.getLast?_map, Option.toList_map] at c3
  have c4 : (((sectionsOf rest).map sectionMedia).map fun m => m.size w + 1).sum ≤
      ((sectionsOf rest).map fun p => p.1.formats.size + 1 + (p.2.map (lineSize w)).sum).sum := by
    rw [List.map_map]
    refine sum_map_le fun p _ => ?_
    have := size_sectionMedia (w := w) p
    simp only [Function.comp_apply]; omega
  have c5 : textsSize (if Blank nm then none else some (trim nm)).toList ≤ nm.length + 1 := by
    have := trim_length nm
    split <;> simp; omega
  simp only [partSize] at c2
  simp only [Session.size, assemble]
  omega

end

end Sdp
