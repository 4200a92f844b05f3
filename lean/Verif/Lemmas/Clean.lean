import Verif.Spec.Strings
import Verif.Lemmas.Parts
import Verif.Lemmas.Dispatch
/-!
# Where the characters of the strings in parsed values come from
-/

namespace Sdp

/-- The outside world makes no host name with the character `x`. -/
def HostFree [Env] (x : Char) : Prop := ∀ h d, Env.hostNA h = .domain d → x ∉ d

section
variable [Env] {x : Char}

/-- No text of the list has the character. -/
def NoneHas (x : Char) (l : List Str) : Prop := ∀ t ∈ l, x ∉ t

omit [Env] in
theorem NoneHas.splitWs {v : Str} (h : x ∉ v) : NoneHas x (splitWs v) := fun _ ht hx => h (splitWs_mem_sub ht x hx)
omit [Env] in
theorem NoneHas.splitC {v : Str} {c : Char} (h : x ∉ v) : NoneHas x (splitC c v) :=
  fun _ ht hx => h (splitC_mem_sub ht x hx)
omit [Env] in
theorem splitn_mem_sub {n : Nat} {c : Char} {s t : Str} (h : t ∈ splitn n c s) : ∀ x ∈ t, x ∈ s := by
  induction n generalizing s with
  | zero => simp [splitn] at h
  | succ n ih =>
    cases n with
    | zero => simp [splitn] at h; subst h; exact fun _ h => h
    | succ n =>
      simp only [splitn] at h
      cases hb : breakC c s with
      | none => simp [hb] at h; subst h; exact fun _ h => h
      | some p =>
        obtain ⟨a, b⟩ := p
        rw [hb] at h
        obtain ⟨rfl, -⟩ := breakC_eq_some.1 hb
        simp only [List.mem_cons] at h
        intro y hy
        rcases h with rfl | h
        · simp [hy]
        · have := ih h y hy; simp [this]
omit [Env] in
theorem NoneHas.splitn {v : Str} {n : Nat} {c : Char} (h : x ∉ v) : NoneHas x (splitn n c v) :=
  fun _ ht hx => h (splitn_mem_sub ht x hx)
omit [Env] in
theorem NoneHas.get {l : List Str} (h : NoneHas x l) {i : Nat} {t : Str} (ht : l[i]? = some t) : x ∉ t :=
  h t (List.mem_of_getElem? ht)
omit [Env] in
theorem NoneHas.idx {l : List Str} (h : NoneHas x l) {i : Nat} {t : Str} (ht : (idx l i : IRes Str) = .ok t) : x ∉ t :=
  h.get (idx_eq_ok.1 ht)
omit [Env] in
theorem NoneHas.slice {l r : List Str} (h : NoneHas x l) {i : Nat} (ht : (sliceFrom l i : IRes (List Str)) = .ok r) :
    NoneHas x r := by
  obtain ⟨-, rfl⟩ := sliceFrom_eq_ok.1 ht
  exact fun t ht => h t (List.mem_of_mem_drop ht)
omit [Env] in
theorem NoneHas.drop {l : List Str} (h : NoneHas x l) (i : Nat) : NoneHas x (l.drop i) :=
  fun t ht => h t (List.mem_of_mem_drop ht)
omit [Env] in
theorem NoneHas.join {l : List Str} {sep : Str} (h : NoneHas x l) (hs : x ∉ sep) : x ∉ joinS sep l := by
  induction l with
  | nil => simp [joinS]
  | cons a l ih =>
    have h1 := h a (by simp)
    have h2 := ih fun t ht => h t (by simp [ht])
    cases l with
    | nil => simpa [joinS] using h1
    | cons b l => simp only [joinS, List.mem_append, not_or]; exact ⟨⟨h1, hs⟩, h2⟩
omit [Env] in
theorem NoneHas.cons {l : List Str} {t : Str} : NoneHas x (t :: l) ↔ x ∉ t ∧ NoneHas x l := by simp [NoneHas]
omit [Env] in
theorem NoneHas.append {l l' : List Str} : NoneHas x (l ++ l') ↔ NoneHas x l ∧ NoneHas x l' := by
  simp only [NoneHas, List.mem_append]; constructor
  · intro h; exact ⟨fun t ht => h t (.inl ht), fun t ht => h t (.inr ht)⟩
  · rintro ⟨h1, h2⟩ t (ht | ht); exacts [h1 t ht, h2 t ht]
omit [Env] in
theorem NoneHas.nil : NoneHas x [] := by simp [NoneHas]
omit [Env] in
theorem NoneHas.flatMap {α : Type} {l : List α} {f : α → List Str} : NoneHas x (l.flatMap f) ↔ ∀ a ∈ l, NoneHas x (f a) := by
  simp only [NoneHas, List.mem_flatMap]
  constructor
  · intro h a ha t ht; exact h t ⟨a, ha, ht⟩
  · rintro h t ⟨a, ha, ht⟩; exact h a ha t ht

theorem clean_address (hh : HostFree x) (s : Str) : Post (fun a => NoneHas x a.strings) (parseAddress s) := by
  have key : ∀ d, hostParse s = .domain d → x ∉ d := by
    intro d hd
    unfold hostParse at hd
    split at hd
    · simp at hd
    · exact hh s d hd
  intro a ha
  unfold parseAddress at ha
  simp only [] at ha
  split_ifs at ha
  · split at ha
    · cases ha; simp [Address.strings, NoneHas]
    · cases h : hostParse s with
      | domain d => rw [h] at ha; cases ha; simpa [Address.strings, NoneHas] using key d h
      | ipv4 _ => rw [h] at ha; cases ha; simp [Address.strings, NoneHas]
      | ipv6 _ => rw [h] at ha; cases ha; simp [Address.strings, NoneHas]
      | error _ => rw [h] at ha; cases ha
  · cases h : hostParse s with
    | domain d => rw [h] at ha; cases ha; simpa [Address.strings, NoneHas] using key d h
    | ipv4 _ => rw [h] at ha; cases ha; simp [Address.strings, NoneHas]
    | ipv6 _ => rw [h] at ha; cases ha; simp [Address.strings, NoneHas]
    | error _ => rw [h] at ha; cases ha

theorem clean_typed (hh : HostFree x) (t : AddressType) (s : Str) :
    Post (fun a => NoneHas x a.strings) (typedTryFrom t s) := by
  unfold typedTryFrom
  refine Post.bind fun a ha => ?_
  have := clean_address hh s a ha
  cases a with
  | ip i => simp only []; post; simp [TypedAddress.strings, NoneHas]
  | fqdn d => exact Post.ok this

/-! ## Attributes -/

/-- The strings of the attribute are free of the character. -/
def AClean (x : Char) (a : Attribute) : Prop := NoneHas x a.strings

theorem clean_candExt (hh : HostFree x) {c : Candidate} (hc : NoneHas x c.strings) {n v : Str} (hn : x ∉ n) (hv : x ∉ v) :
    Post (fun c => NoneHas x c.strings) (candExt c n v) := by
  simp only [Candidate.strings, NoneHas.cons, NoneHas.append, NoneHas.flatMap] at hc ⊢
  obtain ⟨h1, h2, h3, h4, h5⟩ := hc
  unfold candExt
  simp only []
  post
  all_goals first
    | exact ⟨h1, h2, h3, h4, h5⟩
    | (refine ⟨h1, h2, ?_, h4, h5⟩
       intro a ha; simp at ha; subst ha; exact clean_address hh v _ ‹_›)
    | (refine ⟨h1, h2, h3, ?_, h5⟩
       intro a ha; simp at ha; subst ha; exact hv)
    | (refine ⟨h1, h2, h3, h4, ?_⟩
       intro p hp
       simp only [List.mem_append, List.mem_singleton] at hp
       rcases hp with hp | rfl
       · exact h5 p hp
       · simp [NoneHas, hn, hv])

theorem clean_candExts (hh : HostFree x) {c : Candidate} (hc : NoneHas x c.strings) {l : List Str} (hl : NoneHas x l) :
    Post (fun c => NoneHas x c.strings) (candExts c l) := by
  induction c, l using candExts.induct with
  | case1 c n v rest ih =>
    rw [candExts]
    obtain ⟨h1, h2⟩ := NoneHas.cons.1 hl
    obtain ⟨h2, h3⟩ := NoneHas.cons.1 h2
    exact Post.bind fun a ha => ih a (clean_candExt hh hc h1 h2 a ha) h3
  | case2 => rw [candExts]; exact Post.eunsupported _
  | case3 => rw [candExts]; exact Post.ok hc

theorem clean_candidate (hh : HostFree x) {v : Str} (hv : x ∉ v) : Post (AClean x) (parseCandidate v) := by
  have hl := NoneHas.splitWs hv
  unfold parseCandidate
  simp only []
  refine Post.ite (fun _ => Post.egeneric _) fun _ => ?_
  refine Post.bind fun _ _ => Post.bind fun _ _ => Post.bind fun _ _ => Post.bind fun _ _ => Post.bind fun _ _ =>
    Post.bind fun _ _ => Post.bind fun t4 h4 => Post.bind fun a ha => Post.bind fun _ _ => Post.bind fun _ _ => ?_
  refine Post.ite (fun _ => Post.egeneric _) fun _ => Post.bind fun _ _ => Post.ite (fun _ => Post.egeneric _) fun _ => ?_
  refine Post.bind fun _ _ => Post.bind fun _ _ => Post.bind fun f hf => Post.bind fun c hc => Post.pure ?_
  refine clean_candExts hh ?_ (hl.drop 8) c hc
  simp only [Candidate.strings, NoneHas.cons, NoneHas.append]
  exact ⟨hl.idx hf, clean_address hh _ a ha, by simp [NoneHas], by simp [NoneHas], by simp [NoneHas]⟩

omit [Env] in
theorem clean_dtls {v : Str} (hv : x ∉ v) : Post (AClean x) (parseDtlsMessage v) := by
  unfold parseDtlsMessage
  simp only []
  refine Post.ite (fun _ => Post.egeneric _) fun _ => Post.bind fun _ _ => Post.bind fun m hm => ?_
  have := (NoneHas.splitC hv).idx hm
  post <;> simpa [AClean, Attribute.strings, NoneHas] using this

theorem clean_extmap {v : Str} (hv : x ∉ v) (hs : x ≠ ' ') : Post (AClean x) (parseExtmap v) := by
  have hl := NoneHas.splitWs hv
  unfold parseExtmap
  simp only []
  refine Post.ite (fun _ => Post.egeneric _) fun _ => Post.bind fun _ _ => Post.bind fun _ _ => ?_
  refine Post.ite (fun _ => Post.bind fun u hu => Post.pure ?_) fun _ => Post.bind fun r hr =>
    Post.ite (fun _ => Post.egeneric _) fun _ => Post.bind fun u hu => Post.pure ?_
  · simpa [AClean, Attribute.strings, NoneHas] using hl.idx hu
  · have := (hl.slice hr).join (sep := c%" ") (by simpa using hs)
    simpa [AClean, Attribute.strings, NoneHas] using ⟨hl.idx hu, this⟩

/-- The texts in fmtp parameters. -/
def fmtpClean (x : Char) (p : FmtpParams) : Prop := x ∉ p.dtmfTones ∧ NoneHas x p.unknownTokens

theorem clean_fmtpParam {p : FmtpParams} (hp : fmtpClean x p) {t : Str} (ht : x ∉ t) :
    Post (fmtpClean x) (fmtpParam p t) := by
  unfold fmtpParam
  simp only []
  refine Post.ite (fun _ => Post.egeneric _) fun _ => ?_
  post
  all_goals first
    | exact hp
    | exact ⟨hp.1, NoneHas.append.2 ⟨hp.2, by simpa [NoneHas] using ht⟩⟩

theorem clean_fmtpParamList {p : FmtpParams} (hp : fmtpClean x p) {l : List Str} (hl : NoneHas x l) :
    Post (fmtpClean x) (fmtpParamList p l) := by
  induction l generalizing p with
  | nil => exact Post.ok hp
  | cons t ts ih =>
    obtain ⟨h1, h2⟩ := NoneHas.cons.1 hl
    exact Post.bind fun q hq => ih (clean_fmtpParam hp h1 q hq) h2

omit [Env] in
theorem clean_fmtpRed {p : FmtpParams} (hp : fmtpClean x p) (l : List Str) : Post (fmtpClean x) (fmtpRed p l) := by
  induction l generalizing p with
  | nil => exact Post.ok hp
  | cons t ts ih => exact Post.bind fun _ _ => Post.ite (fun _ => ih (p := { p with encodings := _ }) hp) fun _ => Post.egeneric _

theorem clean_fmtpBlock {p : FmtpParams} (hp : fmtpClean x p) {b : Str} (hb : x ∉ b) (hx : x ∉ c%"0-15") :
    Post (fmtpClean x) (fmtpBlock p b) := by
  unfold fmtpBlock
  refine Post.ite (fun _ => clean_fmtpParamList hp ?_) fun _ => Post.ite (fun _ => clean_fmtpRed hp _) fun _ =>
    Post.ite (fun _ => Post.ok ⟨hb, hp.2⟩) fun _ => Post.ok ⟨hx, hp.2⟩
  intro t ht
  exact NoneHas.splitC hb t (List.mem_of_mem_filter ht)

theorem clean_fmtpBlocks {p : FmtpParams} (hp : fmtpClean x p) {l : List Str} (hl : NoneHas x l) (hx : x ∉ c%"0-15") :
    Post (fmtpClean x) (fmtpBlocks p l) := by
  induction l generalizing p with
  | nil => exact Post.ok hp
  | cons t ts ih =>
    obtain ⟨h1, h2⟩ := NoneHas.cons.1 hl
    exact Post.bind fun q hq => ih (clean_fmtpBlock hp h1 hx q hq) h2

theorem clean_fmtp {v : Str} (hv : x ∉ v) (hx : x ∉ c%"0-15") : Post (AClean x) (parseFmtp v) := by
  unfold parseFmtp
  simp only []
  refine Post.ite (fun _ => Post.eunsupported _) fun _ => Post.bind fun _ _ => Post.bind fun bs hbs =>
    Post.bind fun p hp => Post.bind fun _ _ => Post.pure ?_
  have := clean_fmtpBlocks (p := FmtpParams.default) ⟨by simp [FmtpParams.default], NoneHas.nil⟩
    ((NoneHas.splitn hv).slice hbs) hx p hp
  exact NoneHas.cons.2 this

theorem clean_group {v : Str} (hv : x ∉ v) : Post (AClean x) (parseGroup v) := by
  have hl := NoneHas.splitWs hv
  unfold parseGroup
  cases hs : splitWs v with
  | nil => exact Post.egeneric _
  | cons s r => rw [hs] at hl; exact Post.bind fun _ _ => Post.pure (NoneHas.cons.1 hl).2

omit [Env] in
theorem clean_iceOptions {v : Str} (hv : x ∉ v) : Post (AClean x) (parseIceOptions v) := by
  unfold parseIceOptions; post; exact NoneHas.splitWs hv

omit [Env] in
theorem clean_msid {v : Str} (hv : x ∉ v) : Post (AClean x) (parseMsid v) := by
  have hl := NoneHas.splitWs hv
  unfold parseMsid
  cases hs : splitWs v with
  | nil => exact Post.egeneric _
  | cons s r =>
    rw [hs] at hl
    obtain ⟨h1, h2⟩ := NoneHas.cons.1 hl
    refine Post.ok (NoneHas.cons.2 ⟨h1, ?_⟩)
    intro t ht
    simp only [Option.mem_toList] at ht
    exact h2 t (List.mem_of_head? ht)

omit [Env] in
theorem clean_msidSemantic {v : Str} (hv : x ∉ v) : Post (AClean x) (parseMsidSemantic v) := by
  have hl := NoneHas.splitWs hv
  unfold parseMsidSemantic
  simp only []
  refine Post.ite (fun _ => Post.egeneric _) fun _ => Post.bind fun _ h1 => Post.bind fun _ h2 => Post.pure ?_
  exact NoneHas.cons.2 ⟨hl.idx h1, hl.slice h2⟩

/-- The texts collected from rid parameters. -/
def ridClean (x : Char) (st : RidState) : Prop := NoneHas x st.params.unknown ∧ NoneHas x st.depends

omit [Env] in
theorem clean_ridParam {st : RidState} (hst : ridClean x st) {p : Str} (hp : x ∉ p) : Post (ridClean x) (ridParam st p) := by
  unfold ridParam
  simp only []
  refine Post.ite (fun _ => Post.egeneric _) fun _ => Post.bind fun _ _ => Post.bind fun v hv => ?_
  have hv := (NoneHas.splitn hp).idx hv
  post
  all_goals first
    | exact hst
    | exact ⟨hst.1, NoneHas.append.2 ⟨hst.2, NoneHas.splitC hv⟩⟩
    | exact ⟨NoneHas.append.2 ⟨hst.1, by simpa [NoneHas] using hp⟩, hst.2⟩

omit [Env] in
theorem clean_ridParamList {st : RidState} (hst : ridClean x st) {l : List Str} (hl : NoneHas x l) :
    Post (ridClean x) (ridParamList st l) := by
  induction l generalizing st with
  | nil => exact Post.ok hst
  | cons t ts ih =>
    obtain ⟨h1, h2⟩ := NoneHas.cons.1 hl
    exact Post.bind fun q hq => ih (clean_ridParam hst h1 q hq) h2

omit [Env] in
theorem clean_ridFormats {l : List Str} (hl : NoneHas x l) : Post (fun r => NoneHas x r.2) (ridFormats l) := by
  unfold ridFormats
  cases l with
  | nil => exact Post.ok NoneHas.nil
  | cons p ps =>
    simp only []
    post
    · exact (NoneHas.cons.1 hl).2
    · exact hl

omit [Env] in
theorem clean_rid {v : Str} (hv : x ∉ v) : Post (AClean x) (parseRid v) := by
  have hl := NoneHas.splitn (n := 3) (c := ' ') hv
  unfold parseRid
  simp only []
  refine Post.ite (fun _ => Post.egeneric _) fun _ => Post.bind fun fs hfs => Post.bind fun _ hid =>
    Post.bind fun _ _ => Post.bind fun _ _ => Post.pure ?_
  have hst : ridClean x fs.2 := by
    cases ht : (splitn 3 ' ' v)[2]? with
    | none => rw [ht] at hfs; cases hfs; exact ⟨NoneHas.nil, NoneHas.nil⟩
    | some t =>
      rw [ht] at hfs
      obtain ⟨r, hr, hfs⟩ := bind_eq_ok.1 hfs
      obtain ⟨st, hst, hfs⟩ := bind_eq_ok.1 hfs
      cases hfs
      exact clean_ridParamList ⟨NoneHas.nil, NoneHas.nil⟩ (clean_ridFormats (NoneHas.splitC (hl.get ht)) r hr) st hst
  exact NoneHas.cons.2 ⟨hl.idx hid, NoneHas.append.2 hst⟩

theorem clean_remoteCandidates (hh : HostFree x) (v : Str) : Post (AClean x) (parseRemoteCandidates v) := by
  unfold parseRemoteCandidates
  post
  exact clean_address hh _ _ ‹parseUnicastAddress _ = _›

omit [Env] in
theorem clean_rtpmap {v : Str} (hv : x ∉ v) : Post (AClean x) (parseRtpmap v) := by
  have hl := NoneHas.splitWs hv
  unfold parseRtpmap
  rcases hs : splitWs v with _ | ⟨t0, _ | ⟨t1, r⟩⟩
  · exact Post.egeneric _
  · post
  · rw [hs] at hl
    have h1 : x ∉ t1 := hl t1 (by simp)
    have hc := NoneHas.splitC (c := '/') h1
    refine Post.bind fun _ _ => Post.ite (fun _ => Post.egeneric _) fun _ => ?_
    simp only []
    rcases hp : splitC '/' t1 with _ | ⟨n, _ | ⟨f, _ | ⟨c, r⟩⟩⟩
    · exact Post.egeneric _
    · exact Post.egeneric _
    all_goals
      rw [hp] at hc
      have hn : x ∉ n := hc n (by simp)
      post
      simpa [AClean, Attribute.strings, NoneHas] using hn

theorem clean_rtcp (hh : HostFree x) (v : Str) : Post (AClean x) (parseRtcp v) := by
  unfold parseRtcp
  post
  all_goals first
    | simp [AClean, Attribute.strings, NoneHas]; done
    | simpa [AClean, Attribute.strings] using clean_typed hh _ _ _ ‹typedTryFrom _ _ = _›

theorem clean_fbParam {ty : RtcpFbType} {t : Option Str} (ht : ∀ y, t = some y → x ∉ y) :
    Post (fun s => x ∉ s) (parseFbParam ty t) := by
  unfold parseFbParam
  post
  all_goals first
    | exact ht _ rfl
    | simp

theorem clean_rtcpfb {v : Str} (hv : x ∉ v) : Post (AClean x) (parseRtcpFb v) := by
  have hl := NoneHas.splitn (n := 4) (c := ' ') hv
  unfold parseRtcpFb
  simp only []
  refine Post.bind fun _ _ => Post.bind fun p hp => Post.bind fun _ _ => Post.bind fun _ _ => Post.pure ?_
  have h1 := clean_fbParam (fun y hy => hl.get hy) p hp
  refine NoneHas.cons.2 ⟨h1, NoneHas.cons.2 ⟨?_, NoneHas.nil⟩⟩
  cases ht : (splitn 4 ' ' v)[3]? with
  | none => simp
  | some t => exact hl.get ht

/-- The ids of simulcast versions. -/
def versionsClean (x : Char) (l : List SimulcastVersion) : Prop := ∀ v ∈ l, ∀ i ∈ v.ids, x ∉ i.id

omit [Env] in
theorem clean_versions {s : Str} (hs : x ∉ s) : versionsClean x (makeVersionList s) := by
  intro v hv i hi
  obtain ⟨t, ht, rfl⟩ := List.mem_map.1 hv
  obtain ⟨u, hu, rfl⟩ := List.mem_map.1 hi
  have h1 := NoneHas.splitC hs t ht
  have h2 := NoneHas.splitC h1 u hu
  unfold SimulcastId.new
  split
  · rename_i r hr
    rw [stripPrefix_eq_some.1 hr] at h2
    simp at h2; exact h2.2
  · exact h2

theorem clean_versionList {s : Str} (hs : x ∉ s) : Post (versionsClean x) (parseVersionList s) := by
  unfold parseVersionList
  simp only []
  post
  · exact clean_versions ((NoneHas.splitn hs).get (unwrap_eq_ok.1 ‹Outcome.unwrap (splitn 2 '=' s)[1]? = _›))
  · exact clean_versions hs

theorem clean_secondVersionList {d} {l : List Str} (hl : NoneHas x l) :
    Post (versionsClean x) (parseSecondVersionList d l) := by
  unfold parseSecondVersionList
  rcases l with _ | ⟨a, _ | ⟨b, r⟩⟩
  · exact Post.ok (by simp [versionsClean])
  · post
  · refine Post.bind fun _ _ => Post.ite (fun _ => Post.egeneric _) fun _ => ?_
    exact clean_versionList (hl b (by simp))

theorem clean_simulcast {v : Str} (hv : x ∉ v) : Post (AClean x) (parseSimulcast v) := by
  have hl := NoneHas.splitWs hv
  unfold parseSimulcast
  rcases hs : splitWs v with _ | ⟨t0, _ | ⟨t1, r⟩⟩
  · exact Post.egeneric _
  · post
  · rw [hs] at hl
    refine Post.bind fun d _ => Post.bind fun l1 h1 => Post.bind fun l2 h2 => ?_
    have c1 := clean_versionList (hl t1 (by simp)) l1 h1
    have c2 := clean_secondVersionList (fun t ht => hl t (by simp [ht])) l2 h2
    have fin : ∀ a b, versionsClean x a → versionsClean x b → AClean x (.simulcast ⟨a, b⟩) := by
      intro a b ha hb
      simp only [AClean, Attribute.strings, Simulcast.strings, NoneHas.flatMap, List.mem_append]
      rintro w (hw | hw) t ht
      · obtain ⟨i, hi, rfl⟩ := List.mem_map.1 ht; exact ha w hw i hi
      · obtain ⟨i, hi, rfl⟩ := List.mem_map.1 ht; exact hb w hw i hi
    cases d
    · exact Post.pure (fin _ _ c1 c2)
    · exact Post.pure (fin _ _ c2 c1)

omit [Env] in
theorem clean_ssrc {v : Str} (hv : x ∉ v) : Post (fun s => NoneHas x (s.attr.toList ++ s.value.toList)) (parseSsrc v) := by
  have hl := NoneHas.splitn (n := 2) (c := ' ') hv
  unfold parseSsrc
  rcases hs : splitn 2 ' ' v with _ | ⟨i, _ | ⟨a, r⟩⟩
  · exact Post.egeneric _
  · post; simp [NoneHas]
  · rw [hs] at hl
    have ha : x ∉ a := hl a (by simp)
    refine Post.bind fun _ _ => ?_
    simp only []
    unfold Ssrc.setAttribute
    refine Post.ite (fun _ => Post.ok (by simpa [NoneHas] using ha)) fun _ => Post.bind fun v0 h0 => Post.bind fun v1 h1 => Post.pure ?_
    have hp := NoneHas.splitn (n := 2) (c := ':') ha
    simpa [NoneHas] using ⟨hp.idx h0, hp.idx h1⟩

theorem clean_ssrcGroup {v : Str} (hv : x ∉ v) : Post (AClean x) (parseSsrcGroup v) := by
  have hl := NoneHas.splitWs hv
  unfold parseSsrcGroup
  rcases hs : splitWs v with _ | ⟨s, r⟩
  · exact Post.egeneric _
  · rw [hs] at hl
    refine Post.bind fun _ _ => Post.bind fun ss hss => Post.ite (fun _ => Post.egeneric _) fun _ => Post.pure ?_
    refine NoneHas.flatMap.2 fun y hy => ?_
    obtain ⟨t, ht, hty⟩ := collect_mem hss hy
    exact clean_ssrc (hl t (by simp [ht])) y hty

omit [Env] in
theorem clean_string {v : Str} (hv : x ∉ v) : Post (fun s => x ∉ s) (stringOrEmpty v) := by
  unfold stringOrEmpty; post; exact hv

theorem clean_value (hh : HostFree x) (hx : x ∉ c%"0-15 ") (t : AttributeType) {v : Str} (hv : x ∉ v) :
    Post (AClean x) (parseAttrValue t v) := by
  have hx1 : x ∉ c%"0-15" := by simp at hx ⊢; tauto
  have hx2 : x ≠ ' ' := by simp at hx; tauto
  cases t
  case candidate => exact clean_candidate hh hv
  case dtlsMessage => exact clean_dtls hv
  case extmap => exact clean_extmap hv hx2
  case fmtp => exact clean_fmtp hv hx1
  case group => exact clean_group hv
  case iceOptions => exact clean_iceOptions hv
  case msid => exact clean_msid hv
  case msidSemantic => exact clean_msidSemantic hv
  case rid => exact clean_rid hv
  case remoteCandidate => exact clean_remoteCandidates hh v
  case rtpmap => exact clean_rtpmap hv
  case rtcp => exact clean_rtcp hh v
  case rtcpfb => exact clean_rtcpfb hv
  case simulcast => exact clean_simulcast hv
  case ssrcGroup => exact clean_ssrcGroup hv
  case ssrc => exact Post.bind fun s hs => Post.pure (clean_ssrc hv s hs)
  case icePwd => exact Post.bind fun s hs => Post.pure (by simpa [AClean, Attribute.strings, NoneHas] using clean_string hv s hs)
  case iceUfrag => exact Post.bind fun s hs => Post.pure (by simpa [AClean, Attribute.strings, NoneHas] using clean_string hv s hs)
  case identity => exact Post.bind fun s hs => Post.pure (by simpa [AClean, Attribute.strings, NoneHas] using clean_string hv s hs)
  case label => exact Post.bind fun s hs => Post.pure (by simpa [AClean, Attribute.strings, NoneHas] using clean_string hv s hs)
  case mid => exact Post.bind fun s hs => Post.pure (by simpa [AClean, Attribute.strings, NoneHas] using clean_string hv s hs)
  all_goals
    intro a ha
    have ht := (parseAttrValue_range _ _ a ha).1
    cases a <;> simp only [Attribute.type, reduceCtorEq] at ht <;> simp [AClean, Attribute.strings, NoneHas]

theorem clean_attr (hh : HostFree x) (hx : x ∉ c%"0-15 ") {v : Str} (hv : x ∉ v) : Post (AClean x) (attrFromStr v) := by
  rcases colon_cases v with hs | ⟨n, w, rfl, hn⟩
  · rw [attrFromStr_plain hs]
    cases attrTypeOfName (lower v) with
    | none => exact Post.eunsupported _
    | some t => exact clean_value hh hx t (by simp)
  · rw [attrFromStr_colon hn]
    refine Post.ite (fun _ => Post.egeneric _) fun _ => ?_
    cases attrTypeOfName (lower n) with
    | none => exact Post.eunsupported _
    | some t => exact clean_value hh hx t fun h => hv (by simp [trim_sub h])

/-! ## The other lines -/

theorem clean_origin (hh : HostFree x) {v : Str} (hv : x ∉ v) {o : Origin} (h : parseOrigin v = .ok (.origin o)) :
    x ∉ o.username ∧ NoneHas x o.unicastAddr.strings := by
  have hl := NoneHas.splitWs hv
  unfold parseOrigin at h
  rcases hs : splitWs v with _ | ⟨t0, _ | ⟨t1, _ | ⟨t2, _ | ⟨t3, _ | ⟨t4, _ | ⟨t5, r⟩⟩⟩⟩⟩⟩ <;>
    simp only [hs, bind_eq_ok, egeneric, reduceCtorEq, and_false, exists_false] at h
  obtain ⟨_, _, _, _, _, _, _, _, a, ha, h⟩ := h
  split at h
  · simp at h
  · cases h
    rw [hs] at hl
    exact ⟨hl t0 (by simp), clean_typed hh _ _ a ha⟩

theorem clean_connection (hh : HostFree x) {v : Str} {c : Connection} (h : parseConnection v = .ok (.connection c)) :
    NoneHas x c.address.strings := by
  unfold parseConnection at h
  simp only [] at h
  split at h
  · simp [egeneric] at h
  · simp only [bind_eq_ok] at h
    obtain ⟨_, _, _, _, _, _, _, _, _, _, _, _, a, ha, h⟩ := h
    cases h
    exact clean_typed hh _ _ a ha

theorem clean_bandwidth {v : Str} (hv : x ∉ v) {b : Bandwidth} (h : parseBandwidth v = .ok (.bandwidth b)) :
    NoneHas x b.strings := by
  unfold parseBandwidth at h
  simp only [] at h
  split at h
  · simp [egeneric] at h
  · simp only [bind_eq_ok] at h
    obtain ⟨_, _, _, _, t, ht, h⟩ := h
    have := (NoneHas.splitC hv).idx ht
    split_ifs at h <;> cases h <;> simpa [Bandwidth.strings, NoneHas] using this

theorem clean_media {v : Str} (hv : x ∉ v) {m : MediaLine} (h : parseMedia v = .ok (.media m)) :
    NoneHas x m.formats.texts := by
  unfold parseMedia at h
  simp only [] at h
  split at h
  · simp [egeneric] at h
  · simp only [bind_eq_ok] at h
    obtain ⟨_, _, k, _, p, _, h⟩ := h
    split at h
    · simp [egeneric] at h
    · simp only [bind_eq_ok] at h
      obtain ⟨_, _, h⟩ := h
      split at h
      · simp [egeneric] at h
      · simp only [bind_eq_ok] at h
        obtain ⟨_, _, _, _, _, _, l, hl, f, hf, h⟩ := h
        cases h
        have hl := (NoneHas.splitWs hv).slice hl
        unfold parseFormats at hf
        split at hf
        · obtain ⟨_, _, hf⟩ := bind_eq_ok.1 hf; cases hf; simp [FormatList.texts, NoneHas]
        · obtain ⟨_, _, hf⟩ := bind_eq_ok.1 hf; cases hf; simp [FormatList.texts, NoneHas]
        · cases hf; exact hl

/-- The strings of a session are free of a character no line of the text has. -/
theorem clean_session (hh : HostFree x) (hx : x ∉ c%"0-15 ") {s : Str} (hs : ∀ p ∈ contentLines s, x ∉ p.1)
    {r : Session} (h : Parts s r) : NoneHas x r.strings := by
  have line {v : Str} (hv : OfLine s v) : x ∉ v := by
    obtain ⟨⟨p, hp, hc⟩, -⟩ := hv
    exact fun hxv => hs p hp (hc x hxv)
  simp only [Session.strings, NoneHas.cons, NoneHas.append, NoneHas.flatMap, Media.strings]
  obtain ⟨v, hv, ho⟩ := h.origin
  have ho := clean_origin hh (line hv) ho
  refine ⟨ho.1, ho.2, ?_, ?_, ?_, ?_, ?_⟩
  · intro t ht
    exact line (h.session t (by simpa using ht)).1
  · intro b hb
    obtain ⟨v, hv, hb⟩ := h.bandwidth b hb
    exact clean_bandwidth (line hv) hb
  · intro c hc
    obtain ⟨v, hv, hc⟩ := h.connection c (by simpa using hc)
    exact clean_connection hh hc
  · intro a ha
    obtain ⟨v, hv, ha⟩ := h.attrs a ha
    exact clean_attr hh hx (line hv) a ha
  · intro m hm
    refine ⟨?_, ?_, ?_, ?_⟩
    · obtain ⟨v, hv, hm⟩ := h.mline m hm
      exact clean_media (line hv) hm
    · intro b hb
      obtain ⟨v, hv, hb⟩ := h.mbandwidth m hm b hb
      exact clean_bandwidth (line hv) hb
    · intro c hc
      obtain ⟨v, hv, hc⟩ := h.mconnection m hm c (by simpa using hc)
      exact clean_connection hh hc
    · intro a ha
      obtain ⟨v, hv, ha⟩ := h.mattrs m hm a ha
      exact clean_attr hh hx (line hv) a ha

omit [Env] in
theorem linesGo_sub {l : List Str} {t : Str} (h : t ∈ linesGo l) : ∃ u ∈ l, ∀ c ∈ t, c ∈ u := by
  induction l using linesGo.induct with
  | case1 => simp [linesGo] at h
  | case2 u hu => simp [linesGo, hu] at h
  | case3 u hu =>
    simp [linesGo, hu] at h
    exact ⟨u, by simp, by subst h; exact fun _ h => h⟩
  | case4 u m ls ih =>
    simp only [linesGo, List.mem_cons] at h
    rcases h with rfl | h
    · refine ⟨u, by simp, fun c hc => ?_⟩
      unfold stripCR at hc
      split at hc
      · exact List.dropLast_subset _ hc
      · exact hc
    · obtain ⟨w, hw, hc⟩ := ih (by simpa using h)
      exact ⟨w, List.mem_cons_of_mem _ hw, hc⟩

omit [Env] in
theorem contentLines_clean {s : Str} (hs : x ∉ s) : ∀ p ∈ contentLines s, x ∉ p.1 := by
  intro p hp hx
  have hp := (List.mem_filter.1 hp).1
  have hp : p.1 ∈ lines s := (List.mem_zipIdx' hp).2 ▸ List.getElem_mem _
  obtain ⟨u, hu, hc⟩ := linesGo_sub hp
  exact hs (splitC_mem_sub hu x (hc x hx))

omit [Env] in
theorem contentLines_lf {s : Str} : ∀ p ∈ contentLines s, '\n' ∉ p.1 := by
  intro p hp hx
  have hp := (List.mem_filter.1 hp).1
  have hp : p.1 ∈ lines s := (List.mem_zipIdx' hp).2 ▸ List.getElem_mem _
  obtain ⟨u, hu, hc⟩ := linesGo_sub hp
  exact splitC_not_mem hu (hc _ hx)

end

end Sdp
