import Verif.Spec.World
import Verif.Lemmas.Fault3
import Verif.Lemmas.Dispatch
import Verif.Lemmas.Clean
import Verif.Lemmas.IpGrammar
/-!
# Two worlds that agree on a text parse it to the same
-/

namespace Sdp.World

variable {E F : Env}

/-- The worlds agree on the text as far as letters are concerned. -/
def Fine (E F : Env) (s : Str) : Prop := isAscii s = true ∨ SameTables E F

theorem Fine.sub {s t : Str} (h : Fine E F s) (hs : ∀ c ∈ t, c ∈ s) : Fine E F t := by
  rcases h with h | h
  · left
    simp only [isAscii, List.all_eq_true] at *
    exact fun c hc => h c (hs c hc)
  · exact .inr h

theorem Fine.lower {s : Str} (h : Fine E F s) : @lower E s = @lower F s := by
  unfold Sdp.lower
  rcases h with h | h
  · simp [h]
  · rw [h.1]

theorem Fine.upper {s : Str} (h : Fine E F s) : @upper E s = @upper F s := by
  unfold Sdp.upper
  rcases h with h | h
  · simp [h]
  · rw [h.2.1]

theorem Fine.debug {s : Str} (h : Fine E F s) : @debugStr E s = @debugStr F s := by
  unfold Sdp.debugStr
  rcases h with h | h
  · simp [h]
  · rw [h.2.2]

theorem isAscii_map_upper {s : Str} (h : isAscii s = true) : isAscii (s.map asciiUpper) = true := by
  simp only [isAscii, List.all_eq_true, List.mem_map] at *
  rintro _ ⟨c, hc, rfl⟩
  have h1 : c.toNat < 128 := by simpa using h c hc
  have key : ∀ n < 128, (asciiUpper (Char.ofNat n)).toNat < 128 := by decide
  have := key c.toNat h1
  rw [Char.ofNat_toNat] at this
  simpa using this

theorem Fine.of_upper {s : Str} (h : Fine E F s) : Fine E F (@Sdp.upper F s) := by
  rcases h with h | h
  · left
    unfold Sdp.upper
    rw [if_pos h]
    exact isAscii_map_upper h
  · exact .inr h

theorem Fine.word {s w : Str} (h : Fine E F s) (hw : w ∈ splitWs s) : Fine E F w := h.sub (splitWs_mem_sub hw)
theorem Fine.field {c : Char} {s w : Str} (h : Fine E F s) (hw : w ∈ splitC c s) : Fine E F w := h.sub (splitC_mem_sub hw)
theorem Fine.part {n : Nat} {c : Char} {s w : Str} (h : Fine E F s) (hw : w ∈ splitn n c s) : Fine E F w :=
  h.sub (splitn_mem_sub hw)
theorem Fine.trim {s : Str} (h : Fine E F s) : Fine E F (Sdp.trim s) := h.sub fun _ hc => mem_of_trim hc

theorem bindc {ε α β : Type} {x : Outcome ε α} {f g : α → Outcome ε β} (h : ∀ a, f a = g a) : (x >>= f) = (x >>= g) := by
  rw [funext h]

theorem bindi {ε α β : Type} {l : List α} {i : Nat} {f g : α → Outcome ε β} (h : ∀ a, l[i]? = some a → f a = g a) :
    (idx l i >>= f) = (idx l i >>= g) := by
  unfold idx
  cases hx : l[i]? with
  | none => rfl
  | some a => exact h a hx

theorem bind2 {ε α β : Type} {x y : Outcome ε α} {f g : α → Outcome ε β} (hx : x = y) (h : ∀ a, f a = g a) :
    (x >>= f) = (y >>= g) := by
  rw [hx, funext h]

theorem bindk {ε α β : Type} {x : Outcome ε α} {f g : α → Outcome ε β} (h : ∀ a, x = .ok a → f a = g a) :
    (x >>= f) = (x >>= g) := by
  cases x with
  | ok a => exact h a rfl
  | err e => rfl
  | panic => rfl

theorem splitC_zero {c : Char} {s : Str} : (splitC c s)[0]? = some (upTo c s) := by
  induction s with
  | nil => rfl
  | cons x s ih =>
    unfold splitC upTo at *
    by_cases hx : x = c
    · simp [splitP, hx]
    · cases hs : splitP (fun x => x == c) s with
      | nil => simp [hs] at ih
      | cons a as => simpa [splitP, hx, hs, List.takeWhile_cons] using ih

theorem mem_of_get {α : Type} {l : List α} {i : Nat} {a : α} (h : l[i]? = some a) : a ∈ l := List.mem_of_getElem? h

/-! ## Addresses -/

theorem address {w : Str} (h : SameHost E F w) : @parseAddress E w = @parseAddress F w := by
  rcases h with ⟨ip, h⟩ | h
  · have he := (@parseAddress_iff E w (.ip ip)).2 (by left; exact ⟨ip, h, rfl⟩)
    have hf := (@parseAddress_iff F w (.ip ip)).2 (by left; exact ⟨ip, h, rfl⟩)
    rw [he, hf]
  · unfold parseAddress hostParse
    rw [h]

theorem typed {t : AddressType} {w : Str} (h : SameHost E F w) : @typedTryFrom E t w = @typedTryFrom F t w := by
  unfold typedTryFrom; rw [address h]

theorem addrType {s : Str} (h : Fine E F s) : @parseAddrType E s = @parseAddrType F s := by
  unfold parseAddrType; rw [h.upper]

theorem networkType {s : Str} (h : Fine E F s) : @parseNetworkType E s = @parseNetworkType F s := by
  unfold parseNetworkType; rw [h.upper]

theorem addressType {s : Str} (h : Fine E F s) : @parseAddressType E s = @parseAddressType F s := by
  unfold parseAddressType; rw [h.upper, addrType h.of_upper]

/-! ## Attributes -/

theorem ssrcGroup {s : Str} (h : Fine E F s) : @parseSsrcGroup E s = @parseSsrcGroup F s := by
  unfold parseSsrcGroup
  cases hs : splitWs s with
  | nil => rfl
  | cons x ts =>
    have hx : Fine E F x := h.word (by rw [hs]; simp)
    have : @parseSsrcGroupSemantic E x = @parseSsrcGroupSemantic F x := by
      unfold parseSsrcGroupSemantic; dsimp only; rw [hx.upper, hx.of_upper.debug]
    simp only [this]

theorem group {s : Str} (h : Fine E F s) : @parseGroup E s = @parseGroup F s := by
  unfold parseGroup
  cases hs : splitWs s with
  | nil => rfl
  | cons x ts =>
    have hx : Fine E F x := h.word (by rw [hs]; simp)
    have : @parseGroupSemantic E x = @parseGroupSemantic F x := by
      unfold parseGroupSemantic; dsimp only; rw [hx.upper, hx.of_upper.debug]
    simp only [this]

theorem ext {c : Candidate} {n v : Str} (hn : Fine E F n) (hv : Fine E F v)
    (hh : @lower E n = c%"raddr" → SameHost E F v) : @candExt E c n v = @candExt F c n v := by
  unfold candExt
  have h1 : @parseCandTcpType E v = @parseCandTcpType F v := by unfold parseCandTcpType; rw [hv.lower]
  rw [hn.lower] at hh ⊢
  rw [h1]
  by_cases hr : @lower F n = c%"raddr"
  · simp only [hr, parseUnicastAddress, address (hh hr)]
  · simp only [hr, if_false]

theorem exts {ts : List Str} (hf : ∀ t ∈ ts, Fine E F t)
    (hh : ∀ pre n w post, ts = pre ++ n :: w :: post → @lower E n = c%"raddr" → SameHost E F w) :
    ∀ c, @candExts E c ts = @candExts F c ts := by
  induction ts using List.twoStepInduction with
  | nil => intro c; rfl
  | singleton x => intro c; rfl
  | cons_cons x y ts ih _ =>
    intro c
    simp only [candExts]
    refine bind2 (ext (hf x (by simp)) (hf y (by simp)) fun h => hh [] x y ts rfl h) fun c => ?_
    refine ih (fun t ht => hf t (by simp [ht])) (fun pre n w post e h => hh (x :: y :: pre) n w post (by simp [e]) h) c

theorem candidate {s : Str} (h : Fine E F s) (hh : ∀ w, @AttributeAddress E c%"candidate" s w → SameHost E F w) :
    @parseCandidate E s = @parseCandidate F s := by
  have hw : Words s (splitWs s) := words_iff.2 rfl
  have hm {i : Nat} {w : Str} (hi : (splitWs s)[i]? = some w) : Fine E F w := h.word (mem_of_get hi)
  unfold parseCandidate
  dsimp only
  split
  · rfl
  refine bindi fun t1 h1 => bindc fun _ => bindi fun t2 h2 => ?_
  have e2 : @parseCandTransport E t2 = @parseCandTransport F t2 := by unfold parseCandTransport; rw [(hm h2).lower]
  refine bind2 e2 fun _ => bindi fun t3 h3 => bindc fun _ => bindi fun t4 h4 => ?_
  refine bind2 (address (hh t4 ⟨_, hw, .inl ⟨rfl, .inl h4⟩⟩)) fun _ => bindi fun t5 h5 => bindc fun _ => ?_
  split
  · rfl
  refine bindi fun t6 h6 => ?_
  rw [(hm h6).lower]
  split
  · rfl
  refine bindi fun t7 h7 => ?_
  have e7 : @parseCandType E t7 = @parseCandType F t7 := by unfold parseCandType; rw [(hm h7).lower]
  refine bind2 e7 fun _ => bindc fun _ => bind2 (exts ?_ ?_ _) fun _ => rfl
  · exact fun t ht => h.word (List.drop_subset _ _ ht)
  · intro pre n w post e hr
    refine hh w ⟨_, hw, .inl ⟨rfl, .inr ⟨(splitWs s).take 8 ++ pre, n, post, ?_, ?_, hr⟩⟩⟩
    · rw [List.append_assoc, ← e, List.take_append_drop]
    · simp at *; omega

theorem remoteCandidates {s : Str} (hh : ∀ w, @AttributeAddress E c%"remote-candidates" s w → SameHost E F w) :
    @parseRemoteCandidates E s = @parseRemoteCandidates F s := by
  have hw : Words s (splitWs s) := words_iff.2 rfl
  unfold parseRemoteCandidates
  cases hs : splitWs s with
  | nil => rfl
  | cons t0 ts =>
    refine bindc fun _ => ?_
    cases ts with
    | nil => rfl
    | cons t1 ts => exact bind2 (address (hh t1 ⟨_, hw, .inr (.inl ⟨rfl, by simp [hs]⟩)⟩)) fun _ => rfl

theorem rtcp {s : Str} (h : Fine E F s) (hh : ∀ w, @AttributeAddress E c%"rtcp" s w → SameHost E F w) :
    @parseRtcp E s = @parseRtcp F s := by
  have hw : Words s (splitWs s) := words_iff.2 rfl
  unfold parseRtcp
  cases hs : splitWs s with
  | nil => rfl
  | cons t0 ts =>
    refine bindc fun _ => ?_
    cases ts with
    | nil => rfl
    | cons t1 ts =>
      refine bind2 (networkType (h.word (by rw [hs]; simp))) fun _ => ?_
      cases ts with
      | nil => rfl
      | cons t2 ts =>
        refine bind2 (addrType (h.word (by rw [hs]; simp))) fun _ => ?_
        cases ts with
        | nil => rfl
        | cons t3 ts => exact bind2 (typed (hh t3 ⟨_, hw, .inr (.inr ⟨rfl, by simp [hs]⟩)⟩)) fun _ => rfl

theorem extmap {s : Str} (h : Fine E F s) : @parseExtmap E s = @parseExtmap F s := by
  unfold parseExtmap
  dsimp only
  split
  · rfl
  refine bindi fun t0 h0 => bind2 ?_ fun _ => rfl
  unfold parseExtmapId
  split
  · rfl
  refine bindi fun a _ => bindc fun _ => bindi fun b hb => bind2 ?_ fun _ => rfl
  unfold parseExtmapDirection
  rw [((h.word (mem_of_get h0)).part (mem_of_get hb)).lower]

theorem param {p : FmtpParams} {t : Str} (h : Fine E F t) : @fmtpParam E p t = @fmtpParam F p t := by
  unfold fmtpParam
  dsimp only
  refine ite_congr rfl (fun _ => rfl) fun _ => ?_
  refine bindi fun a ha => bindc fun _ => ?_
  rw [(h.part (mem_of_get ha)).upper]

theorem params {ts : List Str} (h : ∀ t ∈ ts, Fine E F t) : ∀ p, @fmtpParamList E p ts = @fmtpParamList F p ts := by
  induction ts with
  | nil => intro p; rfl
  | cons t ts ih =>
    intro p
    exact bind2 (param (h t (by simp))) fun p => ih (fun t ht => h t (by simp [ht])) p

theorem blocks {ts : List Str} (h : ∀ t ∈ ts, Fine E F t) : ∀ p, @fmtpBlocks E p ts = @fmtpBlocks F p ts := by
  induction ts with
  | nil => intro p; rfl
  | cons t ts ih =>
    intro p
    refine bind2 ?_ fun p => ih (fun t ht => h t (by simp [ht])) p
    unfold fmtpBlock
    rw [params]
    exact fun u hu => (h t (by simp)).field (List.mem_filter.1 hu).1

theorem fmtp {s : Str} (h : Fine E F s) : @parseFmtp E s = @parseFmtp F s := by
  unfold parseFmtp
  dsimp only
  split
  · rfl
  refine bindc fun _ => bindk fun bs hbs => ?_
  unfold sliceFrom at hbs
  split at hbs
  · cases hbs
    exact bind2 (blocks (fun t ht => h.part (List.drop_subset _ _ ht)) _) fun _ => rfl
  · cases hbs

theorem rtcpFb {s : Str} (h : Fine E F s) : @parseRtcpFb E s = @parseRtcpFb F s := by
  have hm {i : Nat} {w : Str} (hi : (splitn 4 ' ' s)[i]? = some w) : Fine E F w := h.part (mem_of_get hi)
  unfold parseRtcpFb
  dsimp only
  refine bind2 ?_ fun ty => bind2 ?_ fun _ => rfl
  · unfold parseFbType
    cases h1 : (splitn 4 ' ' s)[1]? with
    | none => rfl
    | some x => simp only [(hm h1).debug]
  · unfold parseFbParam
    cases h2 : (splitn 4 ' ' s)[2]? with
    | none => rfl
    | some x => simp only [(hm h2).debug]

theorem sctpmap {s : Str} (h : Fine E F s) : @parseSctpmap E s = @parseSctpmap F s := by
  unfold parseSctpmap
  dsimp only
  split
  · rfl
  refine bindc fun _ => bindc fun _ => bindi fun t h1 => ?_
  rw [(h.word (mem_of_get h1)).lower]

theorem setup {s : Str} (h : Fine E F s) : @parseSetup E s = @parseSetup F s := by
  unfold parseSetup; rw [h.lower]

theorem versions {s : Str} (h : Fine E F s) : @parseVersionList E s = @parseVersionList F s := by
  unfold parseVersionList
  split
  · dsimp only
    cases h0 : (splitn 2 '=' s)[0]? with
    | none => rfl
    | some d =>
      show (if _ then _ else _) = (if _ then _ else _)
      rw [(h.part (mem_of_get h0)).debug]
  · rfl

theorem simulcast {s : Str} (h : Fine E F s) : @parseSimulcast E s = @parseSimulcast F s := by
  have hm {w : Str} (hi : w ∈ splitWs s) : Fine E F w := h.word hi
  unfold parseSimulcast
  cases hs : splitWs s with
  | nil => rfl
  | cons t0 ts =>
    refine bindc fun dir => ?_
    cases ts with
    | nil => rfl
    | cons t1 ts =>
      refine bind2 (versions (hm (by rw [hs]; simp))) fun _ => bind2 ?_ fun _ => rfl
      unfold parseSecondVersionList
      cases ts with
      | nil => rfl
      | cons t2 ts =>
        refine bindc fun _ => ?_
        split
        · rfl
        cases ts with
        | nil => rfl
        | cons t3 ts => exact versions (hm (by rw [hs]; simp))

theorem value {s : Str} {t : AttributeType} (h : Fine E F s)
    (hh : ∀ w, @AttributeAddress E t.name s w → SameHost E F w) : @parseAttrValue E t s = @parseAttrValue F t s := by
  cases t <;> unfold parseAttrValue <;> dsimp only
  case candidate => exact candidate h hh
  case remoteCandidate => exact remoteCandidates hh
  case rtcp => exact rtcp h hh
  case ssrcGroup => exact ssrcGroup h
  case group => exact group h
  case extmap => exact extmap h
  case fmtp => exact fmtp h
  case rtcpfb => exact rtcpFb h
  case sctpmap => exact sctpmap h
  case setup => exact setup h
  case simulcast => exact simulcast h

theorem attr {s : Str} (h : Fine E F s)
    (hh : ∀ w u, Stripped (behind ':' s) u → @AttributeAddress E (@lower E (upTo ':' s)) u w → SameHost E F w) :
    @attrFromStr E s = @attrFromStr F s := by
  have hl : @lower E (upTo ':' s) = @lower F (upTo ':' s) :=
    (h.sub fun c hc => List.takeWhile_subset _ hc).lower
  have hb : Fine E F (behind ':' s) := h.sub fun c hc => List.dropWhile_subset _ (List.drop_subset _ _ hc)
  unfold attrFromStr
  by_cases hc : ':' ∈ s
  · rw [split_upTo hc]
    refine bindi fun x hx => ?_
    cases hx
    simp only [List.getElem?_cons_zero, List.getElem?_cons_succ, hl]
    refine ite_congr rfl (fun _ => rfl) fun _ => ?_
    cases ht : attrTypeOfName (@lower F (upTo ':' s)) with
    | none => rfl
    | some t =>
      refine value hb.trim fun w hw => hh w _ (stripped_iff.2 rfl) ?_
      rwa [hl, attrTypeOfName_iff.1 ht]
  · rw [splitn_two_of_not_mem hc]
    rw [upTo_of_not_mem hc] at hl
    refine bindi fun x hx => ?_
    cases hx
    simp only [hl]
    refine ite_congr rfl (fun _ => rfl) fun _ => ?_
    cases ht : attrTypeOfName (@lower F s) with
    | none => rfl
    | some t =>
      refine value (.inl rfl) fun w hw => ?_
      obtain ⟨ts, hts, hw⟩ := hw
      rw [words_iff] at hts
      subst hts
      simp [splitWs, splitP] at hw

/-! ## Lines -/

theorem origin {s : Str} (h : Fine E F s) (hh : ∀ w, (∃ ts, Words s ts ∧ ts[5]? = some w) → SameHost E F w) :
    @parseOrigin E s = @parseOrigin F s := by
  have hw : Words s (splitWs s) := words_iff.2 rfl
  have hm {w : Str} (hi : w ∈ splitWs s) : Fine E F w := h.word hi
  unfold parseOrigin
  rcases hs : splitWs s with _ | ⟨t0, _ | ⟨t1, ts⟩⟩
  · rfl
  · rfl
  refine bindc fun _ => ?_
  rcases ts with _ | ⟨t2, ts⟩
  · rfl
  refine bindc fun _ => ?_
  rcases ts with _ | ⟨t3, ts⟩
  · rfl
  refine bind2 (networkType (hm (by rw [hs]; simp))) fun _ => ?_
  rcases ts with _ | ⟨t4, ts⟩
  · rfl
  refine bind2 (addressType (hm (by rw [hs]; simp))) fun _ => ?_
  rcases ts with _ | ⟨t5, ts⟩
  · rfl
  exact bind2 (typed (hh t5 ⟨_, hw, by rw [hs]; rfl⟩)) fun _ => rfl

theorem connection {s : Str} (h : Fine E F s)
    (hh : ∀ w, (∃ ts x, Words s ts ∧ ts[2]? = some x ∧ w = upTo '/' x) → SameHost E F w) :
    @parseConnection E s = @parseConnection F s := by
  have hw : Words s (splitWs s) := words_iff.2 rfl
  have hm {i : Nat} {w : Str} (hi : (splitWs s)[i]? = some w) : Fine E F w := h.word (mem_of_get hi)
  unfold parseConnection
  dsimp only
  split
  · rfl
  refine bindi fun t0 h0 => bind2 (networkType (hm h0)) fun _ => ?_
  refine bindi fun t1 h1 => bind2 (addressType (hm h1)) fun _ => ?_
  refine bindi fun t2 h2 => ?_
  have hs := hh (upTo '/' t2) ⟨_, t2, hw, h2, rfl⟩
  refine bindk fun a ha => ?_
  have : a.1 = upTo '/' t2 := by
    unfold parseConnAddr at ha
    split at ha
    · simp only [bind_eq_ok] at ha
      obtain ⟨_, _, _, _, _, _, x, hx, ha⟩ := ha
      cases ha
      unfold idx at hx
      rw [splitC_zero] at hx
      exact (Outcome.ok.inj hx).symm
    · rename_i hc
      cases ha
      rw [upTo_of_not_mem hc]
  rw [← this] at hs
  exact bind2 (typed hs) fun _ => rfl

theorem bandwidth {s : Str} (h : Fine E F s) : @parseBandwidth E s = @parseBandwidth F s := by
  unfold parseBandwidth
  dsimp only
  split
  · rfl
  refine bindi fun _ _ => bindc fun _ => bindi fun t ht => ?_
  rw [(h.field (mem_of_get ht)).upper]

theorem media {s : Str} (h : Fine E F s) : @parseMedia E s = @parseMedia F s := by
  unfold parseMedia
  dsimp only
  split
  · rfl
  refine bindi fun t ht => bind2 ?_ fun _ => bindi fun u hu => ?_
  · unfold parseMediaToken; rw [(h.word (mem_of_get ht)).lower]
  split
  · rfl
  refine bindc fun _ => ?_
  split
  · rfl
  refine bindc fun _ => bindi fun p hp => bind2 ?_ fun _ => rfl
  unfold parseProtocolToken; rw [(h.word (mem_of_get hp)).upper]

theorem line {s : Str} {n : Nat} (h : Fine E F s) (hh : ∀ w, @LineAddress E s w → SameHost E F w) :
    @parseSdpLine E s n = @parseSdpLine F s n := by
  have hv : Fine E F (behind '=' s) := h.sub fun c hc => List.dropWhile_subset _ (List.drop_subset _ _ hc)
  have ht : Fine E F (upTo '=' s) := h.sub fun c hc => List.takeWhile_subset _ hc
  unfold parseSdpLine
  dsimp only
  split
  · rfl
  rename_i hc
  rw [split_upTo (by simpa using hc)]
  dsimp only
  rw [ht.trim.lower]
  split
  · rfl
  split
  · rfl
  split
  · rfl
  have key : @parseLineValue E (@lower F (trim (upTo '=' s))) (trim (behind '=' s)) (behind '=' s) =
      @parseLineValue F (@lower F (trim (upTo '=' s))) (trim (behind '=' s)) (behind '=' s) := by
    have hh' : ∀ w, _ → SameHost E F w := fun w hw =>
      hh w ⟨_, _, stripped_iff.2 rfl, stripped_iff.2 rfl, by rw [ht.trim.lower]; exact hw⟩
    generalize @lower F (trim (upTo '=' s)) = ty at *
    unfold parseLineValue
    refine ite_congr rfl (fun e => ?_) fun _ => ?_
    · unfold parseAttribute
      refine bind2 (attr hv.trim.trim fun w u hu hw => hh' w (.inr (.inr ⟨e, u, ?_, ?_⟩))) fun _ => rfl
      · rwa [trim_trim] at hu
      · rwa [trim_trim] at hw
    refine ite_congr rfl (fun _ => bandwidth hv.trim) fun _ => ?_
    refine ite_congr rfl (fun e => connection hv.trim fun w hw => hh' w (.inr (.inl ⟨e, hw⟩))) fun _ => ?_
    refine ite_congr rfl (fun _ => rfl) fun _ => ?_
    refine ite_congr rfl (fun _ => rfl) fun _ => ?_
    refine ite_congr rfl (fun _ => rfl) fun _ => ?_
    refine ite_congr rfl (fun _ => media hv.trim) fun _ => ?_
    refine ite_congr rfl (fun e => origin hv.trim fun w hw => hh' w (.inl ⟨e, hw⟩)) fun _ => ?_
    rfl
  rw [key]

theorem scan {ls : List Str} (hf : ∀ l ∈ ls, Fine E F l) (hh : ∀ l ∈ ls, ∀ w, @LineAddress E l w → SameHost E F w) :
    ∀ n sc, @scanLines E n ls sc = @scanLines F n ls sc := by
  induction ls with
  | nil => intro n sc; rfl
  | cons l ls ih =>
    intro n sc
    have ih := ih (fun l hl => hf l (by simp [hl])) fun l hl => hh l (by simp [hl])
    unfold scanLines
    rw [line (hf l (by simp)) (hh l (by simp))]
    simp only [ih]

theorem text {s : Str} {f : Bool} (h : Fine E F s) (hh : ∀ l ∈ lines s, ∀ w, @LineAddress E l w → SameHost E F w) :
    @parseSdp E s f = @parseSdp F s f := by
  unfold parseSdp
  rw [scan ?_ hh]
  intro l hl
  obtain ⟨u, hu, hs⟩ := linesGo_sub hl
  exact (h.field hu).sub hs

end Sdp.World
