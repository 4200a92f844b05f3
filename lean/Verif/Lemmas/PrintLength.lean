import Verif.Spec.Size
import Verif.Lemmas.FloatLength
import Verif.Lemmas.Ip
/-!
# How long the text of a value can be, compared with its size
-/

namespace Sdp

theorem u8_length (n : UInt8) : (showU8 n).length ≤ 3 :=
  Nat.toDigits_length 10 _ _ (by omega) (by have := n.toNat_lt; omega)
theorem u16_length (n : UInt16) : (showU16 n).length ≤ 5 :=
  Nat.toDigits_length 10 _ _ (by omega) (by have := n.toNat_lt; omega)
theorem u32_length (n : UInt32) : (showU32 n).length ≤ 10 :=
  Nat.toDigits_length 10 _ _ (by omega) (by have := n.toNat_lt; omega)
theorem u64_length (n : UInt64) : (showU64 n).length ≤ 20 :=
  Nat.toDigits_length 10 _ _ (by omega) (by have := n.toNat_lt; omega)

theorem hex32_length (n : UInt32) : (showHexPad 6 n.toNat).length ≤ 8 := by
  have : (Nat.toDigits 16 n.toNat).length ≤ 8 := Nat.toDigits_length 16 _ _ (by omega) (by have := n.toNat_lt; omega)
  simp only [showHexPad, padLeft, List.length_append, List.length_replicate]; omega

theorem joinS_length (sep : Str) (l : List Str) :
    (joinS sep l).length ≤ (l.map fun t => t.length + sep.length).sum := by
  induction l with
  | nil => simp [joinS]
  | cons x xs ih =>
    cases xs with
    | nil => simp [joinS]
    | cons y ys => simp only [joinS, List.length_append, List.map_cons, List.sum_cons] at *; omega

theorem sum_le_mul {α : Type} {K : Nat} {f g : α → Nat} (h : ∀ a, f a ≤ K * g a) (l : List α) :
    (l.map f).sum ≤ K * (l.map g).sum := by
  induction l with
  | nil => simp
  | cons a l ih =>
    have := h a
    simp only [List.map_cons, List.sum_cons, Nat.mul_add]; omega

theorem sum_le_length {α : Type} {K : Nat} {f : α → Nat} (l : List α) (h : ∀ a ∈ l, f a ≤ K) : (l.map f).sum ≤ K * l.length := by
  induction l with
  | nil => simp
  | cons a l ih =>
    have h1 := h a (by simp)
    have h2 := ih fun x hx => h x (by simp [hx])
    simp only [List.map_cons, List.sum_cons, List.length_cons, Nat.mul_add]; omega

theorem filter_sum_le {α : Type} (p : α → Bool) (f : α → Nat) (l : List α) : ((l.filter p).map f).sum ≤ (l.map f).sum := by
  induction l with
  | nil => simp
  | cons a l ih =>
    rw [List.filter_cons]
    split <;> simp only [List.map_cons, List.sum_cons] <;> omega

theorem join_filter_length (sep : Str) (p : Str → Bool) (l : List Str) :
    (joinS sep (l.filter p)).length ≤ (l.map fun t => t.length + sep.length).sum :=
  (joinS_length _ _).trans (filter_sum_le _ _ _)

theorem nonEmpty_length (sep : Str) (l : List Str) :
    (joinS sep (nonEmpty l)).length ≤ (l.map fun t => t.length + sep.length).sum := join_filter_length _ _ _

theorem maybeVec_length (pre post sep : Str) (l : List Str) :
    (maybeVec pre post sep l).length ≤ pre.length + post.length + (l.map fun t => t.length + sep.length).sum := by
  unfold maybeVec
  split
  · simp
  · have := join_filter_length sep (fun s => !s.isEmpty) l
    simp only [List.length_append]; omega

theorem texts_one (l : List Str) : (l.map fun t => t.length + 1).sum = textsSize l := rfl

theorem optStr_length {α : Type} (pre : Str) {sh : α → Str} {k : Nat} (h : ∀ x, (sh x).length ≤ k) (o : Option α) :
    (optStr pre sh o).length ≤ pre.length + k := by
  cases o with
  | none => simp [optStr]
  | some x => have := h x; simp only [optStr, List.length_append]; omega

theorem optText_length (pre : Str) (o : Option Str) :
    (optStr pre id o).length ≤ pre.length + textsSize o.toList := by
  cases o with
  | none => simp [optStr]
  | some x => simp [optStr, textsSize]

theorem param_length (name : Str) (v d : UInt32) : (maybeParam name v d).length ≤ name.length + 10 := by
  have := u32_length v
  unfold maybeParam
  split
  · simp only [List.length_append]; unfold showU32 at this; omega
  · simp

theorem bool_length (name : Str) (v d : Bool) : (maybeBool name v d).length ≤ name.length + 2 := by
  cases v <;> cases d <;> simp [maybeBool, showNat, Nat.toDigits, Nat.toDigitsCore]

theorem joinS_exact (c : Char) {l : List Str} (h : l ≠ []) : (joinS [c] l).length + 1 = (l.map fun t => t.length + 1).sum := by
  induction l with
  | nil => exact absurd rfl h
  | cons x xs ih =>
    cases xs with
    | nil => simp [joinS]
    | cons y ys =>
      have := ih (by simp)
      simp only [joinS, List.length_append, List.map_cons, List.sum_cons, List.length_cons, List.length_nil] at *; omega

theorem v4_length (a : UInt32) : (showV4 a).length ≤ 15 := by
  have h1 := joinS_exact '.' (l := (octets a).map showNat) (by simp [octets])
  rw [List.map_map] at h1
  have h2 := sum_le_length (K := 4) (f := (fun t : Str => t.length + 1) ∘ showNat) (octets a) fun n hn => by
    have h : n < 256 := by
      have := a.toNat_lt
      simp [octets] at hn
      omega
    have := Nat.toDigits_length 10 n 3 (by omega) (by omega)
    simp only [Function.comp, showNat]
    omega
  have h3 : (octets a).length = 4 := rfl
  unfold showV4
  omega

theorem segs_length {l : List Nat} (h : ∀ n ∈ l, n < 65536) (h0 : l ≠ []) : (showSegs l).length + 1 ≤ 5 * l.length := by
  have h1 := joinS_exact ':' (l := l.map (Nat.toDigits 16)) (by simpa using h0)
  rw [List.map_map] at h1
  have h2 := sum_le_length (K := 5) (f := (fun t : Str => t.length + 1) ∘ Nat.toDigits 16) l fun n hn => by
    have := length_toDigits_sixteen (h n hn)
    simp only [Function.comp]; omega
  unfold showSegs
  omega

theorem segs_length' {l : List Nat} (h : ∀ n ∈ l, n < 65536) : (showSegs l).length ≤ 5 * l.length := by
  by_cases h0 : l = []
  · subst h0; simp [showSegs, joinS]
  · have := segs_length h h0; omega

theorem ip_length (a : IpAddr) : (showIp a).length ≤ 39 := by
  cases a with
  | v4 a => have := v4_length a; simp only [showIp]; omega
  | v6 a =>
    have hs : ∀ n ∈ segments a, n < 65536 := by
      intro n hn
      simp [segments] at hn
      omega
    have hl : (segments a).length = 8 := by simp [segments]
    have hz := (zeroRun (segments a)).1
    simp only [showIp, showV6]
    split
    · generalize UInt32.ofNat (a.toNat % 2 ^ 32) = x
      have := v4_length x
      simp only [List.length_append]; simp; omega
    · split
      · rename_i hb
        generalize zeroScan 0 (segments a) ⟨0, 0, 0, 0⟩ = z at *
        have h1 := segs_length' (l := (segments a).take z.bestStart) fun n hn => hs n (List.mem_of_mem_take hn)
        have h2 := segs_length' (l := (segments a).drop (z.bestStart + z.bestLen)) fun n hn => hs n (List.mem_of_mem_drop hn)
        simp only [List.length_take, List.length_drop, hl] at h1 h2
        simp only [List.length_append]; simp; omega
      · have := segs_length hs (by intro h; simp [h] at hl)
        omega

section
variable {w : Str → Nat} (hw : ∀ d, d.length ≤ 500 * w d)
include hw

theorem address_length (a : Address) : (showAddress a).length ≤ 82 + 500 * a.size w := by
  cases a with
  | fqdn d => have := hw d; simp only [showAddress, Address.size]; omega
  | ip a => have := ip_length a; simp only [showAddress, Address.size]; omega

theorem typed_length (a : TypedAddress) : (showTyped a).length ≤ 89 + 500 * a.size w := by
  have ht : ∀ t, (showAddressType t).length = 3 := by intro t; cases t <;> rfl
  cases a with
  | fqdn t d => have := hw d; simp only [showTyped, TypedAddress.size, List.length_append, ht]; simp; omega
  | ip a => have := ip_length a; simp only [showTyped, TypedAddress.size, List.length_append, ht]; simp; omega

theorem candidate_length (c : Candidate) : (showCandidate c).length + 20 ≤ 500 * (c.size w + 1) := by
  have h1 := u32_length c.component
  have h2 : (showCandTransport c.transport).length ≤ 3 := by cases c.transport <;> simp [showCandTransport]
  have h3 := u64_length c.priority
  have h4 := address_length hw c.address
  have h5 := u32_length c.port
  have h6 : (showCandType c.cType).length ≤ 5 := by cases c.cType <;> simp [showCandType]
  have h7 : (optStr c%" raddr " showAddress c.raddr).length ≤ 89 + 500 * (c.raddr.toList.map (Address.size w)).sum := by
    cases c.raddr with
    | none => simp [optStr]
    | some a => have := address_length hw a; simp [optStr]; omega
  have h8 := optStr_length c%" rport " u32_length c.rport
  have h9 := optStr_length c%" tcptype " (sh := showCandTcpType) (k := 7) (fun x => by cases x <;> simp [showCandTcpType]) c.tcpType
  have h10 := optStr_length c%" generation " u32_length c.generation
  have h11 := optText_length c%" ufrag " c.ufrag
  have h12 := optStr_length c%" network-cost " u32_length c.networkcost
  have h13 : (showExts c.unknownExtensions).length ≤ textsSize (c.unknownExtensions.flatMap fun p => [p.1, p.2]) := by
    induction c.unknownExtensions with
    | nil => simp [showExts, textsSize]
    | cons p l ih =>
      obtain ⟨a, b⟩ := p
      simp [showExts, textsSize] at ih ⊢; omega
  have e : showCandidate c = c.foundation ++ c%" " ++ showU32 c.component ++ c%" " ++ showCandTransport c.transport ++ c%" "
    ++ showU64 c.priority ++ c%" " ++ showAddress c.address ++ c%" " ++ showU32 c.port ++ c%" typ "
    ++ showCandType c.cType
    ++ optStr c%" raddr " showAddress c.raddr
    ++ optStr c%" rport " showU32 c.rport
    ++ optStr c%" tcptype " showCandTcpType c.tcpType
    ++ optStr c%" generation " showU32 c.generation
    ++ optStr c%" ufrag " id c.ufrag
    ++ optStr c%" network-cost " showU32 c.networkcost
    ++ showExts c.unknownExtensions := rfl
  rw [e]
  unfold Candidate.size
  generalize optStr c%" raddr " showAddress c.raddr = x1 at *
  generalize optStr c%" rport " showU32 c.rport = x2 at *
  generalize optStr c%" tcptype " showCandTcpType c.tcpType = x3 at *
  generalize optStr c%" generation " showU32 c.generation = x4 at *
  generalize optStr c%" ufrag " id c.ufrag = x5 at *
  generalize optStr c%" network-cost " showU32 c.networkcost = x6 at *
  simp only [List.length_append, List.length_cons, List.length_nil] at *
  omega

omit hw in
theorem payload_length (p : PayloadType) : (showPayloadType p).length ≤ 3 := by
  cases p with
  | pt n => exact u8_length n
  | wildcard => simp [showPayloadType]

omit hw in
theorem discrete_length {α : Type} {sh : α → Str} {k : Nat} (h : ∀ x, (sh x).length ≤ k) (l : List α) :
    (showDiscrete sh l).length ≤ 2 + (k + 1) * l.length := by
  unfold showDiscrete
  split
  · rename_i x; have := h x; simp; omega
  · have h1 := joinS_length c%"," (l.map sh)
    rw [List.map_map] at h1
    have h2 := sum_le_length (K := k + 1) (f := (fun t : Str => t.length + (c%",").length) ∘ sh) l fun x _ => by
      have := h x; simp; omega
    simp only [List.length_append]; simp; omega

omit hw in
theorem xy_length (x : XyRange) : (showXyRange x).length ≤ 36 + 11 * x.size := by
  cases x with
  | range a b s =>
    have h1 := u32_length a
    have h2 := u32_length b
    cases s with
    | none => simp [showXyRange, XyRange.size]; omega
    | some s => have h3 := u32_length s; simp [showXyRange, XyRange.size]; omega
  | discrete l => have := discrete_length u32_length l; simp only [showXyRange, XyRange.size]; omega

omit hw in
theorem sar_length (x : SRange) : (showSRange x).length ≤ 115 + 57 * x.size := by
  cases x with
  | range a b =>
    have h1 := F32.text_length a
    have h2 := F32.text_length b
    simp [showSRange, SRange.size]; omega
  | discrete l => have := discrete_length F32.text_length l; simp only [showSRange, SRange.size]; omega

omit hw in
theorem par_length (x : PRange) : (showPRange x).length ≤ 115 := by
  have h1 := F32.text_length x.min
  have h2 := F32.text_length x.max
  simp [showPRange]; omega

omit hw in
theorem imageSet_length (s : ImageAttrSet) : (showImageAttrSet s).length + 1 ≤ 500 * s.size := by
  have h1 := xy_length s.x
  have h2 := xy_length s.y
  have h3 : (optStr c%",sar=" showSRange s.sar).length ≤ 120 + 57 * (s.sar.toList.map SRange.size).sum := by
    cases s.sar with
    | none => simp [optStr]
    | some a => have := sar_length a; simp [optStr]; omega
  have h4 := optStr_length c%",par=" par_length s.par
  have h5 := optStr_length c%",q=" F32.text_length s.q
  simp only [showImageAttrSet, ImageAttrSet.size, List.length_append, List.length_cons, List.length_nil] at *
  omega

omit hw in
theorem imageSets_length (l : ImageAttrSetList) : (showImageAttrSetList l).length ≤ 1 + 500 * l.size := by
  cases l with
  | wildcard => simp [showImageAttrSetList]
  | sets l =>
    have h1 := joinS_length c%" " (l.map showImageAttrSet)
    rw [List.map_map] at h1
    have h2 := sum_le_mul (K := 500) (f := (fun t : Str => t.length + (c%" ").length) ∘ showImageAttrSet)
      (g := ImageAttrSet.size) (fun s => by have := imageSet_length s; simpa using this) l
    simp only [showImageAttrSetList, ImageAttrSetList.size]; omega

omit hw in
theorem maybeSets_length (pre : Str) (l : ImageAttrSetList) :
    (optStr pre showImageAttrSetList (maybeSets l)).length ≤ pre.length + 1 + 500 * l.size := by
  unfold maybeSets
  split
  · simp [optStr]
  · have := imageSets_length l
    simp only [optStr, List.length_append]; omega

omit hw in
/-- All parameters of a codec except those that were not recognized -/
theorem pieces_length (p : FmtpParams) (x : Str) (hx : x ∈ (fmtpPieces p).take 21) : x.length ≤ 30 := by
  have q1 : (maybeParamS c%"profile-level-id=" (showHexPad 6 p.profileLevelId.toNat) c%"42000a").length ≤ 25 := by
    have := hex32_length p.profileLevelId
    unfold maybeParamS
    split <;> simp; omega
  have q2 : (maybeBool c%"level-asymmetry-allowed" p.levelAsymmetryAllowed false).length ≤ 25 := bool_length c%"level-asymmetry-allowed" p.levelAsymmetryAllowed false
  have q3 : (maybeParam c%"packetization-mode=" p.packetizationMode 0).length ≤ 29 := param_length c%"packetization-mode=" p.packetizationMode 0
  have q4 : (maybeParam c%"max-fs=" p.maxFs 0).length ≤ 17 := param_length c%"max-fs=" p.maxFs 0
  have q5 : (maybeParam c%"max-cpb=" p.maxCpb 0).length ≤ 18 := param_length c%"max-cpb=" p.maxCpb 0
  have q6 : (maybeParam c%"max-dpb=" p.maxDpb 0).length ≤ 18 := param_length c%"max-dpb=" p.maxDpb 0
  have q7 : (maybeParam c%"max-br=" p.maxBr 0).length ≤ 17 := param_length c%"max-br=" p.maxBr 0
  have q8 : (maybeParam c%"max-mbps=" p.maxMbps 0).length ≤ 19 := param_length c%"max-mbps=" p.maxMbps 0
  have q9 : (maybeParam c%"max-fr=" p.maxFr 0).length ≤ 17 := param_length c%"max-fr=" p.maxFr 0
  have q10 : (optStr c%"profile=" showU8 p.profile).length ≤ 11 := optStr_length c%"profile=" u8_length p.profile
  have q11 : (optStr c%"level-idx=" showU8 p.levelIdx).length ≤ 13 := optStr_length c%"level-idx=" u8_length p.levelIdx
  have q12 : (optStr c%"tier=" showU8 p.tier).length ≤ 8 := optStr_length c%"tier=" u8_length p.tier
  have q13 : (maybeParam c%"maxplaybackrate=" p.maxplaybackrate 48000).length ≤ 26 := param_length c%"maxplaybackrate=" p.maxplaybackrate 48000
  have q14 : (maybeParam c%"maxaveragebitrate=" p.maxaveragebitrate 0).length ≤ 28 := param_length c%"maxaveragebitrate=" p.maxaveragebitrate 0
  have q15 : (maybeParam c%"ptime=" p.ptime 0).length ≤ 16 := param_length c%"ptime=" p.ptime 0
  have q16 : (maybeParam c%"minptime=" p.minptime 0).length ≤ 19 := param_length c%"minptime=" p.minptime 0
  have q17 : (maybeParam c%"maxptime=" p.maxptime 0).length ≤ 19 := param_length c%"maxptime=" p.maxptime 0
  have q18 : (maybeBool c%"usedtx" p.usedtx false).length ≤ 8 := bool_length c%"usedtx" p.usedtx false
  have q19 : (maybeBool c%"stereo" p.stereo false).length ≤ 8 := bool_length c%"stereo" p.stereo false
  have q20 : (maybeBool c%"useinbandfec" p.useinbandfec false).length ≤ 14 := bool_length c%"useinbandfec" p.useinbandfec false
  have q21 : (maybeBool c%"cbr" p.cbr false).length ≤ 5 := bool_length c%"cbr" p.cbr false
  simp only [fmtpPieces, List.take_succ_cons, List.take_zero, List.mem_cons, List.not_mem_nil, or_false] at hx
  rcases hx with h | h | h | h | h | h | h | h | h | h | h | h | h | h | h | h | h | h | h | h | h
  · rw [h]; exact q1.trans (by decide)
  · rw [h]; exact q2.trans (by decide)
  · rw [h]; exact q3.trans (by decide)
  · rw [h]; exact q4.trans (by decide)
  · rw [h]; exact q5.trans (by decide)
  · rw [h]; exact q6.trans (by decide)
  · rw [h]; exact q7.trans (by decide)
  · rw [h]; exact q8.trans (by decide)
  · rw [h]; exact q9.trans (by decide)
  · rw [h]; exact q10.trans (by decide)
  · rw [h]; exact q11.trans (by decide)
  · rw [h]; exact q12.trans (by decide)
  · rw [h]; exact q13.trans (by decide)
  · rw [h]; exact q14.trans (by decide)
  · rw [h]; exact q15.trans (by decide)
  · rw [h]; exact q16.trans (by decide)
  · rw [h]; exact q17.trans (by decide)
  · rw [h]; exact q18.trans (by decide)
  · rw [h]; exact q19.trans (by decide)
  · rw [h]; exact q20.trans (by decide)
  · rw [h]; exact q21.trans (by decide)

omit hw in
theorem fmtp_length (f : Fmtp) :
    (showFmtp f).length + 20 ≤ 500 * (textsSize (f.parameters.dtmfTones :: f.parameters.unknownTokens) +
      f.parameters.encodings.length + 1) := by
  have h1 := u8_length f.payloadType
  have hp : (showFmtpParams f.parameters).length ≤ 900 + (textsSize (f.parameters.dtmfTones :: f.parameters.unknownTokens) +
      4 * f.parameters.encodings.length) := by
    generalize f.parameters = p
    unfold showFmtpParams
    split
    · rename_i r _
      have h2 := u8_length r.apt
      unfold showRtx
      split
      · rename_i t _
        have h3 := u32_length t
        simp; omega
      · simp; omega
    · split
      · simp [textsSize]; omega
      · split
        · have h1 := joinS_length c%"/" (p.encodings.map showU8)
          rw [List.map_map] at h1
          have h2 := sum_le_length (K := 4) (f := (fun t : Str => t.length + (c%"/").length) ∘ showU8) p.encodings fun x _ => by
            have := u8_length x; simp; omega
          omega
        · refine (nonEmpty_length _ _).trans ?_
          have h1 := sum_le_length (K := 31) (f := fun t : Str => t.length + (c%";").length) ((fmtpPieces p).take 21)
            fun x hx => Nat.succ_le_succ (pieces_length p x hx)
          have q22 : (maybeVec [] [] c%"," p.unknownTokens).length ≤ textsSize p.unknownTokens := by
            have := maybeVec_length [] [] c%"," p.unknownTokens
            simpa [textsSize] using this
          have q24 : textsSize (p.dtmfTones :: p.unknownTokens) = p.dtmfTones.length + 1 + textsSize p.unknownTokens := by
            simp [textsSize]
          have e : fmtpPieces p = (fmtpPieces p).take 21 ++ [maybeVec [] [] c%"," p.unknownTokens] := rfl
          have el : ((fmtpPieces p).take 21).length = 21 := rfl
          rw [el] at h1
          rw [q24, e, List.map_append, List.sum_append]
          generalize (((fmtpPieces p).take 21).map fun t => t.length + (c%";").length).sum = X at *
          simp only [List.map_cons, List.map_nil, List.sum_cons, List.sum_nil, List.length_cons, List.length_nil]
          omega
  have hz : 1 ≤ textsSize (f.parameters.dtmfTones :: f.parameters.unknownTokens) := by simp [textsSize]; omega
  unfold showFmtp
  simp only
  split
  · simp; omega
  · simp only [List.length_append, List.length_cons, List.length_nil]; omega

omit hw in
theorem rid_length (r : Rid) :
    (showRid r).length + 20 ≤ 500 * (textsSize (r.id :: (r.params.unknown ++ r.depends)) + r.formats.length + 1) := by
  have h0 : (showSingleDirection r.direction).length = 4 := by cases r.direction <;> rfl
  have hp : (showRidParams r.params).length ≤ 200 + textsSize r.params.unknown := by
    refine (nonEmpty_length _ _).trans ?_
    have q1 := param_length c%"max-width=" r.params.maxWidth 0
    have q2 := param_length c%"max-height=" r.params.maxHeight 0
    have q3 := param_length c%"max-fps=" r.params.maxFps 0
    have q4 := param_length c%"max-fs=" r.params.maxFs 0
    have q5 := param_length c%"max-br=" r.params.maxBr 0
    have q6 := param_length c%"max-pps=" r.params.maxPps 0
    have q7 := maybeVec_length [] [] c%";" r.params.unknown
    have q8 : (r.params.unknown.map fun t => t.length + (c%";").length).sum = textsSize r.params.unknown := rfl
    rw [q8] at q7
    simp only [List.map_cons, List.map_nil, List.sum_cons, List.sum_nil, List.length_cons, List.length_nil] at *
    omega
  have hf := maybeVec_length c%"pt=" [] c%"," (r.formats.map showU16)
  rw [List.map_map] at hf
  have hf2 := sum_le_length (K := 6) (f := (fun t : Str => t.length + (c%",").length) ∘ showU16) r.formats fun x _ => by
    have := u16_length x; simp; omega
  have hd := maybeVec_length c%"depends=" [] c%"," r.depends
  have q8 : (r.depends.map fun t => t.length + (c%",").length).sum = textsSize r.depends := rfl
  rw [q8] at hd
  have hj := nonEmpty_length c%";" [maybeVec c%"pt=" [] c%"," (r.formats.map showU16), showRidParams r.params,
    maybeVec c%"depends=" [] c%"," r.depends]
  have hs : textsSize (r.id :: (r.params.unknown ++ r.depends)) =
      r.id.length + 1 + (textsSize r.params.unknown + textsSize r.depends) := by simp [textsSize]
  unfold showRid
  rw [hs]
  generalize joinS c%";" (nonEmpty [maybeVec c%"pt=" [] c%"," (r.formats.map showU16), showRidParams r.params,
    maybeVec c%"depends=" [] c%"," r.depends]) = j at *
  simp only [List.map_cons, List.map_nil, List.sum_cons, List.sum_nil, List.length_cons, List.length_nil] at *
  cases j with
  | nil => simp only [List.length_append, List.length_cons, List.length_nil] at *; omega
  | cons x j => simp only [List.length_append, List.length_cons, List.length_nil] at *; omega

omit hw in
theorem versions_length (pre : Str) (l : List SimulcastVersion) :
    (maybeVec pre [] c%";" (l.map showSimulcastVersion)).length ≤ pre.length + 500 * (l.map SimulcastVersion.size).sum := by
  have hv (v : SimulcastVersion) : (showSimulcastVersion v).length ≤ 2 * v.size := by
    refine (joinS_length _ _).trans ?_
    rw [List.map_map]
    have := sum_le_mul (K := 2) (f := (fun t : Str => t.length + (c%",").length) ∘ showSimulcastId)
      (g := fun i => i.id.length + 1) (fun i => by
        simp only [Function.comp, showSimulcastId, List.length_append]
        split <;> simp <;> omega) v.ids
    unfold SimulcastVersion.size textsSize
    rw [List.map_map]
    exact this
  have h2 : (((l.map showSimulcastVersion).filter fun s => !s.isEmpty).map fun t => t.length + (c%";").length).sum ≤
      500 * (l.map SimulcastVersion.size).sum := by
    induction l with
    | nil => simp
    | cons v l ih =>
      have := hv v
      rw [List.map_cons, List.filter_cons]
      split
      · rename_i hne
        have hpos : 0 < (showSimulcastVersion v).length := by
          rw [List.length_pos_iff]
          intro h; simp [h] at hne
        simp only [List.map_cons, List.sum_cons, List.length_cons, List.length_nil] at ih ⊢
        omega
      · simp only [List.map_cons, List.sum_cons] at ih ⊢
        omega
  have h1 := joinS_length c%";" ((l.map showSimulcastVersion).filter fun s => !s.isEmpty)
  unfold maybeVec
  split
  · simp
  · simp only [List.length_append, List.length_nil]
    omega

end

end Sdp
