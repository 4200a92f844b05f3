import Verif.Spec.Recase
import Verif.Lemmas.Meaning
import Verif.Lemmas.Dispatch
import Verif.Lemmas.Fmtp
/-!
# The case of keywords
-/

namespace Sdp

/-! ## Letters -/

theorem char_ofNat_toNat {n : Nat} (h : n < 128) : (Char.ofNat n).toNat = n := by
  have : n.isValidChar := Or.inl (by omega)
  simp [Char.ofNat, this, Char.toNat, Char.ofNatAux]

theorem asciiLower_toNat (c : Char) :
    (asciiLower c).toNat = if 65 ≤ c.toNat ∧ c.toNat ≤ 90 then c.toNat + 32 else c.toNat := by
  unfold asciiLower
  by_cases h : 65 ≤ c.toNat ∧ c.toNat ≤ 90
  · rw [if_pos (by simpa using h), if_pos h, char_ofNat_toNat (by omega)]
  · rw [if_neg (by simpa using h), if_neg h]

theorem asciiUpper_toNat (c : Char) :
    (asciiUpper c).toNat = if 97 ≤ c.toNat ∧ c.toNat ≤ 122 then c.toNat - 32 else c.toNat := by
  unfold asciiUpper
  by_cases h : 97 ≤ c.toNat ∧ c.toNat ≤ 122
  · rw [if_pos (by simpa using h), if_pos h, char_ofNat_toNat (by omega)]
  · rw [if_neg (by simpa using h), if_neg h]

theorem char_ext {a b : Char} (h : a.toNat = b.toNat) : a = b := Char.ext (UInt32.toNat_inj.1 h)

theorem asciiUpper_lower (c : Char) : asciiUpper (asciiLower c) = asciiUpper c := by
  apply char_ext
  rw [asciiUpper_toNat, asciiUpper_toNat, asciiLower_toNat]
  split_ifs <;> omega

theorem isWs_lower (c : Char) : isWs (asciiLower c) = isWs c := by
  have h := asciiLower_toNat c
  by_cases hc : 65 ≤ c.toNat ∧ c.toNat ≤ 90
  · rw [if_pos hc] at h
    unfold isWs
    simp only [h]
    rw [Bool.eq_iff_iff]
    simp
    omega
  · rw [if_neg hc] at h
    rw [char_ext h]

theorem utf8Size_one {c : Char} : c.utf8Size = 1 ↔ c.toNat < 128 := by
  rw [Char.utf8Size_eq_one_iff, UInt32.le_iff_toNat_le]
  change c.toNat ≤ 127 ↔ _
  omega

theorem utf8Size_lower (c : Char) : (asciiLower c).utf8Size = c.utf8Size := by
  have h := asciiLower_toNat c
  by_cases hc : 65 ≤ c.toNat ∧ c.toNat ≤ 90
  · rw [if_pos hc] at h
    have e1 : c.utf8Size = 1 := utf8Size_one.2 (by omega)
    have e2 : (asciiLower c).utf8Size = 1 := utf8Size_one.2 (by omega)
    rw [e1, e2]
  · rw [if_neg hc] at h
    rw [char_ext h]

theorem lower_eq_of_not_letter {c d : Char} (hd : ¬ (97 ≤ d.toNat ∧ d.toNat ≤ 122)) (h : asciiLower c = d) :
    c = d := by
  have := asciiLower_toNat c
  rw [h] at this
  split_ifs at this
  · omega
  · exact (char_ext this).symm

theorem SameLetters.refl (a : Str) : SameLetters a a := rfl
theorem SameLetters.symm {a b : Str} (h : SameLetters a b) : SameLetters b a := Eq.symm h

theorem SameLetters.length {a b : Str} (h : SameLetters a b) : a.length = b.length := by
  have := congrArg List.length h; simpa using this

/-- A character that is no letter stays where it is. -/
theorem SameLetters.mem {a b : Str} (h : SameLetters a b) {d : Char} (hd : asciiLower d = d)
    (hn : ¬ (97 ≤ d.toNat ∧ d.toNat ≤ 122)) (hm : d ∈ a) : d ∈ b := by
  have : d ∈ b.map asciiLower := by
    rw [← (show a.map asciiLower = b.map asciiLower from h)]
    exact List.mem_map.2 ⟨d, hm, hd⟩
  obtain ⟨c, hc, e⟩ := List.mem_map.1 this
  rw [← lower_eq_of_not_letter hn e]; exact hc

theorem SameLetters.not_mem {a b : Str} (h : SameLetters a b) {d : Char} (hd : asciiLower d = d)
    (hn : ¬ (97 ≤ d.toNat ∧ d.toNat ≤ 122)) (hm : d ∉ a) : d ∉ b :=
  fun hb => hm (h.symm.mem hd hn hb)

theorem isAscii_map_lower (a : Str) : isAscii (a.map asciiLower) = isAscii a := by
  unfold isAscii
  rw [List.all_map]
  congr 1
  funext c
  have := asciiLower_toNat c
  simp only [Function.comp]
  rw [Bool.eq_iff_iff, decide_eq_true_eq, decide_eq_true_eq]
  split_ifs at this <;> omega

theorem SameLetters.ascii {a b : Str} (h : SameLetters a b) : isAscii a = isAscii b := by
  rw [← isAscii_map_lower a, ← isAscii_map_lower b, h]

theorem dropWhile_ws_lower (a : Str) : (a.map asciiLower).dropWhile isWs = (a.dropWhile isWs).map asciiLower := by
  induction a with
  | nil => rfl
  | cons c a ih =>
    simp only [List.map_cons, List.dropWhile_cons, isWs_lower]
    split
    · exact ih
    · rfl

theorem trimStart_lower (a : Str) : trimStart (a.map asciiLower) = (trimStart a).map asciiLower := dropWhile_ws_lower a
theorem trimEnd_lower (a : Str) : trimEnd (a.map asciiLower) = (trimEnd a).map asciiLower := by
  unfold trimEnd
  rw [← List.map_reverse, dropWhile_ws_lower, List.map_reverse]

theorem SameLetters.trim {a b : Str} (h : SameLetters a b) : SameLetters (Sdp.trim a) (Sdp.trim b) := by
  unfold SameLetters Sdp.trim at *
  rw [← trimEnd_lower, ← trimStart_lower, h, trimStart_lower, trimEnd_lower]

theorem SameLetters.trimStart {a b : Str} (h : SameLetters a b) : SameLetters (Sdp.trimStart a) (Sdp.trimStart b) := by
  unfold SameLetters at *
  rw [← trimStart_lower, h, trimStart_lower]

theorem SameLetters.byteLen {a b : Str} (h : SameLetters a b) : Sdp.byteLen a = Sdp.byteLen b := by
  have key (s : Str) : Sdp.byteLen s = Sdp.byteLen (s.map asciiLower) := by
    unfold Sdp.byteLen
    rw [List.map_map]
    congr 2
    funext c
    exact (utf8Size_lower c).symm
  rw [key a, key b, h]

theorem SameLetters.isEmpty {a b : Str} (h : SameLetters a b) : a.isEmpty = b.isEmpty := by
  have := h.length
  cases a <;> cases b <;> simp_all

theorem isAscii_of_byteLen {a : Str} (h : ¬ byteLen a > 1) : isAscii a = true := by
  rcases a with _ | ⟨c, _ | ⟨d, a⟩⟩
  · rfl
  · simp [byteLen] at h
    have h1 : c.utf8Size = 1 := by have := Char.utf8Size_pos c; omega
    have := utf8Size_one.1 h1
    simpa [isAscii] using this
  · have := Char.utf8Size_pos c; have := Char.utf8Size_pos d
    simp [byteLen] at h; omega

theorem mem_of_trimStart {c : Char} {s : Str} (h : c ∈ trimStart s) : c ∈ s := by
  obtain ⟨w, -, e⟩ := trimStart_spec s
  rw [e]; simp [h]

theorem mem_of_trim {c : Char} {s : Str} (h : c ∈ trim s) : c ∈ s := by
  obtain ⟨w, w', -, -, e⟩ := trim_spec s
  rw [e]; simp [h]

theorem SameWord.symm {a b : Str} (h : SameWord a b) : SameWord b a := ⟨h.2.ascii ▸ h.1, h.2.symm⟩

theorem SameWord.trim {a b : Str} (h : SameWord a b) : SameWord (Sdp.trim a) (Sdp.trim b) := by
  refine ⟨?_, h.2.trim⟩
  have := h.1
  unfold isAscii at *
  rw [List.all_eq_true] at *
  exact fun c hc => this c (mem_of_trim hc)

section
variable [Env]

theorem SameWord.lower {a b : Str} (h : SameWord a b) : Sdp.lower a = Sdp.lower b := by
  unfold Sdp.lower
  rw [if_pos h.1, if_pos h.symm.1, h.2]

theorem SameWord.upper {a b : Str} (h : SameWord a b) : Sdp.upper a = Sdp.upper b := by
  unfold Sdp.upper
  rw [if_pos h.1, if_pos h.symm.1]
  have key (s : Str) : s.map asciiUpper = (s.map asciiLower).map asciiUpper := by
    rw [List.map_map]; congr 1; funext c; exact (asciiUpper_lower c).symm
  rw [key a, key b, h.2]

end

/-! ## Kinds of outcomes -/

section
variable {α β : Type}

theorem kind_bind {x y : IRes α} {f g : α → IRes β} (h : x.kind = y.kind) (hf : ∀ a, (f a).kind = (g a).kind) :
    (x >>= f).kind = (y >>= g).kind := by
  cases x with
  | ok a =>
    cases y with
    | ok b => simp only [Outcome.kind, Outcome.ok.injEq] at h; subst h; exact hf a
    | err e => cases e <;> simp [Outcome.kind] at h
    | panic => simp [Outcome.kind] at h
  | panic =>
    cases y with
    | ok b => simp [Outcome.kind] at h
    | err e => cases e <;> simp [Outcome.kind] at h
    | panic => rfl
  | err e =>
    cases y with
    | ok b => cases e <;> simp [Outcome.kind] at h
    | panic => cases e <;> simp [Outcome.kind] at h
    | err e' =>
      simp only [err_bind]
      cases e <;> cases e' <;> simp_all [Outcome.kind]

theorem kind_bind_right {x : IRes α} {f g : α → IRes β} (hf : ∀ a, (f a).kind = (g a).kind) :
    (x >>= f).kind = (x >>= g).kind := kind_bind rfl hf

theorem kind_ite {c : Prop} [Decidable c] {a b a' b' : IRes α} (h : a.kind = a'.kind) (h' : b.kind = b'.kind) :
    (if c then a else b).kind = (if c then a' else b').kind := by split <;> assumption

theorem kind_ok {x y : IRes α} (h : x.kind = y.kind) {a : α} : x = .ok a ↔ y = .ok a := by
  have key (z : IRes α) : z = .ok a ↔ z.kind = .ok a := by
    cases z with
    | ok b => simp [Outcome.kind]
    | panic => simp [Outcome.kind]
    | err e => cases e <;> simp [Outcome.kind]
  rw [key x, key y, h]

end

/-! ## Keywords -/

section
variable [Env]

theorem kind_networkType {n n' : Str} (h : SameWord n n') : parseNetworkType n = parseNetworkType n' := by
  unfold parseNetworkType; rw [h.upper]

theorem kind_addrType {n n' : Str} (h : SameWord n n') : (parseAddrType n).kind = (parseAddrType n').kind := by
  unfold parseAddrType; rw [h.upper]
  exact kind_ite rfl (kind_ite rfl rfl)

theorem addressType_recased {n n' : Str} (h : SameWord n n') : parseAddressType n = parseAddressType n' := by
  unfold parseAddressType; rw [h.upper]

theorem setup_recased {v v' : Str} (h : SameWord v v') : parseSetup v = parseSetup v' := by
  unfold parseSetup; rw [h.lower]

theorem group_recased {v v' s s' : Str} {r : List Str} (hv : splitWs v = s :: r) (hv' : splitWs v' = s' :: r)
    (h : SameWord s s') : parseGroup v = parseGroup v' := by
  unfold parseGroup; rw [hv, hv']; simp only []
  unfold parseGroupSemantic; rw [h.upper]

theorem ssrcGroup_recased {v v' s s' : Str} {r : List Str} (hv : splitWs v = s :: r) (hv' : splitWs v' = s' :: r)
    (h : SameWord s s') : parseSsrcGroup v = parseSsrcGroup v' := by
  unfold parseSsrcGroup; rw [hv, hv']; simp only []
  unfold parseSsrcGroupSemantic; rw [h.upper]

theorem sctpmap_recased {v v' p s s' : Str} {r : List Str} (hv : splitWs v = p :: s :: r)
    (hv' : splitWs v' = p :: s' :: r) (h : SameWord s s') : parseSctpmap v = parseSctpmap v' := by
  unfold parseSctpmap; rw [hv, hv']
  simp only [List.length_cons, idx, List.getElem?_cons_succ, List.getElem?_cons_zero, ok_bind, h.lower]

theorem rtcp_recased {v v' p n n' t t' : Str} {r : List Str} (hv : splitWs v = p :: n :: t :: r)
    (hv' : splitWs v' = p :: n' :: t' :: r) (hn : SameWord n n') (ht : SameWord t t') :
    (parseRtcp v).kind = (parseRtcp v').kind := by
  unfold parseRtcp; rw [hv, hv']; simp only [kind_networkType hn]
  refine kind_bind_right fun _ => kind_bind_right fun _ => kind_bind (kind_addrType ht) fun _ => rfl

theorem extmapId_recased {i d d' : Str} (hi : '/' ∉ i) (h : SameWord d d') :
    parseExtmapId (i ++ '/' :: d) = parseExtmapId (i ++ '/' :: d') := by
  have key (x : Str) : parseExtmapId (i ++ '/' :: x) = (do
      let id ← parseU16 i
      let dir ← parseExtmapDirection x
      return (id, some dir)) := by
    unfold parseExtmapId
    have hm : '/' ∈ i ++ '/' :: x := by simp
    simp only [hm, not_true_eq_false, if_false, splitn_two_append hi, idx, List.getElem?_cons_succ,
      List.getElem?_cons_zero, ok_bind]
  rw [key, key]
  unfold parseExtmapDirection; rw [h.lower]

theorem extmap_recased {v v' i d d' : Str} {r : List Str} (hi : '/' ∉ i) (hv : splitWs v = (i ++ '/' :: d) :: r)
    (hv' : splitWs v' = (i ++ '/' :: d') :: r) (h : SameWord d d') : parseExtmap v = parseExtmap v' := by
  unfold parseExtmap; rw [hv, hv']
  simp only [List.length_cons, idx, List.getElem?_cons_succ, List.getElem?_cons_zero, ok_bind,
    extmapId_recased hi h, sliceFrom, List.drop_succ_cons]

theorem candExt_recased {n n' v : Str} (hn : SameWord n n') (hk : lower n ∈ candExtNames) (c : Candidate) :
    candExt c n v = candExt c n' v := by
  unfold candExt
  rw [← hn.lower]
  simp only [candExtNames, List.mem_cons, List.not_mem_nil, or_false] at hk
  rcases hk with h | h | h | h | h | h <;> simp [h]

theorem candExt_tcptype {n n' v v' : Str} (hn : SameWord n n') (hk : lower n = c%"tcptype")
    (hv : SameWord v v') (c : Candidate) : candExt c n v = candExt c n' v' := by
  unfold candExt
  rw [← hn.lower]
  simp only [hk]
  simp
  unfold parseCandTcpType
  rw [hv.lower]

theorem candExts_recased {e e' : List Str} (h : ExtsRecased e e') (c : Candidate) :
    candExts c e = candExts c e' := by
  induction h generalizing c with
  | nil => rfl
  | odd t => rfl
  | known hn hk hr ih => simp only [candExts, candExt_recased hn hk, ih]
  | tcptype hn hk hv hr ih => simp only [candExts, candExt_tcptype hn hk hv, ih]
  | other hr ih => simp only [candExts, ih]

theorem ExtsRecased.length {e e' : List Str} (h : ExtsRecased e e') : e.length = e'.length := by
  induction h <;> simp_all

theorem candidate_recased {v v' f c t t' p a q y y' k k' : Str} {e e' : List Str}
    (hv : splitWs v = f :: c :: t :: p :: a :: q :: y :: k :: e)
    (hv' : splitWs v' = f :: c :: t' :: p :: a :: q :: y' :: k' :: e')
    (ht : SameWord t t') (hy : SameWord y y') (hk : SameWord k k') (he : ExtsRecased e e') :
    parseCandidate v = parseCandidate v' := by
  have h1 : parseCandTransport t = parseCandTransport t' := by unfold parseCandTransport; rw [ht.lower]
  have h2 : parseCandType k = parseCandType k' := by unfold parseCandType; rw [hk.lower]
  unfold parseCandidate; rw [hv, hv']
  simp only [List.length_cons, idx, List.getElem?_cons_succ, List.getElem?_cons_zero, ok_bind, hy.lower,
    h1, h2, he.length, List.drop_succ_cons, List.drop_zero, candExts_recased he]

theorem fmtpParam_recased {q q' : Str} (h : ParamRecased q q') (p : FmtpParams) :
    fmtpParam p q = fmtpParam p q' := by
  cases h with
  | same => rfl
  | name hn he hk hs =>
    rename_i n n' v
    have he' : '=' ∉ n' := hn.2.not_mem (by decide) (by decide) he
    unfold fmtpParam
    simp only [splitn_two_append he, splitn_two_append he', idx, List.getElem?_cons_succ,
      List.getElem?_cons_zero, ok_bind, List.length_cons, List.length_nil]
    rw [← hn.upper]
    simp only [fmtpNames, FmtpField.all, List.map_cons, List.map_nil, FmtpField.text, List.mem_cons,
      List.not_mem_nil, or_false] at hk
    rcases hk with h | h | h | h | h | h | h | h | h | h | h | h | h | h | h | h | h | h | h | h | h | h | h <;>
      simp [h]

omit [Env] in
theorem Forall₂.filter_same {α : Type} {R : α → α → Prop} {p : α → Bool} (hp : ∀ a b, R a b → p a = p b)
    {l l' : List α} (h : List.Forall₂ R l l') : List.Forall₂ R (l.filter p) (l'.filter p) := by
  induction h with
  | nil => exact .nil
  | cons h1 h2 ih =>
    rw [List.filter_cons, List.filter_cons, hp _ _ h1]
    split
    · exact .cons h1 ih
    · exact ih

theorem ParamRecased.isEmpty {q q' : Str} (h : ParamRecased q q') : q.isEmpty = q'.isEmpty := by
  cases h with
  | same => rfl
  | name hn h2 h3 h4 => rename_i n n' v; cases n <;> cases n' <;> rfl

theorem ParamRecased.eq_mem {q q' : Str} (h : ParamRecased q q') : ('=' ∈ q ↔ '=' ∈ q') := by
  cases h with
  | same => exact Iff.rfl
  | name hn => simp

theorem ParamRecased.semicolon {q q' : Str} (h : ParamRecased q q') : ';' ∉ q ∧ ';' ∉ q' := by
  cases h with
  | same hp => exact ⟨hp, hp⟩
  | name hn he hk hs =>
    refine ⟨hs, ?_⟩
    simp only [List.mem_append, List.mem_cons, not_or] at hs ⊢
    exact ⟨hn.2.not_mem (by decide) (by decide) hs.1, hs.2⟩

theorem fmtpParamList_recased {l l' : List Str} (h : List.Forall₂ ParamRecased l l') (p : FmtpParams) :
    fmtpParamList p l = fmtpParamList p l' := by
  induction h generalizing p with
  | nil => rfl
  | cons h1 h2 ih => simp only [fmtpParamList, fmtpParam_recased h1, ih]

omit [Env] in
theorem mem_joinS_sep {d c : Char} (h : d ≠ c) {l : List Str} : d ∈ joinS [c] l ↔ ∃ t ∈ l, d ∈ t := by
  induction l with
  | nil => simp [joinS]
  | cons x l ih =>
    cases l with
    | nil => simp [joinS]
    | cons y l =>
      rw [show joinS [c] (x :: y :: l) = x ++ [c] ++ joinS [c] (y :: l) from rfl]
      simp only [List.mem_append, ih, List.mem_singleton, h, or_false]
      constructor
      · rintro (h | ⟨t, ht, h⟩)
        · exact ⟨x, by simp, h⟩
        · exact ⟨t, by simp at ht ⊢; tauto, h⟩
      · rintro ⟨t, ht, h⟩
        rcases List.mem_cons.1 ht with rfl | ht
        · exact .inl h
        · exact .inr ⟨t, ht, h⟩

theorem fmtpBlock_recased {ps ps' : List Str} (hne : ps ≠ []) (h : List.Forall₂ ParamRecased ps ps')
    (p : FmtpParams) : fmtpBlock p (joinS c%";" ps) = fmtpBlock p (joinS c%";" ps') := by
  have hne' : ps' ≠ [] := by rintro rfl; cases h; exact hne rfl
  by_cases he : ∃ t ∈ ps, '=' ∈ t
  · have he' : ∃ t ∈ ps', '=' ∈ t := by
      clear hne hne'
      induction h with
      | nil => simpa using he
      | cons h1 h2 ih =>
        simp only [List.mem_cons, exists_eq_or_imp] at he ⊢
        rcases he with he | he
        · exact .inl (h1.eq_mem.1 he)
        · exact .inr (ih he)
    have hs : (∀ t ∈ ps, ';' ∉ t) ∧ ∀ t ∈ ps', ';' ∉ t := by
      clear he he' hne hne'
      induction h with
      | nil => simp
      | cons h1 h2 ih =>
        have := h1.semicolon
        simp only [List.mem_cons, forall_eq_or_imp]
        exact ⟨⟨this.1, ih.1⟩, this.2, ih.2⟩
    unfold fmtpBlock
    rw [if_pos ((mem_joinS_sep (by decide)).2 he), if_pos ((mem_joinS_sep (by decide)).2 he'),
      splitC_joinS hne hs.1, splitC_joinS hne' hs.2]
    exact fmtpParamList_recased (Forall₂.filter_same (fun a b hab => by rw [hab.isEmpty]) h) p
  · have : ps = ps' := by
      clear hne hne'
      induction h with
      | nil => rfl
      | cons h1 h2 ih =>
        simp only [List.mem_cons, exists_eq_or_imp, not_or] at he
        rw [ih he.2]
        cases h1 with
        | same => rfl
        | name => exact absurd (by simp) he.1
    rw [this]

theorem fmtp_recased {v v' pt : Str} {ps ps' : List Str} (hpt : ' ' ∉ pt) (hne : ps ≠ [])
    (hv : v = pt ++ ' ' :: joinS c%";" ps) (hv' : v' = pt ++ ' ' :: joinS c%";" ps')
    (h : List.Forall₂ ParamRecased ps ps') : parseFmtp v = parseFmtp v' := by
  unfold parseFmtp
  rw [hv, hv']
  simp only [splitn_two_append hpt, List.length_cons, List.length_nil, idx, List.getElem?_cons_zero, ok_bind,
    sliceFrom, List.drop_succ_cons, List.drop_zero]
  have hb (p : FmtpParams) : fmtpBlocks p [joinS c%";" ps] = fmtpBlocks p [joinS c%";" ps'] := by
    simp only [fmtpBlocks, fmtpBlock_recased hne h]
  simp [hb]

theorem value_recased {t : AttributeType} {v v' : Str} (h : ValueRecased t v v') :
    (parseAttrValue t (trim v)).kind = (parseAttrValue t (trim v')).kind := by
  cases h with
  | setup h => exact congrArg _ (setup_recased h.trim)
  | group hv hv' h => exact congrArg _ (group_recased (by rw [splitWs_trim, hv]) (by rw [splitWs_trim, hv']) h)
  | ssrcGroup hv hv' h => exact congrArg _ (ssrcGroup_recased (by rw [splitWs_trim, hv]) (by rw [splitWs_trim, hv']) h)
  | sctpmap hv hv' h => exact congrArg _ (sctpmap_recased (by rw [splitWs_trim, hv]) (by rw [splitWs_trim, hv']) h)
  | rtcp hv hv' h h' => exact rtcp_recased (by rw [splitWs_trim, hv]) (by rw [splitWs_trim, hv']) h h'
  | extmap hi hv hv' h =>
    exact congrArg _ (extmap_recased hi (by rw [splitWs_trim, hv]) (by rw [splitWs_trim, hv']) h)
  | candidate hv hv' h1 h2 h3 h4 =>
    exact congrArg _ (candidate_recased (by rw [splitWs_trim, hv]) (by rw [splitWs_trim, hv']) h1 h2 h3 h4)
  | fmtp hpt hne hv hv' h => exact congrArg _ (fmtp_recased hpt hne hv hv' h)

/-! ## Lines -/

theorem bandwidth_word {t : Str} (ha : isAscii t = true) (hk : upper t ∈ [c%"AS", c%"CT", c%"TIAS"]) :
    trimStart t = t ∧ ':' ∉ t := by
  have hu : upper t = t.map asciiUpper := by unfold upper; rw [if_pos ha]
  have hc : ∀ c ∈ t, isWs c = false ∧ c ≠ ':' := by
    intro c hc
    have hm : asciiUpper c ∈ upper t := by rw [hu]; exact List.mem_map.2 ⟨c, hc, rfl⟩
    have hr : 65 ≤ (asciiUpper c).toNat ∧ (asciiUpper c).toNat ≤ 90 := by
      simp only [List.mem_cons, List.not_mem_nil, or_false] at hk
      generalize asciiUpper c = d at hm
      rcases hk with h | h | h <;> rw [h] at hm <;> simp at hm
      · rcases hm with h | h <;> rw [h] <;> decide
      · rcases hm with h | h <;> rw [h] <;> decide
      · rcases hm with h | h | h | h <;> rw [h] <;> decide
    have hn := asciiUpper_toNat c
    constructor
    · unfold isWs
      simp only []
      rw [Bool.eq_false_iff]
      intro hw
      simp at hw
      split_ifs at hn <;> omega
    · rintro rfl
      revert hr; decide
  constructor
  · unfold trimStart
    cases t with
    | nil => rfl
    | cons c t => rw [List.dropWhile_cons, (hc c (by simp)).1]; rfl
  · exact fun h => (hc _ h).2 rfl

theorem attrFromStr_recased_colon {n n' v : Str} (hn : ':' ∉ n) (h : SameWord n n') :
    attrFromStr (n ++ ':' :: v) = attrFromStr (n' ++ ':' :: v) := by
  rw [attrFromStr_colon hn, attrFromStr_colon (h.2.not_mem (by decide) (by decide) hn), h.lower]

theorem attrFromStr_recased_plain {n n' : Str} (hn : ':' ∉ n) (h : SameWord n n') :
    attrFromStr n = attrFromStr n' := by
  rw [attrFromStr_plain hn, attrFromStr_plain (h.2.not_mem (by decide) (by decide) hn), h.lower]

omit [Env] in
theorem trim_around {a b : Str} {c : Char} (hc : isWs c = false) :
    trim (a ++ c :: b) = trimStart a ++ c :: trimEnd b := by
  unfold trim
  have h1 : trimStart (a ++ c :: b) = trimStart a ++ c :: b := by
    unfold trimStart
    induction a with
    | nil => simp [hc]
    | cons x a ih =>
      simp only [List.cons_append, List.dropWhile_cons]
      split
      · exact ih
      · rfl
  rw [h1]
  unfold trimEnd
  have h2 : ∀ (x y : Str), (x ++ c :: y).dropWhile isWs = x.dropWhile isWs ++ c :: y := by
    intro x y
    induction x with
    | nil => simp [hc]
    | cons x a ih =>
      simp only [List.cons_append, List.dropWhile_cons]
      split
      · exact ih
      · rfl
  rw [List.reverse_append, List.reverse_cons, List.append_assoc, List.singleton_append, h2]
  simp

/-- The lines with a value that is not empty. -/
theorem lineMeaning_letter {x : Char} (hx : x ∈ c%"abcmo") {v : Str} (hv : trim v ≠ []) :
    lineMeaning ([x] ++ '=' :: v) = parseLineValue [x] (trim v) v := by
  have h1 : '=' ∉ [x] := by simp at hx ⊢; rcases hx with rfl | rfl | rfl | rfl | rfl <;> decide
  rw [lineMeaning_split h1]
  unfold lineOutcome
  have h2 : trim [x] = [x] := by simp at hx; rcases hx with rfl | rfl | rfl | rfl | rfl <;> decide
  have h3 : lower [x] = [x] := by simp at hx; rcases hx with rfl | rfl | rfl | rfl | rfl <;> rfl
  have h4 : ¬ byteLen [x] > 1 := by simp at hx; rcases hx with rfl | rfl | rfl | rfl | rfl <;> decide
  rw [h2, h3, if_neg h4]
  simp [hv]

theorem lineOutcome_congr {a b b' : Str} (h0 : trim b = [] ↔ trim b' = [])
    (h : (parseLineValue (lower (trim a)) (trim b) b).kind = (parseLineValue (lower (trim a)) (trim b') b').kind) :
    (lineOutcome a b).kind = (lineOutcome a b').kind := by
  unfold lineOutcome
  have : (trim b).isEmpty = (trim b').isEmpty := by
    rw [Bool.eq_iff_iff]; simpa using h0
  rw [this]
  exact kind_ite rfl (kind_ite rfl (kind_ite rfl h))

omit [Env] in
theorem trim_nil_splitWs {v : Str} : trim v = [] ↔ splitWs v = [] := by
  constructor
  · intro h; rw [← splitWs_trim, h]; rfl
  · intro h
    rw [trim_eq_nil]
    intro c hc
    by_contra hw
    have hb : trim v ≠ [] := fun h0 => hw (trim_eq_nil.1 h0 c hc)
    rw [← splitWs_trim] at h
    obtain ⟨w1, w2, b1, b2, e⟩ := trim_spec v
    cases ht : trim v with
    | nil => exact hb ht
    | cons x t =>
      rw [ht] at h
      have hx : isWs x = false := by
        have : trimStart v ≠ [] := by
          intro h0; exact hb (by unfold trim; rw [h0]; rfl)
        cases hs : trimStart v with
        | nil => exact absurd hs this
        | cons y s =>
          have hy : isWs y = false := by
            have := List.head?_dropWhile_not isWs v
            unfold trimStart at hs
            rw [hs] at this
            simpa using this
          have : trim v = y :: trimEnd s := by
            unfold trim; rw [hs]
            have := trim_around (a := []) (b := s) hy
            unfold trim at this
            simp only [List.nil_append] at this
            rw [show trimStart (y :: s) = y :: s from by unfold trimStart; simp [hy]] at this
            simpa [trimStart] using this
          rw [this] at ht
          simp at ht
          rw [← ht.1]; exact hy
      unfold splitWs at h
      obtain ⟨y, ys, -, e⟩ := splitP_cons_false (s := t) hx
      rw [e] at h; simp at h

theorem line_recased {l l' : Str} (h : Recased l l') : (lineMeaning l).kind = (lineMeaning l').kind := by
  have splitA (x : Char) (v : Str) (hx : x ≠ '=') : lineMeaning ([x, '='] ++ v) = lineOutcome [x] v :=
    lineMeaning_split (a := [x]) (b := v) (by simpa using hx.symm)
  cases h with
  | type ha h =>
    rename_i a a' b
    rw [lineMeaning_split ha, lineMeaning_split (h.not_mem (by decide) (by decide) ha)]
    unfold lineOutcome
    rw [h.trim.byteLen, h.trim.isEmpty]
    by_cases hb : byteLen (trim a') > 1
    · simp only [hb, if_true]
    · have hw : SameWord (trim a) (trim a') := ⟨isAscii_of_byteLen (by rw [h.trim.byteLen]; exact hb), h.trim⟩
      rw [hw.lower]
  | flag hn h =>
    rename_i n n'
    rw [splitA _ _ (by decide), splitA _ _ (by decide)]
    refine lineOutcome_congr ?_ ?_
    · have := h.trim.2.isEmpty
      rw [Bool.eq_iff_iff] at this
      simpa using this
    · refine congrArg _ ?_
      show parseAttribute (trim n) = parseAttribute (trim n')
      unfold parseAttribute
      rw [trim_trim, trim_trim, attrFromStr_recased_plain (fun hc => hn (mem_of_trim hc)) h.trim]
  | name hn h =>
    rename_i n n' v
    rw [List.append_assoc, List.append_assoc, splitA _ _ (by decide), splitA _ _ (by decide)]
    have e1 := trim_around (a := n) (b := v) (c := ':') (by decide)
    have e2 := trim_around (a := n') (b := v) (c := ':') (by decide)
    refine lineOutcome_congr (by rw [e1, e2]; simp) ?_
    refine congrArg _ ?_
    show parseAttribute (trim _) = parseAttribute (trim _)
    unfold parseAttribute
    rw [trim_trim, trim_trim, e1, e2]
    have hs : SameWord (trimStart n) (trimStart n') := by
      refine ⟨?_, h.2.trimStart⟩
      have := h.1
      unfold isAscii at *
      rw [List.all_eq_true] at *
      exact fun c hc => this c (mem_of_trimStart hc)
    rw [attrFromStr_recased_colon (fun hc => hn (mem_of_trimStart hc)) hs]
  | value h =>
    rename_i t v v'
    rw [List.append_assoc, List.append_assoc, splitA _ _ (by decide), splitA _ _ (by decide)]
    have hc : ':' ∉ t.name := by cases t <;> decide
    have hl : lower t.name = t.name := by cases t <;> rfl
    have hb : trimStart t.name = t.name := by cases t <;> rfl
    have e1 := trim_around (a := t.name) (b := v) (c := ':') (by decide)
    have e2 := trim_around (a := t.name) (b := v') (c := ':') (by decide)
    refine lineOutcome_congr (by rw [e1, e2]; simp) ?_
    show (parseAttribute (trim _)).kind = (parseAttribute (trim _)).kind
    unfold parseAttribute
    rw [trim_trim, trim_trim, e1, e2, hb]
    refine kind_bind ?_ fun _ => rfl
    rw [attrFromStr_colon hc, attrFromStr_colon hc, hl, attrTypeOfName_name]
    refine kind_ite rfl ?_
    have te (x : Str) : trim (trimEnd x) = trim x := by
      obtain ⟨w, hw, e⟩ := trimEnd_spec x
      conv_rhs => rw [e]
      rw [trim_append_ws hw]
    simp only [te]
    exact value_recased h
  | bandwidth h hk =>
    rename_i t t' n
    rw [List.append_assoc, List.append_assoc, splitA _ _ (by decide), splitA _ _ (by decide)]
    have e1 := trim_around (a := t) (b := n) (c := ':') (by decide)
    have e2 := trim_around (a := t') (b := n) (c := ':') (by decide)
    refine lineOutcome_congr (by rw [e1, e2]; simp) ?_
    show (parseBandwidth (trim _)).kind = (parseBandwidth (trim _)).kind
    obtain ⟨b1, b2⟩ := bandwidth_word h.1 hk
    obtain ⟨b3, b4⟩ := bandwidth_word h.symm.1 (h.upper ▸ hk)
    rw [e1, e2, b1, b3]
    unfold parseBandwidth
    rw [splitC_append b2, splitC_append b4]
    simp only [List.length_cons, idx, List.getElem?_cons_succ, List.getElem?_cons_zero, ok_bind]
    refine kind_ite rfl (kind_bind_right fun _ => ?_)
    rw [← h.upper]
    simp only [List.mem_cons, List.not_mem_nil, or_false] at hk
    rcases hk with h | h | h <;> rw [h] <;> rfl
  | connection hv hv' hn ht =>
    rename_i v v' n n' t t' r
    rw [splitA _ _ (by decide), splitA _ _ (by decide)]
    refine lineOutcome_congr (by rw [trim_nil_splitWs, trim_nil_splitWs, hv, hv']; simp) (congrArg _ ?_)
    show parseConnection (trim _) = parseConnection (trim _)
    unfold parseConnection
    rw [splitWs_trim, splitWs_trim, hv, hv']
    simp only [List.length_cons, idx, List.getElem?_cons_succ, List.getElem?_cons_zero, ok_bind,
      kind_networkType hn, addressType_recased ht]
  | origin hv hv' hn ht =>
    rename_i v v' u i k n n' t t' r
    rw [splitA _ _ (by decide), splitA _ _ (by decide)]
    refine lineOutcome_congr (by rw [trim_nil_splitWs, trim_nil_splitWs, hv, hv']; simp) (congrArg _ ?_)
    show parseOrigin (trim _) = parseOrigin (trim _)
    unfold parseOrigin
    rw [splitWs_trim, splitWs_trim, hv, hv']
    simp only [kind_networkType hn, addressType_recased ht]
  | media hv hv' hm hq =>
    rename_i v v' m m' p q q' r
    rw [splitA _ _ (by decide), splitA _ _ (by decide)]
    refine lineOutcome_congr (by rw [trim_nil_splitWs, trim_nil_splitWs, hv, hv']; simp) ?_
    show (parseMedia (trim _)).kind = (parseMedia (trim _)).kind
    have h1 : (parseMediaToken m).kind = (parseMediaToken m').kind := by
      unfold parseMediaToken; rw [hm.lower]; exact kind_ite rfl (kind_ite rfl (kind_ite rfl rfl))
    have h2 : (parseProtocolToken q).kind = (parseProtocolToken q').kind := by
      unfold parseProtocolToken; rw [hq.upper]
      repeat' refine kind_ite rfl ?_
      rfl
    unfold parseMedia
    rw [splitWs_trim, splitWs_trim, hv, hv']
    simp only [List.length_cons, idx, List.getElem?_cons_succ, List.getElem?_cons_zero, ok_bind, sliceFrom,
      List.drop_succ_cons]
    refine kind_ite rfl (kind_bind h1 fun _ => ?_)
    split
    · rfl
    · refine kind_bind_right fun _ => kind_ite rfl (kind_bind_right fun _ => kind_bind h2 fun _ => rfl)

end

end Sdp
