import Verif.Lemmas.Str
/-!
# No parser panics
-/

namespace Sdp

theorem NP.ite {ε α : Type} {c : Prop} [Decidable c] {a b : Outcome ε α} (h : c → NP a) (h' : ¬c → NP b) :
    NP (if c then a else b) := by split <;> simp_all

/-- Decompose a goal `NP x` along the structure of `x`. -/
syntax "np" : tactic
macro_rules
  | `(tactic| np) => `(tactic|
    repeat' (first
      | exact NP.ok _ | exact NP.pure _ | exact NP.err _ | exact NP.egeneric _
      | exact NP.eunsupported _ | exact NP.seqError _ | exact NP.okOr
      | assumption
      | exact NP.idx (by omega) | exact NP.sliceFrom (by omega)
      | with_reducible refine NP.mapErr ?_
      | with_reducible refine NP.bind ?_ ?_
      | with_reducible refine NP.ite ?_ ?_

      | with_reducible intro _
      | split))

theorem np_parseU8 (s : Str) : NP (parseU8 s) := by unfold parseU8; np
theorem np_parseU16 (s : Str) : NP (parseU16 s) := by unfold parseU16; np
theorem np_parseU32 (s : Str) : NP (parseU32 s) := by unfold parseU32; np
theorem np_parseU64 (s : Str) : NP (parseU64 s) := by unfold parseU64; np
theorem np_parseHexU8 (s : Str) : NP (parseHexU8 s) := by unfold parseHexU8; np
theorem np_parseHexU32 (s : Str) : NP (parseHexU32 s) := by unfold parseHexU32; np
theorem np_parseF32 [Env] (s : Str) : NP (parseF32 s) := by unfold parseF32; np
theorem np_parseF64 [Env] (s : Str) : NP (parseF64 s) := by unfold parseF64; np

macro_rules
  | `(tactic| np) => `(tactic|
    repeat' (first
      | exact NP.ok _ | exact NP.pure _ | exact NP.err _ | exact NP.egeneric _
      | exact NP.eunsupported _ | exact NP.seqError _ | exact NP.okOr
      | exact np_parseU8 _ | exact np_parseU16 _ | exact np_parseU32 _ | exact np_parseU64 _
      | exact np_parseHexU8 _ | exact np_parseHexU32 _ | exact np_parseF32 _ | exact np_parseF64 _
      | assumption
      | exact NP.idx (by omega) | exact NP.sliceFrom (by omega)
      | with_reducible refine NP.mapErr ?_
      | with_reducible refine NP.bind ?_ ?_
      | with_reducible refine NP.ite ?_ ?_

      | with_reducible intro _
      | split))

theorem np_parseAddress [Env] (s : Str) : NP (parseAddress s) := by
  unfold parseAddress; simp only []; np
theorem np_parseAddrType [Env] (s : Str) : NP (parseAddrType s) := by unfold parseAddrType; simp only []; np
theorem np_typedTryFrom [Env] (t : AddressType) (s : Str) : NP (typedTryFrom t s) := by
  unfold typedTryFrom; have := np_parseAddress s; np
theorem np_parseNetworkType [Env] (s : Str) : NP (parseNetworkType s) := by unfold parseNetworkType; np
theorem np_parseAddressType [Env] (s : Str) : NP (parseAddressType s) := by
  unfold parseAddressType; have := np_parseAddrType (upper s); np
theorem np_parseUnicastAddress [Env] (s : Str) : NP (parseUnicastAddress s) := np_parseAddress s

theorem np_stringOrEmpty (s : Str) : NP (stringOrEmpty s) := by unfold stringOrEmpty; np
theorem np_parsePayloadType (s : Str) : NP (parsePayloadType s) := by unfold parsePayloadType; np
theorem np_parseSingleDirection (s : Str) : NP (parseSingleDirection s) := by unfold parseSingleDirection; np

theorem np_ssrcSetAttribute (x : Ssrc) (a : Str) : NP (x.setAttribute a) := by
  unfold Ssrc.setAttribute
  by_cases h : ':' ∈ a
  · obtain ⟨p, q, h1, h2⟩ := splitn_two_of_mem h
    rw [h1]
    simp only [h, not_true_eq_false, if_false]
    refine NP.bind (NP.idx (by simp)) fun _ _ => NP.bind (NP.idx (by simp)) fun _ _ => NP.pure _
  · simp only [h, not_false_eq_true, if_true]; exact NP.ok _

theorem np_parseSsrc (s : Str) : NP (parseSsrc s) := by
  unfold parseSsrc
  split
  · np
  · refine NP.bind (np_parseU32 _) fun _ _ => ?_
    split
    · np
    · exact np_ssrcSetAttribute _ _

theorem np_parseSsrcGroup [Env] (s : Str) : NP (parseSsrcGroup s) := by
  unfold parseSsrcGroup
  split
  · np
  · refine NP.bind ?_ fun _ _ => NP.bind (NP.collect fun _ _ => np_parseSsrc _) fun _ _ => ?_
    · unfold parseSsrcGroupSemantic; simp only []; np
    · np

theorem np_parseSctpPort (s : Str) : NP (parseSctpPort s) := by unfold parseSctpPort; np
theorem np_parseCandTransport [Env] (s : Str) : NP (parseCandTransport s) := by
  unfold parseCandTransport; simp only []; np
theorem np_parseCandType [Env] (s : Str) : NP (parseCandType s) := by unfold parseCandType; simp only []; np
theorem np_parseCandTcpType [Env] (s : Str) : NP (parseCandTcpType s) := by
  unfold parseCandTcpType; simp only []; np
theorem np_candExt [Env] (c : Candidate) (n v : Str) : NP (candExt c n v) := by
  have := np_parseUnicastAddress v
  have := np_parseCandTcpType v
  unfold candExt; simp only []; np

theorem np_candExts [Env] (c : Candidate) (l : List Str) : NP (candExts c l) := by
  induction c, l using candExts.induct with
  | case1 c n v rest ih =>
    rw [candExts]
    exact NP.bind (np_candExt _ _ _) fun a _ => ih a
  | case2 => rw [candExts]; np
  | case3 => rw [candExts]; np

theorem np_parseCandidate [Env] (s : Str) : NP (parseCandidate s) := by
  unfold parseCandidate; simp only []
  have h1 := np_parseCandTransport; have h2 := np_parseAddress; have h3 := np_parseCandType
  have h4 := np_candExts
  np <;> first | apply h1 | apply h2 | apply h3 | apply h4

theorem np_parseDtlsMessage (s : Str) : NP (parseDtlsMessage s) := by
  unfold parseDtlsMessage; simp only []; np

theorem np_parseExtmapDirection [Env] (s : Str) : NP (parseExtmapDirection s) := by
  unfold parseExtmapDirection; simp only []; np

theorem np_parseExtmapId [Env] (t : Str) : NP (parseExtmapId t) := by
  unfold parseExtmapId
  by_cases h : '/' ∈ t
  · obtain ⟨p, q, h1, h2⟩ := splitn_two_of_mem h
    rw [h1]
    simp only [h, not_true_eq_false, if_false]
    have := np_parseExtmapDirection
    np <;> first | apply NP.idx (by simp) | apply this
  · simp only [h, not_false_eq_true, if_true]; np

theorem np_parseExtmap [Env] (s : Str) : NP (parseExtmap s) := by
  unfold parseExtmap; simp only []
  have := np_parseExtmapId
  np <;> apply this

theorem np_parseHashType (s : Str) : NP (parseHashType s) := by unfold parseHashType; np
theorem np_parseOctet (s : Str) : NP (parseOctet s) := by unfold parseOctet; np
theorem np_parseOctets (h : HashType) (s : Str) : NP (parseOctets h s) := by
  unfold parseOctets
  refine NP.bind (NP.collect fun _ _ => np_parseOctet _) fun _ _ => ?_
  np
theorem np_fingerprintTryFrom (h : HashType) (b : List UInt8) : NP (fingerprintTryFrom h b) := by
  unfold fingerprintTryFrom; np
theorem np_parseFingerprint (s : Str) : NP (parseFingerprint s) := by
  unfold parseFingerprint; simp only []
  have h1 := np_parseHashType; have h2 := np_parseOctets; have h3 := np_fingerprintTryFrom
  np <;> first | apply h1 | apply h2 | apply h3

theorem np_fmtpBool (v n : Str) : NP (fmtpBool v n) := by unfold fmtpBool; np

theorem np_fmtpParam [Env] (p : FmtpParams) (t : Str) : NP (fmtpParam p t) := by
  unfold fmtpParam; simp only []
  have h1 := np_fmtpBool
  np <;> apply h1

theorem np_fmtpParamList [Env] (p : FmtpParams) (l : List Str) : NP (fmtpParamList p l) := by
  induction l generalizing p with
  | nil => simp only [fmtpParamList]; np
  | cons t ts ih => simp only [fmtpParamList]; exact NP.bind (np_fmtpParam _ _) fun a _ => ih a

theorem np_fmtpRed (p : FmtpParams) (l : List Str) : NP (fmtpRed p l) := by
  induction l generalizing p with
  | nil => simp only [fmtpRed]; np
  | cons t ts ih => simp only [fmtpRed]; np; apply ih

theorem np_fmtpBlock [Env] (p : FmtpParams) (b : Str) : NP (fmtpBlock p b) := by
  unfold fmtpBlock
  have h1 := np_fmtpParamList; have h2 := np_fmtpRed
  np <;> first | apply h1 | apply h2

theorem np_fmtpBlocks [Env] (p : FmtpParams) (l : List Str) : NP (fmtpBlocks p l) := by
  induction l generalizing p with
  | nil => simp only [fmtpBlocks]; np
  | cons t ts ih => simp only [fmtpBlocks]; exact NP.bind (np_fmtpBlock _ _) fun a _ => ih a

theorem np_parseFmtp [Env] (s : Str) : NP (parseFmtp s) := by
  unfold parseFmtp; simp only []
  have h1 := np_fmtpBlocks
  np <;> apply h1

theorem np_parseFramerate [Env] (s : Str) : NP (parseFramerate s) := by unfold parseFramerate; np

theorem np_parseGroup [Env] (s : Str) : NP (parseGroup s) := by
  unfold parseGroup parseGroupSemantic; simp only []; np

theorem np_parseIceOptions (s : Str) : NP (parseIceOptions s) := by unfold parseIceOptions; np
theorem np_parseIcePacing (s : Str) : NP (parseIcePacing s) := by unfold parseIcePacing; np

/-- The brace counter stays within the number of tokens read, so it cannot overflow before
`2^31` tokens. -/
theorem np_imageTokensLoop (sep : Char) (n : Int) (cur l : List Str) (k : Nat)
    (hn : -(k : Int) ≤ n ∧ n ≤ k) (hk : k + l.length < 2^31) : NP (imageTokensLoop sep n cur l) := by
  induction l generalizing n cur k with
  | nil => simp only [imageTokensLoop]; np
  | cons t ts ih =>
    simp only [imageTokensLoop]
    simp only [List.length_cons] at hk
    set n1 : Int := if '[' ∈ t then n + 1 else n with hn1
    set n2 : Int := if ']' ∈ t then n1 - 1 else n1 with hn2
    have b1 : -(k : Int) ≤ n1 ∧ n1 ≤ k + 1 := by rw [hn1]; split <;> omega
    have b2 : -(k + 1 : Int) ≤ n2 ∧ n2 ≤ k + 1 := by rw [hn2]; split <;> omega
    rw [if_neg (by omega), if_neg (by omega)]
    split
    · exact NP.bind (ih n2 [] (k + 1) (by push_cast; omega) (by omega)) fun _ _ => NP.pure _
    · exact ih n2 _ (k + 1) (by push_cast; omega) (by omega)

theorem np_imageTokens {s : Str} (h : s.length + 1 < 2^31) (sep : Char) : NP (imageTokens s sep) := by
  unfold imageTokens
  refine np_imageTokensLoop sep 0 [] _ 0 (by simp) ?_
  rw [splitC_length]
  have := List.count_le_length (a := sep) (l := s)
  omega

theorem np_parseXyRange (s : Str) : NP (parseXyRange s) := by
  unfold parseXyRange; simp only []
  np
  exact NP.collect fun _ _ => np_parseU32 _

theorem np_parsePsRange [Env] (s : Str) : NP (parsePsRange s) := by
  unfold parsePsRange; simp only []; np

theorem np_sarAscending (x : F32) (l : List F32) : NP (sarAscending x l) := by
  induction l generalizing x with
  | nil => simp only [sarAscending]; np
  | cons v vs ih => simp only [sarAscending]; np; apply ih

theorem np_imageKey [Env] (k : ImgKeys) (t : Str) : NP (imageKey k t) := by
  unfold imageKey
  have h1 := np_parsePsRange; have h2 := np_sarAscending
  np <;> first | apply h1 | apply h2 | exact NP.collect fun _ _ => np_parseF32 _

theorem np_imageKeys [Env] (k : ImgKeys) (l : List Str) : NP (imageKeys k l) := by
  induction l generalizing k with
  | nil => simp only [imageKeys]; np
  | cons t ts ih => simp only [imageKeys]; exact NP.bind (np_imageKey _ _) fun a _ => ih a

theorem stripPrefix_eq_some {p s r : Str} : stripPrefix p s = some r ↔ s = p ++ r := by
  induction p generalizing s with
  | nil => simp [stripPrefix]
  | cons x xs ih =>
    cases s with
    | nil => simp [stripPrefix]
    | cons c cs =>
      simp only [stripPrefix]
      by_cases h : x = c
      · simp [h, ih]
      · simp [h]; intro h'; exact absurd h'.symm h

theorem startsWith_iff {p s : Str} : startsWith p s = true ↔ ∃ r, s = p ++ r := by
  unfold startsWith
  rw [Option.isSome_iff_exists]
  simp [stripPrefix_eq_some]

theorem startsWith_length {p s : Str} (h : startsWith p s = true) : p.length ≤ s.length := by
  obtain ⟨r, rfl⟩ := startsWith_iff.1 h; simp

theorem bracedToken_length {s r : Str} (h : bracedToken s = some r) : r.length ≤ s.length := by
  unfold bracedToken at h
  split at h
  · simp at h
  · split at h
    · simp at h
    · simp at h; rw [← h]; simp; omega

theorem np_parseImageSet [Env] {s : Str} (h : s.length + 1 < 2^31) : NP (parseImageSet s) := by
  unfold parseImageSet
  refine NP.bind (np_imageTokens h _) fun l _ => ?_
  have h1 := np_parseXyRange; have h2 := np_imageKeys
  np
  · rename_i hx; simp at hx; exact NP.sliceFrom (startsWith_length hx)
  · apply h1
  · rename_i hx; simp at hx; exact NP.sliceFrom (startsWith_length hx)
  · apply h1
  · apply h2

theorem np_parseBracedSet [Env] {s : Str} (h : s.length + 1 < 2^31) : NP (parseBracedSet s) := by
  unfold parseBracedSet
  refine NP.bind NP.okOr fun a ha => np_parseImageSet ?_
  rw [okOr_eq_ok] at ha
  have := bracedToken_length ha
  omega

theorem np_moreSets [Env] {l : List Str} (h : ∀ t ∈ l, t.length + 1 < 2^31) : NP (moreSets l) := by
  induction l with
  | nil => simp only [moreSets]; np
  | cons t ts ih =>
    simp only [moreSets]
    split
    · exact NP.bind (np_parseBracedSet (h t (by simp))) fun _ _ =>
        NP.bind (ih fun x hx => h x (by simp [hx])) fun _ _ => NP.pure _
    · np

theorem np_parseSetList [Env] {l : List Str} (h : ∀ t ∈ l, t.length + 1 < 2^31) :
    NP (parseSetList l) := by
  unfold parseSetList
  split
  · np
  · rename_i t ts
    split
    · np
    · exact NP.bind (np_parseBracedSet (h t (by simp))) fun _ _ =>
        NP.bind (np_moreSets fun x hx => h x (by simp [hx])) fun _ _ => NP.pure _

/-- What is left over after the sets is a suffix of the tokens. -/
theorem moreSets_rest [Env] {l : List Str} {r} (h : moreSets l = .ok r) : ∀ t ∈ r.2, t ∈ l := by
  induction l generalizing r with
  | nil => simp [moreSets] at h; simp [← h]
  | cons t ts ih =>
    simp only [moreSets] at h
    split at h
    · simp only [bind_eq_ok, pure_eq_ok] at h
      obtain ⟨a, _, b, hb, hr⟩ := h
      simp at hr; subst hr
      intro x hx; exact List.mem_cons_of_mem _ (ih hb x hx)
    · simp at h; simp [← h]

theorem parseSetList_rest [Env] {l : List Str} {r} (h : parseSetList l = .ok r) : ∀ t ∈ r.2, t ∈ l := by
  unfold parseSetList at h
  split at h
  · simp at h
  · split at h
    · simp at h; subst h; intro x hx; simp at hx ⊢; exact .inr hx
    · simp only [bind_eq_ok, pure_eq_ok] at h
      obtain ⟨a, _, b, hb, hr⟩ := h
      simp at hr; subst hr
      intro x hx; exact List.mem_cons_of_mem _ (moreSets_rest hb x hx)

/-- The pieces together with the pending ones are no longer than the text. -/
theorem joinS_single_length (c : Char) (l : List Str) :
    (joinS [c] l).length + 1 ≤ (l.map (fun t => t.length + 1)).sum + 1 := by
  induction l with
  | nil => simp [joinS]
  | cons x xs ih =>
    cases xs with
    | nil => simp [joinS]
    | cons y ys => simp only [joinS, List.length_append, List.map_cons, List.sum_cons, List.length_cons,
                     List.length_nil] at ih ⊢; omega

theorem imageTokensLoop_mem {sep : Char} {n : Int} {cur l r : List Str}
    (h : imageTokensLoop sep n cur l = .ok r) :
    ∀ t ∈ r, t.length ≤ (cur.map (fun t => t.length + 1)).sum + (l.map (fun t => t.length + 1)).sum := by
  induction l generalizing n cur r with
  | nil => simp only [imageTokensLoop, Outcome.ok.injEq] at h; subst h; simp
  | cons x xs ih =>
    simp only [imageTokensLoop] at h
    generalize (if '[' ∈ x then n + 1 else n) = n1 at h
    generalize (if ']' ∈ x then n1 - 1 else n1) = n2 at h
    split at h
    · simp at h
    · split at h
      · simp at h
      · split at h
        · simp only [bind_eq_ok, pure_eq_ok] at h
          obtain ⟨a, ha, hr⟩ := h
          simp at hr; subst hr
          intro t ht
          simp only [List.mem_cons] at ht
          rcases ht with rfl | ht
          · have := joinS_single_length sep (cur ++ [x])
            simp only [List.map_append, List.sum_append, List.map_cons, List.map_nil, List.sum_cons,
              List.sum_nil] at this ⊢
            omega
          · have := ih ha t ht
            simp only [List.map_nil, List.sum_nil, List.map_cons, List.sum_cons] at this ⊢
            omega
        · intro t ht
          have := ih h t ht
          simp only [List.map_append, List.sum_append, List.map_cons, List.map_nil, List.sum_cons,
            List.sum_nil] at this ⊢
          omega

theorem splitP_sum (p : Char → Bool) (s : Str) :
    ((splitP p s).map (fun t => t.length + 1)).sum = s.length + 1 := by
  induction s with
  | nil => simp [splitP]
  | cons c cs ih =>
    cases hc : p c with
    | true => rw [splitP_cons_true hc]; simp [ih]; omega
    | false =>
      obtain ⟨x, xs, h1, h2⟩ := splitP_cons_false (s := cs) hc
      rw [h2]; rw [h1] at ih; simp at ih ⊢; omega

theorem imageTokens_mem {sep : Char} {s : Str} {r : List Str} (h : imageTokens s sep = .ok r) :
    ∀ t ∈ r, t.length ≤ s.length + 1 := by
  intro t ht
  have := imageTokensLoop_mem h t ht
  simp only [List.map_nil, List.sum_nil, splitC, splitP_sum] at this
  omega

theorem np_parseSecondSetList [Env] {l : List Str} (h : ∀ t ∈ l, t.length + 1 < 2^31) (d) :
    NP (parseSecondSetList d l) := by
  unfold parseSecondSetList
  split
  · np
  · refine NP.bind (np_parseSingleDirection _) fun _ _ => ?_
    split
    · np
    · exact np_parseSetList fun x hx => h x (by simp [hx])

theorem np_parseImageAttr [Env] {s : Str} (h : s.length + 2 < 2^31) : NP (parseImageAttr s) := by
  unfold parseImageAttr
  refine NP.bind (np_imageTokens (by omega) _) fun l hl => ?_
  have hm := imageTokens_mem hl
  split
  · np
  · refine NP.bind (np_parsePayloadType _) fun _ _ => ?_
    split
    · np
    · rename_i ts _ _ t1 ts'
      refine NP.bind (np_parseSingleDirection _) fun _ _ => ?_
      have hb : ∀ t ∈ ts', t.length + 1 < 2^31 := fun t ht => by
        have := hm t (by simp [ht]); omega
      refine NP.bind (np_parseSetList hb) fun r hr => ?_
      refine NP.bind (np_parseSecondSetList (fun t ht => hb t (parseSetList_rest hr t ht)) _) fun _ _ => ?_
      np

theorem np_parseMsid (s : Str) : NP (parseMsid s) := by unfold parseMsid; np

theorem np_parseMsidSemantic (s : Str) : NP (parseMsidSemantic s) := by
  unfold parseMsidSemantic; simp only []
  cases splitWs s with
  | nil => simp; np
  | cons x xs => simp; np <;> first | exact NP.idx (by simp) | exact NP.sliceFrom (by simp)

theorem np_ridParam (st : RidState) (p : Str) : NP (ridParam st p) := by
  unfold ridParam; simp only []; np

theorem np_ridParamList (st : RidState) (l : List Str) : NP (ridParamList st l) := by
  induction l generalizing st with
  | nil => simp only [ridParamList]; np
  | cons t ts ih => simp only [ridParamList]; exact NP.bind (np_ridParam _ _) fun a _ => ih a

theorem np_ridFormats (l : List Str) : NP (ridFormats l) := by
  unfold ridFormats
  np
  exact NP.collect fun _ _ => np_parseU16 _

theorem np_parseRid (s : Str) : NP (parseRid s) := by
  unfold parseRid; simp only []
  have h1 := np_ridFormats; have h2 := np_ridParamList; have h3 := np_parseSingleDirection
  np <;> first | apply h1 | apply h2 | apply h3

theorem np_parseRemoteCandidates [Env] (s : Str) : NP (parseRemoteCandidates s) := by
  unfold parseRemoteCandidates
  have h1 := np_parseUnicastAddress
  np <;> apply h1

theorem np_parseRtpmap (s : Str) : NP (parseRtpmap s) := by unfold parseRtpmap; np

theorem np_parseRtcp [Env] (s : Str) : NP (parseRtcp s) := by
  unfold parseRtcp
  have h1 := np_parseNetworkType; have h2 := np_parseAddrType; have h3 := np_typedTryFrom
  np <;> first | apply h1 | apply h2 | apply h3

theorem np_parseFbType [Env] (t) : NP (parseFbType t) := by unfold parseFbType; np
theorem np_parseFbParam [Env] (ty t) : NP (parseFbParam ty t) := by unfold parseFbParam; np

theorem np_parseRtcpFb [Env] (s : Str) : NP (parseRtcpFb s) := by
  unfold parseRtcpFb; simp only []
  refine NP.bind (np_parseFbType _) fun _ h => NP.bind (np_parseFbParam _ _) fun _ _ => ?_
  have hl : 0 < (splitn 4 ' ' s).length := List.length_pos_iff.2 (splitn_succ_ne_nil 3 _ _)
  exact NP.bind (NP.idx hl) fun _ _ => NP.bind (np_parsePayloadType _) fun _ _ => NP.pure _

theorem np_parseSctpmap [Env] (s : Str) : NP (parseSctpmap s) := by unfold parseSctpmap; simp only []; np
theorem np_parseSetup [Env] (s : Str) : NP (parseSetup s) := by unfold parseSetup; simp only []; np

theorem np_parseVersionList [Env] (s : Str) : NP (parseVersionList s) := by
  unfold parseVersionList
  by_cases h : '=' ∈ s
  · obtain ⟨p, q, h1, _⟩ := splitn_two_of_mem h
    rw [if_pos h, h1]
    refine NP.bind (NP.unwrap (by simp)) fun _ _ => ?_
    split
    · exact NP.bind (NP.unwrap (by simp)) fun _ _ => NP.pure _
    · np
  · rw [if_neg h]; np

theorem np_parseSecondVersionList [Env] (d) (l : List Str) : NP (parseSecondVersionList d l) := by
  unfold parseSecondVersionList
  have h1 := np_parseSingleDirection; have h2 := np_parseVersionList
  np <;> first | apply h1 | apply h2

theorem np_parseSimulcast [Env] (s : Str) : NP (parseSimulcast s) := by
  unfold parseSimulcast
  have h1 := np_parseSingleDirection; have h2 := np_parseVersionList; have h3 := np_parseSecondVersionList
  np <;> first | apply h1 | apply h2 | apply h3

theorem np_parseAttrValue [Env] (t : AttributeType) {v : Str} (h : v.length + 2 < 2^31) :
    NP (parseAttrValue t v) := by
  cases t <;> simp only [parseAttrValue] <;>
    first
    | exact NP.ok _
    | exact np_parseDtlsMessage _ | exact np_parseImageAttr h | exact np_parseMsidSemantic _
    | exact np_parseIcePacing _ | exact np_parseRid _ | exact np_parseSsrcGroup _
    | exact np_parseSctpPort _ | exact np_parseCandidate _ | exact np_parseExtmap _
    | exact np_parseFingerprint _ | exact np_parseFmtp _ | exact np_parseFramerate _
    | exact np_parseGroup _ | exact np_parseIceOptions _ | exact np_parseMsid _
    | exact np_parseRemoteCandidates _ | exact np_parseRtpmap _ | exact np_parseRtcp _
    | exact np_parseRtcpFb _ | exact np_parseSctpmap _ | exact np_parseSetup _
    | exact np_parseSimulcast _
    | exact NP.bind (np_parseSsrc _) fun _ _ => NP.pure _
    | exact NP.bind (np_stringOrEmpty _) fun _ _ => NP.pure _
    | exact NP.bind (np_parseU64 _) fun _ _ => NP.pure _

end Sdp
