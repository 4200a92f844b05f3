import Verif.Lemmas.Fault2
import Verif.Lemmas.Recase
/-!
# Which error an attribute gives
-/

namespace Sdp

theorem upTo_eq {c : Char} {a b : Str} (h : c ∉ a) : upTo c (a ++ c :: b) = a := by
  unfold upTo
  rw [List.takeWhile_append_of_pos (fun x hx => by simpa using fun e : x = c => h (e ▸ hx))]
  simp

theorem behind_eq {c : Char} {a b : Str} (h : c ∉ a) : behind c (a ++ c :: b) = b := by
  unfold behind
  rw [List.dropWhile_append_of_pos (fun x hx => by simpa using fun e : x = c => h (e ▸ hx))]
  simp

theorem upTo_of_not_mem {c : Char} {a : Str} (h : c ∉ a) : upTo c a = a := by
  unfold upTo
  have := List.takeWhile_append_of_pos (l₂ := []) (p := fun x => decide (x ≠ c)) (l₁ := a)
    (fun x hx => by simpa using fun e : x = c => h (e ▸ hx))
  simpa using this

theorem behind_of_not_mem {c : Char} {a : Str} (h : c ∉ a) : behind c a = [] := by
  unfold behind
  have := List.dropWhile_append_of_pos (l₂ := []) (p := fun x => decide (x ≠ c)) (l₁ := a)
    (fun x hx => by simpa using fun e : x = c => h (e ▸ hx))
  simp only [List.append_nil, List.dropWhile_nil] at this
  rw [this]; rfl

theorem split_upTo {c : Char} {s : Str} (h : c ∈ s) : splitn 2 c s = [upTo c s, behind c s] := by
  obtain ⟨a, b, h1, h2, h3⟩ := splitn_two_of_mem h
  rw [h1, h2, upTo_eq h3, behind_eq h3]

theorem judges_stringOrEmpty (s : Str) :
    Judges (stringOrEmpty s) [wrongIf (s = []) c%"This attribute is required to have a value"] := by
  unfold stringOrEmpty
  exact .check (by simp) fun _ => .ok _

theorem judges_iceOptions (s : Str) :
    Judges (parseIceOptions s) [wrongIf (s = []) c%"ice-options is required to have a value"] := by
  unfold parseIceOptions
  exact .check (by simp) fun _ => .ok _

theorem judges_icePacing (s : Str) :
    Judges (parseIcePacing s) [notNumber 64 s, tooBig s 9999999999 c%"ice-pacing value is not a 10 digit integer"] := by
  unfold parseIcePacing
  refine .bind1 (judges_u64 s) fun n hn => .check ?_ fun _ => .ok _
  rw [big_u64 hn]
  rw [ge_iff_le, UInt64.le_iff_toNat_le]
  rfl

theorem judges_msid (s : Str) :
    Judges (parseMsid s) [wrongIf (splitWs s = []) c%"Msid attribute is missing msid-id token"] := by
  unfold parseMsid
  cases splitWs s with
  | nil => exact .stop fun e => by simp [wrongIf]
  | cons a ts => exact .skip (fun e he => by cases he.1) (.ok _)

theorem judges_msidSemantic (s : Str) :
    Judges (parseMsidSemantic s)
      [wrongIf (splitWs s = []) c%"Msid-semantic attribute is missing msid-semantic token"] := by
  unfold parseMsidSemantic
  cases splitWs s with
  | nil => exact .stop fun e => by simp [wrongIf]
  | cons a ts => exact .skip (fun e he => by cases he.1) (.ok _)

theorem judges_ssrc (s : Str) : Judges (parseSsrc s) [notNumber 32 (upTo ' ' s)] := by
  unfold parseSsrc
  by_cases h : ' ' ∈ s
  · rw [split_upTo h]
    refine .bind1 (judges_u32 _) fun n _ => ?_
    simp only [Ssrc.setAttribute]
    split
    · exact .ok _
    · rename_i hc
      rw [split_upTo (by simpa using hc)]
      exact .ok _
  · rw [splitn_two_of_not_mem h, upTo_of_not_mem h]
    exact .andThen (judges_u32 _)

theorem splitWs_no_space {s t : Str} (h : t ∈ splitWs s) : ' ' ∉ t := by
  intro h'
  exact absurd ((splitWs_mem h).1 _ h') (by decide)

section
variable [Env]

theorem judges_setup (s : Str) :
    Judges (parseSetup s) [wrongIf (∀ x, lower s ≠ setupText x) c%"Unsupported setup value"] := by
  have h : OneError (parseSetup s) (.generic c%"Unsupported setup value") := by
    unfold parseSetup; simp only []; keyword_error
  rcases h with h | ⟨a, h⟩
  · rw [h]
    refine .stop fun e => ?_
    have : ∀ x, lower s ≠ setupText x := fun x hx => by rw [← parseSetup_iff, h] at hx; cases hx
    simp [wrongIf, this]
  · rw [h]
    refine .skip (fun e he => ?_) (.ok _)
    have : ∃ x, a = .setup x := by
      unfold parseSetup at h; simp only [] at h
      split_ifs at h <;> first | (cases h; exact ⟨_, rfl⟩) | cases h
    obtain ⟨x, rfl⟩ := this
    exact he.1 x (parseSetup_iff.1 h)

theorem judges_ssrcGroup (s : Str) : Judges (parseSsrcGroup s) (ssrcGroupFaults (splitWs s)) := by
  unfold parseSsrcGroup ssrcGroupFaults
  have hsp : ∀ t ∈ splitWs s, ' ' ∉ t := fun t ht => splitWs_no_space ht
  generalize splitWs s = ts at hsp
  cases ts with
  | nil => exact .missing (by simp)
  | cons x ts =>
  refine .skip (not_missing (by simp)) (.bind1 (c := unsupportedIf _ _) (.keyword (fun _ => parseSsrcGroupSemantic_iff)
    (by unfold parseSsrcGroupSemantic; simp only []; keyword_error)) fun g _ => ?_)
  refine Judges.bind (cs := ts.map (notNumber 32)) (.collect1 fun t ht => ?_) fun l hl => ?_
  · have := judges_ssrc t
    rwa [upTo_of_not_mem (hsp t (by simp [ht]))] at this
  · have := collect_eq_ok_length hl
    refine .check ?_ fun _ => .ok _
    simp [← this, List.length_eq_zero_iff]

theorem judges_sctpPort (s : Str) : Judges (parseSctpPort s) (sctpPortFaults s) := by
  unfold parseSctpPort sctpPortFaults
  refine .bind1 (judges_u64 s) fun n hn => ?_
  have hb := big_u64 hn 65535
  rw [parseU64_ok] at hn
  split
  · rename_i h
    refine .stop fun e => ?_
    constructor
    · rintro ⟨k, hk, -, rfl⟩; rw [← hn.unique hk]; rfl
    · rintro rfl; exact ⟨_, hn, h, rfl⟩
  · rename_i h
    refine .skip ?_ (.ok _)
    rintro e ⟨k, hk, h0, -⟩
    exact h (hb.1 ⟨k, hk, h0⟩)

theorem judges_candExt (c : Candidate) (n v : Str) : Judges (candExt c n v) (candidateExtensionFaults n v) := by
  unfold candExt candidateExtensionFaults
  simp only []
  by_cases h1 : lower n = c%"generation"
  · rw [if_pos h1, if_pos (.inl h1)]; exact .andThen (judges_u32 v)
  by_cases h2 : lower n = c%"network-cost"
  · rw [if_neg h1, if_pos h2, if_pos (.inr h2)]; exact .andThen (judges_u32 v)
  rw [if_neg h1, if_neg h2, if_neg (not_or.2 ⟨h1, h2⟩)]
  by_cases h3 : lower n = c%"raddr"
  · rw [if_pos h3, if_pos h3]; exact .andThen (judges_address v)
  rw [if_neg h3, if_neg h3]
  by_cases h4 : lower n = c%"rport"
  · rw [if_pos h4, if_pos h4]
    refine .bind1 (judges_u32 v) fun x hx => .check ?_ fun _ => .ok _
    rw [big_u32 hx]; rfl
  rw [if_neg h4, if_neg h4]
  by_cases h5 : lower n = c%"tcptype"
  · rw [if_pos h5, if_pos h5]
    exact .andThen (.keyword (fun _ => parseCandTcpType_ok) (by unfold parseCandTcpType; simp only []; keyword_error))
  rw [if_neg h5, if_neg h5]
  split <;> exact .ok _

theorem judges_candExts (c : Candidate) (ts : List Str) : Judges (candExts c ts) (candidateExtensionsFaults ts) := by
  match ts with
  | [] => exact .ok _
  | [t] => exact .stop fun e => by simp [unsupportedIf]
  | n :: v :: rest =>
    rw [candExts, candidateExtensionsFaults]
    exact .bind (judges_candExt c n v) fun c' _ => judges_candExts c' rest

theorem judges_candidate (s : Str) : Judges (parseCandidate s) (candidateFaults (splitWs s)) := by
  unfold parseCandidate candidateFaults
  generalize splitWs s = ts
  refine .check Iff.rfl fun h => ?_
  rw [idx_item (by omega), idx_item (by omega), idx_item (by omega), idx_item (by omega), idx_item (by omega),
    idx_item (by omega), idx_item (by omega), idx_item (by omega)]
  simp only [ok_bind]
  refine .bind1 (judges_u32 _) fun _ _ => ?_
  refine .bind1 (c := wrongIf _ _) (.keyword (fun _ => parseCandTransport_ok)
    (by unfold parseCandTransport; simp only []; keyword_error)) fun _ _ => ?_
  refine .bind1 (judges_u64 _) fun _ _ => .bind1 (judges_address _) fun _ _ => .bind1 (judges_u32 _) fun p hp => ?_
  refine .check (by rw [big_u32 hp]; rfl) fun _ => .check Iff.rfl fun _ => ?_
  refine .bind1 (c := wrongIf _ _) (.keyword (fun _ => parseCandType_ok)
    (by unfold parseCandType; simp only []; keyword_error)) fun _ _ => ?_
  exact .andThen (judges_candExts _ _)

omit [Env] in
theorem judges_dtlsMessage (s : Str) : Judges (parseDtlsMessage s) (dtlsMessageFaults (splitC ' ' s)) := by
  unfold parseDtlsMessage dtlsMessageFaults
  generalize splitC ' ' s = ts
  refine .check Iff.rfl fun h => ?_
  have h : ts.length = 2 := by simpa using h
  rw [idx_item (by omega), idx_item (by omega)]
  simp only [ok_bind]
  by_cases h1 : item ts 0 = c%"client"
  · rw [if_pos h1]; exact .skip (fun e he => he.1 (by simp [h1])) (.ok _)
  by_cases h2 : item ts 0 = c%"server"
  · rw [if_neg h1, if_pos h2]; exact .skip (fun e he => he.1 (by simp [h2])) (.ok _)
  rw [if_neg h1, if_neg h2]
  exact .stop fun e => by simp [wrongIf, h1, h2]

theorem judges_extmap (s : Str) : Judges (parseExtmap s) (extmapFaults (splitWs s)) := by
  unfold parseExtmap extmapFaults
  have htok : ∀ t ∈ splitWs s, ∀ c ∈ t, isWs c = false := fun t ht => (splitWs_mem ht).1
  generalize splitWs s = ts at htok
  refine .check Iff.rfl fun h => ?_
  rw [idx_item (by omega), idx_item (by omega)]
  simp only [ok_bind]
  have hid : Judges (parseExtmapId (item ts 0)) [notNumber 16 (upTo '/' (item ts 0)),
      wrongIf ('/' ∈ item ts 0 ∧ ∀ d, lower (behind '/' (item ts 0)) ≠ directionText d)
        c%"Unsupported direction in extmap value"] := by
    unfold parseExtmapId
    by_cases hm : '/' ∈ item ts 0
    · rw [if_neg (by simpa using hm), split_upTo hm]
      simp only [idx, List.getElem?_cons_zero, List.getElem?_cons_succ, ok_bind]
      refine .bind1 (judges_u16 _) fun n _ => ?_
      refine .andThen ((Judges.keyword (fun _ => parseExtmapDirection_iff)
        (by unfold parseExtmapDirection; simp only []; keyword_error)).congr fun e => ?_)
      simp only [wrongIf, hm, true_and]
    · rw [if_pos hm, upTo_of_not_mem hm]
      exact .bind1 (judges_u16 _) fun n _ => .skip (fun e he => hm he.1.1) (.ok _)
  refine Judges.bind (cs := [_, _]) hid ?_
  rintro ⟨id, dir⟩ -
  simp only []
  by_cases h2 : ts.length = 2
  · rw [if_pos h2]
    refine .skip ?_ (.ok _)
    rintro e ⟨⟨t, ht, -⟩, -⟩
    rw [List.drop_eq_nil_of_le (by omega)] at ht
    cases ht
  · rw [if_neg h2]
    have hs : (sliceFrom ts 2 : IRes (List Str)) = .ok (ts.drop 2) := by unfold sliceFrom; rw [if_pos (by omega)]
    rw [hs]
    simp only [ok_bind]
    refine .check ?_ fun _ => .ok _
    have hno (c : Char) (hc : isWs c = true) : c ∉ joinS [' '] (ts.drop 2) ∨ c = ' ' := by
      by_cases e : c = ' '
      · exact .inr e
      · left
        rw [mem_joinS_sep e]
        rintro ⟨t, ht, hm⟩
        rw [htok t (List.mem_of_mem_drop ht) c hm] at hc
        cases hc
    have h1 := (hno '\n' (by decide)).resolve_right (by decide)
    have h2 := (hno '\r' (by decide)).resolve_right (by decide)
    have h0 := mem_joinS_sep (d := '\x00') (c := ' ') (by decide) (l := ts.drop 2)
    rw [← h0]
    simp [validByteString, h1, h2]

theorem hashText_inj {a b : HashType} (h : hashText a = hashText b) : a = b := by
  cases a <;> cases b <;> first | rfl | exact absurd h (by decide)

theorem judges_octets {ts : List Str} {ha : HashType} (h : item ts 0 = hashText ha) (s : Str) :
    Judges (parseOctets ha s) ((splitC ':' s).flatMap
      (fun f => [wrongIf (byteLen f ≠ 2) c%"fingerpint's byte tokens must have 2 hexdigits", notHex 8 f]) ++
    [fun e => ∃ h, item ts 0 = hashText h ∧ (splitC ':' s).length ≠ fingerprintBytes h ∧
      e = .generic (c%"fingerprint has " ++ showNat (splitC ':' s).length ++ c%" bytes but should have " ++
       showNat (fingerprintBytes h) ++ c%" bytes")]) := by
  unfold parseOctets
  refine Judges.bind (.collect fun t _ => ?_) fun l hl => ?_
  · unfold parseOctet
    exact .check Iff.rfl fun _ => judges_hexU8 t
  · have hlen := collect_eq_ok_length hl
    rw [octetCount_eq, hlen]
    split
    · rename_i hne
      refine .stop fun e => ?_
      constructor
      · rintro ⟨h', hh', -, rfl⟩
        rw [h] at hh'
        rw [hashText_inj hh']
      · rintro rfl; exact ⟨ha, h, hne, rfl⟩
    · rename_i he
      refine .skip ?_ (.ok _)
      rintro e ⟨h', hh', hne, -⟩
      rw [h] at hh'
      rw [← hashText_inj hh'] at hne
      exact he hne

theorem octets_length {ha : HashType} {s : Str} {l : List UInt8} (h : parseOctets ha s = .ok l) :
    octetCount ha = l.length := by
  unfold parseOctets at h
  obtain ⟨b, -, h⟩ := bind_eq_ok.1 h
  rcases ite_cases h with ⟨-, h⟩ | ⟨h1, h⟩
  · cases h
  · cases h; exact (not_not.1 h1).symm

theorem judges_fingerprint (s : Str) :
    Judges (parseFingerprint s) (fingerprintFaults (splitWs s) (splitC ':' (item (splitWs s) 1))) := by
  unfold parseFingerprint fingerprintFaults
  generalize splitWs s = ts
  refine .check Iff.rfl fun h => ?_
  have h : ts.length = 2 := by simpa using h
  rw [idx_item (by omega), idx_item (by omega)]
  simp only [ok_bind]
  refine .bind1 (c := unsupportedIf _ _) (.keyword (fun _ => parseHashType_iff)
    (by unfold parseHashType; keyword_error)) fun hh hhh => ?_
  rw [parseHashType_iff] at hhh
  have := Judges.bind (f := fun l => (do return .fingerprint (← fingerprintTryFrom hh l) : IRes Attribute)) (ds := [])
    (judges_octets hhh (item ts 1)) fun l hl => by
      unfold fingerprintTryFrom
      rw [if_pos (octets_length hl)]
      exact .ok _
  rwa [List.append_nil] at this

omit [Env] in
theorem judges_frameRate (s : Str) : Judges (parseFramerate s) (frameRateFaults s) := by
  unfold parseFramerate frameRateFaults
  refine .bind1 (judges_f64 s) fun x hx => ?_
  have hx : F64.ofText s = .ok x := by
    unfold parseF64 at hx
    split at hx <;> simp_all
  have key (p : F64 → Prop) : (∃ y, F64Text s y ∧ p y) ↔ p x := by
    constructor
    · rintro ⟨y, hy, h⟩
      rw [← F64.ofText_iff, hx] at hy
      cases hy; exact h
    · exact fun h => ⟨x, F64.ofText_iff.1 hx, h⟩
  refine .check ?_ fun _ => .check ?_ fun _ => .check ?_ fun _ => .ok _
  · rw [key fun x => 0x7ff0000000000000 < x.bits.toNat % 2^63]; simp [F64.isNan]
  · rw [key fun x => x.bits.toNat % 2^63 = 0x7ff0000000000000]; simp [F64.isInf]
  · rw [key fun x => x.bits.toNat % 2^63 = 0]; simp [F64.isZero]

theorem judges_group (s : Str) : Judges (parseGroup s) (groupFaults (splitWs s)) := by
  unfold parseGroup groupFaults
  cases splitWs s with
  | nil => exact .missing (by simp)
  | cons x ts =>
  exact .skip (not_missing (by simp)) (.andThen (.keyword (fun _ => parseGroupSemantic_iff)
    (by unfold parseGroupSemantic; simp only []; keyword_error)))

theorem judges_remoteCandidate (s : Str) : Judges (parseRemoteCandidates s) (remoteCandidateFaults (splitWs s)) := by
  unfold parseRemoteCandidates remoteCandidateFaults
  generalize splitWs s = ts
  cases ts with
  | nil => exact .missing (by simp)
  | cons t0 ts =>
  refine .skip (not_missing (by simp)) (.bind1 (judges_u32 t0) fun _ _ => ?_)
  cases ts with
  | nil => exact .missing (by simp)
  | cons t1 ts =>
  refine .skip (not_missing (by simp)) (.bind1 (judges_address t1) fun _ _ => ?_)
  cases ts with
  | nil => exact .missing (by simp)
  | cons t2 ts =>
  refine .skip (not_missing (by simp)) (.bind1 (judges_u32 t2) fun n hn => ?_)
  exact .check (by rw [show item (t0 :: t1 :: t2 :: ts) 2 = t2 from rfl, big_u32 hn]; rfl) fun _ => .ok _

omit [Env] in
theorem judges_rtpmap (s : Str) :
    Judges (parseRtpmap s) (rtpmapFaults (splitWs s) (splitC '/' (item (splitWs s) 1))) := by
  unfold parseRtpmap rtpmapFaults
  generalize splitWs s = ts
  cases ts with
  | nil => exact .missing (by simp)
  | cons t0 ts =>
  refine .skip (not_missing (by simp)) (.bind1 (judges_u8 t0) fun n hn => ?_)
  refine .check (by rw [show item (t0 :: ts) 0 = t0 from rfl, big_u8 hn]; rfl) fun _ => ?_
  cases ts with
  | nil => exact .missing (by simp)
  | cons t1 ts =>
  refine .skip (not_missing (by simp)) ?_
  rw [show item (t0 :: t1 :: ts) 1 = t1 from rfl]
  dsimp only
  have hne := splitC_ne_nil '/' t1
  generalize splitC '/' t1 = fs at hne
  cases fs with
  | nil => exact absurd rfl hne
  | cons name fs =>
  cases fs with
  | nil => exact .missing (by simp)
  | cons f fs =>
  refine .skip (not_missing (by simp)) (.bind1 (judges_u32 f) fun n hn => ?_)
  cases fs with
  | nil => exact .skip (by simp) (.ok _)
  | cons c fs => exact .andThen ((judges_u32 c).congr fun e => by simp [item])

theorem judges_rtcp (s : Str) : Judges (parseRtcp s) (rtcpFaults (splitWs s)) := by
  unfold parseRtcp rtcpFaults
  generalize splitWs s = ts
  cases ts with
  | nil => exact .missing (by simp)
  | cons t0 ts =>
  refine .skip (not_missing (by simp)) (.bind1 (judges_u16 t0) fun _ _ => ?_)
  cases ts with
  | nil => exact .ok _
  | cons t1 ts =>
  rw [if_neg (by simp)]
  refine .bind1 (judges_network t1) fun _ _ => ?_
  cases ts with
  | nil => exact .missing (by simp)
  | cons t2 ts =>
  refine .skip (not_missing (by simp)) (.bind1 (judges_addrType t2) fun ty hty => ?_)
  cases ts with
  | nil => exact .missing (by simp)
  | cons t3 ts =>
  exact .skip (not_missing (by simp)) (.andThen (judges_typed ty _ _ (addrType_ok hty)))

omit [Env] in
theorem fbText_inj {a b : RtcpFbType} (h : fbText a = fbText b) : a = b := by
  cases a <;> cases b <;> first | rfl | exact absurd h (by decide)

theorem judges_fbParam (t : RtcpFbType) (p : Option Str) : Judges (parseFbParam t p) [feedbackParameterFault t p] := by
  unfold parseFbParam
  cases p with
  | none =>
    cases t <;> first
      | exact .stop fun e => by simp [feedbackParameterFault, FbBare]
      | exact .skip (fun e he => he.1 trivial) (.ok _)
  | some x =>
    have key (P : Prop) [Decidable P] (m : InternalError) (h : P ↔ FbParameter t x)
        (hm : ∀ e, e = m ↔ e = (if t = .trrInt then InternalError.generic else .unsupported)
        (c%"Unknown rtcpfb " ++ fbText t ++ c%" parameter: " ++ debugStr x)) :
        Judges (if P then .ok x else .err m) [feedbackParameterFault t (some x)] := by
      by_cases hp : P
      · rw [if_pos hp]; exact .skip (fun e he => he.1 (h.1 hp)) (.ok _)
      · rw [if_neg hp]
        refine .stop fun e => ?_
        simp only [feedbackParameterFault, ← h, hp, not_false_eq_true, true_and, ← hm]
    cases t
    · exact key _ _ (by simp [FbParameter]) fun e => Iff.rfl
    · exact key _ _ (by simp [FbParameter]) fun e => Iff.rfl
    · exact key _ _ (by simp [FbParameter]) fun e => Iff.rfl
    · refine key _ _ ?_ fun e => Iff.rfl
      simp only [FbParameter]
      constructor
      · intro h
        cases hp : parseU32 x with
        | ok n => exact ⟨_, n.toNat_lt, parseU32_ok.1 hp⟩
        | _ => simp [hp, Outcome.isOk] at h
      · rintro ⟨n, hn, hd⟩
        have : parseU32 x = .ok (UInt32.ofNat n) := parseU32_ok.2 (by rwa [UInt32.toNat_ofNat_of_lt' hn])
        simp [this, Outcome.isOk]
    · have := key False _ (by simp [FbParameter]) fun e => Iff.rfl
      rwa [if_neg not_false] at this
    · have := key False _ (by simp [FbParameter]) fun e => Iff.rfl
      rwa [if_neg not_false] at this

omit [Env] in
theorem rtcpFb_pieces (s : Str) : (splitn 4 ' ' s)[0]? = some (item (splitC ' ' s) 0) ∧
    (splitn 4 ' ' s)[1]? = (splitC ' ' s)[1]? ∧ (splitn 4 ' ' s)[2]? = (splitC ' ' s)[2]? := by
  rcases splitn_splitC ' ' s with ⟨-, h⟩ | ⟨p, b, -, rfl, h, h'⟩
  · rw [(h 3).1, (h 3).2]; simp [item]
  rw [h 2, h']
  refine ⟨by simp [item], ?_⟩
  simp only [List.getElem?_cons_succ]
  rcases splitn_splitC ' ' b with ⟨-, h⟩ | ⟨p, b, -, rfl, h, h'⟩
  · rw [(h 2).1, (h 2).2]; simp
  rw [h 1, h']
  refine ⟨by simp, ?_⟩
  simp only [List.getElem?_cons_succ]
  rcases splitn_splitC ' ' b with ⟨-, h⟩ | ⟨p, b, -, rfl, h, h'⟩
  · rw [(h 1).1, (h 1).2]
  rw [h 0, h']
  simp

theorem judges_rtcpFb (s : Str) : Judges (parseRtcpFb s) (rtcpFbFaults (splitC ' ' s)) := by
  unfold parseRtcpFb rtcpFbFaults
  obtain ⟨h0, h1, h2⟩ := rtcpFb_pieces s
  simp only [h1, h2, idx, h0, ok_bind]
  generalize splitC ' ' s = fs
  by_cases hl : fs.length ≤ 1
  · rw [List.getElem?_eq_none hl]
    exact .missing hl
  · refine .skip (not_missing (by omega)) ?_
    have hi : fs[1]? = some (item fs 1) := by
      rw [item, List.getD_eq_getElem?_getD, List.getElem?_eq_getElem (by omega)]; rfl
    rw [hi]
    refine .bind1 (c := unsupportedIf _ _) (.keyword (fun _ => by rw [parseFbType_iff, Option.some.injEq])
      (by unfold parseFbType; simp only []; keyword_error)) fun t ht => ?_
    rw [parseFbType_iff, Option.some.injEq] at ht
    refine .bind1 ((judges_fbParam t fs[2]?).congr fun e => ?_) fun _ _ => .andThen (judges_payloadType _)
    constructor
    · exact fun h => ⟨t, ht, h⟩
    · rintro ⟨t', ht', h⟩
      rw [ht] at ht'
      rwa [fbText_inj ht']

theorem judges_sctpmap (s : Str) : Judges (parseSctpmap s) (sctpmapFaults (splitWs s)) := by
  unfold parseSctpmap sctpmapFaults
  generalize splitWs s = ts
  refine .check Iff.rfl fun h => ?_
  have h : ts.length = 3 := by simpa using h
  rw [idx_item (by omega), idx_item (by omega), idx_item (by omega)]
  simp only [ok_bind]
  exact .bind1 (judges_u16 _) fun _ _ => .check Iff.rfl fun _ => .andThen (judges_u32 _)

theorem judges_streams (s : Str) : Judges (parseVersionList s) [noStreams s] := by
  unfold parseVersionList
  split
  · rename_i h
    rw [split_upTo h]
    refine .check' ?_ fun _ => .ok _
    simp [h]
  · rename_i h
    exact .skip (fun e he => h he.1.1) (.ok _)

theorem judges_simulcast (s : Str) : Judges (parseSimulcast s) (simulcastFaults (splitWs s)) := by
  unfold parseSimulcast simulcastFaults
  generalize splitWs s = ts
  cases ts with
  | nil => exact .missing (by simp)
  | cons t0 ts =>
  refine .skip (not_missing (by simp)) (.bind1 (judges_direction t0) fun d hd => ?_)
  cases ts with
  | nil => exact .missing (by simp)
  | cons t1 ts =>
  refine .skip (not_missing (by simp)) (.bind1 (judges_streams t1) fun l1 _ => ?_)
  rw [direction_ok] at hd
  have key : Judges (parseSecondVersionList d ts) (if (t0 :: t1 :: ts).length ≤ 2 then [] else
      [noDirection (item (t0 :: t1 :: ts) 2),
       wrongIf (item (t0 :: t1 :: ts) 2 = item (t0 :: t1 :: ts) 0)
         c%"Simulcast attribute has defined two times the same direction",
       missing (t0 :: t1 :: ts) 3 c%"\"Simulcast has defined a second direction but\"\"no second list of simulcast stream versions\"",
       noStreams (item (t0 :: t1 :: ts) 3)]) := by
    unfold parseSecondVersionList
    cases ts with
    | nil => exact .ok _
    | cons t2 ts =>
    rw [if_neg (by simp)]
    refine .bind1 (judges_direction t2) fun d' hd' => .check ?_ fun _ => ?_
    · rw [direction_ok] at hd'
      show t2 = t0 ↔ _
      rw [hd, hd']
      cases d <;> cases d' <;> simp [singleDirectionText]
    cases ts with
    | nil => exact .missing (by simp)
    | cons t3 ts => exact .skip (not_missing (by simp)) (judges_streams t3)
  have := Judges.bind (f := fun l2 => (match d with
      | .send => pure (.simulcast ⟨l1, l2⟩)
      | .recv => pure (.simulcast ⟨l2, l1⟩) : IRes Attribute)) (ds := []) key fun l2 _ => by cases d <;> exact .ok _
  rwa [List.append_nil] at this

end

end Sdp
