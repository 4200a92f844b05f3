import Verif.Props.RfcMore
import Verif.Props.Attrs
import Verif.Props.Grammar2
import Verif.Spec.RfcWritten
import Verif.Lemmas.Print3
import Verif.Lemmas.Clean
/-!
# C111: what is written for format parameters of the standards follows the standards
-/

namespace Sdp

open Abnf

/-! ## Parameters that are written -/

/-- A parameter without a space. -/
private def Good (t : Str) : Prop := Rfc.parameter t ∧ ' ' ∉ t

private theorem spaceless_number (n : Nat) : ' ' ∉ showNat n := fun h => absurd (showNat_digits h) (by decide)

private theorem good_number {m : Str} {max n : Nat} {names : List Str} (hm : m ∈ names) (hs : ' ' ∉ m) (hn : n ≤ max)
    (hp : ∀ t, seq [Rfc.oneOf names, exactly ['='], number max] t → Rfc.parameter t) : Good (m ++ '=' :: showNat n) := by
  refine ⟨hp _ ?_, ?_⟩
  · exact rfc_seq_cons (u := m) ⟨_, List.mem_map_of_mem hm, rfl⟩
      (rfc_seq_cons (u := ['=']) rfl (rfc_seq_one (rfc_number_show hn)))
  · have := spaceless_number n
    simp [hs, this]

private theorem hex_length {n : Nat} (h : n ≤ 0xffffff) : (showHexPad 6 n).length = 6 := by
  have h1 : (Nat.toDigits 16 n).length ≤ 6 := Nat.toDigits_length 16 n 6 (by decide) (by omega)
  unfold showHexPad padLeft
  simp
  omega

private theorem hex_char {c : Char} (h : IsHexDigit c) : (c.isDigit || c ∈ c%"abcdefABCDEF") = true := by
  rcases h with h | ⟨h1, h2⟩ | ⟨h1, h2⟩
  · simp [h]
  · have h1 : 97 ≤ c.toNat := h1
    have h2 : c.toNat ≤ 102 := h2
    have key : ∀ k < 128, 97 ≤ k → k ≤ 102 → ((Char.ofNat k).isDigit || Char.ofNat k ∈ c%"abcdefABCDEF") = true := by decide +kernel
    simpa using key c.toNat (by omega) h1 h2
  · have h1 : 65 ≤ c.toNat := h1
    have h2 : c.toNat ≤ 70 := h2
    have key : ∀ k < 128, 65 ≤ k → k ≤ 70 → ((Char.ofNat k).isDigit || Char.ofNat k ∈ c%"abcdefABCDEF") = true := by decide +kernel
    simpa using key c.toNat (by omega) h1 h2

private theorem good_hex {n : Nat} (h : n ≤ 0xffffff) : Good (c%"profile-level-id=" ++ showHexPad 6 n) := by
  refine ⟨⟨_, .tail _ (.tail _ (.tail _ (.tail _ (.head _)))), ?_⟩, ?_⟩
  · exact rfc_seq_cons (u := c%"profile-level-id") rfl (rfc_seq_cons (u := ['=']) rfl (rfc_seq_one
      (rfc_reps_of ⟨by rw [hex_length h], by rw [hex_length h], fun c hc => hex_char (hexPad_chars hc)⟩)))
  · have : ' ' ∉ showHexPad 6 n := fun h => absurd (hexPad_chars h) (by unfold IsHexDigit; decide)
    simp [this]

private theorem good_u32 {m nm : Str} {v d : UInt32} (hnm : nm = m ++ ['=']) (hm : m ∈ Rfc.numberParameters) (hs : ' ' ∉ m) :
    maybeParam nm v d = [] ∨ Good (maybeParam nm v d) := by
  unfold maybeParam
  by_cases h : v = d
  · exact .inl (by simp [h])
  · right
    rw [if_pos h, hnm]
    have := good_number (max := 2 ^ 32 - 1) hm hs (Nat.le_of_lt_succ v.toNat_lt) fun t h => ⟨_, .head _, h⟩
    simpa using this

private theorem good_bool {m : Str} {v : Bool} (hm : m ∈ Rfc.switchParameters) (hs : ' ' ∉ m) :
    maybeBool m v false = [] ∨ Good (maybeBool m v false) := by
  cases v with
  | false => exact .inl rfl
  | true =>
    right
    have := good_number (n := 1) hm hs (Nat.le_refl 1) fun t h => ⟨_, .tail _ (.head _), h⟩
    simpa [maybeBool] using this

private theorem good_opt {m nm : Str} {names : List Str} {max : Nat} {v : Option UInt8} (hnm : nm = m ++ ['=']) (hm : m ∈ names)
    (hs : ' ' ∉ m) (hv : ∀ x, v = some x → x.toNat ≤ max)
    (hp : ∀ t, seq [Rfc.oneOf names, exactly ['='], number max] t → Rfc.parameter t) :
    optStr nm showU8 v = [] ∨ Good (optStr nm showU8 v) := by
  cases v with
  | none => exact .inl rfl
  | some x =>
    right
    have := good_number hm hs (hv x rfl) hp
    simpa [optStr, hnm, showU8] using this

private theorem good_piece {p : FmtpParams} (hr : FmtpInRange p) (f : FmtpField) : pieceOf p f = [] ∨ Good (pieceOf p f) := by
  cases f with
  | apt => exact .inl rfl
  | profileLevelId =>
    by_cases h : showHexPad 6 p.profileLevelId.toNat = c%"42000a"
    · exact .inl (by simp [pieceOf, maybeParamS, h])
    · right
      have := good_hex hr.profileLevelId
      simpa [pieceOf, maybeParamS, h] using this
  | packetizationMode =>
    show maybeParam _ _ _ = [] ∨ Good (maybeParam _ _ _)
    unfold maybeParam
    by_cases h : p.packetizationMode = 0
    · exact .inl (by simp [h])
    · right
      rw [if_pos h]
      have := good_number (m := c%"packetization-mode") (names := Rfc.modeParameters) (by decide) (by decide) hr.packetizationMode
        fun t h => ⟨_, .tail _ (.tail _ (.head _)), h⟩
      simpa using this
  | levelAsymmetryAllowed => exact good_bool (by decide) (by decide)
  | usedtx => exact good_bool (by decide) (by decide)
  | stereo => exact good_bool (by decide) (by decide)
  | useinbandfec => exact good_bool (by decide) (by decide)
  | cbr => exact good_bool (by decide) (by decide)
  | maxMbps => exact good_u32 (m := c%"max-mbps") rfl (by decide) (by decide)
  | maxFs => exact good_u32 (m := c%"max-fs") rfl (by decide) (by decide)
  | maxCpb => exact good_u32 (m := c%"max-cpb") rfl (by decide) (by decide)
  | maxDpb => exact good_u32 (m := c%"max-dpb") rfl (by decide) (by decide)
  | maxBr => exact good_u32 (m := c%"max-br") rfl (by decide) (by decide)
  | maxFr => exact good_u32 (m := c%"max-fr") rfl (by decide) (by decide)
  | maxplaybackrate => exact good_u32 (m := c%"maxplaybackrate") rfl (by decide) (by decide)
  | maxaveragebitrate => exact good_u32 (m := c%"maxaveragebitrate") rfl (by decide) (by decide)
  | ptime => exact good_u32 (m := c%"ptime") rfl (by decide) (by decide)
  | minptime => exact good_u32 (m := c%"minptime") rfl (by decide) (by decide)
  | maxptime => exact good_u32 (m := c%"maxptime") rfl (by decide) (by decide)
  | profile => exact good_opt (m := c%"profile") rfl (names := Rfc.modeParameters) (by decide) (by decide) hr.profile <|
      fun t h => ⟨_, .tail _ (.tail _ (.head _)), h⟩
  | levelIdx =>
    refine good_opt (m := c%"level-idx") rfl (names := [c%"level-idx"]) (by decide) (by decide) hr.levelIdx ?_
    rintro t ⟨u, w, e, ⟨r, hr, hu⟩, h⟩
    obtain rfl := List.mem_singleton.1 hr
    exact ⟨_, .tail _ (.tail _ (.tail _ (.head _))), u, w, e, hu, h⟩
  | tier => exact good_opt (m := c%"tier") rfl (names := Rfc.switchParameters) (by decide) (by decide) hr.tier <|
      fun t h => ⟨_, .tail _ (.head _), h⟩

private def valueChar (c : Char) : Bool := (Rfc.isVchar c || (0x80 ≤ c.toNat && !isWs c)) && c != ';'

/-- Parameters that are not known, with commas between them, are one parameter. -/
private theorem good_unknown {l : List Str} (hl : l ≠ []) (h : ∀ t ∈ l, Rfc.unknownParameter t) : Good (joinS [','] l) := by
  have chars : ∀ t, Rfc.unknownParameter t → ∀ c ∈ t, valueChar c = true := by
    rintro t ⟨n, _, rfl, ⟨hn, -⟩, _, _, rfl, rfl, v, _, rfl, hv, rfl⟩ c hc
    simp only [List.mem_append, List.mem_singleton, List.not_mem_nil, or_false] at hc
    rcases hc with hc | rfl | hc
    · have h1 := tokenChar ((rep_char.1 hn).2 c hc)
      have h2 : c ≠ ';' := fun e => token_not_mem hn (c := ';') (by simp) (e ▸ hc)
      have := h1.1
      simp only [valueChar, Rfc.isVchar, Bool.and_eq_true, Bool.or_eq_true, decide_eq_true_eq, bne_iff_ne]
      exact ⟨.inl (by omega), h2⟩
    · rfl
    · exact (rep_char.1 hv).2 c hc
  have space : ∀ c, valueChar c = true → c ≠ ' ' := by rintro c h rfl; exact absurd h (by decide)
  cases l with
  | nil => exact absurd rfl hl
  | cons t l =>
    have hu := h t (by simp)
    have h1 : Rfc.unknownParameter (joinS [','] (t :: l)) := by
      rw [← joinS_words]
      obtain ⟨n, _, e, hn, _, _, rfl, rfl, v, _, rfl, hv, rfl⟩ := hu
      rw [e, List.append_assoc]
      refine rfc_seq_cons hn ?_
      rw [List.append_assoc]
      refine rfc_seq_cons rfl ?_
      rw [List.append_nil]
      refine rfc_seq_one (rep_char.2 ⟨Nat.zero_le _, ?_⟩)
      intro c hc
      rcases List.mem_append.1 hc with hc | hc
      · exact (rep_char.1 hv).2 c hc
      · obtain ⟨w, hw, hc⟩ := List.mem_flatten.1 hc
        obtain ⟨w, hw', rfl⟩ := List.mem_map.1 hw
        rcases List.mem_cons.1 hc with rfl | hc
        · rfl
        · exact chars w (h w (by simp [hw'])) c hc
    exact ⟨⟨_, .tail _ (.tail _ (.tail _ (.tail _ (.tail _ (.tail _ (.head _)))))), h1⟩,
      fun hm => space _ (chars _ h1 _ hm) rfl⟩

/-- Parameters with semicolons between them. -/
private theorem good_list {l : List Str} (hl : l ≠ []) (h : ∀ t ∈ l, Good t) :
    Rfc.parameters (joinS [';'] l) ∧ ' ' ∉ joinS [';'] l := by
  refine ⟨?_, fun hm => ?_⟩
  · cases l with
    | nil => exact absurd rfl hl
    | cons a l =>
      rw [← joinS_words]
      refine ⟨_, .head _, rfc_seq_cons (h a (by simp)).1 ?_⟩
      have := rfc_rep_sep (P := seq [opt Rfc.SP, Rfc.parameter]) (c := ';') (lo := 0) (l := l) (Nat.zero_le _)
        fun w hw => rfc_seq_cons (u := []) (.inl rfl) (rfc_seq_one (h w (by simp [hw])).1)
      obtain ⟨ts, e, h1, h2⟩ := this
      rw [e, ← List.append_nil ts.flatten]
      refine rfc_seq_cons ⟨ts, rfl, h1, fun t ht => ?_⟩ (rfc_seq_one (.inl rfl))
      obtain ⟨u, w, e, hu, w', _, rfl, hw, rfl⟩ := h2 t ht
      exact ⟨u, w', by simpa using e, hu, hw⟩
  · rcases mem_joinS hm with h' | ⟨t, ht, h'⟩
    · simp at h'
    · exact (h t ht).2 h'

/-- The parameters of a retransmission. -/
private theorem good_rtx {r : RtxParams} (h : r.apt.toNat ≤ 127) : Rfc.parameters (showRtx r) ∧ ' ' ∉ showRtx r := by
  have ha : Rfc.aptParameter (c%"apt=" ++ showU8 r.apt) :=
    rfc_seq_cons (u := c%"apt") rfl (rfc_seq_cons (u := ['=']) rfl (rfc_seq_one (rfc_number_show h)))
  have hs : ' ' ∉ showU8 r.apt := spaceless_number _
  unfold showRtx
  cases r.rtxTime with
  | none =>
    refine ⟨⟨_, .head _, ?_⟩, by simp [hs]⟩
    have := rfc_seq_cons (l := [rep 0 (seq [exactly [';'], opt Rfc.SP, Rfc.parameter]), opt (exactly [';'])]) (v := [])
      (a := Rfc.parameter) ⟨_, .tail _ (.tail _ (.tail _ (.tail _ (.tail _ (.head _))))), ha⟩
      ⟨[], [], rfl, ⟨[], rfl, by simp, by simp⟩, [], [], rfl, .inl rfl, rfl⟩
    simpa using this
  | some t =>
    have hs' : ' ' ∉ showU32 t := spaceless_number _
    refine ⟨⟨_, .tail _ (.head _), ?_⟩, by simp [hs, hs']⟩
    have ht : Rfc.rtxTimeParameter (c%"rtx-time=" ++ showU32 t) :=
      rfc_seq_cons (u := c%"rtx-time") rfl
        (rfc_seq_cons (u := ['=']) rfl (rfc_seq_one (rfc_number_show (Nat.le_of_lt_succ t.toNat_lt))))
    refine ⟨[], _, rfl, ⟨[], rfl, by simp, by simp⟩, c%"apt=" ++ showU8 r.apt, c%";rtx-time=" ++ showU32 t, ?_, ha,
      c%";rtx-time=" ++ showU32 t, [], ?_, ⟨[c%";rtx-time=" ++ showU32 t], by simp, by simp, ?_⟩, [], [], rfl, .inl rfl, rfl⟩
    · simp
    · simp
    · intro u hu
      rw [List.mem_singleton.1 hu]
      exact ⟨c%";", c%"rtx-time=" ++ showU32 t, rfl, rfl, [], _, rfl, .inl rfl, _, [], (List.append_nil _).symm,
        ⟨_, .tail _ (.head _), ht⟩, rfl⟩

section
variable [Env]

/-- **C111.** `fmtp` (RFC 8866, 6.15) with no space but the one after the payload type: it is read, and what is written for it
either is nothing at all or follows the same rule. -/
theorem C111_fmtp {v : Str} (h : Rfc.fmtpPlain v) : ∃ f, attrFromStr (c%"fmtp:" ++ v) = .ok (.fmtp f) ∧
    (showAttribute (.fmtp f) = [] ∨ ∃ w, showAttribute (.fmtp f) = c%"fmtp:" ++ w ∧ Rfc.fmtpPlain w) := by
  obtain ⟨h, hc⟩ := h
  obtain ⟨pt, b, f, rfl, hpt, hf, hok, hdec, h⟩ := rfc_fmtp h
  refine ⟨f, hok, ?_⟩
  have hptsp : ' ' ∉ pt := number_not_mem hpt rfl
  have hb : ' ' ∉ b := by
    rw [List.count_append, List.count_cons, List.count_eq_zero.2 hptsp] at hc
    simp only [beq_self_eq_true, if_true] at hc
    exact List.count_eq_zero.1 (by omega)
  have hpay : f.payloadType.toNat ≤ 127 := by
    have := hdec.unique (number_dec hpt).1
    have := hpt.2.2
    omega
  -- what is to be shown of the parameters
  have fin (h : showFmtpParams f.parameters = [] ∨ (alt [Rfc.parameters, Rfc.redundant, Rfc.events] (showFmtpParams f.parameters) ∧
      ' ' ∉ showFmtpParams f.parameters)) :
      showAttribute (.fmtp f) = [] ∨ ∃ w, showAttribute (.fmtp f) = c%"fmtp:" ++ w ∧ Rfc.fmtpPlain w := by
    by_cases hne : showFmtpParams f.parameters = []
    · exact .inl (by simp [showAttribute, showFmtp, hne, attrToString])
    · right
      obtain ⟨h1, h2⟩ := h.resolve_left hne
      have e : showFmtp f = showU8 f.payloadType ++ ' ' :: showFmtpParams f.parameters := by simp [showFmtp, hne]
      refine ⟨showFmtp f, ?_, ?_⟩
      · show attrToString .fmtp (showFmtp f) = _
        rw [rfc_written (by rw [e]; simp)]
        rfl
      · rw [e]
        refine ⟨rfc_seq_cons (rfc_number_show hpay) (rfc_seq_cons (u := c%" ") rfl (rfc_seq_one h1)), ?_⟩
        rw [List.count_append, List.count_cons, List.count_eq_zero.2 h2, List.count_eq_zero.2 (show ' ' ∉ showU8 f.payloadType from spaceless_number _)]
        rfl
  refine fin ?_
  rcases h with ⟨heq, hps⟩ | ⟨ns, hlen, hns, hp⟩ | ⟨s, hs, hsp, hp⟩
  · obtain ⟨-, hv, hu, he, hd⟩ := C54_values hf heq hok
    have hr : FmtpInRange f.parameters := C21_attribute hok
    have hsp : ∀ t ∈ paramsOf b, ' ' ∉ t := by
      intro t ht hm
      unfold paramsOf at ht
      exact NoneHas.splitC hb t (List.mem_of_mem_filter ht) hm
    unfold showFmtpParams
    cases hrtx : f.parameters.rtx with
    | some r =>
      right
      have hapt : r.apt.toNat ≤ 127 := by
        obtain ⟨h1, h2⟩ := hv .apt
        by_cases hex : ∃ t ∈ paramsOf b, paramName t = FmtpField.apt.text
        · obtain ⟨t, ht⟩ := exists_lastWith hex
          obtain ⟨n, hn, hg⟩ := h1 t ht
          obtain ⟨pre, post, e, ht', -⟩ := ht
          obtain ⟨m, hm, hd⟩ := (hps t (by rw [e]; simp)).1 ht'
          have : m = n := hd.unique (by simpa [FmtpField.Notation] using hn)
          simp only [FmtpField.get, hrtx, Option.map_some, Option.some.injEq] at hg
          omega
        · have := h2 fun t ht e => hex ⟨t, ht, e⟩
          simp [FmtpField.get, FmtpField.absent, hrtx] at this
      obtain ⟨h1, h2⟩ := good_rtx hapt
      exact ⟨⟨_, .head _, h1⟩, h2⟩
    | none =>
      simp only [hd, he, List.isEmpty_nil, Bool.not_true, Bool.false_eq_true, if_false]
      by_cases hne : nonEmpty (fmtpPieces f.parameters) = []
      · exact .inl (by rw [hne]; rfl)
      · right
        have hg : ∀ t ∈ nonEmpty (fmtpPieces f.parameters), Good t := by
          intro t ht
          obtain ⟨ht, hne⟩ := List.mem_filter.1 ht
          have hne : t ≠ [] := by simpa using hne
          rw [fmtpPieces_eq] at ht
          rcases List.mem_append.1 ht with ht | ht
          · obtain ⟨k, -, rfl⟩ := List.mem_map.1 ht
            exact (good_piece hr k).resolve_left hne
          · obtain rfl := List.mem_singleton.1 ht
            have hall : ∀ t ∈ f.parameters.unknownTokens, Rfc.unknownParameter t ∧ t ≠ [] := by
              intro t ht
              rw [hu] at ht
              obtain ⟨ht, hn⟩ := List.mem_filter.1 ht
              refine ⟨((hps t ht).2 (by simpa using hn)).resolve_right (hsp t ht), ?_⟩
              have := (List.mem_filter.1 ht).2
              simpa using this
            have hne' : f.parameters.unknownTokens ≠ [] := by
              intro e; rw [e] at hne; exact hne rfl
            have e : maybeVec [] [] c%"," f.parameters.unknownTokens = joinS [','] f.parameters.unknownTokens := by
              have hf : f.parameters.unknownTokens.filter (fun s => !s.isEmpty) = f.parameters.unknownTokens := by
                rw [List.filter_eq_self]; intro t ht; simpa using (hall t ht).2
              unfold maybeVec
              split
              · rename_i e; rw [e]; rfl
              · simp [hf]
            rw [e]
            exact good_unknown hne' fun t ht => (hall t ht).1
        obtain ⟨h1, h2⟩ := good_list hne hg
        exact ⟨⟨_, .head _, h1⟩, h2⟩
  · right
    rw [hp]
    have hne : ns ≠ [] := by rintro rfl; simp at hlen
    have e : showFmtpParams { FmtpParams.default with encodings := ns } = joinS ['/'] (ns.map showU8) := by
      simp [showFmtpParams, FmtpParams.default, hne]
    rw [e]
    refine ⟨⟨_, .tail _ (.head _), ?_⟩, fun hm => ?_⟩
    · cases ns with
      | nil => exact absurd rfl hne
      | cons n ns =>
        rw [List.map_cons, ← joinS_words]
        refine rfc_seq_cons (rfc_number_show (hns n (by simp))) (rfc_seq_one (rfc_rep_sep (by simpa using hlen) fun w hw => ?_))
        obtain ⟨x, hx, rfl⟩ := List.mem_map.1 hw
        exact rfc_number_show (hns x (by simp [hx]))
    · rcases mem_joinS hm with h | ⟨t, ht, h⟩
      · simp at h
      · obtain ⟨x, hx, rfl⟩ := List.mem_map.1 ht
        exact spaceless_number _ h
  · right
    rw [hp]
    have hne : s ≠ [] := by
      obtain ⟨_, _, rfl, ⟨_, _, rfl, hn, -⟩, -⟩ := hs
      simp [hn.1]
    have e : showFmtpParams { FmtpParams.default with dtmfTones := s } = s := by
      simp [showFmtpParams, FmtpParams.default, hne]
    rw [e]
    refine ⟨⟨_, .tail _ (.tail _ (.head _)), hs⟩, hsp⟩

end

/-! ## Concrete cases -/

section
attribute [local instance] sampleEnv

example : Rfc.fmtpPlain c%"102 level-asymmetry-allowed=1;profile-level-id=42e01f;x-google-min-bitrate=1000" := by
  refine ⟨?_, by decide⟩
  exact ⟨c%"102", _, rfl, by unfold number; decide, c%" ", _, rfl, rfl,
    c%"level-asymmetry-allowed=1;profile-level-id=42e01f;x-google-min-bitrate=1000", [], rfl, ⟨_, .head _, ⟨_, .head _,
      c%"level-asymmetry-allowed=1", _, rfl,
      ⟨_, .tail _ (.head _), c%"level-asymmetry-allowed", _, rfl, ⟨_, List.mem_map_of_mem (.head _), rfl⟩, c%"=", _, rfl, rfl,
        c%"1", [], rfl, by unfold number; decide, rfl⟩,
      c%";profile-level-id=42e01f;x-google-min-bitrate=1000", [], rfl,
      ⟨[c%";profile-level-id=42e01f", c%";x-google-min-bitrate=1000"], rfl, by decide, by
        intro t ht
        simp only [List.mem_cons, List.not_mem_nil, or_false] at ht
        rcases ht with rfl | rfl
        · exact ⟨c%";", _, rfl, rfl, [], _, rfl, .inl rfl, c%"profile-level-id=42e01f", [], rfl,
            ⟨_, .tail _ (.tail _ (.tail _ (.tail _ (.head _)))), c%"profile-level-id", _, rfl, rfl, c%"=", _, rfl, rfl,
              c%"42e01f", [], rfl, rfc_reps_of (by decide), rfl⟩, rfl⟩
        · exact ⟨c%";", _, rfl, rfl, [], _, rfl, .inl rfl, c%"x-google-min-bitrate=1000", [], rfl,
            ⟨_, .tail _ (.tail _ (.tail _ (.tail _ (.tail _ (.tail _ (.head _)))))), c%"x-google-min-bitrate", _, rfl,
              ⟨rep_char.2 (by decide), by unfold word; decide⟩, c%"=", _, rfl, rfl,
              c%"1000", [], rfl, rep_char.2 (by decide), rfl⟩, rfl⟩⟩,
      [], [], rfl, .inl rfl, rfl⟩⟩, rfl⟩

/-- **C111.** With a space after a semicolon, the parameter after it is taken for one that the library does not know, and what is
written has the space after a comma. -/
theorem C111_fmtp_space : ∃ f, attrFromStr c%"fmtp:96 x=1; stereo=1" = .ok (.fmtp f) ∧
    showAttribute (.fmtp f) = c%"fmtp:96 x=1, stereo=1" := by
  have key : (match attrFromStr c%"fmtp:96 x=1; stereo=1" with
      | .ok (.fmtp f) => decide (showAttribute (.fmtp f) = c%"fmtp:96 x=1, stereo=1")
      | _ => false) = true := by decide +kernel
  split at key
  · rename_i f e; exact ⟨f, e, of_decide_eq_true key⟩
  · cases key

end

end Sdp
