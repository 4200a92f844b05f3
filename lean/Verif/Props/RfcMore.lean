import Verif.Spec.RfcMore
import Verif.Props.Rfc
import Verif.Props.Fmtp
import Verif.Props.Float
import Verif.Lemmas.RfcFloat
/-!
# C110: the remaining attributes of the standards are accepted

For each rule of Verif/Spec/RfcMore.lean, as in Verif/Props/Rfc.lean.
-/

namespace Sdp

open Abnf

section
variable [Env]

private theorem attr_at {pre : Str} (name : Str) (he : pre = name ++ [':']) (h1 : ':' ∉ name) (h2 : lower name = name) (v : Str) :
    AttrText (pre ++ v) name (trim v) := by
  have := attr_open h1 h2 v
  rw [he]
  simpa using this

/-! ## Others -/

omit [Env] in
private theorem base64_ws {c : Char} (h : Rfc.isBase64 c = true) : isWs c = false := by
  simp only [Rfc.isBase64, Bool.or_eq_true, beq_iff_eq] at h
  rcases h with ((h | rfl) | rfl) | rfl
  · have := (alphaNumeric h).1; exact vchar_ws (by omega)
  all_goals rfl

theorem rfc_identity {v : Str} (h : Rfc.identity v) :
    ∃ s, attrFromStr (c%"identity:" ++ v) = .ok (.identity s) ∧ Rfc.identity s := by
  obtain ⟨a, _, rfl, ha, o, _, rfl, ho, rfl⟩ := h
  have hat : Token a := token_of_chars ha (by omega) fun c hc => base64_ws hc
  have ht : Trimmed a := by
    obtain ⟨c, r, rfl, hc⟩ := hat.begins
    obtain ⟨r', d, e, hd⟩ := hat.ends
    exact ⟨⟨c, r, rfl, hc⟩, r', d, e, hd⟩
  refine ⟨trim (a ++ (o ++ [])), (C56_texts.2.2.1).2 ⟨attr_at c%"identity" rfl (by decide) rfl _, ?_⟩, ?_⟩
  · rw [rfc_trim_after ht]
    have := hat.1
    simp [this]
  · rw [rfc_trim_after ht, List.append_nil]
    refine rfc_seq_cons ha (rfc_seq_one ?_)
    rcases ho with rfl | ⟨_, _, rfl, rfl, b, _, rfl, hb, rfl⟩
    · exact .inl rfl
    · obtain ⟨w, hw, e⟩ := trimEnd_spec ([' '] ++ (b ++ []))
      cases h : trimEnd ([' '] ++ (b ++ [])) with
      | nil => exact .inl rfl
      | cons c t =>
        rw [h] at e
        simp only [List.append_nil, List.singleton_append, List.cons_append, List.cons.injEq] at e
        obtain ⟨rfl, e⟩ := e
        refine .inr (rfc_seq_cons (u := [' ']) rfl (rfc_seq_one (rep_char.2 ⟨?_, fun c hc => ?_⟩)))
        · cases t with
          | nil =>
            have : trimEnd ([' '] ++ (b ++ [])) = [] := trimEnd_eq_nil.2 fun c hc => by
              simp only [List.nil_append] at e
              simp only [List.append_nil, List.singleton_append, List.mem_cons] at hc
              rcases hc with rfl | hc
              · rfl
              · exact hw c (e ▸ hc)
            rw [h] at this
            cases this
          | cons => simp
        · exact (rep_char.1 hb).2 c (by rw [List.nil_append] at e; rw [e]; simp [hc])

/-- **C110.** `identity` (RFC 8827, 5). -/
theorem C110_identity {v : Str} (h : Rfc.identity v) : ∃ s, attrFromStr (c%"identity:" ++ v) = .ok (.identity s) :=
  let ⟨s, h, _⟩ := rfc_identity h; ⟨s, h⟩

theorem rfc_msid_semantic {v : Str} (h : Rfc.msidSemantic v) :
    ∃ m, attrFromStr (c%"msid-semantic:" ++ v) = .ok (.msidSemantic m) ∧ Rfc.token m.semantic ∧ ∀ i ∈ m.msids, Rfc.token i := by
  obtain ⟨o, _, rfl, ho, a, _, rfl, ha, w, _, rfl, hw, rfl⟩ := h
  obtain ⟨ws, -, hws, rfl⟩ := rep_sep hw
  refine ⟨⟨a, ws⟩, C59_msid_semantic.2 ⟨_, attr_at c%"msid-semantic" rfl (by decide) rfl _, ?_⟩, ha, hws⟩
  show Words _ _
  rw [words_iff, splitWs_trim, List.append_nil]
  have h := splitWs_words (token_token ha) fun w h => token_token (hws w h)
  rcases ho with rfl | rfl
  · exact h
  · rw [splitWs_ws_append (by intro c hc; simp at hc; subst hc; rfl)]
    exact h

/-- **C110.** `msid-semantic` (a draft of RFC 8830). -/
theorem C110_msid_semantic {v : Str} (h : Rfc.msidSemantic v) :
    ∃ m, attrFromStr (c%"msid-semantic:" ++ v) = .ok (.msidSemantic m) :=
  let ⟨m, h, _⟩ := rfc_msid_semantic h; ⟨m, h⟩

/-- **C110.** `sctpmap` (a draft of RFC 8841). -/
theorem C110_sctpmap {v : Str} (h : Rfc.sctpmap v) : ∃ m, attrFromStr (c%"sctpmap:" ++ v) = .ok (.sctpmap m) := by
  obtain ⟨p, _, rfl, hp, _, _, rfl, rfl, n, _, rfl, hn, _, _, rfl, rfl, c, _, rfl, hc, rfl⟩ := h
  obtain ⟨x, hx, -⟩ := number_u16 hp (by omega)
  obtain ⟨y, hy, -⟩ := number_u32 hc (by omega)
  refine ⟨⟨x, y⟩, C64_sctpmap.2 ⟨_, attr_at c%"sctpmap" rfl (by decide) rfl _, p, n, c, ?_, hx, lower_word (by decide) hn, hy⟩⟩
  rw [words_iff, splitWs_trim]
  simp only [List.cons_append, List.nil_append, List.append_nil]
  rw [splitWs_token (number_token hp), splitWs_token (word_token (by decide) (by decide) hn), splitWs_last (number_token hc)]

theorem rfc_dtls_message {v : Str} (h : Rfc.dtlsMessage v) :
    ∃ m, attrFromStr (c%"dtls-message:" ++ v) = .ok (.dtlsMessage m) ∧ Rfc.dtlsMessage (showDtlsMessage m) := by
  have h0 := h
  obtain ⟨d, _, rfl, hd, _, _, rfl, rfl, m, _, rfl, hm, rfl⟩ := h
  have hmt : Token m := token_of_chars hm (by omega) fun c hc => base64_ws hc
  have hms : ' ' ∉ m := fun h => by have := hmt.2 _ h; simp [isWs] at this
  obtain ⟨r, hr, hd⟩ := hd
  simp only [List.mem_cons, List.not_mem_nil, or_false] at hr
  rcases hr with rfl | rfl
  · refine ⟨.client m, C64_dtls_message.2 ⟨_, attr_at c%"dtls-message" rfl (by decide) rfl _, ?_, hms⟩,
      by cases hd; simpa [showDtlsMessage] using h0⟩
    cases hd
    have := rfc_trimmed_between (a := c%"client") ⟨by decide, by decide⟩ hmt [' ']
    simpa using this.trim
  · refine ⟨.server m, C64_dtls_message.2 ⟨_, attr_at c%"dtls-message" rfl (by decide) rfl _, ?_, hms⟩,
      by cases hd; simpa [showDtlsMessage] using h0⟩
    cases hd
    have := rfc_trimmed_between (a := c%"server") ⟨by decide, by decide⟩ hmt [' ']
    simpa using this.trim

/-- **C110.** `dtls-message` (draft-rescorla-dtls-in-sdp). -/
theorem C110_dtls_message {v : Str} (h : Rfc.dtlsMessage v) :
    ∃ m, attrFromStr (c%"dtls-message:" ++ v) = .ok (.dtlsMessage m) :=
  let ⟨m, h, _⟩ := rfc_dtls_message h; ⟨m, h⟩

/-! ## Format parameters -/

/-- What is needed of a parameter in a list. -/
private structure ParamOk (t : Str) : Prop where
  eq : '=' ∈ t
  semi : ';' ∉ t
  ends : EndsClean t
  fields : ∀ f : FmtpField, paramName t = f.text → ∃ n ≤ f.max, f.Notation (paramValue t) n ∧ (f = .apt → n ≤ 127)
  rtx : paramName t = c%"RTX-TIME" → ∃ n < 2 ^ 32, DecText (paramValue t) n
  other : paramName t ∉ fmtpNames → Rfc.unknownParameter t ∨ ' ' ∈ t

/-- A name and a value. -/
private structure NameOk (n v : Str) : Prop where
  ascii : isAscii n = true
  eq : '=' ∉ n
  semi : ';' ∉ n
  vsemi : ';' ∉ v
  ws : ∀ c ∈ v, isWs c = false
  begins : BeginsClean n

omit [Env] in
private theorem NameOk.ends {n v : Str} (h : NameOk n v) : EndsClean (n ++ '=' :: v) := by
  rcases List.eq_nil_or_concat v with rfl | ⟨v, c, rfl⟩
  · exact ⟨n, '=', rfl, rfl⟩
  · exact ⟨n ++ '=' :: v, c, by simp, h.ws c (by simp)⟩

/-- A parameter with a space before it is none of those the library knows. -/
private theorem NameOk.spaced {n v : Str} (h : NameOk n v) :
    ParamOk (' ' :: (n ++ '=' :: v)) ∧ paramName (' ' :: (n ++ '=' :: v)) ≠ c%"RTX-TIME" := by
  have hn : '=' ∉ ' ' :: n := by simpa using h.eq
  have e : paramName (' ' :: (n ++ '=' :: v)) = ' ' :: n.map asciiUpper := by
    have := paramName_eq (v := v) hn
    rw [List.cons_append] at this
    rw [this]
    unfold upper
    have : isAscii (' ' :: n) = true := by
      have := h.ascii
      simp only [isAscii, List.all_cons, Bool.and_eq_true] at this ⊢
      exact ⟨rfl, this⟩
    rw [if_pos this]
    rfl
  have hr : paramName (' ' :: (n ++ '=' :: v)) ≠ c%"RTX-TIME" := by rw [e]; simp
  refine ⟨⟨by simp, ?_, ?_, ?_, fun h => absurd h hr, fun _ => .inr List.mem_cons_self⟩, hr⟩
  · have := h.semi; have := h.vsemi; simp [*]
  · obtain ⟨r, d, e, hd⟩ := h.ends; exact ⟨' ' :: r, d, by rw [e]; rfl, hd⟩
  · intro f hf
    rw [e] at hf
    cases f <;> simp [FmtpField.text] at hf

omit [Env] in
private theorem word_not_mem {m n : Str} (h : word m n) {c : Char} (hc : c.toLower ∉ m.map Char.toLower) : c ∉ n := fun hm =>
  hc (by rw [← h]; exact List.mem_map_of_mem hm)

private theorem named_ok {m n v : Str} (hm : (∀ c ∈ m, 0x21 ≤ c.toNat ∧ c.toNat ≤ 0x7e) ∧ '=' ∉ m.map Char.toLower ∧
    ';' ∉ m.map Char.toLower ∧ m ≠ []) (h : word m n) (hv : ∀ c ∈ v, isWs c = false ∧ c ≠ ';') : NameOk n v ∧ upper n = m.map Char.toUpper := by
  have ha : ∀ c ∈ m, c.toNat < 128 := fun c hc => by have := hm.1 c hc; omega
  exact ⟨⟨ascii_of_word ha h, word_not_mem h hm.2.1, word_not_mem h hm.2.2.1, fun h => (hv _ h).2 rfl, fun c hc => (hv c hc).1,
    (word_token hm.1 hm.2.2.2 h).begins⟩, upper_word ha h⟩

omit [Env] in
private theorem number_chars {max : Nat} {v : Str} (h : number max v) : ∀ c ∈ v, isWs c = false ∧ c ≠ ';' := fun c hc =>
  ⟨(number_token h).2 c hc, fun e => by rw [e] at hc; exact number_not_mem h rfl hc⟩

/-- A parameter whose value is a number. -/
private theorem numeric {m n v : Str} {max : Nat}
    (hm : (∀ c ∈ m, 0x21 ≤ c.toNat ∧ c.toNat ≤ 0x7e) ∧ '=' ∉ m.map Char.toLower ∧ ';' ∉ m.map Char.toLower ∧ m ≠ [])
    (hd : ∀ f ∈ FmtpField.all, m.map Char.toUpper = f.text → f ≠ .profileLevelId ∧ max ≤ f.max ∧ (f = .apt → max ≤ 127))
    (hk : m.map Char.toUpper ∈ fmtpNames) (hmax : max < 2 ^ 32) (hn : word m n) (hv : number max v) :
    NameOk n v ∧ ParamOk (n ++ '=' :: v) ∧ paramName (n ++ '=' :: v) = m.map Char.toUpper := by
  obtain ⟨h1, h2⟩ := named_ok hm hn (number_chars hv)
  have e : paramName (n ++ '=' :: v) = m.map Char.toUpper := by rw [paramName_eq h1.eq, h2]
  refine ⟨h1, ⟨by simp, ?_, h1.ends, ?_, ?_, fun h => absurd (e ▸ hk) h⟩, e⟩
  · have := h1.semi; have := h1.vsemi; simp [*]
  · intro f hf
    obtain ⟨h3, h4, h4'⟩ := hd f (by cases f <;> decide) (e ▸ hf)
    obtain ⟨h5, h6⟩ := number_dec hv
    refine ⟨decValue v, by omega, ?_, fun e => by have := h4' e; omega⟩
    rw [paramValue_eq h1.eq]
    unfold FmtpField.Notation
    rw [if_neg h3]
    exact h5
  · intro _
    obtain ⟨h5, h6⟩ := number_dec hv
    exact ⟨decValue v, by omega, by rwa [paramValue_eq h1.eq]⟩

omit [Env] in
private theorem one_of {m t : Str} {l : List Rule} (h : seq (word m :: l) t) : seq (Rfc.oneOf [m] :: l) t := by
  obtain ⟨u, v, e, h1, h2⟩ := h
  exact ⟨u, v, e, ⟨_, List.mem_cons_self, h1⟩, h2⟩

private theorem upper_lower {n : Str} (h : ∀ c ∈ n, c.toNat < 128) : (upper n).map Char.toLower = n.map Char.toLower := by
  have : isAscii n = true := by simpa [isAscii] using h
  unfold upper
  rw [if_pos this, List.map_map]
  refine List.map_congr_left fun c hc => ?_
  have key : ∀ k < 128, (asciiUpper (Char.ofNat k)).toLower = (Char.ofNat k).toLower := by decide +kernel
  have := key c.toNat (h c hc)
  simpa using this

/-- What is needed of a parameter of the standards. -/
private theorem parameter_ok {t : Str} (h : Rfc.parameter t) :
    ∃ n v, t = n ++ '=' :: v ∧ NameOk n v ∧ ParamOk t ∧ paramName t ≠ c%"RTX-TIME" := by
  obtain ⟨r, hr, h⟩ := h
  have names {names : List Str} {max : Nat}
      (hm : ∀ m ∈ names, (∀ c ∈ m, 0x21 ≤ c.toNat ∧ c.toNat ≤ 0x7e) ∧ '=' ∉ m.map Char.toLower ∧ ';' ∉ m.map Char.toLower ∧ m ≠ [])
      (hd : ∀ m ∈ names, ∀ f ∈ FmtpField.all, m.map Char.toUpper = f.text → f ≠ .profileLevelId ∧ max ≤ f.max ∧ (f = .apt → max ≤ 127))
      (hk : ∀ m ∈ names, m.map Char.toUpper ∈ fmtpNames) (hmax : max < 2 ^ 32) (hr : ∀ m ∈ names, m.map Char.toUpper ≠ c%"RTX-TIME")
      (h : seq [Rfc.oneOf names, exactly ['='], number max] t) :
      ∃ n v, t = n ++ '=' :: v ∧ NameOk n v ∧ ParamOk t ∧ paramName t ≠ c%"RTX-TIME" := by
    obtain ⟨n, _, rfl, ⟨r, hr', hn⟩, _, _, rfl, rfl, v, _, rfl, hv, rfl⟩ := h
    obtain ⟨m, hm', rfl⟩ := List.mem_map.1 hr'
    obtain ⟨h1, h2, h3⟩ := numeric (hm m hm') (hd m hm') (hk m hm') hmax hn hv
    refine ⟨n, v, by simp, h1, by simpa using h2, ?_⟩
    simp only [List.append_nil, List.singleton_append]
    rw [h3]
    exact hr m hm'
  simp only [List.mem_cons, List.not_mem_nil, or_false] at hr
  rcases hr with rfl | rfl | rfl | rfl | rfl | rfl | rfl
  · exact names (by decide) (by decide) (by decide) (by decide) (by decide) h
  · exact names (by decide) (by decide) (by decide) (by decide) (by decide) h
  · exact names (by decide) (by decide) (by decide) (by decide) (by decide) h
  · exact names (names := [c%"level-idx"]) (max := 31) (by decide) (by decide) (by decide) (by decide) (by decide) (one_of h)
  · obtain ⟨n, _, rfl, hn, _, _, rfl, rfl, v, _, rfl, hv, rfl⟩ := h
    obtain ⟨hl, hl', hc⟩ := reps_char hv
    have hx : ∀ c ∈ v, IsHexDigit c ∧ isWs c = false ∧ c ≠ ';' := fun c h => by
      have := hc c h
      simp only [Bool.or_eq_true, decide_eq_true_eq] at this
      rcases this with h | h
      · refine ⟨.inl h, vchar_ws (by have := digit_nat h; omega), ?_⟩
        rintro rfl; simp at h
      · have : ∀ c ∈ c%"abcdefABCDEF", IsHexDigit c ∧ isWs c = false ∧ c ≠ ';' := by
          unfold IsHexDigit; decide
        exact this c (by simpa using h)
    obtain ⟨h1, h2⟩ := named_ok (by decide) hn fun c h => (hx c h).2
    have e : paramName (n ++ '=' :: v) = c%"PROFILE-LEVEL-ID" := by rw [paramName_eq h1.eq, h2]; decide
    refine ⟨n, v, by simp, h1, ?_, ?_⟩
    · simp only [List.append_nil, List.singleton_append]
      refine ⟨by simp, ?_, h1.ends, ?_, fun h => ?_, fun h => absurd (by rw [e]; decide) h⟩
      · have := h1.semi; have := h1.vsemi; simp [*]
      · intro f hf
        rw [e] at hf
        have hf : f = .profileLevelId := by cases f <;> first | rfl | (exact absurd hf (by decide))
        subst hf
        have hlt := hexValue_lt fun c h => (hx c h).1
        rw [show v.length = 6 by omega] at hlt
        refine ⟨hexValue v, Nat.le_of_lt_succ hlt, ?_, by simp⟩
        rw [paramValue_eq h1.eq]
        unfold FmtpField.Notation
        rw [if_pos rfl]
        exact ⟨v, .inl rfl, by rintro rfl; simp at hl, fun c h => (hx c h).1, rfl⟩
      · rw [e] at h; exact absurd h (by decide)
    · simp only [List.append_nil, List.singleton_append]
      rw [e]; decide
  · exact names (names := [c%"apt"]) (max := 127) (by decide) (by decide) (by decide) (by decide) (by decide) (one_of h)
  · have hu := h
    obtain ⟨n, _, rfl, ⟨hn, hk'⟩, _, _, rfl, rfl, v, _, rfl, hv, rfl⟩ := h
    obtain ⟨-, hv⟩ := rep_char.1 hv
    have ha : ∀ c ∈ n, c.toNat < 128 := fun c hc => by
      have := (tokenChar ((rep_char.1 hn).2 c hc)).1
      omega
    have hvc : ∀ c ∈ v, isWs c = false ∧ c ≠ ';' := fun c hc => by
      have := hv c hc
      simp only [Rfc.isVchar, Bool.and_eq_true, Bool.or_eq_true, decide_eq_true_eq, Bool.not_eq_true', bne_iff_ne] at this
      refine ⟨?_, this.2⟩
      rcases this.1 with h | h
      · exact vchar_ws h
      · exact h.2
    have h1 : NameOk n v := ⟨by simpa [isAscii] using ha, token_not_mem hn (by simp), token_not_mem hn (by simp),
      fun h => (hvc _ h).2 rfl, fun c hc => (hvc c hc).1, (token_token hn).begins⟩
    have hno : ∀ k ∈ fmtpNames, paramName (n ++ '=' :: v) ≠ k := by
      intro k hk e
      rw [paramName_eq h1.eq] at e
      have : ∀ k ∈ fmtpNames, ∃ m ∈ Rfc.knownParameters, k.map Char.toLower = m.map Char.toLower := by decide
      obtain ⟨m, hm, e'⟩ := this k hk
      refine hk' m hm ?_
      unfold word
      rw [← e', ← e, upper_lower ha]
    refine ⟨n, v, by simp, h1, ?_, ?_⟩
    · simp only [List.append_nil, List.singleton_append]
      refine ⟨by simp, ?_, h1.ends, ?_, fun h => ?_, fun _ => .inl (by simpa using hu)⟩
      · have := h1.semi; have := h1.vsemi; simp [*]
      · intro f hf
        exact absurd hf (hno _ (by cases f <;> decide))
      · exact absurd h (hno _ (by decide))
    · simp only [List.append_nil, List.singleton_append]
      exact hno _ (by decide)

private theorem is_fmtp {pt b : Str} (hpt : number 127 pt) (hb : EndsClean b) : IsFmtp (c%"fmtp:" ++ (pt ++ ' ' :: b)) pt b := by
  refine ⟨c%"fmtp", pt ++ ' ' :: b, rfl, by decide, rfl, ?_, number_not_mem hpt rfl⟩
  obtain ⟨c, r, rfl, hc⟩ := (number_token hpt).begins
  obtain ⟨r', d, rfl, hd⟩ := hb
  exact Trimmed.trim ⟨⟨c, _, rfl, hc⟩, c :: r ++ ' ' :: r', d, by simp, hd⟩

private theorem is_ok {l pt b : Str} (h : IsFmtp l pt b) {a : Attribute} (ha : attrFromStr l = .ok a) : ∃ f, attrFromStr l = .ok (.fmtp f) := by
  rw [fmtp_parse h] at ha ⊢
  simp only [bind_eq_ok, pure_eq_ok] at ha ⊢
  obtain ⟨p, hp, x, hx, -⟩ := ha
  exact ⟨_, p, hp, x, hx, rfl⟩

/-- What is read from an `fmtp` of the standards: parameters, encodings or events. -/
def FmtpRead (v : Str) : Prop :=
  ∃ pt b f, v = pt ++ ' ' :: b ∧ number 127 pt ∧ IsFmtp (c%"fmtp:" ++ v) pt b ∧ attrFromStr (c%"fmtp:" ++ v) = .ok (.fmtp f) ∧
    DecText pt f.payloadType.toNat ∧
    (('=' ∈ b ∧ ∀ t ∈ paramsOf b, (paramName t = c%"APT" → ∃ n ≤ 127, DecText (paramValue t) n) ∧
        (paramName t ∉ fmtpNames → Rfc.unknownParameter t ∨ ' ' ∈ t)) ∨
      (∃ ns : List UInt8, 2 ≤ ns.length ∧ (∀ n ∈ ns, n.toNat ≤ 127) ∧ f.parameters = { FmtpParams.default with encodings := ns }) ∨
      ∃ s, Rfc.events s ∧ ' ' ∉ s ∧ f.parameters = { FmtpParams.default with dtmfTones := s })

private theorem list_ok {pt : Str} {ps : List Str} (hpt : number 127 pt) (hne : ps ≠ []) (h : ∀ t ∈ ps, ParamOk t)
    (hr : ∀ pre t post, ps = pre ++ t :: post → paramName t = c%"RTX-TIME" → ∃ q ∈ pre, paramName q = c%"APT")
    {o : Str} (ho : opt (exactly [';']) o) : FmtpRead (pt ++ ' ' :: (joinS [';'] ps ++ o)) := by
  have hfilter : ps.filter (fun t => !t.isEmpty) = ps := List.filter_eq_self.2 fun t ht => by
    have := (h t ht).eq
    cases t <;> simp_all
  have hs : ∀ t ∈ ps, ';' ∉ t := fun t ht => (h t ht).semi
  have hb : EndsClean (joinS [';'] ps ++ o) ∧ paramsOf (joinS [';'] ps ++ o) = ps ∧ '=' ∈ joinS [';'] ps ++ o := by
    have heq : '=' ∈ joinS [';'] ps := by
      cases ps with
      | nil => exact absurd rfl hne
      | cons p ps =>
        have := (h p (by simp)).eq
        cases ps <;> simp [joinS, this]
    rcases ho with rfl | rfl
    · refine ⟨?_, ?_, by simpa using heq⟩
      · rw [List.append_nil]
        clear hfilter hr heq hs
        induction ps with
        | nil => exact absurd rfl hne
        | cons p ps ih =>
          cases ps with
          | nil => exact (h p (by simp)).ends
          | cons q ps =>
            obtain ⟨r, d, e, hd⟩ := ih (by simp) fun t ht => h t (by simp [ht])
            refine ⟨p ++ [';'] ++ r, d, ?_, hd⟩
            rw [show joinS [';'] (p :: q :: ps) = p ++ [';'] ++ joinS [';'] (q :: ps) from rfl, e]
            simp
      · unfold paramsOf
        rw [List.append_nil, splitC_joinS hne hs, hfilter]
    · refine ⟨⟨_, ';', rfl, rfl⟩, ?_, by simp [heq]⟩
      unfold paramsOf
      have e : joinS [';'] ps ++ [';'] = joinS [';'] (ps ++ [[]]) := by
        clear hfilter hr heq hs h
        induction ps with
        | nil => exact absurd rfl hne
        | cons p ps ih =>
          cases ps with
          | nil => simp [joinS]
          | cons q ps =>
            have := ih (by simp)
            rw [show joinS [';'] (p :: q :: ps) = p ++ [';'] ++ joinS [';'] (q :: ps) from rfl,
              show joinS [';'] (p :: q :: ps ++ [[]]) = p ++ [';'] ++ joinS [';'] (q :: ps ++ [[]]) from rfl, ← this]
            simp
      rw [e, splitC_joinS (by simp) ?_]
      · simp [hfilter]
      · intro t ht
        rcases List.mem_append.1 ht with ht | ht
        · exact hs t ht
        · simp at ht; subst ht; simp
  obtain ⟨h1, h2, h3⟩ := hb
  have hf := is_fmtp hpt h1
  obtain ⟨a, ha⟩ := (C54_accepts hf h3).2 ⟨⟨decValue pt, by have := hpt.2.2; omega, (number_dec hpt).1⟩, by
    rw [h2]
    exact fun t ht => ⟨(h t ht).eq, fun f e => let ⟨n, h1, h2, _⟩ := (h t ht).fields f e; ⟨n, h1, h2⟩, (h t ht).rtx⟩,
    by rw [h2]; exact hr⟩
  obtain ⟨f, ha⟩ := is_ok hf ha
  refine ⟨pt, _, f, rfl, hpt, hf, ha, (C54_values hf h3 ha).1, .inl ⟨h3, fun t ht => ?_⟩⟩
  rw [h2] at ht
  refine ⟨fun e => ?_, (h t ht).other⟩
  obtain ⟨n, -, h4, h5⟩ := (h t ht).fields .apt e
  exact ⟨n, h5 rfl, by simpa [FmtpField.Notation] using h4⟩

omit [Env] in
private theorem rep_mono {lo : Nat} {a b : Rule} {s : Str} (h : rep lo a s) (hab : ∀ t, a t → b t) : rep lo b s := by
  obtain ⟨ts, e, h1, h2⟩ := h
  exact ⟨ts, e, h1, fun t ht => hab t (h2 t ht)⟩

omit [Env] in
private theorem seq_last {a b c : Rule} {s : Str} (h : seq [a, b, c] s) : seq [a, seq [b, c]] s := by
  obtain ⟨u, v, e, h1, h2⟩ := h
  exact ⟨u, v, e, h1, v, [], by simp, h2, rfl⟩

private theorem spaced_ok {P : Rule} (hP : ∀ t, P t → ∃ n v, t = n ++ '=' :: v ∧ NameOk n v ∧ ParamOk t) {w : Str}
    (h : seq [opt Rfc.SP, P] w) : ParamOk w ∧ (P w ∨ paramName w ≠ c%"RTX-TIME") := by
  obtain ⟨o, _, rfl, ho, t, _, rfl, ht, rfl⟩ := h
  obtain ⟨n, v, rfl, h1, h2⟩ := hP t ht
  rcases ho with rfl | rfl
  · simp only [List.append_nil, List.nil_append]
    exact ⟨h2, .inl ht⟩
  · simp only [List.append_nil, List.singleton_append]
    exact ⟨h1.spaced.1, .inr h1.spaced.2⟩

omit [Env] in
private theorem joinS_before (ps : List Str) (c : Char) (a : Str) (qs : List Str) :
    (ps.map (· ++ [c])).flatten ++ joinS [c] (a :: qs) = joinS [c] (ps ++ a :: qs) := by
  induction ps with
  | nil => rfl
  | cons p ps ih =>
    have : joinS [c] (p :: ps ++ a :: qs) = p ++ [c] ++ joinS [c] (ps ++ a :: qs) := by cases ps <;> rfl
    rw [this, ← ih]
    simp

private theorem apt_ok {t : Str} (h : Rfc.aptParameter t) :
    ∃ n v, t = n ++ '=' :: v ∧ NameOk n v ∧ ParamOk t ∧ paramName t = c%"APT" := by
  obtain ⟨n, _, rfl, hn, _, _, rfl, rfl, v, _, rfl, hv, rfl⟩ := h
  obtain ⟨h1, h2, h3⟩ := numeric (m := c%"apt") (max := 127) (by decide) (by decide) (by decide) (by decide) hn hv
  refine ⟨n, v, by simp, h1, by simpa using h2, ?_⟩
  simp only [List.append_nil, List.singleton_append]
  rw [h3]
  decide

private theorem rtx_time_ok {t : Str} (h : Rfc.rtxTimeParameter t) : ∃ n v, t = n ++ '=' :: v ∧ NameOk n v ∧ ParamOk t := by
  obtain ⟨n, _, rfl, hn, _, _, rfl, rfl, v, _, rfl, hv, rfl⟩ := h
  obtain ⟨h1, h2, h3⟩ := numeric (m := c%"rtx-time") (by decide) (by decide) (by decide) (by decide) hn hv
  exact ⟨n, v, by simp, h1, by simpa using h2⟩

omit [Env] in
private theorem item_chars {s : Str} (h : seq [number 255, opt (seq [exactly ['-'], number 255])] s) :
    s ≠ [] ∧ ∀ c ∈ s, c.isDigit = true ∨ c = '-' := by
  obtain ⟨a, _, rfl, ha, o, _, rfl, ho, rfl⟩ := h
  refine ⟨by simp [ha.1], ?_⟩
  rcases ho with rfl | ⟨_, _, rfl, rfl, b, _, rfl, hb, rfl⟩
  · simpa using fun c hc => .inl (ha.2.1 c hc)
  · intro c hc
    simp at hc
    rcases hc with hc | rfl | hc
    · exact .inl (ha.2.1 c hc)
    · exact .inr rfl
    · exact .inl (hb.2.1 c hc)

theorem rfc_fmtp {v : Str} (h : Rfc.fmtp v) : FmtpRead v := by
  obtain ⟨pt, _, rfl, hpt, _, _, rfl, rfl, b, _, rfl, ⟨r, hr, h⟩, rfl⟩ := h
  simp only [List.append_nil, List.singleton_append]
  simp only [List.mem_cons, List.not_mem_nil, or_false] at hr
  have par : ∀ t, Rfc.parameter t → ∃ n v, t = n ++ '=' :: v ∧ NameOk n v ∧ ParamOk t := fun t h =>
    let ⟨n, v, h1, h2, h3, _⟩ := parameter_ok h; ⟨n, v, h1, h2, h3⟩
  have noRtx : ∀ t, Rfc.parameter t → paramName t ≠ c%"RTX-TIME" := fun t h => let ⟨_, _, _, _, _, h4⟩ := parameter_ok h; h4
  rcases hr with rfl | rfl | rfl
  · obtain ⟨r, hr, h⟩ := h
    simp only [List.mem_cons, List.not_mem_nil, or_false] at hr
    rcases hr with rfl | rfl
    · obtain ⟨p, _, rfl, hp, q, _, rfl, hq, o, _, rfl, ho, rfl⟩ := h
      obtain ⟨qs, -, hqs, rfl⟩ := rep_sep (rep_mono hq fun _ => seq_last)
      have := list_ok (ps := p :: qs) hpt (by simp) (by
        intro t ht
        rcases List.mem_cons.1 ht with rfl | ht
        · exact let ⟨_, _, _, _, h⟩ := par _ hp; h
        · exact (spaced_ok par (hqs t ht)).1) (by
        intro pre t post e ht
        refine absurd ht ?_
        have : t ∈ p :: qs := by rw [e]; simp
        rcases List.mem_cons.1 this with rfl | h
        · exact noRtx _ hp
        · rcases (spaced_ok par (hqs t h)).2 with h | h
          · exact noRtx _ h
          · exact h) ho
      rw [← joinS_words] at this
      simpa using this
    · obtain ⟨p, _, rfl, hp, a, _, rfl, ha, q, _, rfl, hq, o, _, rfl, ho, rfl⟩ := h
      obtain ⟨qs, -, hqs, rfl⟩ := rep_sep (rep_mono hq fun _ => seq_last)
      obtain ⟨ps, hps, rfl⟩ : ∃ ps : List Str, (∀ t ∈ ps, Rfc.parameter t) ∧ p = (ps.map (· ++ [';'])).flatten := by
        obtain ⟨ts, rfl, -, hts⟩ := hp
        clear * - hts
        induction ts with
        | nil => exact ⟨[], by simp, rfl⟩
        | cons t ts ih =>
          obtain ⟨ps, h1, h2⟩ := ih fun t h => hts t (by simp [h])
          obtain ⟨u, _, rfl, hu, _, _, rfl, rfl, rfl⟩ := hts t (by simp)
          exact ⟨u :: ps, by simpa using ⟨hu, h1⟩, by simp [h2]⟩
      obtain ⟨_, _, -, -, hao, han⟩ := apt_ok ha
      have parOr : ∀ t, alt [Rfc.parameter, Rfc.rtxTimeParameter] t → ∃ n v, t = n ++ '=' :: v ∧ NameOk n v ∧ ParamOk t := by
        rintro t ⟨r, hr, h⟩
        simp only [List.mem_cons, List.not_mem_nil, or_false] at hr
        rcases hr with rfl | rfl
        · exact par t h
        · exact rtx_time_ok h
      have := list_ok (ps := ps ++ a :: qs) hpt (by simp) (by
        intro t ht
        simp only [List.mem_append, List.mem_cons] at ht
        rcases ht with ht | rfl | ht
        · exact let ⟨_, _, _, _, h⟩ := par _ (hps t ht); h
        · exact hao
        · exact (spaced_ok parOr (hqs t ht)).1) (by
        intro pre t post e ht
        rcases List.append_eq_append_iff.1 e with ⟨as, rfl, e2⟩ | ⟨cs, rfl, e2⟩
        · cases as with
          | nil =>
            simp only [List.nil_append, List.cons.injEq] at e2
            rw [← e2.1, han] at ht
            exact absurd ht (by decide)
          | cons x as =>
            simp only [List.cons_append, List.cons.injEq] at e2
            obtain ⟨rfl, -⟩ := e2
            exact ⟨a, by simp, han⟩
        · cases cs with
          | nil =>
            simp only [List.nil_append, List.cons.injEq] at e2
            rw [e2.1, han] at ht
            exact absurd ht (by decide)
          | cons x cs =>
            simp only [List.cons_append, List.cons.injEq] at e2
            obtain ⟨rfl, -⟩ := e2
            exact absurd ht (noRtx _ (hps t (by simp)))) ho
      rw [← joinS_before, ← joinS_words] at this
      simpa using this
  · obtain ⟨n, _, rfl, hn, m, _, rfl, hm, rfl⟩ := h
    obtain ⟨ns, hlen, hns, rfl⟩ := rep_sep hm
    have hall : ∀ w ∈ n :: ns, number 127 w := by simpa using ⟨hn, hns⟩
    have hsp := splitC_words (c := '/') (number_not_mem hn rfl) fun w hw => number_not_mem (hns w hw) rfl
    have hj := joinS_words '/' n ns
    simp only [List.append_nil]
    have hch : ∀ c ∈ n ++ (ns.map ('/' :: ·)).flatten, c.isDigit = true ∨ c = '/' := by
      rw [hj]
      intro c hc
      rcases mem_joinS hc with h | ⟨t, ht, hc⟩
      · exact .inr (by simpa using h)
      · exact .inl ((hall t ht).2.1 c hc)
    have hne : n ++ (ns.map ('/' :: ·)).flatten ≠ [] := by simp [hn.1]
    obtain ⟨xs, hxs⟩ := rfc_each_of (R := fun t (x : UInt8) => DecText t x.toNat ∧ x.toNat ≤ 127) (l := n :: ns) fun w hw => by
      obtain ⟨x, h1, h2⟩ := number_u8 (hall w hw) (by omega)
      exact ⟨x, h1, by omega⟩
    have hxs := each_iff.1 hxs
    have hlen2 : 2 ≤ xs.length := by rw [← hxs.length_eq]; simpa using hlen
    have hle : ∀ x ∈ xs, x.toNat ≤ 127 := by
      clear * - hxs
      generalize n :: ns = l at hxs
      induction hxs with
      | nil => simp
      | cons h _ ih => simpa using ⟨h.2, ih⟩
    obtain ⟨y, hy, -⟩ := number_u8 hpt (by omega)
    have hsl : '/' ∈ n ++ (ns.map ('/' :: ·)).flatten := by
      cases ns with
      | nil => simp at hlen
      | cons x ns => simp
    generalize n ++ (ns.map ('/' :: ·)).flatten = b at *
    have htok : Token b := ⟨hne, fun c hc => by
      rcases hch c hc with h | rfl
      · exact vchar_ws (by have := digit_nat h; omega)
      · rfl⟩
    have heq : '=' ∉ b := fun h => by rcases hch _ h with h | h <;> simp at h
    exact ⟨pt, b, _, rfl, hpt, is_fmtp hpt htok.ends, (C54_red (is_fmtp hpt htok.ends) heq hsl _).2 ⟨y, xs, hy,
      hsp ▸ hxs.imp fun _ _ h => ⟨h.1, by omega⟩, rfl⟩, hy, .inr (.inl ⟨xs, hlen2, hle, rfl⟩)⟩
  · have hev := h
    obtain ⟨n, _, rfl, hn, m, _, rfl, hm, rfl⟩ := h
    obtain ⟨ns, -, hns, rfl⟩ := rep_sep hm
    have hall : ∀ w ∈ n :: ns, w ≠ [] ∧ ∀ c ∈ w, c.isDigit = true ∨ c = '-' := by
      simpa using ⟨item_chars hn, fun w hw => item_chars (hns w hw)⟩
    have hj := joinS_words ',' n ns
    simp only [List.append_nil] at hev ⊢
    have hch : ∀ c ∈ n ++ (ns.map (',' :: ·)).flatten, c.isDigit = true ∨ c = '-' ∨ c = ',' := by
      rw [hj]
      intro c hc
      rcases mem_joinS hc with h | ⟨t, ht, hc⟩
      · exact .inr (.inr (by simpa using h))
      · rcases (hall t ht).2 c hc with h | h
        · exact .inl h
        · exact .inr (.inl h)
    have hne : n ++ (ns.map (',' :: ·)).flatten ≠ [] := by simp [(item_chars hn).1]
    obtain ⟨y, hy, -⟩ := number_u8 hpt (by omega)
    generalize n ++ (ns.map (',' :: ·)).flatten = b at *
    have htok : Token b := ⟨hne, fun c hc => by
      rcases hch c hc with h | rfl | rfl
      · exact vchar_ws (by have := digit_nat h; omega)
      · rfl
      · rfl⟩
    have heq : '=' ∉ b := fun h => by rcases hch _ h with h | h | h <;> simp at h
    have hsl : '/' ∉ b := fun h => by rcases hch _ h with h | h | h <;> simp at h
    have hspace : ' ' ∉ b := fun h => by rcases hch _ h with h | h | h <;> simp at h
    by_cases ht : ToneList b
    · exact ⟨pt, b, _, rfl, hpt, is_fmtp hpt htok.ends,
        (C45_tones_kept (is_fmtp hpt htok.ends) heq hsl ht _).2 ⟨y, hy, rfl⟩, hy, .inr (.inr ⟨b, hev, hspace, rfl⟩)⟩
    · exact ⟨pt, b, _, rfl, hpt, is_fmtp hpt htok.ends,
        (C45_tones_default (is_fmtp hpt htok.ends) heq hsl ht _).2 ⟨y, hy, rfl⟩, hy,
        .inr (.inr ⟨c%"0-15", ⟨c%"0-15", [], rfl, ⟨c%"0", c%"-15", rfl, by unfold number; decide,
          c%"-15", [], rfl, .inr ⟨c%"-", c%"15", rfl, rfl, c%"15", [], rfl, by unfold number; decide, rfl⟩, rfl⟩,
          [], [], rfl, ⟨[], rfl, by simp, by simp⟩, rfl⟩, by decide, rfl⟩)⟩

/-- **C110.** `fmtp` (RFC 8866, 6.15) with the parameters of RFC 6184, 7741, 7587, 4588, 2198 and 4733. -/
theorem C110_fmtp {v : Str} (h : Rfc.fmtp v) : ∃ f, attrFromStr (c%"fmtp:" ++ v) = .ok (.fmtp f) :=
  let ⟨_, _, f, _, _, _, h, _⟩ := rfc_fmtp h; ⟨f, h⟩

/-! ## Frame rates -/

omit [Env] in
theorem rfc_posDigit {c : Char} (h : Rfc.isPosDigit c = true) : c.isDigit = true ∧ 1 ≤ c.toNat - '0'.toNat := by
  simp only [Rfc.isPosDigit, Bool.and_eq_true, bne_iff_ne] at h
  refine ⟨h.1, ?_⟩
  have h1 := digit_nat h.1
  have h2 : c.toNat ≠ 0x30 := fun e => h.2 (Char.toNat_inj.1 e)
  show 1 ≤ c.toNat - 48
  omega

omit [Env] in
theorem rfc_decValue_pos {a b : Str} {c : Char} (h : Rfc.isPosDigit c = true) : 1 ≤ decValue (a ++ c :: b) := by
  have h1 := (rfc_posDigit h).2
  have e : decValue [c] = c.toNat - '0'.toNat := by simp [decValue]
  rw [show a ++ c :: b = a ++ ([c] ++ b) by simp, decValue_append, decValue_append, e]
  have : 0 < 10 ^ b.length := Nat.pow_pos (by decide)
  have := Nat.mul_le_mul h1 this
  omega

omit [Env] in
/-- A decimal number with at least one digit that is not zero. -/
private theorem decimal_moderate {whole frac t : Str} (hd : ∀ c ∈ whole ++ frac, c.isDigit = true) (hp : 1 ≤ decValue (whole ++ frac))
    (ht : t = whole ++ '.' :: frac ∨ (frac = [] ∧ t = whole)) (hl : t.length ≤ 300) :
    ∃ x, DecimalText t x ∧ 1 / 10 ^ 300 ≤ x ∧ x < 10 ^ 300 := by
  have hne : whole ++ frac ≠ [] := by
    intro h; rw [h] at hp; simp [decValue] at hp
  have hlen : (whole ++ frac).length ≤ 300 := by
    rcases ht with rfl | ⟨rfl, rfl⟩ <;> simp at hl ⊢ <;> omega
  refine ⟨decValue (whole ++ frac) * 10 ^ ((0 : ℤ) - frac.length), ⟨whole, frac, [], 0, hd, hne, .inl ⟨rfl, rfl⟩, by simpa using ht, rfl⟩, ?_, ?_⟩
  · have h1 : (1 : ℚ) ≤ decValue (whole ++ frac) := by exact_mod_cast hp
    have h2 : (1 : ℚ) / 10 ^ 300 ≤ 10 ^ ((0 : ℤ) - frac.length) := by
      rw [zero_sub, zpow_neg, zpow_natCast, ← one_div]
      refine one_div_le_one_div_of_le (by positivity) (pow_le_pow_right₀ (by norm_num) ?_)
      rw [List.length_append] at hlen; omega
    calc (1 : ℚ) / 10 ^ 300 ≤ 1 * 10 ^ ((0 : ℤ) - frac.length) := by rwa [one_mul]
      _ ≤ _ := mul_le_mul_of_nonneg_right h1 (by positivity)
  · have h1 : (decValue (whole ++ frac) : ℚ) < 10 ^ 300 := by
      have := lt_of_lt_of_le (FloatFormat.decValue_lt hd) (Nat.pow_le_pow_right (by decide : 0 < 10) hlen)
      exact_mod_cast this
    have h2 : (10 : ℚ) ^ ((0 : ℤ) - frac.length) ≤ 1 := by
      rw [zero_sub, zpow_neg, zpow_natCast, inv_le_one₀ (by positivity)]
      exact one_le_pow₀ (by norm_num)
    calc (decValue (whole ++ frac) : ℚ) * 10 ^ ((0 : ℤ) - frac.length) ≤ decValue (whole ++ frac) * 1 :=
          mul_le_mul_of_nonneg_left h2 (by positivity)
      _ < _ := by rwa [mul_one]

omit [Env] in
private theorem integer_chars {s : Str} (h : Rfc.integer s) : ∃ c ds, s = c :: ds ∧ Rfc.isPosDigit c = true ∧ ∀ c ∈ s, c.isDigit = true := by
  obtain ⟨_, _, rfl, ⟨c, rfl, hc⟩, ds, _, rfl, hds, rfl⟩ := h
  refine ⟨c, ds, by simp, hc, ?_⟩
  simpa using ⟨(rfc_posDigit hc).1, (rep_char.1 hds).2⟩

theorem rfc_framerate {v : Str} (h : Rfc.frameRate v) :
    ∃ x, attrFromStr (c%"framerate:" ++ v) = .ok (.frameRate x) ∧ x.bits.toNat < 2 ^ 63 := by
  obtain ⟨hl, r, hr, h⟩ := h
  simp only [List.mem_cons, List.not_mem_nil, or_false] at hr
  have key : ∃ x, Token v ∧ DecimalText v x ∧ 1 / 10 ^ 300 ≤ x ∧ x < 10 ^ 300 := by
    rcases hr with rfl | rfl
    · obtain ⟨c, ds, rfl, hc, hd⟩ := integer_chars h
      obtain ⟨x, hx⟩ := decimal_moderate (whole := c :: ds) (frac := []) (by simpa using hd)
        (by simpa using rfc_decValue_pos (a := []) hc) (.inr ⟨rfl, rfl⟩) hl
      exact ⟨x, ⟨by simp, fun c hc => vchar_ws (by have := digit_nat (hd c hc); omega)⟩, hx⟩
    · obtain ⟨w, _, rfl, hw, _, _, rfl, rfl, f, _, rfl, hf, _, _, rfl, ⟨c, rfl, hc⟩, rfl⟩ := h
      have hw : ∀ c ∈ w, c.isDigit = true := by
        obtain ⟨r, hr, hw⟩ := hw
        simp only [List.mem_cons, List.not_mem_nil, or_false] at hr
        rcases hr with rfl | rfl
        · cases hw; simp
        · exact (integer_chars hw).choose_spec.choose_spec.2.2
      have hf := (rep_char.1 hf).2
      have hd : ∀ x ∈ w ++ (f ++ [c]), x.isDigit = true := by
        simpa using fun x hx => by
          rcases hx with h | h | rfl
          · exact hw x h
          · exact hf x h
          · exact (rfc_posDigit hc).1
      simp only [List.append_nil, List.singleton_append] at hl ⊢
      obtain ⟨x, hx⟩ := decimal_moderate (t := w ++ '.' :: (f ++ [c])) hd
        (by have := rfc_decValue_pos (a := w ++ f) (b := []) hc; simpa using this) (.inl rfl) hl
      refine ⟨x, ⟨by simp, fun y hy => ?_⟩, hx⟩
      simp only [List.mem_append, List.mem_cons] at hy
      rcases hy with h | rfl | h
      · exact vchar_ws (by have := digit_nat (hw y h); omega)
      · rfl
      · exact vchar_ws (by have := digit_nat (hd y (by simp at h ⊢; exact .inr h)); omega)
  obtain ⟨x, ht, hx, h1, h2⟩ := key
  obtain ⟨-, ⟨y, hy, hry, -⟩, -⟩ := C82_decimals hx
  obtain ⟨h3, h4⟩ := FloatFormat.rounds_moderate hry h1 h2
  have hm : y.bits.toNat % 2 ^ 63 = y.bits.toNat := Nat.mod_eq_of_lt (by omega)
  refine ⟨y, C56_framerate.2 ⟨_, attr_at c%"framerate" rfl (by decide) rfl _, ?_, by rwa [hm], by rwa [hm]⟩, by omega⟩
  rw [trim_noWs ht.2]
  exact ((C82_reads v).2 y).1 hy

/-- **C110.** `framerate` (RFC 8866, 6.13). -/
theorem C110_framerate {v : Str} (h : Rfc.frameRate v) : ∃ x, attrFromStr (c%"framerate:" ++ v) = .ok (.frameRate x) :=
  let ⟨x, h, _⟩ := rfc_framerate h; ⟨x, h⟩

end

/-! ## Concrete cases -/

theorem rfc_alt_here {a : Rule} {l : List Rule} {s : Str} (h : a s) : alt (a :: l) s := ⟨a, by simp, h⟩

theorem rfc_alt_there {a : Rule} {l : List Rule} {s : Str} (h : alt l s) : alt (a :: l) s :=
  let ⟨r, hr, h⟩ := h; ⟨r, List.mem_cons_of_mem _ hr, h⟩

theorem rfc_rep_sep {P : Rule} {c : Char} {lo : Nat} {l : List Str} (hl : lo ≤ l.length) (h : ∀ w ∈ l, P w) :
    rep lo (seq [exactly [c], P]) ((l.map (c :: ·)).flatten) := by
  refine ⟨l.map (c :: ·), rfl, by simpa using hl, fun t ht => ?_⟩
  obtain ⟨w, hw, rfl⟩ := List.mem_map.1 ht
  exact rfc_seq_cons (u := [c]) rfl (rfc_seq_one (h w hw))

theorem rfc_list {P : Rule} {c : Char} {a : Str} {l : List Str} (h : ∀ w ∈ a :: l, P w) :
    seq [P, rep 0 (seq [exactly [c], P])] (joinS [c] (a :: l)) := by
  rw [← joinS_words]
  exact rfc_seq_cons (h a (by simp)) (rfc_seq_one (rfc_rep_sep (Nat.zero_le _) fun w hw => h w (by simp [hw])))

theorem rfc_flatten {c : Char} {l : List Str} (h : l ≠ []) : (l.map (c :: ·)).flatten = c :: joinS [c] l := by
  cases l with
  | nil => exact absurd rfl h
  | cons a l => rw [← joinS_words]; simp

theorem rfc_written {t : AttributeType} {x : Str} (h : x ≠ []) : attrToString t x = t.name ++ ':' :: x := by
  simp [attrToString, h]

theorem rfc_reps_of {m n : Nat} {p : Char → Bool} {s : Str} (h : m ≤ s.length ∧ s.length ≤ n ∧ ∀ c ∈ s, p c = true) :
    reps m n (char p) s := by
  refine ⟨s.map ([·]), by simp [← List.flatMap_def], by simpa using h.1, by simpa using h.2.1, ?_⟩
  intro t ht
  obtain ⟨c, hc, rfl⟩ := List.mem_map.1 ht
  exact ⟨c, rfl, h.2.2 c hc⟩

section
attribute [local instance] sampleEnv

private theorem number_of {max : Nat} {s : Str} (h : s ≠ [] ∧ (∀ c ∈ s, c.isDigit = true) ∧ decValue s ≤ max) : number max s := h

example : Rfc.identity c%"eyJpZHAiOnsiZG9tYWluIjoiZXhhbXBsZS5vcmcifX0= ext=1" :=
  ⟨c%"eyJpZHAiOnsiZG9tYWluIjoiZXhhbXBsZS5vcmcifX0=", _, rfl, rep_char.2 (by decide), c%" ext=1", [], rfl,
    .inr ⟨[' '], _, rfl, rfl, c%"ext=1", [], rfl, rep_char.2 (by decide), rfl⟩, rfl⟩

example : Rfc.msidSemantic c%" WMS stream1 stream2" :=
  ⟨[' '], _, rfl, .inr rfl, c%"WMS", _, rfl, rep_char.2 (by decide), c%" stream1 stream2", [], rfl,
    ⟨[c%" stream1", c%" stream2"], rfl, by decide, by
      intro t ht; simp at ht
      rcases ht with rfl | rfl
      · exact ⟨[' '], _, rfl, rfl, c%"stream1", [], rfl, rep_char.2 (by decide), rfl⟩
      · exact ⟨[' '], _, rfl, rfl, c%"stream2", [], rfl, rep_char.2 (by decide), rfl⟩⟩, rfl⟩

example : Rfc.sctpmap c%"5000 webrtc-datachannel 256" :=
  ⟨c%"5000", _, rfl, number_of (by decide), [' '], _, rfl, rfl, c%"webrtc-datachannel", _, rfl, rfl, [' '], _, rfl, rfl,
    c%"256", [], rfl, number_of (by decide), rfl⟩

example : Rfc.dtlsMessage c%"client FgEBAAAAAAAAAAAA" :=
  ⟨c%"client", _, rfl, ⟨_, List.mem_cons_self, rfl⟩, [' '], _, rfl, rfl, c%"FgEBAAAAAAAAAAAA", [], rfl, rep_char.2 (by decide), rfl⟩

example : Rfc.frameRate c%"29.97" :=
  ⟨by decide, _, List.mem_cons_of_mem _ List.mem_cons_self, c%"29", _, rfl,
    ⟨_, List.mem_cons_of_mem _ List.mem_cons_self, ['2'], _, rfl, ⟨_, rfl, rfl⟩, ['9'], [], rfl, rep_char.2 (by decide), rfl⟩,
    ['.'], _, rfl, rfl, ['9'], _, rfl, rep_char.2 (by decide), ['7'], [], rfl, ⟨_, rfl, rfl⟩, rfl⟩

example : Rfc.fmtp c%"102 level-asymmetry-allowed=1;profile-level-id=42e01f; x-google-min-bitrate=1000" :=
  ⟨c%"102", _, rfl, number_of (by decide), [' '], _, rfl, rfl,
    c%"level-asymmetry-allowed=1;profile-level-id=42e01f; x-google-min-bitrate=1000", [], rfl, ⟨_, List.mem_cons_self,
    _, List.mem_cons_self, c%"level-asymmetry-allowed=1", _, rfl,
    ⟨_, List.mem_cons_of_mem _ List.mem_cons_self, c%"level-asymmetry-allowed", _, rfl, ⟨_, List.mem_cons_self, rfl⟩, ['='], _, rfl, rfl,
      ['1'], [], rfl, number_of (by decide), rfl⟩,
    c%";profile-level-id=42e01f; x-google-min-bitrate=1000", _, rfl,
    ⟨[c%";profile-level-id=42e01f", c%"; x-google-min-bitrate=1000"], rfl, by decide, by
      intro t ht; simp at ht
      rcases ht with rfl | rfl
      · exact ⟨[';'], _, rfl, rfl, [], _, rfl, .inl rfl, c%"profile-level-id=42e01f", [], rfl, ⟨_,
          List.mem_cons_of_mem _ (List.mem_cons_of_mem _ (List.mem_cons_of_mem _ (List.mem_cons_of_mem _ List.mem_cons_self))),
          c%"profile-level-id", _, rfl, rfl, ['='], _, rfl, rfl, c%"42e01f", [], rfl, rfc_reps_of (by decide), rfl⟩, rfl⟩
      · refine ⟨[';'], _, rfl, rfl, [' '], _, rfl, .inr rfl, c%"x-google-min-bitrate=1000", [], rfl, ⟨_,
          List.mem_cons_of_mem _ (List.mem_cons_of_mem _ (List.mem_cons_of_mem _ (List.mem_cons_of_mem _ (List.mem_cons_of_mem _
            (List.mem_cons_of_mem _ List.mem_cons_self))))),
          c%"x-google-min-bitrate", _, rfl, ⟨rep_char.2 (by decide), by unfold word; decide⟩, ['='], _, rfl, rfl, c%"1000", [], rfl,
          rep_char.2 (by decide), rfl⟩, rfl⟩⟩,
    [], [], rfl, .inl rfl, rfl⟩, rfl⟩

example : Rfc.fmtp c%"100 111/110" :=
  ⟨c%"100", _, rfl, number_of (by decide), [' '], _, rfl, rfl, c%"111/110", [], rfl, ⟨_, List.mem_cons_of_mem _ List.mem_cons_self,
    c%"111", _, rfl, number_of (by decide), c%"/110", [], rfl, ⟨[c%"/110"], rfl, by decide, by
      intro t ht; simp at ht; subst ht
      exact ⟨['/'], _, rfl, rfl, c%"110", [], rfl, number_of (by decide), rfl⟩⟩, rfl⟩, rfl⟩

/-! ## Where the library takes less than the RFCs -/

/-- **C110.** The parameters of RFC 4588 may be in any order, but `rtx-time` before `apt` is rejected. -/
theorem C110_rtx_order : (attrFromStr c%"fmtp:97 apt=96;rtx-time=3000").isOk = true ∧
    (attrFromStr c%"fmtp:97 rtx-time=3000;apt=96").isOk = false ∧
    (attrFromStr c%"fmtp:97 x=1; apt=96;rtx-time=3000").isOk = false := by decide +kernel

/-- **C110.** A parameter after a semicolon and a space, as RFC 7587 and 6184 write them, is accepted but not understood: it has no
effect, and it is kept as unknown text. -/
theorem C110_space : ∃ f, attrFromStr c%"fmtp:109 maxplaybackrate=48000; stereo=1" = .ok (.fmtp f) ∧
    f.parameters.stereo = false ∧ f.parameters.unknownTokens = [c%" stereo=1"] := by
  have key : (match attrFromStr c%"fmtp:109 maxplaybackrate=48000; stereo=1" with
      | .ok (.fmtp f) => decide (f.parameters.stereo = false ∧ f.parameters.unknownTokens = [c%" stereo=1"])
      | _ => false) = true := by decide +kernel
  split at key
  · next f h => exact ⟨f, h, of_decide_eq_true key⟩
  · cases key

/-- **C110.** Telephone events above 100 are replaced by `0-15`. -/
theorem C110_events : ∃ f, attrFromStr c%"fmtp:101 0-15,144" = .ok (.fmtp f) ∧ f.parameters.dtmfTones = c%"0-15" := by
  have key : (match attrFromStr c%"fmtp:101 0-15,144" with
      | .ok (.fmtp f) => decide (f.parameters.dtmfTones = c%"0-15")
      | _ => false) = true := by decide +kernel
  split at key
  · next f h => exact ⟨f, h, of_decide_eq_true key⟩
  · cases key

/-- **C110.** A frame rate that is too great or too small for a 64-bit floating point number is rejected. -/
theorem C110_framerate_limits : (attrFromStr (c%"framerate:1" ++ List.replicate 309 '0')).isOk = false ∧
    (attrFromStr (c%"framerate:0." ++ List.replicate 330 '0' ++ c%"1")).isOk = false := by decide +kernel

/-- **C110.** The number of streams of `sctpmap` is optional, and so are other protocols, but both are rejected. -/
theorem C110_sctpmap_limits : ∀ l ∈ [c%"sctpmap:5000 webrtc-datachannel", c%"sctpmap:5000 t38 16"], (attrFromStr l).isOk = false := by
  decide +kernel

end

end Sdp
