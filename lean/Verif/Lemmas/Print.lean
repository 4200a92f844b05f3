import Verif.Lemmas.Text
import Verif.Lemmas.Floats
import Verif.Props.Candidate
import Verif.Props.Fmtp
/-!
# Printed attributes are parsed back: the kinds without nested syntax
-/

namespace Sdp

section
variable [Env]

/-- The text `s` is a value of attribute `t` that means `a`. -/
def Prints (t : AttributeType) (s : Str) (a : Attribute) : Prop := Trimmed s ∧ parseAttrValue t s = .ok a

theorem HostName.parse {d : Str} (h : HostName d) : parseAddress d = .ok (.fqdn d) := by
  obtain ⟨-, h1, -, h2, h3⟩ := h
  unfold parseAddress hostParse
  simp [h1, h2, h3]

theorem Address.WF.parse {a : Address} (h : a.WF) : parseAddress (showAddress a) = .ok a := by
  cases a with
  | fqdn d => exact HostName.parse h
  | ip a => exact parseAddress_showIp a

omit [Env] in
theorem IpChar.noWs {c : Char} (h : IpChar c) : isWs c = false := by
  rcases h with h | rfl | rfl
  · unfold IsHexDigit at h
    rcases h with h | ⟨h1, h2⟩ | ⟨h1, h2⟩
    · exact isDigit_ws h
    · have h1 := char_le_iff.1 h1
      have h2 := char_le_iff.1 h2
      simp at h1 h2
      simp [isWs]; omega
    · have h1 := char_le_iff.1 h1
      have h2 := char_le_iff.1 h2
      simp at h1 h2
      simp [isWs]; omega
  · decide
  · decide

omit [Env] in
theorem Token.showIp (a : IpAddr) : Token (showIp a) := ⟨showIp_ne_nil a, fun _ h => IpChar.noWs (showIp_chars h)⟩

theorem Address.WF.token {a : Address} (h : a.WF) : Token (showAddress a) := by
  cases a with
  | fqdn d => exact h.1
  | ip a => exact Token.showIp a

/-- The last word of a printed typed address. -/
def typedHost (a : TypedAddress) : Str :=
  match a with
  | .fqdn _ d => d
  | .ip i => Sdp.showIp i

theorem TypedAddress.WF.token {a : TypedAddress} (h : a.WF) : Token (typedHost a) := by
  cases a with
  | fqdn t d => exact h.1
  | ip a => exact Token.showIp a

theorem TypedAddress.WF.parse {a : TypedAddress} (h : a.WF) :
    typedTryFrom a.addressType (typedHost a) = .ok a := by
  cases a with
  | fqdn t d => simp [typedTryFrom, typedHost, HostName.parse h, TypedAddress.addressType]
  | ip i => simp [typedTryFrom, typedHost, parseAddress_showIp, TypedAddress.addressType]

omit [Env] in
theorem showTyped_eq (a : TypedAddress) :
    showTyped a = c%"IN" ++ ' ' :: (showAddressType a.addressType ++ ' ' :: typedHost a) := by
  cases a <;> simp [showTyped, typedHost]

theorem parseAddrType_show (t : AddressType) : parseAddrType (showAddressType t) = .ok t := by
  cases t <;> rfl

theorem upper_IN : upper c%"IN" = c%"IN" := rfl

theorem parseNetworkType_IN : parseNetworkType c%"IN" = .ok () := rfl

omit [Env] in
theorem Token.addrType (t : AddressType) : Token (showAddressType t) := by
  cases t <;> exact ⟨by decide, by decide⟩

omit [Env] in
theorem Token.lit_IN : Token c%"IN" := ⟨by decide, by decide⟩

/-! ## Kinds -/

theorem prints_string {t : AttributeType} {s : Str} {mk : Str → Attribute} (h : Trimmed s)
    (ht : parseAttrValue t s = (do return mk (← stringOrEmpty s))) : Prints t s (mk s) := by
  refine ⟨h, ?_⟩
  rw [ht]
  have := h.1.ne
  simp [stringOrEmpty, this]

theorem prints_u64 {t : AttributeType} {n : UInt64} {mk : UInt64 → Attribute}
    (ht : ∀ s, parseAttrValue t s = (do return mk (← parseU64 s))) : Prints t (showU64 n) (mk n) := by
  refine ⟨(Token.u64 n).trimmed, ?_⟩
  rw [ht, parseU64_show]; rfl

theorem prints_icePacing {n : UInt64} (h : n.toNat < 10 ^ 10) : Prints .icePacing (showU64 n) (.icePacing n) := by
  refine ⟨(Token.u64 n).trimmed, ?_⟩
  show parseIcePacing _ = _
  unfold parseIcePacing
  rw [parseU64_show]
  simp only [ok_bind]
  rw [if_neg]
  · rfl
  · rw [ge_iff_le, UInt64.le_iff_toNat_le]; simp; omega

theorem prints_sctpPort {n : UInt64} (h : n.toNat ≤ 65535) : Prints .sctpPort (showU64 n) (.sctpPort n) := by
  refine ⟨(Token.u64 n).trimmed, ?_⟩
  show parseSctpPort _ = _
  unfold parseSctpPort
  rw [parseU64_show]
  simp only [ok_bind]
  rw [if_neg]
  · rfl
  · rw [gt_iff_lt, UInt64.lt_iff_toNat_lt]; simp; omega

theorem prints_dtls {m : DtlsMessage} (h : m.WF) : Prints .dtlsMessage (showDtlsMessage m) (.dtlsMessage m) := by
  cases m with
  | client m =>
    obtain ⟨h1, h2⟩ := h
    refine ⟨⟨⟨'c', _, rfl, by decide⟩, h2.append⟩, ?_⟩
    show parseDtlsMessage (c%"client" ++ ' ' :: m) = _
    unfold parseDtlsMessage
    rw [splitC_append (by decide), splitC_of_not_mem h1]
    rfl
  | server m =>
    obtain ⟨h1, h2⟩ := h
    refine ⟨⟨⟨'s', _, rfl, by decide⟩, h2.append⟩, ?_⟩
    show parseDtlsMessage (c%"server" ++ ' ' :: m) = _
    unfold parseDtlsMessage
    rw [splitC_append (by decide), splitC_of_not_mem h1]
    rfl

theorem prints_frameRate {x : F64} (h0 : x.bits.toNat % 2 ^ 63 ≠ 0)
    (h1 : x.bits.toNat % 2 ^ 63 < 0x7ff0000000000000) : Prints .frameRate (F64.text x) (.frameRate x) := by
  have ht : Token (F64.text x) := by
    refine ⟨x.text_ne_nil, fun c h => ?_⟩
    rcases x.text_chars c h with h | h
    · exact isDigit_ws h
    · simp only [List.mem_cons, List.not_mem_nil, or_false] at h
      rcases h with rfl | rfl | rfl | rfl | rfl | rfl | rfl <;> decide
  refine ⟨ht.trimmed, ?_⟩
  show parseFramerate _ = _
  unfold parseFramerate parseF64
  rw [F64.ofText_text fun hn => by simp only [F64.isNan, decide_eq_true_eq] at hn; omega]
  simp only [ok_bind]
  rw [if_neg (by unfold F64.isNan; simp only [decide_eq_true_eq]; omega),
    if_neg (by unfold F64.isInf; simp only [decide_eq_true_eq]; omega),
    if_neg (by unfold F64.isZero; simp only [decide_eq_true_eq]; omega)]
  rfl

omit [Env] in
/-- A list of words printed with a space before them. -/
theorem maybeVec_tokens {pre : Str} {l : List Str} (h : ∀ t ∈ l, t ≠ []) :
    maybeVec pre [] c%" " l = if l = [] then [] else pre ++ joinS c%" " l := by
  cases l with
  | nil => rfl
  | cons x xs =>
    have : (x :: xs).filter (fun s => !s.isEmpty) = x :: xs := by
      rw [List.filter_eq_self]; intro t ht; have := h t ht; simpa using this
    simp [maybeVec, this]

omit [Env] in
theorem Token.groupSemantic (g : GroupSemantic) : Token (showGroupSemantic g) := by
  cases g <;> exact ⟨by decide, by decide⟩

omit [Env] in
theorem showGroup_eq {g : Group} (h : ∀ t ∈ g.tags, Token t) :
    showGroup g = joinS c%" " (showGroupSemantic g.semantics :: g.tags) := by
  unfold showGroup
  rw [maybeVec_tokens fun t ht => (h t ht).ne]
  cases g.tags <;> simp [joinS]

theorem prints_group {g : Group} (h : ∀ t ∈ g.tags, Token t) : Prints .group (showGroup g) (.group g) := by
  have ht : ∀ t ∈ showGroupSemantic g.semantics :: g.tags, Token t := by
    intro t hm
    rcases List.mem_cons.1 hm with rfl | hm
    · exact Token.groupSemantic _
    · exact h t hm
  rw [showGroup_eq h]
  refine ⟨tokens_trimmed (by simp) ht, ?_⟩
  show parseGroup _ = _
  unfold parseGroup
  rw [splitWs_tokens ht]
  have : parseGroupSemantic (showGroupSemantic g.semantics) = .ok g.semantics := by
    cases g.semantics <;> rfl
  simp [this]

theorem prints_iceOptions {l : List Str} (h : l ≠ []) (ht : ∀ t ∈ l, Token t) :
    Prints .iceOptions (joinS c%" " l) (.iceOptions l) := by
  have := tokens_trimmed h ht
  refine ⟨this, ?_⟩
  show parseIceOptions _ = _
  unfold parseIceOptions
  rw [if_neg (by simpa using this.1.ne), splitWs_tokens ht]

theorem prints_msid {m : Msid} (h : Token m.id) (h' : ∀ a, m.appdata = some a → Token a) :
    Prints .msid (showMsid m) (.msid m) := by
  obtain ⟨id, app⟩ := m
  cases app with
  | none =>
    simp only [showMsid, optStr, List.append_nil]
    refine ⟨h.trimmed, ?_⟩
    show parseMsid _ = _
    simp [parseMsid, splitWs_single h.noWs h.ne]
  | some a =>
    have ha := h' a rfl
    simp only [showMsid, optStr]
    refine ⟨⟨h.begins.append, (ha.ends.append).append⟩, ?_⟩
    show parseMsid (id ++ ' ' :: a) = _
    simp [parseMsid, splitWs_space h.noWs h.ne, splitWs_single ha.noWs ha.ne]

theorem prints_msidSemantic {m : MsidSemantic} (h : Token m.semantic) (hn : m.msids ≠ [])
    (ht : ∀ t ∈ m.msids, Token t) : Prints .msidSemantic (showMsidSemantic m) (.msidSemantic m) := by
  obtain ⟨s, l⟩ := m
  have e : showMsidSemantic ⟨s, l⟩ = joinS c%" " (s :: l) := by
    cases l with
    | nil => exact absurd rfl hn
    | cons x xs => simp [showMsidSemantic, joinS]
  have ht' : ∀ t ∈ s :: l, Token t := by
    intro t hm
    rcases List.mem_cons.1 hm with rfl | hm
    · exact h
    · exact ht t hm
  rw [e]
  refine ⟨tokens_trimmed (by simp) ht', ?_⟩
  show parseMsidSemantic _ = _
  unfold parseMsidSemantic
  rw [splitWs_tokens ht']
  simp [idx, sliceFrom]

theorem u32_port {p : UInt32} (h : p.toNat ≤ 65535) : ¬ p > 65535 := by
  rw [gt_iff_lt, UInt32.lt_iff_toNat_lt]; simp; omega

theorem prints_remoteCandidate {c : RemoteCandidate} (h : c.address.WF) (hp : c.port.toNat ≤ 65535) :
    Prints .remoteCandidate (showRemoteCandidate c) (.remoteCandidate c) := by
  have ha := h.token
  unfold showRemoteCandidate
  refine ⟨⟨(((Token.u32 _).begins.append.append).append).append, (Token.u32 _).ends.append⟩, ?_⟩
  show parseRemoteCandidates _ = _
  simp only [List.append_assoc, List.cons_append, List.nil_append]
  unfold parseRemoteCandidates
  rw [splitWs_space (Token.u32 _).noWs (Token.u32 _).ne, splitWs_space ha.noWs ha.ne,
    splitWs_single (Token.u32 _).noWs (Token.u32 _).ne]
  simp [parseU32_show, parseUnicastAddress, h.parse, u32_port hp]

theorem u8_le_127 {p : UInt8} (h : p.toNat ≤ 127) : ¬ p > 127 := by
  rw [gt_iff_lt, UInt8.lt_iff_toNat_lt]; simp; omega

omit [Env] in
theorem slash_not_mem_u32 (n : UInt32) : '/' ∉ showU32 n := by
  intro h; have := showNat_digits h; exact absurd this (by decide)

theorem prints_rtpmap {r : Rtpmap} (h : r.WF) : Prints .rtpmap (showRtpmap r) (.rtpmap r) := by
  obtain ⟨pt, name, fr, ch⟩ := r
  obtain ⟨h1, h2, h3⟩ := h
  dsimp only at h1 h2 h3
  cases ch with
  | none =>
    simp only [showRtpmap, optStr, List.append_assoc, List.cons_append, List.nil_append, List.append_nil]
    refine ⟨⟨(Token.u8 _).begins.append, ((Token.u32 _).ends.cons.append.cons).append⟩, ?_⟩
    show parseRtpmap _ = _
    unfold parseRtpmap
    have ht : Token (name ++ '/' :: showU32 fr) := by
      refine ⟨by simp, fun c hc => ?_⟩
      simp only [List.mem_append, List.mem_cons] at hc
      rcases hc with hc | rfl | hc
      · exact h3 c hc
      · decide
      · exact (Token.u32 _).2 c hc
    rw [splitWs_space (Token.u8 _).noWs (Token.u8 _).ne, splitWs_single ht.noWs ht.ne]
    simp only [parseU8_show, ok_bind]
    rw [if_neg (u8_le_127 h1), splitC_append h2, splitC_of_not_mem (slash_not_mem_u32 _)]
    simp [parseU32_show]
  | some k =>
    simp only [showRtpmap, optStr, List.append_assoc, List.cons_append, List.nil_append]
    refine ⟨⟨(Token.u8 _).begins.append,
      (((Token.u32 _).ends.cons.append).cons.append.cons).append⟩, ?_⟩
    show parseRtpmap _ = _
    unfold parseRtpmap
    have ht : Token (name ++ '/' :: (showU32 fr ++ '/' :: showU32 k)) := by
      refine ⟨by simp, fun c hc => ?_⟩
      simp only [List.mem_append, List.mem_cons] at hc
      rcases hc with hc | rfl | hc | rfl | hc
      · exact h3 c hc
      · decide
      · exact (Token.u32 _).2 c hc
      · decide
      · exact (Token.u32 _).2 c hc
    rw [splitWs_space (Token.u8 _).noWs (Token.u8 _).ne, splitWs_single ht.noWs ht.ne]
    simp only [parseU8_show, ok_bind]
    rw [if_neg (u8_le_127 h1), splitC_append h2, splitC_append (slash_not_mem_u32 _),
      splitC_of_not_mem (slash_not_mem_u32 _)]
    simp [parseU32_show]

theorem prints_rtcp {r : Rtcp} (h : ∀ a, r.unicastAddr = some a → a.WF) :
    Prints .rtcp (showRtcp r) (.rtcp r) := by
  obtain ⟨port, addr⟩ := r
  cases addr with
  | none =>
    refine ⟨(Token.u16 _).trimmed, ?_⟩
    show parseRtcp (showU16 port) = _
    unfold parseRtcp
    rw [splitWs_single (Token.u16 _).noWs (Token.u16 _).ne]
    simp [parseU16_show]
  | some a =>
    have ha := h a rfl
    simp only [showRtcp, showTyped_eq]
    refine ⟨⟨((Token.u16 _).begins.append).append, ((ha.token.ends.cons.append).cons.append).append⟩, ?_⟩
    show parseRtcp _ = _
    simp only [List.append_assoc, List.cons_append, List.nil_append]
    unfold parseRtcp
    rw [splitWs_space (Token.u16 _).noWs (Token.u16 _).ne]
    rw [show 'I' :: 'N' :: ' ' :: (showAddressType a.addressType ++ ' ' :: typedHost a) =
      c%"IN" ++ ' ' :: (showAddressType a.addressType ++ ' ' :: typedHost a) from rfl]
    rw [splitWs_space Token.lit_IN.noWs Token.lit_IN.ne,
      splitWs_space (Token.addrType _).noWs (Token.addrType _).ne, splitWs_single ha.token.noWs ha.token.ne]
    simp [parseU16_show, parseNetworkType_IN, parseAddrType_show, ha.parse]

theorem prints_sctpmap {s : Sctpmap} : Prints .sctpmap (showSctpmap s) (.sctpmap s) := by
  unfold showSctpmap
  refine ⟨⟨((Token.u16 _).begins.append).append, (Token.u32 _).ends.append⟩, ?_⟩
  show parseSctpmap _ = _
  have : showU16 s.port ++ c%" webrtc-datachannel " ++ showU32 s.channels =
      showU16 s.port ++ ' ' :: (c%"webrtc-datachannel" ++ ' ' :: showU32 s.channels) := by simp
  rw [this]
  unfold parseSctpmap
  rw [splitWs_space (Token.u16 _).noWs (Token.u16 _).ne, splitWs_space (by unfold NoWs; decide) (by decide),
    splitWs_single (Token.u32 _).noWs (Token.u32 _).ne]
  have hl : lower c%"webrtc-datachannel" = c%"webrtc-datachannel" := rfl
  simp [idx, parseU16_show, parseU32_show, hl]

theorem prints_setup {s : Setup} : Prints .setup (showSetup s) (.setup s) := by
  cases s <;> exact ⟨Token.trimmed ⟨by decide, by decide⟩, rfl⟩

end

end Sdp
