import Verif.Props.RfcIp
import Verif.Props.RfcRewritten
/-!
# The rules of the RFCs only stand for byte-strings

No text that follows a rule for a line or an attribute has a NUL, CR or LF.
-/

namespace Sdp

open Abnf

/-- The characters of a byte-string. -/
def byteChar (c : Char) : Bool := c.toNat ≠ 0 && c.toNat ≠ 0x0a && c.toNat ≠ 0x0d

/-- The texts of the rule have characters of byte-strings only. -/
def Bytes (R : Rule) : Prop := ∀ s, R s → ∀ c ∈ s, byteChar c = true

theorem bytes_char {p : Char → Bool} (h : ∀ c, p c = true → byteChar c = true) : Bytes (char p) := by
  rintro _ ⟨c, rfl, hc⟩ d hd
  simp at hd
  rw [hd]; exact h c hc

theorem bytes_exactly {t : Str} (h : t.all byteChar = true) : Bytes (exactly t) := by
  rintro s rfl c hc
  exact List.all_eq_true.1 h c hc

theorem bytes_word {t : Str} (h : t.all byteChar = true) (h' : t.all (fun c => 0x20 ≤ c.toNat) = true) : Bytes (word t) := by
  intro s hs c hc
  have h1 : c.toLower ∈ t.map Char.toLower := by rw [← (hs : s.map Char.toLower = _)]; exact List.mem_map_of_mem hc
  obtain ⟨d, hd, e⟩ := List.mem_map.1 h1
  have h2 : 0x20 ≤ d.toNat := by simpa using List.all_eq_true.1 h' d hd
  by_cases hl : c.toNat < 0x20
  · exfalso
    have low : ∀ c : Char, c.toNat < 0x20 → c.toLower = c := by
      intro c hc
      unfold Char.toLower
      rw [dif_neg]
      intro h
      have := h.1
      simp only [Char.toNat] at hc
      have h3 : (65 : Nat) ≤ c.val.toNat := by simpa [UInt32.le_iff_toNat_le] using h.1
      omega
    have high : 0x20 ≤ d.toLower.toNat := by
      unfold Char.toLower
      split
      · rename_i h
        have h3 : (65 : Nat) ≤ d.val.toNat := by simpa [UInt32.le_iff_toNat_le] using h.1
        have h4 : d.val.toNat ≤ 90 := by simpa [UInt32.le_iff_toNat_le] using h.2
        simp only [Char.toNat]
        have h5 : d.toNat = d.val.toNat := rfl
        rw [UInt32.toNat_add]
        simp
        omega
      · exact h2
    rw [e, low c hl] at high
    omega
  · simp [byteChar]; omega

theorem bytes_nil : Bytes (seq []) := by
  rintro s rfl c hc
  cases hc

theorem bytes_cons {a : Rule} {l : List Rule} (h : Bytes a) (h' : Bytes (seq l)) : Bytes (seq (a :: l)) := by
  rintro _ ⟨u, v, rfl, hu, hv⟩ c hc
  rcases List.mem_append.1 hc with hc | hc
  · exact h u hu c hc
  · exact h' v hv c hc

theorem bytes_alt_nil : Bytes (alt []) := by
  rintro s ⟨a, ha, -⟩
  cases ha

theorem bytes_alt {a : Rule} {l : List Rule} (h : Bytes a) (h' : Bytes (alt l)) : Bytes (alt (a :: l)) := by
  rintro s ⟨b, hb, hs⟩
  rcases List.mem_cons.1 hb with rfl | hb
  · exact h s hs
  · exact h' s ⟨b, hb, hs⟩

theorem bytes_rep {lo : Nat} {a : Rule} (h : Bytes a) : Bytes (rep lo a) := by
  rintro _ ⟨ts, rfl, -, ht⟩ c hc
  obtain ⟨t, h1, h2⟩ := List.mem_flatten.1 hc
  exact h t (ht t h1) c h2

theorem bytes_reps {lo hi : Nat} {a : Rule} (h : Bytes a) : Bytes (reps lo hi a) := fun s hs => bytes_rep h s (reps_rep hs)

theorem bytes_opt {a : Rule} (h : Bytes a) : Bytes (opt a) := by
  rintro s (rfl | hs)
  · intro c hc; cases hc
  · exact h s hs

theorem bytes_number {max : Nat} : Bytes (number max) := by
  rintro s ⟨-, h, -⟩ c hc
  have := digit_nat (h c hc)
  simp [byteChar]; omega

theorem bytes_and {P : Str → Prop} {a : Rule} (h : Bytes a) : Bytes (fun s => P s ∧ a s) := fun s hs => h s hs.2
theorem bytes_and' {P : Str → Prop} {a : Rule} (h : Bytes a) : Bytes (fun s => a s ∧ P s) := fun s hs => h s hs.1

/-- Characters of rules that are given by their numbers. -/
macro "bytes_chars" : tactic => `(tactic| (
  intro c hc
  simp [byteChar, Rfc.isTokenChar, Rfc.isVchar, Rfc.isAlphaNumeric, Rfc.isIceChar, Rfc.isUhex, Rfc.isPosDigit, Rfc.isBase64] at hc ⊢
  try omega))

theorem bytes_digit : Bytes (char Char.isDigit) := bytes_char fun c hc => by
  have := digit_nat hc
  simp [byteChar]; omega

theorem bytes_token : Bytes Rfc.token := bytes_rep (bytes_char (by bytes_chars))
theorem bytes_byteString : Bytes Rfc.byteString := bytes_rep (bytes_char fun c hc => hc)
theorem bytes_nonWs : Bytes Rfc.nonWsString := bytes_rep (bytes_char (by bytes_chars))
theorem bytes_fqdn : Bytes Rfc.fqdn := bytes_rep (bytes_char (by
  intro c hc
  simp [Rfc.isAlphaNumeric, byteChar] at hc ⊢
  rcases hc with (hc | rfl) | rfl
  · omega
  · decide
  · decide))

theorem bytes_sp : Bytes Rfc.SP := bytes_exactly (by decide)

/-- Rules that are made of rules that have been shown to be clean. -/
macro "bytes_rule" : tactic => `(tactic| repeat first
  | exact bytes_token | exact bytes_byteString | exact bytes_number | exact bytes_sp | exact bytes_digit | exact bytes_nonWs | exact bytes_fqdn
  | exact bytes_nil | exact bytes_alt_nil | assumption
  | apply bytes_cons | apply bytes_alt | apply bytes_rep | apply bytes_reps | apply bytes_opt
  | exact bytes_exactly (by decide) | exact bytes_word (by decide) (by decide)
  | exact bytes_char (by bytes_chars))

theorem bytes_digit' : Bytes Rfc3986.DIGIT := bytes_char (by bytes_chars)
theorem bytes_hex : Bytes Rfc3986.HEXDIG := by
  unfold Rfc3986.HEXDIG
  have := bytes_digit'
  bytes_rule
theorem bytes_octet : Bytes Rfc3986.decOctet := by
  unfold Rfc3986.decOctet
  have := bytes_digit'
  unfold Rfc3986.times
  bytes_rule
theorem bytes_ipv4 : Bytes Rfc3986.ipv4Address := by
  unfold Rfc3986.ipv4Address
  have := bytes_octet
  bytes_rule
theorem bytes_h16 : Bytes Rfc3986.h16 := by
  unfold Rfc3986.h16
  have := bytes_hex
  bytes_rule
theorem bytes_ls32 : Bytes Rfc3986.ls32 := by
  unfold Rfc3986.ls32
  have := bytes_h16
  have := bytes_ipv4
  bytes_rule
theorem bytes_ipv6 : Bytes Rfc3986.ipv6Address := by
  unfold Rfc3986.ipv6Address Rfc3986.h16c Rfc3986.times
  have := bytes_h16
  have := bytes_ls32
  bytes_rule

section
variable [Env]

theorem bytes_ip4 : Bytes Rfc.ip4 := by rw [C113_rules.1]; exact bytes_ipv4
theorem bytes_ip6 : Bytes Rfc.ip6 := by rw [C113_rules.2]; exact bytes_ipv6
theorem bytes_ip4' : Bytes (fun s => ∃ a, IpText s (.v4 a)) := bytes_ip4
theorem bytes_ip6' : Bytes (fun s => ∃ a, IpText s (.v6 a)) := bytes_ip6
theorem bytes_ip : Bytes (fun s => ∃ a, IpText s a) := by
  rintro s ⟨a, h⟩
  cases a with
  | v4 a => exact bytes_ip4 s ⟨a, h⟩
  | v6 a => exact bytes_ip6 s ⟨a, h⟩
theorem bytes_hostName : Bytes Rfc.hostName := fun s hs => bytes_fqdn s hs.2.1
theorem bytes_host' : Bytes (fun s => (∀ a, ¬ IpText s a) ∧ Rfc.fqdn s ∧ ∃ d, Env.hostNA s = .domain d) := bytes_hostName
theorem bytes_address_rule : Bytes Rfc.address := by
  unfold Rfc.address
  exact bytes_alt bytes_ip (bytes_alt (bytes_and' bytes_fqdn) bytes_alt_nil)
theorem bytes_unicast : Bytes Rfc.unicast := by
  unfold Rfc.unicast
  have := bytes_ip4
  have := bytes_ip6
  have := bytes_hostName
  bytes_rule
theorem bytes_origin_rule : Bytes Rfc.origin := by
  unfold Rfc.origin
  have := bytes_unicast
  bytes_rule
theorem bytes_connection_rule : Bytes Rfc.connection := by
  unfold Rfc.connection
  have := bytes_ip4
  have := bytes_ip6
  have := bytes_hostName
  bytes_rule
theorem bytes_bandwidth : Bytes Rfc.bandwidth := by
  unfold Rfc.bandwidth
  bytes_rule
theorem bytes_timing : Bytes Rfc.timing := by
  unfold Rfc.timing
  bytes_rule
theorem bytes_proto : Bytes Rfc.proto := by
  unfold Rfc.proto
  bytes_rule
theorem bytes_media : Bytes Rfc.media := by
  unfold Rfc.media Rfc.port
  have := bytes_proto
  have : Bytes Rfc.payloadType := bytes_and' bytes_number
  bytes_rule

/-! ## Attributes -/

theorem bytes_named {n : Str} {R : Rule} (hn : n.all byteChar = true) (h : Bytes R) : Bytes (Rfc.named n R) :=
  bytes_cons (bytes_exactly hn) (bytes_cons (bytes_exactly (by decide)) (bytes_cons h bytes_nil))

omit [Env] in
theorem bytes_iceChar : Bytes (char Rfc.isIceChar) := bytes_char fun c hc => by
  simp [Rfc.isIceChar, Rfc.isAlphaNumeric, byteChar] at hc ⊢
  rcases hc with (hc | rfl) | rfl
  · omega
  · decide
  · decide

omit [Env] in
theorem bytes_ridId : Bytes Rfc.ridId := bytes_rep (bytes_char fun c hc => by
  simp [Rfc.isAlphaNumeric, byteChar] at hc ⊢
  rcases hc with (hc | rfl) | rfl
  · omega
  · decide
  · decide)

omit [Env] in
theorem bytes_base64 : Bytes (char Rfc.isBase64) := bytes_char fun c hc => by
  simp [Rfc.isBase64, Rfc.isAlphaNumeric, byteChar] at hc ⊢
  rcases hc with ((hc | rfl) | rfl) | rfl
  · omega
  · decide
  · decide
  · decide

omit [Env] in
theorem bytes_posDigit : Bytes (char Rfc.isPosDigit) := bytes_char fun c hc => by
  have h : c.isDigit = true := by simp [Rfc.isPosDigit] at hc; exact hc.1
  have := digit_nat h
  simp [byteChar]; omega

omit [Env] in
theorem bytes_uhex : Bytes (char Rfc.isUhex) := bytes_char fun c hc => by
  simp only [Rfc.isUhex, Bool.or_eq_true, Bool.and_eq_true, decide_eq_true_eq] at hc
  rcases hc with hc | hc
  · have := digit_nat hc
    simp [byteChar]; omega
  · simp [byteChar]; omega

omit [Env] in
theorem bytes_hexDigit : Bytes (char fun c => c.isDigit || c ∈ c%"abcdefABCDEF") := bytes_char fun c hc => by
  simp only [Bool.or_eq_true, decide_eq_true_eq] at hc
  rcases hc with hc | hc
  · have := digit_nat hc
    simp [byteChar]; omega
  · have : ∀ c ∈ c%"abcdefABCDEF", byteChar c = true := by decide
    exact this c hc

omit [Env] in
theorem bytes_fingerprint : Bytes Rfc.fingerprint := by
  unfold Rfc.fingerprint Rfc.fingerprintOf
  have := bytes_uhex
  bytes_rule

omit [Env] in
theorem bytes_ridParam : Bytes Rfc.ridParam := by
  unfold Rfc.ridParam
  have : Bytes (rep 1 (char fun c => Rfc.isAlphaNumeric c || c == '-')) := bytes_rep (bytes_char fun c hc => by
    simp [Rfc.isAlphaNumeric, byteChar] at hc ⊢
    rcases hc with hc | rfl
    · omega
    · decide)
  have := bytes_and' (P := fun s => s ∉ [c%"max-width", c%"max-height", c%"max-fps", c%"max-fs", c%"max-br", c%"max-pps", c%"pt"]) this
  have : Bytes Rfc.paramVal := bytes_rep (bytes_char (by bytes_chars))
  bytes_rule

omit [Env] in
theorem bytes_parameters : Bytes Rfc.parameters := by
  have h1 {l : List Str} (h : ∀ t ∈ l, t.all byteChar = true ∧ t.all (fun c => 0x20 ≤ c.toNat) = true) : Bytes (Rfc.oneOf l) := by
    rintro s ⟨_, hr, hs⟩
    obtain ⟨t, ht, rfl⟩ := List.mem_map.1 hr
    exact bytes_word (h t ht).1 (h t ht).2 s hs
  have h2 : Bytes Rfc.unknownParameter := by
    unfold Rfc.unknownParameter
    have := bytes_and' (P := fun s => ∀ n ∈ Rfc.knownParameters, ¬ word n s) bytes_token
    bytes_rule
  have h3 : Bytes Rfc.aptParameter := by
    unfold Rfc.aptParameter
    bytes_rule
  have h4 : Bytes Rfc.rtxTimeParameter := by
    unfold Rfc.rtxTimeParameter
    bytes_rule
  have h5 : Bytes Rfc.parameter := by
    unfold Rfc.parameter
    have := bytes_hexDigit
    have := h1 (l := Rfc.numberParameters) (by decide)
    have := h1 (l := Rfc.switchParameters) (by decide)
    have := h1 (l := Rfc.modeParameters) (by decide)
    bytes_rule
  unfold Rfc.parameters
  bytes_rule

omit [Env] in
theorem bytes_spValue : Bytes Rfc.spValue := by
  unfold Rfc.spValue
  have := bytes_posDigit
  bytes_rule

omit [Env] in
theorem bytes_joinS {R : Rule} (h : Bytes R) {l : List Str} (hl : ∀ t ∈ l, R t) : ∀ c ∈ joinS c%"," l, byteChar c = true := by
  cases l with
  | nil => simp [joinS]
  | cons a l =>
    rw [← joinS_words]
    intro c hc
    simp only [List.mem_append, List.mem_flatten, List.mem_map] at hc
    rcases hc with hc | ⟨_, ⟨t, ht, rfl⟩, hc⟩
    · exact h a (hl a (by simp)) c hc
    · rcases List.mem_cons.1 hc with rfl | hc
      · decide
      · exact h t (hl t (by simp [ht])) c hc

omit [Env] in
theorem bytes_spRange : Bytes Rfc.spRange := by
  rintro _ ⟨a, b, rfl, ha, hb, -⟩ c hc
  simp only [List.mem_append, List.mem_cons] at hc
  rcases hc with hc | rfl | hc
  · exact bytes_spValue a ha c hc
  · decide
  · exact bytes_spValue b hb c hc

omit [Env] in
theorem bytes_sRange : Bytes Rfc.sRange := by
  unfold Rfc.sRange
  have := bytes_spValue
  have := bytes_spRange
  have h1 : Bytes fun s => ∃ a l, l ≠ [] ∧ s = '[' :: joinS c%"," (a :: l) ++ c%"]" ∧ (∀ t ∈ a :: l, Rfc.spValue t) ∧
      (a :: l).IsChain Rfc.Less := by
    rintro _ ⟨a, l, -, rfl, h, -⟩ c hc
    simp only [List.mem_append, List.mem_cons, List.not_mem_nil, or_false] at hc
    rcases hc with (rfl | hc) | rfl
    · decide
    · exact bytes_joinS bytes_spValue h c hc
    · decide
  bytes_rule

omit [Env] in
theorem bytes_imageSets : Bytes Rfc.imageSets := by
  have := bytes_posDigit
  have := bytes_sRange
  have := bytes_spRange
  have h1 : Bytes Rfc.xyRange := by
    unfold Rfc.xyRange Rfc.xyValue
    bytes_rule
  have h2 : Bytes Rfc.imageSet := by
    unfold Rfc.imageSet Rfc.keyValue Rfc.pRange Rfc.qValue
    bytes_rule
  unfold Rfc.imageSets
  bytes_rule

omit [Env] in
theorem bytes_imageattr : Bytes Rfc.imageattr := by
  unfold Rfc.imageattr
  have := bytes_imageSets
  refine bytes_and ?_
  bytes_rule

omit [Env] in
theorem bytes_frameRate : Bytes Rfc.frameRate := by
  unfold Rfc.frameRate Rfc.integer Rfc.zeroBasedInteger Rfc.integer
  have := bytes_posDigit
  refine bytes_and ?_
  bytes_rule

theorem bytes_candidate : Bytes Rfc.candidate := by
  have h1 := bytes_address_rule
  have h2 : Bytes Rfc.foundation := bytes_reps bytes_iceChar
  have h3 : Bytes Rfc.candExtension := by
    unfold Rfc.candExtension
    have := bytes_and' (P := fun s => ∀ n ∈ [c%"tcptype", c%"generation", c%"network-cost", c%"raddr", c%"rport"], ¬ word n s) bytes_token
    bytes_rule
  unfold Rfc.candidate Rfc.componentId Rfc.transport Rfc.priority Rfc.port Rfc.candType Rfc.relAddr Rfc.relPort Rfc.port
  bytes_rule

theorem bytes_knownAttribute : Bytes Rfc.knownAttribute := by
  have hflags : Bytes (fun s => s ∈ Rfc.flags) := by
    have : ∀ t ∈ Rfc.flags, t.all byteChar = true := by decide
    exact fun s hs c hc => List.all_eq_true.1 (this s hs) c hc
  have h1 := bytes_iceChar
  have h2 := bytes_fingerprint
  have h3 := bytes_ridId
  have h4 := bytes_ridParam
  have h5 := bytes_parameters
  have h6 := bytes_imageattr
  have h7 := bytes_frameRate
  have h8 := bytes_candidate
  have h9 := bytes_base64
  have h10 := bytes_address_rule
  have h11 := bytes_ip4'
  have h12 := bytes_ip6'
  have h13 := bytes_host'
  unfold Rfc.knownAttribute Rfc.rtpmap Rfc.iceUfrag Rfc.icePwd Rfc.mid Rfc.label Rfc.icePacing Rfc.ptime Rfc.sctpPort Rfc.maxMessageSize
    Rfc.iceOptions Rfc.setup Rfc.group Rfc.ssrcGroup Rfc.msid Rfc.ssrc Rfc.extmap Rfc.rtcp Rfc.remoteCandidates Rfc.rtcpFb Rfc.simulcast
    Rfc.rid Rfc.fmtp Rfc.redundant Rfc.events Rfc.identity Rfc.msidSemantic Rfc.sctpmap Rfc.dtlsMessage Rfc.componentId Rfc.port
  simp only []
  repeat refine bytes_alt ?_ ?_
  all_goals try refine bytes_named (by decide) ?_
  all_goals bytes_rule

theorem bytes_otherAttribute : Bytes Rfc.otherAttribute := by
  unfold Rfc.otherAttribute
  have := bytes_and' (P := fun s => ∀ n ∈ attributeNames, ¬ word n s) bytes_token
  bytes_rule

end

end Sdp
