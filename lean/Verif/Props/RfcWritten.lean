import Verif.Props.Parsed
import Verif.Spec.RfcWritten
import Verif.Props.RfcLines
import Verif.Lemmas.Print4
import Verif.Lemmas.RfcFloat2
/-!
# C111: what is written for an attribute of the standards follows the standards

For each attribute: a value that follows the rule is read, and what is written back for it follows the rule again.
-/

namespace Sdp

open Abnf

/-- Every value that follows the rule is read, and what is written for it, with the same name, follows the rule again. -/
def Kept [Env] (name : Str) (rule : Rule) : Prop :=
  ∀ v, rule v → ∃ a w, attrFromStr (name ++ ':' :: v) = .ok a ∧ showAttribute a = name ++ ':' :: w ∧ rule w

/-! ## Helpers -/

private theorem shown_ne {n : Nat} {s : Str} : showNat n ++ s ≠ [] := by
  have := showNat_ne_nil n
  simp [this]

private theorem token_ne {s : Str} (h : Rfc.token s) : s ≠ [] := (token_token h).1

theorem rfc_maybeVec {pre sep : Str} {l : List Str} (h : ∀ t ∈ l, t ≠ []) (hl : l ≠ []) : maybeVec pre [] sep l = pre ++ joinS sep l := by
  cases l with
  | nil => exact absurd rfl hl
  | cons a l =>
    have hf : (a :: l).filter (fun s => !s.isEmpty) = a :: l := by
      rw [List.filter_eq_self]; intro t ht; simpa using h t ht
    simp only [maybeVec, hf, List.append_nil]

section
variable [Env]

theorem rfc_ip_text (a : IpAddr) : IpText (showIp a) a := ipFromStr_iff.1 (ipFromStr_show a)

theorem rfc_address_shown (H : Rfc.HostNames) {a : Address} (h : FromAddress a) : Rfc.address (showAddress a) := by
  cases a with
  | fqdn d =>
    obtain ⟨s, hs, hd⟩ := h d rfl
    exact rfc_alt_there (rfc_alt_here ⟨H.form s d hs hd, d, (H.laws.host s d hd).2.2.2.2⟩)
  | ip a => exact rfc_alt_here ⟨a, rfc_ip_text a⟩

theorem rfc_host_shown (H : Rfc.HostNames) {s d : Str} (hs : Rfc.fqdn s) (hd : Env.hostNA s = .domain d) : Rfc.hostName d := by
  have hh := H.laws.host s d hd
  refine ⟨fun a ha => ?_, H.form s d hs hd, d, hh.2.2.2.2⟩
  have h1 := hh.parse
  rw [parseAddress_iff.2 (.inl ⟨a, ha, rfl⟩)] at h1
  cases h1

/-! ## The attributes -/

/-- **C111.** Attributes of a single word or number. -/
theorem C111_words : Kept c%"ice-ufrag" Rfc.iceUfrag ∧ Kept c%"ice-pwd" Rfc.icePwd ∧ Kept c%"mid" Rfc.mid ∧
    Kept c%"label" Rfc.label ∧ Kept c%"setup" Rfc.setup := by
  refine ⟨fun v h => ?_, fun v h => ?_, fun v h => ?_, fun v h => ?_, fun v h => ?_⟩
  · refine ⟨_, v, C106_words.1 h, rfc_written ?_, h⟩
    rintro rfl; have := (reps_char h).1; simp at this
  · refine ⟨_, v, C106_words.2.1 h, rfc_written ?_, h⟩
    rintro rfl; have := (reps_char h).1; simp at this
  · exact ⟨_, v, C106_words.2.2.1 h, rfc_written (token_ne h), h⟩
  · exact ⟨_, v, C106_words.2.2.2 h, rfc_written (token_ne h), h⟩
  · obtain ⟨x, hx⟩ := C106_setup h
    refine ⟨_, showSetup x, hx, rfc_written (by cases x <;> decide), ?_⟩
    cases x
    · exact ⟨word c%"active", by simp, rfl⟩
    · exact ⟨word c%"actpass", by simp, rfl⟩
    · exact ⟨word c%"holdconn", by simp, rfl⟩
    · exact ⟨word c%"passive", by simp, rfl⟩

/-- **C111.** Attributes that are a number. -/
theorem C111_numbers : Kept c%"ice-pacing" Rfc.icePacing ∧ Kept c%"ptime" Rfc.ptime ∧ Kept c%"maxptime" Rfc.ptime ∧
    Kept c%"sctp-port" Rfc.sctpPort ∧ Kept c%"max-message-size" Rfc.maxMessageSize := by
  refine ⟨fun v h => ?_, fun v h => ?_, fun v h => ?_, fun v h => ?_, fun v h => ?_⟩
  · obtain ⟨n, hn, hlt⟩ := rfc_numbers.1 h
    refine ⟨_, showU64 n, hn, rfc_written (showNat_ne_nil _), rfc_reps_of ⟨?_, ?_, fun c hc => showNat_digits hc⟩⟩
    · exact List.length_pos_iff.2 (showNat_ne_nil _)
    · exact Nat.toDigits_length 10 _ 10 (by omega) hlt
  · obtain ⟨n, hn⟩ := rfc_numbers.2.1 h
    exact ⟨_, showU64 n, hn, rfc_written (showNat_ne_nil _), rfc_number_show (by have := n.toNat_lt; omega)⟩
  · obtain ⟨n, hn⟩ := rfc_numbers.2.2.1 h
    exact ⟨_, showU64 n, hn, rfc_written (showNat_ne_nil _), rfc_number_show (by have := n.toNat_lt; omega)⟩
  · obtain ⟨n, hn, hle⟩ := rfc_numbers.2.2.2.1 h
    exact ⟨_, showU64 n, hn, rfc_written (showNat_ne_nil _), rfc_number_show hle⟩
  · obtain ⟨n, hn⟩ := rfc_numbers.2.2.2.2 h
    exact ⟨_, showU64 n, hn, rfc_written (showNat_ne_nil _), rfc_number_show (by have := n.toNat_lt; omega)⟩

theorem rtpmap_shown {r : Rtpmap} (h1 : r.payloadType.toNat ≤ 127) (h2 : Rfc.token r.codecName) : Rfc.rtpmap (showRtpmap r) := by
  have h3 : number (2 ^ 32 - 1) (showU32 r.frequency) := rfc_number_show (by have := r.frequency.toNat_lt; omega)
  have h4 : opt (seq [exactly ['/'], number (2 ^ 32 - 1)]) (optStr c%"/" showU32 r.channels) := by
    cases r.channels with
    | none => exact .inl rfl
    | some n => exact .inr (rfc_seq_cons (u := ['/']) rfl (rfc_seq_one (rfc_number_show (by have := n.toNat_lt; omega))))
  have := rfc_seq_cons (rfc_number_show h1) (rfc_seq_cons (a := Rfc.SP) (u := [' ']) rfl (rfc_seq_cons h2
    (rfc_seq_cons (a := exactly ['/']) (u := ['/']) rfl (rfc_seq_cons h3 (rfc_seq_one h4)))))
  unfold Rfc.rtpmap
  simpa [showRtpmap, showU8] using this

/-- **C111.** `rtpmap`. -/
theorem C111_rtpmap : Kept c%"rtpmap" Rfc.rtpmap := fun v h => by
  obtain ⟨r, hr, h1, h2⟩ := rfc_rtpmap h
  exact ⟨_, showRtpmap r, hr, rfc_written (by simp [showRtpmap]), rtpmap_shown h1 h2⟩

/-- **C111.** `ice-options`. -/
theorem C111_ice_options : Kept c%"ice-options" Rfc.iceOptions := fun v h => by
  obtain ⟨l, hl, rfl⟩ := C106_ice_options h
  refine ⟨_, joinS c%" " l, hl, rfc_written ?_, h⟩
  intro he
  rw [he] at h
  obtain ⟨a, b, e, ha, -⟩ := h
  have := (rep_char.1 ha).1
  simp at e
  simp [e] at this

theorem group_shown {g : Group} (ht : ∀ t ∈ g.tags, Rfc.token t) : Rfc.group (showGroup g) := by
  unfold showGroup
  refine rfc_seq_cons ?_ (rfc_seq_one ?_)
  · cases g.semantics
    · exact ⟨word c%"LS", by simp, rfl⟩
    · exact ⟨word c%"FID", by simp, rfl⟩
    · exact ⟨word c%"SRF", by simp, rfl⟩
    · exact ⟨word c%"ANAT", by simp, rfl⟩
    · exact ⟨word c%"FEC", by simp, rfl⟩
    · exact ⟨word c%"DDP", by simp, rfl⟩
    · exact ⟨word c%"BUNDLE", by simp, rfl⟩
  · by_cases hl : g.tags = []
    · rw [hl]; exact ⟨[], rfl, Nat.zero_le _, by simp⟩
    · rw [rfc_maybeVec (fun t h => token_ne (ht t h)) hl, List.singleton_append, ← rfc_flatten hl]
      exact rfc_rep_sep (Nat.zero_le _) ht

/-- **C111.** `group`. -/
theorem C111_group : Kept c%"group" Rfc.group := fun v h => by
  obtain ⟨g, hg, ht⟩ := rfc_group h
  exact ⟨_, showGroup g, hg, rfc_written (by unfold showGroup; cases g.semantics <;> simp [showGroupSemantic]), group_shown ht⟩

/-- **C111.** `ssrc-group`. -/
theorem C111_ssrc_group : Kept c%"ssrc-group" Rfc.ssrcGroup := fun v h => by
  obtain ⟨g, l, hg, hne, hl⟩ := rfc_ssrc_group h
  refine ⟨_, showSsrcGroupSemantic g ++ ' ' :: joinS c%" " (l.map showSsrc), hg, ?_, ?_⟩
  · show attrToString _ _ ++ _ ++ _ = _
    rw [rfc_written (by cases g <;> decide)]
    simp [AttributeType.name]
  · refine rfc_seq_cons ?_ (rfc_seq_one ?_)
    · cases g
      · exact ⟨word c%"DUP", by simp, rfl⟩
      · exact ⟨word c%"FID", by simp, rfl⟩
      · exact ⟨word c%"FEC", by simp, rfl⟩
      · exact ⟨word c%"FEC-FR", by simp, rfl⟩
      · exact ⟨word c%"SIM", by simp, rfl⟩
    · rw [← rfc_flatten (by simpa using hne)]
      refine rfc_rep_sep (by rw [List.length_map]; exact List.length_pos_iff.2 hne) fun w hw => ?_
      obtain ⟨s, hs, rfl⟩ := List.mem_map.1 hw
      obtain ⟨h1, h2⟩ := hl s hs
      simp only [showSsrc, h1, h2, optStr, List.append_nil]
      exact rfc_number_show (by have := s.id.toNat_lt; omega)

/-- **C111.** `msid`, `rtcp-fb`, `simulcast`, `dtls-message` and `identity`. -/
theorem C111_texts : Kept c%"msid" Rfc.msid ∧ Kept c%"rtcp-fb" Rfc.rtcpFb ∧ Kept c%"simulcast" Rfc.simulcast ∧
    Kept c%"dtls-message" Rfc.dtlsMessage ∧ Kept c%"identity" Rfc.identity := by
  refine ⟨fun v h => ?_, fun v h => ?_, fun v h => ?_, fun v h => ?_, fun v h => ?_⟩
  · obtain ⟨m, hm, h'⟩ := rfc_msid h
    refine ⟨_, showMsid m, hm, rfc_written fun e => ?_, h'⟩
    rw [e] at h'
    obtain ⟨a, b, e, ha, -⟩ := h'
    have := (reps_char ha).1
    simp at e; simp [e] at this
  · obtain ⟨m, hm, h'⟩ := rfc_rtcp_fb h
    exact ⟨_, showRtcpFb m, hm, rfc_written (by simp [showRtcpFb]), h'⟩
  · obtain ⟨m, hm, -, h'⟩ := rfc_simulcast h
    refine ⟨_, showSimulcast m, hm, rfc_written fun e => ?_, h'⟩
    rw [e] at h'
    obtain ⟨r, hr, h'⟩ := h'
    simp only [List.mem_cons, List.not_mem_nil, or_false] at hr
    rcases hr with rfl | rfl
    · obtain ⟨a, b, e, ⟨_, _, rfl, rfl, _⟩, -⟩ := h'
      simp at e
    · obtain ⟨a, b, e, ⟨_, _, rfl, rfl, _⟩, -⟩ := h'
      simp at e
  · obtain ⟨m, hm, h'⟩ := rfc_dtls_message h
    exact ⟨_, showDtlsMessage m, hm, rfc_written (by cases m <;> simp [showDtlsMessage]), h'⟩
  · obtain ⟨m, hm, h'⟩ := rfc_identity h
    refine ⟨_, m, hm, rfc_written fun e => ?_, h'⟩
    rw [e] at h'
    obtain ⟨a, b, e, ha, -⟩ := h'
    have := (rep_char.1 ha).1
    simp at e; simp [e] at this

/-- **C111.** `msid-semantic`. -/
theorem C111_msid_semantic : Kept c%"msid-semantic" Rfc.msidSemantic := fun v h => by
  obtain ⟨m, hm, h1, h2⟩ := rfc_msid_semantic h
  refine ⟨_, showMsidSemantic m, hm, rfc_written (by simp [showMsidSemantic]), ?_⟩
  have key : ∀ l : List Str, l ≠ [] → (∀ t ∈ l, Rfc.token t) → Rfc.msidSemantic (m.semantic ++ ' ' :: joinS c%" " l) := by
    intro l hl ht
    rw [← rfc_flatten hl]
    exact rfc_seq_cons (u := []) (.inl rfl) (rfc_seq_cons h1 (rfc_seq_one (rfc_rep_sep (Nat.zero_le _) ht)))
  unfold showMsidSemantic
  split
  · have := key [c%"*"] (by simp) (fun t ht => by rw [List.mem_singleton.1 ht]; exact rep_char.2 (by decide))
    simpa [joinS] using this
  · rename_i hne
    have := key m.msids (fun h => hne h) h2
    simpa using this

theorem sctpmap_shown (m : Sctpmap) : Rfc.sctpmap (showSctpmap m) := by
  have := rfc_seq_cons (rfc_number_show (max := 65535) (n := m.port.toNat) (by have := m.port.toNat_lt; omega))
    (rfc_seq_cons (a := Rfc.SP) (u := [' ']) rfl (rfc_seq_cons (a := word c%"webrtc-datachannel") (u := c%"webrtc-datachannel") rfl
      (rfc_seq_cons (a := Rfc.SP) (u := [' ']) rfl
        (rfc_seq_one (rfc_number_show (max := 2 ^ 32 - 1) (n := m.channels.toNat) (by have := m.channels.toNat_lt; omega))))))
  unfold Rfc.sctpmap
  simpa [showSctpmap, showU16, showU32] using this

/-- **C111.** `sctpmap`. -/
theorem C111_sctpmap : Kept c%"sctpmap" Rfc.sctpmap := fun v h => by
  obtain ⟨m, hm⟩ := C110_sctpmap h
  exact ⟨_, showSctpmap m, hm, rfc_written (by simp [showSctpmap]), sctpmap_shown m⟩

/-- **C111.** `ssrc`, if the value is not only white space. -/
theorem C111_ssrc : Kept c%"ssrc" Rfc.ssrcPlain := fun v h => by
  obtain ⟨s, hs, a, ha, hat, hv⟩ := rfc_ssrc h.1
  refine ⟨_, showSsrc s, hs, rfc_written (by simp [showSsrc, ha, optStr]), ?_⟩
  have h1 : number (2 ^ 32 - 1) (showU32 s.id) := rfc_number_show (by have := s.id.toNat_lt; omega)
  cases hb : s.value with
  | none =>
    have e : showSsrc s = showU32 s.id ++ ([' '] ++ a) := by simp [showSsrc, ha, hb, optStr]
    rw [e]
    refine ⟨rfc_seq_cons h1 (rfc_seq_cons (a := Rfc.SP) rfl (rfc_seq_one (rfc_alt_there (rfc_alt_here hat)))), ?_⟩
    intro p w e' hp
    have : ':' ∈ showU32 s.id ++ ([' '] ++ a) := by rw [e']; simp
    simp only [List.mem_append, List.mem_cons, List.not_mem_nil, or_false] at this
    rcases this with h | h | h
    · exact absurd (showNat_digits h) (by decide)
    · cases h
    · exact absurd h (token_not_mem hat (by simp))
  | some b =>
    obtain ⟨p, w, rfl, hp, hw, hc⟩ := hv b hb
    have hnb : ¬ Blank b := fun hb => h.2 p (b ++ w) rfl hp fun c hc => by
      rcases List.mem_append.1 hc with h | h
      · exact hb c h
      · exact hw c h
    have e : showSsrc s = showU32 s.id ++ ([' '] ++ (a ++ ([':'] ++ b))) := by simp [showSsrc, ha, hb, optStr]
    rw [e]
    have hbs : Rfc.byteString b := by
      refine rep_char.2 ⟨?_, fun c h => ?_⟩
      · cases b with
        | nil => exact absurd (fun c hc => by cases hc) hnb
        | cons => simp
      · have := hc c h
        simpa using ⟨⟨this.1, this.2.1⟩, this.2.2⟩
    refine ⟨rfc_seq_cons h1 (rfc_seq_cons (a := Rfc.SP) rfl (rfc_seq_one (rfc_alt_here
      (rfc_seq_cons hat (rfc_seq_cons (a := exactly [':']) rfl (rfc_seq_one hbs)))))), ?_⟩
    intro p' w' e' hp'
    have hpre : ':' ∉ showU32 s.id ++ ([' '] ++ a) := by
      intro h
      simp only [List.mem_append, List.mem_cons, List.not_mem_nil, or_false] at h
      rcases h with h | h | h
      · exact absurd (showNat_digits h) (by decide)
      · cases h
      · exact absurd h (token_not_mem hat (by simp))
    have : (showU32 s.id ++ ([' '] ++ a)) ++ ':' :: b = p' ++ ':' :: w' := by simpa using e'
    have h2 := splitn_two_append (b := b) hpre
    rw [this, splitn_two_append hp'] at h2
    simp only [List.cons.injEq, and_true] at h2
    rw [h2.2]
    exact hnb

/-- **C111.** `extmap`. -/
theorem C111_extmap : Kept c%"extmap" Rfc.extmap := fun v h => by
  obtain ⟨e, he, h1, h2⟩ := rfc_extmap h
  refine ⟨_, showExtmap e, he, rfc_written (by simp [showExtmap]), ?_⟩
  have h3 : opt (seq [exactly ['/'], alt [word c%"sendonly", word c%"recvonly", word c%"sendrecv"]]) (optStr c%"/" showDirection e.direction) := by
    cases e.direction with
    | none => exact .inl rfl
    | some d =>
      refine .inr (rfc_seq_cons (u := ['/']) rfl (rfc_seq_one ?_))
      cases d
      · exact ⟨word c%"recvonly", by simp, rfl⟩
      · exact ⟨word c%"sendonly", by simp, rfl⟩
      · exact ⟨word c%"sendrecv", by simp, rfl⟩
  have h4 : opt (seq [Rfc.SP, Rfc.byteString]) (optStr c%" " id e.extensionAttributes) := by
    cases hb : e.extensionAttributes with
    | none => exact .inl rfl
    | some b => exact .inr (rfc_seq_cons (u := [' ']) rfl (rfc_seq_one (h2 b hb)))
  have := rfc_seq_cons (rfc_number_show (max := 65535) (n := e.id.toNat) (by have := e.id.toNat_lt; omega)) (rfc_seq_cons h3
    (rfc_seq_cons (a := Rfc.SP) (u := [' ']) rfl (rfc_seq_cons h1 (rfc_seq_one h4))))
  unfold Rfc.extmap
  simpa [showExtmap, showU16] using this

omit [Env] in
private theorem uhex (n : Nat) (h : n < 16) : Rfc.isUhex (hexUpper n) = true := by
  have : ∀ n : Fin 16, Rfc.isUhex (hexUpper n.val) = true := by decide +kernel
  exact this ⟨n, h⟩

theorem fingerprint_shown {f : Fingerprint} (hlen : f.fingerprint.length = fingerprintBytes f.hashAlgorithm) :
    Rfc.fingerprint (showFingerprint f) := by
  have byte (b : UInt8) : reps 2 2 (char Rfc.isUhex) (showByteHex b) := by
    refine rfc_reps_of ⟨by simp [showByteHex], by simp [showByteHex], fun c hc => ?_⟩
    simp only [showByteHex, List.mem_cons, List.not_mem_nil, or_false] at hc
    have := b.toNat_lt
    rcases hc with rfl | rfl
    · exact uhex _ (by omega)
    · exact uhex _ (by omega)
  have key : ∀ n, f.fingerprint.length = n → 0 < n → Rfc.fingerprintOf n (joinS c%":" (f.fingerprint.map showByteHex)) := by
    intro n hn hpos
    cases hl : f.fingerprint with
    | nil => rw [hl] at hn; simp at hn; omega
    | cons b l =>
      rw [List.map_cons, ← joinS_words]
      refine rfc_seq_cons (byte b) (rfc_seq_one ⟨(l.map showByteHex).map (':' :: ·), rfl, ?_, ?_, fun t ht => ?_⟩)
      · rw [hl] at hn; simp at hn ⊢; omega
      · rw [hl] at hn; simp at hn ⊢; omega
      · simp only [List.map_map, List.mem_map, Function.comp_apply] at ht
        obtain ⟨x, -, rfl⟩ := ht
        exact rfc_seq_cons (u := [':']) rfl (rfc_seq_one (byte x))
  have h2 : Rfc.fingerprintOf (fingerprintBytes f.hashAlgorithm) (joinS c%":" (f.fingerprint.map showByteHex)) :=
    key _ hlen (by cases f.hashAlgorithm <;> decide)
  have build {name : Str} {n : Nat} (h : Rfc.fingerprintOf n (joinS c%":" (f.fingerprint.map showByteHex))) :
      seq [exactly name, Rfc.SP, Rfc.fingerprintOf n] (name ++ c%" " ++ joinS c%":" (f.fingerprint.map showByteHex)) := by
    rw [List.append_assoc]
    exact rfc_seq_cons rfl (rfc_seq_cons (a := Rfc.SP) rfl (rfc_seq_one h))
  unfold showFingerprint
  cases ha : f.hashAlgorithm <;> rw [ha] at h2
  · exact ⟨_, .head _, build h2⟩
  · exact ⟨_, .tail _ (.head _), build h2⟩
  · exact ⟨_, .tail _ (.tail _ (.head _)), build h2⟩
  · exact ⟨_, .tail _ (.tail _ (.tail _ (.head _))), build h2⟩
  · exact ⟨_, .tail _ (.tail _ (.tail _ (.tail _ (.head _)))), build h2⟩

/-- **C111.** `fingerprint`. -/
theorem C111_fingerprint : Kept c%"fingerprint" Rfc.fingerprint := fun v h => by
  obtain ⟨f, hf⟩ := C106_fingerprint h
  obtain ⟨-, -, -, -, -, -, -, -, -, hlen⟩ := C61_fingerprint.1 hf
  exact ⟨_, showFingerprint f, hf, rfc_written (by simp [showFingerprint]), fingerprint_shown hlen⟩

/-- **C111.** `rtcp`. -/
theorem C111_rtcp (H : Rfc.HostNames) : Kept c%"rtcp" Rfc.rtcp := fun v h => by
  obtain ⟨r, hr, hd⟩ := rfc_rtcp h
  refine ⟨_, showRtcp r, hr, rfc_written (by unfold showRtcp; split <;> simp [showU16, showNat_ne_nil]), ?_⟩
  have hp : Rfc.port (showU16 r.port) := rfc_number_show (by have := r.port.toNat_lt; omega)
  unfold showRtcp
  cases ha : r.unicastAddr with
  | none => exact ⟨_, [], by simp, hp, rfc_seq_one (.inl rfl)⟩
  | some a =>
    dsimp only
    rw [List.append_assoc]
    refine rfc_seq_cons hp (rfc_seq_one (.inr (rfc_seq_cons (u := [' ']) rfl ?_)))
    unfold showTyped
    rw [List.append_assoc, List.append_assoc]
    refine rfc_seq_cons (u := c%"IN") (v := c%" " ++ _) rfl (rfc_seq_cons (u := [' ']) rfl (rfc_seq_one ?_))
    cases a with
    | ip a =>
      cases a with
      | v4 a => exact rfc_alt_here (rfc_seq_cons (u := c%"IP4") rfl (rfc_seq_cons (u := [' ']) rfl
          (rfc_seq_one ⟨a, rfc_ip_text (.v4 a)⟩)))
      | v6 a => exact rfc_alt_there (rfc_alt_here (rfc_seq_cons (u := c%"IP6") rfl (rfc_seq_cons (u := [' ']) rfl
          (rfc_seq_one ⟨a, rfc_ip_text (.v6 a)⟩))))
    | fqdn t d =>
      obtain ⟨s, hs, hd⟩ := hd t d ha
      have := rfc_host_shown H hs hd
      refine rfc_alt_there (rfc_alt_there (rfc_alt_here (rfc_seq_cons ?_ (rfc_seq_cons (u := [' ']) rfl (rfc_seq_one this)))))
      cases t
      · exact ⟨word c%"IP4", by simp, rfl⟩
      · exact ⟨word c%"IP6", by simp, rfl⟩

theorem remoteCandidate_shown {r : RemoteCandidate} (h1 : r.component.toNat ≤ 999) (h3 : Rfc.address (showAddress r.address))
    (h2 : r.port.toNat ≤ 65535) : Rfc.remoteCandidates (showRemoteCandidate r) := by
  have := rfc_seq_cons (a := Rfc.componentId) (rfc_number_show h1) (rfc_seq_cons (a := Rfc.SP) (u := [' ']) rfl
    (rfc_seq_cons h3
      (rfc_seq_cons (a := Rfc.SP) (u := [' ']) rfl (rfc_seq_one (a := Rfc.port) (rfc_number_show h2)))))
  refine ⟨_, [], ?_, this, rfc_seq_one ⟨[], rfl, Nat.zero_le _, by simp⟩⟩
  simp [showRemoteCandidate, showU32]

/-- **C111.** `remote-candidates`: only the first candidate is kept. -/
theorem C111_remote_candidates (H : Rfc.HostNames) : Kept c%"remote-candidates" Rfc.remoteCandidates := fun v h => by
  obtain ⟨r, hr, h1, h2, h3⟩ := rfc_remote_candidates h
  exact ⟨_, showRemoteCandidate r, hr, rfc_written (by simp [showRemoteCandidate]),
    remoteCandidate_shown h1 (rfc_address_shown H h3) h2⟩

theorem candidate_shown {c : Candidate} (h1 : Rfc.foundation c.foundation) (h2 : c.component.toNat ≤ 999)
    (h3 : c.priority.toNat ≤ 10 ^ 10 - 1) (h4 : Rfc.address (showAddress c.address)) (h5 : c.port.toNat ≤ 65535)
    (h6 : ∀ a, c.raddr = some a → Rfc.address (showAddress a)) (h7 : ∀ n, c.rport = some n → n.toNat ≤ 65535)
    (h8 : ∀ u, c.ufrag = some u → rep 1 (char Rfc.isVchar) u)
    (h9 : ∀ p ∈ c.unknownExtensions, rfcExtName p.1 ∧ rep 1 (char Rfc.isVchar) p.2) : Rfc.candidate (showCandidate c) := by
  have ht : Rfc.transport (showCandTransport c.transport) := by
    cases c.transport
    · exact ⟨word c%"UDP", by simp, rfl⟩
    · exact ⟨word c%"TCP", by simp, rfl⟩
  have hty : Rfc.candType (c%"typ" ++ ([' '] ++ showCandType c.cType)) := by
    refine rfc_seq_cons rfl (rfc_seq_cons rfl (rfc_seq_one ?_))
    cases c.cType
    · exact ⟨word c%"host", by simp, rfl⟩
    · exact ⟨word c%"srflx", by simp, rfl⟩
    · exact ⟨word c%"prflx", by simp, rfl⟩
    · exact ⟨word c%"relay", by simp, rfl⟩
  have hra : opt (seq [Rfc.SP, Rfc.relAddr]) (optStr c%" raddr " showAddress c.raddr) := by
    cases hr : c.raddr with
    | none => exact .inl rfl
    | some a => exact .inr (rfc_seq_cons (u := [' ']) (v := c%"raddr " ++ showAddress a) rfl (rfc_seq_one
        (rfc_seq_cons (u := c%"raddr") (v := [' '] ++ showAddress a) rfl (rfc_seq_cons (u := [' ']) rfl
          (rfc_seq_one (h6 a hr))))))
  have hrp : opt (seq [Rfc.SP, Rfc.relPort]) (optStr c%" rport " showU32 c.rport) := by
    cases hr : c.rport with
    | none => exact .inl rfl
    | some a => exact .inr (rfc_seq_cons (u := [' ']) (v := c%"rport " ++ showU32 a) rfl (rfc_seq_one
        (rfc_seq_cons (u := c%"rport") (v := [' '] ++ showU32 a) rfl (rfc_seq_cons (u := [' ']) rfl
          (rfc_seq_one (rfc_number_show (h7 a hr)))))))
  have app {P : Rule} {s t : Str} (h : rep 0 P s) (h' : rep 0 P t) : rep 0 P (s ++ t) := by
    obtain ⟨l, rfl, -, hl⟩ := h
    obtain ⟨m, rfl, -, hm⟩ := h'
    exact ⟨l ++ m, by simp, Nat.zero_le _, fun t ht => (List.mem_append.1 ht).elim (hl t) (hm t)⟩
  have none {P : Rule} : rep 0 P [] := ⟨[], rfl, Nat.zero_le _, by simp⟩
  have one {P : Rule} {s : Str} (h : P s) : rep 0 P s := ⟨[s], by simp, Nat.zero_le _, by simpa using h⟩
  have e1 : rep 0 (seq [Rfc.SP, Rfc.candExtension]) (optStr c%" tcptype " showCandTcpType c.tcpType) := by
    cases c.tcpType with
    | none => exact none
    | some a =>
      refine one (rfc_seq_cons (u := [' ']) (v := c%"tcptype " ++ showCandTcpType a) rfl (rfc_seq_one (rfc_alt_here
        (rfc_seq_cons (u := c%"tcptype") (v := [' '] ++ showCandTcpType a) rfl (rfc_seq_cons (u := [' ']) rfl (rfc_seq_one ?_))))))
      cases a
      · exact ⟨word c%"active", by simp, rfl⟩
      · exact ⟨word c%"passive", by simp, rfl⟩
      · exact ⟨word c%"so", by simp, rfl⟩
  have e2 : rep 0 (seq [Rfc.SP, Rfc.candExtension]) (optStr c%" generation " showU32 c.generation) := by
    cases c.generation with
    | none => exact none
    | some a =>
      exact one (rfc_seq_cons (u := [' ']) (v := c%"generation " ++ showU32 a) rfl (rfc_seq_one (rfc_alt_there (rfc_alt_here
        (rfc_seq_cons (u := c%"generation") (v := [' '] ++ showU32 a) rfl (rfc_seq_cons (u := [' ']) rfl
          (rfc_seq_one (rfc_number_show (by have := a.toNat_lt; omega)))))))))
  have e3 : rep 0 (seq [Rfc.SP, Rfc.candExtension]) (optStr c%" network-cost " showU32 c.networkcost) := by
    cases c.networkcost with
    | none => exact none
    | some a =>
      exact one (rfc_seq_cons (u := [' ']) (v := c%"network-cost " ++ showU32 a) rfl (rfc_seq_one (rfc_alt_there (rfc_alt_there
        (rfc_alt_here (rfc_seq_cons (u := c%"network-cost") (v := [' '] ++ showU32 a) rfl (rfc_seq_cons (u := [' ']) rfl
          (rfc_seq_one (rfc_number_show (by have := a.toNat_lt; omega))))))))))
  have ext {n x : Str} (hn : rfcExtName n) (hx : rep 1 (char Rfc.isVchar) x) :
      seq [Rfc.SP, Rfc.candExtension] ([' '] ++ (n ++ ([' '] ++ x))) :=
    rfc_seq_cons rfl (rfc_seq_one (rfc_alt_there (rfc_alt_there (rfc_alt_there (rfc_alt_here
      (rfc_seq_cons hn (rfc_seq_cons (u := [' ']) rfl (rfc_seq_one hx))))))))
  have e4 : rep 0 (seq [Rfc.SP, Rfc.candExtension]) (optStr c%" ufrag " id c.ufrag) := by
    cases hu : c.ufrag with
    | none => exact none
    | some a => exact one (ext (n := c%"ufrag") ⟨rep_char.2 (by decide), by decide⟩ (h8 a hu))
  have e5 : rep 0 (seq [Rfc.SP, Rfc.candExtension]) (showExts c.unknownExtensions) := by
    generalize c.unknownExtensions = l at h9
    induction l with
    | nil => exact none
    | cons p l ih =>
      have := app (one (ext (h9 p (by simp)).1 (h9 p (by simp)).2)) (ih fun q hq => h9 q (by simp [hq]))
      simpa [showExts] using this
  have hcomp : Rfc.componentId (showU32 c.component) := rfc_number_show h2
  have hprio : Rfc.priority (showU64 c.priority) := rfc_number_show h3
  have hport : Rfc.port (showU32 c.port) := rfc_number_show h5
  have e : showCandidate c = c.foundation ++ ([' '] ++ (showU32 c.component ++ ([' '] ++ (showCandTransport c.transport ++ ([' '] ++
      (showU64 c.priority ++ ([' '] ++ (showAddress c.address ++ ([' '] ++ (showU32 c.port ++ ([' '] ++
      ((c%"typ" ++ ([' '] ++ showCandType c.cType)) ++ (optStr c%" raddr " showAddress c.raddr ++ (optStr c%" rport " showU32 c.rport ++
      (optStr c%" tcptype " showCandTcpType c.tcpType ++ (optStr c%" generation " showU32 c.generation ++
      (optStr c%" ufrag " id c.ufrag ++ (optStr c%" network-cost " showU32 c.networkcost ++
        showExts c.unknownExtensions)))))))))))))))))) := by
    unfold showCandidate
    generalize optStr c%" raddr " showAddress c.raddr = o1
    generalize optStr c%" rport " showU32 c.rport = o2
    generalize optStr c%" tcptype " showCandTcpType c.tcpType = o3
    generalize optStr c%" generation " showU32 c.generation = o4
    generalize optStr c%" ufrag " id c.ufrag = o5
    generalize optStr c%" network-cost " showU32 c.networkcost = o6
    simp only [List.append_assoc, List.cons_append, List.nil_append]
  rw [e]
  have sp : Rfc.SP [' '] := rfl
  exact rfc_seq_cons h1 (rfc_seq_cons sp (rfc_seq_cons hcomp (rfc_seq_cons sp (rfc_seq_cons ht (rfc_seq_cons sp (rfc_seq_cons hprio
    (rfc_seq_cons sp (rfc_seq_cons h4 (rfc_seq_cons sp (rfc_seq_cons hport (rfc_seq_cons sp (rfc_seq_cons hty
    (rfc_seq_cons hra (rfc_seq_cons hrp (rfc_seq_one (app e1 (app e2 (app e4 (app e3 e5)))))))))))))))))))

/-- **C111.** `candidate`. -/
theorem C111_candidate (H : Rfc.HostNames) : Kept c%"candidate" Rfc.candidate := fun v h => by
  obtain ⟨c, hc, h1, h2, h3, h4, h5, h6, h7, h8, h9⟩ := rfc_candidate h
  have hs := candidate_shown h1 h2 h3 (rfc_address_shown H h4) h5 (fun a ha => rfc_address_shown H (h6 a ha)) h7 h8 h9
  refine ⟨.candidate c, showCandidate c, hc, rfc_written (fun h => ?_), hs⟩
  unfold showCandidate at h
  simp only [List.append_eq_nil_iff] at h
  simp at h

/-- A list of texts with semicolons between them. -/
private def Semi (P : Rule) (s : Str) : Prop := ∃ ts, s = joinS c%";" ts ∧ ∀ t ∈ ts, P t ∧ t ≠ []

omit [Env] in
private theorem join_app {a b : List Str} (ha : a ≠ []) (hb : b ≠ []) : joinS c%";" (a ++ b) = joinS c%";" a ++ c%";" ++ joinS c%";" b := by
  induction a with
  | nil => exact absurd rfl ha
  | cons x a ih =>
    by_cases h : a = []
    · subst h
      rw [List.singleton_append, joinS_cons_ne _ _ hb]; rfl
    · rw [List.cons_append, joinS_cons_ne _ _ (by simp [h]), ih h, joinS_cons_ne _ _ h]; simp

omit [Env] in
private theorem semi_ne {P : Rule} {ts : List Str} (h : ∀ t ∈ ts, P t ∧ t ≠ []) (hne : joinS c%";" ts = []) : ts = [] := by
  rcases (joinS_eq_nil (by decide)).1 hne with h' | h'
  · exact h'
  · exact absurd rfl (h [] (by simp [h'])).2

omit [Env] in
private theorem Semi.join {P : Rule} {l : List Str} (h : ∀ s ∈ l, Semi P s) : Semi P (joinS c%";" (nonEmpty l)) := by
  induction l with
  | nil => exact ⟨[], rfl, by simp⟩
  | cons a l ih =>
    obtain ⟨ts, e, hts⟩ := h a (by simp)
    have ih := ih fun s hs => h s (by simp [hs])
    by_cases ha : a = []
    · simpa [nonEmpty, ha] using ih
    · have hn : nonEmpty (a :: l) = a :: nonEmpty l := by simp [nonEmpty, ha]
      rw [hn]
      have hts' : ts ≠ [] := by rintro rfl; exact ha e
      by_cases hl : nonEmpty l = []
      · rw [hl]; exact ⟨ts, by simpa [joinS] using e, hts⟩
      · obtain ⟨us, e', hus⟩ := ih
        rw [joinS_cons_ne _ _ hl]
        have hus' : us ≠ [] := by
          rintro rfl
          rcases (joinS_eq_nil (by decide)).1 e' with h' | h'
          · exact hl h'
          · have : ([] : Str) ∈ nonEmpty l := by simp [h']
            simp [nonEmpty] at this
        exact ⟨ts ++ us, by rw [join_app hts' hus', ← e, ← e'], fun t ht => (List.mem_append.1 ht).elim (hts t) (hus t)⟩

omit [Env] in
private theorem Semi.one {P : Rule} {s : Str} (h : s = [] ∨ P s) : Semi P s := by
  by_cases hs : s = []
  · exact ⟨[], by simpa [joinS] using hs, by simp⟩
  · exact ⟨[s], rfl, by simpa using ⟨h.resolve_left hs, hs⟩⟩

omit [Env] in
private theorem ridParam_ne {s : Str} (h : Rfc.ridParam s) : s ≠ [] := by
  obtain ⟨r, hr, h⟩ := h
  simp only [List.mem_cons, List.not_mem_nil, or_false] at hr
  rcases hr with rfl | rfl
  · obtain ⟨a, _, rfl, -, _, _, rfl, rfl, -⟩ := h; simp
  · obtain ⟨a, _, rfl, -, _, _, rfl, rfl, -⟩ := h; simp

/-- **C111.** `rid`. -/
theorem C111_rid : Kept c%"rid" Rfc.rid := fun v h => by
  obtain ⟨r, hr, -, h1, h2, h3⟩ := rfc_rid h
  refine ⟨_, showRid r, hr, rfc_written (by simp [showRid]), ?_⟩
  have num (name : Str) (hn : alt [exactly c%"max-width", exactly c%"max-height", exactly c%"max-fps", exactly c%"max-fs",
      exactly c%"max-br", exactly c%"max-pps"] name) (n : UInt32) : Semi Rfc.ridParam (maybeParam (name ++ c%"=") n 0) := by
    refine .one ?_
    unfold maybeParam
    split
    · refine .inr (rfc_alt_here ?_)
      rw [List.append_assoc]
      exact rfc_seq_cons hn (rfc_seq_cons (u := ['=']) rfl (rfc_seq_one (rfc_number_show (by have := n.toNat_lt; omega))))
    · exact .inl rfl
  have hparams : Semi Rfc.ridParam (showRidParams r.params) := by
    refine Semi.join fun s hs => ?_
    simp only [List.mem_cons, List.not_mem_nil, or_false] at hs
    rcases hs with rfl | rfl | rfl | rfl | rfl | rfl | rfl
    · exact num c%"max-width" ⟨_, .head _, rfl⟩ _
    · exact num c%"max-height" ⟨_, .tail _ (.head _), rfl⟩ _
    · exact num c%"max-fps" ⟨_, .tail _ (.tail _ (.head _)), rfl⟩ _
    · exact num c%"max-fs" ⟨_, .tail _ (.tail _ (.tail _ (.head _))), rfl⟩ _
    · exact num c%"max-br" ⟨_, .tail _ (.tail _ (.tail _ (.tail _ (.head _)))), rfl⟩ _
    · exact num c%"max-pps" ⟨_, .tail _ (.tail _ (.tail _ (.tail _ (.tail _ (.head _))))), rfl⟩ _
    · by_cases hu : r.params.unknown = []
      · rw [hu]; exact ⟨[], rfl, by simp⟩
      · rw [rfc_maybeVec (fun t ht => ridParam_ne (h2 t ht)) hu]
        exact ⟨r.params.unknown, rfl, fun t ht => ⟨h2 t ht, ridParam_ne (h2 t ht)⟩⟩
  have hdep : Semi Rfc.ridParam (maybeVec c%"depends=" [] c%"," r.depends) := by
    refine .one ?_
    cases hd : r.depends with
    | nil => exact .inl rfl
    | cons x l =>
      refine .inr (rfc_alt_there (rfc_alt_here ?_))
      refine ⟨c%"depends", ['='] ++ (joinS c%"," ((x :: l).filter fun s => !s.isEmpty) ++ []), rfl,
        ⟨rep_char.2 (by decide), by decide⟩, rfc_seq_cons rfl (rfc_seq_one (rep_char.2 ⟨Nat.zero_le _, fun c hc => ?_⟩))⟩
      rw [List.append_nil] at hc
      rcases mem_joinS hc with hc | ⟨t, ht, hc⟩
      · simp at hc; subst hc; rfl
      · exact (rep_char.1 (h3 t (by rw [hd]; exact (List.mem_filter.1 ht).1))).2 c hc
  have tail (ts : List Str) (h : ∀ t ∈ ts, Rfc.ridParam t ∧ t ≠ []) :
      rep 0 (seq [exactly [';'], Rfc.ridParam]) ((ts.map (';' :: ·)).flatten) :=
    rfc_rep_sep (Nat.zero_le _) fun w hw => (h w hw).1
  have hdir : alt [exactly c%"send", exactly c%"recv"] (showSingleDirection r.direction) := by
    cases r.direction
    · exact ⟨_, .head _, rfl⟩
    · exact ⟨_, .tail _ (.head _), rfl⟩
  have hrest := Semi.join (P := Rfc.ridParam) (l := [showRidParams r.params, maybeVec c%"depends=" [] c%"," r.depends])
    (by simpa using ⟨hparams, hdep⟩)
  obtain ⟨ts, e, hts⟩ := hrest
  unfold showRid
  rw [List.append_assoc, List.append_assoc]
  refine rfc_seq_cons h1 (rfc_seq_cons (u := [' ']) rfl (rfc_seq_cons hdir (rfc_seq_one ?_)))
  by_cases hf : r.formats = []
  · rw [show nonEmpty [maybeVec c%"pt=" [] c%"," (r.formats.map showU16), showRidParams r.params,
        maybeVec c%"depends=" [] c%"," r.depends] = nonEmpty [showRidParams r.params, maybeVec c%"depends=" [] c%"," r.depends] by
      rw [hf]; rfl, e]
    split
    · exact .inl rfl
    · rename_i hne
      cases ts with
      | nil => exact absurd rfl hne
      | cons t ts =>
        refine .inr (rfc_alt_there (rfc_alt_here (rfc_seq_cons (u := [' ']) rfl ?_)))
        rw [← joinS_words]
        exact rfc_seq_cons (hts t (by simp)).1 (rfc_seq_one (tail ts fun t ht => hts t (by simp [ht])))
  · have hpt : maybeVec c%"pt=" [] c%"," (r.formats.map showU16) = c%"pt=" ++ joinS c%"," (r.formats.map showU16) :=
      rfc_maybeVec (fun t ht => by obtain ⟨n, -, rfl⟩ := List.mem_map.1 ht; exact showNat_ne_nil _) (by simpa using hf)
    have hj : joinS c%";" (nonEmpty [maybeVec c%"pt=" [] c%"," (r.formats.map showU16), showRidParams r.params,
        maybeVec c%"depends=" [] c%"," r.depends]) = c%"pt=" ++ joinS c%"," (r.formats.map showU16) ++ (ts.map (';' :: ·)).flatten := by
      rw [hpt, show ∀ (a : Str) l, nonEmpty ((c%"pt=" ++ a) :: l) = (c%"pt=" ++ a) :: nonEmpty l from fun _ _ => rfl]
      by_cases hn : nonEmpty [showRidParams r.params, maybeVec c%"depends=" [] c%"," r.depends] = []
      · rw [hn] at e ⊢
        rw [semi_ne hts e.symm]; simp [joinS]
      · rw [joinS_cons_ne _ _ hn, e]
        have : ts ≠ [] := by
          rintro rfl
          rcases (joinS_eq_nil (by decide)).1 e with h' | h'
          · exact hn h'
          · have : ([] : Str) ∈ nonEmpty [showRidParams r.params, maybeVec c%"depends=" [] c%"," r.depends] := by simp [h']
            simp [nonEmpty] at this
        rw [rfc_flatten this]; simp
    rw [hj]
    cases hl : r.formats with
    | nil => exact absurd hl hf
    | cons n l =>
      have hnum (n : UInt16) : number 65535 (showU16 n) := rfc_number_show (by have := n.toNat_lt; omega)
      rw [List.map_cons, ← joinS_words]
      refine .inr (rfc_alt_here ?_)
      have := rfc_seq_cons (a := Rfc.SP) (u := [' ']) rfl (rfc_seq_cons (a := exactly c%"pt=") (u := c%"pt=") rfl (rfc_seq_cons (hnum n)
        (rfc_seq_cons (rfc_rep_sep (c := ',') (lo := 0) (l := l.map showU16) (Nat.zero_le _) (P := number 65535) fun w hw => by
          obtain ⟨m, -, rfl⟩ := List.mem_map.1 hw; exact hnum m) (rfc_seq_one (tail ts hts)))))
      simpa using this

/-! ## Frame rates -/

omit [Env] in
private theorem integer_of {c : Char} {r : Str} (hc : Rfc.isPosDigit c = true) (hr : ∀ c ∈ r, c.isDigit = true) : Rfc.integer (c :: r) :=
  rfc_seq_cons (u := [c]) ⟨c, rfl, hc⟩ (rfc_seq_one (rep_char.2 ⟨Nat.zero_le _, hr⟩))

omit [Env] in
/-- A float that is neither zero nor infinite is written as the standards write numbers. -/
theorem rfc_float_written {F : FloatFormat} {b : Nat} {t : Str} (h : MagnitudeWritten F b t) (h0 : b ≠ 0) (hi : b ≠ F.infinity) :
    Rfc.nonZeroIntOrReal t := by
  rcases h with ⟨h, -⟩ | ⟨h, -⟩ | ⟨-, -, D, n, p, hs, ds, h1, h2, h3, h⟩
  · exact absurd h hi
  · exact absurd h h0
  obtain ⟨⟨c, r, e, hc⟩, r', d, e', hd⟩ := rfc_shortest_digits hs h1 h2 h3
  rcases h with ⟨-, rfl⟩ | ⟨-, rfl⟩ | ⟨w, f, e2, hw, hf, -, rfl⟩
  · refine rfc_alt_there (rfc_alt_here ?_)
    rw [e', show c%"0." ++ List.replicate (-p).toNat '0' ++ (r' ++ [d]) = ['0'] ++ (['.'] ++ ((List.replicate (-p).toNat '0' ++ r') ++ [d])) by simp]
    refine rfc_seq_cons (rfc_alt_here rfl) (rfc_seq_cons rfl (rfc_seq_cons (rep_char.2 ⟨Nat.zero_le _, fun x hx => ?_⟩) (rfc_seq_one ⟨d, rfl, hd⟩)))
    rcases List.mem_append.1 hx with hx | hx
    · rw [List.eq_of_mem_replicate hx]; rfl
    · exact h1 x (by rw [e']; simp [hx])
  · refine rfc_alt_here ?_
    rw [e, List.cons_append]
    refine integer_of hc fun x hx => ?_
    rcases List.mem_append.1 hx with hx | hx
    · exact h1 x (by rw [e]; simp [hx])
    · rw [List.eq_of_mem_replicate hx]; rfl
  · refine rfc_alt_there (rfc_alt_here ?_)
    cases w with
    | nil => exact absurd rfl hw
    | cons x w =>
      rcases List.eq_nil_or_concat f with rfl | ⟨f, y, rfl⟩
      · exact absurd rfl hf
      · rw [e] at e2
        rw [List.cons_append, List.cons.injEq] at e2
        obtain ⟨rfl, e4⟩ := e2
        have ed : ds = (c :: w ++ f) ++ [y] := by
          rw [e, e4, List.concat_eq_append, List.cons_append, List.cons_append, List.append_assoc]
        rw [e'] at ed
        obtain ⟨rfl, e3⟩ := List.append_inj' ed rfl
        simp only [List.cons.injEq, and_true] at e3
        subst e3
        rw [show c :: w ++ c%"." ++ f.concat d = (c :: w) ++ (['.'] ++ (f ++ [d])) by simp]
        exact rfc_seq_cons (rfc_alt_there (rfc_alt_here (integer_of hc fun x hx => h1 x (by rw [e']; simp [hx]))))
          (rfc_seq_cons rfl (rfc_seq_cons (rep_char.2 ⟨Nat.zero_le _, fun x hx => h1 x (by rw [e']; simp [hx])⟩) (rfc_seq_one ⟨d, rfl, hd⟩)))

omit [Env] in
private theorem real_ne {w : Str} (h : Rfc.nonZeroIntOrReal w) : w ≠ [] := by
  rintro rfl
  obtain ⟨r, hr, h⟩ := h
  simp only [List.mem_cons, List.not_mem_nil, or_false] at hr
  rcases hr with rfl | rfl
  · obtain ⟨a, b, e, ⟨c, rfl, -⟩, -⟩ := h; cases e
  · obtain ⟨a, b, e, -, _, _, rfl, rfl, -⟩ := h; simp at e

private theorem frameRate_written {x : F64} (h0 : x.bits.toNat % 2 ^ 63 ≠ 0) (hi : x.bits.toNat % 2 ^ 63 < 0x7ff0000000000000) :
    ∃ w, showAttribute (.frameRate x) = (if x.bits.toNat < 2 ^ 63 then c%"framerate:" else c%"framerate:-") ++ w ∧ Rfc.nonZeroIntOrReal w := by
  have hinf : FloatFormat.infinity ⟨52, 11⟩ = 0x7ff0000000000000 := by decide
  rcases (F64.text_iff x x.text).1 rfl with ⟨h1, -⟩ | ⟨h1, h2⟩ | ⟨b, u, h1, h2, h3, h4⟩
  · rw [hinf] at h1
    simp only at h1
    omega
  · rw [hinf] at h1
    have := rfc_float_written h2 (by omega) (by rw [hinf]; omega)
    refine ⟨x.text, ?_, this⟩
    rw [if_pos (by omega)]
    exact rfc_written (t := .frameRate) (real_ne this)
  · rw [hinf] at h1
    have := rfc_float_written h4 (by simp only at h2; omega) (by rw [hinf]; simp only at h2; omega)
    refine ⟨u, ?_, this⟩
    rw [if_neg (by simp only at h2; omega)]
    show attrToString .frameRate x.text = _
    rw [h3, rfc_written (by simp)]
    rfl

/-- **C111.** `framerate`: what is written for any frame rate that was read is a number of the standard, or a
minus sign and such a number. -/
theorem C111_framerate {l : Str} {x : F64} (h : attrFromStr l = .ok (.frameRate x)) :
    ∃ w, (showAttribute (.frameRate x) = c%"framerate:" ++ w ∨ showAttribute (.frameRate x) = c%"framerate:-" ++ w) ∧ Rfc.nonZeroIntOrReal w := by
  obtain ⟨v, -, -, h0, hi⟩ := C56_framerate.1 h
  obtain ⟨w, hw, hr⟩ := frameRate_written h0 hi
  split at hw
  · exact ⟨w, .inl hw, hr⟩
  · exact ⟨w, .inr hw, hr⟩

/-- **C111.** `framerate`, for what follows the standard. -/
theorem C111_framerate_rfc {v : Str} (h : Rfc.frameRate v) :
    ∃ x w, attrFromStr (c%"framerate:" ++ v) = .ok (.frameRate x) ∧ showAttribute (.frameRate x) = c%"framerate:" ++ w ∧
      Rfc.nonZeroIntOrReal w := by
  obtain ⟨x, hx, hpos⟩ := rfc_framerate h
  obtain ⟨v, -, -, h0, hi⟩ := C56_framerate.1 hx
  obtain ⟨w, hw, hr⟩ := frameRate_written h0 hi
  rw [if_pos hpos] at hw
  exact ⟨x, w, hx, hw, hr⟩

/-! ## Image attributes -/

omit [Env] in
/-- **C111.** The rule that is written with other decimal numbers is the rule of RFC 6236. -/
theorem C111_imageattr_rule (v : Str) : Rfc.imageattr v ↔ v.length ≤ 2 ^ 31 - 16 ∧ Rfc.imageattrOf Rfc.spValue Rfc.qValue v := Iff.rfl

/-- **C111.** `imageattr`: what is written follows RFC 6236, but whole numbers have no point. -/
theorem C111_imageattr {v : Str} (h : Rfc.imageattr v) :
    ∃ a w, attrFromStr (c%"imageattr:" ++ v) = .ok (.imageAttr a) ∧ showAttribute (.imageAttr a) = c%"imageattr:" ++ w ∧
      Rfc.imageattrOf Rfc.spWritten Rfc.qWritten w := by
  obtain ⟨a, ha, hw⟩ := rfc_imageattr h
  refine ⟨a, showImageAttr a, ha, rfc_written fun e => ?_, hw⟩
  rw [e] at hw
  obtain ⟨p, r, e, -, _, _, rfl, rfl, -⟩ := hw
  simp at e

omit [Env] in
/-- **C111.** The decimal numbers of RFC 6236 are written as the same numbers, although they are stored as floating point numbers. -/
theorem C111_decimals {s : Str} {x : F32} (hx : F32Text s x) :
    (Rfc.spValue s → Rfc.spWritten x.text ∧ ∀ v, DecimalText s v → DecimalText x.text v) ∧
    (Rfc.qValue s → Rfc.qWritten x.text ∧ ∀ v, DecimalText s v → DecimalText x.text v) := rfc_decimals hx

end

/-! ## The hypotheses are met, and what is left out is different -/

section
attribute [local instance] sampleEnv

example : Rfc.HostNames := by
  refine ⟨sampleLaws, fun s d h e => ?_⟩
  have : d = s := by
    rw [show Env.hostNA s = if s.isEmpty then .error c%"empty host" else if s.all (fun c => !isWs c && c != ':' && c != '/') && (parseV4Strict s).isNone
      then .domain s else .error c%"invalid host" from rfl] at e
    split at e
    · cases e
    · split at e
      · cases e; rfl
      · cases e
  exact this ▸ h

private theorem cut_unique {p w q u : Str} (h : q ++ ':' :: u = p ++ ':' :: w) (hp : ':' ∉ p) (hq : ':' ∉ q) : q = p ∧ u = w := by
  induction p generalizing q with
  | nil =>
    cases q with
    | nil => simpa using h
    | cons c q => simp at h hq; exact absurd h.1.symm hq.1
  | cons d p ih =>
    cases q with
    | nil => simp at h hp; exact absurd h.1 hp.1
    | cons c q =>
      simp at h hp hq
      obtain ⟨rfl, rfl⟩ := ih h.2 hp.2 hq.2
      exact ⟨by rw [h.1], rfl⟩

example : Rfc.ssrcPlain c%"7 cname:a b " :=
  ⟨⟨c%"7", _, rfl, (by unfold number; decide), [' '], _, rfl, rfl, c%"cname:a b ", _, rfl,
    ⟨_, List.mem_cons_self, c%"cname", _, rfl, rep_char.2 (by decide), [':'], _, rfl, rfl, c%"a b ", _, rfl,
      rep_char.2 (by decide), rfl⟩, rfl⟩, by
    intro p w h hp
    rw [← (cut_unique (q := c%"7 cname") (u := c%"a b ") h hp (by decide)).2]
    exact fun hb => absurd (hb 'a' (by simp)) (by decide)⟩

/-- An image attribute that is read and written. -/
example : ∃ i, attrFromStr c%"imageattr:* send [x=1,y=[1:2:9],sar=[1.10-1.2345],q=0.50]" = .ok (.imageAttr i) ∧
    showAttribute (.imageAttr i) = c%"imageattr:* send [x=1,y=[1:2:9],sar=[1.1-1.2345],q=0.5]" := by
  have key : (match attrFromStr c%"imageattr:* send [x=1,y=[1:2:9],sar=[1.10-1.2345],q=0.50]" with
      | .ok (.imageAttr i) => decide (showAttribute (.imageAttr i) = c%"imageattr:* send [x=1,y=[1:2:9],sar=[1.1-1.2345],q=0.5]")
      | _ => false) = true := by decide +kernel
  split at key
  · next i h => exact ⟨i, h, of_decide_eq_true key⟩
  · cases key

/-- A frame rate that is read and written. -/
example : ∃ x, attrFromStr c%"framerate:29.97" = .ok (.frameRate x) ∧ showAttribute (.frameRate x) = c%"framerate:29.97" :=
  ⟨⟨0x403df851eb851eb8⟩, by decide +kernel, by decide +kernel⟩

/-- What is written for a line. -/
def writtenBack [Env] (l : Str) : Option Str :=
  match attrFromStr l with
  | .ok a => some (showAttribute a)
  | _ => none

/-- **C111.** The values of an `ssrc` attribute that are only white space are lost, and what is written does not follow RFC 5576. -/
theorem C111_ssrc_blank : Rfc.ssrc c%"1 cname: " ∧ writtenBack c%"ssrc:1 cname: " = some c%"ssrc:1 cname:" ∧ ¬ Rfc.ssrc c%"1 cname:" := by
  refine ⟨⟨c%"1", _, rfl, (by unfold number; decide), [' '], _, rfl, rfl, c%"cname: ", _, rfl,
    ⟨_, List.mem_cons_self, c%"cname", _, rfl, rep_char.2 (by decide), [':'], _, rfl, rfl, c%" ", _, rfl,
      rep_char.2 (by decide), rfl⟩, rfl⟩, by decide +kernel, ?_⟩
  rintro ⟨n, _, e, -, _, _, rfl, rfl, x, _, rfl, ⟨r, hr, hx⟩, rfl⟩
  rw [List.append_nil] at e
  simp only [List.mem_cons, List.not_mem_nil, or_false] at hr
  rcases hr with rfl | rfl
  · obtain ⟨t, _, rfl, -, _, _, rfl, rfl, b, _, rfl, hb, rfl⟩ := hx
    have hl := (rep_char.1 hb).1
    rcases List.eq_nil_or_concat b with rfl | ⟨b, y, rfl⟩
    · simp at hl
    · have hc := congrArg (List.count ':') e
      have hy : c%"1 cname" ++ [':'] = (n ++ ' ' :: (t ++ ':' :: b)) ++ [y] := by simpa using e
      cases (List.append_inj' hy rfl).2
      simp at hc
      omega
  · rcases List.eq_nil_or_concat x with rfl | ⟨b, y, rfl⟩
    · have := (rep_char.1 hx).1; simp at this
    · have hy : c%"1 cname" ++ [':'] = (n ++ ' ' :: b) ++ [y] := by simpa using e
      cases (List.append_inj' hy rfl).2
      exact absurd ((rep_char.1 hx).2 ':' (by simp)) (by decide)

/-- **C111.** `q=1.0` and `sar=1.0` of RFC 6236 are written without a point, which RFC 6236 does not allow. -/
theorem C111_imageattr_whole :
    writtenBack c%"imageattr:* send [x=1,y=1,sar=1.0,q=1.0]" = some c%"imageattr:* send [x=1,y=1,sar=1,q=1]" ∧
    ¬ Rfc.spValue c%"1" ∧ ¬ Rfc.qValue c%"1" := by
  refine ⟨by decide +kernel, ?_, ?_⟩
  · rintro ⟨r, hr, h⟩
    simp only [List.mem_cons, List.not_mem_nil, or_false] at hr
    rcases hr with rfl | rfl
    · obtain ⟨_, _, e, rfl, -⟩ := h; simp at e
    · obtain ⟨_, _, e, -, _, _, rfl, rfl, -⟩ := h
      have : '.' ∈ c%"1" := by rw [e]; simp
      exact absurd this (by decide)
  · rintro ⟨r, hr, h⟩
    simp only [List.mem_cons, List.not_mem_nil, or_false] at hr
    rcases hr with rfl | rfl
    · obtain ⟨_, _, e, rfl, -⟩ := h; simp at e
    · obtain ⟨_, _, e, rfl, -⟩ := h; simp at e

/-- **C111.** Parameters that have their default value are left out, and without any other parameter nothing is written but an
attribute without value, which is no `fmtp` of RFC 8866; and parameters that are not understood are separated by commas. -/
theorem C111_fmtp_lost : writtenBack c%"fmtp:96 stereo=0" = some [] ∧
    writtenBack c%"fmtp:96 x=1;y=2" = some c%"fmtp:96 x=1,y=2" := by
  decide +kernel

end

end Sdp
