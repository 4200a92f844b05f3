import Verif.Spec.Sample
import Verif.Lemmas.Dispatch
/-!
# C19-C22: attribute lines
-/

namespace Sdp

/-- The 43 attribute names this parser knows. -/
def knownNames : List Str :=
  [c%"bundle-only", c%"candidate", c%"dtls-message", c%"end-of-candidates", c%"extmap",
   c%"extmap-allow-mixed", c%"fingerprint", c%"fmtp", c%"framerate", c%"group", c%"ice-lite",
   c%"ice-mismatch", c%"ice-options", c%"ice-pacing", c%"ice-pwd", c%"ice-ufrag", c%"identity",
   c%"imageattr", c%"inactive", c%"label", c%"max-message-size", c%"maxptime", c%"mid", c%"msid",
   c%"msid-semantic", c%"ptime", c%"rid", c%"recvonly", c%"remote-candidates", c%"rtpmap", c%"rtcp",
   c%"rtcp-fb", c%"rtcp-mux", c%"rtcp-mux-only", c%"rtcp-rsize", c%"sctpmap", c%"sctp-port",
   c%"sendonly", c%"sendrecv", c%"setup", c%"simulcast", c%"ssrc", c%"ssrc-group"]

/-- The names that stand alone. -/
def flagNames : List Str :=
  [c%"bundle-only", c%"end-of-candidates", c%"extmap-allow-mixed", c%"ice-lite", c%"ice-mismatch",
   c%"inactive", c%"recvonly", c%"rtcp-mux", c%"rtcp-mux-only", c%"rtcp-rsize", c%"sendonly",
   c%"sendrecv"]

theorem mem_knownNames {n : Str} : n ∈ knownNames ↔ ∃ t : AttributeType, t.name = n := by
  constructor
  · intro h
    simp only [knownNames, List.mem_cons, List.not_mem_nil, or_false] at h
    have key : (attrTypeOfName n).isSome = true := by
      rcases h with rfl | rfl | rfl | rfl | rfl | rfl | rfl | rfl | rfl | rfl | rfl | rfl | rfl | rfl | rfl | rfl | rfl | rfl | rfl | rfl | rfl | rfl | rfl | rfl | rfl | rfl | rfl | rfl | rfl | rfl | rfl | rfl | rfl | rfl | rfl | rfl | rfl | rfl | rfl | rfl | rfl | rfl | rfl <;> rfl
    obtain ⟨t, ht⟩ := Option.isSome_iff_exists.1 key
    exact ⟨t, (attrTypeOfName_some ht).symm⟩
  · rintro ⟨t, rfl⟩; cases t <;> simp [knownNames, AttributeType.name]

theorem mem_flagNames {n : Str} : n ∈ flagNames ↔ isFlagName n = true := by
  simp [flagNames, isFlagName, or_assoc]

section
variable [Env]

/-- **C19.** The kind of the returned attribute is the one its lower-cased name says. -/
theorem C19_dispatch {l : Str} {a : Attribute} (h : attrFromStr l = .ok a) :
    a.type.name = lower (l.takeWhile (fun c => decide (c ≠ ':'))) := by
  rcases colon_cases l with hl | ⟨n, v, rfl, hn⟩
  · rw [attrFromStr_plain hl] at h
    rw [takeWhile_plain hl]
    cases ht : attrTypeOfName (lower l) with
    | none => rw [ht] at h; simp at h
    | some t =>
      rw [ht] at h
      rw [(parseAttrValue_range t _ a h).1, attrTypeOfName_some ht]
  · rw [attrFromStr_colon hn] at h
    rw [takeWhile_colon hn]
    rcases ite_cases h with ⟨-, h⟩ | ⟨-, h⟩
    · simp at h
    · cases ht : attrTypeOfName (lower n) with
      | none => rw [ht] at h; simp at h
      | some t =>
        rw [ht] at h
        rw [(parseAttrValue_range t _ a h).1, attrTypeOfName_some ht]

/-- **C19.** A name outside the 43 known ones is rejected as unsupported, with the name in the
message. -/
theorem C19_unknown_names {l : Str}
    (h : lower (l.takeWhile (fun c => decide (c ≠ ':'))) ∉ knownNames) :
    attrFromStr l = .err (.unsupported
      (c%"Unknown attribute type " ++ lower (l.takeWhile (fun c => decide (c ≠ ':'))))) := by
  rw [mem_knownNames] at h
  rcases colon_cases l with hl | ⟨n, v, rfl, hn⟩
  · rw [takeWhile_plain hl] at h ⊢
    rw [attrFromStr_plain hl, attrTypeOfName_none.2 (fun t ht => h ⟨t, ht⟩)]
    rfl
  · rw [takeWhile_colon hn] at h ⊢
    rw [attrFromStr_colon hn, attrTypeOfName_none.2 (fun t ht => h ⟨t, ht⟩), if_neg]
    · rfl
    · intro hf
      obtain ⟨t, -, ht⟩ := isFlagName_iff.1 hf
      exact h ⟨t, ht.symm⟩

/-- **C19.** Conversely each of the 43 names is recognized: it yields an attribute or an error of
its value, and each kind of attribute has its name in the list. -/
theorem C19_known_names (a : Attribute) : a.type.name ∈ knownNames := mem_knownNames.2 ⟨_, rfl⟩

/-- **C20.** A flag attribute with a colon is an error, whatever follows. -/
theorem C20_flags_take_no_value {n : Str} (hn : lower n ∈ flagNames) (hc : ':' ∉ n) (v : Str) :
    attrFromStr (n ++ ':' :: v) =
      .err (.generic (lower n ++ c%" attribute is not allowed to have a value")) := by
  rw [attrFromStr_colon hc, if_pos (mem_flagNames.1 hn)]
  rfl

/-- **C20.** A flag attribute without a colon is accepted. -/
theorem C20_flags {n : Str} (hn : lower n ∈ flagNames) (hc : ':' ∉ n) :
    ∃ a, attrFromStr n = .ok a ∧ a.type.name = lower n := by
  rw [attrFromStr_plain hc]
  obtain ⟨t, ht, h⟩ := isFlagName_iff.1 (mem_flagNames.1 hn)
  rw [h, attrTypeOfName_name]
  simp only [List.mem_cons, List.not_mem_nil, or_false] at ht
  rcases ht with rfl | rfl | rfl | rfl | rfl | rfl | rfl | rfl | rfl | rfl | rfl | rfl <;>
    exact ⟨_, rfl, rfl⟩

theorem parseAttrValue_nil {t : AttributeType} (ht : t.name ∉ flagNames) :
    ∃ e, parseAttrValue t [] = .err e := by
  cases t <;> first | exact ⟨_, rfl⟩ | exact absurd (by simp [flagNames, AttributeType.name]) ht

/-- **C20.** Any other attribute without a value is an error. -/
theorem C20_value_needed {n : Str} (hn : lower n ∉ flagNames) (hc : ':' ∉ n) :
    ∃ e, attrFromStr n = .err e := by
  rw [attrFromStr_plain hc]
  cases ht : attrTypeOfName (lower n) with
  | none => exact ⟨_, rfl⟩
  | some t => exact parseAttrValue_nil (attrTypeOfName_some ht ▸ hn)

/-- **C20.** ... and so is one with a blank value. -/
theorem C20_blank_value {n v : Str} (hn : lower n ∉ flagNames) (hc : ':' ∉ n) (hv : Blank v) :
    ∃ e, attrFromStr (n ++ ':' :: v) = .err e := by
  rw [attrFromStr_colon hc, if_neg (fun h => hn (mem_flagNames.2 h)), trim_eq_nil.2 hv]
  cases ht : attrTypeOfName (lower n) with
  | none => exact ⟨_, rfl⟩
  | some t => exact parseAttrValue_nil (attrTypeOfName_some ht ▸ hn)

/-- **C21.** Every attribute `from_str` returns is within its ranges. -/
theorem C21_attribute {l : Str} {a : Attribute} (h : attrFromStr l = .ok a) : InRange a := by
  rcases colon_cases l with hl | ⟨n, v, rfl, hn⟩
  · rw [attrFromStr_plain hl] at h
    cases ht : attrTypeOfName (lower l) with
    | none => rw [ht] at h; simp at h
    | some t => rw [ht] at h; exact (parseAttrValue_range t _ a h).2
  · rw [attrFromStr_colon hn] at h
    rcases ite_cases h with ⟨-, h⟩ | ⟨-, h⟩
    · simp at h
    · cases ht : attrTypeOfName (lower n) with
      | none => rw [ht] at h; simp at h
      | some t => rw [ht] at h; exact (parseAttrValue_range t _ a h).2

theorem fmtNum_range {t : Str} {n : UInt32} (h : parseFmtNum t = .ok n) : RtpFormat n.toNat := by
  unfold parseFmtNum at h
  obtain ⟨x, hx, h⟩ := bind_eq_ok.1 h
  rcases ite_cases h with ⟨-, h⟩ | ⟨hr, h⟩
  · simp at h
  · simp at h; subst h
    simp [fmtNumReserved, UInt32.le_iff_toNat_le, ← UInt32.toNat_inj] at hr
    unfold RtpFormat; omega

/-- **C21.** Every m= line the parser returns is within its ranges. -/
theorem C21_media_line {v : Str} {m : MediaLine} (h : parseMedia v = .ok (.media m)) : MediaInRange m := by
  unfold parseMedia at h
  simp only [] at h
  rcases ite_cases h with ⟨-, h⟩ | ⟨hlen, h⟩
  · simp at h
  obtain ⟨t0, ht0, h⟩ := bind_eq_ok.1 h
  obtain ⟨media, hmedia, h⟩ := bind_eq_ok.1 h
  obtain ⟨t1, ht1, h⟩ := bind_eq_ok.1 h
  split at h
  · simp at h
  obtain ⟨port, hport, h⟩ := bind_eq_ok.1 h
  rcases ite_cases h with ⟨-, h⟩ | ⟨hp, h⟩
  · simp at h
  simp only [bind_eq_ok] at h
  obtain ⟨pc, _, t2, _, proto, _, fs, hfs, formats, hf, h⟩ := h
  simp at h; subst h
  refine ⟨not_gt_u32 hp, fun hm => ?_⟩
  have hne : fs ≠ [] := by
    obtain ⟨h1, rfl⟩ := sliceFrom_eq_ok.1 hfs
    intro h0
    have := congrArg List.length h0
    simp at this; omega
  have key : ∀ f, parseFormats media fs = .ok f → media ≠ .application →
      ∃ l, f = .integers l ∧ l ≠ [] ∧ ∀ n ∈ l, RtpFormat n.toNat := by
    intro f hf hm
    have : ∃ l, collect parseFmtNum fs = .ok l ∧ f = .integers l := by
      cases media with
      | application => exact absurd rfl hm
      | audio => obtain ⟨l, hl, hh⟩ := bind_eq_ok.1 hf; simp at hh; exact ⟨l, hl, hh.symm⟩
      | video => obtain ⟨l, hl, hh⟩ := bind_eq_ok.1 hf; simp at hh; exact ⟨l, hl, hh.symm⟩
    obtain ⟨l, hl, rfl⟩ := this
    refine ⟨l, rfl, ?_, fun n hn => ?_⟩
    · rintro rfl
      have := collect_eq_ok_length hl
      exact hne (List.length_eq_zero_iff.1 this.symm)
    · obtain ⟨t, _, ht⟩ := collect_mem hl hn
      exact fmtNum_range ht
  exact key formats hf hm

/-- **C21.** ... and so is everything in a session returned by `parse_sdp`. -/
theorem C21_session {s : Str} {f : Bool} {r : Session} (h : parseSdp s f = .ok r) :
    (∀ a ∈ r.attrs, InRange a) ∧ ∀ m ∈ r.media, MediaInRange m.media ∧ ∀ a ∈ m.attrs, InRange a := by
  have hp := parseSdp_parts h
  refine ⟨fun a ha => ?_, fun m hm => ⟨?_, fun a ha => ?_⟩⟩
  · obtain ⟨v, -, hv⟩ := hp.attrs a ha; exact C21_attribute hv
  · obtain ⟨v, -, hv⟩ := hp.mline m hm; exact C21_media_line hv
  · obtain ⟨v, -, hv⟩ := hp.mattrs m hm a ha; exact C21_attribute hv

/-- **C22.** The length of an accepted fingerprint. -/
theorem C22_fingerprint_length {l : Str} {f : Fingerprint} (h : attrFromStr l = .ok (.fingerprint f)) :
    f.fingerprint.length =
      match f.hashAlgorithm with
      | .sha1 => 20 | .sha224 => 28 | .sha256 => 32 | .sha384 => 48 | .sha512 => 64 := by
  have : f.fingerprint.length = fingerprintBytes f.hashAlgorithm := C21_attribute h
  rw [this]; cases f.hashAlgorithm <;> rfl

/-- **C22.** `try_from((algorithm, bytes))` succeeds exactly for the right number of bytes, and
keeps them. -/
theorem C22_try_from (h : HashType) (b : List UInt8) (f : Fingerprint) :
    fingerprintTryFrom h b = .ok f ↔
      f = ⟨h, b⟩ ∧ b.length =
        match h with
        | .sha1 => 20 | .sha224 => 28 | .sha256 => 32 | .sha384 => 48 | .sha512 => 64 := by
  have ho : octetCount h = match h with
        | .sha1 => 20 | .sha224 => 28 | .sha256 => 32 | .sha384 => 48 | .sha512 => 64 := by
    cases h <;> rfl
  unfold fingerprintTryFrom
  rw [← ho]
  by_cases hh : octetCount h = b.length
  · rw [if_pos hh]; simp [hh, eq_comm]
  · rw [if_neg hh]; simp; intro _ h'; exact hh h'.symm

end

/-! ## Concrete cases -/

section
attribute [local instance] sampleEnv

example : attrFromStr c%"RTPMAP:109 opus/48000/2" = .ok (.rtpmap ⟨109, c%"opus", 48000, some 2⟩) := by
  decide +kernel
example : lower c%"RTPMAP" = (AttributeType.rtpmap).name := by decide +kernel
example : lower (c%"foo:bar".takeWhile (fun c => decide (c ≠ ':'))) ∉ knownNames := by decide +kernel
example : lower c%"SendRecv" ∈ flagNames := by decide +kernel
example : lower c%"Mid" ∉ flagNames ∧ Blank c%" \t " := by decide +kernel
example : parseMedia c%"audio 65535/2 UDP/TLS/RTP/SAVPF 0 3 18 20 63 96 127" =
    .ok (.media ⟨.audio, 65535, 2, .udpTlsRtpSavpf, .integers [0, 3, 18, 20, 63, 96, 127]⟩) := by
  decide +kernel
example : (attrFromStr c%"fmtp:97 packetization-mode=2;profile-level-id=ffffff;tier=1").isOk = true := by
  decide +kernel
example : (attrFromStr c%"fingerprint:sha-1 00:01:02:03:04:05:06:07:08:09:0A:0b:0c:0d:0e:0f:10:11:12:13").isOk
    = true := by decide +kernel
example : (fingerprintTryFrom .sha1 (List.replicate 20 7)).isOk = true := by decide +kernel
end

end Sdp
