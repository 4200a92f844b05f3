import Verif.Lemmas.PrintLength
import Verif.Props.Size
/-!
# C124: what was read is not written much longer

A number or an address has a text of bounded length, whatever it is; the longest are those of floats (344 characters
for `f64`, 56 for `f32`). Everything else in a session was characters of its text (C94).
-/

namespace Sdp

section
variable {w : Str → Nat} (hw : ∀ d, d.length ≤ 500 * w d)
include hw

theorem print_attribute (a : Attribute) : (showAttribute a).length + 4 ≤ 500 * (a.size w + 1) := by
  have at' (t : AttributeType) (s : Str) : (attrToString t s).length ≤ s.length + 19 := by
    have : t.name.length ≤ 18 := by cases t <;> simp [AttributeType.name]
    unfold attrToString
    split
    · simp
    · simp only [List.length_append, List.length_cons, List.length_nil]; omega
  have ssrc (s : Ssrc) : (showSsrc s).length ≤ 12 + s.size := by
    have h1 := u32_length s.id
    have h2 := optText_length c%" " s.attr
    have h3 := optText_length c%":" s.value
    have h4 : s.size = textsSize s.attr.toList + textsSize s.value.toList := by simp [Ssrc.size, textsSize]
    simp only [showSsrc, List.length_append, List.length_cons, List.length_nil] at *
    omega
  cases a with
  | bundleOnly | endOfCandidates | extmapAllowMixed | iceLite | iceMismatch | inactive | recvonly | rtcpMux
  | rtcpMuxOnly | rtcpRsize | sendonly | sendrecv =>
    simp [showAttribute, AttributeType.name, Attribute.size]
  | candidate c =>
    have h1 := candidate_length hw c
    have e : showAttribute (.candidate c) = c%"candidate:" ++ showCandidate c ∨ showAttribute (.candidate c) = [] := by
      simp only [showAttribute, attrToString]
      split
      · exact .inr rfl
      · exact .inl rfl
    have : (showAttribute (.candidate c)).length ≤ (showCandidate c).length + 10 := by
      rcases e with e | e <;> rw [e] <;> simp
    simp only [Attribute.size]; omega
  | dtlsMessage m =>
    have := at' .dtlsMessage (showDtlsMessage m)
    cases m <;> simp [showAttribute, Attribute.size, textsSize, showDtlsMessage] at * <;> omega
  | extmap e =>
    have h0 := at' .extmap (showExtmap e)
    have h1 := u16_length e.id
    have h2 := optStr_length c%"/" (sh := showDirection) (k := 8) (fun x => by cases x <;> simp [showDirection]) e.direction
    have h3 := optText_length c%" " e.extensionAttributes
    have h4 : textsSize (e.url :: e.extensionAttributes.toList) = e.url.length + 1 + textsSize e.extensionAttributes.toList := by
      simp [textsSize]
    simp only [showAttribute, Attribute.size, showExtmap, List.length_append, List.length_cons, List.length_nil] at *
    omega
  | fingerprint f =>
    have h0 := at' .fingerprint (showFingerprint f)
    have h1 : (showHashType f.hashAlgorithm).length ≤ 7 := by cases f.hashAlgorithm <;> simp [showHashType]
    have h2 := joinS_length c%":" (f.fingerprint.map showByteHex)
    rw [List.map_map] at h2
    have h3 := sum_le_length (K := 3) (f := (fun t : Str => t.length + (c%":").length) ∘ showByteHex) f.fingerprint fun x _ => by
      simp [showByteHex]
    simp only [showAttribute, Attribute.size, showFingerprint, List.length_append, List.length_cons, List.length_nil] at *
    omega
  | fmtp f =>
    have h1 := fmtp_length f
    have e : (attrToString .fmtp (showFmtp f)).length ≤ (showFmtp f).length + 5 := by
      unfold attrToString
      split
      · simp
      · simp [AttributeType.name]
    simp only [showAttribute, Attribute.size]; omega
  | frameRate x =>
    have h0 := at' .frameRate (F64.text x)
    have h1 := F64.text_length x
    simp only [showAttribute, Attribute.size]; omega
  | group g =>
    have h0 := at' .group (showGroup g)
    have h1 : (showGroupSemantic g.semantics).length ≤ 6 := by cases g.semantics <;> simp [showGroupSemantic]
    have h2 := maybeVec_length c%" " [] c%" " g.tags
    have h3 : (g.tags.map fun t => t.length + (c%" ").length).sum = textsSize g.tags := rfl
    rw [h3] at h2
    simp only [showAttribute, Attribute.size, showGroup, List.length_append, List.length_cons, List.length_nil] at *
    omega
  | iceOptions l =>
    have h0 := at' .iceOptions (joinS c%" " l)
    have h2 := joinS_length c%" " l
    have h3 : (l.map fun t => t.length + (c%" ").length).sum = textsSize l := rfl
    rw [h3] at h2
    simp only [showAttribute, Attribute.size]; omega
  | icePacing n =>
    have h0 := at' .icePacing (showU64 n)
    have h1 := u64_length n
    simp only [showAttribute, Attribute.size]; omega
  | maxMessageSize n =>
    have h0 := at' .maxMessageSize (showU64 n)
    have h1 := u64_length n
    simp only [showAttribute, Attribute.size]; omega
  | maxPtime n =>
    have h0 := at' .maxPtime (showU64 n)
    have h1 := u64_length n
    simp only [showAttribute, Attribute.size]; omega
  | ptime n =>
    have h0 := at' .ptime (showU64 n)
    have h1 := u64_length n
    simp only [showAttribute, Attribute.size]; omega
  | sctpPort n =>
    have h0 := at' .sctpPort (showU64 n)
    have h1 := u64_length n
    simp only [showAttribute, Attribute.size]; omega
  | icePwd s => have h0 := at' .icePwd s; simp [showAttribute, Attribute.size, textsSize]; omega
  | iceUfrag s => have h0 := at' .iceUfrag s; simp [showAttribute, Attribute.size, textsSize]; omega
  | identity s => have h0 := at' .identity s; simp [showAttribute, Attribute.size, textsSize]; omega
  | label s => have h0 := at' .label s; simp [showAttribute, Attribute.size, textsSize]; omega
  | mid s => have h0 := at' .mid s; simp [showAttribute, Attribute.size, textsSize]; omega
  | imageAttr i =>
    have h0 := at' .imageAttr (showImageAttr i)
    have h1 := payload_length i.pt
    have h2 := maybeSets_length c%" send " i.send
    have h3 := maybeSets_length c%" recv " i.recv
    simp only [showAttribute, Attribute.size, showImageAttr, List.length_append, List.length_cons, List.length_nil] at *
    omega
  | msid m =>
    have h0 := at' .msid (showMsid m)
    have h3 := optText_length c%" " m.appdata
    have h4 : textsSize (m.id :: m.appdata.toList) = m.id.length + 1 + textsSize m.appdata.toList := by simp [textsSize]
    simp only [showAttribute, Attribute.size, showMsid, List.length_append, List.length_cons, List.length_nil] at *
    omega
  | msidSemantic m =>
    have h0 := at' .msidSemantic (showMsidSemantic m)
    have h2 := joinS_length c%" " m.msids
    have h3 : (m.msids.map fun t => t.length + (c%" ").length).sum = textsSize m.msids := rfl
    rw [h3] at h2
    have h4 : textsSize (m.semantic :: m.msids) = m.semantic.length + 1 + textsSize m.msids := by simp [textsSize]
    have h5 : (showMsidSemantic m).length ≤ m.semantic.length + 2 + textsSize m.msids := by
      unfold showMsidSemantic
      split
      · simp
      · simp only [List.length_append, List.length_cons, List.length_nil]; omega
    simp only [showAttribute, Attribute.size]
    omega
  | rid r =>
    have h0 := rid_length r
    have e : (attrToString .rid (showRid r)).length ≤ (showRid r).length + 4 := by
      unfold attrToString
      split
      · simp
      · simp [AttributeType.name]
    simp only [showAttribute, Attribute.size]; omega
  | remoteCandidate c =>
    have h0 := at' .remoteCandidate (showRemoteCandidate c)
    have h1 := u32_length c.component
    have h2 := u32_length c.port
    have h3 := address_length hw c.address
    simp only [showAttribute, Attribute.size, showRemoteCandidate, List.length_append, List.length_cons, List.length_nil] at *
    omega
  | rtpmap r =>
    have h0 := at' .rtpmap (showRtpmap r)
    have h1 := u8_length r.payloadType
    have h2 := u32_length r.frequency
    have h3 := optStr_length c%"/" u32_length r.channels
    simp only [showAttribute, Attribute.size, showRtpmap, textsSize, List.map_cons, List.map_nil, List.sum_cons,
      List.sum_nil, List.length_append, List.length_cons, List.length_nil] at *
    omega
  | rtcp r =>
    have h0 := at' .rtcp (showRtcp r)
    have h1 := u16_length r.port
    have h2 : (showRtcp r).length ≤ 95 + 500 * (r.unicastAddr.toList.map (TypedAddress.size w)).sum := by
      unfold showRtcp
      split
      · rename_i a e
        have := typed_length hw a
        rw [e]
        simp; omega
      · omega
    simp only [showAttribute, Attribute.size]; omega
  | rtcpfb r =>
    have h0 := at' .rtcpfb (showRtcpFb r)
    have h1 := payload_length r.payloadType
    have h2 : (showRtcpFbType r.feedbackType).length ≤ 12 := by cases r.feedbackType <;> simp [showRtcpFbType]
    have h3 : (maybeParamS c%" " r.extra []).length ≤ 1 + r.extra.length := by
      unfold maybeParamS
      split <;> simp; omega
    have h4 : (showRtcpFb r).length ≤ 20 + (r.parameter.length + r.extra.length) := by
      unfold showRtcpFb
      split <;> simp only [List.length_append, List.length_cons, List.length_nil] <;> omega
    simp only [showAttribute, Attribute.size, textsSize, List.map_cons, List.map_nil, List.sum_cons,
      List.sum_nil]
    omega
  | sctpmap s =>
    have h0 := at' .sctpmap (showSctpmap s)
    have h1 := u16_length s.port
    have h2 := u32_length s.channels
    simp only [showAttribute, Attribute.size, showSctpmap, List.length_append, List.length_cons, List.length_nil] at *
    omega
  | setup s => cases s <;> simp [showAttribute, attrToString, showSetup, AttributeType.name, Attribute.size]
  | simulcast s =>
    have h0 := at' .simulcast (showSimulcast s)
    have h1 := versions_length c%"send " s.send
    have h2 := versions_length c%"recv " s.receive
    have h3 := nonEmpty_length c%" " [maybeVec c%"send " [] c%";" (s.send.map showSimulcastVersion),
      maybeVec c%"recv " [] c%";" (s.receive.map showSimulcastVersion)]
    have h4 : ((s.send ++ s.receive).map SimulcastVersion.size).sum =
      (s.send.map SimulcastVersion.size).sum + (s.receive.map SimulcastVersion.size).sum := by simp
    simp only [showAttribute, Attribute.size, h4]
    unfold showSimulcast at *
    simp only [List.map_cons, List.map_nil, List.sum_cons, List.sum_nil, List.length_cons, List.length_nil] at h1 h2 h3
    omega
  | ssrc s =>
    have h0 := at' .ssrc (showSsrc s)
    have h1 := ssrc s
    simp only [showAttribute, Attribute.size]; omega
  | ssrcGroup g l =>
    have h0 := at' .ssrcGroup (showSsrcGroupSemantic g)
    have h1 : (showSsrcGroupSemantic g).length ≤ 6 := by cases g <;> simp [showSsrcGroupSemantic]
    have h2 := joinS_length c%" " (l.map showSsrc)
    rw [List.map_map] at h2
    have h3 := sum_le_mul (K := 13) (f := (fun t : Str => t.length + (c%" ").length) ∘ showSsrc) (g := fun s => s.size + 1)
      (fun s => by have := ssrc s; simp; omega) l
    simp only [showAttribute, Attribute.size, List.length_append, List.length_cons, List.length_nil] at *
    omega

omit hw in
theorem print_bandwidth (b : Bandwidth) : (showBandwidth b).length + 4 ≤ 500 * (b.size + 1) := by
  cases b with
  | unknown t n => have := u32_length n; simp [showBandwidth, Bandwidth.size, textsSize]; omega
  | as n | ct n | tias n => have := u32_length n; simp [showBandwidth, Bandwidth.size]; omega

theorem print_connection (c : Connection) : (showConnection c).length ≤ 106 + 500 * c.address.size w := by
  have h1 := typed_length hw c.address
  have h2 := optStr_length c%"/" u8_length c.ttl
  have h3 := optStr_length c%"/" u32_length c.amount
  simp only [showConnection, List.length_append, List.length_cons, List.length_nil] at *
  omega

omit hw in
theorem print_lines {α : Type} {sh : α → Str} {g : α → Nat} (h : ∀ x, (sh x).length + 4 ≤ 500 * g x) (c : Char) (l : List α) :
    (maybeVec [c, '='] c%"\r\n" ['\r', '\n', c, '='] (l.map sh)).length ≤ 4 + 500 * (l.map g).sum := by
  have h1 := maybeVec_length [c, '='] c%"\r\n" ['\r', '\n', c, '='] (l.map sh)
  rw [List.map_map] at h1
  have h2 := sum_le_mul (K := 500) (f := (fun t : Str => t.length + (['\r', '\n', c, '=']).length) ∘ sh) (g := g)
    (fun x => by have := h x; simpa using this) l
  simp only [List.length_cons, List.length_nil] at *
  omega

theorem print_media (m : Media) : (showMedia m).length ≤ 500 * (m.size w + 1) := by
  have h1 : (showMediaValue m.media.media).length ≤ 11 := by cases m.media.media <;> simp [showMediaValue]
  have h2 := u32_length m.media.port
  have h3 := param_length c%"/" m.media.portCount 0
  have h4 : (showProtocol m.media.proto).length ≤ 18 := by cases m.media.proto <;> simp [showProtocol]
  have h5 : (showFormatList m.media.formats).length ≤ 11 * m.media.formats.size := by
    cases m.media.formats with
    | integers l =>
      have h1 := maybeVec_length [] [] c%" " (l.map showU32)
      rw [List.map_map] at h1
      have h2 := sum_le_length (K := 11) (f := (fun t : Str => t.length + (c%" ").length) ∘ showU32) l fun x _ => by
        have := u32_length x; simp; omega
      simp only [showFormatList, FormatList.size, List.length_nil] at *; omega
    | strings l =>
      have h1 := joinS_length c%" " l
      have h3 : (l.map fun t => t.length + (c%" ").length).sum = textsSize l := rfl
      simp only [showFormatList, FormatList.size]; omega
  have h6 := print_lines print_bandwidth 'b' m.bandwidth
  have h8 := print_lines (print_attribute hw) 'a' m.attrs
  unfold showMedia showMediaLine Media.size
  cases m.connection with
  | none =>
    simp only [List.length_append, List.length_cons, List.length_nil, Option.toList, List.map_nil, List.sum_nil] at *
    omega
  | some c =>
    have h7 := print_connection hw c
    simp only [List.length_append, List.length_cons, List.length_nil, Option.toList, List.map_cons, List.map_nil,
      List.sum_cons, List.sum_nil] at *
    omega

theorem print_session (s : Session) : (showSession s).length ≤ 500 * s.size w := by
  have h1 := u64_length s.version
  have h2 := u64_length s.origin.sessionId
  have h3 := u64_length s.origin.sessionVersion
  have h4 := typed_length hw s.origin.unicastAddr
  have h5 : s.getSessionText.length ≤ 1 + textsSize s.session.toList := by
    unfold Session.getSessionText
    split
    · rename_i t e; rw [e]; simp [textsSize]; omega
    · simp
  have h6 (t : Timing) : (showTiming t).length ≤ 41 := by
    have h1 := u64_length t.start
    have h2 := u64_length t.stop
    simp [showTiming]; omega
  have h7 := print_lines print_bandwidth 'b' s.bandwidth
  have h9 := print_lines (print_attribute hw) 'a' s.attrs
  have h10 : ((s.media.map showMedia).flatten).length ≤ 500 * (s.media.map fun m => m.size w + 1).sum := by
    rw [List.length_flatten, List.map_map]
    exact sum_le_mul (fun m => print_media hw m) s.media
  unfold showSession showOrigin Session.size
  cases s.connection with
  | none =>
    cases s.timing with
    | none =>
      simp only [List.length_append, List.length_cons, List.length_nil, Option.toList, List.map_nil, List.sum_nil] at *
      omega
    | some t =>
      have h6 := h6 t
      simp only [List.length_append, List.length_cons, List.length_nil, Option.toList, List.map_nil, List.sum_nil] at *
      omega
  | some c =>
    have h8 := print_connection hw c
    cases s.timing with
    | none =>
      simp only [List.length_append, List.length_cons, List.length_nil, Option.toList, List.map_cons, List.map_nil,
        List.sum_cons, List.sum_nil] at *
      omega
    | some t =>
      have h6 := h6 t
      simp only [List.length_append, List.length_cons, List.length_nil, Option.toList, List.map_cons, List.map_nil,
        List.sum_cons, List.sum_nil] at *
      omega

end

section
variable [Env]

/-- **C124.** What was read from a text is written with at most 500 times as many characters. -/
theorem C124_session (hg : HostGrowth) {s : Str} {f : Bool} {r : Session} (h : parseSdp s f = .ok r) :
    (showSession r).length ≤ 500 * s.length := by
  have hw : ∀ d : Str, d.length ≤ 500 * ((d.length + 499) / 500) := fun d => by omega
  have hc : HostCost fun d => (d.length + 499) / 500 := fun x d hd => by have := hg x d hd; simp only; omega
  have h1 := C94_session hc h
  have h2 := print_session hw r
  omega

/-- **C124.** For one attribute. -/
theorem C124_attribute (hg : HostGrowth) {v : Str} {a : Attribute} (h : attrFromStr v = .ok a) :
    (showAttribute a).length ≤ 500 * (v.length + 3) := by
  have hw : ∀ d : Str, d.length ≤ 500 * ((d.length + 499) / 500) := fun d => by omega
  have hc : HostCost fun d => (d.length + 499) / 500 := fun x d hd => by have := hg x d hd; simp only; omega
  have h1 := C94_attribute hc h
  have h2 := print_attribute hw a
  omega

/-- **C124.** No number is written with more characters than these; nor is an address. -/
theorem C124_numbers :
    (∀ n : UInt64, (showU64 n).length ≤ 20) ∧ (∀ x : F64, (F64.text x).length ≤ 344) ∧
    (∀ x : F32, (F32.text x).length ≤ 56) ∧ ∀ a, (showIp a).length ≤ 39 :=
  ⟨u64_length, F64.text_length, F32.text_length, ip_length⟩

end

/-! ## A text that grows -/

section
attribute [local instance] sampleEnv

theorem sampleEnv_hostGrowth : HostGrowth := fun h d hd => by
  have := sampleEnv_hostCost h d hd; omega

/-- A frame rate written in five characters -/
def growingText : Str :=
  c%"v=0\r\no=- 0 0 IN IP4 0.0.0.0\r\ns=-\r\nt=0 0\r\nm=video 9 RTP/AVP 96\r\nc=IN IP4 0.0.0.0\r\na=framerate:1e308\r\n"

/-- It is accepted, and more than four times as long when it is written: 308 zeros are. -/
example : (match parseSdp growingText true with
    | .ok r => some (decide (4 * growingText.length < (showSession r).length))
    | _ => none) = some true := by decide +kernel

example : (match attrFromStr c%"framerate:5e-324" with
    | .ok a => some (showAttribute a).length
    | _ => none) = some 336 := by decide +kernel

/-- The bound for addresses is met. -/
example : (showIp (.v6 (BitVec.allOnes 128))).length = 39 := by decide +kernel

end

end Sdp
