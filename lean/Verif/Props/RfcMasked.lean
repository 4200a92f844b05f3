import Verif.Spec.RfcMasked
import Verif.Props.Masked
import Verif.Props.ReadsBack
import Verif.Props.RfcBuilt
/-!
# C115: whether anonymized descriptions follow the RFCs
-/

namespace Sdp

open Abnf

section
variable [Env]

/-! ## The rule for a name -/

omit [Env] in
private theorem named_value {n m v : Str} {R : Rule} (h : Rfc.named m R (n ++ ':' :: v)) (hn : ':' ∉ n) (hm : ':' ∉ m) :
    n = m ∧ R v := by
  obtain ⟨_, _, e, rfl, _, _, rfl, rfl, w, _, rfl, hw, rfl⟩ := h
  simp only [List.append_nil] at e
  have := name_unique hn hm (s := n ++ ':' :: v) (.inr ⟨v, rfl⟩) (.inr ⟨w, e⟩)
  subst this
  refine ⟨rfl, ?_⟩
  have : v = w := by simpa using e
  rw [this]; exact hw

omit [Env] in
private theorem not_flag {n v : Str} : n ++ ':' :: v ∉ Rfc.flags := by
  intro h
  have key : ∀ t ∈ Rfc.flags, ':' ∉ t := by decide
  exact key _ h (by simp)

/-- An attribute with one of these names that follows the rules follows the one of its name. -/
private theorem known_value {v : Str} :
    (Rfc.knownAttribute (c%"ice-ufrag" ++ ':' :: v) → Rfc.iceUfrag v) ∧
    (Rfc.knownAttribute (c%"ice-pwd" ++ ':' :: v) → Rfc.icePwd v) ∧
    (Rfc.knownAttribute (c%"candidate" ++ ':' :: v) → Rfc.candidate v) ∧
    (Rfc.knownAttribute (c%"remote-candidates" ++ ':' :: v) → Rfc.remoteCandidates v) ∧
    (Rfc.knownAttribute (c%"ssrc" ++ ':' :: v) → Rfc.ssrc v) := by
  refine ⟨fun h => ?_, fun h => ?_, fun h => ?_, fun h => ?_, fun h => ?_⟩ <;>
  · obtain ⟨r, hr, h⟩ := h
    rcases hr with _ | ⟨_, hr⟩
    · exact absurd h not_flag
    repeat' first
      | (rcases hr with _ | ⟨_, hr⟩
         · obtain ⟨h1, h2⟩ := named_value h (by decide) (by decide)
           first | exact h2 | exact absurd h1 (by decide))
      | cases hr

omit [Env] in
/-- It does not follow the rule for attributes of other names. -/
private theorem not_other {n v : Str} (hn : n ∈ attributeNames) : ¬ Rfc.otherAttribute (n ++ ':' :: v) := by
  rintro ⟨t, u, e, ⟨ht, hno⟩, w, _, rfl, hw, rfl⟩
  have colon : ∀ n ∈ attributeNames, ':' ∉ n := by decide
  have htc : ':' ∉ t := token_not_mem ht (by simp)
  have : n = t := by
    refine name_unique (colon n hn) htc (s := n ++ ':' :: v) (.inr ⟨v, rfl⟩) ?_
    rw [e]
    rcases hw with rfl | ⟨_, _, rfl, rfl, _⟩
    · exact .inl (by simp)
    · exact .inr ⟨_, by simp; rfl⟩
  subst this
  exact hno n hn rfl

/-! ## Masks -/

omit [Env] in
private theorem masked_fqdn (n : Nat) : Rfc.fqdn (numbered c%"fqdn-" n) := by
  refine rep_char.2 ⟨by simp [numbered], fun c hc => ?_⟩
  rcases numbered_chars hc with hc | hc
  · have key : ∀ c ∈ c%"fqdn-", (Rfc.isAlphaNumeric c || c == '-' || c == '.') = true := by decide
    exact key c hc
  · have := FloatFormat.digit_range hc
    simp only [Rfc.isAlphaNumeric, Bool.or_eq_true, Bool.and_eq_true, decide_eq_true_eq]
    exact .inl (.inl (.inl (.inl ⟨this.1, this.2⟩)))

private theorem masked_address (H : MaskHosts) (xs : List Secret) (a : Address) :
    Rfc.address (showAddress (a.mapSecrets (maskOf xs))) := by
  cases a with
  | fqdn h => exact rfc_alt_there (rfc_alt_here ⟨masked_fqdn _, _, H _⟩)
  | ip a => exact rfc_alt_here ⟨_, rfc_ip_text _⟩

private theorem masked_hostName (H : MaskHosts) (n : Nat) : Rfc.hostName (numbered c%"fqdn-" n) := by
  refine ⟨fun a ha => ?_, masked_fqdn _, _, H _⟩
  have h1 := (numbered_host H n).parse
  rw [parseAddress_iff.2 (.inl ⟨a, ha, rfl⟩)] at h1
  cases h1

omit [Env] in
private theorem numbered_ne {pre : Str} (hp : pre ≠ []) (n : Nat) : numbered pre n ≠ [] := by simp [numbered, hp]

omit [Env] in
private theorem shown_named {t : AttributeType} {v : Str} (hv : v ≠ []) : attrToString t v = t.name ++ ':' :: v := by
  unfold attrToString
  rw [if_neg (by simpa using hv)]
  simp

omit [Env] in
private theorem not_iceChars {pre : Str} (hp : '-' ∈ pre) {n lo hi : Nat} : ¬ reps lo hi (char Rfc.isIceChar) (numbered pre n) := by
  intro h
  have := (reps_char h).2.2 '-' (by simp [numbered, hp])
  revert this; decide

/-- The masks of credentials follow no rule. -/
private theorem credential_masked (xs : List Secret) {a : Attribute} (h : a.type ∈ credentialTypes) :
    ¬ Rfc.anyAttribute (showAttribute (a.mapSecrets (maskOf xs))) := by
  intro hk
  cases a <;> try (exfalso; revert h; simp [credentialTypes, Attribute.type]; done)
  case fingerprint f =>
    obtain ⟨r, hr, hk⟩ := hk
    simp only [List.mem_cons, List.not_mem_nil, or_false] at hr
    obtain ⟨m, hm⟩ := (maskedFingerprint_wrong xs f).2
    have e : showAttribute ((Attribute.fingerprint f).mapSecrets (maskOf xs)) = c%"fingerprint" ++ ':' :: _ :=
      shown_named (t := .fingerprint) (by simp [showFingerprint])
    rcases hr with rfl | rfl
    · obtain ⟨b, hb, -⟩ := C107_attribute hk 0
      rw [attrLine_wrong (maskedFingerprint_wrong xs f).1 hm] at hb
      cases hb
    · rw [e] at hk
      exact not_other (by decide) hk
  case icePwd p =>
    have e : showAttribute ((Attribute.icePwd p).mapSecrets (maskOf xs)) = c%"ice-pwd" ++ ':' :: numbered c%"ice-password-" _ :=
      shown_named (t := .icePwd) (numbered_ne (by decide) _)
    obtain ⟨r, hr, hk⟩ := hk
    simp only [List.mem_cons, List.not_mem_nil, or_false] at hr
    rw [e] at hk
    rcases hr with rfl | rfl
    · exact not_iceChars (by decide) (known_value.2.1 hk)
    · exact not_other (by decide) hk
  case iceUfrag p =>
    have e : showAttribute ((Attribute.iceUfrag p).mapSecrets (maskOf xs)) = c%"ice-ufrag" ++ ':' :: numbered c%"ice-user-" _ :=
      shown_named (t := .iceUfrag) (numbered_ne (by decide) _)
    obtain ⟨r, hr, hk⟩ := hk
    simp only [List.mem_cons, List.not_mem_nil, or_false] at hr
    rw [e] at hk
    rcases hr with rfl | rfl
    · exact not_iceChars (by decide) (known_value.1 hk)
    · exact not_other (by decide) hk

private theorem candidate_ne (c : Candidate) : showCandidate c ≠ [] := by
  intro h
  unfold showCandidate at h
  simp only [List.append_eq_nil_iff] at h
  simp at h

private theorem Attribute.Fits.masked (H : MaskHosts) {xs : List Secret} (hp : PortsSuffice xs) {a : Attribute} (hw : a.WF)
    (hf : a.Fits) (hs : a.secrets ⊆ xs) (ht : a.type ∉ credentialTypes) : (a.mapSecrets (maskOf xs)).Fits := by
  have hb := (attr_round hw).2
  cases a with
  | candidate c =>
    have e : showAttribute (.candidate c) = c%"candidate" ++ ':' :: showCandidate c := shown_named (t := .candidate) (candidate_ne c)
    unfold Attribute.Fits at hf
    rw [e] at hf hb
    obtain ⟨c', hc, h1, h2, h3, -, -, -, -, h8, h9⟩ := rfc_candidate (known_value.2.2.1 hf)
    have ee (v : Str) : c%"candidate:" ++ v = c%"candidate" ++ ':' :: v := rfl
    rw [ee, hb] at hc
    have e2 : c = c' := by simpa using hc
    subst e2
    have hpr : (c.mapSecrets (maskOf xs)).priority = c.priority := rfl
    refine fits_named (t := .candidate) (R := Rfc.candidate) rfl (by simp [AttributeType.name]) (candidate_ne _)
      (candidate_shown (by exact h1) (by exact h2) (by rw [hpr]; exact h3) (masked_address H _ _) ?_ ?_ ?_ (by exact h8) (by exact h9))
    · exact port_masked hp (hs (by simp [Attribute.secrets, Candidate.secrets]))
    · intro a ha
      obtain ⟨b, -, rfl⟩ := Option.map_eq_some_iff.1 ha
      exact masked_address H _ _
    · intro p hp'
      obtain ⟨b, hb, rfl⟩ := Option.map_eq_some_iff.1 hp'
      exact port_masked hp (hs (by simp [Attribute.secrets, Candidate.secrets, hb]))
  | remoteCandidate c =>
    have ne (c : RemoteCandidate) : showRemoteCandidate c ≠ [] := by simp [showRemoteCandidate]
    have e : showAttribute (.remoteCandidate c) = c%"remote-candidates" ++ ':' :: showRemoteCandidate c :=
      shown_named (t := .remoteCandidate) (ne c)
    unfold Attribute.Fits at hf
    rw [e] at hf hb
    obtain ⟨c', hc, h1, -, -⟩ := rfc_remote_candidates (known_value.2.2.2.1 hf)
    have ee (v : Str) : c%"remote-candidates:" ++ v = c%"remote-candidates" ++ ':' :: v := rfl
    rw [ee, hb] at hc
    have e2 : c = c' := by simpa using hc
    subst e2
    exact fits_named (t := .remoteCandidate) (R := Rfc.remoteCandidates) rfl (by simp [AttributeType.name]) (ne _)
      (remoteCandidate_shown h1 (masked_address H _ _) (port_masked hp (hs (by simp [Attribute.secrets]))))
  | ssrc x =>
    have ne (x : Ssrc) : showSsrc x ≠ [] := by simp [showSsrc, showU32, showNat_ne_nil]
    have e : showAttribute (.ssrc x) = c%"ssrc" ++ ':' :: showSsrc x := shown_named (t := .ssrc) (ne x)
    have hf' := hf
    unfold Attribute.Fits at hf
    rw [e] at hf hb
    obtain ⟨x', hx, a, ha, hat, -⟩ := rfc_ssrc (known_value.2.2.2.2 hf)
    have ee (v : Str) : c%"ssrc:" ++ v = c%"ssrc" ++ ':' :: v := rfl
    rw [ee, hb] at hx
    have e2 : x = x' := by simpa using hx
    subst e2
    show Attribute.Fits (.ssrc (Ssrc.mapSecrets _ _))
    unfold Ssrc.mapSecrets
    rw [ha]
    cases hv : x.value with
    | none => exact hf'
    | some v =>
      dsimp only
      split
      · refine fits_named (t := .ssrc) (R := Rfc.ssrc) rfl (by simp [AttributeType.name]) (ne _) ?_
        have e : showSsrc ⟨x.id, some a, some (maskOf xs (.cname v)).str⟩ =
            showU32 x.id ++ ([' '] ++ (a ++ ([':'] ++ numbered c%"cname-" (rank xs (.cname v) % 2 ^ 64)))) := by
          have : (maskOf xs (.cname v)).str = numbered c%"cname-" (rank xs (.cname v) % 2 ^ 64) := rfl
          simp [showSsrc, optStr, this]
        rw [e]
        refine rfc_seq_cons (rfc_number_show (by have := x.id.toNat_lt; omega)) (rfc_seq_cons (a := Rfc.SP) rfl
          (rfc_seq_one (rfc_alt_here (rfc_seq_cons hat (rfc_seq_cons (a := exactly [':']) rfl (rfc_seq_one ?_))))))
        refine rep_char.2 ⟨by simp [numbered], fun c hc => ?_⟩
        rcases numbered_chars hc with hc | hc
        · have key : ∀ c ∈ c%"cname-", byteChar c = true := by decide
          exact key c hc
        · have := FloatFormat.digit_range hc
          simp
          omega
      · exact hf'
  | fingerprint | icePwd | iceUfrag => exact absurd (by simp [credentialTypes, Attribute.type]) ht
  | _ => exact hf

/-- **C115.** A masked attribute follows the rule for its name exactly if it holds no credentials. -/
theorem C115_attribute (H : MaskHosts) (cs : List MaskCall) {a : Attribute} (hw : a.WF) (hf : a.Fits)
    (hp : PortsSuffice (cs.map (·.secret) ++ a.secrets)) {r : Attribute} (hr : r = (a.maskedClone (Anon.after cs)).1) :
    r.Fits ↔ a.type ∉ credentialTypes := by
  have := (masks_attribute a _ _ (knows_after cs)).1 []
  simp only [List.append_nil] at this
  rw [hr, this]
  exact ⟨fun h ht => credential_masked _ ht (rfc_alt_here h), hf.masked H hp hw (by simp)⟩

/-- **C115.** Masked credentials follow no rule at all, whatever they were. -/
theorem C115_credentials (cs : List MaskCall) {a : Attribute} (h : a.type ∈ credentialTypes) :
    ¬ Rfc.anyAttribute (showAttribute (a.maskedClone (Anon.after cs)).1) := by
  have := (masks_attribute a _ _ (knows_after cs)).1 []
  simp only [List.append_nil] at this
  rw [this]
  exact credential_masked _ h

/-! ## Sessions -/

private theorem TypedAddress.Fits.masked (H : MaskHosts) (xs : List Secret) (a : TypedAddress) : (a.mapSecrets (maskOf xs)).Fits := by
  cases a with
  | fqdn t h => exact masked_hostName H _
  | ip i => trivial

private theorem Session.Fits.anonymize (H : MaskHosts) (cs : List MaskCall) {x : Session} (h : x.WF) (hf : x.Fits)
    (hn : x.NoCredentials) (hp : PortsSuffice (cs.map (·.secret) ++ x.allSecrets)) : (x.anonymize (Anon.after cs)).Fits := by
  rw [C86_anonymize]
  generalize hxs : cs.map (·.secret) ++ x.allSecrets = xs at hp
  have hall : x.allSecrets ⊆ xs := by rw [← hxs]; simp
  have hsa {a : Attribute} (ha : a ∈ x.attrs) : a.secrets ⊆ xs := fun t ht =>
    hall (List.mem_append_left _ (List.mem_append_right _ (List.mem_append_right _ (List.mem_flatMap.2 ⟨a, ha, ht⟩))))
  have hma {m : Media} (hm : m ∈ x.media) {a : Attribute} (ha : a ∈ m.attrs) : a.secrets ⊆ xs := fun t ht =>
    hall (List.mem_append_right _ (List.mem_flatMap.2 ⟨m, hm, List.mem_flatMap.2 ⟨a, ha, ht⟩⟩))
  refine ⟨hf.version, ⟨?_, .masked H _ _⟩, hf.name, hf.bandwidth, ?_, ?_, ?_⟩
  · refine rep_char.2 ⟨List.length_pos_iff.2 (numbered_ne (pre := c%"origin-user-") (by decide) _), fun c hc => ?_⟩
    rcases numbered_chars hc with hc | hc
    · have key : ∀ c ∈ c%"origin-user-", Rfc.isVchar c = true := by decide
      simp [key c hc]
    · have := FloatFormat.digit_range hc
      have : Rfc.isVchar c = true := by simp [Rfc.isVchar]; omega
      simp [this]
  · intro c hc
    obtain ⟨d, hd, rfl⟩ := Option.map_eq_some_iff.1 hc
    have := hf.connection d hd
    unfold Connection.Fits at this ⊢
    cases hd : d.address with
    | fqdn t h => rw [hd] at this; exact ⟨this.1, this.2.1, masked_hostName H _⟩
    | ip i =>
      rw [hd] at this
      cases i with
      | v4 => exact this
      | v6 => exact this
  · intro a ha
    obtain ⟨b, hb, rfl⟩ := List.mem_map.1 ha
    exact (hf.attrs b hb).masked H hp (h.attrs b hb) (hsa hb) (hn.1 b hb)
  · intro m hm
    obtain ⟨n, hn', rfl⟩ := List.mem_map.1 hm
    have k := hf.media n hn'
    refine ⟨k.line, k.bandwidth, k.connection, fun a ha => ?_⟩
    obtain ⟨b, hb, rfl⟩ := List.mem_map.1 ha
    exact (k.attrs b hb).masked H hp ((h.media n hn').attrs b hb) (hma hn' hb) (hn.2 n hn' b hb)

private theorem described_whole {x : Session} (h : x.WF) : x.timing ≠ none ∧ ∀ m ∈ x.media, m.media.HasFormats := by
  refine ⟨fun e => ?_, fun m hm => ?_⟩
  · obtain ⟨t, ht⟩ := h.consistent.timing
    rw [e] at ht; cases ht
  · have := (h.media m hm).media.formats
    constructor <;> intro e <;> rw [e] at this <;> revert this <;> cases m.media.media <;> simp [FormatsWF]

/-- **C115.** An anonymized session stands for a description that follows the RFCs exactly if it has no credentials. -/
theorem C115_session (H : MaskHosts) (cs : List MaskCall) {x : Session} (h : x.WF) (hf : x.Fits)
    (hp : PortsSuffice (cs.map (·.secret) ++ x.allSecrets)) {r : Session} (hr : r = x.anonymize (Anon.after cs)) :
    r.described.Follows ↔ x.NoCredentials := by
  constructor
  · intro hd
    rw [hr, C86_anonymize] at hd
    generalize cs.map (·.secret) ++ x.allSecrets = xs at hd
    refine ⟨fun a ha ht => ?_, fun m hm a ha ht => ?_⟩
    · exact credential_masked xs ht
        (hd.attributes _ (List.mem_map_of_mem (List.mem_map_of_mem (f := Attribute.mapSecrets (maskOf xs)) ha)))
    · have hs := hd.sections (Media.described { m with attrs := m.attrs.map (Attribute.mapSecrets (maskOf xs)) })
        (List.mem_map_of_mem (List.mem_map_of_mem
          (f := fun m : Media => { m with attrs := m.attrs.map (Attribute.mapSecrets (maskOf xs)) }) hm))
      exact credential_masked xs ht (hs.attributes _ (List.mem_map_of_mem (List.mem_map_of_mem ha)))
  · intro hn
    refine (C114_follows (hr ▸ hf.anonymize H cs h hn hp)).2 ?_
    obtain ⟨h1, h2⟩ := described_whole h
    rw [hr, C86_anonymize]
    refine ⟨h1, fun m hm => ?_⟩
    obtain ⟨n, hn', rfl⟩ := List.mem_map.1 hm
    exact h2 n hn'

/-- **C115.** Then its text has the lines of this description, and they are in the order of the RFC exactly if those of the session
itself are. -/
theorem C115_text (H : MaskHosts) (cs : List MaskCall) {x : Session} (h : x.WF) (hf : x.Fits) (hn : x.NoCredentials)
    (hp : PortsSuffice (cs.map (·.secret) ++ x.allSecrets)) {r : Session} (hr : r = x.anonymize (Anon.after cs)) :
    (lines (showSession r)).Perm r.described.lines ∧
      (showSession r = r.described.text ↔ showSession x = x.described.text) := by
  obtain ⟨h1, h2⟩ := described_whole h
  have hrf : r.Fits := hr ▸ hf.anonymize H cs h hn hp
  obtain ⟨h3, h4⟩ := (C114_follows hrf).1 ((C115_session H cs h hf hp hr).2 hn)
  refine ⟨C114_lines hrf h3 h4, ?_⟩
  rw [C114_text hrf h3 h4, C114_text hf h1 h2, hr, C86_anonymize]
  simp [Session.mapSecrets]

end

section Examples
attribute [local instance] sampleEnv

/-- A call with a candidate. -/
def maskedOffer : List BuildOp :=
  [.session (.setTiming ⟨0, 0⟩),
   .session (.addMedia .audio .sendrecv 9 .udpTlsRtpSavpf (.ip (.v4 0))),
   .inSection 0 (.addCodec ⟨111, c%"opus", 48000, some 2⟩),
   .inSection 0 (.setAttribute (.mid c%"0")),
   .inSection 0 (.addAttribute (.candidate
     ⟨c%"1", 1, .udp, 2130706431, .ip (.v4 167772161), 5000, .host, none, none, none, none, none, none, []⟩))]

/-- The same with a user fragment. -/
def maskedOfferIce : List BuildOp := maskedOffer ++ [.inSection 0 (.addAttribute (.iceUfrag c%"abcd"))]

/-- The session the calls make. -/
def maskedSession (ops : List BuildOp) : Session := ops.foldl Session.build (Session.new 0 ⟨c%"jane", 1, 2, .ip (.v4 2130706433)⟩ c%"-")

private theorem maskedOffer_fits : ∀ op ∈ maskedOfferIce, op.Fits := by
  have tok {t : Str} (h : 1 ≤ t.length ∧ ∀ c ∈ t, Rfc.isTokenChar c = true) : Rfc.token t := rep_char.2 h
  simp only [maskedOfferIce, maskedOffer, List.cons_append, List.nil_append, List.forall_mem_cons, List.not_mem_nil, false_imp_iff,
    implies_true, and_true]
  refine ⟨trivial, ⟨C114_attribute trivial, by decide, trivial⟩,
    ⟨tok (by decide), by unfold FormatNumber; decide⟩, C114_attribute (a := .mid _) (tok (by decide)), ?_,
    C114_attribute (a := .iceUfrag _) (rfc_reps_of (by decide))⟩
  have key (c : Candidate) (h : Rfc.candidate (showCandidate c)) : Attribute.Fits (.candidate c) :=
    fits_named (t := .candidate) (R := Rfc.candidate) rfl (by simp [AttributeType.name]) (candidate_ne c) h
  have addr (a : IpAddr) : Rfc.address (showAddress (.ip a)) := rfc_alt_here ⟨a, rfc_ip_text a⟩
  exact key _ (candidate_shown (rfc_reps_of (by decide)) (by decide) (by decide +kernel) (addr _) (by decide)
    (by simp) (by simp) (by simp) (by simp))

private theorem maskedSession_fits {ops : List BuildOp} (h : ∀ op ∈ ops, op.Fits) : (maskedSession ops).Fits := by
  refine C114_parts (o := ⟨c%"jane", 1, 2, .ip (.v4 2130706433)⟩) ⟨?_, trivial⟩ (.inr (rep_char.2 (by decide))) h
  exact rep_char.2 (by decide)

/-- The hypotheses of `C115_session` and `C115_text`, without credentials. -/
example : (maskedSession maskedOffer).WF ∧ (maskedSession maskedOffer).Fits ∧ (maskedSession maskedOffer).NoCredentials ∧
    PortsSuffice ((maskedSession maskedOffer).allSecrets) := by
  refine ⟨((C88_session_iff sampleLaws _ true []).1 (by decide +kernel)).1,
    maskedSession_fits fun op h => maskedOffer_fits op (List.mem_append_left _ h), ?_, by unfold PortsSuffice; decide +kernel⟩
  unfold Session.NoCredentials
  decide +kernel

/-- And with. -/
example : (maskedSession maskedOfferIce).WF ∧ (maskedSession maskedOfferIce).Fits ∧ ¬ (maskedSession maskedOfferIce).NoCredentials ∧
    PortsSuffice ((maskedSession maskedOfferIce).allSecrets) := by
  refine ⟨((C88_session_iff sampleLaws _ true []).1 (by decide +kernel)).1, maskedSession_fits maskedOffer_fits, ?_,
    by unfold PortsSuffice; decide +kernel⟩
  unfold Session.NoCredentials
  decide +kernel

/-- What is written. -/
example : lines (showSession ((maskedSession maskedOfferIce).anonymize Anon.new)) =
    [c%"v=0", c%"o=origin-user-00000001 1 2 IN IP4 0.0.0.1", c%"s=-", c%"t=0 0", c%"m=audio 9/1 UDP/TLS/RTP/SAVPF 111",
     c%"c=IN IP4 0.0.0.0", c%"a=sendrecv", c%"a=rtpmap:111 opus/48000/2", c%"a=mid:0",
     c%"a=candidate:1 1 UDP 2130706431 0.0.0.2 1 typ host", c%"a=ice-ufrag:ice-user-00000001"] := by
  decide +kernel

end Examples

end Sdp
