import Verif.Props.Anon
import Verif.Props.Candidate
import Verif.Props.Grammar
import Verif.Props.RoundTrip
import Verif.Lemmas.FloatShow
import Verif.Spec.Masked
/-!
# C86: whether anonymized values can be read again
-/

namespace Sdp

/-! ## The masks as texts -/

theorem numbered_chars {pre : Str} {n : Nat} {c : Char} (h : c ∈ numbered pre n) : c ∈ pre ∨ c.isDigit = true := by
  simp only [numbered, List.mem_append, List.mem_replicate] at h
  rcases h with (h | h) | h
  · exact .inl h
  · rw [h.2]; exact .inr (by decide)
  · exact .inr (Nat.isDigit_of_mem_toDigits (by decide) (by decide) h)

theorem digit_facts {c : Char} (h : c.isDigit = true) : isWs c = false ∧ c ≠ ':' ∧ c ≠ '/' ∧ c ≠ '\n' := by
  have := FloatFormat.digit_range h
  have key : ∀ n, n < 10 → isWs (Char.ofNat (n + 48)) = false ∧ Char.ofNat (n + 48) ≠ ':' ∧ Char.ofNat (n + 48) ≠ '/' ∧
    Char.ofNat (n + 48) ≠ '\n' := by decide
  have e : c = Char.ofNat (c.toNat - 48 + 48) := by
    rw [Nat.sub_add_cancel this.1, Char.ofNat_toNat]
  rw [e]; exact key _ (by omega)

theorem numbered_token {pre : Str} (hp : pre ≠ []) (h : ∀ c ∈ pre, isWs c = false) (n : Nat) : Token (numbered pre n) := by
  refine ⟨by simp [numbered, hp], fun c hc => ?_⟩
  rcases numbered_chars hc with hc | hc
  · exact h c hc
  · exact (digit_facts hc).1

theorem numbered_host [Env] (H : MaskHosts) (n : Nat) : HostName (numbered c%"fqdn-" n) := by
  refine ⟨numbered_token (by decide) (by decide) n, fun hc => ?_, fun hc => ?_, ?_, H n⟩
  · rcases numbered_chars hc with hc | hc
    · revert hc; decide
    · exact (digit_facts hc).2.1 rfl
  · rcases numbered_chars hc with hc | hc
    · revert hc; decide
    · exact (digit_facts hc).2.2.1 rfl
  · have : 'f' ∈ numbered c%"fqdn-" n := by simp [numbered]
    rcases h : parseV4Strict (numbered c%"fqdn-" n) with _ | x
    · rfl
    · rcases (parseV4Strict_iff.1 h).chars.2 _ this with h | h <;> exact absurd h (by decide)

section
variable [Env]

theorem maskOf_host (H : MaskHosts) (xs : List Secret) (h : Str) : HostName (maskOf xs (.host h)).str :=
  numbered_host H _

theorem Address.WF.masked (H : MaskHosts) (xs : List Secret) (a : Address) : (a.mapSecrets (maskOf xs)).WF := by
  cases a with
  | fqdn h => exact maskOf_host H xs h
  | ip i => trivial

theorem TypedAddress.WF.masked (H : MaskHosts) (xs : List Secret) (a : TypedAddress) : (a.mapSecrets (maskOf xs)).WF := by
  cases a with
  | fqdn t h => exact maskOf_host H xs h
  | ip i => trivial

omit [Env] in
theorem port_masked {xs : List Secret} (h : PortsSuffice xs) {p : UInt32} (hp : Secret.port p ∈ xs) :
    (maskOf xs (.port p)).portNumber.toNat ≤ 65535 := by
  have h1 : rank xs (.port p) ≤ (distinct .port xs).length := rank_le hp
  unfold PortsSuffice at h
  show (UInt32.ofNat _).toNat ≤ _
  rw [UInt32.toNat_ofNat', Nat.mod_eq_of_lt (by omega)]
  omega

/-- The attribute keeps its meaning under a mask. -/
theorem Attribute.WF.masked (H : MaskHosts) {xs : List Secret} (hp : PortsSuffice xs) {a : Attribute} (h : a.WF)
    (hs : a.secrets ⊆ xs) (hf : a.type ≠ .fingerprint) : (a.mapSecrets (maskOf xs)).WF := by
  cases a with
  | candidate c =>
    refine ⟨h.foundation, .masked H _ _, ?_, ?_, ?_, h.ufrag, h.exts⟩
    · exact port_masked hp (hs (by simp [Attribute.secrets, Candidate.secrets]))
    · intro a ha
      obtain ⟨b, -, rfl⟩ := Option.map_eq_some_iff.1 ha
      exact .masked H _ _
    · intro p hp'
      obtain ⟨b, hb, rfl⟩ := Option.map_eq_some_iff.1 hp'
      exact port_masked hp (hs (by simp [Attribute.secrets, Candidate.secrets, hb]))
  | fingerprint f => exact absurd rfl hf
  | icePwd p => exact (numbered_token (pre := c%"ice-password-") (by decide) (by decide) _).trimmed
  | iceUfrag p => exact (numbered_token (pre := c%"ice-user-") (by decide) (by decide) _).trimmed
  | remoteCandidate c =>
    exact ⟨.masked H _ _, port_masked hp (hs (by simp [Attribute.secrets]))⟩
  | ssrc x =>
    obtain ⟨id, attr, value⟩ := x
    cases attr with
    | none => exact ⟨nofun, nofun⟩
    | some n =>
      cases value with
      | none => exact h
      | some v =>
        show Attribute.WF (.ssrc (Ssrc.mapSecrets _ _))
        simp only [Ssrc.mapSecrets]
        split
        · refine ⟨fun a ha => ⟨(h.attr a ha).1, nofun⟩, fun v hv => ⟨nofun, .inr ?_⟩⟩
          cases hv
          exact (numbered_token (pre := c%"cname-") (by decide) (by decide) _).ends
        · exact h
  | _ => exact h

omit [Env] in
theorem numbered_noLineFeed {pre : Str} (h : '\n' ∉ pre) (n : Nat) : '\n' ∉ numbered pre n := by
  intro hc
  rcases numbered_chars hc with hc | hc
  · exact h hc
  · exact (digit_facts hc).2.2.2 rfl

omit [Env] in
theorem address_masked_strings {xs : List Secret} {a : Address} {t : Str}
    (h : t ∈ (a.mapSecrets (maskOf xs)).strings) : '\n' ∉ t := by
  cases a with
  | fqdn d => simp only [Address.mapSecrets, Address.strings, List.mem_singleton] at h; subst h
              exact numbered_noLineFeed (by decide) _
  | ip i => cases h

omit [Env] in
theorem typedAddress_masked_strings {xs : List Secret} {a : TypedAddress} {t : Str}
    (h : t ∈ (a.mapSecrets (maskOf xs)).strings) : '\n' ∉ t := by
  cases a with
  | fqdn k d => simp only [TypedAddress.mapSecrets, TypedAddress.strings, List.mem_singleton] at h; subst h
                exact numbered_noLineFeed (by decide) _
  | ip i => cases h

theorem attribute_masked_strings {xs : List Secret} {a : Attribute} (h : ∀ t ∈ a.strings, '\n' ∉ t) :
    ∀ t ∈ (a.mapSecrets (maskOf xs)).strings, '\n' ∉ t := by
  cases a with
  | candidate c =>
    intro t ht
    simp only [Attribute.mapSecrets, Attribute.strings, Candidate.strings, Candidate.mapSecrets, List.mem_cons,
      List.mem_append, List.mem_flatMap, Option.mem_toList, Option.mem_def, Option.map_eq_some_iff] at ht h
    rcases ht with rfl | ht | ⟨_, ⟨a, ha, rfl⟩, ht⟩ | ht
    · exact h _ (by simp)
    · exact address_masked_strings ht
    · exact address_masked_strings ht
    · exact h _ (.inr (.inr (.inr ht)))
  | icePwd p => intro t ht; simp only [Attribute.mapSecrets, Attribute.strings, List.mem_singleton] at ht; subst ht
                exact numbered_noLineFeed (by decide) _
  | iceUfrag p => intro t ht; simp only [Attribute.mapSecrets, Attribute.strings, List.mem_singleton] at ht; subst ht
                  exact numbered_noLineFeed (by decide) _
  | remoteCandidate c => intro t ht; exact address_masked_strings ht
  | ssrc x =>
    obtain ⟨id, attr, value⟩ := x
    intro t ht
    cases attr with
    | none => simp [Attribute.mapSecrets, Attribute.strings, Ssrc.mapSecrets] at ht
    | some n =>
      cases value with
      | none => exact h t ht
      | some v =>
        simp only [Attribute.mapSecrets, Ssrc.mapSecrets] at ht
        split at ht
        · simp only [Attribute.strings, Option.toList_some, List.mem_append, List.mem_singleton] at ht h
          rcases ht with rfl | rfl
          · exact h _ (by simp)
          · exact numbered_noLineFeed (by decide) _
        · exact h t ht
  | fingerprint f => intro t ht; cases ht
  | _ => exact h

/-- **C86.** The anonymized form of a well-formed attribute other than a fingerprint can be read again,
whatever was masked before, as long as there are at most 65535 different ports. -/
theorem C86_masked_attribute (H : MaskHosts) (cs : List MaskCall) {a : Attribute} (h : a.WF) (hf : a.type ≠ .fingerprint)
    (hp : PortsSuffice (cs.map (·.secret) ++ a.secrets)) {r : Attribute} (hr : r = (a.maskedClone (Anon.after cs)).1) :
    attrFromStr (showAttribute r) = .ok r := by
  have := (masks_attribute a _ _ (knows_after cs)).1 []
  simp only [List.append_nil] at this
  rw [hr, this]
  exact (attr_round (h.masked H hp (by simp) hf)).2

theorem cloneSections_masks (l : List Media) :
    Masks (fun s => cloneSections l s) (l.flatMap fun m => m.attrs.flatMap Attribute.secrets)
      (fun σ => l.map fun m => { m with attrs := m.attrs.map (Attribute.mapSecrets σ) }) := by
  induction l with
  | nil => exact Masks.pure _
  | cons m l ih =>
    rw [List.flatMap_cons]
    exact ((masks_attrs m.attrs).map fun as => ({ m with attrs := as } : Media)).pair List.cons ih

/-- **C86.** Anonymizing the session and then its sections replaces every secret by its mask, the same mask
everywhere, and keeps all else except warnings. -/
theorem C86_anonymize (x : Session) (cs : List MaskCall) :
    x.anonymize (Anon.after cs) =
      (let σ := maskOf (cs.map (·.secret) ++ x.allSecrets)
       { x.mapSecrets σ with
          media := x.media.map fun m => { m with attrs := m.attrs.map (Attribute.mapSecrets σ) }
          warnings := [] }) := by
  obtain ⟨h1, h2⟩ := masks_session x _ _ (knows_after cs)
  have h3 := (cloneSections_masks x.media _ _ h2).1 []
  have h1 := h1 (x.media.flatMap fun m => m.attrs.flatMap Attribute.secrets)
  simp only [List.append_nil, List.append_assoc] at h1 h3
  simp only [Session.anonymize, Session.allSecrets]
  rw [h1, h3]

theorem mapSecrets_type (σ : Secret → Secret) (a : Attribute) : (a.mapSecrets σ).type = a.type := by
  cases a <;> rfl

theorem mapSecrets_other {σ : Secret → Secret} {a b : Attribute} (h : a.mapSecrets σ = b)
    (hb : b.type ∉ [AttributeType.candidate, .fingerprint, .icePwd, .iceUfrag, .remoteCandidate, .ssrc]) : a = b := by
  subst h
  cases a <;> first | rfl | (exfalso; revert hb; simp [Attribute.type, Attribute.mapSecrets])

theorem mem_mapSecrets {σ : Secret → Secret} {l : List Attribute} {b : Attribute}
    (hb : b.type ∉ [AttributeType.candidate, .fingerprint, .icePwd, .iceUfrag, .remoteCandidate, .ssrc]) :
    b ∈ l.map (Attribute.mapSecrets σ) ↔ b ∈ l := by
  constructor
  · intro h
    obtain ⟨a, ha, e⟩ := List.mem_map.1 h
    exact mapSecrets_other e hb ▸ ha
  · intro h
    refine List.mem_map.2 ⟨b, h, ?_⟩
    cases b <;> first | rfl | (exfalso; revert hb; simp [Attribute.type])

theorem ConsistentMedia.masked {m : Media} (σ : Secret → Secret) (h : ConsistentMedia m) :
    ConsistentMedia { m with attrs := m.attrs.map (Attribute.mapSecrets σ) } := by
  have hrid {d : SingleDirection} {id : Str} (k : HasRid m d id) :
      HasRid { m with attrs := m.attrs.map (Attribute.mapSecrets σ) } d id := by
    obtain ⟨r, hr, k⟩ := k
    exact ⟨r, (mem_mapSecrets (by simp [Attribute.type])).2 hr, k⟩
  refine ⟨fun k => ?_, fun r k => ?_, fun sc k => ?_⟩
  · exact (mem_mapSecrets (by decide)).2 (h.mux ((mem_mapSecrets (by decide)).1 k))
  · exact h.ridFormats r ((mem_mapSecrets (by simp [Attribute.type])).1 k)
  · obtain ⟨pre, post, e, hn⟩ := k
    obtain ⟨l1, l2, e1, e2, e3⟩ := List.map_eq_append_iff.1 e
    obtain ⟨a, l3, rfl, e4, -⟩ := List.map_eq_cons_iff.1 e3
    have ha := mapSecrets_other e4 (by simp [Attribute.type])
    subst ha
    have := h.simulcast sc ⟨l1, l3, e1, fun x hx => hn x ?_⟩
    · exact ⟨fun v hv i hi => hrid (this.1 v hv i hi), fun v hv i hi => hrid (this.2 v hv i hi)⟩
    · rw [← e2]; exact (mem_mapSecrets (by simp [Attribute.type])).2 hx

/-- No fingerprint, neither in the session part nor in a section. -/
def Session.NoFingerprint (x : Session) : Prop :=
  (∀ a ∈ x.attrs, a.type ≠ .fingerprint) ∧ ∀ m ∈ x.media, ∀ a ∈ m.attrs, a.type ≠ .fingerprint

theorem anonymize_strings {x : Session} (hl : ∀ t ∈ x.strings, '\n' ∉ t) (xs : List Secret) :
    ∀ t ∈ ({ x.mapSecrets (maskOf xs) with
          media := x.media.map fun m => { m with attrs := m.attrs.map (Attribute.mapSecrets (maskOf xs)) }
          warnings := [] } : Session).strings, '\n' ∉ t := by
  simp only [Session.strings, List.mem_cons, List.mem_append, List.mem_flatMap, Media.strings] at hl
  intro t ht
  simp only [Session.strings, Session.mapSecrets, Origin.mapSecrets, List.mem_cons, List.mem_append, List.mem_flatMap,
    List.mem_map, Media.strings, Option.mem_toList, Option.mem_def, Option.map_eq_some_iff] at ht
  rcases ht with rfl | ht | ht | ht | ⟨_, ⟨c, hc, rfl⟩, ht⟩ | ⟨_, ⟨a, ha, rfl⟩, ht⟩ | ⟨_, ⟨m, hm, rfl⟩, ht⟩
  · exact numbered_noLineFeed (by decide) _
  · exact typedAddress_masked_strings ht
  · exact hl t (by simp [ht])
  · exact hl t (.inr (.inr (.inr (.inl ht))))
  · exact typedAddress_masked_strings ht
  · exact attribute_masked_strings (fun t ht => hl t (.inr (.inr (.inr (.inr (.inr (.inl ⟨a, ha, ht⟩))))))) t ht
  · rcases ht with ht | ht | ht | ⟨_, ha, ht⟩
    · exact hl t (.inr (.inr (.inr (.inr (.inr (.inr ⟨m, hm, .inl ht⟩))))))
    · exact hl t (.inr (.inr (.inr (.inr (.inr (.inr ⟨m, hm, .inr (.inl ht)⟩))))))
    · exact hl t (.inr (.inr (.inr (.inr (.inr (.inr ⟨m, hm, .inr (.inr (.inl (by simpa using ht)))⟩))))))
    · obtain ⟨a, ha', rfl⟩ := List.mem_map.1 ha
      exact attribute_masked_strings (fun t ht => hl t
        (.inr (.inr (.inr (.inr (.inr (.inr ⟨m, hm, .inr (.inr (.inr ⟨a, ha', ht⟩))⟩))))))) t ht

theorem Session.WF.anonymize (H : MaskHosts) (cs : List MaskCall) {x : Session} (h : x.WF) (hf : x.NoFingerprint)
    (hp : PortsSuffice (cs.map (·.secret) ++ x.allSecrets)) : (x.anonymize (Anon.after cs)).WF := by
  rw [C86_anonymize]
  generalize hxs : cs.map (·.secret) ++ x.allSecrets = xs at hp
  have hall : x.allSecrets ⊆ xs := by rw [← hxs]; simp
  have hsa {a : Attribute} (ha : a ∈ x.attrs) : a.secrets ⊆ xs := fun t ht =>
    hall (List.mem_append_left _ (List.mem_append_right _ (List.mem_append_right _ (List.mem_flatMap.2 ⟨a, ha, ht⟩))))
  have hma {m : Media} (hm : m ∈ x.media) {a : Attribute} (ha : a ∈ m.attrs) : a.secrets ⊆ xs := fun t ht =>
    hall (List.mem_append_right _ (List.mem_flatMap.2 ⟨m, hm, List.mem_flatMap.2 ⟨a, ha, ht⟩⟩))
  constructor
  · exact h.version
  · exact ⟨numbered_token (pre := c%"origin-user-") (by decide) (by decide) _, .masked H _ _⟩
  · exact h.name
  · exact h.bandwidth
  · intro c hc
    obtain ⟨d, hd, rfl⟩ := Option.map_eq_some_iff.1 hc
    exact ⟨.masked H _ _, (h.connection d hd).amount⟩
  · intro a ha
    obtain ⟨b, hb, rfl⟩ := List.mem_map.1 ha
    exact (h.attrs b hb).masked H hp (hsa hb) (hf.1 b hb)
  · intro a ha
    obtain ⟨b, hb, rfl⟩ := List.mem_map.1 ha
    rw [mapSecrets_type]; exact h.levels b hb
  · intro m hm
    obtain ⟨n, hn, rfl⟩ := List.mem_map.1 hm
    have k := h.media n hn
    refine ⟨k.media, k.bandwidth, k.connection, fun a ha => ?_, fun a ha => ?_⟩
    · obtain ⟨b, hb, rfl⟩ := List.mem_map.1 ha
      exact (k.attrs b hb).masked H hp (hma hn hb) (hf.2 n hn b hb)
    · obtain ⟨b, hb, rfl⟩ := List.mem_map.1 ha
      rw [mapSecrets_type]; exact k.levels b hb
  · exact anonymize_strings h.lineFeeds _
  · obtain ⟨k1, k2, k3, k4⟩ := h.consistent
    refine ⟨k1, ?_, ?_, ?_⟩
    · rcases k2 with ⟨c, hc⟩ | k2
      · exact .inl ⟨_, by simp [Session.mapSecrets, hc]; rfl⟩
      · refine .inr fun m hm => ?_
        obtain ⟨n, hn, rfl⟩ := List.mem_map.1 hm
        exact k2 n hn
    · rintro ⟨⟨e, he⟩, m, hm, e', he'⟩
      obtain ⟨n, hn, rfl⟩ := List.mem_map.1 hm
      exact k3 ⟨⟨e, (mem_mapSecrets (by simp [Attribute.type])).1 he⟩, n, hn, e', (mem_mapSecrets (by simp [Attribute.type])).1 he'⟩
    · intro m hm
      obtain ⟨n, hn, rfl⟩ := List.mem_map.1 hm
      exact (k4 n hn).masked _

/-- **C86.** An anonymized session without fingerprints is read again as it is: if a well-formed session and
then its sections are cloned with an anonymizer, whatever was masked before, and there are at most
65535 different ports, the text of the result is accepted and denotes the result. -/
theorem C86_anonymized_session (H : MaskHosts) (cs : List MaskCall) {x : Session} (h : x.WF) (hm : x.media ≠ [])
    (hf : x.NoFingerprint) (hp : PortsSuffice (cs.map (·.secret) ++ x.allSecrets)) {r : Session}
    (hr : r = x.anonymize (Anon.after cs)) (f : Bool) : parseSdp (showSession r) f = .ok r := by
  have hw := h.anonymize H cs hf hp
  rw [← hr] at hw
  have hm' : r.media ≠ [] := by rw [hr, C86_anonymize]; simpa using hm
  have hwn : r.warnings = [] := by rw [hr, C86_anonymize]
  rw [session_round hw (hw.length hm') f]
  cases r; cases hwn; rfl

theorem Session.WF.noMedia {x : Session} (h : x.WF) : ({ x with media := [] } : Session).WF := by
  refine ⟨h.version, h.origin, h.name, h.bandwidth, h.connection, h.attrs, h.levels, nofun, fun t ht => ?_, ?_⟩
  · have e : ({ x with media := [] } : Session).strings ⊆ x.strings := by
      intro u hu
      simp only [Session.strings, List.mem_cons, List.mem_append, List.flatMap_nil, List.not_mem_nil, or_false] at hu ⊢
      rcases hu with h | h | h | h | h | h <;> simp [h]
    exact h.lineFeeds t (e ht)
  · exact ⟨h.consistent.timing, .inr nofun, (fun k => by obtain ⟨-, m, hm, -⟩ := k; cases hm), nofun⟩

/-- **C86.** The same for the clone of the session alone, which has no sections. -/
theorem C86_masked_session (H : MaskHosts) (cs : List MaskCall) {x : Session} (h : x.WF)
    (hf : ∀ a ∈ x.attrs, a.type ≠ .fingerprint) (hp : PortsSuffice (cs.map (·.secret) ++ x.secrets)) {r : Session}
    (hr : r = (x.maskedClone (Anon.after cs)).1) (hl : 51 ≤ byteLen (showSession r)) (f : Bool) :
    parseSdp (showSession r) f = .ok r := by
  have h' := h.noMedia
  have e : r = ({ x with media := [] } : Session).anonymize (Anon.after cs) := by
    rw [hr, C86_anonymize, C41_session_clone]
    simp [Session.mapSecrets, Session.allSecrets, Session.secrets]
  have hw := h'.anonymize H cs ⟨hf, nofun⟩ (by simpa [Session.allSecrets, Session.secrets] using hp)
  rw [← e] at hw
  have hwn : r.warnings = [] := by rw [e, C86_anonymize]
  rw [session_round hw hl f]
  cases r; cases hwn; rfl

/-! ## What cannot be read again -/

theorem attrFromStr_show {t : AttributeType} {s : Str} (hf : isFlagName t.name = false) (h : Trimmed s) :
    attrFromStr (attrToString t s) = parseAttrValue t s := by
  have e : attrToString t s = t.name ++ ':' :: s := by
    unfold attrToString
    rw [if_neg (by simpa using h.1.ne)]; simp
  obtain ⟨h1, h2, -, -⟩ := t.name_facts
  rw [e, attrFromStr_colon h1, h2, hf, attrTypeOfName_name, h.trim]
  simp

omit [Env] in
theorem fingerprint_words {ha : HashType} {bs : List UInt8} (hne : bs ≠ []) :
    Token (showHashType ha) ∧ Token (joinS c%":" (bs.map showByteHex)) ∧
      showFingerprint ⟨ha, bs⟩ = showHashType ha ++ ' ' :: joinS c%":" (bs.map showByteHex) := by
  have hne' : bs.map showByteHex ≠ [] := by simpa using hne
  refine ⟨by cases ha <;> exact ⟨by decide, by decide⟩, ⟨?_, ?_⟩, by simp [showFingerprint]⟩
  · rw [ne_eq, joinS_eq_nil (by decide)]
    rintro (h | h)
    · exact hne' h
    · cases bs with
      | nil => exact absurd rfl hne
      | cons b bs => simp [showByteHex] at h
  · intro c hc
    rcases mem_joinS hc with hc | ⟨t, ht, hc⟩
    · simp at hc; subst hc; decide
    · obtain ⟨b, -, rfl⟩ := List.mem_map.1 ht
      exact (showByteHex_facts b).2.1.2 c hc

omit [Env] in
theorem fingerprint_trimmed {ha : HashType} {bs : List UInt8} (hne : bs ≠ []) :
    Trimmed (showFingerprint ⟨ha, bs⟩) := by
  obtain ⟨h1, h2, e⟩ := fingerprint_words (ha := ha) hne
  rw [e]; exact ⟨h1.begins.append, h2.ends.cons.append⟩

theorem trimmed_attrToString {t : AttributeType} {s : Str} (h : Trimmed s) : Trimmed (attrToString t s) := by
  have e : attrToString t s = t.name ++ ':' :: s := by
    unfold attrToString
    rw [if_neg (by simpa using h.1.ne)]; simp
  rw [e]
  exact ⟨t.name_facts.2.2.1.append, h.2.cons.append⟩

/-- A fingerprint with another number of bytes than its hash has is an error. -/
theorem fingerprint_wrong {ha : HashType} {bs : List UInt8} (hne : bs ≠ []) (hl : bs.length ≠ fingerprintBytes ha) :
    ∃ m, attrFromStr (showAttribute (.fingerprint ⟨ha, bs⟩)) = .err (.generic m) := by
  have hne' : bs.map showByteHex ≠ [] := by simpa using hne
  obtain ⟨hh, htk, e⟩ := fingerprint_words (ha := ha) hne
  have hs : showAttribute (.fingerprint ⟨ha, bs⟩) = attrToString .fingerprint (showFingerprint ⟨ha, bs⟩) := rfl
  rw [hs, attrFromStr_show rfl (fingerprint_trimmed hne), e]
  have hp : parseHashType (showHashType ha) = .ok ha := by cases ha <;> rfl
  have hoc : octetCount ha = fingerprintBytes ha := by cases ha <;> rfl
  have ho : parseOctets ha (joinS c%":" (bs.map showByteHex)) = if bs.length ≠ octetCount ha then
      egeneric (c%"fingerprint has " ++ showNat bs.length ++ c%" bytes but should have " ++ showNat (octetCount ha) ++
        c%" bytes") else .ok bs := by
    unfold parseOctets
    rw [splitC_joinS hne' (by intro t ht; obtain ⟨b, -, rfl⟩ := List.mem_map.1 ht; exact (showByteHex_facts b).2.2),
      collect_map_id (by intro b _; simp [parseOctet, (showByteHex_facts b).1, parseHexU8_show])]
    rfl
  rw [if_pos (by rw [hoc]; exact hl)] at ho
  show ∃ m, parseFingerprint _ = _
  unfold parseFingerprint
  rw [splitWs_space hh.noWs hh.ne, splitWs_single htk.noWs htk.ne]
  exact ⟨_, by simp [idx, hp, ho, egeneric]; rfl⟩

theorem maskedFingerprint_wrong (xs : List Secret) (f : Fingerprint) :
    Trimmed (showAttribute ((Attribute.fingerprint f).mapSecrets (maskOf xs))) ∧
      ∃ m, attrFromStr (showAttribute ((Attribute.fingerprint f).mapSecrets (maskOf xs))) = .err (.generic m) := by
  refine ⟨trimmed_attrToString (fingerprint_trimmed (bs := [_, _, _, _, _, _, _, _]) (by simp)), ?_⟩
  exact fingerprint_wrong (bs := [_, _, _, _, _, _, _, _]) (by simp) (by cases f.hashAlgorithm <;> simp [fingerprintBytes])

/-- **C86.** An anonymized fingerprint cannot be read again, whatever the hash, the bytes and the calls
before: it always is an error of its line. -/
theorem C86_masked_fingerprint (cs : List MaskCall) (f : Fingerprint) :
    ∃ m, attrFromStr (showAttribute ((Attribute.fingerprint f).maskedClone (Anon.after cs)).1) = .err (.generic m) := by
  have := (masks_attribute (.fingerprint f) _ _ (knows_after cs)).1 []
  simp only [List.append_nil] at this
  rw [this]
  exact (maskedFingerprint_wrong _ f).2

/-- The a= line of an attribute with a wrong value. -/
theorem attrLine_wrong {a : Attribute} {m : Str} (ht : Trimmed (showAttribute a))
    (h : attrFromStr (showAttribute a) = .err (.generic m)) (n : Nat) :
    parseSdpLine (c%"a=" ++ showAttribute a) n = .err (.line (.generic m) (c%"a=" ++ showAttribute a) n) := by
  have := parseSdpLine_letter (x := 'a') (by decide) (v := showAttribute a) (.inl (by rw [ht.trim]; exact ht.1.ne)) n
  show parseSdpLine ('a' :: '=' :: showAttribute a) n = _
  rw [this, ht.trim]
  have e : parseLineValue ['a'] (showAttribute a) (showAttribute a) = .err (.generic m) := by
    show parseAttribute (showAttribute a) = _
    unfold parseAttribute
    rw [ht.trim, h]; rfl
  rw [e]
  simp [classifyErr]

/-- A line that is in error is in the way. -/
theorem line_wrong {s l : Str} (hl : l ∈ lines s) (hb : ¬ Blank l) {m : Str}
    (he : ∀ n, parseSdpLine l n = .err (.line (.generic m) l n)) (f : Bool) (r : Session) : parseSdp s f ≠ .ok r := by
  intro h
  obtain ⟨k, hk, e⟩ := List.getElem_of_mem hl
  have hc : (l, k) ∈ contentLines s := by
    refine List.mem_filter.2 ⟨?_, by simpa using hb⟩
    rw [List.mem_zipIdx_iff_getElem?]
    simp [hk, e]
  have hh := (parseSdp_ok.1 h).2.2.2.1
  have : ParserError.line (.generic m) l k ∈ hardErrors (contentLines s) := by
    refine List.mem_filterMap.2 ⟨_, hc, ?_⟩
    simp only [he k]
  rw [hh] at this
  cases this

/-- The lines of a session whose attributes have texts without white space around them. -/
theorem lines_of_trimmed {s : Session} (ho : s.origin.WF) (hn : ∀ t, s.session = some t → Trimmed t)
    (hb : ∀ b ∈ s.bandwidth, b.WF) (hc : ∀ c, s.connection = some c → c.WF)
    (ha : ∀ a ∈ s.attrs, Trimmed (showAttribute a))
    (hm : ∀ m ∈ s.media, m.media.WF ∧ (∀ b ∈ m.bandwidth, b.WF) ∧ (∀ c, m.connection = some c → c.WF) ∧
      ∀ a ∈ m.attrs, Trimmed (showAttribute a)) (hl : ∀ t ∈ s.strings, '\n' ∉ t) :
    lines (showSession s) = s.lines := by
  rw [showSession_lines]
  refine lines_crlf fun l hl' => ⟨Free.sessionLines (.inl rfl) hl l hl', ?_⟩
  simp only [Session.lines, List.mem_append, List.mem_cons, List.not_mem_nil, or_false] at hl'
  rcases hl' with (rfl | rfl | rfl) | hl' | hl' | hl'
  · exact Trimmed.noCr (Token.u64 _).ends _
  · exact Trimmed.noCr (LinePrints.origin ho).1.2 _
  · cases h : s.session with
    | none => simp
    | some t => exact Trimmed.noCr (hn t h).2 _
  · obtain ⟨t, -, rfl⟩ := List.mem_map.1 hl'
    exact Trimmed.noCr (LinePrints.timing t).1.2 _
  · exact bodyLines_ends' hb hc ha l hl'
  · obtain ⟨m, hm', hl'⟩ := List.mem_flatMap.1 hl'
    obtain ⟨h1, h2, h3, h4⟩ := hm m hm'
    rcases List.mem_cons.1 hl' with rfl | hl'
    · exact Trimmed.noCr (LinePrints.media h1).1.2 _
    · exact bodyLines_ends' h2 h3 h4 l hl'

theorem mem_bodyLines {bs : List Bandwidth} {c : Option Connection} {as : List Attribute}
    (ha : ∀ a ∈ as, Trimmed (showAttribute a)) {a : Attribute} (h : a ∈ as) :
    c%"a=" ++ showAttribute a ∈ bodyLines bs c as := by
  unfold bodyLines
  rw [textLines_eq (ts := as.map showAttribute)]
  · simp only [List.mem_append, List.mem_map]
    exact .inr (.inr ⟨_, ⟨a, h, rfl⟩, rfl⟩)
  · intro t ht
    obtain ⟨a, h, rfl⟩ := List.mem_map.1 ht
    exact (ha a h).1.ne

/-- **C86.** With a fingerprint it is never read again: under the other conditions, the text of the anonymized
session is accepted exactly if the session has no fingerprint. -/
theorem C86_anonymized_iff (H : MaskHosts) (cs : List MaskCall) {x : Session} (h : x.WF) (hm : x.media ≠ [])
    (hp : PortsSuffice (cs.map (·.secret) ++ x.allSecrets)) {r : Session}
    (hr : r = x.anonymize (Anon.after cs)) (f : Bool) :
    (∃ r', parseSdp (showSession r) f = .ok r') ↔ x.NoFingerprint := by
  refine ⟨fun ⟨r', he⟩ => ?_, fun hf => ⟨r, C86_anonymized_session H cs h hm hf hp hr f⟩⟩
  by_contra hf
  rw [C86_anonymize] at hr
  generalize hxs : cs.map (·.secret) ++ x.allSecrets = xs at hp hr
  have hall : x.allSecrets ⊆ xs := by rw [← hxs]; simp
  have htr {a : Attribute} (hw : a.WF) (hs : a.secrets ⊆ xs) : Trimmed (showAttribute (a.mapSecrets (maskOf xs))) := by
    by_cases ha : a.type = .fingerprint
    · cases a <;> simp only [Attribute.type] at ha <;> first | cases ha | skip
      exact (maskedFingerprint_wrong xs _).1
    · exact (attr_round (hw.masked H hp hs ha)).1
  have hsa {a : Attribute} (ha : a ∈ x.attrs) : a.secrets ⊆ xs := fun t ht =>
    hall (List.mem_append_left _ (List.mem_append_right _ (List.mem_append_right _ (List.mem_flatMap.2 ⟨a, ha, ht⟩))))
  have hma {m : Media} (hm : m ∈ x.media) {a : Attribute} (ha : a ∈ m.attrs) : a.secrets ⊆ xs := fun t ht =>
    hall (List.mem_append_right _ (List.mem_flatMap.2 ⟨m, hm, List.mem_flatMap.2 ⟨a, ha, ht⟩⟩))
  have hsp {a : Attribute} (ha : a ∈ x.attrs) := htr (h.attrs a ha) (hsa ha)
  have hmp {m : Media} (hm : m ∈ x.media) {a : Attribute} (ha : a ∈ m.attrs) := htr ((h.media m hm).attrs a ha) (hma hm ha)
  have hlines : lines (showSession r) = r.lines := by
    rw [hr]
    refine lines_of_trimmed ⟨numbered_token (pre := c%"origin-user-") (by decide) (by decide) _, .masked H _ _⟩
      h.name h.bandwidth ?_ ?_ ?_ (anonymize_strings h.lineFeeds _)
    · intro c hc
      obtain ⟨d, hd, rfl⟩ := Option.map_eq_some_iff.1 hc
      exact ⟨.masked H _ _, (h.connection d hd).amount⟩
    · intro a ha
      obtain ⟨b, hb, rfl⟩ := List.mem_map.1 ha
      exact hsp hb
    · intro m hm
      obtain ⟨n, hn, rfl⟩ := List.mem_map.1 hm
      have k := h.media n hn
      refine ⟨k.media, k.bandwidth, k.connection, fun a ha => ?_⟩
      obtain ⟨b, hb, rfl⟩ := List.mem_map.1 ha
      exact hmp hn hb
  have key {f : Fingerprint} (hl : c%"a=" ++ showAttribute ((Attribute.fingerprint f).mapSecrets (maskOf xs)) ∈ r.lines) : False := by
    obtain ⟨h1, m, h2⟩ := maskedFingerprint_wrong xs f
    refine line_wrong (hlines ▸ hl) ?_ (fun n => attrLine_wrong h1 h2 n) _ _ he
    intro hb
    have := hb 'a' (by simp)
    revert this; decide
  have hcase {a : Attribute} (ht : a.type = .fingerprint) : ∃ f, a = .fingerprint f := by
    cases a <;> simp only [Attribute.type] at ht <;> first | exact ⟨_, rfl⟩ | cases ht
  refine hf ⟨fun a ha ht => ?_, fun m hm a ha ht => ?_⟩
  · obtain ⟨g, rfl⟩ := hcase ht
    refine key (f := g) ?_
    rw [hr]
    refine List.mem_append_right _ (List.mem_append_right _ (List.mem_append_left _ (mem_bodyLines ?_ ?_)))
    · intro a ha
      obtain ⟨b, hb, rfl⟩ := List.mem_map.1 ha
      exact hsp hb
    · exact List.mem_map.2 ⟨_, ha, rfl⟩
  · obtain ⟨g, rfl⟩ := hcase ht
    refine key (f := g) ?_
    rw [hr]
    refine List.mem_append_right _ (List.mem_append_right _ (List.mem_append_right _
      (List.mem_flatMap.2 ⟨_, List.mem_map.2 ⟨m, hm, rfl⟩, List.mem_cons_of_mem _ (mem_bodyLines ?_ ?_)⟩)))
    · intro a ha
      obtain ⟨b, hb, rfl⟩ := List.mem_map.1 ha
      exact hmp hm hb
    · exact List.mem_map.2 ⟨_, ha, rfl⟩

omit [Env] in
theorem pairTokens_inj {a b : List (Str × Str)} (h : pairTokens a = pairTokens b) : a = b := by
  induction a generalizing b with
  | nil => cases b with
    | nil => rfl
    | cons p b => simp [pairTokens] at h
  | cons p a ih => cases b with
    | nil => simp [pairTokens] at h
    | cons q b =>
      simp only [pairTokens, List.flatMap_cons, List.cons_append, List.nil_append, List.cons.injEq] at h
      rw [ih h.2.2, Prod.ext h.1 h.2.1]

theorem isCandidate_show {r : Candidate} {ts : List Str} (h : splitWs (showCandidate r) = ts) (hne : ts ≠ []) :
    IsCandidate (showAttribute (.candidate r)) ts := by
  have hne : showCandidate r ≠ [] := by
    intro hc; rw [hc, splitWs_nil] at h; exact hne h.symm
  refine ⟨c%"candidate", showCandidate r, ?_, by decide, rfl, h⟩
  show attrToString .candidate _ = _
  unfold attrToString
  rw [if_neg (by simpa using hne)]
  simp [AttributeType.name]

/-- If the texts are right, a candidate can be read exactly if its ports are small enough. -/
theorem candidate_ports {r : Candidate} (hfo : Token r.foundation) (had : r.address.WF)
    (hrd : ∀ a, r.raddr = some a → a.WF) (huf : ∀ u, r.ufrag = some u → Token u)
    (hex : ∀ p ∈ r.unknownExtensions, Token p.1 ∧ Token p.2 ∧ lower p.1 ∉ candExtNames) :
    (∃ b, attrFromStr (showAttribute (.candidate r)) = .ok b) ↔
      r.port.toNat ≤ 65535 ∧ ∀ p, r.rport = some p → p.toNat ≤ 65535 := by
  constructor
  · intro hb
    have ht := splitWs_candidate hfo had.token (extsOf_tokens hrd huf fun p hp => ⟨(hex p hp).1, (hex p hp).2.1⟩)
    obtain ⟨⟨d, hd⟩, ps, hps, hleg⟩ := (C49_accepts (isCandidate_show ht (by simp))).1 hb
    have hps' := pairTokens_inj hps
    subst hps'
    obtain ⟨-, -, -, -, -, hd1, hd2, -⟩ := hd
    refine ⟨?_, fun p hp => ?_⟩
    · have := (DecText.show r.port.toNat).unique hd1
      rw [this]; exact hd2
    · have hmem : (c%"rport", showU32 p) ∈ extsOf r := by
        unfold extsOf
        rw [hp]
        simp
      have hl : lower c%"rport" = CandExt.rport.text := rfl
      obtain ⟨n, hn, hd⟩ := hleg _ hmem .rport hl
      have := (DecText.show p.toNat).unique hd
      rw [this]; exact hn
  · rintro ⟨h1, h2⟩
    exact ⟨_, (attr_round (a := .candidate r) (⟨hfo, had, h1, hrd, h2, huf, hex⟩ : r.WF)).2⟩

/-- **C86.** A masked candidate can be read again exactly if its ports are small enough. -/
theorem C86_masked_candidate (H : MaskHosts) (cs : List MaskCall) {c r : Candidate} (h : c.WF)
    (hr : r = (c.maskedClone (Anon.after cs)).1) :
    (∃ b, attrFromStr (showAttribute (.candidate r)) = .ok b) ↔
      r.port.toNat ≤ 65535 ∧ ∀ p, r.rport = some p → p.toNat ≤ 65535 := by
  have := (masks_candidate c _ _ (knows_after cs)).1 []
  simp only [List.append_nil] at this
  rw [← hr] at this
  generalize cs.map (·.secret) ++ c.secrets = xs at this
  subst this
  refine candidate_ports h.foundation (.masked H _ _) (fun a ha => ?_) h.ufrag h.exts
  obtain ⟨b, -, rfl⟩ := Option.map_eq_some_iff.1 ha
  exact .masked H _ _

/-- **C86.** So the 65536th different port is one too many: then no candidate with a port that was not masked
before can be read again. -/
theorem C86_too_many_ports (H : MaskHosts) (cs : List MaskCall) {c : Candidate} (h : c.WF)
    (hn : Secret.port c.port ∉ cs.map (·.secret)) (hl : 65535 ≤ (distinct .port (cs.map (·.secret))).length)
    (hu : (distinct .port (cs.map (·.secret))).length + 1 < 2 ^ 32) :
    ∀ b, attrFromStr (showAttribute ((Attribute.candidate c).maskedClone (Anon.after cs)).1) ≠ .ok b := by
  intro b hb
  have h1 := ((C86_masked_candidate H cs h rfl).1 ⟨b, hb⟩).1
  have := (masks_candidate c _ _ (knows_after cs)).1 []
  simp only [List.append_nil] at this
  rw [this] at h1
  change (UInt32.ofNat (rank _ (Secret.port c.port))).toNat ≤ _ at h1
  have e : rank (cs.map (·.secret) ++ c.secrets) (.port c.port) = (distinct .port (cs.map (·.secret))).length + 1 := by
    have hx : ∀ xs ys : List Secret, Secret.port c.port ∈ xs → rank (xs ++ ys) (.port c.port) = rank xs (.port c.port) := by
      intro xs ys
      induction ys generalizing xs with
      | nil => simp
      | cons y ys ih =>
        intro hm
        rw [show xs ++ y :: ys = (xs ++ [y]) ++ ys by simp, ih _ (by simp [hm]), rank_append hm]
    have hs : c.secrets = c.address.secrets ++ ([.port c.port] ++ ((c.raddr.map Address.secrets).getD [] ++
      (c.rport.map fun p => [Secret.port p]).getD [])) := rfl
    obtain ⟨a, ha⟩ : ∃ a : Secret, c.address.secrets = [a] ∧ a.kind ≠ .port := by
      cases c.address with
      | fqdn d => exact ⟨_, rfl, by simp [Secret.kind]⟩
      | ip i => exact ⟨_, rfl, by cases i <;> simp [Secret.kind]⟩
    rw [hs, ha.1, ← List.append_assoc, ← List.append_assoc, hx _ _ (by simp), rank_new]
    · show (distinct .port _).length + 1 = _
      rw [distinct_append, if_neg (fun k => ha.2 k.1), List.append_nil]
    · intro hm
      rcases List.mem_append.1 hm with hm | hm
      · exact hn hm
      · simp at hm; rw [← hm] at ha; exact ha.2 rfl
  rw [e, UInt32.toNat_ofNat', Nat.mod_eq_of_lt hu] at h1
  omega

end

section
attribute [local instance] sampleEnv

/-- The host parser of the examples meets the condition. -/
theorem sampleEnv_maskHosts : MaskHosts := by
  intro n
  have ht : Token (numbered c%"fqdn-" n) := numbered_token (by decide) (by decide) n
  have hv : parseV4Strict (numbered c%"fqdn-" n) = none := by
    have : 'f' ∈ numbered c%"fqdn-" n := by simp [numbered]
    rcases h : parseV4Strict (numbered c%"fqdn-" n) with _ | x
    · rfl
    · rcases (parseV4Strict_iff.1 h).chars.2 _ this with h | h <;> exact absurd h (by decide)
  have h1 : (numbered c%"fqdn-" n).all (fun c => !isWs c && c != ':' && c != '/') = true := by
    rw [List.all_eq_true]
    intro c hc
    rcases numbered_chars hc with h | h
    · clear hc; revert c; decide
    · have := digit_facts h
      simp [this]
  show (if (numbered c%"fqdn-" n).isEmpty then _ else if _ then _ else _) = _
  rw [if_neg (by simpa using ht.1), h1, hv]
  rfl

/-- A candidate with a host name, whose base has the same port. -/
def maskedSample : Candidate :=
  { foundation := c%"0", component := 1, transport := .udp, priority := 2122252543, address := .fqdn c%"secret.example",
    port := 49203, cType := .srflx, raddr := some (.ip (.v4 0x0a000001)), rport := some 49203, tcpType := none,
    generation := some 0, ufrag := some c%"xyz", networkcost := none, unknownExtensions := [(c%"foo", c%"bar")] }

theorem maskedSample_wf : maskedSample.WF where
  foundation := ⟨by decide, by decide⟩
  address := ⟨⟨by decide, by decide⟩, by decide, by decide, by decide +kernel, by decide +kernel⟩
  port := by decide
  raddr := by rintro _ ⟨⟩; trivial
  rport := by rintro _ ⟨⟩; decide
  ufrag := by rintro _ ⟨⟩; exact ⟨by decide, by decide⟩
  exts := by
    intro p hp
    simp only [maskedSample, List.mem_singleton] at hp
    subst hp
    exact ⟨⟨by decide, by decide⟩, ⟨by decide, by decide⟩, by decide +kernel⟩

/-- The hypotheses of `C86_masked_attribute` and `C86_masked_candidate` are met after other calls. -/
example : (Attribute.candidate maskedSample).WF ∧ (Attribute.candidate maskedSample).type ≠ .fingerprint ∧
    PortsSuffice ([MaskCall.port 1, .cname c%"x", .port 2].map (·.secret) ++ (Attribute.candidate maskedSample).secrets) :=
  ⟨maskedSample_wf, by decide, by unfold PortsSuffice; decide +kernel⟩

/-- What comes out. -/
example : showAttribute ((Attribute.candidate maskedSample).maskedClone (Anon.after [.port 1, .cname c%"x", .port 2])).1 =
    c%"candidate:0 1 UDP 2122252543 fqdn-00000001 3 typ srflx raddr 0.0.0.1 rport 3 generation 0 ufrag xyz foo bar" := by
  decide +kernel

/-- The hypotheses of the session theorems are met. -/
example : sampleSession.WF ∧ sampleSession.media ≠ [] ∧ sampleSession.NoFingerprint ∧
    PortsSuffice ([MaskCall.port 1].map (·.secret) ++ sampleSession.allSecrets) :=
  ⟨sampleSession_wf, by decide, ⟨by decide, by decide⟩, by unfold PortsSuffice; decide +kernel⟩

/-- The hypotheses of `C86_too_many_ports` are met after masking the ports 50000, 50001, ..., 115534. -/
example : let cs := (List.range 65535).map fun n => MaskCall.port (UInt32.ofNat (n + 50000))
    Secret.port maskedSample.port ∉ cs.map (·.secret) ∧ (distinct .port (cs.map (·.secret))).length = 65535 := by
  intro cs
  have e : cs.map (·.secret) = (List.range 65535).map fun n => Secret.port (UInt32.ofNat (n + 50000)) := by
    simp [cs, Function.comp_def, MaskCall.secret]
  have hnat {n : Nat} (h : n < 65535) : (UInt32.ofNat (n + 50000)).toNat = n + 50000 := by
    rw [UInt32.toNat_ofNat', Nat.mod_eq_of_lt (by omega)]
  rw [e]
  refine ⟨fun h => ?_, ?_⟩
  · obtain ⟨n, hn, h⟩ := List.mem_map.1 h
    have := congrArg UInt32.toNat (Secret.port.inj h)
    rw [hnat (List.mem_range.1 hn)] at this
    have h2 : maskedSample.port.toNat = 49203 := rfl
    omega
  · have hnd : ((List.range 65535).map fun n => Secret.port (UInt32.ofNat (n + 50000))).Nodup := by
      refine (List.nodup_map_iff_inj_on List.nodup_range).2 fun a ha b hb h => ?_
      have := congrArg UInt32.toNat (Secret.port.inj h)
      rw [hnat (List.mem_range.1 ha), hnat (List.mem_range.1 hb)] at this
      omega
    have hp := (List.perm_ext_iff_of_nodup (nodup_eraseDups _) hnd).2 fun x => (mem_distinct (k := .port)).trans
      (and_iff_left_of_imp fun h => by obtain ⟨n, -, rfl⟩ := List.mem_map.1 h; rfl)
    simpa [distinct] using hp.length_eq

end

end Sdp
