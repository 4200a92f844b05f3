import Verif.Lemmas.IpGrammar
import Verif.Spec.Sample
/-!
# C56–C62: the syntax of attributes, exactly

For every attribute, which texts are accepted and what they mean: a text is parsed to a value if and
only if the grammar of Spec/Grammar.lean relates the two. All theorems are equivalences for every
text and every value, so they also say what is rejected.
-/

namespace Sdp

section
variable [Env]

/-! ## Keywords -/

theorem parseSetup_iff {v : Str} {x : Setup} : parseSetup v = .ok (.setup x) ↔ lower v = setupText x := by
  constructor
  · intro h
    unfold parseSetup at h
    simp only [] at h
    iterate 4
      rcases ite_cases h with ⟨e, h⟩ | ⟨-, h⟩
      · cases h; exact e
    simp at h
  · intro h; cases x <;> simp [parseSetup, h, setupText]

theorem parseSsrcGroupSemantic_iff {v : Str} {x : SsrcGroupSemantic} :
    parseSsrcGroupSemantic v = .ok x ↔ upper v = ssrcGroupText x := by
  constructor
  · intro h
    unfold parseSsrcGroupSemantic at h
    simp only [] at h
    iterate 5
      rcases ite_cases h with ⟨e, h⟩ | ⟨-, h⟩
      · cases h; exact e
    simp at h
  · intro h; cases x <;> simp [parseSsrcGroupSemantic, h, ssrcGroupText]

theorem parseGroupSemantic_iff {v : Str} {x : GroupSemantic} :
    parseGroupSemantic v = .ok x ↔ upper v = groupText x := by
  constructor
  · intro h
    unfold parseGroupSemantic at h
    simp only [] at h
    iterate 7
      rcases ite_cases h with ⟨e, h⟩ | ⟨-, h⟩
      · cases h; exact e
    simp at h
  · intro h; cases x <;> simp [parseGroupSemantic, h, groupText]

theorem parseExtmapDirection_iff {v : Str} {x : Direction} :
    parseExtmapDirection v = .ok x ↔ lower v = directionText x := by
  constructor
  · intro h
    unfold parseExtmapDirection at h
    simp only [] at h
    iterate 3
      rcases ite_cases h with ⟨e, h⟩ | ⟨-, h⟩
      · cases h; exact e
    simp at h
  · intro h; cases x <;> simp [parseExtmapDirection, h, directionText]

omit [Env] in
theorem parseSingleDirection_iff {v : Str} {x : SingleDirection} :
    parseSingleDirection v = .ok x ↔ v = singleDirectionText x := by
  constructor
  · intro h
    unfold parseSingleDirection at h
    iterate 2
      rcases ite_cases h with ⟨e, h⟩ | ⟨-, h⟩
      · cases h; exact e
    simp at h
  · rintro rfl; cases x <;> rfl

omit [Env] in
theorem parseHashType_iff {v : Str} {x : HashType} : parseHashType v = .ok x ↔ v = hashText x := by
  constructor
  · intro h
    unfold parseHashType at h
    iterate 5
      rcases ite_cases h with ⟨e, h⟩ | ⟨-, h⟩
      · cases h; exact e
    simp at h
  · rintro rfl; cases x <;> rfl

theorem parseFbType_iff {t : Option Str} {x : RtcpFbType} : parseFbType t = .ok x ↔ t = some (fbText x) := by
  constructor
  · intro h
    cases t with
    | none => simp [parseFbType] at h
    | some v =>
      unfold parseFbType at h
      simp only [] at h
      iterate 6
        rcases ite_cases h with ⟨e, h⟩ | ⟨-, h⟩
        · cases h; exact congrArg some e
      simp at h
  · rintro rfl; cases x <;> rfl

theorem parseAddrType_iff {v : Str} {x : AddressType} : parseAddrType v = .ok x ↔ upper v = addrTypeText x := by
  constructor
  · intro h
    unfold parseAddrType at h
    simp only [] at h
    iterate 2
      rcases ite_cases h with ⟨e, h⟩ | ⟨-, h⟩
      · cases h; exact e
    simp at h
  · intro h; cases x <;> simp [parseAddrType, h, addrTypeText]

theorem parseNetworkType_iff {v : Str} {u : Unit} : parseNetworkType v = .ok u ↔ upper v = c%"IN" := by
  unfold parseNetworkType
  by_cases h : upper v = c%"IN"
  · rw [if_neg (by simp [h])]; simp [h]
  · rw [if_pos h]; simp [h]

omit [Env] in
theorem parsePayloadType_iff {v : Str} {x : PayloadType} : parsePayloadType v = .ok x ↔ PayloadTypeText v x := by
  unfold parsePayloadType
  by_cases h : v = c%"*"
  · subst h
    rw [if_pos rfl]
    cases x with
    | wildcard => simp [PayloadTypeText]
    | pt n =>
      simp only [PayloadTypeText, ← parseU8_ok]
      exact ⟨nofun, nofun⟩
  · rw [if_neg h]
    simp only [bind_eq_ok, pure_eq_ok, parseU8_ok]
    cases x with
    | wildcard => simp [PayloadTypeText, h]
    | pt n => simp [PayloadTypeText]

/-! ## C56 -/

omit [Env] in
theorem string_iff {v s : Str} {f : Str → Attribute} (hf : ∀ a b, f a = f b → a = b) :
    (do return f (← stringOrEmpty v) : IRes Attribute) = .ok (f s) ↔ v = s ∧ s ≠ [] := by
  simp only [bind_eq_ok, pure_eq_ok]
  constructor
  · rintro ⟨a, ha, h⟩
    have := hf _ _ (Outcome.ok.inj h); subst this
    unfold stringOrEmpty at ha
    rcases ite_cases ha with ⟨-, h⟩ | ⟨h1, h⟩
    · simp at h
    · cases h; exact ⟨rfl, by simpa using h1⟩
  · rintro ⟨rfl, h⟩; exact ⟨v, by simp [stringOrEmpty, h], rfl⟩

omit [Env] in
theorem number_iff {v : Str} {n : UInt64} {f : UInt64 → Attribute} (hf : ∀ a b, f a = f b → a = b) :
    (do return f (← parseU64 v) : IRes Attribute) = .ok (f n) ↔ DecText v n.toNat := by
  simp only [bind_eq_ok, pure_eq_ok]
  constructor
  · rintro ⟨a, ha, h⟩
    have := hf _ _ (Outcome.ok.inj h); subst this
    exact parseU64_ok.1 ha
  · intro h; exact ⟨n, parseU64_ok.2 h, rfl⟩

/-- **C56.** The attributes that are a text: the value without the white space around it, if there
is any. -/
theorem C56_texts {l s : Str} :
    (attrFromStr l = .ok (.icePwd s) ↔ AttrText l c%"ice-pwd" s ∧ s ≠ []) ∧
    (attrFromStr l = .ok (.iceUfrag s) ↔ AttrText l c%"ice-ufrag" s ∧ s ≠ []) ∧
    (attrFromStr l = .ok (.identity s) ↔ AttrText l c%"identity" s ∧ s ≠ []) ∧
    (attrFromStr l = .ok (.label s) ↔ AttrText l c%"label" s ∧ s ≠ []) ∧
    (attrFromStr l = .ok (.mid s) ↔ AttrText l c%"mid" s ∧ s ≠ []) := by
  have key {t : AttributeType} {f : Str → Attribute} (hf : ∀ a b, f a = f b → a = b)
      (hfl : isFlagName t.name = false) (ht : (f s).type = t)
      (hp : ∀ v, parseAttrValue t v = (do return f (← stringOrEmpty v))) :
      attrFromStr l = .ok (f s) ↔ AttrText l t.name s ∧ s ≠ [] := by
    rw [attr_iff hfl ht]
    simp only [hp, string_iff hf]
    constructor
    · rintro ⟨v, h1, rfl, h2⟩; exact ⟨h1, h2⟩
    · rintro ⟨h1, h2⟩; exact ⟨s, h1, rfl, h2⟩
  exact ⟨key (f := .icePwd) (by simp) rfl rfl (fun _ => rfl), key (f := .iceUfrag) (by simp) rfl rfl (fun _ => rfl),
    key (f := .identity) (by simp) rfl rfl (fun _ => rfl), key (f := .label) (by simp) rfl rfl (fun _ => rfl),
    key (f := .mid) (by simp) rfl rfl (fun _ => rfl)⟩

/-- **C56.** The attributes that are a number. -/
theorem C56_numbers {l : Str} {n : UInt64} :
    (attrFromStr l = .ok (.maxMessageSize n) ↔ ∃ v, AttrText l c%"max-message-size" v ∧ DecText v n.toNat) ∧
    (attrFromStr l = .ok (.maxPtime n) ↔ ∃ v, AttrText l c%"maxptime" v ∧ DecText v n.toNat) ∧
    (attrFromStr l = .ok (.ptime n) ↔ ∃ v, AttrText l c%"ptime" v ∧ DecText v n.toNat) ∧
    (attrFromStr l = .ok (.icePacing n) ↔
      ∃ v, AttrText l c%"ice-pacing" v ∧ DecText v n.toNat ∧ n.toNat < 10 ^ 10) ∧
    (attrFromStr l = .ok (.sctpPort n) ↔
      ∃ v, AttrText l c%"sctp-port" v ∧ DecText v n.toNat ∧ n.toNat ≤ 65535) := by
  refine ⟨?_, ?_, ?_, ?_, ?_⟩
  · rw [attr_iff (t := .maxMessageSize) rfl rfl]
    exact exists_congr fun v => and_congr Iff.rfl (number_iff (f := .maxMessageSize) (by simp))
  · rw [attr_iff (t := .maxPtime) rfl rfl]
    exact exists_congr fun v => and_congr Iff.rfl (number_iff (f := .maxPtime) (by simp))
  · rw [attr_iff (t := .ptime) rfl rfl]
    exact exists_congr fun v => and_congr Iff.rfl (number_iff (f := .ptime) (by simp))
  · rw [attr_iff (t := .icePacing) rfl rfl]
    refine exists_congr fun v => and_congr Iff.rfl ?_
    show parseIcePacing v = _ ↔ _
    unfold parseIcePacing
    simp only [bind_eq_ok, parseU64_ok]
    constructor
    · rintro ⟨x, hx, h⟩
      rcases ite_cases h with ⟨-, h⟩ | ⟨h1, h⟩
      · simp at h
      · simp at h; subst h
        refine ⟨hx, ?_⟩
        rw [ge_iff_le, UInt64.le_iff_toNat_le] at h1
        simpa using h1
    · rintro ⟨h1, h2⟩
      refine ⟨n, h1, ?_⟩
      rw [if_neg]
      · rfl
      · rw [ge_iff_le, UInt64.le_iff_toNat_le]; simpa using h2
  · rw [attr_iff (t := .sctpPort) rfl rfl]
    refine exists_congr fun v => and_congr Iff.rfl ?_
    show parseSctpPort v = _ ↔ _
    unfold parseSctpPort
    simp only [bind_eq_ok, parseU64_ok]
    constructor
    · rintro ⟨x, hx, h⟩
      rcases ite_cases h with ⟨-, h⟩ | ⟨h1, h⟩
      · simp at h
      · simp at h; subst h
        refine ⟨hx, ?_⟩
        rw [gt_iff_lt, UInt64.lt_iff_toNat_lt] at h1
        simpa using h1
    · rintro ⟨h1, h2⟩
      refine ⟨n, h1, ?_⟩
      rw [if_neg]
      · rfl
      · rw [gt_iff_lt, UInt64.lt_iff_toNat_lt]; simpa using h2

/-- **C56.** Setup: one of four words, in any letter case. -/
theorem C56_setup {l : Str} {x : Setup} :
    attrFromStr l = .ok (.setup x) ↔ ∃ v, AttrText l c%"setup" v ∧ lower v = setupText x := by
  rw [attr_iff (t := .setup) rfl rfl]
  exact exists_congr fun v => and_congr Iff.rfl parseSetup_iff

/-- **C56.** The frame rate is the double-precision number the text stands for, unless that is zero, infinite
or not a number. -/
theorem C56_framerate {l : Str} {x : F64} :
    attrFromStr l = .ok (.frameRate x) ↔ ∃ v, AttrText l c%"framerate" v ∧
      F64Text v x ∧ x.bits.toNat % 2 ^ 63 ≠ 0 ∧ x.bits.toNat % 2 ^ 63 < 0x7ff0000000000000 := by
  rw [attr_iff (t := .frameRate) rfl rfl]
  refine exists_congr fun v => and_congr Iff.rfl ?_
  show parseFramerate v = _ ↔ _
  unfold parseFramerate
  simp only [bind_eq_ok]
  constructor
  · rintro ⟨y, hy, h⟩
    unfold parseF64 at hy
    rcases ite_cases h with ⟨-, h⟩ | ⟨h1, h⟩
    · simp at h
    rcases ite_cases h with ⟨-, h⟩ | ⟨h2, h⟩
    · simp at h
    rcases ite_cases h with ⟨-, h⟩ | ⟨h3, h⟩
    · simp at h
    simp at h; subst h
    simp [F64.isNan, F64.isInf, F64.isZero] at h1 h2 h3
    refine ⟨F64.ofText_iff.1 ?_, h3, by omega⟩
    cases hp : F64.ofText v with
    | error e => rw [hp] at hy; cases hy
    | ok z => rw [hp] at hy; cases hy; rfl
  · rintro ⟨h2, h3, h4⟩
    refine ⟨x, ?_, ?_⟩
    · unfold parseF64; rw [F64.ofText_iff.2 h2]
    · rw [if_neg, if_neg, if_neg]
      · rfl
      · simpa [F64.isZero] using h3
      · simp [F64.isInf]; omega
      · simp [F64.isNan]; omega

/-- **C56.** Ice options: the words of the value, at least one. -/
theorem C56_ice_options {l : Str} {ws : List Str} :
    attrFromStr l = .ok (.iceOptions ws) ↔ ∃ v, AttrText l c%"ice-options" v ∧ Words v ws ∧ ws ≠ [] := by
  rw [attr_iff (t := .iceOptions) rfl rfl]
  refine exists_congr fun v => and_congr_right fun ha => ?_
  show parseIceOptions v = _ ↔ _
  unfold parseIceOptions
  rw [words_iff]
  by_cases hv : v = []
  · subst hv; simp
  · rw [if_neg (by simpa using hv)]
    simp only [Outcome.ok.injEq, Attribute.iceOptions.injEq]
    constructor
    · rintro rfl
      refine ⟨rfl, fun h0 => ?_⟩
      obtain ⟨n, w, -, -, -, hs⟩ := ha
      rcases hs.2 with h | h
      · exact hv h
      · obtain ⟨⟨c, r, rfl, hc⟩, -⟩ := h
        obtain ⟨x, xs, h1, h2⟩ := splitP_cons_false (s := r) hc
        unfold splitWs at h0
        rw [h2] at h0
        simp at h0
    · exact fun h => h.1

/-! ## C57 -/

/-- **C57.** An rtpmap is a payload type up to 127, a codec name, a frequency, and possibly a number
of channels, and they are what the fields of the value say. -/
theorem C57_rtpmap {l : Str} {r : Rtpmap} :
    attrFromStr l = .ok (.rtpmap r) ↔ ∃ v, AttrText l c%"rtpmap" v ∧ RtpmapText v r := by
  rw [attr_iff (t := .rtpmap) rfl rfl]
  refine exists_congr fun v => and_congr Iff.rfl ?_
  show parseRtpmap v = _ ↔ _
  unfold parseRtpmap RtpmapText
  simp only [words_iff, fields_iff]
  constructor
  · intro h
    rcases hv : splitWs v with _ | ⟨t0, ts⟩ <;> rw [hv] at h
    · simp at h
    simp only [bind_eq_ok, parseU8_ok] at h
    obtain ⟨pt, hpt, h⟩ := h
    rcases ite_cases h with ⟨-, h⟩ | ⟨hle, h⟩
    · simp at h
    rw [gt_iff_lt, UInt8.lt_iff_toNat_lt] at hle
    rcases ts with _ | ⟨t1, ts⟩
    · simp at h
    simp only [] at h
    rcases hc : splitC '/' t1 with _ | ⟨name, _ | ⟨f, ps⟩⟩ <;> rw [hc] at h
    · simp at h
    · simp at h
    simp only [bind_eq_ok, parseU32_ok] at h
    obtain ⟨fr, hfr, h⟩ := h
    refine ⟨t0, t1, ts, rfl, ?_⟩
    rcases ps with _ | ⟨c, more⟩
    · simp at h; subst h
      exact ⟨hpt, by simpa using hle, .inl ⟨f, hc, hfr, rfl⟩⟩
    · simp only [bind_eq_ok, parseU32_ok] at h
      obtain ⟨ch, hch, h⟩ := h
      simp at h; subst h
      exact ⟨hpt, by simpa using hle, .inr ⟨f, c, more, ch, hc, hfr, rfl, hch⟩⟩
  · rintro ⟨pt, codec, rest, hv, hpt, hle, h⟩
    rw [hv]
    simp only [bind_eq_ok, parseU8_ok]
    refine ⟨r.payloadType, hpt, ?_⟩
    rw [if_neg (by rw [gt_iff_lt, UInt8.lt_iff_toNat_lt]; simpa using hle)]
    obtain ⟨pt', name, fr, ch⟩ := r
    rcases h with ⟨f, hc, hf, hn⟩ | ⟨f, c, more, n, hc, hf, hn, hch⟩
    · simp only at hc hf hn; subst hn
      simp only [hc, bind_eq_ok, parseU32_ok]
      exact ⟨_, hf, rfl⟩
    · simp only at hc hf hn; subst hn
      simp only [hc, bind_eq_ok, parseU32_ok]
      exact ⟨_, hf, _, hch, rfl⟩

/-! ## C58 -/

omit [Env] in
theorem parseSsrc_iff {v : Str} {s : Ssrc} : parseSsrc v = .ok s ↔ SsrcText v s := by
  have nospace {t : Str} {n : Nat} (h : DecText t n) : ' ' ∉ t := by
    obtain ⟨ds, h1, -, h3, -⟩ := h
    intro hm
    rcases h1 with rfl | rfl
    · exact absurd (h3 _ hm) (by decide)
    · rcases List.mem_cons.1 hm with h | h
      · exact absurd h (by decide)
      · exact absurd (h3 _ h) (by decide)
  unfold parseSsrc SsrcText
  constructor
  · intro h
    rcases splitn_two_cases ' ' v with ⟨hv, -⟩ | ⟨i, a, hv, rfl, hi⟩ <;> rw [hv] at h <;>
      simp only [bind_eq_ok, parseU32_ok, pure_eq_ok] at h
    · obtain ⟨n, hn, h⟩ := h
      simp at h; subst h
      exact .inl ⟨hn, rfl, rfl⟩
    · obtain ⟨n, hn, h⟩ := h
      refine .inr ⟨i, a, rfl, ?_⟩
      unfold Ssrc.setAttribute at h
      rcases ite_cases h with ⟨hc, h⟩ | ⟨hc, h⟩
      · cases h; exact ⟨hn, .inl ⟨hc, rfl, rfl⟩⟩
      · simp only [Decidable.not_not] at hc
        obtain ⟨x, y, e, rfl, hx⟩ := splitn_two_of_mem hc
        simp only [e, idx, List.getElem?_cons_zero, List.getElem?_cons_succ, ok_bind, pure_eq_ok, Outcome.ok.injEq] at h
        subst h
        exact ⟨hn, .inr ⟨x, y, rfl, hx, rfl, rfl⟩⟩
  · obtain ⟨id, attr, value⟩ := s
    rintro (⟨h, h1, h2⟩ | ⟨i, a, rfl, h, h'⟩)
    · simp only at h1 h2; subst h1; subst h2
      rw [splitn_two_of_not_mem (nospace h)]
      simp only [bind_eq_ok, parseU32_ok, pure_eq_ok]
      exact ⟨_, h, rfl⟩
    · rw [splitn_two_append (nospace h)]
      simp only [bind_eq_ok, parseU32_ok]
      refine ⟨_, h, ?_⟩
      rcases h' with ⟨hc, h1, h2⟩ | ⟨n, x, rfl, hc, h1, h2⟩
      · simp only at h1 h2; subst h1; subst h2
        unfold Ssrc.setAttribute
        rw [if_pos hc]
      · simp only at h1 h2; subst h1; subst h2
        unfold Ssrc.setAttribute
        rw [if_neg (by simp), splitn_two_append hc]
        rfl

/-- **C58.** A stream source: an id, and possibly an attribute with or without a value. The first
space ends the id, the first colon ends the attribute. -/
theorem C58_ssrc {l : Str} {s : Ssrc} :
    attrFromStr l = .ok (.ssrc s) ↔ ∃ v, AttrText l c%"ssrc" v ∧ SsrcText v s := by
  rw [attr_iff (t := .ssrc) rfl rfl]
  refine exists_congr fun v => and_congr Iff.rfl ?_
  rw [show ∀ s, parseAttrValue .ssrc s = (do return .ssrc (← parseSsrc s)) from fun _ => rfl]
  simp only [bind_eq_ok, pure_eq_ok, Outcome.ok.injEq, Attribute.ssrc.injEq, exists_eq_right, parseSsrc_iff]

/-- **C58.** A group of stream sources: its meaning and at least one id. -/
theorem C58_ssrc_group {l : Str} {g : SsrcGroupSemantic} {ss : List Ssrc} :
    attrFromStr l = .ok (.ssrcGroup g ss) ↔ ∃ v, AttrText l c%"ssrc-group" v ∧ SsrcGroupText v g ss := by
  rw [attr_iff (t := .ssrcGroup) rfl rfl]
  refine exists_congr fun v => and_congr Iff.rfl ?_
  show parseSsrcGroup v = _ ↔ _
  unfold parseSsrcGroup SsrcGroupText
  simp only [words_iff]
  have one {sem : Str} {ids : List Str} (hv : splitWs v = sem :: ids) {ss : List Ssrc} :
      collect parseSsrc ids = .ok ss ↔
        Each (fun t s => DecText t s.id.toNat ∧ s.attr = none ∧ s.value = none) ids ss := by
    refine collect_each fun t ht s => ?_
    rw [parseSsrc_iff]
    have hw := (splitWs_mem (s := v) (t := t) (by rw [hv]; simp [ht])).1
    constructor
    · rintro (h | ⟨i, a, rfl, -⟩)
      · exact h
      · have := hw ' ' (by simp); exact absurd this (by decide)
    · exact .inl
  constructor
  · intro h
    rcases hv : splitWs v with _ | ⟨x, tokens⟩ <;> rw [hv] at h
    · simp at h
    simp only [bind_eq_ok, parseSsrcGroupSemantic_iff, one hv] at h
    obtain ⟨g', hg, ss', hss, h⟩ := h
    rcases ite_cases h with ⟨-, h⟩ | ⟨hne, h⟩
    · simp at h
    simp at h; obtain ⟨rfl, rfl⟩ := h
    refine ⟨x, tokens, rfl, hg, ?_, hss⟩
    rintro rfl
    cases ss' with
    | nil => simp at hne
    | cons s ss => exact absurd hss (by simp [Each])
  · rintro ⟨sem, ids, hv, hg, hne, hss⟩
    rw [hv]
    simp only [bind_eq_ok, parseSsrcGroupSemantic_iff, one hv]
    refine ⟨g, hg, ss, hss, ?_⟩
    rw [if_neg]
    · rfl
    · intro h0
      simp at h0; subst h0
      cases ids with
      | nil => exact hne rfl
      | cons s ss => exact absurd hss (by simp [Each])

/-! ## C59 -/

/-- **C59.** A group: its meaning and the tags. -/
theorem C59_group {l : Str} {g : Group} :
    attrFromStr l = .ok (.group g) ↔ ∃ v, AttrText l c%"group" v ∧ GroupText v g := by
  rw [attr_iff (t := .group) rfl rfl]
  refine exists_congr fun v => and_congr Iff.rfl ?_
  show parseGroup v = _ ↔ _
  unfold parseGroup GroupText
  simp only [words_iff]
  obtain ⟨sem, tags⟩ := g
  rcases hv : splitWs v with _ | ⟨x, tokens⟩
  · simp
  · simp only [bind_eq_ok, parseGroupSemantic_iff, pure_eq_ok, Outcome.ok.injEq, Attribute.group.injEq,
      Group.mk.injEq, List.cons.injEq]
    constructor
    · rintro ⟨g, h, rfl, rfl⟩; exact ⟨x, ⟨rfl, rfl⟩, h⟩
    · rintro ⟨y, ⟨rfl, rfl⟩, h⟩; exact ⟨_, h, rfl, rfl⟩

/-- **C59.** A media stream id and its application data, if any. -/
theorem C59_msid {l : Str} {m : Msid} :
    attrFromStr l = .ok (.msid m) ↔ ∃ v, AttrText l c%"msid" v ∧ MsidText v m := by
  rw [attr_iff (t := .msid) rfl rfl]
  refine exists_congr fun v => and_congr Iff.rfl ?_
  show parseMsid v = _ ↔ _
  unfold parseMsid MsidText
  simp only [words_iff]
  obtain ⟨id, app⟩ := m
  rcases hv : splitWs v with _ | ⟨x, _ | ⟨y, more⟩⟩
  · simp
  · simp; intro _; exact eq_comm
  · simp; intro _; exact eq_comm

/-- **C59.** A media stream id semantic and the ids it is for. -/
theorem C59_msid_semantic {l : Str} {m : MsidSemantic} :
    attrFromStr l = .ok (.msidSemantic m) ↔ ∃ v, AttrText l c%"msid-semantic" v ∧ MsidSemanticText v m := by
  rw [attr_iff (t := .msidSemantic) rfl rfl]
  refine exists_congr fun v => and_congr Iff.rfl ?_
  show parseMsidSemantic v = _ ↔ _
  unfold parseMsidSemantic MsidSemanticText
  simp only [words_iff]
  obtain ⟨sem, ids⟩ := m
  rcases hv : splitWs v with _ | ⟨x, tokens⟩
  · simp
  · simp [idx, sliceFrom]

/-! ## C60 -/

theorem parseExtmapId_iff {t : Str} {i : UInt16} {d : Option Direction} :
    parseExtmapId t = .ok (i, d) ↔ (DecText t i.toNat ∧ d = none) ∨
      ∃ a b e, t = a ++ '/' :: b ∧ DecText a i.toNat ∧ d = some e ∧ lower b = directionText e := by
  have noslash {t : Str} {n : Nat} (h : DecText t n) : '/' ∉ t := by
    obtain ⟨ds, h1, -, h3, -⟩ := h
    intro hm
    rcases h1 with rfl | rfl
    · exact absurd (h3 _ hm) (by decide)
    · rcases List.mem_cons.1 hm with h | h
      · exact absurd h (by decide)
      · exact absurd (h3 _ h) (by decide)
  unfold parseExtmapId
  by_cases hs : '/' ∈ t
  · rw [if_neg (by simpa using hs)]
    obtain ⟨a, b, e, rfl, ha⟩ := splitn_two_of_mem hs
    simp only [e, idx, List.getElem?_cons_zero, List.getElem?_cons_succ, ok_bind, pure_eq_ok, bind_eq_ok, parseU16_ok,
      parseExtmapDirection_iff, Outcome.ok.injEq, Prod.mk.injEq]
    constructor
    · rintro ⟨x, hx, y, hy, rfl, rfl⟩; exact .inr ⟨a, b, y, rfl, hx, rfl, hy⟩
    · rintro (⟨h, -⟩ | ⟨a', b', y, e', h1, rfl, h2⟩)
      · exact absurd hs (noslash h)
      · have := breakC_append (b := b') (noslash h1)
        rw [← e', breakC_append ha] at this
        simp at this; obtain ⟨rfl, rfl⟩ := this
        exact ⟨_, h1, _, h2, rfl, rfl⟩
  · rw [if_pos hs]
    simp only [bind_eq_ok, pure_eq_ok, parseU16_ok, Outcome.ok.injEq, Prod.mk.injEq]
    constructor
    · rintro ⟨x, hx, rfl, rfl⟩; exact .inl ⟨hx, rfl⟩
    · rintro (⟨h, rfl⟩ | ⟨a', b', y, rfl, -⟩)
      · exact ⟨_, h, rfl, rfl⟩
      · simp at hs

/-- **C60.** A header extension: an id, possibly with a direction, a URL, and possibly extension
attributes, which are kept with single spaces between them. -/
theorem C60_extmap {l : Str} {e : Extmap} :
    attrFromStr l = .ok (.extmap e) ↔ ∃ v, AttrText l c%"extmap" v ∧ ExtmapText v e := by
  rw [attr_iff (t := .extmap) rfl rfl]
  refine exists_congr fun v => and_congr Iff.rfl ?_
  show parseExtmap v = _ ↔ _
  unfold parseExtmap ExtmapText
  simp only [words_iff]
  obtain ⟨id, dir, url, ext⟩ := e
  rcases hv : splitWs v with _ | ⟨i, _ | ⟨u, rest⟩⟩
  · simp
  · simp
  have hvalid (h : rest ≠ []) : validByteString (joinS c%" " rest) = true ↔ ∀ t ∈ rest, '\x00' ∉ t := by
    have hw : ∀ t ∈ rest, NoWs t := fun t ht => (splitWs_mem (s := v) (t := t) (by rw [hv]; simp [ht])).1
    have hm (c : Char) (hc : c ≠ ' ') : c ∈ joinS c%" " rest ↔ ∃ t ∈ rest, c ∈ t := by
      constructor
      · intro h
        rcases mem_joinS h with h | h
        · simp at h; exact absurd h hc
        · exact h
      · rintro ⟨t, ht, hct⟩; exact joinS_mem ht c hct
    have n1 : '\n' ∉ joinS c%" " rest := by
      rw [hm _ (by decide)]; rintro ⟨t, ht, hc⟩; exact absurd (hw t ht _ hc) (by decide)
    have n2 : '\r' ∉ joinS c%" " rest := by
      rw [hm _ (by decide)]; rintro ⟨t, ht, hc⟩; exact absurd (hw t ht _ hc) (by decide)
    unfold validByteString
    simp [n1, n2, hm '\x00' (by decide)]
  simp only [List.cons.injEq, idx, List.getElem?_cons_zero, List.getElem?_cons_succ, ok_bind, sliceFrom]
  rw [if_neg (by simp)]
  simp only [bind_eq_ok]
  constructor
  · rintro ⟨⟨x, y⟩, hxy, h⟩
    rw [parseExtmapId_iff] at hxy
    refine ⟨i, rest, ⟨rfl, ?_⟩, ?_⟩
    · rcases ite_cases h with ⟨-, h⟩ | ⟨-, h⟩
      · simp at h; exact ⟨h.2.2.1, rfl⟩
      · simp only [bind_eq_ok] at h
        obtain ⟨r, hr, h⟩ := h
        rcases ite_cases h with ⟨-, h⟩ | ⟨-, h⟩
        · simp at h
        · simp at h; exact ⟨h.2.2.1, rfl⟩
    · rcases ite_cases h with ⟨hl, h⟩ | ⟨hl, h⟩
      · simp at h; obtain ⟨rfl, rfl, rfl, rfl⟩ := h
        simp at hl; exact ⟨hxy, .inl ⟨hl, rfl⟩⟩
      · simp only [bind_eq_ok] at h
        obtain ⟨r, hr, h⟩ := h
        simp at hr; subst hr
        have hne : rest ≠ [] := by rintro rfl; exact hl rfl
        rcases ite_cases h with ⟨-, h⟩ | ⟨hb, h⟩
        · simp at h
        · simp at h; obtain ⟨rfl, rfl, rfl, rfl⟩ := h
          exact ⟨hxy, .inr ⟨hne, (hvalid hne).1 (by simpa using hb), rfl⟩⟩
  · rintro ⟨i', rest', ⟨rfl, rfl, rfl⟩, h1, h2⟩
    refine ⟨(id, dir), parseExtmapId_iff.2 h1, ?_⟩
    rcases h2 with ⟨rfl, h2⟩ | ⟨hne, h2, h3⟩
    · subst h2; rfl
    · subst h3
      rw [if_neg (by simpa using hne)]
      simp only [bind_eq_ok]
      refine ⟨rest, by simp, ?_⟩
      rw [if_neg (by simp [(hvalid hne).2 h2])]
      rfl

/-! ## C61 -/

omit [Env] in
theorem parseOctet_iff {t : Str} {x : UInt8} : parseOctet t = .ok x ↔ t.length = 2 ∧ HexText t x.toNat := by
  have ascii (h : HexText t x.toNat) : byteLen t = t.length := by
    obtain ⟨ds, h1, -, h3, -⟩ := h
    have key : ∀ c ∈ t, c.utf8Size = 1 := by
      intro c hc
      have : c.toNat < 128 := by
        have hx {c : Char} (h : IsHexDigit c) : c.toNat < 128 := by
          unfold IsHexDigit at h
          rw [isDigit_iff, char_le_iff, char_le_iff, char_le_iff, char_le_iff] at h
          have e2 : 'f'.toNat = 102 := rfl
          have e4 : 'F'.toNat = 70 := rfl
          omega
        rcases h1 with rfl | rfl
        · exact hx (h3 c hc)
        · rcases List.mem_cons.1 hc with rfl | hc
          · decide
          · exact hx (h3 c hc)
      unfold Char.utf8Size
      have h' : c.val ≤ 127 := by
        rw [UInt32.le_iff_toNat_le]; change c.toNat ≤ 127; omega
      simp [h']
    unfold byteLen
    clear h1 h3
    induction t with
    | nil => rfl
    | cons c cs ih =>
      have h1 := key c (by simp)
      have h2 := ih fun c hc => key c (by simp [hc])
      simp only [List.map_cons, List.sum_cons, List.length_cons]
      omega
  unfold parseOctet
  constructor
  · intro h
    rcases ite_cases h with ⟨-, h⟩ | ⟨hl, h⟩
    · simp at h
    · have h := parseHexU8_ok.1 h
      rw [ascii h] at hl
      exact ⟨by omega, h⟩
  · rintro ⟨hl, h⟩
    rw [if_neg (by rw [ascii h]; omega)]
    exact parseHexU8_ok.2 h

/-- **C61.** A fingerprint: a hash function and as many bytes as it has, each of two hexadecimal
digits (of which the first may be a plus sign, as for every number). -/
theorem C61_fingerprint {l : Str} {f : Fingerprint} :
    attrFromStr l = .ok (.fingerprint f) ↔ ∃ v, AttrText l c%"fingerprint" v ∧ FingerprintText v f := by
  rw [attr_iff (t := .fingerprint) rfl rfl]
  refine exists_congr fun v => and_congr Iff.rfl ?_
  show parseFingerprint v = _ ↔ _
  have hcount (h : HashType) : octetCount h = fingerprintBytes h := by cases h <;> rfl
  unfold parseFingerprint FingerprintText
  simp only [words_iff, fields_iff]
  obtain ⟨alg, bytes⟩ := f
  constructor
  · intro h
    rcases ite_cases h with ⟨-, h⟩ | ⟨hl, h⟩
    · simp at h
    rcases hv : splitWs v with _ | ⟨a, _ | ⟨b, _ | ⟨c, r⟩⟩⟩ <;> rw [hv] at hl h <;> simp at hl
    simp only [idx, List.getElem?_cons_zero, List.getElem?_cons_succ, ok_bind, bind_eq_ok, parseHashType_iff, pure_eq_ok,
      parseOctets, fingerprintTryFrom] at h
    obtain ⟨h', hh, bs, ⟨bs', hbs, hb⟩, f', hf, h⟩ := h
    rcases ite_cases hb with ⟨-, hb⟩ | ⟨-, hb⟩
    · simp at hb
    rcases ite_cases hf with ⟨hn, hf⟩ | ⟨-, hf⟩
    · simp at hb hf h; subst hb; subst hf; simp at h; obtain ⟨rfl, rfl⟩ := h
      refine ⟨a, b, _, rfl, hh, rfl, (collect_each fun t _ x => parseOctet_iff).1 hbs, ?_⟩
      rw [← hcount, hn]
    · simp at hf
  · rintro ⟨a, b, fs, hv, rfl, hfs, he, hl⟩
    simp only [] at hl he
    rw [hv, if_neg (by simp)]
    simp only [idx, List.getElem?_cons_zero, List.getElem?_cons_succ, ok_bind, bind_eq_ok, parseHashType_iff, pure_eq_ok,
      parseOctets, fingerprintTryFrom, hcount]
    refine ⟨alg, rfl, bytes, ⟨bytes, ?_, ?_⟩, ⟨alg, bytes⟩, ?_, rfl⟩
    · rw [hfs]; exact (collect_each fun t _ x => parseOctet_iff).2 he
    · rw [if_neg (by simp [hl])]
    · rw [if_pos hl.symm]

/-! ## C62 -/

/-- **C62.** The port of an rtcp attribute, and possibly an address of the declared type. -/
theorem C62_rtcp {l : Str} {r : Rtcp} :
    attrFromStr l = .ok (.rtcp r) ↔ ∃ v, AttrText l c%"rtcp" v ∧ RtcpText v r := by
  rw [attr_iff (t := .rtcp) rfl rfl]
  refine exists_congr fun v => and_congr Iff.rfl ?_
  show parseRtcp v = _ ↔ _
  unfold parseRtcp RtcpText
  simp only [words_iff]
  obtain ⟨port, addr⟩ := r
  constructor
  · intro h
    rcases hv : splitWs v with _ | ⟨t0, _ | ⟨t1, _ | ⟨t2, _ | ⟨t3, rest⟩⟩⟩⟩ <;> rw [hv] at h <;>
      simp only [bind_eq_ok, parseU16_ok, pure_eq_ok, parseNetworkType_iff, parseAddrType_iff, typedTryFrom_iff] at h
    · simp at h
    · obtain ⟨p, hp, h⟩ := h
      simp at h; obtain ⟨rfl, rfl⟩ := h
      exact ⟨t0, hp, .inl ⟨rfl, rfl⟩⟩
    · obtain ⟨p, hp, _, _, h⟩ := h; simp at h
    · obtain ⟨p, hp, _, _, _, _, h⟩ := h; simp at h
    · obtain ⟨p, hp, _, hn, ty, hty, a, ha, h⟩ := h
      simp at h; obtain ⟨rfl, rfl⟩ := h
      exact ⟨t0, hp, .inr ⟨t1, t2, t3, rest, ty, a, rfl, hn, hty, ha, rfl⟩⟩
  · rintro ⟨p, hp, ⟨hv, h⟩ | ⟨n, t, a, more, ty, addr', hv, hn, hty, ha, h⟩⟩
    · simp only at h; subst h
      rw [hv]
      simp only [bind_eq_ok, parseU16_ok, pure_eq_ok]
      exact ⟨_, hp, rfl⟩
    · simp only at h; subst h
      rw [hv]
      simp only [bind_eq_ok, parseU16_ok, pure_eq_ok, parseNetworkType_iff, parseAddrType_iff, typedTryFrom_iff]
      exact ⟨_, hp, (), hn, _, hty, _, ha, rfl⟩

/-- **C62.** A remote candidate: component, address and port. -/
theorem C62_remote_candidates {l : Str} {r : RemoteCandidate} :
    attrFromStr l = .ok (.remoteCandidate r) ↔
      ∃ v, AttrText l c%"remote-candidates" v ∧ RemoteCandidateText v r := by
  rw [attr_iff (t := .remoteCandidate) rfl rfl]
  refine exists_congr fun v => and_congr Iff.rfl ?_
  show parseRemoteCandidates v = _ ↔ _
  unfold parseRemoteCandidates RemoteCandidateText parseUnicastAddress
  simp only [words_iff]
  obtain ⟨comp, addr, port⟩ := r
  constructor
  · intro h
    rcases hv : splitWs v with _ | ⟨t0, _ | ⟨t1, _ | ⟨t2, rest⟩⟩⟩ <;> rw [hv] at h <;>
      simp only [bind_eq_ok, parseU32_ok, parseAddress_iff] at h
    · simp at h
    · obtain ⟨p, hp, h⟩ := h; simp at h
    · obtain ⟨p, hp, _, _, h⟩ := h; simp at h
    · obtain ⟨c, hc, a, ha, p, hp, h⟩ := h
      rcases ite_cases h with ⟨-, h⟩ | ⟨hle, h⟩
      · simp at h
      · simp at h; obtain ⟨rfl, rfl, rfl⟩ := h
        refine ⟨t0, t1, t2, rest, rfl, hc, ha, hp, ?_⟩
        rw [gt_iff_lt, UInt32.lt_iff_toNat_lt] at hle
        simpa using hle
  · rintro ⟨c, a, p, more, hv, hc, ha, hp, hle⟩
    rw [hv]
    simp only [bind_eq_ok, parseU32_ok, parseAddress_iff]
    refine ⟨_, hc, _, ha, _, hp, ?_⟩
    rw [if_neg]
    · rfl
    · rw [gt_iff_lt, UInt32.lt_iff_toNat_lt]; simpa using hle

end

/-! ## Concrete cases -/

section
attribute [local instance] sampleEnv

example : AttrText c%"ICE-pwd: abc " c%"ice-pwd" c%"abc" ∧ c%"abc" ≠ [] :=
  C56_texts.1.1 (by decide +kernel)
example : ∃ v, AttrText c%"ptime:+020" c%"ptime" v ∧ DecText v (20 : UInt64).toNat :=
  C56_numbers.2.2.1.1 (by decide +kernel)
example : ∃ v, AttrText c%"setup:ActPass" c%"setup" v ∧ lower v = setupText .actpass :=
  C56_setup.1 (by decide +kernel : attrFromStr c%"setup:ActPass" = .ok (.setup .actpass))
example : ∃ v, AttrText c%"framerate:29.97" c%"framerate" v ∧ F64Text v ⟨0x403df851eb851eb8⟩ ∧
    (F64.mk 0x403df851eb851eb8).bits.toNat % 2 ^ 63 ≠ 0 ∧ (F64.mk 0x403df851eb851eb8).bits.toNat % 2 ^ 63 < 0x7ff0000000000000 :=
  C56_framerate.1 (by decide +kernel : attrFromStr c%"framerate:29.97" = .ok (.frameRate ⟨0x403df851eb851eb8⟩))
example : ∃ v, AttrText c%"ice-options:trickle  renomination" c%"ice-options" v ∧ Words v [c%"trickle", c%"renomination"] ∧ [c%"trickle", c%"renomination"] ≠ [] :=
  C56_ice_options.1 (by decide +kernel : attrFromStr c%"ice-options:trickle  renomination" = .ok (.iceOptions [c%"trickle", c%"renomination"]))
example : ∃ v, AttrText c%"rtpmap:109 opus/48000/2 more" c%"rtpmap" v ∧ RtpmapText v ⟨109, c%"opus", 48000, some 2⟩ :=
  C57_rtpmap.1 (by decide +kernel : attrFromStr c%"rtpmap:109 opus/48000/2 more" = .ok (.rtpmap ⟨109, c%"opus", 48000, some 2⟩))
example : ∃ v, AttrText c%"ssrc:5 cname:a:b c" c%"ssrc" v ∧ SsrcText v ⟨5, some c%"cname", some c%"a:b c"⟩ :=
  C58_ssrc.1 (by decide +kernel : attrFromStr c%"ssrc:5 cname:a:b c" = .ok (.ssrc ⟨5, some c%"cname", some c%"a:b c"⟩))
example : ∃ v, AttrText c%"ssrc-group:fid 1 2" c%"ssrc-group" v ∧ SsrcGroupText v .flowIdentification [⟨1, none, none⟩, ⟨2, none, none⟩] :=
  C58_ssrc_group.1 (by decide +kernel : attrFromStr c%"ssrc-group:fid 1 2" = .ok (.ssrcGroup .flowIdentification [⟨1, none, none⟩, ⟨2, none, none⟩]))
example : ∃ v, AttrText c%"group:bundle a b" c%"group" v ∧ GroupText v ⟨.bundle, [c%"a", c%"b"]⟩ :=
  C59_group.1 (by decide +kernel : attrFromStr c%"group:bundle a b" = .ok (.group ⟨.bundle, [c%"a", c%"b"]⟩))
example : ∃ v, AttrText c%"msid:a b c" c%"msid" v ∧ MsidText v ⟨c%"a", some c%"b"⟩ :=
  C59_msid.1 (by decide +kernel : attrFromStr c%"msid:a b c" = .ok (.msid ⟨c%"a", some c%"b"⟩))
example : ∃ v, AttrText c%"msid-semantic: WMS a b" c%"msid-semantic" v ∧ MsidSemanticText v ⟨c%"WMS", [c%"a", c%"b"]⟩ :=
  C59_msid_semantic.1 (by decide +kernel : attrFromStr c%"msid-semantic: WMS a b" = .ok (.msidSemantic ⟨c%"WMS", [c%"a", c%"b"]⟩))
example : ∃ v, AttrText c%"extmap:3/SendOnly urn:x  a b" c%"extmap" v ∧ ExtmapText v ⟨3, some .sendonly, c%"urn:x", some c%"a b"⟩ :=
  C60_extmap.1 (by decide +kernel : attrFromStr c%"extmap:3/SendOnly urn:x  a b" = .ok (.extmap ⟨3, some .sendonly, c%"urn:x", some c%"a b"⟩))
example : ∃ v, AttrText c%"fingerprint:sha-1 00:0d:1a:27:34:41:4e:5b:68:75:82:8f:9c:a9:b6:c3:d0:dd:ea:f7" c%"fingerprint" v ∧ FingerprintText v ⟨.sha1, [0, 13, 26, 39, 52, 65, 78, 91, 104, 117, 130, 143, 156, 169, 182, 195, 208, 221, 234, 247]⟩ :=
  C61_fingerprint.1 (by decide +kernel : attrFromStr c%"fingerprint:sha-1 00:0d:1a:27:34:41:4e:5b:68:75:82:8f:9c:a9:b6:c3:d0:dd:ea:f7" = .ok (.fingerprint ⟨.sha1, [0, 13, 26, 39, 52, 65, 78, 91, 104, 117, 130, 143, 156, 169, 182, 195, 208, 221, 234, 247]⟩))
example : ∃ v, AttrText c%"rtcp:9 in ip4 1.2.3.4 x" c%"rtcp" v ∧ RtcpText v ⟨9, some (.ip (.v4 0x01020304))⟩ :=
  C62_rtcp.1 (by decide +kernel : attrFromStr c%"rtcp:9 in ip4 1.2.3.4 x" = .ok (.rtcp ⟨9, some (.ip (.v4 0x01020304))⟩))
example : ∃ v, AttrText c%"remote-candidates:1 ::1 9" c%"remote-candidates" v ∧ RemoteCandidateText v ⟨1, .ip (.v6 1), 9⟩ :=
  C62_remote_candidates.1 (by decide +kernel : attrFromStr c%"remote-candidates:1 ::1 9" = .ok (.remoteCandidate ⟨1, .ip (.v6 1), 9⟩))

end

end Sdp
