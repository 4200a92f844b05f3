import Verif.Props.Grammar

/-!
# What feedback, channel, message, simulcast and restriction attributes say (C63 to C66)
-/

namespace Sdp

section
variable [Env]

/-! ## C63 -/

omit [Env] in
theorem PayloadTypeText.no_space {t : Str} {p : PayloadType} (h : PayloadTypeText t p) : ' ' ∉ t := by
  cases p with
  | pt n => exact DecText.not_mem h (by decide) (by decide)
  | wildcard => cases h; decide

theorem parseFbParam_none {t : RtcpFbType} {p : Str} : parseFbParam t none = .ok p ↔ FbBare t ∧ p = [] := by
  cases t <;> simp [parseFbParam, FbBare, eq_comm]

theorem parseFbParam_some {t : RtcpFbType} {x p : Str} :
    parseFbParam t (some x) = .ok p ↔ FbParameter t x ∧ p = x := by
  cases t
  case trrInt =>
    simp only [parseFbParam, FbParameter]
    by_cases h : (parseU32 x).isOk = true
    · rw [if_pos h]
      obtain ⟨n, hn⟩ : ∃ n, parseU32 x = .ok n := by
        cases hx : parseU32 x <;> simp [hx, Outcome.isOk] at h ⊢
      rw [parseU32_ok] at hn
      simp only [Outcome.ok.injEq]
      constructor
      · rintro rfl; exact ⟨⟨n.toNat, n.toNat_lt, hn⟩, rfl⟩
      · rintro ⟨-, rfl⟩; rfl
    · rw [if_neg h]
      simp only [egeneric_eq_ok, false_iff]
      rintro ⟨⟨n, hn, h'⟩, -⟩
      have : parseU32 x = .ok (UInt32.ofNat n) := by
        rw [parseU32_ok, UInt32.toNat_ofNat', Nat.mod_eq_of_lt hn]; exact h'
      rw [this] at h; exact h rfl
  all_goals
    simp only [parseFbParam, FbParameter, List.mem_cons, List.not_mem_nil, or_false]
    first
    | (simp; done)
    | (constructor
       · intro h
         rcases ite_cases h with ⟨e, h⟩ | ⟨-, h⟩
         · cases h; exact ⟨e, rfl⟩
         · simp at h
       · rintro ⟨e, rfl⟩; rw [if_pos e])

omit [Env] in
theorem fbText_no_space (t : RtcpFbType) : ' ' ∉ fbText t := by cases t <;> decide

omit [Env] in
theorem FbParameter.no_space {t : RtcpFbType} {p : Str} (h : FbParameter t p) : ' ' ∉ p := by
  cases t with
  | trrInt => obtain ⟨n, -, h⟩ := h; exact h.not_mem (by decide) (by decide)
  | remb => exact h.elim
  | transCc => exact h.elim
  | _ =>
    simp only [FbParameter, List.mem_cons, List.not_mem_nil, or_false] at h
    rcases h with rfl | rfl | rfl | rfl <;> decide

omit [Env] in
theorem splitn_succ_cases (n : Nat) (c : Char) (s : Str) :
    (splitn (n + 2) c s = [s] ∧ c ∉ s) ∨
      ∃ a b, splitn (n + 2) c s = a :: splitn (n + 1) c b ∧ s = a ++ c :: b ∧ c ∉ a := by
  cases hb : breakC c s with
  | none => have := breakC_eq_none.1 hb; exact .inl ⟨splitn_of_not_mem this, this⟩
  | some p =>
    obtain ⟨a, b⟩ := p
    obtain ⟨rfl, h⟩ := breakC_eq_some.1 hb
    exact .inr ⟨a, b, splitn_append h, rfl, h⟩

/-- **C63.** A feedback attribute: a payload type or a star, a feedback type, possibly one of the
parameters of that type, and possibly more text. Some types need a parameter, some have none. -/
theorem C63_rtcp_fb {l : Str} {r : RtcpFb} :
    attrFromStr l = .ok (.rtcpfb r) ↔ ∃ v, AttrText l c%"rtcp-fb" v ∧ RtcpFbText v r := by
  rw [attr_iff (t := .rtcpfb) rfl rfl]
  refine exists_congr fun v => and_congr Iff.rfl ?_
  show parseRtcpFb v = _ ↔ _
  unfold parseRtcpFb RtcpFbText
  obtain ⟨pt, ty, p, x⟩ := r
  simp only [bind_eq_ok, parseFbType_iff, parsePayloadType_iff, pure_eq_ok, Outcome.ok.injEq, Attribute.rtcpfb.injEq,
    RtcpFb.mk.injEq, idx_eq_ok]
  constructor
  · rintro ⟨ty', hty, p', hp, t0, h0, pt', hpt, rfl, rfl, rfl, hx⟩
    rcases splitn_succ_cases 2 ' ' v with ⟨e, -⟩ | ⟨a, b, e, rfl, ha⟩ <;> rw [e] at hty hp h0 hx
    · simp at hty
    rcases splitn_succ_cases 1 ' ' b with ⟨e, -⟩ | ⟨b, c, e, rfl, hb⟩ <;> rw [e] at hty hp h0 hx
    · simp at hty h0 hx
      subst hty h0 hx
      obtain ⟨h1, rfl⟩ := parseFbParam_none.1 hp
      exact ⟨_, hpt, .inl ⟨rfl, h1, rfl, rfl⟩⟩
    rcases splitn_succ_cases 0 ' ' c with ⟨e, -⟩ | ⟨c, d, e, rfl, hc⟩ <;> rw [e] at hty hp h0 hx
    · simp at hty h0 hx hp
      subst hty h0 hx
      obtain ⟨h1, rfl⟩ := parseFbParam_some.1 hp
      exact ⟨_, hpt, .inr (.inl ⟨by simp, h1, rfl⟩)⟩
    · simp [splitn] at hty h0 hx hp
      subst hty h0 hx
      obtain ⟨h1, rfl⟩ := parseFbParam_some.1 hp
      exact ⟨_, hpt, .inr (.inr ⟨by simp, h1⟩)⟩
  · rintro ⟨t, hpt, ⟨rfl, h1, h2, h3⟩ | ⟨rfl, h1, h2⟩ | ⟨rfl, h1⟩⟩
    · subst h2 h3
      rw [splitn_append hpt.no_space, splitn_of_not_mem (fbText_no_space _)]
      exact ⟨ty, rfl, [], parseFbParam_none.2 ⟨h1, rfl⟩, t, rfl, pt, hpt, rfl, rfl, rfl, rfl⟩
    · subst h2
      rw [List.append_assoc, List.cons_append, splitn_append hpt.no_space, splitn_append (fbText_no_space _),
        splitn_of_not_mem h1.no_space]
      exact ⟨ty, rfl, p, parseFbParam_some.2 ⟨h1, rfl⟩, t, rfl, pt, hpt, rfl, rfl, rfl, rfl⟩
    · rw [show t ++ ' ' :: fbText ty ++ ' ' :: p ++ ' ' :: x = t ++ ' ' :: (fbText ty ++ ' ' :: (p ++ ' ' :: x)) by simp,
        splitn_append hpt.no_space, splitn_append (fbText_no_space _), splitn_append h1.no_space]
      exact ⟨ty, rfl, p, parseFbParam_some.2 ⟨h1, rfl⟩, t, rfl, pt, hpt, rfl, rfl, rfl, rfl⟩

/-! ## C64 -/

/-- **C64.** A data channel mapping: exactly a port, the word webrtc-datachannel in any case, and a
number of channels. -/
theorem C64_sctpmap {l : Str} {m : Sctpmap} :
    attrFromStr l = .ok (.sctpmap m) ↔ ∃ v, AttrText l c%"sctpmap" v ∧ SctpmapText v m := by
  rw [attr_iff (t := .sctpmap) rfl rfl]
  refine exists_congr fun v => and_congr Iff.rfl ?_
  show parseSctpmap v = _ ↔ _
  unfold parseSctpmap SctpmapText
  simp only [words_iff]
  obtain ⟨port, channels⟩ := m
  constructor
  · intro h
    rcases ite_cases h with ⟨-, h⟩ | ⟨hl, h⟩
    · simp at h
    rcases hv : splitWs v with _ | ⟨a, _ | ⟨b, _ | ⟨c, _ | ⟨d, r⟩⟩⟩⟩ <;> rw [hv] at hl h <;> simp at hl
    simp only [idx, List.getElem?_cons_zero, List.getElem?_cons_succ, ok_bind, bind_eq_ok, parseU16_ok] at h
    obtain ⟨p, hp, h⟩ := h
    rcases ite_cases h with ⟨-, h⟩ | ⟨hb, h⟩
    · simp at h
    simp only [bind_eq_ok, parseU32_ok] at h
    obtain ⟨n, hn, h⟩ := h
    simp at h; obtain ⟨rfl, rfl⟩ := h
    exact ⟨a, b, c, rfl, hp, by simpa using hb, hn⟩
  · rintro ⟨a, b, c, hv, hp, hb, hn⟩
    rw [hv, if_neg (by simp)]
    simp only [idx, List.getElem?_cons_zero, List.getElem?_cons_succ, ok_bind, bind_eq_ok, parseU16_ok]
    refine ⟨_, hp, ?_⟩
    rw [if_neg (by simpa using hb)]
    simp only [bind_eq_ok, parseU32_ok]
    exact ⟨_, hn, rfl⟩

/-- **C64.** A handshake message: the word client or server, one space, and text without spaces. -/
theorem C64_dtls_message {l : Str} {m : DtlsMessage} :
    attrFromStr l = .ok (.dtlsMessage m) ↔ ∃ v, AttrText l c%"dtls-message" v ∧ DtlsMessageText v m := by
  rw [attr_iff (t := .dtlsMessage) rfl rfl]
  refine exists_congr fun v => and_congr Iff.rfl ?_
  show parseDtlsMessage v = _ ↔ _
  unfold parseDtlsMessage
  constructor
  · intro h
    rcases ite_cases h with ⟨-, h⟩ | ⟨hl, h⟩
    · simp at h
    rcases hv : splitC ' ' v with _ | ⟨a, _ | ⟨b, _ | ⟨c, r⟩⟩⟩ <;> rw [hv] at hl h <;> simp at hl
    obtain ⟨-, hm, e⟩ := fields_iff.2 hv
    simp only [idx, List.getElem?_cons_zero, List.getElem?_cons_succ, ok_bind] at h
    rcases ite_cases h with ⟨rfl, h⟩ | ⟨-, h⟩
    · cases h; exact ⟨e, hm b (by simp)⟩
    rcases ite_cases h with ⟨rfl, h⟩ | ⟨-, h⟩
    · cases h; exact ⟨e, hm b (by simp)⟩
    · simp at h
  · cases m with
    | client m =>
      rintro ⟨rfl, h⟩
      rw [show c%"client " ++ m = c%"client" ++ ' ' :: m from rfl, splitC_append (by decide), splitC_of_not_mem h]
      rfl
    | server m =>
      rintro ⟨rfl, h⟩
      rw [show c%"server " ++ m = c%"server" ++ ' ' :: m from rfl, splitC_append (by decide), splitC_of_not_mem h]
      rfl

/-! ## C65 -/

omit [Env] in
theorem simulcastId_iff {t : Str} {i : SimulcastId} : SimulcastId.new t = i ↔ SimulcastIdText t i := by
  obtain ⟨id, paused⟩ := i
  unfold SimulcastId.new SimulcastIdText
  cases t with
  | nil => simp [stripPrefix, eq_comm]
  | cons c cs =>
    by_cases hc : c = '~'
    · subst hc
      simp [stripPrefix, eq_comm]
    · have : stripPrefix c%"~" (c :: cs) = none := by simp [stripPrefix, Ne.symm hc]
      simp [this, hc, eq_comm]

omit [Env] in
theorem simulcastVersion_iff {t : Str} {v : SimulcastVersion} :
    SimulcastVersion.new t = v ↔ SimulcastVersionText t v := by
  obtain ⟨ids⟩ := v
  unfold SimulcastVersion.new SimulcastVersionText
  simp only [SimulcastVersion.mk.injEq, fields_iff, map_each fun _ _ => simulcastId_iff, exists_eq_left']

theorem parseVersionList_iff {t : Str} {vs : List SimulcastVersion} :
    parseVersionList t = .ok vs ↔ SimulcastListText t vs := by
  unfold parseVersionList SimulcastListText makeVersionList
  simp only [fields_iff]
  constructor
  · intro h
    rcases ite_cases h with ⟨hc, h⟩ | ⟨hc, h⟩
    · obtain ⟨a, b, e, rfl, ha⟩ := splitn_two_of_mem hc
      rw [e] at h
      simp only [List.getElem?_cons_zero, List.getElem?_cons_succ, Outcome.unwrap, ok_bind] at h
      rcases ite_cases h with ⟨rfl, h⟩ | ⟨-, h⟩
      · simp at h
        exact ⟨b, _, .inr rfl, rfl, (map_each fun _ _ => simulcastVersion_iff).1 h⟩
      · simp at h
    · simp at h
      exact ⟨t, _, .inl ⟨rfl, hc⟩, rfl, (map_each fun _ _ => simulcastVersion_iff).1 h⟩
  · rintro ⟨u, fs, ⟨rfl, hc⟩ | rfl, rfl, h⟩ <;> rw [← map_each fun _ _ => simulcastVersion_iff] at h <;> subst h
    · rw [if_neg hc]
    · rw [if_pos (by simp), show c%"rid=" ++ u = c%"rid" ++ '=' :: u from rfl, splitn_two_append (by decide)]
      rfl

theorem parseSecondVersionList_iff {d : SingleDirection} {ts : List Str} {vs : List SimulcastVersion} :
    parseSecondVersionList d ts = .ok vs ↔ (ts = [] ∧ vs = []) ∨
      ∃ e l more, ts = singleDirectionText e :: l :: more ∧ d ≠ e ∧ SimulcastListText l vs := by
  unfold parseSecondVersionList
  constructor
  · intro h
    rcases ts with _ | ⟨x, ts⟩
    · simp at h; exact .inl ⟨rfl, h⟩
    · simp only [bind_eq_ok, parseSingleDirection_iff] at h
      obtain ⟨e, rfl, h⟩ := h
      rcases ite_cases h with ⟨-, h⟩ | ⟨hne, h⟩
      · simp at h
      · rcases ts with _ | ⟨y, ts⟩
        · simp at h
        · exact .inr ⟨e, y, ts, rfl, fun h => hne h.symm, parseVersionList_iff.1 h⟩
  · rintro (⟨rfl, rfl⟩ | ⟨e, l, more, rfl, hne, h⟩)
    · rfl
    · simp only [bind_eq_ok, parseSingleDirection_iff]
      refine ⟨e, rfl, ?_⟩
      rw [if_neg (Ne.symm hne)]
      exact parseVersionList_iff.2 h

/-- **C65.** A simulcast attribute: a direction and its streams, and possibly the other direction and
its streams. A semicolon ends a stream, a comma ends an alternative, a tilde marks a paused one. -/
theorem C65_simulcast {l : Str} {s : Simulcast} :
    attrFromStr l = .ok (.simulcast s) ↔ ∃ v, AttrText l c%"simulcast" v ∧ SimulcastText v s := by
  rw [attr_iff (t := .simulcast) rfl rfl]
  refine exists_congr fun v => and_congr Iff.rfl ?_
  show parseSimulcast v = _ ↔ _
  unfold parseSimulcast SimulcastText
  simp only [words_iff]
  constructor
  · intro h
    rcases hv : splitWs v with _ | ⟨a, _ | ⟨b, ts⟩⟩ <;> rw [hv] at h
    · simp at h
    · simp only [bind_eq_ok] at h; obtain ⟨_, _, h⟩ := h; simp at h
    simp only [bind_eq_ok, parseSingleDirection_iff, parseVersionList_iff, parseSecondVersionList_iff] at h
    obtain ⟨d, rfl, l1, h1, l2, h2, h⟩ := h
    cases d <;> simp at h <;> subst h
    · refine ⟨.send, .recv, b, by decide, h1, ?_⟩
      rcases h2 with ⟨rfl, rfl⟩ | ⟨e, l', more, rfl, hne, h2⟩
      · exact .inl ⟨rfl, rfl⟩
      · cases e
        · exact absurd rfl hne
        · exact .inr ⟨l', more, rfl, h2⟩
    · refine ⟨.recv, .send, b, by decide, h1, ?_⟩
      rcases h2 with ⟨rfl, rfl⟩ | ⟨e, l', more, rfl, hne, h2⟩
      · exact .inl ⟨rfl, rfl⟩
      · cases e
        · exact .inr ⟨l', more, rfl, h2⟩
        · exact absurd rfl hne
  · obtain ⟨snd, rcv⟩ := s
    rintro ⟨d, e, l1, hne, h1, h2⟩
    have : ∃ ts, splitWs v = singleDirectionText d :: l1 :: ts ∧
        parseSecondVersionList d ts = .ok ((⟨snd, rcv⟩ : Simulcast).of e) := by
      rcases h2 with ⟨hv, h2⟩ | ⟨l', more, hv, h2⟩
      · exact ⟨[], hv, by rw [h2]; rfl⟩
      · exact ⟨_, hv, parseSecondVersionList_iff.2 (.inr ⟨e, l', more, rfl, hne, h2⟩)⟩
    obtain ⟨ts, hv, h2⟩ := this
    rw [hv]
    simp only [bind_eq_ok, parseSingleDirection_iff]
    refine ⟨d, rfl, _, parseVersionList_iff.2 h1, _, h2, ?_⟩
    cases d <;> cases e <;> first | exact absurd rfl hne | rfl

/-! ## C66 -/

omit [Env] in
theorem pair_iff {t : Str} {kv : Str × Str} : PairText t kv ↔ splitn 2 '=' t = [kv.1, kv.2] := by
  obtain ⟨k, v⟩ := kv
  constructor
  · rintro ⟨rfl, h⟩; exact splitn_two_append h
  · intro h
    rcases splitn_two_cases '=' t with ⟨e, -⟩ | ⟨a, b, e, rfl, ha⟩
    · rw [e] at h; simp at h
    · rw [e] at h; simp at h; obtain ⟨rfl, rfl⟩ := h; exact ⟨rfl, ha⟩

/-- The names that are not kept as unknown. -/
abbrev ridKnown : List Str := c%"depends" :: [RidField.maxWidth, .maxHeight,
  .maxFps, .maxFs, .maxBr, .maxPps].map RidField.text

/-- What one parameter does. -/
structure RidStep (a : RidState) (kv : Str × Str) (b : RidState) : Prop where
  set : ∀ f : RidField, kv.1 = f.text → DecText kv.2 (f.get b.params).toNat
  keep : ∀ f : RidField, kv.1 ≠ f.text → f.get b.params = f.get a.params
  depends : b.depends = a.depends ++ if kv.1 = c%"depends" then splitC ',' kv.2 else []
  unknown : b.params.unknown = a.params.unknown ++ if kv.1 ∈ ridKnown then [] else [kv.1 ++ '=' :: kv.2]

omit [Env] in
theorem ridParam_step {a b : RidState} {t : Str} (h : ridParam a t = .ok b) : ∃ kv, PairText t kv ∧ RidStep a kv b := by
  unfold ridParam at h
  rcases ite_cases h with ⟨-, h⟩ | ⟨hl, h⟩
  · simp at h
  rcases splitn_two_cases '=' t with ⟨e, -⟩ | ⟨k, v, e, rfl, hk⟩
  · rw [e] at hl; simp at hl
  refine ⟨(k, v), ⟨rfl, hk⟩, ?_⟩
  rw [e] at h
  simp only [idx, List.getElem?_cons_zero, List.getElem?_cons_succ, ok_bind] at h
  clear hl e
  rcases ite_cases h with ⟨e, g1⟩ | ⟨n1, g1⟩ <;> clear h
  · subst e
    simp only [bind_eq_ok, parseU32_ok, pure_eq_ok, Outcome.ok.injEq] at g1
    obtain ⟨n, hn, rfl⟩ := g1
    refine ⟨?_, ?_, ?_, ?_⟩
    · intro f hf; cases f <;> first | exact hn | exact absurd hf (by dsimp only; decide)
    · intro f hf; cases f <;> first | rfl | exact absurd rfl hf
    · rw [if_neg (by dsimp only; decide)]; simp
    · rw [if_pos (by dsimp only; decide)]; simp
  rcases ite_cases g1 with ⟨e, g2⟩ | ⟨n2, g2⟩ <;> clear g1
  · subst e
    simp only [bind_eq_ok, parseU32_ok, pure_eq_ok, Outcome.ok.injEq] at g2
    obtain ⟨n, hn, rfl⟩ := g2
    refine ⟨?_, ?_, ?_, ?_⟩
    · intro f hf; cases f <;> first | exact hn | exact absurd hf (by dsimp only; decide)
    · intro f hf; cases f <;> first | rfl | exact absurd rfl hf
    · rw [if_neg (by dsimp only; decide)]; simp
    · rw [if_pos (by dsimp only; decide)]; simp
  rcases ite_cases g2 with ⟨e, g3⟩ | ⟨n3, g3⟩ <;> clear g2
  · subst e
    simp only [bind_eq_ok, parseU32_ok, pure_eq_ok, Outcome.ok.injEq] at g3
    obtain ⟨n, hn, rfl⟩ := g3
    refine ⟨?_, ?_, ?_, ?_⟩
    · intro f hf; cases f <;> first | exact hn | exact absurd hf (by dsimp only; decide)
    · intro f hf; cases f <;> first | rfl | exact absurd rfl hf
    · rw [if_neg (by dsimp only; decide)]; simp
    · rw [if_pos (by dsimp only; decide)]; simp
  rcases ite_cases g3 with ⟨e, g4⟩ | ⟨n4, g4⟩ <;> clear g3
  · subst e
    simp only [bind_eq_ok, parseU32_ok, pure_eq_ok, Outcome.ok.injEq] at g4
    obtain ⟨n, hn, rfl⟩ := g4
    refine ⟨?_, ?_, ?_, ?_⟩
    · intro f hf; cases f <;> first | exact hn | exact absurd hf (by dsimp only; decide)
    · intro f hf; cases f <;> first | rfl | exact absurd rfl hf
    · rw [if_neg (by dsimp only; decide)]; simp
    · rw [if_pos (by dsimp only; decide)]; simp
  rcases ite_cases g4 with ⟨e, g5⟩ | ⟨n5, g5⟩ <;> clear g4
  · subst e
    simp only [bind_eq_ok, parseU32_ok, pure_eq_ok, Outcome.ok.injEq] at g5
    obtain ⟨n, hn, rfl⟩ := g5
    refine ⟨?_, ?_, ?_, ?_⟩
    · intro f hf; cases f <;> first | exact hn | exact absurd hf (by dsimp only; decide)
    · intro f hf; cases f <;> first | rfl | exact absurd rfl hf
    · rw [if_neg (by dsimp only; decide)]; simp
    · rw [if_pos (by dsimp only; decide)]; simp
  rcases ite_cases g5 with ⟨e, g6⟩ | ⟨n6, g6⟩ <;> clear g5
  · subst e
    simp only [bind_eq_ok, parseU32_ok, pure_eq_ok, Outcome.ok.injEq] at g6
    obtain ⟨n, hn, rfl⟩ := g6
    refine ⟨?_, ?_, ?_, ?_⟩
    · intro f hf; cases f <;> first | exact hn | exact absurd hf (by dsimp only; decide)
    · intro f hf; cases f <;> first | rfl | exact absurd rfl hf
    · rw [if_neg (by dsimp only; decide)]; simp
    · rw [if_pos (by dsimp only; decide)]; simp
  rcases ite_cases g6 with ⟨e, g7⟩ | ⟨n7, g7⟩ <;> clear g6
  · subst e
    simp only [pure_eq_ok, Outcome.ok.injEq] at g7; subst g7
    refine ⟨?_, ?_, ?_, ?_⟩
    · intro f hf; cases f <;> exact absurd hf (by dsimp only; decide)
    · intro f hf; cases f <;> rfl
    · rw [if_pos rfl]
    · rw [if_pos (by dsimp only; decide)]; simp
  · simp only [pure_eq_ok, Outcome.ok.injEq] at g7; subst g7
    refine ⟨?_, ?_, ?_, ?_⟩
    · intro f hf; cases f <;> contradiction
    · intro f hf; cases f <;> rfl
    · rw [if_neg n7]; simp
    · rw [if_neg]
      intro h
      simp only [ridKnown, RidField.text, List.map_cons, List.map_nil, List.mem_cons, List.not_mem_nil, or_false] at h
      rcases h with h | h | h | h | h | h | h <;> contradiction

omit [Env] in
theorem ridParam_accepts {t : Str} {kv : Str × Str} (ht : PairText t kv)
    (hn : ∀ f : RidField, kv.1 = f.text → ∃ n < 2^32, DecText kv.2 n) (a : RidState) : ∃ b, ridParam a t = .ok b := by
  have num (f : RidField) (h : kv.1 = f.text) : ∃ x, parseU32 kv.2 = .ok x := by
    obtain ⟨n, hlt, h⟩ := hn f h
    exact ⟨UInt32.ofNat n, by rw [parseU32_ok, UInt32.toNat_ofNat', Nat.mod_eq_of_lt hlt]; exact h⟩
  unfold ridParam
  simp only [pair_iff.1 ht]
  rw [if_neg (by simp)]
  simp only [idx, List.getElem?_cons_zero, List.getElem?_cons_succ, ok_bind]
  by_cases h1 : kv.1 = c%"max-width"
  · obtain ⟨x, hx⟩ := num .maxWidth h1; rw [if_pos h1, hx]; exact ⟨_, rfl⟩
  rw [if_neg h1]
  by_cases h1 : kv.1 = c%"max-height"
  · obtain ⟨x, hx⟩ := num .maxHeight h1; rw [if_pos h1, hx]; exact ⟨_, rfl⟩
  rw [if_neg h1]
  by_cases h1 : kv.1 = c%"max-fps"
  · obtain ⟨x, hx⟩ := num .maxFps h1; rw [if_pos h1, hx]; exact ⟨_, rfl⟩
  rw [if_neg h1]
  by_cases h1 : kv.1 = c%"max-fs"
  · obtain ⟨x, hx⟩ := num .maxFs h1; rw [if_pos h1, hx]; exact ⟨_, rfl⟩
  rw [if_neg h1]
  by_cases h1 : kv.1 = c%"max-br"
  · obtain ⟨x, hx⟩ := num .maxBr h1; rw [if_pos h1, hx]; exact ⟨_, rfl⟩
  rw [if_neg h1]
  by_cases h1 : kv.1 = c%"max-pps"
  · obtain ⟨x, hx⟩ := num .maxPps h1; rw [if_pos h1, hx]; exact ⟨_, rfl⟩
  rw [if_neg h1]
  by_cases h1 : kv.1 = c%"depends"
  · rw [if_pos h1]; exact ⟨_, rfl⟩
  rw [if_neg h1]; exact ⟨_, rfl⟩

/-- What a list of parameters does. -/
structure RidSteps (a : RidState) (kvs : List (Str × Str)) (b : RidState) : Prop where
  num : ∀ f : RidField, ∀ kv ∈ kvs, kv.1 = f.text → ∃ n < 2^32, DecText kv.2 n
  keep : ∀ f : RidField, (∀ kv ∈ kvs, kv.1 ≠ f.text) → f.get b.params = f.get a.params
  last : ∀ f : RidField, ∀ kv, LastWith (fun kv => kv.1 = f.text) kvs kv → DecText kv.2 (f.get b.params).toNat
  depends : b.depends = a.depends ++ ((kvs.filter fun kv => kv.1 = c%"depends").map fun kv => splitC ',' kv.2).flatten
  unknown : b.params.unknown = a.params.unknown ++ (kvs.filter fun kv => kv.1 ∉ ridKnown).map fun kv => kv.1 ++ '=' :: kv.2

omit [Env] in
theorem LastWith.cons {α : Type} {P : α → Prop} {a x : α} {l : List α} (h : LastWith P (a :: l) x) :
    LastWith P l x ∨ (x = a ∧ P a ∧ ∀ y ∈ l, ¬ P y) := by
  obtain ⟨pre, post, h, hx, hp⟩ := h
  cases pre with
  | nil => simp at h; obtain ⟨rfl, rfl⟩ := h; exact .inr ⟨rfl, hx, hp⟩
  | cons b pre => simp at h; obtain ⟨rfl, rfl⟩ := h; exact .inl ⟨pre, post, rfl, hx, hp⟩

omit [Env] in
theorem ridParamList_steps {a b : RidState} {ts : List Str} (h : ridParamList a ts = .ok b) :
    ∃ kvs, Each PairText ts kvs ∧ RidSteps a kvs b := by
  induction ts generalizing a with
  | nil =>
    simp only [ridParamList, Outcome.ok.injEq] at h; subst h
    refine ⟨[], trivial, by simp, by simp, ?_, by simp, by simp⟩
    rintro f kv ⟨pre, post, h, -⟩; simp at h
  | cons t ts ih =>
    simp only [ridParamList, bind_eq_ok] at h
    obtain ⟨m, h1, h2⟩ := h
    obtain ⟨kv, hkv, s⟩ := ridParam_step h1
    obtain ⟨kvs, hkvs, q⟩ := ih h2
    refine ⟨kv :: kvs, ⟨hkv, hkvs⟩, ?_, ?_, ?_, ?_, ?_⟩
    · intro f x hx he
      rcases List.mem_cons.1 hx with rfl | hx
      · exact ⟨_, UInt32.toNat_lt _, s.set f he⟩
      · exact q.num f x hx he
    · intro f hf
      rw [q.keep f fun kv h => hf kv (by simp [h]), s.keep f (hf kv (by simp))]
    · intro f x hx
      rcases hx.cons with hx | ⟨rfl, h1, h2⟩
      · exact q.last f x hx
      · rw [q.keep f h2]; exact s.set f h1
    · rw [q.depends, s.depends]
      by_cases h : kv.1 = c%"depends" <;> simp [h]
    · rw [q.unknown, s.unknown, List.filter_cons]
      by_cases h : kv.1 ∈ ridKnown
      · rw [if_pos h, if_neg (by rw [decide_eq_true_eq]; exact fun h' => h' h)]; simp
      · rw [if_neg h, if_pos (decide_eq_true h)]; simp

omit [Env] in
theorem ridParamList_accepts {ts : List Str} {kvs : List (Str × Str)} (ht : Each PairText ts kvs)
    (hn : ∀ f : RidField, ∀ kv ∈ kvs, kv.1 = f.text → ∃ n < 2^32, DecText kv.2 n) (a : RidState) :
    ∃ b, ridParamList a ts = .ok b := by
  induction ts generalizing a kvs with
  | nil => exact ⟨a, rfl⟩
  | cons t ts ih =>
    cases kvs with
    | nil => exact ht.elim
    | cons kv kvs =>
      obtain ⟨m, hm⟩ := ridParam_accepts ht.1 (fun f => hn f kv (by simp)) a
      obtain ⟨b, hb⟩ := ih ht.2 (fun f x hx => hn f x (by simp [hx])) m
      exact ⟨b, by simp only [ridParamList, hm, ok_bind, hb]⟩

omit [Env] in
theorem each_pair_unique {ts : List Str} {xs ys : List (Str × Str)} (h1 : Each PairText ts xs) (h2 : Each PairText ts ys) :
    xs = ys := by
  induction ts generalizing xs ys with
  | nil => cases xs <;> cases ys <;> simp_all [Each]
  | cons t ts ih =>
    cases xs with
    | nil => exact h1.elim
    | cons x xs =>
      cases ys with
      | nil => exact h2.elim
      | cons y ys =>
        have := (pair_iff.1 h1.1).symm.trans (pair_iff.1 h2.1)
        simp at this
        rw [ih h1.2 h2.2, Prod.ext this.1 this.2]

omit [Env] in
theorem exists_lastWith {α : Type} {P : α → Prop} {l : List α} (h : ∃ x ∈ l, P x) : ∃ x, LastWith P l x := by
  induction l with
  | nil => obtain ⟨x, hx, -⟩ := h; simp at hx
  | cons a l ih =>
    by_cases hl : ∃ x ∈ l, P x
    · obtain ⟨x, pre, post, rfl, h1, h2⟩ := ih hl
      exact ⟨x, a :: pre, post, rfl, h1, h2⟩
    · obtain ⟨x, hx, hp⟩ := h
      rcases List.mem_cons.1 hx with rfl | hx
      · exact ⟨x, [], l, rfl, hp, fun y hy h => hl ⟨y, hy, h⟩⟩
      · exact absurd ⟨x, hx, hp⟩ hl

omit [Env] in
theorem each_unknown {us : List Str} {kvs : List (Str × Str)} (h : ∀ kv ∈ kvs, '=' ∉ kv.1) :
    Each PairText us kvs ↔ us = kvs.map fun kv => kv.1 ++ '=' :: kv.2 := by
  induction us generalizing kvs with
  | nil => cases kvs <;> simp [Each]
  | cons u us ih =>
    cases kvs with
    | nil => simp [Each]
    | cons kv kvs =>
      simp only [Each, ih (kvs := kvs) fun kv h' => h kv (by simp [h']), PairText, List.map_cons, List.cons.injEq,
        h kv (by simp), not_false_eq_true, and_true]

omit [Env] in
theorem ridParams_iff {ts : List Str} {p : RidParams} {d : List Str} :
    ridParamList RidState.default ts = .ok ⟨p, d⟩ ↔ RidParametersText ts p d := by
  have dep (l : List (Str × Str)) (d : List Str) :
      (∃ ds, Each (fun kv d => Fields ',' kv.2 d) l ds ∧ d = ds.flatten) ↔
        d = (l.map fun kv => splitC ',' kv.2).flatten := by
    simp only [← map_each (f := fun kv : Str × Str => splitC ',' kv.2) fun a b => (fields_iff (s := a.2)).symm]
    simp
  have noeq {ts : List Str} {kvs : List (Str × Str)} (h : Each PairText ts kvs) : ∀ kv ∈ kvs, '=' ∉ kv.1 := by
    induction ts generalizing kvs with
    | nil => cases kvs <;> simp_all [Each]
    | cons t ts ih =>
      cases kvs with
      | nil => simp
      | cons kv kvs =>
        intro x hx
        rcases List.mem_cons.1 hx with rfl | hx
        · exact h.1.2
        · exact ih h.2 x hx
  unfold RidParametersText
  simp only [dep]
  constructor
  · intro h
    obtain ⟨kvs, hk, s⟩ := ridParamList_steps h
    refine ⟨kvs, hk, fun f => ⟨s.num f, fun h => ?_, s.last f⟩, s.depends, ?_⟩
    · rw [s.keep f h]; cases f <;> rfl
    · rw [each_unknown fun kv h => noeq hk kv (List.mem_of_mem_filter h)]
      exact s.unknown
  · rintro ⟨kvs, hk, hf, hd, hu⟩
    rw [each_unknown fun kv h => noeq hk kv (List.mem_of_mem_filter h)] at hu
    obtain ⟨⟨p', d'⟩, hb⟩ := ridParamList_accepts hk (fun f => (hf f).1) RidState.default
    obtain ⟨kvs', hk', s⟩ := ridParamList_steps hb
    obtain rfl := each_pair_unique hk hk'
    have e1 : d' = d := s.depends.trans hd.symm
    have e2 : p'.unknown = p.unknown := s.unknown.trans hu.symm
    have e3 (f : RidField) : f.get p' = f.get p := by
      by_cases h : ∃ kv ∈ kvs, kv.1 = f.text
      · obtain ⟨kv, hkv⟩ := exists_lastWith h
        exact UInt32.toNat_inj.1 ((s.last f kv hkv).unique ((hf f).2.2 kv hkv))
      · have h : ∀ kv ∈ kvs, kv.1 ≠ f.text := fun kv hkv he => h ⟨kv, hkv, he⟩
        rw [(hf f).2.1 h]
        exact (s.keep f h).trans (by cases f <;> rfl)
    obtain rfl : p' = p := by
      have h1 := e3 .maxWidth; have h2 := e3 .maxHeight; have h3 := e3 .maxFps
      have h4 := e3 .maxFs; have h5 := e3 .maxBr; have h6 := e3 .maxPps
      cases p; cases p'
      simp only [RidField.get] at h1 h2 h3 h4 h5 h6
      simp_all
    rw [hb, e1]

/-- **C66.** A restriction: an id, a direction and possibly parameters: first a list of payload types,
then limits, dependencies, and anything else of the form name=value. -/
theorem C66_rid {l : Str} {r : Rid} :
    attrFromStr l = .ok (.rid r) ↔ ∃ v, AttrText l c%"rid" v ∧ RidText v r := by
  rw [attr_iff (t := .rid) rfl rfl]
  refine exists_congr fun v => and_congr Iff.rfl ?_
  show parseRid v = _ ↔ _
  have formats {l : Str} {ns : List UInt16} : collect (fun f => parseU16 (trim f)) (splitC ',' l) = .ok ns ↔
      ∃ fs, splitC ',' l = fs ∧ Each (fun f (n : UInt16) => ∃ w, Stripped f w ∧ DecText w n.toNat) fs ns := by
    simp only [exists_eq_left']
    refine collect_each fun f _ n => ?_
    simp only [parseU16_ok, stripped_iff, exists_eq_left]
  have dirNoSpace (d : SingleDirection) : ' ' ∉ singleDirectionText d := by cases d <;> decide
  unfold parseRid RidText
  simp only [fields_iff]
  obtain ⟨id, dir, fmts, params, deps⟩ := r
  constructor
  · intro h0
    rcases ite_cases h0 with ⟨-, h⟩ | ⟨hl, h⟩ <;> clear h0
    · simp at h
    rcases splitn_succ_cases 1 ' ' v with ⟨e, -⟩ | ⟨a, b, e, rfl, ha⟩ <;> rw [e] at hl h
    · simp at hl
    rcases splitn_succ_cases 0 ' ' b with ⟨e, -⟩ | ⟨b, c, e, rfl, hb⟩ <;> rw [e] at h
    · simp only [List.getElem?_cons_zero, List.getElem?_cons_succ, List.getElem?_nil, idx, ok_bind, bind_eq_ok,
        parseSingleDirection_iff] at h
      obtain ⟨d, rfl, h⟩ := h
      cases h
      exact ⟨ha, .inl ⟨rfl, rfl, ridParams_iff.1 rfl⟩⟩
    · simp only [List.getElem?_cons_zero, List.getElem?_cons_succ, idx, ok_bind, bind_eq_ok, splitn,
        parseSingleDirection_iff, pure_eq_ok] at h
      obtain ⟨⟨fs, st⟩, ⟨⟨fs', ps⟩, h1, ⟨sp, sd⟩, h2, h3⟩, d, rfl, h⟩ := h
      cases h3; cases h
      rw [ridParams_iff] at h2
      refine ⟨ha, .inr ⟨c, _, by simp, rfl, ?_⟩⟩
      unfold ridFormats at h1
      rcases hc : splitC ';' c with _ | ⟨p, rest⟩ <;> rw [hc] at h1
      · exact absurd hc (splitC_ne_nil _ _)
      simp only at h1
      cases hp : stripPrefix c%"pt=" p with
      | none =>
        rw [hp] at h1
        cases h1
        refine .inr ⟨?_, rfl, h2⟩
        rintro l ps e
        simp only [List.cons.injEq] at e
        rw [e.1, stripPrefix_eq_some.2 rfl] at hp
        exact absurd hp (by simp)
      | some l =>
        rw [hp] at h1
        simp only [bind_eq_ok, pure_eq_ok, Outcome.ok.injEq, Prod.mk.injEq, formats] at h1
        obtain ⟨ns, ⟨fs, h3, h4⟩, rfl, rfl⟩ := h1
        rw [stripPrefix_eq_some.1 hp]
        exact .inl ⟨l, fs, rest, rfl, h3, h4, h2⟩
  · rintro ⟨hid, ⟨rfl, h1, h2⟩ | ⟨t, fs, rfl, h0, h⟩⟩
    · subst h1
      rw [splitn_append hid, splitn_of_not_mem (dirNoSpace _), if_neg (by simp)]
      have h2 := ridParams_iff.2 h2
      simp only [ridParamList, Outcome.ok.injEq] at h2
      simp only [List.getElem?_cons_zero, List.getElem?_cons_succ, List.getElem?_nil, idx, ok_bind, bind_eq_ok,
        parseSingleDirection_iff, h2]
      exact ⟨dir, rfl, rfl⟩
    · rw [show id ++ ' ' :: singleDirectionText dir ++ ' ' :: t = id ++ ' ' :: (singleDirectionText dir ++ ' ' :: t) by simp,
        splitn_append hid, splitn_append (dirNoSpace _), if_neg (by simp)]
      simp only [List.getElem?_cons_zero, List.getElem?_cons_succ, idx, ok_bind, bind_eq_ok, splitn,
        parseSingleDirection_iff, pure_eq_ok, h0]
      rcases h with ⟨l, ns, ps, rfl, h1, h2, h3⟩ | ⟨h1, h2, h3⟩
      · refine ⟨(fmts, ⟨params, deps⟩), ⟨(fmts, ps), ?_, ⟨params, deps⟩, ridParams_iff.2 h3, rfl⟩, dir, rfl, rfl⟩
        unfold ridFormats
        simp only [stripPrefix_eq_some.2 rfl, bind_eq_ok, formats]
        exact ⟨_, ⟨ns, h1, h2⟩, rfl⟩
      · subst h2
        refine ⟨([], ⟨params, deps⟩), ⟨([], fs), ?_, ⟨params, deps⟩, ridParams_iff.2 h3, rfl⟩, dir, rfl, rfl⟩
        unfold ridFormats
        rcases fs with _ | ⟨p, ps⟩
        · exact absurd h0 (splitC_ne_nil _ _)
        simp only
        cases hp : stripPrefix c%"pt=" p with
        | none => rfl
        | some l => exact absurd (by rw [stripPrefix_eq_some.1 hp]) (h1 l ps)

end

/-! ## Concrete cases -/

section
attribute [local instance] sampleEnv

example : ∃ v, AttrText c%"rtcp-fb:* nack pli x y" c%"rtcp-fb" v ∧ RtcpFbText v ⟨.wildcard, .nack, c%"pli", c%"x y"⟩ :=
  C63_rtcp_fb.1 (by decide +kernel : attrFromStr c%"rtcp-fb:* nack pli x y" = .ok (.rtcpfb ⟨.wildcard, .nack, c%"pli", c%"x y"⟩))
example : ∃ v, AttrText c%"sctpmap:5000 WebRTC-DataChannel 256" c%"sctpmap" v ∧ SctpmapText v ⟨5000, 256⟩ :=
  C64_sctpmap.1 (by decide +kernel : attrFromStr c%"sctpmap:5000 WebRTC-DataChannel 256" = .ok (.sctpmap ⟨5000, 256⟩))
example : ∃ v, AttrText c%"dtls-message:client abc" c%"dtls-message" v ∧ DtlsMessageText v (.client c%"abc") :=
  C64_dtls_message.1 (by decide +kernel : attrFromStr c%"dtls-message:client abc" = .ok (.dtlsMessage (.client c%"abc")))
example : ∃ v, AttrText c%"simulcast: recv rid=~a,b;c" c%"simulcast" v ∧ SimulcastText v ⟨[], [⟨[⟨c%"a", true⟩, ⟨c%"b", false⟩]⟩, ⟨[⟨c%"c", false⟩]⟩]⟩ :=
  C65_simulcast.1 (by decide +kernel : attrFromStr c%"simulcast: recv rid=~a,b;c" = .ok (.simulcast ⟨[], [⟨[⟨c%"a", true⟩, ⟨c%"b", false⟩]⟩, ⟨[⟨c%"c", false⟩]⟩]⟩))
example : ∃ v, AttrText c%"rid:x send pt=96, 97;max-height=720;foo=bar;depends=a,b;max-height=480;depends=c" c%"rid" v ∧ RidText v ⟨c%"x", .send, [96, 97], ⟨0, 480, 0, 0, 0, 0, [c%"foo=bar"]⟩, [c%"a", c%"b", c%"c"]⟩ :=
  C66_rid.1 (by decide +kernel : attrFromStr c%"rid:x send pt=96, 97;max-height=720;foo=bar;depends=a,b;max-height=480;depends=c" = .ok (.rid ⟨c%"x", .send, [96, 97], ⟨0, 480, 0, 0, 0, 0, [c%"foo=bar"]⟩, [c%"a", c%"b", c%"c"]⟩))

end

end Sdp
