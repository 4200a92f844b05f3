import Verif.Spec.Consistent
import Verif.Lemmas.Sections
/-!
# The sanity check is the consistency rules
-/

namespace Sdp

theorem checkRidFormats_ok {f : FormatList} {l : List UInt16} :
    checkRidFormats f l = .ok () ↔ ∀ n ∈ l, formatDeclared f n = true := by
  induction l with
  | nil => simp [checkRidFormats]
  | cons n ns ih =>
    rw [checkRidFormats]
    by_cases h : formatDeclared f n = true <;> simp [h, ih]

theorem checkDefinedRids_ok {ids : List Str} {l : List SimulcastId} :
    checkDefinedRids ids l = .ok () ↔ ∀ i ∈ l, i.id ∈ ids := by
  induction l with
  | nil => simp [checkDefinedRids]
  | cons n ns ih =>
    rw [checkDefinedRids]
    by_cases h : n.id ∈ ids <;> simp [h, ih]

theorem formatDeclared_iff {f : FormatList} {n : UInt16} :
    formatDeclared f n = true ↔ ListsFormat f n.toNat := by
  cases f with
  | integers l =>
    simp only [formatDeclared, ListsFormat, List.contains_iff_mem]
    have hlt : n.toNat < 4294967296 := Nat.lt_trans n.toNat_lt (by decide)
    constructor
    · intro h; exact ⟨_, h, by simp⟩
    · rintro ⟨x, hx, he⟩
      rw [← he]; simpa using hx
  | strings l => simp [formatDeclared, ListsFormat, decimal, showU16, showNat]

theorem mem_mediaRids {m : Media} {r : Rid} : r ∈ mediaRids m ↔ Attribute.rid r ∈ m.attrs := by
  unfold mediaRids Media.getAttributes
  rw [List.mem_filterMap]
  constructor
  · rintro ⟨a, ha, he⟩
    split at he
    · simp at he; subst he; exact ha
    · simp at he
  · intro h; exact ⟨_, h, rfl⟩

theorem mem_ridsOfDirection {d : SingleDirection} {m : Media} {id : Str} :
    id ∈ ridsOfDirection d (mediaRids m) ↔ HasRid m d id := by
  unfold ridsOfDirection HasRid
  rw [List.mem_filterMap]
  constructor
  · rintro ⟨r, hr, he⟩
    split at he
    · rename_i hd; simp at he; exact ⟨r, mem_mediaRids.1 hr, hd, he⟩
    · simp at he
  · rintro ⟨r, hr, hd, he⟩
    exact ⟨r, mem_mediaRids.2 hr, by rw [if_pos hd, he]⟩

theorem type_extmap {a : Attribute} : a.type = .extmap ↔ ∃ e, a = .extmap e := by
  cases a <;> simp [Attribute.type]
theorem type_simulcast {a : Attribute} : a.type = .simulcast ↔ ∃ e, a = .simulcast e := by
  cases a <;> simp [Attribute.type]
theorem type_rtcpMux {a : Attribute} : a.type = .rtcpMux ↔ a = .rtcpMux := by
  cases a <;> simp [Attribute.type]
theorem type_rtcpMuxOnly {a : Attribute} : a.type = .rtcpMuxOnly ↔ a = .rtcpMuxOnly := by
  cases a <;> simp [Attribute.type]

theorem find_type_isSome {l : List Attribute} {t : AttributeType} :
    (l.find? (fun a => a.type == t)).isSome = true ↔ ∃ a ∈ l, a.type = t := by
  rw [List.find?_isSome]; simp

/-- The simulcast attribute that `get_attribute` returns is the first one. -/
theorem getAttribute_simulcast {m : Media} :
    (∀ sc, m.getAttribute .simulcast = some (.simulcast sc) ↔ FirstSimulcast m sc) ∧
    (∀ a, m.getAttribute .simulcast = some a → ∃ sc, a = .simulcast sc) := by
  constructor
  · intro sc
    unfold Media.getAttribute
    rw [List.find?_eq_some_iff_append]
    constructor
    · rintro ⟨_, as, bs, h, h'⟩
      exact ⟨as, bs, h, fun x hx => by have := h' _ hx; simp [Attribute.type] at this⟩
    · rintro ⟨as, bs, h, h'⟩
      refine ⟨by rfl, as, bs, h, fun a ha => ?_⟩
      by_contra hc
      simp at hc
      obtain ⟨e, rfl⟩ := type_simulcast.1 hc
      exact h' e ha
  · intro a h
    have := List.find?_some h
    simp at this
    exact type_simulcast.1 this

theorem checkMedia_ok {m : Media} : checkMedia m = .ok () ↔ ConsistentMedia m := by
  have hmux : ((m.getAttribute .rtcpMuxOnly).isSome = true ∧ (m.getAttribute .rtcpMux).isNone = true) ↔
      ¬ (Attribute.rtcpMuxOnly ∈ m.attrs → Attribute.rtcpMux ∈ m.attrs) := by
    unfold Media.getAttribute
    rw [find_type_isSome, ← Option.not_isSome, Bool.not_eq_true', ← Bool.not_eq_true, find_type_isSome]
    simp [type_rtcpMux, type_rtcpMuxOnly]
  have hfmt : (∀ n ∈ (mediaRids m).flatMap (fun r => r.formats), formatDeclared m.getFormats n = true) ↔
      ∀ r, Attribute.rid r ∈ m.attrs → ∀ f ∈ r.formats, ListsFormat m.media.formats f.toNat := by
    simp only [List.mem_flatMap, mem_mediaRids, formatDeclared_iff, Media.getFormats]
    exact ⟨fun h r hr f hf => h f ⟨r, hr, hf⟩, fun h f ⟨r, hr, hf⟩ => h r hr f hf⟩
  have hsc (sc : Simulcast) :
      ((∀ i ∈ sc.receive.flatMap (fun v => v.ids), i.id ∈ ridsOfDirection .recv (mediaRids m)) ∧
       (∀ i ∈ sc.send.flatMap (fun v => v.ids), i.id ∈ ridsOfDirection .send (mediaRids m))) ↔
      SimulcastDefined m sc := by
    unfold SimulcastDefined
    simp only [List.mem_flatMap, mem_ridsOfDirection]
    constructor
    · rintro ⟨h1, h2⟩
      exact ⟨fun v hv i hi => h2 i ⟨v, hv, hi⟩, fun v hv i hi => h1 i ⟨v, hv, hi⟩⟩
    · rintro ⟨h1, h2⟩
      exact ⟨fun i ⟨v, hv, hi⟩ => h2 v hv i hi, fun i ⟨v, hv, hi⟩ => h1 v hv i hi⟩
  unfold checkMedia
  rw [ite_eq_iff']
  rw [hmux]
  obtain ⟨g1, g2⟩ := getAttribute_simulcast (m := m)
  constructor
  · rintro ⟨h1, h2⟩
    have hm : Attribute.rtcpMuxOnly ∈ m.attrs → Attribute.rtcpMux ∈ m.attrs := by
      by_contra hc; simpa using h1 hc
    have h2 := h2 (by simpa using hm)
    rw [bind_eq_ok] at h2
    obtain ⟨u, h3, h4⟩ := h2
    refine ⟨hm, hfmt.1 (checkRidFormats_ok.1 h3), fun sc hf => ?_⟩
    rw [(g1 sc).2 hf] at h4
    simp only [bind_eq_ok] at h4
    obtain ⟨_, h5, h6⟩ := h4
    exact (hsc sc).1 ⟨checkDefinedRids_ok.1 h5, checkDefinedRids_ok.1 h6⟩
  · rintro ⟨h1, h2, h3⟩
    refine ⟨fun hc => absurd h1 hc, fun _ => ?_⟩
    rw [bind_eq_ok]
    refine ⟨(), checkRidFormats_ok.2 (hfmt.2 h2), ?_⟩
    split
    · rename_i sc hs
      have := (hsc sc).2 (h3 sc ((g1 sc).1 hs))
      rw [bind_eq_ok]
      exact ⟨(), checkDefinedRids_ok.2 this.1, checkDefinedRids_ok.2 this.2⟩
    · rfl

theorem checkMediaList_ok {l : List Media} : checkMediaList l = .ok () ↔ ∀ m ∈ l, ConsistentMedia m := by
  induction l with
  | nil => simp [checkMediaList]
  | cons m ms ih =>
    rw [checkMediaList, bind_eq_ok]
    rw [List.forall_mem_cons, ← ih, ← checkMedia_ok]
    exact ⟨fun ⟨_, h1, h2⟩ => ⟨h1, h2⟩, fun ⟨h1, h2⟩ => ⟨(), h1, h2⟩⟩

theorem sanityCheck_ok {s : Session} : sanityCheck s = .ok () ↔ Consistent s := by
  have hx : ((s.getAttribute .extmap).isSome = true ∧
        s.media.any (fun m => (m.getAttribute .extmap).isSome) = true) ↔
      ((∃ e, Attribute.extmap e ∈ s.attrs) ∧ ∃ m ∈ s.media, ∃ e, Attribute.extmap e ∈ m.attrs) := by
    unfold Session.getAttribute Media.getAttribute
    simp only [List.any_eq_true, find_type_isSome, type_extmap]
    constructor
    · rintro ⟨⟨a, ha, e, rfl⟩, m, hm, b, hb, e', rfl⟩
      exact ⟨⟨e, ha⟩, m, hm, e', hb⟩
    · rintro ⟨⟨e, ha⟩, m, hm, e', hb⟩
      exact ⟨⟨_, ha, e, rfl⟩, m, hm, _, hb, e', rfl⟩
  have hc : ((!(s.media.all (fun m => m.getConnection.isSome))) = true ∧ s.getConnection.isNone = true) ↔
      ¬ ((∃ c, s.connection = some c) ∨ ∀ m ∈ s.media, ∃ c, m.connection = some c) := by
    simp only [Session.getConnection, Media.getConnection, Bool.not_eq_true', ← Bool.not_eq_true,
      List.all_eq_true, Option.isSome_iff_exists, not_or]
    rw [and_comm]
    refine and_congr_left fun _ => ?_
    cases s.connection <;> simp
  unfold sanityCheck
  rw [ite_eq_iff', ite_eq_iff', ite_eq_iff', hx, hc, checkMediaList_ok]
  simp only [seqError_eq_ok]
  constructor
  · rintro ⟨h1, h2⟩
    have ht : s.timing.isNone = false := by
      cases hs : s.timing.isNone with
      | false => rfl
      | true => exact (h1 hs).elim
    obtain ⟨h3, h4⟩ := h2 (by simp [ht])
    have h3' := not_not.1 h3
    obtain ⟨h5, h6⟩ := h4 (not_not.2 h3')
    refine ⟨?_, h3', h5, h6 h5⟩
    cases hs : s.timing with
    | none => simp [hs] at ht
    | some t => exact ⟨t, rfl⟩
  · rintro ⟨⟨t, h1⟩, h2, h3, h4⟩
    exact ⟨by simp [h1], fun _ => ⟨fun h => h h2, fun _ => ⟨h3, fun _ => h4⟩⟩⟩

theorem sessionPart_eq (ls : List SdpLine) : sessionPart ls = ls.takeWhile notMedia := by
  unfold sessionPart; congr 1; funext l; exact (notMedia_eq l).symm

theorem sectionsOf_mediaPart (ls : List SdpLine) : sectionsOf (mediaPart ls) = sectionsOf ls := by
  unfold mediaPart
  induction ls with
  | nil => rfl
  | cons l ls ih =>
    rw [List.dropWhile_cons]
    split
    · rename_i h
      rw [ih]
      obtain ⟨n, ty, t⟩ := l
      cases ty <;> first | rfl | simp [SdpLine.isMedia] at h
    · rfl

theorem mediaPart_nil_or (ls : List SdpLine) :
    (mediaPart ls = [] ∧ sectionsOf ls = []) ∨ ∃ l rest m, mediaPart ls = l :: rest ∧ l.sdpType = .media m := by
  cases h : mediaPart ls with
  | nil => left; exact ⟨rfl, by rw [← sectionsOf_mediaPart, h]; rfl⟩
  | cons l rest =>
    right
    have h' : ls.dropWhile (fun l => !l.isMedia) ≠ [] := by
      unfold mediaPart at h; rw [h]; simp
    have := List.head_dropWhile_not _ h'
    unfold mediaPart at h
    simp [h] at this
    obtain ⟨n, ty, t⟩ := l
    cases ty with
    | media m => exact ⟨_, _, m, rfl, rfl⟩
    | _ => simp [SdpLine.isMedia] at this

variable [Env]

theorem finishSession_iff {v : UInt64} {o : Origin} {nm : Str} {rest : List SdpLine} {s : Session} :
    finishSession (Session.new v o nm) rest = .ok s ↔
      GoodSessionPart (rest.takeWhile notMedia) ∧ (∀ p ∈ sectionsOf rest, GoodSection p.2) ∧
      s = assemble v o nm rest [] ∧ Consistent s := by
  rw [finishSession_ok]
  have hn : (trim nm).isEmpty = true ↔ Blank nm := trim_isEmpty
  have he : (withSessionPart (Session.new v o nm) (rest.takeWhile notMedia)).extendMedia
      ((sectionsOf rest).map sectionMedia) = assemble v o nm rest [] := by
    simp [withSessionPart, Session.new, Session.extendMedia, assemble, hn]
  have hms (ms : List Media) : ((mediaPart rest = [] ∧ ms = []) ∨ parseMediaVector (mediaPart rest) = .ok ms) ↔
      (∀ p ∈ sectionsOf rest, GoodSection p.2) ∧ ms = (sectionsOf rest).map sectionMedia := by
    rw [parseMediaVector_ok, sectionsOf_mediaPart]
    rcases mediaPart_nil_or rest with ⟨h1, h2⟩ | ⟨l, r, m, h1, h2⟩
    · simp [h1, h2]
    · simp [h1, h2]
  constructor
  · rintro ⟨s1, ms, h1, h2, h3, h4⟩
    rw [sessionPart_eq, parseVector_ok] at h1
    rw [hms] at h2
    refine ⟨h1.1, h2.1, ?_, sanityCheck_ok.1 h4⟩
    rw [h3, h1.2, h2.2, he]
  · rintro ⟨h1, h2, h3, h4⟩
    refine ⟨withSessionPart (Session.new v o nm) (rest.takeWhile notMedia), _, ?_,
      (hms _).2 ⟨h2, rfl⟩, ?_, sanityCheck_ok.2 h4⟩
    · rw [sessionPart_eq, parseVector_ok]; exact ⟨h1, rfl⟩
    · rw [h3, he]


/-- The type character that belongs to a kind of line. -/
def SdpType.letter : SdpType → Str
  | .attr _ => c%"a"
  | .bandwidth _ => c%"b"
  | .connection _ => c%"c"
  | .media _ => c%"m"
  | .origin _ => c%"o"
  | .session _ => c%"s"
  | .timing _ => c%"t"
  | .version _ => c%"v"

theorem parseAttribute_kind {v x} (h : parseAttribute v = .ok x) : ∃ a, x = .attr a := by
  unfold parseAttribute at h
  simp only [bind_eq_ok, pure_eq_ok, Outcome.ok.injEq] at h
  obtain ⟨a, _, rfl⟩ := h; exact ⟨a, rfl⟩

theorem parseBandwidth_kind {v x} (h : parseBandwidth v = .ok x) : ∃ a, x = .bandwidth a := by
  unfold parseBandwidth at h
  simp only [] at h
  split at h
  · simp at h
  · simp only [bind_eq_ok, pure_eq_ok] at h
    obtain ⟨_, _, _, _, _, _, h⟩ := h
    split at h
    · simp at h; exact ⟨_, h.symm⟩
    split at h
    · simp at h; exact ⟨_, h.symm⟩
    split at h
    · simp at h; exact ⟨_, h.symm⟩
    · simp at h; exact ⟨_, h.symm⟩

theorem parseConnection_kind {v x} (h : parseConnection v = .ok x) : ∃ a, x = .connection a := by
  unfold parseConnection at h
  simp only [] at h
  split at h
  · simp at h
  · simp only [bind_eq_ok, pure_eq_ok] at h
    obtain ⟨_, _, _, _, _, _, _, _, _, _, _, _, _, _, h⟩ := h
    simp at h; exact ⟨_, h.symm⟩

theorem parseTiming_kind {v x} (h : parseTiming v = .ok x) : ∃ a, x = .timing a := by
  unfold parseTiming at h
  simp only [] at h
  split at h
  · simp at h
  · simp only [bind_eq_ok, pure_eq_ok] at h
    obtain ⟨_, _, _, _, _, _, _, _, h⟩ := h
    simp at h; exact ⟨_, h.symm⟩

theorem parseVersion_kind {v x} (h : parseVersion v = .ok x) : x = .version 0 := by
  unfold parseVersion at h
  simp only [bind_eq_ok, pure_eq_ok] at h
  obtain ⟨n, _, h⟩ := h
  split at h
  · simp at h
  · rename_i hn; simp at hn h; rw [← h, hn]

theorem parseOrigin_ok {v x} (h : parseOrigin v = .ok x) :
    ∃ u t1 t2 t3 t4 t5 more sid ver ty a, splitWs v = u :: t1 :: t2 :: t3 :: t4 :: t5 :: more ∧
      parseU64 t1 = .ok sid ∧ parseU64 t2 = .ok ver ∧ parseNetworkType t3 = .ok () ∧
      parseAddressType t4 = .ok ty ∧ typedTryFrom ty t5 = .ok a ∧ ty = a.addressType ∧
      x = .origin ⟨u, sid, ver, a⟩ := by
  unfold parseOrigin at h
  rcases hv : splitWs v with _ | ⟨u, _ | ⟨t1, _ | ⟨t2, _ | ⟨t3, _ | ⟨t4, _ | ⟨t5, more⟩⟩⟩⟩⟩⟩ <;> rw [hv] at h
  case cons.cons.cons.cons.cons.cons =>
    simp only [bind_eq_ok] at h
    obtain ⟨sid, h1, ver, h2, _, h3, ty, h4, a, h5, h⟩ := h
    split at h
    · simp at h
    rename_i h6
    simp at h h6
    exact ⟨u, t1, t2, t3, t4, t5, more, sid, ver, ty, a, rfl, h1, h2, h3, h4, h5, h6, h.symm⟩
  all_goals simp [bind_eq_ok] at h

theorem parseOrigin_kind {v x} (h : parseOrigin v = .ok x) : ∃ a, x = .origin a := by
  obtain ⟨_, _, _, _, _, _, _, _, _, _, _, _, _, _, _, _, _, _, h⟩ := parseOrigin_ok h
  exact ⟨_, h⟩

theorem parseMedia_kind {v x} (h : parseMedia v = .ok x) : ∃ a, x = .media a := by
  unfold parseMedia at h
  simp only [] at h
  split at h
  · simp at h
  · simp only [bind_eq_ok, pure_eq_ok] at h
    obtain ⟨_, _, _, _, _, _, h⟩ := h
    split at h
    · simp at h
    · obtain ⟨_, _, h⟩ := bind_eq_ok.1 h
      split at h
      · simp at h
      · simp only [bind_eq_ok] at h
        obtain ⟨_, _, _, _, _, _, _, _, _, _, h⟩ := h
        simp at h; exact ⟨_, h.symm⟩

/-- What `parse_sdp_line`'s dispatch does, for each kind of result. -/
theorem parseLineValue_ok {ty v raw : Str} {x : SdpType} (h : parseLineValue ty v raw = .ok x) :
    ty = x.letter ∧
    (match x with
     | .attr _ => parseAttribute v = .ok x
     | .bandwidth _ => parseBandwidth v = .ok x
     | .connection _ => parseConnection v = .ok x
     | .media _ => parseMedia v = .ok x
     | .origin _ => parseOrigin v = .ok x
     | .session s => s = raw
     | .timing _ => parseTiming v = .ok x
     | .version n => parseVersion v = .ok x ∧ n = 0) := by
  unfold parseLineValue at h
  rcases ite_cases h with ⟨hty, h⟩ | ⟨-, h⟩
  · obtain ⟨a, rfl⟩ := parseAttribute_kind h; exact ⟨hty, h⟩
  rcases ite_cases h with ⟨hty, h⟩ | ⟨-, h⟩
  · obtain ⟨a, rfl⟩ := parseBandwidth_kind h; exact ⟨hty, h⟩
  rcases ite_cases h with ⟨hty, h⟩ | ⟨-, h⟩
  · obtain ⟨a, rfl⟩ := parseConnection_kind h; exact ⟨hty, h⟩
  rcases ite_cases h with ⟨hty, h⟩ | ⟨-, h⟩
  · simp at h
  rcases ite_cases h with ⟨hty, h⟩ | ⟨-, h⟩
  · simp at h
  rcases ite_cases h with ⟨hty, h⟩ | ⟨-, h⟩
  · simp at h
  rcases ite_cases h with ⟨hty, h⟩ | ⟨-, h⟩
  · obtain ⟨a, rfl⟩ := parseMedia_kind h; exact ⟨hty, h⟩
  rcases ite_cases h with ⟨hty, h⟩ | ⟨-, h⟩
  · obtain ⟨a, rfl⟩ := parseOrigin_kind h; exact ⟨hty, h⟩
  rcases ite_cases h with ⟨hty, h⟩ | ⟨-, h⟩
  · simp at h
  rcases ite_cases h with ⟨hty, h⟩ | ⟨-, h⟩
  · simp at h
  rcases ite_cases h with ⟨hty, h⟩ | ⟨-, h⟩
  · unfold parseSessionName at h; cases h; exact ⟨hty, rfl⟩
  rcases ite_cases h with ⟨hty, h⟩ | ⟨-, h⟩
  · obtain ⟨a, rfl⟩ := parseTiming_kind h; exact ⟨hty, h⟩
  rcases ite_cases h with ⟨hty, h⟩ | ⟨-, h⟩
  · simp at h
  rcases ite_cases h with ⟨hty, h⟩ | ⟨-, h⟩
  · obtain rfl := parseVersion_kind h; exact ⟨hty, h, rfl⟩
  rcases ite_cases h with ⟨hty, h⟩ | ⟨-, h⟩
  · simp at h
  simp at h

theorem parseLineValue_version {ty v raw : Str} {n : UInt64}
    (h : parseLineValue ty v raw = .ok (.version n)) : n = 0 := (parseLineValue_ok h).2.2

/-- `parse_sdp` succeeds exactly when the accepted lines can be read as a session that satisfies the
consistency rules, and returns that session. -/
theorem parseSdp_spec {s : Str} {f : Bool} {r : Session} :
    parseSdp s f = .ok r ↔
      51 ≤ byteLen s ∧
      (∀ p ∈ contentLines s, parseSdpLine p.1 p.2 ≠ .panic) ∧
      hardErrors (contentLines s) = [] ∧
      (f = true → unsupportedErrors (contentLines s) = []) ∧
      ∃ l0 l1 l2 rest v o nm, acceptedLines (contentLines s) = l0 :: l1 :: l2 :: rest ∧ rest ≠ [] ∧
        l0.sdpType = .version v ∧ l1.sdpType = .origin o ∧ l2.sdpType = .session nm ∧
        GoodSessionPart (rest.takeWhile notMedia) ∧ (∀ p ∈ sectionsOf rest, GoodSection p.2) ∧
        r = assemble v o nm rest (unsupportedErrors (contentLines s)) ∧ Consistent r := by
  rw [parseSdp_ok]
  have hcons (v o nm rest ws) : Consistent (assemble v o nm rest []) ↔ Consistent (assemble v o nm rest ws) :=
    ⟨fun ⟨a, b, c, d⟩ => ⟨a, b, c, d⟩, fun ⟨a, b, c, d⟩ => ⟨a, b, c, d⟩⟩
  constructor
  · rintro ⟨_, h1, h2, h3, h4, r0, h5, h6⟩
    obtain ⟨l0, l1, l2, rest, v, o, nm, g1, g2, g3, g4, g5, g6⟩ := parseSdpVector_ok.1 h5
    obtain ⟨k1, k2, k3, k4⟩ := finishSession_iff.1 g6
    subst k3
    refine ⟨h1, h2, h3, h4, l0, l1, l2, rest, v, o, nm, g1, g2, g3, g4, g5, k1, k2, h6, ?_⟩
    rw [h6]
    exact (hcons _ _ _ _ _).1 k4
  · rintro ⟨h1, h2, h3, h4, l0, l1, l2, rest, v, o, nm, g1, g2, g3, g4, g5, k1, k2, h6, k4⟩
    refine ⟨?_, h1, h2, h3, h4, _, parseSdpVector_ok.2 ⟨l0, l1, l2, rest, v, o, nm, g1, g2, g3, g4, g5,
      finishSession_iff.2 ⟨k1, k2, rfl, ?_⟩⟩, h6⟩
    · rintro rfl; simp [byteLen] at h1
    · rw [h6] at k4; exact (hcons _ _ _ _ _).2 k4

/-- Every accepted line comes from a non-blank line of the text. -/
theorem mem_acceptedLines {l : List (Str × Nat)} {x : SdpLine} :
    x ∈ acceptedLines l ↔ ∃ p ∈ l, parseSdpLine p.1 p.2 = .ok x := by
  unfold acceptedLines
  rw [List.mem_filterMap]
  constructor
  · rintro ⟨p, hp, h⟩
    split at h
    · rename_i y hy; simp at h; subst h; exact ⟨p, hp, hy⟩
    · simp at h
  · rintro ⟨p, hp, h⟩; exact ⟨p, hp, by rw [h]⟩

end Sdp
