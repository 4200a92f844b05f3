import Verif.Props.Build
/-!
# C89: sessions that were parsed and then edited

Parse, change the value through the API, print: what a program that answers an offer does.
-/

namespace Sdp

section
variable [Env]

theorem MediaLine.WF.right {m : MediaLine} (h : m.WF) : m.Right := by
  refine ⟨h.port, fun l hl => ?_, fun l hl hm => ?_⟩ <;> have := h.formats <;> rw [hl] at this
  · revert this
    cases m.media <;> simp [FormatsWF]
  · revert this hm
    cases m.media <;> simp [FormatsWF]

theorem Media.WF.right {m : Media} (h : m.WF) (hl : ∀ t ∈ m.strings, '\n' ∉ t) : m.Right where
  line := h.media.right
  bandwidth b hb := ⟨h.bandwidth b hb, fun t ht => hl t (by
    simp only [Media.strings, List.mem_append, List.mem_flatMap]; exact .inr (.inl ⟨b, hb, ht⟩))⟩
  connection := h.connection
  attrs a ha := ⟨h.attrs a ha, fun t ht => hl t (by
    simp only [Media.strings, List.mem_append, List.mem_flatMap]; exact .inr (.inr (.inr ⟨a, ha, ht⟩)))⟩
  levels := h.levels

theorem Session.WF.right {s : Session} (h : s.WF) : s.Right where
  version := h.version
  origin := h.origin
  name t ht := ⟨h.name t ht, h.lineFeeds t (by
    simp only [Session.strings, List.mem_cons, List.mem_append, Option.mem_toList]; exact .inr (.inr (.inl ht)))⟩
  bandwidth b hb := ⟨h.bandwidth b hb, fun t ht => h.lineFeeds t (by
    simp only [Session.strings, List.mem_cons, List.mem_append, List.mem_flatMap]
    exact .inr (.inr (.inr (.inl ⟨b, hb, ht⟩))))⟩
  connection := h.connection
  attrs a ha := ⟨h.attrs a ha, fun t ht => h.lineFeeds t (by
    simp only [Session.strings, List.mem_cons, List.mem_append, List.mem_flatMap]
    exact .inr (.inr (.inr (.inr (.inr (.inl ⟨a, ha, ht⟩))))))⟩
  levels := h.levels
  media m hm := (h.media m hm).right fun t ht => h.lineFeeds t (by
    simp only [Session.strings, List.mem_cons, List.mem_append, List.mem_flatMap]
    exact .inr (.inr (.inr (.inr (.inr (.inr ⟨m, hm, ht⟩))))))

/-- The edited session is read back exactly if it keeps the rules. -/
theorem right_back {s : Session} (hr : s.Right) (hl : 51 ≤ byteLen (showSession s)) (g : Bool) :
    parseSdp (showSession s) g = .ok { s with warnings := [] } ↔
      Consistent s ∧ ∀ m ∈ s.media, FormatsFit m.media.media m.media.formats := by
  constructor
  · intro h
    have hc := accepted_consistent h
    refine ⟨⟨hc.1, hc.2, hc.3, hc.4⟩, fun m hm => ?_⟩
    obtain ⟨v, -, hv⟩ := (parseSdp_parts h).mline m hm
    have := (mediaLine_wf hv).formats
    revert this
    cases m.media.media <;> cases m.media.formats <;> simp [FormatsFit, FormatsWF] <;> grind
  · rintro ⟨hc, hf⟩
    exact session_round (hr.wf hc hf) hl g

/-- **C89.** Take a session that was parsed (and whose attributes print without loss) and edit it by any history of
calls, successful or failed, with right arguments. The result is read back from its text exactly if it is
consistent and the formats of each section fit its type. -/
theorem C89_edited_session (L : Laws) {t : Str} {f : Bool} {p : Session} (h : parseSdp t f = .ok p) (hp : p.Plain)
    {ops : List BuildOp} (hops : ∀ op ∈ ops, op.Right) {s : Session} (hs : s = ops.foldl Session.build p)
    (hl : 51 ≤ byteLen (showSession s)) (g : Bool) :
    parseSdp (showSession s) g = .ok { s with warnings := [] } ↔
      Consistent s ∧ ∀ m ∈ s.media, FormatsFit m.media.media m.media.formats := by
  refine right_back ?_ hl g
  rw [hs]
  exact (parsed_wf L h hp).right.builds hops

/-! ## Edits that cannot break a rule -/

omit [Env] in
theorem firstSimulcast_iff {m : Media} {sc : Simulcast} :
    FirstSimulcast m sc ↔ m.attrs.find? (fun a => a.type == .simulcast) = some (.simulcast sc) := by
  rw [List.find?_eq_some_iff_append]
  have key : ∀ a : Attribute, a.type = .simulcast ↔ ∃ x, a = .simulcast x := by
    intro a
    cases a <;> simp [Attribute.type]
  constructor
  · rintro ⟨pre, post, e, h⟩
    refine ⟨rfl, pre, post, e, fun a ha => ?_⟩
    simp only [Bool.not_eq_true', beq_eq_false_iff_ne, ne_eq, key]
    rintro ⟨x, rfl⟩
    exact h x ha
  · rintro ⟨-, pre, post, e, h⟩
    refine ⟨pre, post, e, fun x hx => ?_⟩
    have := h _ hx
    simp [Attribute.type] at this

omit [Env] in
theorem ConsistentMedia.of {m m' : Media} (h : ConsistentMedia m)
    (h1 : Attribute.rtcpMuxOnly ∈ m'.attrs → Attribute.rtcpMuxOnly ∈ m.attrs)
    (h2 : Attribute.rtcpMux ∈ m.attrs → Attribute.rtcpMux ∈ m'.attrs)
    (h3 : ∀ r, Attribute.rid r ∈ m'.attrs ↔ Attribute.rid r ∈ m.attrs)
    (h4 : m'.attrs.find? (fun a => a.type == .simulcast) = m.attrs.find? (fun a => a.type == .simulcast))
    (h5 : ∀ n, ListsFormat m.media.formats n → ListsFormat m'.media.formats n) : ConsistentMedia m' where
  mux hm := h2 (h.mux (h1 hm))
  ridFormats r hr f hf := h5 _ (h.ridFormats r ((h3 r).1 hr) f hf)
  simulcast sc hs := by
    rw [firstSimulcast_iff, h4, ← firstSimulcast_iff] at hs
    obtain ⟨k1, k2⟩ := h.simulcast sc hs
    have : ∀ d id, HasRid m d id → HasRid m' d id := fun d id ⟨r, hr, hd⟩ => ⟨r, (h3 r).2 hr, hd⟩
    exact ⟨fun v hv i hi => this _ _ (k1 v hv i hi), fun v hv i hi => this _ _ (k2 v hv i hi)⟩

/-- What the rules ask of one section. -/
structure Media.Ruled (s : Session) (m : Media) : Prop where
  media : ConsistentMedia m
  connection : s.connection.isSome ∨ m.connection.isSome
  extmap : (∃ e, Attribute.extmap e ∈ s.attrs) → ∀ e, Attribute.extmap e ∉ m.attrs
  formats : FormatsFit m.media.media m.media.formats

omit [Env] in
theorem ConsistentMedia.add {m : Media} (h : ConsistentMedia m) {a : Attribute} (ha : a.type ∉ fragileToAdd) :
    ConsistentMedia { m with attrs := m.attrs ++ [a] } := by
  simp only [fragileToAdd, List.mem_cons, List.not_mem_nil, or_false, not_or] at ha
  obtain ⟨a1, a2, a3, -⟩ := ha
  refine h.of ?_ ?_ ?_ ?_ fun _ => id
  · intro hm
    rcases List.mem_append.1 hm with hm | hm
    · exact hm
    · simp at hm; rw [← hm] at a1; exact absurd rfl a1
  · exact fun hm => List.mem_append.2 (.inl hm)
  · intro r
    refine ⟨fun hm => ?_, fun hm => List.mem_append.2 (.inl hm)⟩
    rcases List.mem_append.1 hm with hm | hm
    · exact hm
    · simp at hm; rw [← hm] at a2; exact absurd rfl a2
  · simp only [List.find?_append]
    have : List.find? (fun a => a.type == .simulcast) [a] = none := by simp [a3]
    rw [this, Option.or_none]

omit [Env] in
theorem ConsistentMedia.remove {m : Media} (h : ConsistentMedia m) {t : AttributeType} (ht : t ∉ fragileToRemove) :
    ConsistentMedia (m.removeAttribute t) := by
  simp only [fragileToRemove, List.mem_cons, List.not_mem_nil, or_false, not_or] at ht
  obtain ⟨a1, a2, a3⟩ := ht
  have keep : ∀ a : Attribute, a.type ≠ t → (a ∈ (m.removeAttribute t).attrs ↔ a ∈ m.attrs) := by
    intro a ha
    simp [Media.removeAttribute, ha]
  refine h.of ?_ ?_ ?_ ?_ fun _ => id
  · exact fun hm => (List.mem_filter.1 hm).1
  · exact (keep .rtcpMux (fun e => a1 e.symm)).2
  · exact fun r => keep (.rid r) (fun e => a2 e.symm)
  · simp only [Media.removeAttribute, List.find?_filter]
    refine congrArg (fun p => List.find? p m.attrs) (funext fun a => ?_)
    by_cases e : a.type = .simulcast
    · simp [e]; exact fun e => a3 e.symm
    · simp [e]

omit [Env] in
theorem Media.Ruled.attribute {s : Session} {m : Media} (h : Media.Ruled s m) {a : Attribute}
    (ha : a.type ∉ fragileToAdd) : Media.Ruled s (m.addAttribute a).1 := by
  unfold Media.addAttribute
  split
  · exact h
  · refine ⟨h.media.add ha, h.connection, fun he e hm => ?_, h.formats⟩
    rcases List.mem_append.1 hm with hm | hm
    · exact h.extmap he e hm
    · simp at hm; rw [← hm] at ha; exact absurd (by simp [Attribute.type, fragileToAdd]) ha

omit [Env] in
theorem Media.Ruled.without {s : Session} {m : Media} (h : Media.Ruled s m) {t : AttributeType}
    (ht : t ∉ fragileToRemove) : Media.Ruled s (m.removeAttribute t) :=
  ⟨h.media.remove ht, h.connection, fun he e hm => h.extmap he e (List.mem_filter.1 hm).1, h.formats⟩

omit [Env] in
theorem Media.Ruled.apply {s : Session} {m : Media} (h : Media.Ruled s m) {op : MediaOp} (ho : op.Harmless) :
    Media.Ruled s (m.apply op) := by
  cases op with
  | setPort p => exact ⟨⟨h.media.1, h.media.2, h.media.3⟩, h.connection, h.extmap, h.formats⟩
  | addBandwidth b => exact ⟨⟨h.media.1, h.media.2, h.media.3⟩, h.connection, h.extmap, h.formats⟩
  | setConnection c => exact ⟨⟨h.media.1, h.media.2, h.media.3⟩, .inr rfl, h.extmap, h.formats⟩
  | addAttribute a => exact h.attribute ho
  | setAttribute a => exact (h.without ho.2).attribute ho.1
  | removeAttribute t => exact h.without ho
  | removeCodecs => exact ho.elim
  | addDatachannel => exact ho.elim
  | addCodec r =>
    have key : ∀ f : FormatList, (∀ n, ListsFormat m.media.formats n → ListsFormat f n) → FormatsFit m.media.media f →
        Media.Ruled s (Media.addAttribute { m with media := { m.media with formats := f } } (.rtpmap r)).1 := by
      intro f h1 h2
      have hr : Media.Ruled s { m with media := { m.media with formats := f } } :=
        ⟨h.media.of id id (fun _ => Iff.rfl) rfl h1, h.connection, h.extmap, h2⟩
      exact hr.attribute (a := .rtpmap r) (by simp [Attribute.type, fragileToAdd])
    have hf := h.formats
    simp only [Media.apply, Media.addCodec]
    cases e : m.media.formats with
    | integers l =>
      rw [e] at hf
      refine key _ (by rw [e]; exact fun n ⟨x, hx, e⟩ => ⟨x, List.mem_append.2 (.inl hx), e⟩) ?_
      revert hf
      cases m.media.media <;> simp [FormatsFit]
    | strings l =>
      rw [e] at hf
      refine key _ (by rw [e]; exact fun n hx => List.mem_append.2 (.inl hx)) ?_
      revert hf
      cases m.media.media <;> simp [FormatsFit]

omit [Env] in
theorem ruled_iff {s : Session} : (Consistent s ∧ ∀ m ∈ s.media, FormatsFit m.media.media m.media.formats) ↔
    s.timing.isSome ∧ ∀ m ∈ s.media, Media.Ruled s m := by
  constructor
  · rintro ⟨h, hf⟩
    refine ⟨by obtain ⟨t, e⟩ := h.timing; rw [e]; rfl, fun m hm => ⟨h.media m hm, ?_, fun he e hx => ?_, hf m hm⟩⟩
    · rcases h.connection with ⟨c, e⟩ | h
      · exact .inl (by rw [e]; rfl)
      · obtain ⟨c, e⟩ := h m hm
        exact .inr (by rw [e]; rfl)
    · exact h.extmap ⟨he, m, hm, e, hx⟩
  · rintro ⟨ht, h⟩
    refine ⟨⟨Option.isSome_iff_exists.1 ht, ?_, ?_, fun m hm => (h m hm).media⟩, fun m hm => (h m hm).formats⟩
    · cases hc : s.connection with
      | some c => exact .inl ⟨c, rfl⟩
      | none =>
        refine .inr fun m hm => ?_
        rcases (h m hm).connection with hs | hs
        · rw [hc] at hs; cases hs
        · exact Option.isSome_iff_exists.1 hs
    · rintro ⟨he, m, hm, e, hx⟩
      exact (h m hm).extmap he e hx

omit [Env] in
theorem ruled_mono {s s' : Session} {m : Media} (h : Media.Ruled s m) (h1 : s.connection.isSome → s'.connection.isSome)
    (h2 : (∃ e, Attribute.extmap e ∈ s'.attrs) → ∃ e, Attribute.extmap e ∈ s.attrs) : Media.Ruled s' m :=
  ⟨h.media, h.connection.imp h1 id, fun he => h.extmap (h2 he), h.formats⟩

omit [Env] in
theorem or_isSome {α : Type} {a b : Option α} (h : b.isSome) : (a.or b).isSome := by
  cases a <;> simp [h]

theorem ruled_build {s : Session} (h : s.timing.isSome ∧ ∀ m ∈ s.media, Media.Ruled s m) {op : BuildOp}
    (ho : op.Harmless) : (s.build op).timing.isSome ∧ ∀ m ∈ (s.build op).media, Media.Ruled (s.build op) m := by
  have part : ∀ ls : List SdpLine, (∀ l ∈ ls, ∀ e, l.sdpType ≠ .attr (.extmap e)) →
      (withSessionPart s ls).timing.isSome ∧ ∀ m ∈ (withSessionPart s ls).media, Media.Ruled (withSessionPart s ls) m := by
    intro ls hl
    refine ⟨or_isSome h.1, fun m hm => ruled_mono (h.2 m hm) or_isSome ?_⟩
    rintro ⟨e, he⟩
    rcases List.mem_append.1 he with he | he
    · exact ⟨e, he⟩
    · obtain ⟨l, hm, hx⟩ := List.mem_filterMap.1 he
      have := hl l hm e
      revert this hx
      cases l.sdpType <;> simp
      exact fun e h => absurd e h
  cases op with
  | inSection i op =>
    refine ⟨h.1, fun m hm => ?_⟩
    obtain ⟨k, hk, rfl⟩ := List.getElem_of_mem hm
    simp only [Session.build] at hk ⊢
    rw [List.getElem_modify]
    have hk' : k < s.media.length := by simpa using hk
    have hx := h.2 _ (List.getElem_mem hk')
    split
    · exact ruled_mono (hx.apply ho) id id
    · exact ruled_mono hx id id
  | session op =>
    cases op with
    | setConnection c => exact ⟨h.1, fun m hm => ruled_mono (h.2 m hm) (fun _ => rfl) id⟩
    | addBandwidth b => exact ⟨h.1, fun m hm => ruled_mono (h.2 m hm) id id⟩
    | setTiming t => exact ⟨rfl, fun m hm => ruled_mono (h.2 m hm) id id⟩
    | extendMedia l => exact ho.elim
    | addMedia => exact ho.elim
    | addAttribute a =>
      simp only [Session.build, Session.apply, Session.addAttribute]
      split
      · exact h
      · refine ⟨h.1, fun m hm => ruled_mono (h.2 m hm) id ?_⟩
        rintro ⟨e, he⟩
        rcases List.mem_append.1 he with he | he
        · exact ⟨e, he⟩
        · simp at he
          have ho : a.type ≠ .extmap := ho
          rw [← he] at ho
          exact absurd rfl ho
    | parseSessionVector ls =>
      simp only [Session.build, Session.apply]
      rcases hr : s.parseVector ls with ⟨s', r⟩
      cases r with
      | ok u =>
        obtain ⟨hg, rfl⟩ := parseVector_ok.1 hr
        exact part ls ho
      | err e =>
        obtain ⟨pre, bad, post, rfl, hg, _, rfl, _⟩ := C11_failure_prefix hr
        exact part pre fun l hl => ho l (by simp [hl])
      | panic =>
        have := np_parseVector s ls
        rw [hr] at this
        exact absurd rfl this

theorem ruled_builds {s : Session} (h : s.timing.isSome ∧ ∀ m ∈ s.media, Media.Ruled s m) {ops : List BuildOp}
    (ho : ∀ op ∈ ops, op.Harmless) : (ops.foldl Session.build s).timing.isSome ∧
      ∀ m ∈ (ops.foldl Session.build s).media, Media.Ruled (ops.foldl Session.build s) m := by
  induction ops generalizing s with
  | nil => exact h
  | cons op ops ih => exact ih (ruled_build h (ho op (by simp))) fun o hx => ho o (by simp [hx])

/-- **C89.** Harmless edits never make a session unreadable: if every call has right arguments and is one that can
break no rule, the text of the result is accepted as the result. -/
theorem C89_harmless (L : Laws) {t : Str} {f : Bool} {p : Session} (h : parseSdp t f = .ok p) (hp : p.Plain)
    {ops : List BuildOp} (hops : ∀ op ∈ ops, op.Right ∧ op.Harmless) {s : Session} (hs : s = ops.foldl Session.build p)
    (hl : 51 ≤ byteLen (showSession s)) (g : Bool) :
    parseSdp (showSession s) g = .ok { s with warnings := [] } := by
  refine (C89_edited_session L h hp (fun op ho => (hops op ho).1) hs hl g).2 ?_
  rw [ruled_iff, hs]
  refine ruled_builds ?_ fun op ho => (hops op ho).2
  rw [← ruled_iff]
  refine ⟨accepted_consistent h, fun m hm => ?_⟩
  obtain ⟨v, -, hv⟩ := (parseSdp_parts h).mline m hm
  have := (mediaLine_wf hv).formats
  revert this
  cases m.media.media <;> cases m.media.formats <;> simp [FormatsFit, FormatsWF] <;> grind

end

section
attribute [local instance] sampleEnv

/-- Harmless edits: a port, a codec, an address, an attribute, a failing call and one out of range. -/
def sampleEdits : List BuildOp :=
  [.inSection 0 (.setPort 5004), .inSection 0 (.addCodec ⟨111, c%"opus", 48000, some 2⟩),
   .inSection 0 (.setConnection ⟨.ip (.v4 0x7f000001), none, none⟩), .inSection 0 (.setAttribute .recvonly),
   .session (.addAttribute .rtcpMux), .inSection 9 (.removeAttribute .fmtp), .session (.setTiming ⟨1, 2⟩)]

example : ∀ op ∈ sampleEdits, op.Right ∧ op.Harmless := by
  intro op hop
  simp only [sampleEdits, List.mem_cons, List.not_mem_nil, or_false] at hop
  rcases hop with rfl | rfl | rfl | rfl | rfl | rfl | rfl
  · exact ⟨show _ ≤ _ by decide, trivial⟩
  · exact ⟨⟨⟨by decide, by decide, by decide⟩, by unfold RtpFormat; decide⟩, trivial⟩
  · exact ⟨⟨trivial, fun _ => rfl⟩, trivial⟩
  · exact ⟨⟨trivial, by intro t ht; cases ht⟩, by unfold BuildOp.Harmless MediaOp.Harmless; decide⟩
  · exact ⟨⟨trivial, by intro t ht; cases ht⟩, by unfold BuildOp.Harmless SessionOp.Harmless; decide⟩
  · exact ⟨trivial, by unfold BuildOp.Harmless MediaOp.Harmless; decide⟩
  · exact ⟨trivial, trivial⟩

/-- The example session of C55, parsed and edited, has changed and is read back. -/
example : (match parseSdp sampleText false with
    | .ok p => decide (p.Plain ∧ 51 ≤ byteLen (showSession (sampleEdits.foldl Session.build p)) ∧
        parseSdp (showSession (sampleEdits.foldl Session.build p)) true =
          .ok { sampleEdits.foldl Session.build p with warnings := [] } ∧
        sampleEdits.foldl Session.build p ≠ p)
    | _ => false) = true := by decide +kernel

/-- Calls of each kind that is not harmless, after which the text of the example is not read back. -/
def fragileEdits : List (List BuildOp) :=
  [[.inSection 0 .removeCodecs], [.inSection 0 (.addDatachannel c%"x" 1 1 0)],
   [.inSection 0 (.removeAttribute .rtcpMux), .inSection 0 (.addAttribute .rtcpMuxOnly)],
   [.inSection 0 (.addAttribute .rtcpMux), .inSection 0 (.addAttribute .rtcpMuxOnly), .inSection 0 (.removeAttribute .rtcpMux)],
   [.inSection 0 (.addAttribute (.rid ⟨c%"1", .send, [5], ⟨0, 0, 0, 0, 0, 0, []⟩, []⟩))],
   [.inSection 0 (.addAttribute (.simulcast ⟨[⟨[⟨c%"z", false⟩]⟩], []⟩))],
   [.inSection 0 (.addAttribute (.extmap ⟨1, none, c%"u", none⟩)), .session (.addAttribute (.extmap ⟨1, none, c%"u", none⟩))],
   [.session (.addMedia .audio .sendrecv 9 .udpTlsRtpSavpf (.ip (.v4 0)))]]

example : (match parseSdp sampleText false with
    | .ok p => fragileEdits.all fun ops =>
      decide (parseSdp (showSession (ops.foldl Session.build p)) false ≠ .ok { ops.foldl Session.build p with warnings := [] })
    | _ => false) = true := by decide +kernel

end

end Sdp
