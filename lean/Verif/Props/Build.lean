import Verif.Spec.Build
import Verif.Props.Api
import Verif.Props.Parsed
/-!
# C85: sessions built with the API
-/

namespace Sdp

section
variable [Env]

/-- A section built from an m= line by calls with right arguments. -/
def Media.BuiltRight (m : Media) : Prop :=
  ∃ (line : MediaLine) (ops : List MediaOp), line.Right ∧ (∀ op ∈ ops, op.Right) ∧ m = (Media.new line).applyAll ops

/-- The arguments of a call on a session are right. -/
def SessionOp.Right : SessionOp → Prop
  | .setConnection c => c.WF
  | .addBandwidth b => b.WF ∧ NoLineFeed b.strings
  | .setTiming _ => True
  | .addAttribute a => a.WF ∧ NoLineFeed a.strings
  | .extendMedia l => ∀ m ∈ l, m.BuiltRight
  | .addMedia _ dir port _ addr => dir.WF ∧ NoLineFeed dir.strings ∧ port.toNat ≤ 65535 ∧ addr.WF
  | .parseSessionVector ls => ∀ l ∈ ls, l.sdpType.Right

def BuildOp.Right : BuildOp → Prop
  | .session op => op.Right
  | .inSection _ op => op.Right

/-- One call. -/
def Session.build (s : Session) : BuildOp → Session
  | .session op => s.apply op
  | .inSection i op => { s with media := s.media.modify i (fun m => m.apply op) }

/-- What calls with right arguments keep of a section. -/
structure Media.Right (m : Media) : Prop where
  line : m.media.Right
  bandwidth : ∀ b ∈ m.bandwidth, b.WF ∧ NoLineFeed b.strings
  connection : ∀ c, m.connection = some c → c.WF
  attrs : ∀ a ∈ m.attrs, a.WF ∧ NoLineFeed a.strings
  levels : ∀ a ∈ m.attrs, a.type ∉ sessionOnly

theorem Media.Right.new {l : MediaLine} (h : l.Right) : (Media.new l).Right :=
  ⟨h, by simp [Media.new], by simp [Media.new], by simp [Media.new], by simp [Media.new]⟩

theorem Media.Right.add {m : Media} (h : m.Right) {a : Attribute} (ha : a.WF ∧ NoLineFeed a.strings) :
    (m.addAttribute a).1.Right := by
  rcases addAttribute_eq m a with ⟨h1, h2⟩ | ⟨h1, e, h2⟩
  · rw [h2]
    refine ⟨h.line, h.bandwidth, h.connection, fun b hb => ?_, fun b hb => ?_⟩ <;>
      rcases List.mem_append.1 hb with hb | hb
    · exact h.attrs b hb
    · simp at hb; rw [hb]; exact ha
    · exact h.levels b hb
    · simp at hb; rw [hb]; exact h1
  · rw [h2]; exact h

theorem Media.Right.filter {m : Media} (h : m.Right) (p : Attribute → Bool) :
    Media.Right { m with attrs := m.attrs.filter p } :=
  ⟨h.line, h.bandwidth, h.connection, fun b hb => h.attrs b (List.mem_filter.1 hb).1,
    fun b hb => h.levels b (List.mem_filter.1 hb).1⟩

theorem Media.Right.set {m : Media} (h : m.Right) {a : Attribute} (ha : a.WF ∧ NoLineFeed a.strings) :
    (m.setAttribute a).1.Right := (h.filter _).add ha

theorem Media.Right.withLine {m : Media} (h : m.Right) {l : MediaLine} (hl : l.Right) :
    Media.Right { m with media := l } := ⟨hl, h.bandwidth, h.connection, h.attrs, h.levels⟩

theorem Rtpmap.WF.noLineFeed {r : Rtpmap} (h : r.WF) : NoLineFeed [r.codecName] := by
  intro t ht hc
  simp at ht
  rw [ht] at hc
  have := h.codecName.2 _ hc
  revert this; decide

theorem Media.Right.apply {m : Media} (h : m.Right) {op : MediaOp} (hop : op.Right) : (m.apply op).Right := by
  cases op with
  | setPort p => exact h.withLine ⟨hop, h.line.words, h.line.numbers⟩
  | addBandwidth b =>
    refine ⟨h.line, fun x hx => ?_, h.connection, h.attrs, h.levels⟩
    rcases List.mem_append.1 hx with hx | hx
    · exact h.bandwidth x hx
    · simp at hx; rw [hx]; exact hop
  | setConnection c => exact ⟨h.line, h.bandwidth, by rintro _ ⟨⟩; exact hop, h.attrs, h.levels⟩
  | addAttribute a => exact h.add hop
  | setAttribute a => exact h.set hop
  | removeAttribute t => exact h.filter _
  | removeCodecs =>
    refine Media.Right.withLine (m := { m with attrs := _ }) (h.filter _) ⟨h.line.port, fun l hl => ?_, fun l hl => ?_⟩
    · simp only [] at hl; split at hl <;> cases hl; simp
    · simp only [] at hl; split at hl <;> cases hl; simp
  | addCodec r =>
    have ha : (Attribute.rtpmap r).WF ∧ NoLineFeed (Attribute.rtpmap r).strings := ⟨hop.1, hop.1.noLineFeed⟩
    simp only [Media.apply, Media.addCodec]
    refine Media.Right.add ?_ ha
    refine Media.Right.withLine h ⟨h.line.port, fun l hl => ?_, fun l hl => ?_⟩
    · simp only [] at hl
      split at hl <;> cases hl
      rename_i l' hl'
      intro t ht
      rcases List.mem_append.1 ht with ht | ht
      · exact h.line.words _ hl' t ht
      · simp at ht; rw [ht]; exact Token.u8 _
    · simp only [] at hl ⊢
      split at hl <;> cases hl
      rename_i l' hl'
      intro hm n hn
      rcases List.mem_append.1 hn with hn | hn
      · exact h.line.numbers _ hl' hm n hn
      · simp only [List.mem_singleton] at hn
        rw [hn, UInt32.toNat_ofNat_of_lt' (by have := r.payloadType.toNat_lt; simp [UInt32.size]; omega)]
        exact hop.2
  | addDatachannel name port streams sz =>
    have h1 : (Attribute.sctpPort (UInt64.ofNat port.toNat)).WF := by
      show _ ≤ _
      have := port.toNat_lt
      rw [UInt64.toNat_ofNat_of_lt' (by simp [UInt64.size]; omega)]
      omega
    have hs : ∀ a : Attribute, a.strings = [] → NoLineFeed a.strings := fun a e => by rw [e]; intro t ht; cases ht
    simp only [Media.apply, addDatachannel_eq]
    -- the type is changed last, but the formats fit application already
    have key : ∀ x : Media, x.bandwidth = m.bandwidth → x.connection = m.connection →
        (∀ a ∈ x.attrs, a.WF ∧ NoLineFeed a.strings) → (∀ a ∈ x.attrs, a.type ∉ sessionOnly) →
        x.media.port = m.media.port → (∀ l, x.media.formats = .strings l → l = [name]) →
        Media.Right { x with media := { x.media with media := .application } } := by
      intro x k1 k2 k3 k4 k5 k6
      refine ⟨⟨by show x.media.port.toNat ≤ _; rw [k5]; exact h.line.port, fun l hl => ?_, fun l hl hm => absurd rfl hm⟩,
        by simp only [k1]; exact h.bandwidth, by simp only [k2]; exact h.connection, k3, k4⟩
      rw [k6 l hl]
      intro t ht
      simp at ht; rw [ht]; exact hop
    have hkeep : ∀ (x : Media) (a : Attribute), (x.setAttribute a).1.bandwidth = x.bandwidth ∧
        (x.setAttribute a).1.connection = x.connection := by
      intro x a
      unfold Media.setAttribute
      rcases addAttribute_eq (x.removeAttribute a.type) a with ⟨_, h2⟩ | ⟨_, e, h2⟩ <;> rw [h2] <;> exact ⟨rfl, rfl⟩
    have hattrs : ∀ (x : Media) (a : Attribute), (∀ b ∈ x.attrs, b.WF ∧ NoLineFeed b.strings) →
        (∀ b ∈ x.attrs, b.type ∉ sessionOnly) → a.WF ∧ NoLineFeed a.strings →
        (∀ b ∈ (x.setAttribute a).1.attrs, b.WF ∧ NoLineFeed b.strings) ∧
        (∀ b ∈ (x.setAttribute a).1.attrs, b.type ∉ sessionOnly) := by
      intro x a k1 k2 k3
      have hf : ∀ b ∈ (x.removeAttribute a.type).attrs, b ∈ x.attrs := fun b hb => (List.mem_filter.1 hb).1
      unfold Media.setAttribute
      rcases addAttribute_eq (x.removeAttribute a.type) a with ⟨h1, h2⟩ | ⟨_, e, h2⟩ <;> rw [h2]
      · constructor <;> intro b hb <;> rcases List.mem_append.1 hb with hb | hb
        · exact k1 b (hf b hb)
        · simp at hb; rw [hb]; exact k3
        · exact k2 b (hf b hb)
        · simp at hb; rw [hb]; exact h1
      · exact ⟨fun b hb => k1 b (hf b hb), fun b hb => k2 b (hf b hb)⟩
    have ha : (if isSctp m.media.proto then Attribute.sctpPort (UInt64.ofNat port.toNat)
        else .sctpmap ⟨port, UInt32.ofNat streams.toNat⟩).WF ∧
        NoLineFeed (if isSctp m.media.proto then Attribute.sctpPort (UInt64.ofNat port.toNat)
        else .sctpmap ⟨port, UInt32.ofNat streams.toNat⟩).strings := by
      split
      · exact ⟨h1, hs _ rfl⟩
      · exact ⟨trivial, hs _ rfl⟩
    have hA := fun (x : Media) (e : x.attrs = m.attrs) =>
      hattrs x _ (by rw [e]; exact h.attrs) (by rw [e]; exact h.levels) ha
    have hB := fun (x : Media) (e : x.attrs = m.attrs) =>
      hattrs _ (.maxMessageSize (UInt64.ofNat sz.toNat)) (hA x e).1 (hA x e).2 ⟨trivial, hs _ rfl⟩
    refine key _ ?_ ?_ ?_ ?_ ?_ ?_
    · split <;> simp only [hkeep]
    · split <;> simp only [hkeep]
    · split
      · refine (hB _ ?_).1; rfl
      · refine (hA _ ?_).1; rfl
    · split
      · refine (hB _ ?_).2; rfl
      · refine (hA _ ?_).2; rfl
    · split <;> simp only [set_media]
    · intro l hl
      have : (if isSctp m.media.proto then FormatList.strings [name] else .integers [UInt32.ofNat port.toNat]) = .strings l := by
        revert hl
        split <;> simp only [set_media] <;> exact id
      split at this
      · cases this; rfl
      · cases this

theorem Media.Right.applyAll {m : Media} (h : m.Right) {ops : List MediaOp} (hop : ∀ op ∈ ops, op.Right) :
    (m.applyAll ops).Right := by
  unfold Media.applyAll
  induction ops generalizing m with
  | nil => exact h
  | cons op ops ih => exact ih (h.apply (hop op (by simp))) fun o ho => hop o (by simp [ho])

theorem Media.BuiltRight.right {m : Media} (h : m.BuiltRight) : m.Right := by
  obtain ⟨l, ops, hl, hops, rfl⟩ := h
  exact (Media.Right.new hl).applyAll hops

/-- What calls with right arguments keep of a session. -/
structure Session.Right (s : Session) : Prop where
  version : s.version = 0
  origin : s.origin.WF
  name : ∀ t, s.session = some t → Trimmed t ∧ '\n' ∉ t
  bandwidth : ∀ b ∈ s.bandwidth, b.WF ∧ NoLineFeed b.strings
  connection : ∀ c, s.connection = some c → c.WF
  attrs : ∀ a ∈ s.attrs, a.WF ∧ NoLineFeed a.strings
  levels : ∀ a ∈ s.attrs, a.type ∉ mediaOnly
  media : ∀ m ∈ s.media, m.Right

theorem trim_mem {s : Str} {c : Char} (h : c ∈ trim s) : c ∈ s := by
  obtain ⟨w1, w2, -, -, e⟩ := trim_spec s
  rw [e]; simp [h]

theorem Session.Right.new {o : Origin} {name : Str} (ho : o.WF) (hn : '\n' ∉ name) : (Session.new 0 o name).Right := by
  refine ⟨rfl, ho, fun t ht => ?_, by simp [Session.new], by simp [Session.new], by simp [Session.new],
    by simp [Session.new], by simp [Session.new]⟩
  simp only [Session.new] at ht
  split at ht
  · cases ht
  · rename_i hne
    cases ht
    exact ⟨trimmed_of_trim (trim_trim name) (by simpa using hne), fun hc => hn (trim_mem hc)⟩

theorem Session.Right.withPart {s : Session} (h : s.Right) {ls : List SdpLine} (hg : GoodSessionPart ls)
    (hr : ∀ l ∈ ls, l.sdpType.Right) : (withSessionPart s ls).Right := by
  refine ⟨h.version, h.origin, h.name, fun b hb => ?_, fun c hc => ?_, fun a ha => ?_, fun a ha => ?_, h.media⟩
  · rcases List.mem_append.1 hb with hb | hb
    · exact h.bandwidth b hb
    · obtain ⟨l, hl, e⟩ := List.mem_filterMap.1 hb
      have := hr l hl
      revert e this
      cases l.sdpType <;> simp <;> rintro rfl h <;> exact h
  · rcases Option.or_eq_some_iff.1 hc with hc | ⟨-, hc⟩
    · obtain ⟨l, hl, e⟩ := List.mem_filterMap.1 (List.mem_of_getLast? hc)
      have := hr l hl
      revert e this
      cases l.sdpType <;> simp <;> rintro rfl h <;> exact h
    · exact h.connection c hc
  · rcases List.mem_append.1 ha with ha | ha
    · exact h.attrs a ha
    · obtain ⟨l, hl, e⟩ := List.mem_filterMap.1 ha
      have := hr l hl
      revert e this
      cases l.sdpType <;> simp <;> rintro rfl h <;> exact h
  · rcases List.mem_append.1 ha with ha | ha
    · exact h.levels a ha
    · exact hg.levels a ha

theorem Session.Right.build {s : Session} (h : s.Right) {op : BuildOp} (hop : op.Right) : (s.build op).Right := by
  cases op with
  | inSection i op =>
    refine ⟨h.version, h.origin, h.name, h.bandwidth, h.connection, h.attrs, h.levels, fun m hm => ?_⟩
    obtain ⟨k, hk, rfl⟩ := List.getElem_of_mem hm
    simp only [Session.build] at hk ⊢
    rw [List.getElem_modify]
    have hk' : k < s.media.length := by simpa using hk
    split
    · exact (h.media _ (List.getElem_mem hk')).apply hop
    · exact h.media _ (List.getElem_mem hk')
  | session op =>
    cases op with
    | setConnection c => exact ⟨h.version, h.origin, h.name, h.bandwidth, by rintro _ ⟨⟩; exact hop, h.attrs, h.levels, h.media⟩
    | addBandwidth b =>
      refine ⟨h.version, h.origin, h.name, fun x hx => ?_, h.connection, h.attrs, h.levels, h.media⟩
      rcases List.mem_append.1 hx with hx | hx
      · exact h.bandwidth x hx
      · simp at hx; rw [hx]; exact hop
    | setTiming t => exact ⟨h.version, h.origin, h.name, h.bandwidth, h.connection, h.attrs, h.levels, h.media⟩
    | addAttribute a =>
      simp only [Session.build, Session.apply, Session.addAttribute]
      split
      · exact h
      · rename_i hl
        simp at hl
        refine ⟨h.version, h.origin, h.name, h.bandwidth, h.connection, fun x hx => ?_, fun x hx => ?_, h.media⟩ <;>
          rcases List.mem_append.1 hx with hx | hx
        · exact h.attrs x hx
        · simp at hx; rw [hx]; exact hop
        · exact h.levels x hx
        · simp at hx; rw [hx]; exact (allowedAtSessionLevel_iff a).1 hl
    | extendMedia l =>
      refine ⟨h.version, h.origin, h.name, h.bandwidth, h.connection, h.attrs, h.levels, fun m hm => ?_⟩
      rcases List.mem_append.1 hm with hm | hm
      · exact h.media m hm
      · exact (hop m hm).right
    | addMedia t d p pr ad =>
      obtain ⟨h1, h2⟩ := C34_add_media s t d p pr ad
      simp only [Session.build, Session.apply]
      by_cases hd : d.type ∈ sessionOnly
      · obtain ⟨e, he⟩ := h2 hd; rw [he]; exact h
      · rw [h1 hd]
        refine ⟨h.version, h.origin, h.name, h.bandwidth, h.connection, h.attrs, h.levels, fun m hm => ?_⟩
        rcases List.mem_append.1 hm with hm | hm
        · exact h.media m hm
        · simp at hm
          obtain ⟨k1, k2, k3, k4⟩ := hop
          rw [hm]
          refine ⟨⟨k3, by simp, by simp⟩, by simp, ?_, ?_, ?_⟩
          · rintro _ ⟨⟩; exact ⟨k4, fun _ => rfl⟩
          · intro a ha; simp at ha; rw [ha]; exact ⟨k1, k2⟩
          · intro a ha; simp at ha; rw [ha]; exact hd
    | parseSessionVector ls =>
      simp only [Session.build, Session.apply]
      rcases hr : s.parseVector ls with ⟨s', r⟩
      cases r with
      | ok u =>
        obtain ⟨hg, rfl⟩ := parseVector_ok.1 hr
        exact h.withPart hg hop
      | err e =>
        obtain ⟨pre, bad, post, rfl, hg, _, rfl, _⟩ := C11_failure_prefix hr
        exact h.withPart hg fun l hl => hop l (by simp [hl])
      | panic =>
        have := np_parseVector s ls
        rw [hr] at this
        exact absurd rfl this

theorem HostName.noLineFeed {d : Str} (h : HostName d) : '\n' ∉ d := fun hc => by
  have := h.1.2 _ hc
  revert this; decide

theorem TypedAddress.WF.noLineFeed {a : TypedAddress} (h : a.WF) : NoLineFeed a.strings := by
  cases a with
  | ip => intro t ht; cases ht
  | fqdn t d =>
    intro x hx
    simp only [TypedAddress.strings, List.mem_singleton] at hx
    rw [hx]; exact HostName.noLineFeed h

theorem Token.noLineFeed {d : Str} (h : Token d) : '\n' ∉ d := fun hc => by
  have := h.2 _ hc
  revert this; decide

theorem Session.Right.lineFeeds {s : Session} (h : s.Right) : ∀ t ∈ s.strings, '\n' ∉ t := by
  intro t ht
  simp only [Session.strings, Media.strings, List.mem_cons, List.mem_append, List.mem_flatMap, Option.mem_toList] at ht
  rcases ht with rfl | ht | ht | ⟨b, hb, ht⟩ | ⟨c, hc', ht⟩ | ⟨a, ha, ht⟩ | ⟨m, hm, ht⟩
  · exact h.origin.username.noLineFeed
  · exact h.origin.address.noLineFeed t ht
  · exact (h.name t ht).2
  · exact (h.bandwidth b hb).2 t ht
  · exact (h.connection c hc').address.noLineFeed t ht
  · exact (h.attrs a ha).2 t ht
  · have k := h.media m hm
    rcases ht with ht | ⟨b, hb, ht⟩ | ⟨c, hc', ht⟩ | ⟨a, ha, ht⟩
    · have k1 := k.line.words
      revert k1 ht
      cases m.media.formats with
      | strings l => intro ht k1; exact (k1 l rfl t ht).noLineFeed
      | integers l => intro ht; cases ht
    · exact (k.bandwidth b hb).2 t ht
    · exact (k.connection c hc').address.noLineFeed t ht
    · exact (k.attrs a ha).2 t ht

theorem Session.Right.wf {s : Session} (h : s.Right) (hc : Consistent s)
    (hf : ∀ m ∈ s.media, FormatsFit m.media.media m.media.formats) : s.WF where
  version := h.version
  origin := h.origin
  name t ht := (h.name t ht).1
  bandwidth b hb := (h.bandwidth b hb).1
  connection := h.connection
  attrs a ha := (h.attrs a ha).1
  levels := h.levels
  media m hm := by
    have k := h.media m hm
    refine ⟨⟨k.line.port, ?_⟩, fun b hb => (k.bandwidth b hb).1, k.connection, fun a ha => (k.attrs a ha).1, k.levels⟩
    have := hf m hm
    have k1 := k.line.words
    have k2 := k.line.numbers
    revert this k1 k2
    cases m.media.media <;> cases m.media.formats <;> simp [FormatsFit, FormatsWF] <;> grind
  lineFeeds := h.lineFeeds
  consistent := hc

/-- No call touches the warnings. -/
theorem build_warnings (s : Session) (op : BuildOp) : (s.build op).warnings = s.warnings := by
  cases op with
  | inSection i op => rfl
  | session op =>
    cases op with
    | addAttribute a =>
      simp only [Session.build, Session.apply, Session.addAttribute]
      split <;> rfl
    | addMedia t d p pr ad =>
      obtain ⟨h1, h2⟩ := C34_add_media s t d p pr ad
      simp only [Session.build, Session.apply]
      by_cases hd : d.type ∈ sessionOnly
      · obtain ⟨e, he⟩ := h2 hd; rw [he]
      · rw [h1 hd]
    | parseSessionVector ls =>
      simp only [Session.build, Session.apply]
      rcases hr : s.parseVector ls with ⟨s', r⟩
      cases r with
      | ok u => obtain ⟨hg, rfl⟩ := parseVector_ok.1 hr; rfl
      | err e => obtain ⟨pre, bad, post, rfl, hg, _, rfl, _⟩ := C11_failure_prefix hr; rfl
      | panic =>
        have := np_parseVector s ls
        rw [hr] at this
        exact absurd rfl this
    | _ => rfl

theorem builds_warnings (s : Session) (ops : List BuildOp) : (ops.foldl Session.build s).warnings = s.warnings := by
  induction ops generalizing s with
  | nil => rfl
  | cons op ops ih => rw [List.foldl_cons, ih, build_warnings]

theorem Session.Right.builds {s : Session} (h : s.Right) {ops : List BuildOp}
    (hops : ∀ op ∈ ops, op.Right) : (ops.foldl Session.build s).Right := by
  induction ops generalizing s with
  | nil => exact h
  | cons op ops ih => exact ih (h.build (hops op (by simp))) (fun o ho => hops o (by simp [ho]))

theorem built_right {o : Origin} {name : Str} (ho : o.WF) (hn : '\n' ∉ name) {ops : List BuildOp}
    (hops : ∀ op ∈ ops, op.Right) : (ops.foldl Session.build (Session.new 0 o name)).Right :=
  (Session.Right.new ho hn).builds hops

/-- **C85.** A session that is built by any history of calls, successful or failed, with right arguments
is read back from its text exactly if it is consistent and the formats of each section fit its
type; nothing else can go wrong. -/
theorem C85_built_session {o : Origin} {name : Str} (ho : o.WF) (hn : '\n' ∉ name) {ops : List BuildOp}
    (hops : ∀ op ∈ ops, op.Right) {s : Session} (hs : s = ops.foldl Session.build (Session.new 0 o name))
    (hl : 51 ≤ byteLen (showSession s)) (f : Bool) :
    parseSdp (showSession s) f = .ok s ↔
      Consistent s ∧ ∀ m ∈ s.media, FormatsFit m.media.media m.media.formats := by
  have hr : s.Right := by rw [hs]; exact built_right ho hn hops
  constructor
  · intro h
    refine ⟨accepted_consistent h, fun m hm => ?_⟩
    obtain ⟨v, -, hv⟩ := (parseSdp_parts h).mline m hm
    have := (mediaLine_wf hv).formats
    revert this
    cases m.media.media <;> cases m.media.formats <;> simp [FormatsFit, FormatsWF] <;> grind
  · rintro ⟨hc, hf⟩
    rw [session_round (hr.wf hc hf) hl f]
    have : s.warnings = [] := by rw [hs, builds_warnings]; rfl
    cases s
    simp only at this
    rw [this]

theorem lineValue_m (v w : Str) : parseLineValue ['m'] v w = parseMedia v := rfl

theorem parseMedia_short {v : Str} (h : (splitWs v).length < 4) :
    parseMedia v = egeneric c%"media attribute must have at least four tokens" := by
  unfold parseMedia
  simp only [h, if_true]

/-- An m= line without a format has three words. -/
theorem mediaLine_no_formats (m : MediaLine) (h : m.formats = .integers [] ∨ m.formats = .strings []) (n : Nat) :
    parseSdpLine (c%"m=" ++ showMediaLine m) n =
      .err (.line (.generic c%"media attribute must have at least four tokens") (c%"m=" ++ showMediaLine m) n) := by
  have hf : showFormatList m.formats = [] := by rcases h with h | h <;> rw [h] <;> rfl
  have t1 : Token (showMediaValue m.media) := by cases m.media <;> exact ⟨by decide, by decide⟩
  have t2 : Token (showU32 m.port ++ maybeParam c%"/" m.portCount 0) := by
    refine ⟨by simp [(Token.u32 m.port).ne], fun c hc => ?_⟩
    rcases List.mem_append.1 hc with hc | hc
    · exact (Token.u32 _).2 c hc
    · unfold maybeParam at hc
      split at hc
      · rcases List.mem_append.1 hc with hc | hc
        · simp at hc; rw [hc]; decide
        · exact (Token.showNat _).2 c hc
      · cases hc
  have t3 : Token (showProtocol m.proto) := by cases m.proto <;> exact ⟨by decide, by decide⟩
  have hw : splitWs (showMediaLine m) =
      [showMediaValue m.media, showU32 m.port ++ maybeParam c%"/" m.portCount 0, showProtocol m.proto] := by
    unfold showMediaLine
    rw [hf]
    have e : showMediaValue m.media ++ c%" " ++ showU32 m.port ++ maybeParam c%"/" m.portCount 0 ++ c%" "
        ++ showProtocol m.proto ++ c%" " ++ [] = showMediaValue m.media ++ ' ' ::
        ((showU32 m.port ++ maybeParam c%"/" m.portCount 0) ++ ' ' :: (showProtocol m.proto ++ ' ' :: [])) := by simp
    rw [e, splitWs_space t1.2 t1.1, splitWs_space t2.2 t2.1, splitWs_space t3.2 t3.1, splitWs_nil]
  have hne : trim (showMediaLine m) ≠ [] := by
    intro hc
    have := splitWs_trim (showMediaLine m)
    rw [hc, hw] at this
    simp at this
  have := parseSdpLine_letter (x := 'm') (by decide) (.inl hne) n
  show parseSdpLine ('m' :: '=' :: showMediaLine m) n = _
  rw [this]
  rw [lineValue_m, parseMedia_short (by rw [splitWs_trim, hw]; simp)]
  simp only [egeneric, classifyErr, List.cons_append, List.nil_append]

theorem Session.Right.lineText {s : Session} (h : s.Right) : ∀ l ∈ s.lines, LineText l := by
  intro l hl
  refine ⟨Free.sessionLines (.inl rfl) h.lineFeeds l hl, ?_⟩
  simp only [Session.lines, List.mem_append, List.mem_cons, List.not_mem_nil, or_false] at hl
  rcases hl with (rfl | rfl | rfl) | hl | hl | hl
  · exact Trimmed.noCr (Token.u64 _).ends _
  · exact Trimmed.noCr (LinePrints.origin h.origin).1.2 _
  · cases hn : s.session with
    | none => simp
    | some t => exact Trimmed.noCr (h.name t hn).1.2 _
  · obtain ⟨t, -, rfl⟩ := List.mem_map.1 hl
    exact Trimmed.noCr (LinePrints.timing t).1.2 _
  · exact bodyLines_ends (fun b hb => (h.bandwidth b hb).1) h.connection (fun a ha => (h.attrs a ha).1) l hl
  · obtain ⟨m, hm, hl⟩ := List.mem_flatMap.1 hl
    have k := h.media m hm
    rcases List.mem_cons.1 hl with rfl | hl
    · have : '\r' ∉ c%"m=" ++ showMediaLine m.media := by
        refine Free.append (Free.lit (.inr rfl) (by decide) (by decide)) (Free.mediaLine (.inr rfl) fun t ht hc => ?_)
        have k1 := k.line.words
        revert ht k1
        cases m.media.formats with
        | integers l => intro ht; cases ht
        | strings l =>
          intro ht k1
          have := (k1 l rfl t ht).2 _ hc
          revert this; decide
      exact fun hc => this (List.mem_of_getLast? hc)
    · exact bodyLines_ends (fun b hb => (k.bandwidth b hb).1) k.connection (fun a ha => (k.attrs a ha).1) l hl

/-- **C85.** A section without formats (as `add_media` makes it, and as `remove_codecs` leaves it) makes
the whole text unreadable. -/
theorem C85_no_formats {o : Origin} {name : Str} (ho : o.WF) (hn : '\n' ∉ name) {ops : List BuildOp}
    (hops : ∀ op ∈ ops, op.Right) {s : Session} (hs : s = ops.foldl Session.build (Session.new 0 o name))
    {m : Media} (hm : m ∈ s.media) (he : m.media.formats = .integers [] ∨ m.media.formats = .strings []) (f : Bool) :
    ∀ r, parseSdp (showSession s) f ≠ .ok r := by
  intro r h
  have hr : s.Right := by rw [hs]; exact built_right ho hn hops
  have hlines : lines (showSession s) = s.lines := by rw [showSession_lines]; exact lines_crlf hr.lineText
  have hmem : c%"m=" ++ showMediaLine m.media ∈ lines (showSession s) := by
    rw [hlines]
    simp only [Session.lines, List.mem_append]
    exact .inr (.inr (.inr (List.mem_flatMap.2 ⟨m, hm, by simp [Media.lines]⟩)))
  obtain ⟨k, hk, e⟩ := List.getElem_of_mem hmem
  have hc : (c%"m=" ++ showMediaLine m.media, k) ∈ contentLines (showSession s) := by
    refine List.mem_filter.2 ⟨?_, ?_⟩
    · rw [List.mem_zipIdx_iff_getElem?]
      simp [hk, e]
    · rw [decide_eq_true_eq]
      intro hb
      have := hb 'm' (by simp)
      revert this; decide
  have hh := (parseSdp_ok.1 h).2.2.2.1
  have : ParserError.line (.generic c%"media attribute must have at least four tokens")
      (c%"m=" ++ showMediaLine m.media) k ∈ hardErrors (contentLines (showSession s)) := by
    refine List.mem_filterMap.2 ⟨_, hc, ?_⟩
    simp only [mediaLine_no_formats m.media he k]
  rw [hh] at this
  cases this

end

section
attribute [local instance] sampleEnv

/-- An offer with audio and a data channel; the two calls in the middle fail and one is out of range. -/
def sampleBuild (proto : ProtocolValue) : List BuildOp :=
  [.session (.setTiming ⟨0, 0⟩), .session (.addMedia .audio .sendrecv 9 .udpTlsRtpSavpf (.ip (.v4 0))),
   .inSection 0 (.addCodec ⟨109, c%"opus", 48000, some 2⟩), .inSection 0 (.addAttribute .iceLite),
   .session (.addAttribute .rtcpMux), .inSection 7 .removeCodecs,
   .session (.addMedia .application .sendrecv 9 proto (.ip (.v4 0))),
   .inSection 1 (.addDatachannel c%"webrtc-datachannel" 5000 256 1024)]

theorem sampleBuild_right (proto : ProtocolValue) : ∀ op ∈ sampleBuild proto, op.Right := by
  intro op hop
  simp only [sampleBuild, List.mem_cons, List.not_mem_nil, or_false] at hop
  rcases hop with rfl | rfl | rfl | rfl | rfl | rfl | rfl | rfl
  · trivial
  · exact ⟨trivial, (by intro t ht; cases ht), by decide, trivial⟩
  · exact ⟨⟨by decide, by decide, by decide⟩, by unfold RtpFormat; decide⟩
  · exact ⟨trivial, by intro t ht; cases ht⟩
  · exact ⟨trivial, by intro t ht; cases ht⟩
  · trivial
  · exact ⟨trivial, (by intro t ht; cases ht), by decide, trivial⟩
  · exact ⟨by decide, by decide⟩

/-- The session built by the calls. -/
def sampleBuilt (proto : ProtocolValue) : Session :=
  (sampleBuild proto).foldl Session.build (Session.new 0 sampleOrigin c%"-")

/-- The hypotheses are met, and the session is read back. -/
example : parseSdp (showSession (sampleBuilt .udpDtlsSctp)) true = .ok (sampleBuilt .udpDtlsSctp) ∧
    51 ≤ byteLen (showSession (sampleBuilt .udpDtlsSctp)) := by decide +kernel

/-- After the first two calls the session has a section without formats. -/
example : (((sampleBuild .udpDtlsSctp).take 2).foldl Session.build (Session.new 0 sampleOrigin c%"-")).media.map
    (fun m => m.media.formats) = [.integers []] := by decide +kernel

/-- **C85.** A data channel of the old kind (DTLS/SCTP) is not read back as it was built, since the format
is a number in the built session and a word in the parsed one; the text is the same. -/
theorem C85_old_datachannel : ∃ r, parseSdp (showSession (sampleBuilt .dtlsSctp)) true = .ok r ∧
    r ≠ sampleBuilt .dtlsSctp ∧ showSession r = showSession (sampleBuilt .dtlsSctp) := by
  have h : (match parseSdp (showSession (sampleBuilt .dtlsSctp)) true with
    | .ok r => decide (r ≠ sampleBuilt .dtlsSctp ∧ showSession r = showSession (sampleBuilt .dtlsSctp))
    | _ => false) = true := by decide +kernel
  split at h
  · rename_i r hr
    exact ⟨r, hr, by simpa using h⟩
  · cases h

end

end Sdp
