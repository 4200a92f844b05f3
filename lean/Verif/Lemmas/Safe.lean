import Verif.Spec.Strings
import Verif.Lemmas.Text
import Verif.Lemmas.Print4
/-!
# Which characters printed values consist of

A line feed or carriage return in the printed form of a value comes from a string in it.
-/

namespace Sdp

/-- A line end character. -/
def LineEnd (c : Char) : Prop := c = '\n' ∨ c = '\r'

/-- The text has no character `c`. -/
def Free (c : Char) (s : Str) : Prop := c ∉ s

variable {c : Char}

theorem Free.nil : Free c [] := by simp [Free]
theorem Free.append {a b : Str} (ha : Free c a) (hb : Free c b) : Free c (a ++ b) := by
  unfold Free at *; simp [ha, hb]
theorem Free.cons {x : Char} {b : Str} (ha : x ≠ c) (hb : Free c b) : Free c (x :: b) := by
  unfold Free at *; simp [hb, Ne.symm ha]
theorem Free.ite {p : Prop} [Decidable p] {a b : Str} (ha : Free c a) (hb : Free c b) : Free c (if p then a else b) := by
  split <;> assumption
theorem Free.joinS {sep : Str} {l : List Str} (hs : Free c sep) (h : ∀ t ∈ l, Free c t) : Free c (joinS sep l) := by
  intro hm
  rcases mem_joinS hm with hm | ⟨t, ht, hm⟩
  · exact hs hm
  · exact h t ht hm
theorem Free.map {α : Type} {f : α → Str} {l : List α} (h : ∀ x ∈ l, Free c (f x)) : ∀ t ∈ l.map f, Free c t := by
  intro t ht; obtain ⟨x, hx, rfl⟩ := List.mem_map.1 ht; exact h x hx

theorem LineEnd.ne {x : Char} (h : LineEnd c) (h1 : x ≠ '\n') (h2 : x ≠ '\r') : x ≠ c := by
  rcases h with rfl | rfl <;> assumption

/-- A literal without line ends. -/
theorem Free.lit (h : LineEnd c) {s : Str} (h1 : '\n' ∉ s) (h2 : '\r' ∉ s) : Free c s := by
  rcases h with rfl | rfl <;> assumption

theorem Free.of_chars (h : LineEnd c) {s : Str} (hs : ∀ x ∈ s, isWs x = false) : Free c s := by
  intro hm
  have := hs c hm
  rcases h with rfl | rfl <;> exact absurd this (by decide)

theorem Free.showNat (h : LineEnd c) (n : Nat) : Free c (showNat n) :=
  Free.of_chars h fun _ hx => isDigit_ws (showNat_digits hx)
theorem Free.u8 (h : LineEnd c) (n : UInt8) : Free c (showU8 n) := Free.showNat h _
theorem Free.u16 (h : LineEnd c) (n : UInt16) : Free c (showU16 n) := Free.showNat h _
theorem Free.u32 (h : LineEnd c) (n : UInt32) : Free c (showU32 n) := Free.showNat h _
theorem Free.u64 (h : LineEnd c) (n : UInt64) : Free c (showU64 n) := Free.showNat h _

theorem Free.maybeVec {pre post sep : Str} {l : List Str} (h1 : Free c pre) (h2 : Free c post) (h3 : Free c sep)
    (h : ∀ t ∈ l, Free c t) : Free c (maybeVec pre post sep l) := by
  unfold Sdp.maybeVec
  cases l with
  | nil => exact Free.nil
  | cons x xs =>
    simp only
    exact (h1.append (Free.joinS h3 fun t ht => h t (List.mem_filter.1 ht).1)).append h2

theorem Free.optStr {α : Type} {pre : Str} {f : α → Str} {o : Option α} (h1 : Free c pre)
    (h : ∀ x, o = some x → Free c (f x)) : Free c (optStr pre f o) := by
  cases o with
  | none => exact Free.nil
  | some x => exact h1.append (h x rfl)

theorem Free.maybeParam (h : LineEnd c) {nm : Str} {v d : UInt32} (h1 : Free c nm) : Free c (maybeParam nm v d) := by
  unfold Sdp.maybeParam; exact Free.ite (h1.append (Free.showNat h _)) Free.nil

end Sdp

namespace Sdp

variable {c : Char}

/-- Decompose a goal `Free c s` along the structure of `s`. -/
syntax "free" : tactic
macro_rules
  | `(tactic| free) => `(tactic| repeat' (with_reducible first
      | exact Free.nil
      | assumption
      | exact Free.u8 ‹_› _
      | exact Free.u16 ‹_› _
      | exact Free.u32 ‹_› _
      | exact Free.u64 ‹_› _
      | exact Free.showNat ‹_› _
      | exact Free.lit ‹_› (by decide) (by decide)
      | refine Free.append ?_ ?_
      | refine Free.maybeParam ‹_› ?_
      | refine Free.ite ?_ ?_
      | refine Free.maybeVec ?_ ?_ ?_ ?_
      | refine Free.optStr ?_ ?_
      | refine Free.joinS ?_ ?_
      | refine Free.map ?_
      | intro _))

theorem Free.hexPad (h : LineEnd c) (w n : Nat) : Free c (showHexPad w n) :=
  Free.of_chars h fun _ hx => IpChar.noWs (.inl (hexPad_chars hx))

theorem Free.maybeBool (h : LineEnd c) {nm : Str} {v d : Bool} (h1 : Free c nm) : Free c (maybeBool nm v d) := by
  unfold Sdp.maybeBool; free

theorem Free.maybeParamS {nm v d : Str} (h1 : Free c nm) (h2 : Free c v) : Free c (maybeParamS nm v d) := by
  unfold Sdp.maybeParamS; free

theorem Free.showIp (h : LineEnd c) (a : IpAddr) : Free c (showIp a) := Free.of_chars h (Token.showIp a).2

theorem Free.addressType (h : LineEnd c) (t : AddressType) : Free c (showAddressType t) := by
  cases t <;> exact Free.lit h (by decide) (by decide)

theorem Free.address (h : LineEnd c) {a : Address} (ha : ∀ t ∈ a.strings, c ∉ t) : Free c (showAddress a) := by
  cases a with
  | fqdn d => exact ha d (by simp [Address.strings])
  | ip a => exact Free.showIp h a

theorem Free.typed (h : LineEnd c) {a : TypedAddress} (ha : ∀ t ∈ a.strings, c ∉ t) : Free c (showTyped a) := by
  rw [showTyped_eq]
  have h1 := Free.addressType h a.addressType
  have h2 : Free c (typedHost a) := by
    cases a with
    | fqdn t d => exact ha d (by simp [TypedAddress.strings])
    | ip a => exact Free.showIp h a
  exact Free.append (Free.lit h (by decide) (by decide)) (Free.cons (h.ne (by decide) (by decide))
    (h1.append (Free.cons (h.ne (by decide) (by decide)) h2)))

theorem Free.nonEmpty_join {sep : Str} {l : List Str} (h1 : Free c sep) (h : ∀ t ∈ l, Free c t) :
    Free c (Sdp.joinS sep (nonEmpty l)) := Free.joinS h1 fun t ht => h t (List.mem_filter.1 ht).1

theorem Free.exts (h : LineEnd c) {l : List (Str × Str)} (hl : ∀ p ∈ l, c ∉ p.1 ∧ c ∉ p.2) : Free c (showExts l) := by
  induction l with
  | nil => exact Free.nil
  | cons p r ih =>
    have := ih fun p hp => hl p (by simp [hp])
    have h1 : Free c p.1 := (hl p (by simp)).1
    have h2 : Free c p.2 := (hl p (by simp)).2
    simp only [showExts]
    free

theorem Free.candidate (h : LineEnd c) {a : Candidate} (ha : ∀ t ∈ a.strings, c ∉ t) : Free c (showCandidate a) := by
  have h0 : Free c a.foundation := ha _ (by simp [Candidate.strings])
  have h1 := Free.address h (a := a.address) fun t ht => ha t (by simp [Candidate.strings, ht])
  have h2 : ∀ x, a.raddr = some x → Free c (showAddress x) := fun x hx =>
    Free.address h fun t ht => ha t (by simp [Candidate.strings, hx, ht])
  have h3 : ∀ x, a.ufrag = some x → Free c (id x) := fun x hx => ha x (by simp [Candidate.strings, hx])
  have h4 : Free c (showExts a.unknownExtensions) := Free.exts h fun p hp =>
    ⟨ha _ (by simp only [Candidate.strings, List.mem_cons, List.mem_append, List.mem_flatMap]
              exact .inr (.inr (.inr (.inr ⟨p, hp, .inl rfl⟩)))),
     ha _ (by simp only [Candidate.strings, List.mem_cons, List.mem_append, List.mem_flatMap]
              exact .inr (.inr (.inr (.inr ⟨p, hp, .inr (.inl rfl)⟩))))⟩
  have h5 : Free c (showCandTransport a.transport) := by
    cases a.transport <;> exact Free.lit h (by decide) (by decide)
  have h6 : Free c (showCandType a.cType) := by
    cases a.cType <;> exact Free.lit h (by decide) (by decide)
  have h7 : ∀ x, a.tcpType = some x → Free c (showCandTcpType x) := by
    intro x _; cases x <;> exact Free.lit h (by decide) (by decide)
  unfold showCandidate
  free

theorem Free.payloadType (h : LineEnd c) (p : PayloadType) : Free c (showPayloadType p) := by
  cases p with
  | pt n => exact Free.showNat h _
  | wildcard => exact Free.lit h (by decide) (by decide)

theorem Free.ssrc (h : LineEnd c) {s : Ssrc} (hs : ∀ t ∈ s.attr.toList ++ s.value.toList, c ∉ t) :
    Free c (showSsrc s) := by
  have h1 : ∀ x, s.attr = some x → Free c (id x) := fun x hx => hs x (by simp [hx])
  have h2 : ∀ x, s.value = some x → Free c (id x) := fun x hx => hs x (by simp [hx])
  unfold showSsrc
  free

theorem Free.fmtpParams (h : LineEnd c) {p : FmtpParams} (h1 : c ∉ p.dtmfTones) (h2 : ∀ t ∈ p.unknownTokens, c ∉ t) :
    Free c (showFmtpParams p) := by
  have h1' : Free c p.dtmfTones := h1
  have hp : ∀ t ∈ fmtpPieces p, Free c t := by
    rw [fmtpPieces_eq]
    intro t ht
    rcases List.mem_append.1 ht with ht | ht
    · obtain ⟨f, -, rfl⟩ := List.mem_map.1 ht
      cases f <;> simp only [pieceOf] <;> first
        | exact Free.nil
        | exact Free.maybeParam h (Free.lit h (by decide) (by decide))
        | exact Free.maybeBool h (Free.lit h (by decide) (by decide))
        | exact Free.maybeParamS (Free.lit h (by decide) (by decide)) (Free.hexPad h _ _)
        | exact Free.optStr (Free.lit h (by decide) (by decide)) fun x _ => Free.u8 h x
    · simp only [List.mem_cons, List.not_mem_nil, or_false] at ht; subst ht
      exact Free.maybeVec Free.nil Free.nil (Free.lit h (by decide) (by decide)) h2
  unfold showFmtpParams
  split
  · rename_i r _
    unfold showRtx
    split <;> free
  · refine Free.ite h1' (Free.ite ?_ (Free.nonEmpty_join (Free.lit h (by decide) (by decide)) hp))
    free

theorem Free.fmtp (h : LineEnd c) {f : Fmtp} (h1 : c ∉ f.parameters.dtmfTones)
    (h2 : ∀ t ∈ f.parameters.unknownTokens, c ∉ t) : Free c (showFmtp f) := by
  have := Free.fmtpParams h h1 h2
  unfold showFmtp
  simp only
  free

theorem Free.rid (h : LineEnd c) {r : Rid} (hr : ∀ t ∈ r.id :: (r.params.unknown ++ r.depends), c ∉ t) :
    Free c (showRid r) := by
  have h0 : Free c r.id := hr _ (by simp)
  have h1 : ∀ t ∈ r.params.unknown, Free c t := fun t ht => hr t (by simp [ht])
  have h2 : ∀ t ∈ r.depends, Free c t := fun t ht => hr t (by simp [ht])
  have h3 : Free c (showSingleDirection r.direction) := by
    cases r.direction <;> exact Free.lit h (by decide) (by decide)
  have h4 : Free c (showRidParams r.params) := by
    unfold showRidParams
    refine Free.nonEmpty_join (Free.lit h (by decide) (by decide)) ?_
    simp only [List.mem_cons, List.not_mem_nil, or_false, forall_eq_or_imp, forall_eq]
    exact ⟨by free, by free, by free, by free, by free, by free, by free⟩
  have h5 : Free c (ridText r) := by
    unfold ridText
    refine Free.nonEmpty_join (Free.lit h (by decide) (by decide)) ?_
    simp only [List.mem_cons, List.not_mem_nil, or_false, forall_eq_or_imp, forall_eq]
    exact ⟨by free, h4, by free⟩
  unfold showRid
  rw [show (Sdp.joinS c%";" (nonEmpty
        [ Sdp.maybeVec c%"pt=" [] c%"," (r.formats.map showU16),
          showRidParams r.params,
          Sdp.maybeVec c%"depends=" [] c%"," r.depends ])) = ridText r from rfl]
  refine Free.append (by free) ?_
  split <;> free

theorem Free.simulcast (h : LineEnd c) {s : Simulcast} (hs : ∀ t ∈ s.strings, c ∉ t) : Free c (showSimulcast s) := by
  have hv : ∀ v ∈ s.send ++ s.receive, Free c (showSimulcastVersion v) := by
    intro v hv
    unfold showSimulcastVersion
    refine Free.joinS (Free.lit h (by decide) (by decide)) (Free.map fun i hi => ?_)
    have : Free c i.id := hs _ (by
      simp only [Simulcast.strings, List.mem_flatMap, List.mem_map]; exact ⟨v, hv, i, hi, rfl⟩)
    unfold showSimulcastId
    free
  unfold showSimulcast
  refine Free.nonEmpty_join (Free.lit h (by decide) (by decide)) ?_
  simp only [List.mem_cons, List.not_mem_nil, or_false, forall_eq_or_imp, forall_eq]
  refine ⟨Free.maybeVec (Free.lit h (by decide) (by decide)) Free.nil (Free.lit h (by decide) (by decide))
      (Free.map fun v hv' => hv v (by simp [hv'])),
    Free.maybeVec (Free.lit h (by decide) (by decide)) Free.nil (Free.lit h (by decide) (by decide))
      (Free.map fun v hv' => hv v (by simp [hv']))⟩

theorem Free.discrete {α : Type} (h : LineEnd c) {f : α → Str} {l : List α} (hf : ∀ x ∈ l, Free c (f x)) :
    Free c (showDiscrete f l) := by
  unfold showDiscrete
  split
  · exact hf _ (by simp)
  · free

theorem Free.xyRange (h : LineEnd c) (r : XyRange) : Free c (showXyRange r) := by
  cases r with
  | range a b s =>
    unfold showXyRange
    cases s <;> simp only <;> free
  | discrete l => exact Free.discrete h fun n _ => Free.u32 h n

theorem Free.f32 (h : LineEnd c) (x : F32) : Free c (F32.text x) :=
  Free.of_chars h fun y hy => (FloatChar.facts (FloatChar.of (x.text_chars y hy))).2.2.2.2

theorem Free.f64 (h : LineEnd c) (x : F64) : Free c (F64.text x) :=
  Free.of_chars h fun y hy => (FloatChar.facts (FloatChar.of (x.text_chars y hy))).2.2.2.2

theorem Free.imageSet (h : LineEnd c) (s : ImageAttrSet) : Free c (showImageAttrSet s) := by
  have hx := Free.xyRange h s.x
  have hy := Free.xyRange h s.y
  have h1 : ∀ r, s.sar = some r → Free c (showSRange r) := by
    intro r hr
    cases r with
    | range a b =>
      have ha := Free.f32 h a
      have hb := Free.f32 h b
      unfold showSRange; free
    | discrete l =>
      exact Free.discrete h fun x _ => Free.f32 h x
  have h2 : ∀ r, s.par = some r → Free c (showPRange r) := by
    intro r hr
    have ha := Free.f32 h r.min
    have hb := Free.f32 h r.max
    unfold showPRange; free
  have h3 : ∀ r, s.q = some r → Free c (F32.text r) := by
    intro r _
    exact Free.f32 h r
  unfold showImageAttrSet
  free

theorem Free.imageAttr (h : LineEnd c) (i : ImageAttr) : Free c (showImageAttr i) := by
  have hl : ∀ l : ImageAttrSetList, Free c (showImageAttrSetList l) := by
    intro l
    cases l with
    | wildcard => exact Free.lit (s := c%"*") h (by decide) (by decide)
    | sets l =>
      refine Free.joinS (Free.lit h (by decide) (by decide)) (Free.map fun s _ => Free.imageSet h s)
  have hm : ∀ l x, maybeSets l = some x → x = l := by
    intro l x hx
    cases l with
    | wildcard => cases hx; rfl
    | sets l => cases l with
      | nil => cases hx
      | cons a l => cases hx; rfl
  have h1 := Free.payloadType h i.pt
  have h2 : ∀ x, maybeSets i.send = some x → Free c (showImageAttrSetList x) := by
    intro x hx
    rw [hm _ _ hx]; exact hl _
  have h3 : ∀ x, maybeSets i.recv = some x → Free c (showImageAttrSetList x) := by
    intro x hx
    rw [hm _ _ hx]; exact hl _
  unfold showImageAttr
  free

theorem Free.attrToString (h : LineEnd c) {t : AttributeType} {s : Str} (hs : Free c s) : Free c (attrToString t s) := by
  have hn : Free c t.name := by cases t <;> exact Free.lit h (by decide) (by decide)
  unfold Sdp.attrToString
  free

/-- A line end in the text of an attribute comes from a string in it. -/
theorem Free.attribute (h : LineEnd c) {a : Attribute} (hs : ∀ t ∈ a.strings, c ∉ t) : Free c (showAttribute a) := by
  cases a <;> simp only [showAttribute] <;> (try exact Free.lit h (by decide) (by decide)) <;>
    (try refine Free.attrToString h ?_)
  case candidate a => exact Free.candidate h hs
  case dtlsMessage a =>
    cases a with
    | client m => exact Free.append (Free.lit h (by decide) (by decide)) (hs m (by simp [Attribute.strings]))
    | server m => exact Free.append (Free.lit h (by decide) (by decide)) (hs m (by simp [Attribute.strings]))
  case extmap a =>
    have h1 : Free c a.url := hs _ (by simp [Attribute.strings])
    have h2 : ∀ x, a.extensionAttributes = some x → Free c (id x) := fun x hx => hs x (by simp [Attribute.strings, hx])
    have h3 : ∀ x, a.direction = some x → Free c (showDirection x) := by
      intro x _; cases x <;> exact Free.lit h (by decide) (by decide)
    unfold showExtmap; free
  case fingerprint a =>
    have h1 : Free c (showHashType a.hashAlgorithm) := by
      cases a.hashAlgorithm <;> exact Free.lit h (by decide) (by decide)
    have h2 : ∀ x, Free c (showByteHex x) := fun x => Free.of_chars h (showByteHex_facts x).2.1.2
    unfold showFingerprint; free
    exact h2 _
  case fmtp a => exact Free.fmtp h (hs _ (by simp [Attribute.strings])) fun t ht => hs t (by simp [Attribute.strings, ht])
  case frameRate x => exact Free.f64 h x
  case group g =>
    have h1 : Free c (showGroupSemantic g.semantics) := by
      cases g.semantics <;> exact Free.lit h (by decide) (by decide)
    have h2 : ∀ t ∈ g.tags, Free c t := hs
    unfold showGroup; free
  case iceOptions l => exact Free.joinS (Free.lit h (by decide) (by decide)) hs
  case icePacing n => free
  case icePwd s => exact hs s (by simp [Attribute.strings])
  case iceUfrag s => exact hs s (by simp [Attribute.strings])
  case identity s => exact hs s (by simp [Attribute.strings])
  case imageAttr i => exact Free.imageAttr h i
  case label s => exact hs s (by simp [Attribute.strings])
  case maxMessageSize n => free
  case maxPtime n => free
  case mid s => exact hs s (by simp [Attribute.strings])
  case msid m =>
    have h1 : Free c m.id := hs _ (by simp [Attribute.strings])
    have h2 : ∀ x, m.appdata = some x → Free c (id x) := fun x hx => hs x (by simp [Attribute.strings, hx])
    unfold showMsid; free
  case msidSemantic m =>
    have h1 : Free c m.semantic := hs _ (by simp [Attribute.strings])
    have h2 : ∀ t ∈ m.msids, Free c t := fun t ht => hs t (by simp [Attribute.strings, ht])
    unfold showMsidSemantic
    refine Free.append (by free) ?_
    split <;> free
  case ptime n => free
  case rid r => exact Free.rid h hs
  case remoteCandidate a =>
    have h1 := Free.address h (a := a.address) hs
    unfold showRemoteCandidate; free
  case rtpmap r =>
    have h1 : Free c r.codecName := hs _ (by simp [Attribute.strings])
    unfold showRtpmap; free
  case rtcp r =>
    unfold showRtcp
    split
    · rename_i a ha
      have h1 := Free.typed h (a := a) fun t ht => hs t (by simp [Attribute.strings, ha, ht])
      free
    · free
  case rtcpfb r =>
    have h1 : Free c r.parameter := hs _ (by simp [Attribute.strings])
    have h2 : Free c r.extra := hs _ (by simp [Attribute.strings])
    have h3 := Free.payloadType h r.payloadType
    have h4 : Free c (showRtcpFbType r.feedbackType) := by
      cases r.feedbackType <;> exact Free.lit h (by decide) (by decide)
    have h5 : Free c (Sdp.maybeParamS c%" " r.extra []) := Free.maybeParamS (Free.lit h (by decide) (by decide)) h2
    unfold showRtcpFb; free
  case sctpmap s => unfold showSctpmap; free
  case sctpPort n => free
  case setup s => cases s <;> exact Free.lit h (by decide) (by decide)
  case simulcast s => exact Free.simulcast h hs
  case ssrc s => exact Free.ssrc h hs
  case ssrcGroup k l =>
    have h1 : Free c (Sdp.attrToString .ssrcGroup (showSsrcGroupSemantic k)) := by
      refine Free.attrToString h ?_
      cases k <;> exact Free.lit h (by decide) (by decide)
    refine Free.append (Free.append h1 (Free.lit h (by decide) (by decide)))
      (Free.joinS (Free.lit h (by decide) (by decide)) (Free.map fun s hs' => Free.ssrc h fun t ht => hs t ?_))
    simp only [Attribute.strings, List.mem_flatMap]; exact ⟨s, hs', ht⟩

end Sdp
