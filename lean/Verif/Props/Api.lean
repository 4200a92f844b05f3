import Verif.Spec.Sample
import Verif.Spec.Store
import Verif.Lemmas.Consistent
import Verif.Props.Sections
/-!
# C29-C35: the mutators of `SdpMedia` and `SdpSession`
-/

namespace Sdp

section
variable [Env]

/-- One call of a mutator; the section is what is left behind whether or not the call fails. -/
def Media.apply (m : Media) : MediaOp → Media
  | .setPort p => m.setPort p
  | .addBandwidth b => m.addBandwidth b
  | .setConnection c => m.setConnection c
  | .addAttribute a => (m.addAttribute a).1
  | .removeAttribute t => m.removeAttribute t
  | .setAttribute a => (m.setAttribute a).1
  | .removeCodecs => m.removeCodecs
  | .addCodec r => (m.addCodec r).1
  | .addDatachannel n p st sz => (m.addDatachannel n p st sz).1

/-- A history of calls. -/
def Media.applyAll (m : Media) (ops : List MediaOp) : Media := ops.foldl Media.apply m

theorem addAttribute_eq (m : Media) (a : Attribute) :
    (a.type ∉ sessionOnly ∧ m.addAttribute a = ({ m with attrs := m.attrs ++ [a] }, .ok ())) ∨
    (a.type ∈ sessionOnly ∧ ∃ e, m.addAttribute a = (m, .err e)) := by
  unfold Media.addAttribute
  have := allowedAtMediaLevel_iff a
  by_cases h : a.allowedAtMediaLevel = true
  · left; exact ⟨this.1 h, by simp [h]⟩
  · right; refine ⟨by by_contra hc; exact h (this.2 hc), _, by rw [if_pos (by simpa using h)]; rfl⟩

/-- **C29.** `set_attribute` of an attribute allowed at media level removes those of its type and
appends it. -/
theorem C29_set_attribute_ok (m : Media) (a : Attribute) (h : a.type ∉ sessionOnly) :
    m.setAttribute a =
      ({ m with attrs := m.attrs.filter (fun b => b.type ≠ a.type) ++ [a] }, .ok ()) := by
  unfold Media.setAttribute
  rcases addAttribute_eq (m.removeAttribute a.type) a with ⟨_, h2⟩ | ⟨h2, _⟩
  · rw [h2]; simp [Media.removeAttribute, bne, Bool.beq_eq_decide_eq]
  · exact absurd h2 h

/-- **C29.** Afterwards there is exactly one attribute of that type, and the attributes of other types
are as before. -/
theorem C29_exactly_one (m : Media) (a : Attribute) (h : a.type ∉ sessionOnly) :
    (m.setAttribute a).1.attrs.filter (fun b => b.type = a.type) = [a] ∧
    (m.setAttribute a).1.attrs.getLast? = some a ∧
    (m.setAttribute a).1.attrs.filter (fun b => b.type ≠ a.type) = m.attrs.filter (fun b => b.type ≠ a.type) := by
  rw [C29_set_attribute_ok m a h]
  refine ⟨?_, by simp, ?_⟩
  · rw [List.filter_append, List.filter_filter]
    simp
  · rw [List.filter_append, List.filter_filter]
    simp

/-- **C29.** It fails exactly for attributes of the session level, and has then removed those of its
type. -/
theorem C29_set_attribute_fails (m : Media) (a : Attribute) (h : a.type ∈ sessionOnly) :
    ∃ e, m.setAttribute a = ({ m with attrs := m.attrs.filter (fun b => b.type ≠ a.type) }, .err e) := by
  unfold Media.setAttribute
  rcases addAttribute_eq (m.removeAttribute a.type) a with ⟨h2, _⟩ | ⟨_, e, he⟩
  · exact absurd h h2
  · exact ⟨e, by rw [he]; simp [Media.removeAttribute, bne, Bool.beq_eq_decide_eq]⟩

example : (Attribute.setup .active).type ∉ sessionOnly ∧ (Attribute.iceLite).type ∈ sessionOnly := by decide

theorem type_codec {a : Attribute} : Media.isCodecAttr a = true ↔ a.type ∈ Store.codecTypes := by
  cases a <;> simp [Media.isCodecAttr, Attribute.type, Store.codecTypes]

theorem filter_add (l : List Attribute) (a : Attribute) (t : AttributeType) :
    (l ++ [a]).filter (fun b => b.type == t) =
      if t = a.type then l.filter (fun b => b.type == t) ++ [a] else l.filter (fun b => b.type == t) := by
  rw [List.filter_append]
  by_cases h : t = a.type
  · simp [h]
  · have : ¬ (a.type = t) := fun hc => h hc.symm
    simp [h, this]

theorem filter_remove (l : List Attribute) (t0 t : AttributeType) :
    (l.filter (fun b => b.type != t0)).filter (fun b => b.type == t) =
      if t = t0 then [] else l.filter (fun b => b.type == t) := by
  rw [List.filter_filter]
  by_cases h : t = t0
  · subst h; simp [List.filter_eq_nil_iff]
  · rw [if_neg h]
    refine List.filter_congr fun a _ => ?_
    by_cases ha : a.type = t
    · simp [ha, h]
    · simp [ha]

theorem ofType_set (m : Media) (a : Attribute) :
    (m.setAttribute a).1.getAttributesOfType =
      if a.type ∈ sessionOnly then Store.clear m.getAttributesOfType a.type
      else Store.put m.getAttributesOfType a := by
  funext t
  unfold Media.setAttribute
  rcases addAttribute_eq (m.removeAttribute a.type) a with ⟨h1, h2⟩ | ⟨h1, e, he⟩
  · rw [if_neg h1, h2]
    simp only [Media.getAttributesOfType, Media.removeAttribute, filter_add, filter_remove, Store.put]
    by_cases h : t = a.type <;> simp [h]
  · rw [if_pos h1, he]
    simp only [Media.getAttributesOfType, Media.removeAttribute, filter_remove, Store.clear]

theorem set_ok (m : Media) (a : Attribute) (h : a.type ∉ sessionOnly) : (m.setAttribute a).2 = .ok () := by
  unfold Media.setAttribute
  rcases addAttribute_eq (m.removeAttribute a.type) a with ⟨_, h2⟩ | ⟨h2, _⟩
  · rw [h2]
  · exact absurd h2 h

theorem set_media (m : Media) (a : Attribute) : (m.setAttribute a).1.media = m.media := by
  unfold Media.setAttribute
  rcases addAttribute_eq (m.removeAttribute a.type) a with ⟨_, h2⟩ | ⟨_, e, h2⟩ <;> rw [h2] <;> rfl

/-- `add_datachannel` without the plumbing. -/
theorem addDatachannel_eq (m : Media) (name : Str) (port streams : UInt16) (sz : UInt32) :
    m.addDatachannel name port streams sz =
      (let m1 : Media := { m with media := { m.media with
          formats := if isSctp m.media.proto then .strings [name] else .integers [UInt32.ofNat port.toNat] } }
       let m2 := (m1.setAttribute (if isSctp m.media.proto then .sctpPort (UInt64.ofNat port.toNat)
          else .sctpmap ⟨port, UInt32.ofNat streams.toNat⟩)).1
       let m3 := if sz > 0 then (m2.setAttribute (.maxMessageSize (UInt64.ofNat sz.toNat))).1 else m2
       ({ m3 with media := { m3.media with media := .application } }, .ok ())) := by
  have hthen (m : Media) (a : Attribute) (h : a.type ∉ sessionOnly) (k : Media → Media × IRes Unit) :
      Media.andThen (m.setAttribute a) k = k (m.setAttribute a).1 := by
    have := set_ok m a h
    rcases hx : m.setAttribute a with ⟨m', r⟩
    rw [hx] at this
    simp only [] at this
    subst this; rfl
  unfold Media.addDatachannel
  cases hp : m.media.proto <;>
    simp only [isSctp, if_true, if_false, Bool.false_eq_true] <;>
    (rw [hthen _ _ (by simp [Attribute.type, sessionOnly])]
     by_cases hz : sz > 0
     · simp only [hz, if_true]
       rw [hthen _ _ (by simp [Attribute.type, sessionOnly])]
     · simp only [hz, if_false]; rfl)

theorem apply_proto (m : Media) (op : MediaOp) : (m.apply op).media.proto = m.media.proto := by
  cases op with
  | addAttribute a => simp only [Media.apply]; rcases addAttribute_eq m a with ⟨_, h⟩ | ⟨_, e, h⟩ <;> rw [h]
  | setAttribute a => simp only [Media.apply, set_media]
  | addCodec r =>
    simp only [Media.apply, Media.addCodec]
    generalize Attribute.rtpmap r = a
    generalize hm : ({ m with media := _ } : Media) = m'
    rcases addAttribute_eq m' a with ⟨_, h⟩ | ⟨_, e, h⟩ <;> rw [h, ← hm]
  | addDatachannel n p st sz =>
    simp only [Media.apply, addDatachannel_eq]
    split <;> simp only [set_media]
  | _ => rfl

/-- **C30.** One step of the refinement. -/
theorem C30_step (m : Media) (op : MediaOp) :
    (m.apply op).getAttributesOfType = Store.step (isSctp m.media.proto) m.getAttributesOfType op := by
  cases op with
  | setPort | addBandwidth | setConnection => rfl
  | addAttribute a =>
    funext t
    simp only [Media.apply, Store.step]
    rcases addAttribute_eq m a with ⟨h1, h⟩ | ⟨h1, e, h⟩
    · rw [if_neg h1, h]
      simp only [Media.getAttributesOfType, filter_add, Store.add]
    · rw [if_pos h1, h]
  | removeAttribute t0 =>
    funext t
    simp only [Media.apply, Store.step, Media.getAttributesOfType, Media.removeAttribute, filter_remove,
      Store.clear]
  | setAttribute a => simp only [Media.apply, Store.step, ofType_set]
  | removeCodecs =>
    funext t
    simp only [Media.apply, Store.step, Media.getAttributesOfType, Media.removeCodecs, List.filter_filter]
    by_cases h : t ∈ Store.codecTypes
    · rw [if_pos h, List.filter_eq_nil_iff]
      intro a _ hc
      simp at hc
      have := type_codec.2 (by rw [hc.1]; exact h : a.type ∈ Store.codecTypes)
      rw [this] at hc; simp at hc
    · rw [if_neg h]
      refine List.filter_congr fun a _ => ?_
      by_cases ha : a.type = t
      · have : Media.isCodecAttr a = false := by
          rw [← Bool.not_eq_true, type_codec, ha]; exact h
        simp [ha, this]
      · simp [ha]
  | addCodec r =>
    funext t
    simp only [Media.apply, Store.step, Media.addCodec, Store.add]
    generalize hm : ({ m with media := _ } : Media) = m'
    have ha : m'.attrs = m.attrs := by rw [← hm]
    rcases addAttribute_eq m' (.rtpmap r) with ⟨_, h⟩ | ⟨h, _⟩
    · rw [h]; simp only [Media.getAttributesOfType, filter_add, ha]
    · simp [Attribute.type, sessionOnly] at h
  | addDatachannel n p st sz =>
    simp only [Media.apply, addDatachannel_eq, Store.step]
    have h1 (m : Media) (x : MediaLine) : ({ m with media := x } : Media).getAttributesOfType = m.getAttributesOfType := rfl
    cases isSctp m.media.proto <;> by_cases hz : sz > 0 <;>
      simp [hz, h1, ofType_set, Attribute.type, sessionOnly]

/-- **C30.** Under every history of mutator calls, successful or failed, a section behaves like the
abstract store: `get_attributes_of_type(t)` is what the store holds for `t`, and `get_attribute(t)` is
the first of them. -/
theorem C30_store_refinement (m : Media) (ops : List MediaOp) :
    (m.applyAll ops).getAttributesOfType = Store.run (isSctp m.media.proto) m.getAttributesOfType ops ∧
    ∀ t, (m.applyAll ops).getAttribute t = (Store.run (isSctp m.media.proto) m.getAttributesOfType ops t).head? := by
  have key : (m.applyAll ops).getAttributesOfType = Store.run (isSctp m.media.proto) m.getAttributesOfType ops := by
    induction ops generalizing m with
    | nil => rfl
    | cons op ops ih =>
      have := ih (m.apply op)
      simp only [Media.applyAll, Store.run, List.foldl_cons] at this ⊢
      rw [this, C30_step, apply_proto]
  refine ⟨key, fun t => ?_⟩
  rw [← key]
  simp [Media.getAttribute, Media.getAttributesOfType, List.head?_filter]

/-- **C30.** The three getters, on any section. -/
theorem C30_getters (m : Media) (t : AttributeType) :
    m.getAttributesOfType t = m.getAttributes.filter (fun a => a.type = t) ∧
    m.getAttribute t = (m.getAttributes.filter (fun a => a.type = t)).head? ∧
    (m.removeAttribute t).getAttribute t = none ∧ (m.removeAttribute t).getAttributesOfType t = [] ∧
    ∀ t', t' ≠ t → (m.removeAttribute t).getAttributesOfType t' = m.getAttributesOfType t' := by
  have h0 : (m.removeAttribute t).getAttributesOfType t = [] := by
    simp only [Media.getAttributesOfType, Media.removeAttribute, filter_remove, if_true]
  refine ⟨?_, ?_, ?_, h0, fun t' ht => ?_⟩
  · simp [Media.getAttributesOfType, Media.getAttributes, Bool.beq_eq_decide_eq]
  · simp [Media.getAttribute, Media.getAttributes, List.head?_filter, Bool.beq_eq_decide_eq]
  · have := h0
    unfold Media.getAttribute Media.getAttributesOfType at *
    rw [← List.head?_filter, this]; rfl
  · simp only [Media.getAttributesOfType, Media.removeAttribute, filter_remove, if_neg ht]

/-- The refinement on a concrete history with failing and succeeding calls. -/
example : letI := sampleEnv
    let m := (Media.new ⟨.audio, 9, 0, .dtlsSctp, .integers []⟩).applyAll
      [.addAttribute (.mid c%"0"), .setAttribute (.mid c%"1"), .addAttribute .iceLite,
       .addCodec ⟨8, c%"PCMA", 8000, none⟩, .addDatachannel c%"x" 5000 256 0, .addAttribute (.mid c%"2")]
    m.getAttributesOfType .mid = [.mid c%"1", .mid c%"2"] ∧ m.getAttribute .iceLite = none ∧
    m.getAttributesOfType .sctpmap = [.sctpmap ⟨5000, 256⟩] ∧ m.attrs.length = 4 := by decide +kernel

/-- **C31.** `remove_codecs` empties the list of formats, keeping its kind, removes exactly the attributes about
formats, and leaves everything else. -/
theorem C31_remove_codecs (m : Media) :
    (m.removeCodecs.getFormats = match m.getFormats with | .integers _ => .integers [] | .strings _ => .strings []) ∧
    m.removeCodecs.attrs = m.attrs.filter (fun a => a.type ∉ [.rtpmap, .fmtp, .rtcpfb, .sctpmap, .sctpPort]) ∧
    m.removeCodecs.getType = m.getType ∧ m.removeCodecs.getPort = m.getPort ∧
    m.removeCodecs.getPortCount = m.getPortCount ∧ m.removeCodecs.getProto = m.getProto ∧
    m.removeCodecs.getConnection = m.getConnection ∧ m.removeCodecs.getBandwidth = m.getBandwidth := by
  refine ⟨rfl, ?_, rfl, rfl, rfl, rfl, rfl, rfl⟩
  simp only [Media.removeCodecs]
  refine List.filter_congr fun a _ => ?_
  have := type_codec (a := a)
  simp only [Store.codecTypes] at this
  cases h : Media.isCodecAttr a <;> simp_all

/-- **C32.** `add_codec` never fails. -/
theorem C32_add_codec (m : Media) (r : Rtpmap) :
    ∃ fs, m.addCodec r = (⟨{ m.media with formats := fs }, m.connection, m.bandwidth, m.attrs ++ [.rtpmap r]⟩, .ok ()) ∧
      match m.media.formats, fs with
      | .integers l, .integers l' => ∃ n, l' = l ++ [n] ∧ n.toNat = r.payloadType.toNat
      | .strings l, .strings l' => l' = l ++ [Nat.toDigits 10 r.payloadType.toNat]
      | _, _ => False := by
  unfold Media.addCodec
  simp only []
  generalize hm : ({ m with media := _ } : Media) = m'
  rcases addAttribute_eq m' (.rtpmap r) with ⟨_, h⟩ | ⟨h, _⟩
  · rw [h, ← hm]
    refine ⟨_, rfl, ?_⟩
    cases m.media.formats with
    | integers l => exact ⟨_, rfl, by simp⟩
    | strings l => rfl
  · simp [Attribute.type, sessionOnly] at h

theorem rtpmapsOf_append (a b : List Attribute) : rtpmapsOf (a ++ b) = rtpmapsOf a ++ rtpmapsOf b :=
  List.filterMap_append

theorem rtpmapsOf_filter {p : Attribute → Bool} (l : List Attribute)
    (h : ∀ r, p (.rtpmap r) = true) : rtpmapsOf (l.filter p) = rtpmapsOf l := by
  induction l with
  | nil => rfl
  | cons a l ih =>
    rw [List.filter_cons]
    by_cases hp : p a = true
    · rw [if_pos hp]
      unfold rtpmapsOf at *
      rw [List.filterMap_cons, List.filterMap_cons, ih]
    · rw [if_neg hp, ih]
      unfold rtpmapsOf
      rw [List.filterMap_cons]
      cases a <;> first | rfl | exact absurd (h _) hp

theorem rtpmapsOf_single {a : Attribute} (h : a.type ≠ .rtpmap) : rtpmapsOf [a] = [] := by
  cases a <;> first | rfl | exact absurd rfl h

/-- **C32.** Over any history of calls that does not add or remove single rtpmaps or turn the section
into a data channel, formats and rtpmaps stay in step. -/
theorem C32_codecs_match (m : Media) (ops : List MediaOp) (h0 : CodecsMatch m.media.formats (rtpmapsOf m.attrs))
    (hops : ∀ op ∈ ops, keepsCodecs op = true) :
    CodecsMatch (m.applyAll ops).media.formats (rtpmapsOf (m.applyAll ops).attrs) := by
  induction ops generalizing m with
  | nil => exact h0
  | cons op ops ih =>
    refine ih (m.apply op) ?_ fun o ho => hops o (by simp [ho])
    have hk := hops op (by simp)
    cases op with
    | setPort | addBandwidth | setConnection => exact h0
    | addAttribute a =>
      simp [keepsCodecs] at hk
      simp only [Media.apply]
      rcases addAttribute_eq m a with ⟨h1, h⟩ | ⟨h1, e, h⟩
      · rw [h]; simp only [rtpmapsOf_append, rtpmapsOf_single hk, List.append_nil]; exact h0
      · rw [h]; exact h0
    | removeAttribute t =>
      simp [keepsCodecs] at hk
      simp only [Media.apply, Media.removeAttribute]
      rw [rtpmapsOf_filter _ fun r => by simp [Attribute.type]; exact fun h => hk h.symm]; exact h0
    | setAttribute a =>
      simp [keepsCodecs] at hk
      have hf : rtpmapsOf (m.removeAttribute a.type).attrs = rtpmapsOf m.attrs := by
        simp only [Media.removeAttribute]
        rw [rtpmapsOf_filter _ fun r => by simp [Attribute.type]; exact fun h => hk h.symm]
      simp only [Media.apply, Media.setAttribute]
      rcases addAttribute_eq (m.removeAttribute a.type) a with ⟨h1, h⟩ | ⟨h1, e, h⟩
      · rw [h]; simp only [rtpmapsOf_append, rtpmapsOf_single hk, List.append_nil, hf]; exact h0
      · rw [h, hf]; exact h0
    | removeCodecs =>
      simp only [Media.apply, Media.removeCodecs]
      have : rtpmapsOf (m.attrs.filter fun a => !Media.isCodecAttr a) = [] := by
        unfold rtpmapsOf
        rw [List.filterMap_eq_nil_iff]
        intro a ha
        have := (List.mem_filter.1 ha).2
        cases a <;> first | rfl | simp [Media.isCodecAttr] at this
      rw [this]
      cases m.media.formats <;> rfl
    | addCodec r =>
      obtain ⟨fs, h1, h2⟩ := C32_add_codec m r
      simp only [Media.apply, h1, rtpmapsOf_append]
      cases hf : m.media.formats with
      | integers l =>
        rw [hf] at h0 h2
        cases fs with
        | integers l' =>
          obtain ⟨n, rfl, hn⟩ := h2
          simp only [CodecsMatch] at h0 ⊢
          simp [h0, hn, rtpmapsOf]
        | strings l' => exact absurd h2 (by simp)
      | strings l =>
        rw [hf] at h0 h2
        cases fs with
        | integers l' => exact absurd h2 (by simp)
        | strings l' =>
          simp only [CodecsMatch] at h0 h2 ⊢
          rw [h2, h0]
          simp [rtpmapsOf]
    | addDatachannel => simp [keepsCodecs] at hk

/-- A new section meets the hypothesis, and a history with two codecs keeps it. -/
example : letI := sampleEnv
    let m := Media.new ⟨.audio, 9, 0, .rtpSavpf, .integers []⟩
    CodecsMatch m.media.formats (rtpmapsOf m.attrs) ∧
    (m.applyAll [.addCodec ⟨8, c%"PCMA", 8000, none⟩, .addAttribute (.mid c%"0"), .addCodec ⟨0, c%"PCMU", 8000, none⟩]).media.formats
      = .integers [8, 0] := by
  exact ⟨rfl, by decide +kernel⟩

/-- **C33.** `add_datachannel` never fails, and this is what it leaves. -/
theorem C33_add_datachannel (m : Media) (name : Str) (port streams : UInt16) (sz : UInt32) :
    let r := m.addDatachannel name port streams sz
    r.2 = .ok () ∧ r.1.getType = .application ∧
    r.1.getPort = m.getPort ∧ r.1.getProto = m.getProto ∧ r.1.getPortCount = m.getPortCount ∧
    r.1.getConnection = m.getConnection ∧ r.1.getBandwidth = m.getBandwidth ∧
    r.1.getFormats = (if isSctp m.getProto then .strings [name] else .integers [UInt32.ofNat port.toNat]) ∧
    r.1.getAttributesOfType (if isSctp m.getProto then .sctpPort else .sctpmap) =
      [if isSctp m.getProto then .sctpPort (UInt64.ofNat port.toNat) else .sctpmap ⟨port, UInt32.ofNat streams.toNat⟩] ∧
    r.1.getAttributesOfType .maxMessageSize =
      (if sz > 0 then [.maxMessageSize (UInt64.ofNat sz.toNat)] else m.getAttributesOfType .maxMessageSize) ∧
    ∀ t, t ≠ .maxMessageSize → t ≠ (if isSctp m.getProto then .sctpPort else .sctpmap) →
      r.1.getAttributesOfType t = m.getAttributesOfType t := by
  have hs := C30_step m (.addDatachannel name port streams sz)
  simp only [Media.apply, Store.step] at hs
  have hc (m : Media) (a : Attribute) : (m.setAttribute a).1.connection = m.connection ∧
      (m.setAttribute a).1.bandwidth = m.bandwidth := by
    unfold Media.setAttribute
    rcases addAttribute_eq (m.removeAttribute a.type) a with ⟨_, h2⟩ | ⟨_, e, h2⟩ <;> rw [h2] <;> exact ⟨rfl, rfl⟩
  simp only [Media.getProto]
  rw [hs]
  refine ⟨by rw [addDatachannel_eq], by rw [addDatachannel_eq]; rfl, ?_, ?_, ?_, ?_, ?_, ?_, ?_, ?_, ?_⟩
  · rw [addDatachannel_eq]; simp only [Media.getPort]; split <;> simp only [set_media]
  · rw [addDatachannel_eq]; simp only []; split <;> simp only [set_media]
  · rw [addDatachannel_eq]; simp only [Media.getPortCount]; split <;> simp only [set_media]
  · rw [addDatachannel_eq]; simp only [Media.getConnection]; split <;> simp only [hc]
  · rw [addDatachannel_eq]; simp only [Media.getBandwidth]; split <;> simp only [hc]
  · rw [addDatachannel_eq]; simp only [Media.getFormats]; split <;> simp only [set_media] <;> rfl
  · by_cases hp : isSctp m.media.proto = true <;> by_cases hz : sz > 0 <;>
      simp [hz, hp, Store.put, Attribute.type]
  · cases isSctp m.media.proto <;> by_cases hz : sz > 0 <;> simp [hz, Store.put, Attribute.type]
  · intro t h1 h2
    by_cases hp : isSctp m.media.proto = true <;> by_cases hz : sz > 0 <;>
      simp [hp] at h2 <;> simp [hz, hp, Store.put, Attribute.type, h1, h2]

/-- **C33.** The numbers stored are the arguments. -/
theorem C33_values (port streams : UInt16) (sz : UInt32) :
    (UInt64.ofNat port.toNat).toNat = port.toNat ∧ (UInt32.ofNat port.toNat).toNat = port.toNat ∧
    (UInt32.ofNat streams.toNat).toNat = streams.toNat ∧ (UInt64.ofNat sz.toNat).toNat = sz.toNat := by
  refine ⟨?_, ?_, ?_, ?_⟩ <;> simp

/-- **C34.** `add_media` appends a section with the given fields, no formats and the direction as its only attribute; if
the direction must not be in a section it fails and changes nothing. -/
theorem C34_add_media (s : Session) (t : MediaValue) (dir : Attribute) (port : UInt32) (proto : ProtocolValue)
    (addr : TypedAddress) :
    (dir.type ∉ sessionOnly → s.addMedia t dir port proto addr =
      ({ s with media := s.media ++ [⟨⟨t, port, 1, proto, .integers []⟩, some ⟨addr, none, none⟩, [], [dir]⟩] }, .ok ())) ∧
    (dir.type ∈ sessionOnly → ∃ e, s.addMedia t dir port proto addr = (s, .err e)) := by
  unfold Session.addMedia
  simp only []
  rcases addAttribute_eq (Media.new ⟨t, port, 1, proto, .integers []⟩) dir with ⟨h1, h2⟩ | ⟨h1, e, h2⟩
  · rw [h2]; exact ⟨fun _ => rfl, fun hc => absurd hc h1⟩
  · rw [h2]; exact ⟨fun hc => absurd h1 hc, fun _ => ⟨e, rfl⟩⟩

/-- All attributes of a section are allowed at media level. -/
def LevelOk (m : Media) : Prop := ∀ a ∈ m.attrs, a.type ∉ sessionOnly

/-- **C35.** Media level discipline is kept by every history of calls. -/
theorem C35_media_levels (m : Media) (ops : List MediaOp) (h : LevelOk m) : LevelOk (m.applyAll ops) := by
  induction ops generalizing m with
  | nil => exact h
  | cons op ops ih =>
    refine ih (m.apply op) ?_
    have hadd (m : Media) (a : Attribute) (h : LevelOk m) : LevelOk (m.addAttribute a).1 := by
      rcases addAttribute_eq m a with ⟨h1, h2⟩ | ⟨h1, e, h2⟩
      · rw [h2]; intro b hb
        rcases List.mem_append.1 hb with hb | hb
        · exact h b hb
        · simp at hb; rw [hb]; exact h1
      · rw [h2]; exact h
    have hrem (m : Media) (t : AttributeType) (h : LevelOk m) : LevelOk (m.removeAttribute t) :=
      fun b hb => h b (List.mem_filter.1 hb).1
    have hset (m : Media) (a : Attribute) (h : LevelOk m) : LevelOk (m.setAttribute a).1 := hadd _ _ (hrem _ _ h)
    cases op with
    | setPort | addBandwidth | setConnection => exact h
    | addAttribute a => exact hadd _ _ h
    | removeAttribute t => exact hrem _ _ h
    | setAttribute a => exact hset _ _ h
    | removeCodecs => exact fun b hb => h b (List.mem_filter.1 hb).1
    | addCodec r => exact hadd _ _ h
    | addDatachannel n p st sz =>
      simp only [Media.apply, addDatachannel_eq]
      by_cases hz : sz > 0
      · simp only [hz, if_true]
        exact hset _ _ (hset _ _ h)
      · simp only [hz, if_false]
        exact hset _ _ h

/-- A new section is fine. -/
example (l : MediaLine) : LevelOk (Media.new l) := by intro a ha; simp [Media.new] at ha

/-- One call of a session mutator. -/
def Session.apply (s : Session) : SessionOp → Session
  | .setConnection c => s.setConnection c
  | .addBandwidth b => s.addBandwidth b
  | .setTiming t => s.setTiming t
  | .addAttribute a => (s.addAttribute a).1
  | .extendMedia l => s.extendMedia l
  | .addMedia t d p pr ad => (s.addMedia t d p pr ad).1
  | .parseSessionVector ls => (s.parseVector ls).1

/-- The levels are right in a session and all its sections. -/
def SessionLevelOk (s : Session) : Prop := (∀ a ∈ s.attrs, a.type ∉ mediaOnly) ∧ ∀ m ∈ s.media, LevelOk m

theorem parseVector_levels (s : Session) (ls : List SdpLine) (h : SessionLevelOk s) :
    SessionLevelOk (s.parseVector ls).1 := by
  have hw (pre : List SdpLine) (hg : GoodSessionPart pre) : SessionLevelOk (withSessionPart s pre) := by
    refine ⟨fun a ha => ?_, h.2⟩
    rcases List.mem_append.1 ha with ha | ha
    · exact h.1 a ha
    · exact hg.levels a ha
  rcases hr : s.parseVector ls with ⟨s', r⟩
  cases r with
  | ok u =>
    obtain ⟨hg, rfl⟩ := parseVector_ok.1 hr
    exact hw _ hg
  | err e =>
    obtain ⟨pre, _, _, _, hg, _, rfl, _⟩ := C11_failure_prefix hr
    exact hw _ hg
  | panic =>
    have := np_parseVector s ls
    rw [hr] at this
    exact absurd rfl this

/-- **C35.** Level discipline of a session is kept by every history of calls (sections handed to
`extend_media` must be fine themselves; by `C35_media_levels` those built through the API are). -/
theorem C35_session_levels (s : Session) (ops : List SessionOp) (h : SessionLevelOk s)
    (hext : ∀ l, SessionOp.extendMedia l ∈ ops → ∀ m ∈ l, LevelOk m) :
    SessionLevelOk (ops.foldl Session.apply s) := by
  induction ops generalizing s with
  | nil => exact h
  | cons op ops ih =>
    refine ih (s.apply op) ?_ fun l hl => hext l (by simp [hl])
    cases op with
    | setConnection | addBandwidth | setTiming => exact h
    | addAttribute a =>
      simp only [Session.apply, Session.addAttribute]
      split
      · exact h
      · rename_i hb
        simp at hb
        refine ⟨fun b hb' => ?_, h.2⟩
        rcases List.mem_append.1 hb' with hb' | hb'
        · exact h.1 b hb'
        · simp at hb'; rw [hb']; exact (allowedAtSessionLevel_iff a).1 hb
    | extendMedia l =>
      refine ⟨h.1, fun m hm => ?_⟩
      rcases List.mem_append.1 hm with hm | hm
      · exact h.2 m hm
      · exact hext l (by simp) m hm
    | addMedia t d p pr ad =>
      obtain ⟨h1, h2⟩ := C34_add_media s t d p pr ad
      simp only [Session.apply]
      by_cases hd : d.type ∈ sessionOnly
      · obtain ⟨e, he⟩ := h2 hd; rw [he]; exact h
      · rw [h1 hd]
        refine ⟨h.1, fun m hm => ?_⟩
        rcases List.mem_append.1 hm with hm | hm
        · exact h.2 m hm
        · simp at hm; rw [hm]; intro a ha; simp at ha; rw [ha]; exact hd
    | parseSessionVector ls => exact parseVector_levels s ls h

example (v : UInt64) (o : Origin) (n : Str) : SessionLevelOk (Session.new v o n) := by
  constructor <;> intro a ha <;> simp [Session.new] at ha

end

end Sdp
