import Verif.Spec.History
import Verif.Spec.Sample
import Verif.Props.Api
/-!
# C93: what a session and its sections hold after any history of calls
-/

namespace Sdp

section

theorem untouched_cons (sctp : Bool) (op : MediaOp) (ops : List MediaOp) (t : AttributeType) :
    untouched sctp (op :: ops) t = (!(op.clears sctp).contains t && untouched sctp ops t) := rfl

end

section
variable [Env]

/-- One call, on the attributes. -/
theorem apply_attrs (m : Media) (op : MediaOp) :
    (m.apply op).attrs =
      m.attrs.filter (fun a => !(op.clears (isSctp m.media.proto)).contains a.type) ++ op.adds (isSctp m.media.proto) := by
  have set (m : Media) (a : Attribute) : (m.setAttribute a).1.attrs =
      m.attrs.filter (fun b => !([a.type].contains b.type)) ++ if a.type ∈ sessionOnly then [] else [a] := by
    have hf : (fun b : Attribute => !([a.type].contains b.type)) = fun b => decide (b.type ≠ a.type) := by
      funext b; simp [bne, Bool.beq_eq_decide_eq]
    rw [hf]
    by_cases h : a.type ∈ sessionOnly
    · obtain ⟨e, he⟩ := C29_set_attribute_fails m a h
      rw [he, if_pos h]; simp
    · rw [C29_set_attribute_ok m a h, if_neg h]
  cases op with
  | setPort | addBandwidth | setConnection =>
    simp [Media.apply, MediaOp.clears, MediaOp.adds, Media.setPort, Media.addBandwidth, Media.setConnection]
  | addAttribute a =>
    simp only [Media.apply, MediaOp.clears, MediaOp.adds]
    rcases addAttribute_eq m a with ⟨h1, h⟩ | ⟨h1, e, h⟩
    · rw [if_neg h1, h]; simp
    · rw [if_pos h1, h]; simp
  | removeAttribute t0 =>
    simp only [Media.apply, MediaOp.clears, MediaOp.adds, Media.removeAttribute, List.append_nil]
    refine List.filter_congr fun a _ => ?_
    simp [bne, Bool.beq_eq_decide_eq]
  | setAttribute a => simp only [Media.apply, MediaOp.clears, MediaOp.adds, set]
  | removeCodecs =>
    simp only [Media.apply, MediaOp.clears, MediaOp.adds, Media.removeCodecs, List.append_nil]
    refine List.filter_congr fun a _ => ?_
    have := type_codec (a := a)
    simp only [Store.codecTypes] at this
    congr 1
    rw [Bool.eq_iff_iff, this]
    simp
  | addCodec r =>
    simp only [Media.apply, Media.addCodec, MediaOp.clears, MediaOp.adds]
    generalize hm : ({ m with media := _ } : Media) = m'
    have ha : m'.attrs = m.attrs := by rw [← hm]
    rcases addAttribute_eq m' (.rtpmap r) with ⟨_, h⟩ | ⟨h, _⟩
    · rw [h]; simp [ha]
    · simp [Attribute.type, sessionOnly] at h
  | addDatachannel n p st sz =>
    simp only [Media.apply, addDatachannel_eq, MediaOp.clears, MediaOp.adds]
    have hz : sz > 0 ↔ ¬ sz.toNat = 0 := by
      rw [gt_iff_lt, UInt32.lt_iff_toNat_lt]; simp; omega
    cases isSctp m.media.proto <;> by_cases h : sz.toNat = 0 <;>
      simp [hz, h, set, Attribute.type, sessionOnly, List.filter_append, List.filter_filter]
    all_goals
      refine List.filter_congr fun a _ => ?_
      rw [Bool.eq_iff_iff]; simp; tauto

/-- **C93.** The attributes of a section after any history of calls: those it had and those that were added,
allowed at the media level, in this order, as far as no later call removed those of their type. -/
theorem C93_section_attributes (m : Media) (ops : List MediaOp) :
    (m.applyAll ops).getAttributes =
      m.getAttributes.filter (fun a => untouched (isSctp m.media.proto) ops a.type) ++
        addedAndKept (isSctp m.media.proto) ops := by
  unfold Media.getAttributes
  induction ops generalizing m with
  | nil => simp [Media.applyAll, untouched, addedAndKept]
  | cons op ops ih =>
    have := ih (m.apply op)
    simp only [Media.applyAll, List.foldl_cons] at this ⊢
    rw [this, apply_attrs, apply_proto, List.filter_append, List.filter_filter, addedAndKept, List.append_assoc]
    congr 1
    refine List.filter_congr fun a _ => ?_
    rw [untouched_cons, Bool.and_comm]

/-- One call, on everything else. -/
theorem apply_fields (m : Media) (op : MediaOp) :
    (m.apply op).media.port = (match op with | .setPort p => p | _ => m.media.port) ∧
    (m.apply op).media.portCount = m.media.portCount ∧
    (m.apply op).connection = (match op with | .setConnection c => some c | _ => m.connection) ∧
    (m.apply op).bandwidth = m.bandwidth ++ (match op with | .addBandwidth b => [b] | _ => []) ∧
    (m.apply op).media.media = (match op with | .addDatachannel _ _ _ _ => .application | _ => m.media.media) ∧
    (m.apply op).media.formats = (if op.replacesFormats then op.newFormats (isSctp m.media.proto) m.media.formats
      else m.media.formats.more (codecsOf [op])) := by
  have more (f : FormatList) : f.more [] = f := by cases f <;> simp [FormatList.more]
  have add (m : Media) (a : Attribute) : (m.addAttribute a).1.media = m.media ∧
      (m.addAttribute a).1.connection = m.connection ∧ (m.addAttribute a).1.bandwidth = m.bandwidth := by
    rcases addAttribute_eq m a with ⟨_, h⟩ | ⟨_, e, h⟩ <;> rw [h] <;> simp
  have set (m : Media) (a : Attribute) : (m.setAttribute a).1.media = m.media ∧
      (m.setAttribute a).1.connection = m.connection ∧ (m.setAttribute a).1.bandwidth = m.bandwidth := by
    unfold Media.setAttribute
    simp [add, Media.removeAttribute]
  cases op with
  | setPort | addBandwidth | setConnection | removeAttribute =>
    simp [Media.apply, Media.setPort, Media.addBandwidth, Media.setConnection, Media.removeAttribute,
      MediaOp.replacesFormats, codecsOf, more]
  | addAttribute a => simp [Media.apply, add, MediaOp.replacesFormats, codecsOf, more]
  | setAttribute a => simp [Media.apply, set, MediaOp.replacesFormats, codecsOf, more]
  | removeCodecs =>
    simp [Media.apply, Media.removeCodecs, MediaOp.replacesFormats, MediaOp.newFormats]
    cases m.media.formats <;> rfl
  | addCodec r =>
    simp only [Media.apply, Media.addCodec, add, MediaOp.replacesFormats, codecsOf]
    cases m.media.formats <;> simp [FormatList.more, showU8, showNat]
  | addDatachannel n p st sz =>
    simp only [Media.apply, addDatachannel_eq]
    by_cases h : sz > 0 <;> simp [h, set, MediaOp.replacesFormats, MediaOp.newFormats]

/-- **C93.** Port, connection and bandwidths of a section after any history of calls: what was set last, what was
added. The protocol never changes; the type becomes application with the first data channel. -/
theorem C93_section_fields (m : Media) (ops : List MediaOp) :
    let r := m.applyAll ops
    r.getPort = ((ops.filterMap fun op => match op with | .setPort p => some p | _ => none).getLast?).getD m.getPort ∧
    r.getConnection =
      ((ops.filterMap fun op => match op with | .setConnection c => some c | _ => none).getLast?).or m.getConnection ∧
    r.getBandwidth =
      m.getBandwidth ++ (ops.filterMap fun op => match op with | .addBandwidth b => some b | _ => none) ∧
    r.getPortCount = m.getPortCount ∧ r.getProto = m.getProto ∧
    r.getType = if ops.any (fun op => match op with | .addDatachannel _ _ _ _ => true | _ => false) then .application
      else m.getType := by
  simp only [Media.getPort, Media.getConnection, Media.getBandwidth, Media.getPortCount, Media.getProto, Media.getType]
  induction ops generalizing m with
  | nil => simp [Media.applyAll]
  | cons op ops ih =>
    obtain ⟨h1, h2, h3, h4, h5, -⟩ := apply_fields m op
    obtain ⟨i1, i2, i3, i4, i5, i6⟩ := ih (m.apply op)
    simp only [Media.applyAll, List.foldl_cons] at i1 i2 i3 i4 i5 i6 ⊢
    rw [i1, i2, i3, i4, i5, i6, h1, h2, h3, h4, h5, apply_proto]
    refine ⟨?_, ?_, ?_, rfl, rfl, ?_⟩
    · cases op <;> simp [List.getLast?_cons]
    · cases op <;> simp [List.getLast?_cons]
    · cases op <;> simp
    · cases op <;> simp

theorem more_more (f : FormatList) (a b : List Rtpmap) : (f.more a).more b = f.more (a ++ b) := by
  cases f <;> simp [FormatList.more]

theorem formats_kept (m : Media) {ops : List MediaOp} (h : ∀ op ∈ ops, op.replacesFormats = false) :
    (m.applyAll ops).media.formats = m.media.formats.more (codecsOf ops) := by
  induction ops generalizing m with
  | nil => cases hf : m.media.formats <;> simp [Media.applyAll, codecsOf, FormatList.more, hf]
  | cons op ops ih =>
    have h6 := (apply_fields m op).2.2.2.2.2
    rw [h op (by simp)] at h6
    have := ih (m.apply op) fun q hq => h q (by simp [hq])
    simp only [Media.applyAll, List.foldl_cons] at this ⊢
    rw [this, h6]
    simp only [Bool.false_eq_true, if_false, more_more]
    congr 1
    simp only [codecsOf, ← List.filterMap_append, List.singleton_append]

/-- **C93.** The formats of a section after any history of calls: the payload types of the codecs added since the
formats were replaced for the last time come after the formats it had then. -/
theorem C93_section_formats (m : Media) {ops : List MediaOp} (h : ∀ op ∈ ops, op.replacesFormats = false) :
    (m.applyAll ops).getFormats = m.getFormats.more (codecsOf ops) ∧
    ∀ pre op, op.replacesFormats = true → (m.applyAll (pre ++ op :: ops)).getFormats =
      (op.newFormats (isSctp m.getProto) (m.applyAll pre).getFormats).more (codecsOf ops) := by
  refine ⟨formats_kept m h, fun pre op ho => ?_⟩
  have hp (ops : List MediaOp) : (m.applyAll ops).media.proto = m.media.proto := (C93_section_fields m ops).2.2.2.2.1
  have e : m.applyAll (pre ++ op :: ops) = ((m.applyAll pre).apply op).applyAll ops := by
    simp [Media.applyAll]
  have h6 := (apply_fields (m.applyAll pre) op).2.2.2.2.2
  rw [ho] at h6
  simp only [Media.getFormats, Media.getProto]
  rw [e, formats_kept _ h, h6, hp]
  rfl

/-- A session after it was given some values. -/
def Session.plus (s : Session) (xs : List SdpType) (ms : List Media) : Session :=
  { s with
    connection := (connectionsIn xs).getLast?.or s.connection
    timing := (timingsIn xs).getLast?.or s.timing
    bandwidth := s.bandwidth ++ bandwidthsIn xs
    attrs := s.attrs ++ attributesIn xs
    media := s.media ++ ms }

theorem plus_nil (s : Session) : s.plus [] [] = s := by
  simp [Session.plus, connectionsIn, timingsIn, bandwidthsIn, attributesIn]

theorem plus_plus (s : Session) (xs ys : List SdpType) (ms ns : List Media) :
    (s.plus xs ms).plus ys ns = s.plus (xs ++ ys) (ms ++ ns) := by
  simp only [Session.plus, connectionsIn, timingsIn, bandwidthsIn, attributesIn, List.filterMap_append,
    List.append_assoc, List.getLast?_append, Option.or_assoc]

theorem addAttribute_plus (s : Session) (a : Attribute) :
    (a.type ∉ mediaOnly → s.addAttribute a = (s.plus [.attr a] [], .ok ())) ∧
    (a.type ∈ mediaOnly → ∃ e, s.addAttribute a = (s, .err e)) := by
  unfold Session.addAttribute
  have := allowedAtSessionLevel_iff a
  constructor
  · intro h
    rw [if_neg (by simpa using this.2 h)]
    simp [Session.plus, connectionsIn, timingsIn, bandwidthsIn, attributesIn]
  · intro h
    refine ⟨.generic (showAttribute a ++ c%" not allowed at session level"), ?_⟩
    rw [if_pos (by simp only [Bool.not_eq_true', ← Bool.not_eq_true, this, not_not]; exact h)]
    rfl

theorem parseVector_plus (s : Session) (ls : List SdpLine) :
    (s.parseVector ls).1 = s.plus ((ls.takeWhile sessionHolds).map (·.sdpType)) [] := by
  induction ls generalizing s with
  | nil => exact (plus_nil s).symm
  | cons l ls ih =>
    obtain ⟨n, x, tx⟩ := l
    cases x with
    | attr a =>
      simp only [Session.parseVector]
      by_cases h : a.type ∈ mediaOnly
      · obtain ⟨e, he⟩ := (addAttribute_plus s a).2 h
        rw [he]
        simp [sessionHolds, h, plus_nil]
      · rw [(addAttribute_plus s a).1 h]
        simp only [ih, plus_plus]
        simp [sessionHolds, h]
    | bandwidth b =>
      have : s.addBandwidth b = s.plus [.bandwidth b] [] := by
        simp [Session.addBandwidth, Session.plus, connectionsIn, timingsIn, bandwidthsIn, attributesIn]
      simp only [Session.parseVector, this, ih, plus_plus]
      rw [List.takeWhile_cons_of_pos rfl]
      rfl
    | timing t =>
      have : s.setTiming t = s.plus [.timing t] [] := by
        simp [Session.setTiming, Session.plus, connectionsIn, timingsIn, bandwidthsIn, attributesIn]
      simp only [Session.parseVector, this, ih, plus_plus]
      rw [List.takeWhile_cons_of_pos rfl]
      rfl
    | connection c =>
      have : s.setConnection c = s.plus [.connection c] [] := by
        simp [Session.setConnection, Session.plus, connectionsIn, timingsIn, bandwidthsIn, attributesIn]
      simp only [Session.parseVector, this, ih, plus_plus]
      rw [List.takeWhile_cons_of_pos rfl]
      rfl
    | origin | session | version | media =>
      simp [Session.parseVector, sessionHolds, plus_nil]

theorem session_apply_plus (s : Session) (op : SessionOp) : s.apply op = s.plus op.given op.sections := by
  cases op with
  | setConnection | addBandwidth | setTiming | extendMedia =>
    simp [Session.apply, Session.setConnection, Session.addBandwidth, Session.setTiming, Session.extendMedia,
      SessionOp.given, SessionOp.sections, Session.plus, connectionsIn, timingsIn, bandwidthsIn, attributesIn]
  | addAttribute a =>
    simp only [Session.apply, SessionOp.given, SessionOp.sections]
    by_cases h : a.type ∈ mediaOnly
    · obtain ⟨e, he⟩ := (addAttribute_plus s a).2 h
      rw [he, if_pos h, plus_nil]
    · rw [(addAttribute_plus s a).1 h, if_neg h]
  | parseSessionVector ls => exact parseVector_plus s ls
  | addMedia t d p pr ad =>
    simp only [Session.apply, Session.addMedia, SessionOp.given, SessionOp.sections]
    rcases addAttribute_eq (Media.new ⟨t, p, 1, pr, .integers []⟩) d with ⟨h1, h⟩ | ⟨h1, e, h⟩
    · rw [h, if_neg h1]
      simp [Session.plus, connectionsIn, timingsIn, bandwidthsIn, attributesIn, Media.new, Media.setConnection]
    · rw [h, if_pos h1]
      exact (plus_nil s).symm

/-- **C93.** A session after any history of calls: version, origin, name and warnings are as before; connection and
timing are those given last; bandwidths, allowed attributes and sections come after those that were there. -/
theorem C93_session (s : Session) (ops : List SessionOp) :
    let r := ops.foldl Session.apply s
    let xs := ops.flatMap SessionOp.given
    r.getVersion = s.getVersion ∧ r.getOrigin = s.getOrigin ∧ r.getSession = s.getSession ∧ r.warnings = s.warnings ∧
    r.getConnection = (connectionsIn xs).getLast?.or s.getConnection ∧
    r.timing = (timingsIn xs).getLast?.or s.timing ∧
    r.bandwidth = s.bandwidth ++ bandwidthsIn xs ∧
    r.attrs = s.attrs ++ attributesIn xs ∧
    r.media = s.media ++ ops.flatMap SessionOp.sections ∧
    ∀ t, r.getAttribute t = ((s.attrs ++ attributesIn xs).filter fun a => a.type = t).head? := by
  have key : ops.foldl Session.apply s = s.plus (ops.flatMap SessionOp.given) (ops.flatMap SessionOp.sections) := by
    induction ops generalizing s with
    | nil => exact (plus_nil s).symm
    | cons op ops ih => rw [List.foldl_cons, ih, session_apply_plus, plus_plus]; rfl
  simp only [key]
  refine ⟨rfl, rfl, rfl, rfl, rfl, rfl, rfl, rfl, rfl, fun t => ?_⟩
  unfold Session.getAttribute
  rw [← List.head?_filter]
  congr 1

end

/-! ## Concrete histories -/

section
attribute [local instance] sampleEnv

/-- A section with a codec, and a history in which attributes are rejected, replaced and removed. -/
def sampleOps : List MediaOp :=
  [.addAttribute (.mid c%"1"), .addCodec ⟨96, c%"VP8", 90000, none⟩, .addAttribute .iceLite, .setAttribute (.mid c%"2"),
   .removeCodecs, .addCodec ⟨97, c%"H264", 90000, none⟩, .setPort 7, .addAttribute .sendrecv, .setPort 9]

def sampleSection : Media := ⟨⟨.video, 0, 1, .udpTlsRtpSavpf, .integers [100]⟩, none, [], [.rtcpMux, .mid c%"0"]⟩

example : (sampleSection.applyAll sampleOps).getAttributes =
    [.rtcpMux, .mid c%"2", .rtpmap ⟨97, c%"H264", 90000, none⟩, .sendrecv] ∧
    (sampleSection.applyAll sampleOps).getFormats = .integers [97] ∧ (sampleSection.applyAll sampleOps).getPort = 9 ∧
    addedAndKept false sampleOps = [.mid c%"2", .rtpmap ⟨97, c%"H264", 90000, none⟩, .sendrecv] := by decide +kernel

example : (sampleOps.drop 5).all (fun op => !op.replacesFormats) = true ∧ MediaOp.removeCodecs.replacesFormats = true ∧
    sampleOps = sampleOps.take 4 ++ .removeCodecs :: sampleOps.drop 5 := ⟨by decide +kernel, rfl, rfl⟩

example : (SessionOp.addAttribute .rtcpMux).given = [] ∧
    (SessionOp.parseSessionVector [⟨0, .attr .iceLite, []⟩, ⟨1, .version 0, []⟩, ⟨2, .timing ⟨1, 2⟩, []⟩]).given =
      [.attr .iceLite] ∧ (SessionOp.addMedia .audio .iceLite 9 .rtpSavpf (.ip (.v4 0))).sections = [] := by
  decide +kernel

end

end Sdp
