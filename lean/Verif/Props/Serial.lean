import Verif.Spec.Serial
import Verif.Props.Num
import Verif.Props.Text
/-!
# C72 to C74: JSON and the causes of errors
-/

namespace Sdp

/-! ## Different values have different JSON -/

class SerInj (α : Type) [Ser α] : Prop where
  inj : ∀ {a b : α}, ser a = ser b → a = b

class SerSome (α : Type) [Ser α] : Prop where
  ne : ∀ a : α, ser a ≠ .null

theorem ser_eq {α : Type} [Ser α] [SerInj α] {a b : α} : ser a = ser b ↔ a = b :=
  ⟨SerInj.inj, fun h => h ▸ rfl⟩

/-- Equal objects or arrays have equal fields. -/
macro "ser_fields" "at" h:ident : tactic => `(tactic| (
  injection $h with $h:ident
  simp only [List.cons.injEq, Prod.mk.injEq, Json.obj.injEq, Json.arr.injEq, true_and, and_true, ser_eq] at $h:ident))

macro "ser_clash" h:ident : tactic => `(tactic| (cases $h:ident; done))

instance : SerInj Bool := ⟨by intro a b h; cases h; rfl⟩
instance : SerInj UInt8 := ⟨by intro a b h; exact UInt8.toNat_inj.1 (Json.nat.inj h)⟩
instance : SerInj UInt16 := ⟨by intro a b h; exact UInt16.toNat_inj.1 (Json.nat.inj h)⟩
instance : SerInj UInt32 := ⟨by intro a b h; exact UInt32.toNat_inj.1 (Json.nat.inj h)⟩
instance : SerInj UInt64 := ⟨by intro a b h; exact UInt64.toNat_inj.1 (Json.nat.inj h)⟩
instance : SerInj Nat := ⟨by intro a b h; exact Json.nat.inj h⟩
instance : SerSome UInt8 := ⟨by intro a h; cases h⟩
instance : SerSome UInt16 := ⟨by intro a h; cases h⟩
instance : SerSome UInt32 := ⟨by intro a h; cases h⟩
instance : SerSome UInt64 := ⟨by intro a h; cases h⟩
instance : SerInj Str := ⟨by intro a b h; exact Json.str.inj h⟩
instance : SerSome Str := ⟨by intro a h; cases h⟩
instance : SerInj IpAddr := ⟨by intro a b h; exact C47_injective (Json.str.inj h)⟩
instance {α : Type} [Ser α] [SerInj α] [SerSome α] : SerInj (Option α) := ⟨by
  intro a b h
  cases a <;> cases b
  · rfl
  · exact absurd h.symm (SerSome.ne (α := α) _)
  · exact absurd h (SerSome.ne (α := α) _)
  · exact congrArg some (SerInj.inj h)⟩

/-- Lists are equal if their elements are. -/
theorem ser_list {α : Type} [Ser α] {P : α → Prop} (hp : ∀ a b, P a → P b → ser a = ser b → a = b) :
    ∀ {l m : List α}, (∀ x ∈ l, P x) → (∀ x ∈ m, P x) → l.map ser = m.map ser → l = m
  | [], [], _, _, _ => rfl
  | [], _ :: _, _, _, h => by simp at h
  | _ :: _, [], _, _, h => by simp at h
  | a :: l, b :: m, h1, h2, h => by
    simp only [List.map_cons, List.cons.injEq] at h
    rw [hp a b (h1 a (by simp)) (h2 b (by simp)) h.1,
      ser_list hp (fun x hx => h1 x (by simp [hx])) (fun x hx => h2 x (by simp [hx])) h.2]

instance {α : Type} [Ser α] [SerInj α] : SerInj (List α) := ⟨by
  intro a b h
  exact ser_list (P := fun _ => True) (fun _ _ _ _ => SerInj.inj) (fun _ _ => trivial) (fun _ _ => trivial) (Json.arr.inj h)⟩
instance {α β : Type} [Ser α] [Ser β] [SerInj α] [SerInj β] : SerInj (α × β) := ⟨by
  rintro ⟨a, b⟩ ⟨c, d⟩ h
  ser_fields at h
  simp [h]⟩

instance : SerInj AddressType := ⟨by
  intro a b h; cases a <;> cases b <;> first | rfl | ser_clash h | (ser_fields at h; simp [h])⟩
instance : SerSome AddressType := ⟨by intro a h; cases a <;> cases h⟩
instance : SerInj Address := ⟨by
  intro a b h; cases a <;> cases b <;> first | rfl | ser_clash h | (ser_fields at h; simp [h])⟩
instance : SerSome Address := ⟨by intro a h; cases a <;> cases h⟩
instance : SerInj TypedAddress := ⟨by
  intro a b h; cases a <;> cases b <;> first | rfl | ser_clash h | (ser_fields at h; simp [h])⟩
instance : SerSome TypedAddress := ⟨by intro a h; cases a <;> cases h⟩
instance : SerInj SingleDirection := ⟨by
  intro a b h; cases a <;> cases b <;> first | rfl | ser_clash h | (ser_fields at h; simp [h])⟩
instance : SerSome SingleDirection := ⟨by intro a h; cases a <;> cases h⟩
instance : SerInj PayloadType := ⟨by
  intro a b h; cases a <;> cases b <;> first | rfl | ser_clash h | (ser_fields at h; simp [h])⟩
instance : SerSome PayloadType := ⟨by intro a h; cases a <;> cases h⟩
instance : SerInj CandTransport := ⟨by
  intro a b h; cases a <;> cases b <;> first | rfl | ser_clash h | (ser_fields at h; simp [h])⟩
instance : SerSome CandTransport := ⟨by intro a h; cases a <;> cases h⟩
instance : SerInj CandType := ⟨by
  intro a b h; cases a <;> cases b <;> first | rfl | ser_clash h | (ser_fields at h; simp [h])⟩
instance : SerSome CandType := ⟨by intro a h; cases a <;> cases h⟩
instance : SerInj CandTcpType := ⟨by
  intro a b h; cases a <;> cases b <;> first | rfl | ser_clash h | (ser_fields at h; simp [h])⟩
instance : SerSome CandTcpType := ⟨by intro a h; cases a <;> cases h⟩
instance : SerInj Candidate := ⟨by
  rintro ⟨⟩ ⟨⟩ h
  ser_fields at h
  simp [h]⟩
instance : SerSome Candidate := ⟨by intro a h; cases a <;> cases h⟩
instance : SerInj DtlsMessage := ⟨by
  intro a b h; cases a <;> cases b <;> first | rfl | ser_clash h | (ser_fields at h; simp [h])⟩
instance : SerSome DtlsMessage := ⟨by intro a h; cases a <;> cases h⟩
instance : SerInj RemoteCandidate := ⟨by
  rintro ⟨⟩ ⟨⟩ h
  ser_fields at h
  simp [h]⟩
instance : SerSome RemoteCandidate := ⟨by intro a h; cases a <;> cases h⟩
instance : SerInj SimulcastId := ⟨by
  rintro ⟨⟩ ⟨⟩ h
  ser_fields at h
  simp [h]⟩
instance : SerSome SimulcastId := ⟨by intro a h; cases a <;> cases h⟩
instance : SerInj SimulcastVersion := ⟨by
  rintro ⟨⟩ ⟨⟩ h
  ser_fields at h
  simp [h]⟩
instance : SerSome SimulcastVersion := ⟨by intro a h; cases a <;> cases h⟩
instance : SerInj Simulcast := ⟨by
  rintro ⟨⟩ ⟨⟩ h
  ser_fields at h
  simp [h]⟩
instance : SerSome Simulcast := ⟨by intro a h; cases a <;> cases h⟩
instance : SerInj Rtcp := ⟨by
  rintro ⟨⟩ ⟨⟩ h
  ser_fields at h
  simp [h]⟩
instance : SerSome Rtcp := ⟨by intro a h; cases a <;> cases h⟩
instance : SerInj RtcpFbType := ⟨by
  intro a b h; cases a <;> cases b <;> first | rfl | ser_clash h | (ser_fields at h; simp [h])⟩
instance : SerSome RtcpFbType := ⟨by intro a h; cases a <;> cases h⟩
instance : SerInj RtcpFb := ⟨by
  rintro ⟨⟩ ⟨⟩ h
  ser_fields at h
  simp [h]⟩
instance : SerSome RtcpFb := ⟨by intro a h; cases a <;> cases h⟩
instance : SerInj Direction := ⟨by
  intro a b h; cases a <;> cases b <;> first | rfl | ser_clash h | (ser_fields at h; simp [h])⟩
instance : SerSome Direction := ⟨by intro a h; cases a <;> cases h⟩
instance : SerInj Extmap := ⟨by
  rintro ⟨⟩ ⟨⟩ h
  ser_fields at h
  simp [h]⟩
instance : SerSome Extmap := ⟨by intro a h; cases a <;> cases h⟩
instance : SerInj RtxParams := ⟨by
  rintro ⟨⟩ ⟨⟩ h
  ser_fields at h
  simp [h]⟩
instance : SerSome RtxParams := ⟨by intro a h; cases a <;> cases h⟩
instance : SerInj FmtpParams := ⟨by
  rintro ⟨⟩ ⟨⟩ h
  ser_fields at h
  simp [h]⟩
instance : SerSome FmtpParams := ⟨by intro a h; cases a <;> cases h⟩
instance : SerInj Fmtp := ⟨by
  rintro ⟨⟩ ⟨⟩ h
  ser_fields at h
  simp [h]⟩
instance : SerSome Fmtp := ⟨by intro a h; cases a <;> cases h⟩
instance : SerInj HashType := ⟨by
  intro a b h; cases a <;> cases b <;> first | rfl | ser_clash h | (ser_fields at h; simp [h])⟩
instance : SerSome HashType := ⟨by intro a h; cases a <;> cases h⟩
instance : SerInj Fingerprint := ⟨by
  rintro ⟨⟩ ⟨⟩ h
  ser_fields at h
  simp [h]⟩
instance : SerSome Fingerprint := ⟨by intro a h; cases a <;> cases h⟩
instance : SerInj XyRange := ⟨by
  intro a b h; cases a <;> cases b <;> first | rfl | ser_clash h | (ser_fields at h; simp [h])⟩
instance : SerSome XyRange := ⟨by intro a h; cases a <;> cases h⟩
instance : SerInj Sctpmap := ⟨by
  rintro ⟨⟩ ⟨⟩ h
  ser_fields at h
  simp [h]⟩
instance : SerSome Sctpmap := ⟨by intro a h; cases a <;> cases h⟩
instance : SerInj GroupSemantic := ⟨by
  intro a b h; cases a <;> cases b <;> first | rfl | ser_clash h | (ser_fields at h; simp [h])⟩
instance : SerSome GroupSemantic := ⟨by intro a h; cases a <;> cases h⟩
instance : SerInj Group := ⟨by
  rintro ⟨⟩ ⟨⟩ h
  ser_fields at h
  simp [h]⟩
instance : SerSome Group := ⟨by intro a h; cases a <;> cases h⟩
instance : SerInj Msid := ⟨by
  rintro ⟨⟩ ⟨⟩ h
  ser_fields at h
  simp [h]⟩
instance : SerSome Msid := ⟨by intro a h; cases a <;> cases h⟩
instance : SerInj MsidSemantic := ⟨by
  rintro ⟨⟩ ⟨⟩ h
  ser_fields at h
  simp [h]⟩
instance : SerSome MsidSemantic := ⟨by intro a h; cases a <;> cases h⟩
instance : SerInj RidParams := ⟨by
  rintro ⟨⟩ ⟨⟩ h
  ser_fields at h
  simp [h]⟩
instance : SerSome RidParams := ⟨by intro a h; cases a <;> cases h⟩
instance : SerInj Rid := ⟨by
  rintro ⟨⟩ ⟨⟩ h
  ser_fields at h
  simp [h]⟩
instance : SerSome Rid := ⟨by intro a h; cases a <;> cases h⟩
instance : SerInj Rtpmap := ⟨by
  rintro ⟨⟩ ⟨⟩ h
  ser_fields at h
  simp [h]⟩
instance : SerSome Rtpmap := ⟨by intro a h; cases a <;> cases h⟩
instance : SerInj Setup := ⟨by
  intro a b h; cases a <;> cases b <;> first | rfl | ser_clash h | (ser_fields at h; simp [h])⟩
instance : SerSome Setup := ⟨by intro a h; cases a <;> cases h⟩
instance : SerInj Ssrc := ⟨by
  rintro ⟨⟩ ⟨⟩ h
  ser_fields at h
  simp [h]⟩
instance : SerSome Ssrc := ⟨by intro a h; cases a <;> cases h⟩
instance : SerInj SsrcGroupSemantic := ⟨by
  intro a b h; cases a <;> cases b <;> first | rfl | ser_clash h | (ser_fields at h; simp [h])⟩
instance : SerSome SsrcGroupSemantic := ⟨by intro a h; cases a <;> cases h⟩
instance : SerInj Bandwidth := ⟨by
  intro a b h; cases a <;> cases b <;> first | rfl | ser_clash h | (ser_fields at h; simp [h])⟩
instance : SerSome Bandwidth := ⟨by intro a h; cases a <;> cases h⟩
instance : SerInj Connection := ⟨by
  rintro ⟨⟩ ⟨⟩ h
  ser_fields at h
  simp [h]⟩
instance : SerSome Connection := ⟨by intro a h; cases a <;> cases h⟩
instance : SerInj Origin := ⟨by
  rintro ⟨⟩ ⟨⟩ h
  ser_fields at h
  simp [h]⟩
instance : SerSome Origin := ⟨by intro a h; cases a <;> cases h⟩
instance : SerInj Timing := ⟨by
  rintro ⟨⟩ ⟨⟩ h
  ser_fields at h
  simp [h]⟩
instance : SerSome Timing := ⟨by intro a h; cases a <;> cases h⟩
instance : SerInj MediaValue := ⟨by
  intro a b h; cases a <;> cases b <;> first | rfl | ser_clash h | (ser_fields at h; simp [h])⟩
instance : SerSome MediaValue := ⟨by intro a h; cases a <;> cases h⟩
instance : SerInj ProtocolValue := ⟨by
  intro a b h; cases a <;> cases b <;> first | rfl | ser_clash h | (ser_fields at h; simp [h])⟩
instance : SerSome ProtocolValue := ⟨by intro a h; cases a <;> cases h⟩
instance : SerInj FormatList := ⟨by
  intro a b h; cases a <;> cases b <;> first | rfl | ser_clash h | (ser_fields at h; simp [h])⟩
instance : SerSome FormatList := ⟨by intro a h; cases a <;> cases h⟩
instance : SerInj MediaLine := ⟨by
  rintro ⟨⟩ ⟨⟩ h
  ser_fields at h
  simp [h]⟩
instance : SerSome MediaLine := ⟨by intro a h; cases a <;> cases h⟩


theorem ser_f32 {a b : F32} (ha : a.Finite) (hb : b.Finite) (h : ser a = ser b) : a = b := by
  unfold F32.Finite at ha hb
  simp only [ser, if_pos ha, if_pos hb, Json.f32.injEq] at h
  cases a; cases b; simp_all

theorem ser_f32_ne {a : F32} (ha : a.Finite) : ser a ≠ .null := by
  unfold F32.Finite at ha
  simp [ser, if_pos ha]

theorem ser_f64 {a b : F64} (ha : a.Finite) (hb : b.Finite) (h : ser a = ser b) : a = b := by
  unfold F64.Finite at ha hb
  simp only [ser, if_pos ha, if_pos hb, Json.f64.injEq] at h
  cases a; cases b; simp_all

theorem ser_option {α : Type} [Ser α] {P : α → Prop} (hp : ∀ a b, P a → P b → ser a = ser b → a = b)
    (hn : ∀ a, P a → ser a ≠ .null) {a b : Option α} (ha : ∀ x, a = some x → P x) (hb : ∀ x, b = some x → P x)
    (h : ser a = ser b) : a = b := by
  cases a with
  | none => cases b with
    | none => rfl
    | some b => exact absurd h.symm (hn b (hb b rfl))
  | some a => cases b with
    | none => exact absurd h (hn a (ha a rfl))
    | some b => exact congrArg some (hp a b (ha a rfl) (hb b rfl) h)

theorem ser_srange {a b : SRange} (ha : a.Finite) (hb : b.Finite) (h : ser a = ser b) : a = b := by
  cases a <;> cases b <;> try (cases h; done)
  · ser_fields at h
    rw [ser_f32 ha.1 hb.1 h.1, ser_f32 ha.2 hb.2 h.2]
  · injection h with h
    simp only [List.cons.injEq, Prod.mk.injEq, true_and, and_true] at h
    rw [ser_list (fun _ _ => ser_f32) ha hb (Json.arr.inj h)]

theorem ser_prange {a b : PRange} (ha : a.min.Finite ∧ a.max.Finite) (hb : b.min.Finite ∧ b.max.Finite)
    (h : ser a = ser b) : a = b := by
  cases a; cases b
  ser_fields at h
  exact congr (congrArg PRange.mk (ser_f32 ha.1 hb.1 h.1)) (ser_f32 ha.2 hb.2 h.2)

theorem ser_set {a b : ImageAttrSet} (ha : a.Finite) (hb : b.Finite) (h : ser a = ser b) : a = b := by
  cases a; cases b
  ser_fields at h
  obtain ⟨rfl, rfl, h1, h2, h3⟩ := h
  have h1 := ser_option (fun _ _ => ser_srange) (fun a _ h => by cases a <;> cases h) ha.1 hb.1 h1
  have h2 := ser_option (fun _ _ => ser_prange) (fun a _ h => by cases h) ha.2.1 hb.2.1 h2
  have h3 := ser_option (fun _ _ => ser_f32) (fun _ => ser_f32_ne) ha.2.2 hb.2.2 h3
  simp_all

theorem ser_sets {a b : ImageAttrSetList} (ha : a.Finite) (hb : b.Finite) (h : ser a = ser b) : a = b := by
  cases a <;> cases b <;> try (cases h; done)
  · injection h with h
    simp only [List.cons.injEq, Prod.mk.injEq, true_and, and_true] at h
    rw [ser_list (fun _ _ => ser_set) ha hb (Json.arr.inj h)]
  · rfl

theorem ser_attribute {a b : Attribute} (ha : a.Finite) (hb : b.Finite) (h : ser a = ser b) : a = b := by
  cases a <;> cases b <;> first | rfl | (cases h; done) | (ser_fields at h; simp [h]; done) | skip
  · ser_fields at h
    rw [ser_f64 ha hb h]
  · rename_i a b
    ser_fields at h
    cases a; cases b
    ser_fields at h
    obtain ⟨rfl, h1, h2⟩ := h
    have h1 := ser_sets ha.1 hb.1 h1
    have h2 := ser_sets ha.2 hb.2 h2
    simp_all

theorem ser_media {a b : Media} (ha : a.Finite) (hb : b.Finite) (h : ser a = ser b) : a = b := by
  cases a; cases b
  ser_fields at h
  obtain ⟨rfl, rfl, rfl, h⟩ := h
  have h := ser_list (fun _ _ => ser_attribute) ha hb (Json.arr.inj h)
  simp_all

/-- The JSON of an error shows its kind, the message, the line and the line number, and nothing
else. -/
theorem ser_error {a b : ParserError} : ser a = ser b ↔ a.view = b.view := by
  cases a <;> cases b <;>
    simp [ser, ParserError.serStruct, ParserError.view]

theorem ser_errors : ∀ {l m : List ParserError}, l.map ser = m.map ser ↔ l.map ParserError.view = m.map ParserError.view
  | [], [] => by simp
  | [], _ :: _ => by simp
  | _ :: _, [] => by simp
  | a :: l, b :: m => by simp only [List.map_cons, List.cons.injEq, ser_error, ser_errors]

/-- **C72.** Attributes with the same JSON are the same, if their floats are finite. -/
theorem C72_attribute {a b : Attribute} (ha : a.Finite) (hb : b.Finite) : ser a = ser b ↔ a = b :=
  ⟨ser_attribute ha hb, fun h => h ▸ rfl⟩

/-- **C72.** Sections with the same JSON are the same, if their floats are finite. -/
theorem C72_media {a b : Media} (ha : a.Finite) (hb : b.Finite) : ser a = ser b ↔ a = b :=
  ⟨ser_media ha hb, fun h => h ▸ rfl⟩

/-- **C72.** Sessions have the same JSON exactly if they have the same fields and the warnings look
the same, if their floats are finite. -/
theorem C72_session {a b : Session} (ha : a.Finite) (hb : b.Finite) :
    ser a = ser b ↔ { a with warnings := [] } = { b with warnings := [] } ∧
      a.warnings.map ParserError.view = b.warnings.map ParserError.view := by
  cases a; cases b
  constructor
  · intro h
    ser_fields at h
    obtain ⟨rfl, rfl, rfl, rfl, rfl, rfl, h1, h2, h3⟩ := h
    have h1 := ser_list (fun _ _ => ser_attribute) ha.1 hb.1 (Json.arr.inj h1)
    have h2 := ser_list (fun _ _ => ser_media) ha.2 hb.2 (Json.arr.inj h2)
    simp only at h1 h2
    subst h1; subst h2
    exact ⟨rfl, ser_errors.1 (Json.arr.inj h3)⟩
  · rintro ⟨h, h1⟩
    simp only [Session.mk.injEq] at h
    obtain ⟨rfl, rfl, rfl, rfl, rfl, rfl, rfl, rfl, -⟩ := h
    have := congrArg Json.arr (ser_errors.2 h1)
    simp only [ser, Json.obj.injEq, List.cons.injEq, Prod.mk.injEq, true_and, and_true]
    exact this

/-- **C72.** Without that condition it fails: an infinite q is shown as if it were missing. -/
theorem C72_infinite : ∃ a b : Attribute, ser a = ser b ∧ a ≠ b :=
  ⟨.imageAttr ⟨.wildcard, .sets [⟨.discrete [1], .discrete [1], none, none, some ⟨0x7f800000⟩⟩], .sets []⟩,
    .imageAttr ⟨.wildcard, .sets [⟨.discrete [1], .discrete [1], none, none, none⟩], .sets []⟩, rfl, by decide⟩

/-- **C73.** The serialized error has the announced number of fields, no two of the same name, and they
are the kind, the message, the line if there is one, and the line number. -/
theorem C73_fields (e : ParserError) :
    e.serStruct.len = e.serStruct.fields.length ∧ (e.serStruct.fields.map (·.1)).Nodup ∧
    match e.view with
    | .line m t n => ser e = .obj [(c%"type", .str c%"Line"), (c%"message", .str m), (c%"line", .str t), (c%"line_number", .nat n)]
    | .unsupported m t n =>
      ser e = .obj [(c%"type", .str c%"Unsupported"), (c%"message", .str m), (c%"line", .str t), (c%"line_number", .nat n)]
    | .sequence m n => ser e = .obj [(c%"type", .str c%"Sequence"), (c%"message", .str m), (c%"line_number", .nat n)] := by
  cases e <;> exact ⟨rfl, by simp [ParserError.serStruct], rfl⟩

/-- **C73.** Two errors have the same JSON exactly if kind, message, line and line number are the
same. -/
theorem C73_iff {a b : ParserError} : ser a = ser b ↔ a.view = b.view := ser_error

/-- **C73.** Errors with the same JSON have the same text. -/
theorem C73_text {a b : ParserError} (h : ser a = ser b) : showParserError a = showParserError b := by
  rw [ser_error] at h
  cases a <;> cases b <;> simp [ParserError.view] at h <;> simp [showParserError, h]

/-- **C74.** Which errors have a cause. -/
theorem C74_has_cause (e : AnyError) : e.source ≠ none ↔
    (∃ i t n, e = .parser (.line i t n) ∨ e = .parser (.unsupported i t n)) ∨
    (∃ i, e = .internal (.integer i)) ∨ (∃ i, e = .internal (.float i)) ∨ (∃ m, e = .internal (.domain m)) ∨
    e = .internal .ipAddress := by
  rcases e with (_ | _ | _) | (_ | _ | _ | _ | _ | _ | _ | _) | _ | _ | _ | _ <;>
    simp [AnyError.source, ParserError.source, InternalError.source]

/-- **C74.** The text of an error contains the text of its cause. -/
theorem C74_text {e c : AnyError} (h : e.source = some c) : c.show <:+: e.show := by
  rcases e with (_ | _ | _) | (_ | _ | _ | _ | _ | _ | _ | _) | _ | _ | _ | _ <;>
    simp only [AnyError.source, ParserError.source, InternalError.source, Option.some.injEq, reduceCtorEq] at h <;>
    subst h <;> simp only [AnyError.show, showParserError, showInternalError]
  · exact ⟨_, _, by simp only [List.append_assoc]; rfl⟩
  · exact ⟨_, _, by simp only [List.append_assoc]; rfl⟩
  all_goals first
    | exact ⟨c%"IP address parsing error: ", [], rfl⟩
    | exact ⟨_, [], by simp only [List.append_nil]; rfl⟩

/-- **C74.** The chain of causes ends: a cause of a cause has no cause, and no error of this crate but
an internal one is the cause of another. -/
theorem C74_chain {e c : AnyError} (h : e.source = some c) :
    (∀ p, c ≠ .parser p) ∧ ∀ d, c.source = some d → d.source = none := by
  rcases e with (_ | _ | _) | (_ | _ | _ | _ | _ | _ | _ | _) | _ | _ | _ | _ <;>
    simp only [AnyError.source, ParserError.source, InternalError.source, Option.some.injEq, reduceCtorEq] at h <;>
    subst h <;> refine ⟨by simp, ?_⟩
  any_goals (simp [AnyError.source]; done)
  all_goals
    intro d hd
    rename_i i _ _
    cases i <;> simp only [AnyError.source, InternalError.source, Option.some.injEq, reduceCtorEq] at hd <;>
      subst hd <;> rfl

/-- **C74.** The causes, one by one: a line error has the error of its line, and an internal error about a number, host
name or IP address has the error of the function that read it. -/
theorem C74_cause {e c : AnyError} : e.source = some c ↔
    (∃ i t n, (e = .parser (.line i t n) ∨ e = .parser (.unsupported i t n)) ∧ c = .internal i) ∨
    (∃ i, e = .internal (.integer i) ∧ c = .int i) ∨ (∃ i, e = .internal (.float i) ∧ c = .float i) ∨
    (∃ m, e = .internal (.domain m) ∧ c = .url m) ∨ e = .internal .ipAddress ∧ c = .addr := by
  rcases e with (_ | _ | _) | (_ | _ | _ | _ | _ | _ | _ | _) | _ | _ | _ | _ <;>
    simp [AnyError.source, ParserError.source, InternalError.source, eq_comm]

/-- **C74.** The texts of errors: that of the cause stands between a text for the kind of error and, for errors of a
line, the number of the line and the line. -/
theorem C74_texts (i : InternalError) (t m : Str) (n : Nat) (k : IntErr) (f : FloatErr) (a b : AddressType) :
    let typeText := fun a : AddressType => match a with | .ipV4 => c%"IP4" | .ipV6 => c%"IP6"
    (AnyError.parser (.line i t n)).show =
      c%"Line error: " ++ (AnyError.internal i).show ++ c%" in line(" ++ showNat n ++ c%"): " ++ t ∧
    (AnyError.parser (.unsupported i t n)).show =
      c%"Unsupported: " ++ (AnyError.internal i).show ++ c%" in line(" ++ showNat n ++ c%"): " ++ t ∧
    (AnyError.parser (.sequence m n)).show = c%"Sequence error in line(" ++ showNat n ++ c%"): " ++ m ∧
    (AnyError.internal (.integer k)).show = c%"Integer parsing error: " ++ (AnyError.int k).show ∧
    (AnyError.internal (.float f)).show = c%"Float parsing error: " ++ (AnyError.float f).show ∧
    (AnyError.internal (.domain m)).show = c%"Domain name parsing error: " ++ (AnyError.url m).show ∧
    (AnyError.internal .ipAddress).show = c%"IP address parsing error: " ++ AnyError.addr.show ∧
    (AnyError.internal (.generic m)).show = c%"Parsing error: " ++ m ∧
    (AnyError.internal (.unsupported m)).show = c%"Unsupported parsing error: " ++ m ∧
    (AnyError.internal (.unknownAddressType m)).show = c%"Unknown address type: " ++ m ∧
    (AnyError.internal (.addressTypeMismatch a b)).show =
      c%"Address is of a different type(1) than declared(2): " ++ typeText a ++ c%", " ++ typeText b ∧
    (AnyError.int .empty).show = c%"cannot parse integer from empty string" ∧
    (AnyError.int .invalidDigit).show = c%"invalid digit found in string" ∧
    (AnyError.int .posOverflow).show = c%"number too large to fit in target type" ∧
    (AnyError.float .empty).show = c%"cannot parse float from empty string" ∧
    (AnyError.float .invalid).show = c%"invalid float literal" ∧
    (AnyError.url m).show = m ∧ AnyError.addr.show = c%"invalid IP address syntax" := by
  refine ⟨rfl, rfl, rfl, rfl, rfl, rfl, rfl, rfl, rfl, rfl, ?_, rfl, rfl, rfl, rfl, rfl, rfl, rfl⟩
  cases a <;> cases b <;> rfl

/-! ## Concrete cases -/

example : (Attribute.imageAttr ⟨.pt 97, .sets [⟨.range 1 2 none, .discrete [3, 4], some (.discrete [⟨0x3f800000⟩]), none, some ⟨0x3f000000⟩⟩],
    .wildcard⟩).Finite := by
  refine ⟨?_, trivial⟩
  intro s hs
  simp only [List.mem_singleton] at hs
  subst hs
  refine ⟨?_, by simp, ?_⟩
  · intro r hr; cases hr; intro x hx; simp only [List.mem_singleton] at hx; subst hx; unfold F32.Finite; decide
  · intro x hx; cases hx; unfold F32.Finite; decide
example : ser (Attribute.imageAttr ⟨.pt 97, .sets [⟨.range 1 2 none, .discrete [3, 4], none, none, some ⟨0x3f000000⟩⟩], .wildcard⟩) =
    .obj [(c%"ImageAttr", .obj [(c%"pt", .obj [(c%"PayloadType", .nat 97)]),
      (c%"send", .obj [(c%"Sets", .arr [.obj [(c%"x", .obj [(c%"Range", .arr [.nat 1, .nat 2, .null])]),
        (c%"y", .obj [(c%"DiscreteValues", .arr [.nat 3, .nat 4])]), (c%"sar", .null), (c%"par", .null),
        (c%"q", .f32 0x3f000000)]])]),
      (c%"recv", .str c%"Wildcard")])] := rfl
example : ser (ParserError.line (.integer .empty) c%"t=" 7) =
    .obj [(c%"type", .str c%"Line"), (c%"message", .str c%"Integer parsing error: cannot parse integer from empty string"),
      (c%"line", .str c%"t="), (c%"line_number", .nat 7)] := rfl
example : ser (ParserError.line (.domain c%"x") c%"" 7) ≠ ser (ParserError.line (.generic c%"x") c%"" 7) := by
  rw [Ne, C73_iff]; decide
example : (AnyError.parser (.line (.integer .empty) c%"t=" 7)).source = some (.internal (.integer .empty)) := rfl
example : (AnyError.internal (.integer .empty)).source = some (.int .empty) := rfl

end Sdp
