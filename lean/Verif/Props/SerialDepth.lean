import Verif.Props.SerialShape
import Verif.Props.Accepted
/-!
# C125: how deep the JSON is
-/

namespace Sdp

/-- Arrays and objects are nested at most so deep. -/
inductive Json.Within : Nat → Json → Prop
  | null {n} : Within n .null
  | bool {n} (b) : Within n (.bool b)
  | nat {n} (x) : Within n (.nat x)
  | f32 {n} (x) : Within n (.f32 x)
  | f64 {n} (x) : Within n (.f64 x)
  | str {n} (s) : Within n (.str s)
  | arr {n} (l) (h : ∀ x ∈ l, Within n x) : Within (n + 1) (.arr l)
  | obj {n} (l : List (Str × Json)) (h : ∀ p ∈ l, Within n p.2) : Within (n + 1) (.obj l)

theorem Json.Within.mono {n : Nat} {j : Json} (h : j.Within n) : ∀ {m : Nat}, n ≤ m → j.Within m := by
  induction h with
  | null => exact fun _ => .null
  | bool => exact fun _ => .bool _
  | nat => exact fun _ => .nat _
  | f32 => exact fun _ => .f32 _
  | f64 => exact fun _ => .f64 _
  | str => exact fun _ => .str _
  | arr l _ ih =>
    intro m hm
    cases m with
    | zero => omega
    | succ m => exact .arr l fun x hx => ih x hx (by omega)
  | obj l _ ih =>
    intro m hm
    cases m with
    | zero => omega
    | succ m => exact .obj l fun x hx => ih x hx (by omega)

/-- One step in, something less deep is found. -/
theorem Json.Within.step {n : Nat} {j x : Json} {s : JsonStep} (h : j.Within n) (hx : j.step s = some x) :
    ∃ m, n = m + 1 ∧ x.Within m := by
  cases h with
  | arr l h =>
    cases s with
    | key => simp [Json.step] at hx
    | index i => exact ⟨_, rfl, h x (List.mem_of_getElem? hx)⟩
  | obj l h =>
    cases s with
    | index => simp [Json.step] at hx
    | key k =>
      simp only [Json.step, Option.map_eq_some_iff] at hx
      obtain ⟨p, hp, rfl⟩ := hx
      exact ⟨_, rfl, h p (List.mem_of_find?_eq_some hp)⟩
  | _ => cases s <;> simp [Json.step] at hx

theorem Json.Within.at {j x : Json} {p : List JsonStep} : ∀ {n : Nat}, j.Within n → j.at p = some x → p.length ≤ n := by
  induction p generalizing j with
  | nil => intro n _ _; exact Nat.zero_le _
  | cons s p ih =>
    intro n h hx
    simp only [Json.at, Option.bind_eq_some_iff] at hx
    obtain ⟨y, hy, hx⟩ := hx
    obtain ⟨m, rfl, hm⟩ := h.step hy
    have := ih hm hx
    simp only [List.length_cons]
    omega

class SerDepth (α : Type) [Ser α] (n : outParam Nat) : Prop where
  within : ∀ a : α, (ser a).Within n

theorem deep {α : Type} [Ser α] {d n : Nat} [SerDepth α d] (a : α) (h : d ≤ n) : (ser a).Within n :=
  (SerDepth.within a).mono h

theorem no_members {n : Nat} : ∀ p ∈ ([] : List (Str × Json)), p.2.Within n := fun _ h => nomatch h

theorem deep_obj {n : Nat} {k : Str} {j : Json} {l : List (Str × Json)} (h : j.Within n) (t : ∀ p ∈ l, p.2.Within n) :
    ∀ p ∈ (k, j) :: l, p.2.Within n := by
  intro p hp
  rcases List.mem_cons.1 hp with rfl | hp
  · exact h
  · exact t p hp

theorem no_entries {n : Nat} : ∀ x ∈ ([] : List Json), x.Within n := fun _ h => nomatch h

theorem deep_arr {n : Nat} {j : Json} {l : List Json} (h : j.Within n) (t : ∀ x ∈ l, x.Within n) :
    ∀ x ∈ j :: l, x.Within n := by
  intro x hx
  rcases List.mem_cons.1 hx with rfl | hx
  · exact h
  · exact t x hx

instance : SerDepth Bool 0 := ⟨fun _ => .bool _⟩
instance : SerDepth UInt8 0 := ⟨fun _ => .nat _⟩
instance : SerDepth UInt16 0 := ⟨fun _ => .nat _⟩
instance : SerDepth UInt32 0 := ⟨fun _ => .nat _⟩
instance : SerDepth UInt64 0 := ⟨fun _ => .nat _⟩
instance : SerDepth Nat 0 := ⟨fun _ => .nat _⟩
instance : SerDepth Str 0 := ⟨fun _ => .str _⟩
instance : SerDepth IpAddr 0 := ⟨fun _ => .str _⟩
instance : SerDepth F32 0 := ⟨fun x => by simp only [ser]; split <;> first | exact .null | exact .f32 _⟩
instance : SerDepth F64 0 := ⟨fun x => by simp only [ser]; split <;> first | exact .null | exact .f64 _⟩
instance {α : Type} {n : Nat} [Ser α] [SerDepth α n] : SerDepth (Option α) n := ⟨fun
  | none => .null
  | some x => SerDepth.within x⟩
instance {α : Type} {n : Nat} [Ser α] [SerDepth α n] : SerDepth (List α) (n + 1) := ⟨fun l => .arr _ fun x hx => by
  obtain ⟨a, _, rfl⟩ := List.mem_map.1 hx
  exact SerDepth.within a⟩
instance : SerDepth (Str × Str) 1 :=
  ⟨fun p => .arr _ (deep_arr (SerDepth.within p.1) (deep_arr (SerDepth.within p.2) no_entries))⟩

/-- A record, a bare name or a variant, by its members. -/
macro "ser_deep" : tactic => `(tactic| (
  constructor
  intro a
  cases a <;> first
    | exact .str _
    | exact .obj _ (deep_obj (deep _ (by decide)) no_members)
    | (refine .obj _ (deep_obj (.arr _ ?_) no_members)
       repeat' first | exact no_entries | refine deep_arr (deep _ (by decide)) ?_)
    | (refine .obj _ ?_
       repeat' first | exact no_members | refine deep_obj (deep _ (by decide)) ?_)))

instance : SerDepth AddressType 0 := by ser_deep
instance : SerDepth Address 1 := by ser_deep
instance : SerDepth TypedAddress 2 := ⟨fun
  | .fqdn t d => .obj _ (deep_obj (.obj _ (deep_obj (deep t (by decide)) (deep_obj (deep d (by decide)) no_members)))
      no_members)
  | .ip a => .obj _ (deep_obj (deep a (by decide)) no_members)⟩
instance : SerDepth SingleDirection 0 := by ser_deep
instance : SerDepth PayloadType 1 := by ser_deep
instance : SerDepth CandTransport 0 := by ser_deep
instance : SerDepth CandType 0 := by ser_deep
instance : SerDepth CandTcpType 0 := by ser_deep
instance : SerDepth Candidate 3 := by ser_deep
instance : SerDepth DtlsMessage 1 := by ser_deep
instance : SerDepth RemoteCandidate 2 := by ser_deep
instance : SerDepth SimulcastId 1 := by ser_deep
instance : SerDepth SimulcastVersion 3 := by ser_deep
instance : SerDepth Simulcast 5 := by ser_deep
instance : SerDepth Rtcp 3 := by ser_deep
instance : SerDepth RtcpFbType 0 := by ser_deep
instance : SerDepth RtcpFb 2 := by ser_deep
instance : SerDepth Direction 0 := by ser_deep
instance : SerDepth Extmap 1 := by ser_deep
instance : SerDepth RtxParams 1 := by ser_deep
instance : SerDepth FmtpParams 2 := by ser_deep
instance : SerDepth Fmtp 3 := by ser_deep
instance : SerDepth HashType 0 := by ser_deep
instance : SerDepth Fingerprint 2 := by ser_deep
instance : SerDepth XyRange 2 := by ser_deep
instance : SerDepth SRange 2 := by ser_deep
instance : SerDepth PRange 1 := by ser_deep
instance : SerDepth ImageAttrSet 3 := by ser_deep
instance : SerDepth ImageAttrSetList 5 := by ser_deep
instance : SerDepth ImageAttr 6 := by ser_deep
instance : SerDepth Sctpmap 1 := by ser_deep
instance : SerDepth GroupSemantic 0 := by ser_deep
instance : SerDepth Group 2 := by ser_deep
instance : SerDepth Msid 1 := by ser_deep
instance : SerDepth MsidSemantic 2 := by ser_deep
instance : SerDepth RidParams 2 := by ser_deep
instance : SerDepth Rid 3 := by ser_deep
instance : SerDepth Rtpmap 1 := by ser_deep
instance : SerDepth Setup 0 := by ser_deep
instance : SerDepth Ssrc 1 := by ser_deep
instance : SerDepth SsrcGroupSemantic 0 := by ser_deep
instance : SerDepth Attribute 7 := by ser_deep
instance : SerDepth Bandwidth 2 := by ser_deep
instance : SerDepth Connection 3 := by ser_deep
instance : SerDepth Origin 3 := by ser_deep
instance : SerDepth Timing 1 := by ser_deep
instance : SerDepth MediaValue 0 := by ser_deep
instance : SerDepth ProtocolValue 0 := by ser_deep
instance : SerDepth FormatList 2 := by ser_deep
instance : SerDepth MediaLine 3 := by ser_deep
instance : SerDepth SdpType 8 := by ser_deep
instance : SerDepth SdpLine 9 := by ser_deep
instance : SerDepth Media 9 := by ser_deep
instance : SerDepth ParserError 1 := ⟨by
  intro a
  cases a <;>
    (simp only [ser, ParserError.serStruct, List.cons_append, List.nil_append]
     refine .obj _ ?_
     repeat' first | exact no_members | refine deep_obj (.str _) ?_ | refine deep_obj (.nat _) ?_)⟩
instance : SerDepth Session 11 := by ser_deep

/-- **C125.** However long a session is, what is found in its JSON is found in at most eleven steps. -/
theorem C125_depth (s : Session) (p : List JsonStep) (x : Json) (h : (ser s).at p = some x) : p.length ≤ 11 :=
  (SerDepth.within s).at h

/-- A section with an image attribute -/
def deepSession : Session where
  version := 0
  origin := ⟨c%"-", 1, 2, .ip (.v4 0)⟩
  session := none
  connection := none
  bandwidth := []
  timing := none
  attrs := []
  media := [⟨⟨.video, 9, 0, .rtpSavpf, .integers [96]⟩, none, [],
    [.imageAttr ⟨.wildcard, .sets [⟨.discrete [640], .discrete [480], none, none, none⟩], .wildcard⟩]⟩]
  warnings := []

/-- **C125.** Eleven steps are needed. -/
theorem C125_depth_reached : ∃ (s : Session) (p : List JsonStep) (n : Nat), p.length = 11 ∧ (ser s).at p = some (.nat n) :=
  ⟨deepSession, [.key c%"media", .index 0, .key c%"attribute", .index 0, .key c%"ImageAttr", .key c%"send", .key c%"Sets",
    .index 0, .key c%"x", .key c%"DiscreteValues", .index 0], 640, rfl, rfl⟩

/-- **C125.** In the JSON of an accepted text the version is 0, there are times, and the connection is not
null in the session or not null in any section. -/
theorem C125_accepted [Env] {t : Str} {f : Bool} {s : Session} (h : parseSdp t f = .ok s) :
    (ser s).at [.key c%"version"] = some (.nat 0) ∧
    (∃ a b, (ser s).at [.key c%"timing", .key c%"start"] = some (.nat a) ∧
      (ser s).at [.key c%"timing", .key c%"stop"] = some (.nat b)) ∧
    ((ser s).at [.key c%"connection"] ≠ some .null ∨ ∀ i m, (ser s).at [.key c%"media", .index i] = some m →
      m.at [.key c%"connection"] ≠ some .null) := by
  obtain ⟨_, hv, _, _, _, _, _, hc, h1, h2, _, _, hm, _⟩ := C125_session s
  obtain ⟨v, w, ht⟩ := C03_version_and_timing h
  have some_ne : ∀ c : Connection, ser c ≠ .null := fun c hc => Json.noConfusion hc
  refine ⟨by rw [hv, v]; rfl, ⟨_, _, by rw [h1, ht]; rfl, by rw [h2, ht]; rfl⟩, ?_⟩
  rcases C04_connection_coverage h with ⟨c, hs⟩ | hs
  · refine .inl ?_
    rw [hc, hs]
    exact fun e => some_ne c (Option.some.inj e)
  · refine .inr fun i m e => ?_
    rw [hm, Option.map_eq_some_iff] at e
    obtain ⟨x, hx, rfl⟩ := e
    obtain ⟨c, hs⟩ := hs x (List.mem_of_getElem? hx)
    rw [(C125_section x).2.2.2.2.2.2.2.1, hs]
    exact fun e => some_ne c (Option.some.inj e)

section Examples
attribute [local instance] sampleEnv

def deepText : Str :=
  c%"v=0\r\no=- 1 2 IN IP4 0.0.0.0\r\ns=-\r\nt=0 0\r\nc=IN IP4 0.0.0.0\r\nm=video 9 RTP/SAVPF 96\r\na=imageattr:* send [x=640,y=480] recv *\r\n"

def numberAt (r : Outcome ParserError Session) (p : List JsonStep) : Option Nat :=
  match r with
  | .ok s => match (ser s).at p with
    | some (.nat n) => some n
    | _ => none
  | _ => none

/-- This text is accepted; sessions that were read have values that deep. -/
example : numberAt (parseSdp deepText true) [.key c%"media", .index 0, .key c%"attribute", .index 0, .key c%"ImageAttr",
    .key c%"send", .key c%"Sets", .index 0, .key c%"x", .key c%"DiscreteValues", .index 0] = some 640 := by
  decide +kernel

end Examples

end Sdp
