import Verif.Lemmas.Compose
import Verif.Lemmas.PrintSession
import Verif.Lemmas.Post
/-!
# Surroundings in which a value shows in the session
-/

namespace Sdp

/-- Lines of these values. -/
def valueLines (ts : List SdpType) : List SdpLine := ts.map fun t => ⟨0, t, []⟩

/-- In these surroundings the value can be told from any other, and from none. -/
def Tells (A B : List SdpType) (x : SdpType) : Prop :=
  ∃ r0, Describes (valueLines (A ++ x :: B)) r0 ∧
    ∀ y : Option SdpType, Describes (valueLines (A ++ (y.toList ++ B))) r0 → ∃ x', y = some x' ∧ x'.trimmed = x.trimmed

def tellOrigin : Origin := ⟨c%"-", 1, 1, .ip (.v4 0x7f000001)⟩
def tellConnection : Connection := ⟨.ip (.v4 0x7f000001), none, none⟩
def tellRid : Rid := ⟨c%"x", .send, [], ⟨0, 0, 0, 0, 0, 0, []⟩, []⟩
def tellSimulcast : Simulcast := ⟨[⟨[⟨c%"x", false⟩]⟩], []⟩
def tellMedia (fs : List UInt16) : MediaLine := ⟨.application, 9, 0, .dtlsSctp, .strings (c%"x" :: fs.map fun n => decimal n.toNat)⟩

/-- The lines v=, o=, s=, t=, c=. -/
def tellHead : List SdpType :=
  [.version 0, .origin tellOrigin, .session c%"x", .timing ⟨0, 0⟩, .connection tellConnection]

def formatsIn : Attribute → List UInt16
  | .rid r => r.formats
  | _ => []

theorem describes_values {o : Origin} {v : UInt64} {nm : Str} {rest : List SdpType} (h : rest ≠ [])
    (h1 : GoodSessionPart ((valueLines rest).takeWhile notMedia)) (h2 : ∀ p ∈ sectionsOf (valueLines rest), GoodSection p.2)
    (h3 : Consistent (assemble v o nm (valueLines rest) [])) :
    Describes (valueLines (.version v :: .origin o :: .session nm :: rest)) (assemble v o nm (valueLines rest) []) :=
  ⟨_, _, _, valueLines rest, v, o, nm, rfl, by simpa [valueLines] using h, rfl, rfl, rfl, h1, h2, rfl, h3⟩

theorem of_describes {ts : List SdpType} {r : Session} (h : Describes (valueLines ts) r) :
    ∃ v o nm rest, ts = .version v :: .origin o :: .session nm :: rest ∧ GoodSessionPart ((valueLines rest).takeWhile notMedia) ∧
      (∀ p ∈ sectionsOf (valueLines rest), GoodSection p.2) ∧ r = assemble v o nm (valueLines rest) [] ∧ Consistent r := by
  obtain ⟨l0, l1, l2, rest, v, o, nm, e, -, h1, h2, h3, h4, h5, h6, h7⟩ := h
  match ts, e with
  | a :: b :: c :: ts, e =>
    simp only [valueLines, List.map_cons, List.cons.injEq] at e
    obtain ⟨rfl, rfl, rfl, rfl⟩ := e
    dsimp only at h1 h2 h3
    subst h1; subst h2; subst h3
    exact ⟨v, o, nm, ts, rfl, h4, h5, h6, h7⟩

theorem session_field_inj {a b : Str}
    (h : (if Blank a then none else some (trim a)) = (if Blank b then none else some (trim b))) : trim a = trim b := by
  by_cases ha : Blank a <;> by_cases hb : Blank b <;> simp_all
  rw [trim_eq_nil.2 ha, trim_eq_nil.2 hb]

/-- The session part of values is good. -/
theorem goodPart {ts : List SdpType} (h1 : ∀ t ∈ ts, SessionLine ⟨0, t, []⟩) (h2 : ∀ a, SdpType.attr a ∈ ts → a.type ∉ mediaOnly) :
    GoodSessionPart (valueLines ts) := by
  constructor
  · intro l hl
    obtain ⟨t, ht, rfl⟩ := List.mem_map.1 hl
    exact h1 t ht
  · intro a ha
    simp only [attrsOf, List.mem_filterMap, valueLines, List.mem_map] at ha
    obtain ⟨l, ⟨t, ht, rfl⟩, e⟩ := ha
    cases t <;> simp at e
    subst e
    exact h2 _ ht

theorem tells_version (v : UInt64) : Tells [] [.origin tellOrigin, .session c%"x", .timing ⟨0, 0⟩] (.version v) := by
  refine ⟨_, describes_values (rest := [.timing ⟨0, 0⟩]) (by simp) (goodPart (ts := [.timing ⟨0, 0⟩]) (by simp [SessionLine]) (by simp)) (by simp [valueLines, sectionsOf]) ?_, ?_⟩
  · constructor <;> simp [assemble, valueLines, List.takeWhile_cons, notMedia, timingsOf, connectionsOf, attrsOf, sectionsOf]
  · intro y hy
    obtain ⟨v', o, nm, rest, e, -, -, h, -⟩ := of_describes hy
    cases y with
    | none => simp at e
    | some y =>
      simp only [Option.toList_some, List.nil_append, List.cons_append, List.cons.injEq] at e
      obtain ⟨rfl, -⟩ := e
      exact ⟨_, rfl, by rw [show v = v' from congrArg Session.version h]⟩

theorem tells_origin (o : Origin) : Tells [.version 0] [.session c%"x", .timing ⟨0, 0⟩] (.origin o) := by
  refine ⟨_, describes_values (rest := [.timing ⟨0, 0⟩]) (by simp) (goodPart (ts := [.timing ⟨0, 0⟩]) (by simp [SessionLine]) (by simp)) (by simp [valueLines, sectionsOf]) ?_, ?_⟩
  · constructor <;> simp [assemble, valueLines, List.takeWhile_cons, notMedia, timingsOf, connectionsOf, attrsOf, sectionsOf]
  · intro y hy
    obtain ⟨v', o', nm, rest, e, -, -, h, -⟩ := of_describes hy
    cases y with
    | none => simp at e
    | some y =>
      simp only [Option.toList_some, List.nil_append, List.cons_append, List.cons.injEq] at e
      obtain ⟨-, rfl, -⟩ := e
      exact ⟨_, rfl, by rw [show o = o' from congrArg Session.origin h]⟩

theorem tells_session (n : Str) : Tells [.version 0, .origin tellOrigin] [.timing ⟨0, 0⟩] (.session n) := by
  refine ⟨_, describes_values (rest := [.timing ⟨0, 0⟩]) (by simp) (goodPart (ts := [.timing ⟨0, 0⟩]) (by simp [SessionLine]) (by simp)) (by simp [valueLines, sectionsOf]) ?_, ?_⟩
  · constructor <;> simp [assemble, valueLines, List.takeWhile_cons, notMedia, timingsOf, connectionsOf, attrsOf, sectionsOf]
  · intro y hy
    obtain ⟨v', o', nm, rest, e, -, -, h, -⟩ := of_describes hy
    cases y with
    | none => simp at e
    | some y =>
      simp only [Option.toList_some, List.nil_append, List.cons_append, List.cons.injEq] at e
      obtain ⟨-, -, rfl, -⟩ := e
      refine ⟨_, rfl, ?_⟩
      simp only [SdpType.trimmed, SdpType.session.injEq]
      exact (session_field_inj (congrArg Session.session h)).symm

theorem tells_timing (t : Timing) :
    Tells [.version 0, .origin tellOrigin, .session c%"x"] [.attr .iceLite] (.timing t) := by
  refine ⟨_, describes_values (rest := [.timing t, .attr .iceLite]) (by simp) (goodPart (ts := [.timing t, .attr .iceLite]) (by simp [SessionLine]) (by simp; decide)) (by simp [valueLines, sectionsOf]) ?_, ?_⟩
  · constructor <;> simp [assemble, valueLines, List.takeWhile_cons, notMedia, timingsOf, connectionsOf, attrsOf, sectionsOf]
  · intro y hy
    obtain ⟨v', o', nm, rest, e, -, -, h, -⟩ := of_describes hy
    simp only [List.cons_append, List.nil_append, List.cons.injEq] at e
    obtain ⟨-, -, -, rfl⟩ := e
    have h := congrArg Session.timing h
    rcases y with _ | y
    · simp [assemble, valueLines, List.takeWhile_cons, notMedia, timingsOf] at h
    · cases y <;> simp [assemble, valueLines, List.takeWhile_cons, notMedia, timingsOf] at h
      subst h
      exact ⟨_, rfl, rfl⟩

theorem tells_connection (c : Connection) :
    Tells [.version 0, .origin tellOrigin, .session c%"x", .timing ⟨0, 0⟩] [] (.connection c) := by
  refine ⟨_, describes_values (rest := [.timing ⟨0, 0⟩, .connection c]) (by simp) (goodPart (ts := [.timing ⟨0, 0⟩, .connection c]) (by simp [SessionLine]) (by simp)) (by simp [valueLines, sectionsOf]) ?_, ?_⟩
  · constructor <;> simp [assemble, valueLines, List.takeWhile_cons, notMedia, timingsOf, connectionsOf, attrsOf, sectionsOf]
  · intro y hy
    obtain ⟨v', o', nm, rest, e, -, -, h, -⟩ := of_describes hy
    simp only [List.cons_append, List.nil_append, List.cons.injEq] at e
    obtain ⟨-, -, -, rfl⟩ := e
    have h := congrArg Session.connection h
    rcases y with _ | y
    · simp [assemble, valueLines, List.takeWhile_cons, notMedia, connectionsOf] at h
    · cases y <;> simp [assemble, valueLines, List.takeWhile_cons, notMedia, connectionsOf] at h
      subst h
      exact ⟨_, rfl, rfl⟩

theorem tells_bandwidth (b : Bandwidth) :
    Tells [.version 0, .origin tellOrigin, .session c%"x", .timing ⟨0, 0⟩] [] (.bandwidth b) := by
  refine ⟨_, describes_values (rest := [.timing ⟨0, 0⟩, .bandwidth b]) (by simp) (goodPart (ts := [.timing ⟨0, 0⟩, .bandwidth b]) (by simp [SessionLine]) (by simp)) (by simp [valueLines, sectionsOf]) ?_, ?_⟩
  · constructor <;> simp [assemble, valueLines, List.takeWhile_cons, notMedia, timingsOf, connectionsOf, attrsOf, sectionsOf]
  · intro y hy
    obtain ⟨v', o', nm, rest, e, -, -, h, -⟩ := of_describes hy
    simp only [List.cons_append, List.nil_append, List.cons.injEq] at e
    obtain ⟨-, -, -, rfl⟩ := e
    have h := congrArg Session.bandwidth h
    rcases y with _ | y
    · simp [assemble, valueLines, List.takeWhile_cons, notMedia, bandwidthsOf] at h
    · cases y <;> simp [assemble, valueLines, List.takeWhile_cons, notMedia, bandwidthsOf] at h
      subst h
      exact ⟨_, rfl, rfl⟩

theorem tells_attr {a : Attribute} (ha : a.type ∉ mediaOnly) :
    Tells [.version 0, .origin tellOrigin, .session c%"x", .timing ⟨0, 0⟩] [] (.attr a) := by
  refine ⟨_, describes_values (rest := [.timing ⟨0, 0⟩, .attr a]) (by simp) (goodPart (ts := [.timing ⟨0, 0⟩, .attr a]) (by simp [SessionLine]) ?_) (by simp [valueLines, sectionsOf]) ?_, ?_⟩
  · intro b hb
    simp at hb
    rwa [hb]
  · constructor <;> simp [assemble, valueLines, List.takeWhile_cons, notMedia, timingsOf, connectionsOf, attrsOf, sectionsOf]
  · intro y hy
    obtain ⟨v', o', nm, rest, e, -, -, h, -⟩ := of_describes hy
    simp only [List.cons_append, List.nil_append, List.cons.injEq] at e
    obtain ⟨-, -, -, rfl⟩ := e
    have h := congrArg Session.attrs h
    rcases y with _ | y
    · simp [assemble, valueLines, List.takeWhile_cons, notMedia, attrsOf] at h
    · cases y <;> simp [assemble, valueLines, List.takeWhile_cons, notMedia, attrsOf] at h
      subst h
      exact ⟨_, rfl, rfl⟩

theorem tells_media (m : MediaLine) : Tells tellHead [] (.media m) := by
  refine ⟨_, describes_values (rest := [.timing ⟨0, 0⟩, .connection tellConnection, .media m]) (by simp) (goodPart (ts := [.timing ⟨0, 0⟩, .connection tellConnection]) (by simp [SessionLine]) (by simp))
    ?_ ?_, ?_⟩
  · simp only [valueLines, List.map_cons, List.map_nil, sectionsOf, List.takeWhile_nil, List.mem_singleton, List.nil_append]
    rintro p rfl
    constructor <;> simp [connectionsOf, attrsOf]
  · constructor
    · simp [assemble, valueLines, List.takeWhile_cons, notMedia, timingsOf]
    · simp [assemble, valueLines, List.takeWhile_cons, notMedia, connectionsOf]
    · simp [assemble, valueLines, List.takeWhile_cons, notMedia, attrsOf]
    · simp only [assemble, valueLines, List.map_cons, List.map_nil, sectionsOf, List.takeWhile_nil, List.mem_singleton, List.nil_append]
      rintro p rfl
      constructor <;> simp [sectionMedia, attrsOf, FirstSimulcast]
  · intro y hy
    obtain ⟨v', o', nm, rest, e, -, -, h, -⟩ := of_describes hy
    simp only [tellHead, List.cons_append, List.nil_append, List.cons.injEq] at e
    obtain ⟨-, -, -, rfl⟩ := e
    have h := congrArg Session.media h
    rcases y with _ | y
    · simp [assemble, valueLines, sectionsOf] at h
    · cases y <;> simp [assemble, valueLines, sectionsOf, sectionMedia] at h
      subst h
      exact ⟨_, rfl, rfl⟩

/-- The surroundings of an attribute of the media level. -/
def tellSection (fs : List UInt16) : List SdpType :=
  tellHead ++ [.media (tellMedia fs), .attr .rtcpMux, .attr (.rid tellRid), .attr (.simulcast tellSimulcast)]

theorem mediaOnly_not {a : Attribute} (ha : a.type ∈ mediaOnly) : isDtls a = false ∧ a.type ∉ sessionOnly := by
  cases a <;> first
    | exact ⟨rfl, by simp only [Attribute.type]; decide⟩
    | (simp only [Attribute.type] at ha; exact absurd ha (by decide))

theorem tells_mediaAttr {a : Attribute} (ha : a.type ∈ mediaOnly) : Tells (tellSection (formatsIn a)) [] (.attr a) := by
  obtain ⟨hd, hs⟩ := mediaOnly_not ha
  have d1 : isDtls .rtcpMux = false := rfl
  have d2 : isDtls (.rid tellRid) = false := rfl
  have d3 : isDtls (.simulcast tellSimulcast) = false := rfl
  refine ⟨_, describes_values (rest := [.timing ⟨0, 0⟩, .connection tellConnection, .media (tellMedia (formatsIn a)),
    .attr .rtcpMux, .attr (.rid tellRid), .attr (.simulcast tellSimulcast), .attr a]) (by simp) (goodPart (ts := [.timing ⟨0, 0⟩, .connection tellConnection]) (by simp [SessionLine]) (by simp))
    ?_ ?_, ?_⟩
  · simp only [valueLines, List.map_cons, List.map_nil, sectionsOf, List.cons_append, List.nil_append, List.mem_singleton]
    rintro p rfl
    constructor
    · simp [List.takeWhile, notMedia, SectionLine]
    · simp [List.takeWhile, notMedia, connectionsOf]
    · simp only [List.takeWhile, notMedia, attrsOf, List.filterMap_cons, List.filterMap_nil, List.mem_cons, List.not_mem_nil, or_false]
      rintro b (rfl | rfl | rfl | rfl)
      · exact .inr (by decide)
      · exact .inr (by simp only [Attribute.type]; decide)
      · exact .inr (by simp only [Attribute.type]; decide)
      · exact .inr hs
  · constructor
    · simp [assemble, valueLines, List.takeWhile_cons, notMedia, timingsOf]
    · simp [assemble, valueLines, List.takeWhile_cons, notMedia, connectionsOf]
    · simp [assemble, valueLines, List.takeWhile_cons, notMedia, attrsOf]
    · have e : (assemble 0 tellOrigin c%"x" (valueLines ([.timing ⟨0, 0⟩, .connection tellConnection] ++
          ([.media (tellMedia (formatsIn a)), .attr .rtcpMux, .attr (.rid tellRid), .attr (.simulcast tellSimulcast)] ++ [.attr a]))) []).media =
          [⟨tellMedia (formatsIn a), none, [], [.rtcpMux, .rid tellRid, .simulcast tellSimulcast, a]⟩] := by
        simp [assemble, valueLines, sectionsOf, sectionMedia, List.takeWhile_cons, notMedia, attrsOf, connectionsOf, bandwidthsOf, hd, d1, d2, d3]
      intro m hm
      change m ∈ (assemble 0 tellOrigin c%"x" (valueLines ([.timing ⟨0, 0⟩, .connection tellConnection] ++
          ([.media (tellMedia (formatsIn a)), .attr .rtcpMux, .attr (.rid tellRid), .attr (.simulcast tellSimulcast)] ++ [.attr a]))) []).media at hm
      rw [e] at hm
      simp only [List.mem_singleton] at hm
      subst hm
      constructor
      · simp
      · intro r hr f hf
        simp only [List.mem_cons, List.not_mem_nil, or_false, reduceCtorEq, false_or, Attribute.rid.injEq] at hr
        rcases hr with rfl | rfl
        · simp [tellRid] at hf
        · show decimal f.toNat ∈ _
          exact List.mem_cons_of_mem _ (List.mem_map.2 ⟨f, hf, rfl⟩)
      · rintro sc ⟨pre, post, e, h⟩
        have : sc = tellSimulcast := by
          rcases pre with _ | ⟨p0, _ | ⟨p1, _ | ⟨p2, pre⟩⟩⟩
          · simp at e
          · simp at e
          · simp at e; exact e.2.2.1.symm
          · simp at e
            obtain ⟨-, -, rfl, -⟩ := e
            exact absurd (by simp) (h tellSimulcast)
        subst this
        constructor
        · intro v hv i hi
          simp [tellSimulcast] at hv
          subst hv
          simp at hi
          subst hi
          exact ⟨tellRid, by simp, rfl, rfl⟩
        · intro v hv
          simp [tellSimulcast] at hv
  · intro y hy
    obtain ⟨v', o', nm, rest, e, -, -, h, -⟩ := of_describes hy
    simp only [tellSection, tellHead, List.cons_append, List.nil_append, List.cons.injEq] at e
    obtain ⟨-, -, -, rfl⟩ := e
    have h := congrArg Session.media h
    rcases y with _ | y
    · simp [assemble, valueLines, sectionsOf, sectionMedia, List.takeWhile_cons, notMedia, attrsOf, hd, d1, d2, d3] at h
    · cases y with
      | attr b =>
        by_cases hb : isDtls b = true
        · simp [assemble, valueLines, sectionsOf, sectionMedia, List.takeWhile_cons, notMedia, attrsOf, hd, hb, d1, d2, d3] at h
        · simp [assemble, valueLines, sectionsOf, sectionMedia, List.takeWhile_cons, notMedia, attrsOf, connectionsOf, bandwidthsOf, hd, hb, d1, d2, d3] at h
          subst h
          exact ⟨_, rfl, rfl⟩
      | _ => simp [assemble, valueLines, sectionsOf, sectionMedia, List.takeWhile_cons, notMedia, attrsOf, hd, d1, d2, d3] at h

end Sdp
