import Verif.Lemmas.ParsedWF
import Verif.Props.RoundTrip
/-!
# C55: what was parsed survives printing (and more of C24)

C24 and C26 speak of well-formed values. Here it is shown that everything the parser returns is
well-formed, but for the few attributes that are not `Plain` (Verif/Spec/Plain.lean).
-/

namespace Sdp

section
variable [Env]

/-- **C24.** What the attribute parser returns is well-formed, but for the listed exceptions. -/
theorem C24_parsed_well_formed (L : Laws) {l : Str} {a : Attribute} (h : attrFromStr l = .ok a) (hp : a.Plain) : a.WF :=
  attr_wf L h hp

/-- **C24.** So an attribute that was parsed is parsed again from its printed form. -/
theorem C24_parsed_round_trip (L : Laws) {l : Str} {a : Attribute} (h : attrFromStr l = .ok a) (hp : a.Plain) :
    attrFromStr (showAttribute a) = .ok a := (C24_attribute_round_trip a (attr_wf L h hp)).1

/-- **C25.** The value of every other line that was parsed is well-formed without exception. -/
theorem C25_parsed_lines (L : Laws) {l : Str} {n : Nat} {x : SdpLine} (h : parseSdpLine l n = .ok x) :
    match x.sdpType with
    | .origin o => o.WF
    | .connection c => c.WF
    | .bandwidth b => b.WF
    | .media m => m.WF
    | .version v => v = 0
    | _ => True := by
  obtain ⟨a, b, h1, h2, h3, h4, h5, h6, h7, h8⟩ := parseSdpLine_ok h
  generalize x.sdpType = ty at h6
  have h6 := (parseLineValue_ok h6).2
  cases ty with
  | origin o => exact origin_wf L h6
  | connection c => exact connection_wf L h6
  | bandwidth b => exact bandwidth_wf (trim_trim _) h6
  | media m => exact mediaLine_wf h6
  | version v => exact h6.2
  | _ => trivial

/-- **C55.** A session that was parsed from any text is well-formed, but for the listed exceptions. -/
theorem C55_parsed_well_formed (L : Laws) {t : Str} {f : Bool} {s : Session} (h : parseSdp t f = .ok s)
    (hp : s.Plain) : s.WF := parsed_wf L h hp

/-- **C55.** It is parsed again from its printed form, without warnings. -/
theorem C55_parse_print_parse (L : Laws) {t : Str} {f : Bool} {s : Session} (h : parseSdp t f = .ok s)
    (hp : s.Plain) (hl : 51 ≤ byteLen (showSession s)) (g : Bool) :
    parseSdp (showSession s) g = .ok { s with warnings := [] } := session_round (parsed_wf L h hp) hl g

/-- **C55.** The printed form is long enough if there is a media section. -/
theorem C55_with_media (L : Laws) {t : Str} {f : Bool} {s : Session} (h : parseSdp t f = .ok s)
    (hp : s.Plain) (hm : s.media ≠ []) (g : Bool) :
    parseSdp (showSession s) g = .ok { s with warnings := [] } := C26_with_media s (parsed_wf L h hp) hm g

/-- **C55.** Printing after parsing is a normal form: applied twice it gives what it gives once, and
two texts with the same normal form have the same content. -/
theorem C55_normal_form (L : Laws) {t u : Str} {f g : Bool} {s r : Session} (h : parseSdp t f = .ok s)
    (h' : parseSdp u g = .ok r) (hp : s.Plain) (hp' : r.Plain) (hm : s.media ≠ []) :
    (∀ k q, parseSdp (showSession s) k = .ok q → showSession q = showSession s) ∧
    (showSession s = showSession r → { s with warnings := [] } = { r with warnings := [] }) := by
  refine ⟨fun k q hq => ?_, fun e => C26_print_injective s r (parsed_wf L h hp) (parsed_wf L h' hp') hm e⟩
  rw [C55_with_media L h hp hm k] at hq
  cases hq; rfl

end

/-! Whether a session is plain can be computed, which the example below does. -/

instance (s : Str) : Decidable (EndsClean s) :=
  decidable_of_iff (s.getLast?.map isWs = some false) (by
    constructor
    · intro h
      simp only [Option.map_eq_some_iff] at h
      obtain ⟨c, h1, h2⟩ := h
      obtain ⟨r, rfl⟩ := List.getLast?_eq_some_iff.1 h1
      exact ⟨r, c, rfl, h2⟩
    · rintro ⟨r, c, rfl, h⟩; simp [h])

instance (p : FmtpParams) : Decidable (AllDefault p) :=
  decidable_of_iff (∀ f ∈ FmtpField.all, f ≠ .apt → f.get p = f.absent)
    ⟨fun h f => h f (by cases f <;> decide), fun h f _ => h f⟩

instance (p : FmtpParams) : Decidable p.Plain :=
  decidable_of_iff ((p.rtx ≠ none → AllDefault p ∧ p.unknownTokens = []) ∧ p.unknownTokens.length ≤ 1 ∧
      (∀ t ∈ p.unknownTokens, EndsClean t) ∧
      (p.rtx = none → p.encodings = [] → p.dtmfTones = [] → AllDefault p → p.unknownTokens ≠ []))
    ⟨fun ⟨a, b, c, d⟩ => ⟨a, b, c, d⟩, fun ⟨a, b, c, d⟩ => ⟨a, b, c, d⟩⟩

instance (r : Rid) : Decidable r.Bare := inferInstanceAs (Decidable (_ ∧ _))

instance (r : Rid) : Decidable r.Plain :=
  decidable_of_iff ((r.depends = [[]] ∨ ∀ d ∈ r.depends, d ≠ []) ∧
      (r.Bare → ∀ u ∈ r.params.unknown.head?, u.takeWhile (fun c => decide (c ≠ '=')) ≠ c%"pt") ∧
      (r.depends = [] → ∀ u ∈ r.params.unknown.getLast?, EndsClean u) ∧
      ∀ d ∈ r.depends.getLast?, d = [] ∨ EndsClean d)
    ⟨fun ⟨a, b, c, d⟩ => ⟨a, b, c, d⟩, fun ⟨a, b, c, d⟩ => ⟨a, b, c, d⟩⟩

instance (v : SimulcastVersion) : Decidable v.Plain := inferInstanceAs (Decidable (_ ∧ _))

instance (s : ImageAttrSet) : Decidable s.Plain :=
  decidable_of_iff ((match s.sar with | some (.discrete [x]) => decide (x = ⟨0xffc00000⟩) | _ => false) = false ∧
      (match s.q with | some x => decide (x = ⟨0xffc00000⟩) | none => false) = false)
    ⟨fun ⟨a, b⟩ => ⟨fun x h => by rw [h] at a; simpa using a, fun x h => by rw [h] at b; simpa using b⟩,
     fun ⟨a, b⟩ => ⟨by split <;> simp_all, by split <;> simp_all⟩⟩

instance (l : ImageAttrSetList) : Decidable l.Plain :=
  match l with
  | .sets l => inferInstanceAs (Decidable (∀ s ∈ l, s.Plain))
  | .wildcard => isTrue trivial

instance (a : Attribute) : Decidable a.Plain := by
  cases a <;> first | exact isTrue trivial | (simp only [Attribute.Plain]; infer_instance)

instance (s : Session) : Decidable s.Plain :=
  decidable_of_iff ((∀ a ∈ s.attrs, a.Plain) ∧ ∀ m ∈ s.media, ∀ a ∈ m.attrs, a.Plain)
    ⟨fun ⟨a, b⟩ => ⟨a, b⟩, fun ⟨a, b⟩ => ⟨a, b⟩⟩

section
attribute [local instance] sampleEnv

/-- The toy environment has the laws. -/
theorem sampleLaws : Laws where
  host := by
    intro h d hd
    have hd : (if h.isEmpty then HostRes.error c%"empty host"
      else if h.all (fun c => !isWs c && c != ':' && c != '/') && (parseV4Strict h).isNone then .domain h
      else .error c%"invalid host") = .domain d := hd
    have hd0 := hd
    split_ifs at hd with h1 h2
    cases hd
    simp only [Bool.and_eq_true, List.all_eq_true, Bool.not_eq_true', bne_iff_ne, ne_eq, Option.isNone_iff_eq_none] at h2
    refine ⟨⟨by simpa using h1, fun c hc => (h2.1 c hc).1.1⟩, ?_, ?_, h2.2, hd0⟩
    · intro hc; exact (h2.1 _ hc).1.2 rfl
    · intro hc; exact (h2.1 _ hc).2 rfl

/-- The sample text is accepted with a plain session: blank lines, an unknown attribute, mixed line ends
and non-canonical order are all there. -/
example : (match parseSdp sampleText false with
    | .ok s => decide (s.Plain ∧ s.media ≠ [] ∧ s.warnings ≠ [])
    | _ => false) = true := by decide +kernel

end

end Sdp
