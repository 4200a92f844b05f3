import Verif.Spec.Fmtp
import Verif.Lemmas.Num
import Verif.Lemmas.Dispatch
/-!
# Lemmas about fmtp parameter lists
-/

namespace Sdp

theorem takeWhile_stop {c : Char} {a v : Str} (h : c ∉ a) :
    (a ++ c :: v).takeWhile (fun x => decide (x ≠ c)) = a := by
  rw [List.takeWhile_append_of_pos]
  · simp
  · intro x hx; simp; rintro rfl; exact h hx

theorem dropWhile_stop {c : Char} {a v : Str} (h : c ∉ a) :
    (a ++ c :: v).dropWhile (fun x => decide (x ≠ c)) = c :: v := by
  rw [List.dropWhile_append_of_pos]
  · simp
  · intro x hx; simp; rintro rfl; exact h hx

namespace FmtpField

/-- Storing a parameter. -/
def set (f : FmtpField) (p : FmtpParams) (n : Nat) : FmtpParams :=
  match f with
  | profileLevelId => { p with profileLevelId := UInt32.ofNat n }
  | packetizationMode => { p with packetizationMode := UInt32.ofNat n }
  | levelAsymmetryAllowed => { p with levelAsymmetryAllowed := decide (n = 1) }
  | maxMbps => { p with maxMbps := UInt32.ofNat n }
  | maxFs => { p with maxFs := UInt32.ofNat n }
  | maxCpb => { p with maxCpb := UInt32.ofNat n }
  | maxDpb => { p with maxDpb := UInt32.ofNat n }
  | maxBr => { p with maxBr := UInt32.ofNat n }
  | maxFr => { p with maxFr := UInt32.ofNat n }
  | profile => { p with profile := some (UInt8.ofNat n) }
  | levelIdx => { p with levelIdx := some (UInt8.ofNat n) }
  | tier => { p with tier := some (UInt8.ofNat n) }
  | maxplaybackrate => { p with maxplaybackrate := UInt32.ofNat n }
  | maxaveragebitrate => { p with maxaveragebitrate := UInt32.ofNat n }
  | ptime => { p with ptime := UInt32.ofNat n }
  | maxptime => { p with maxptime := UInt32.ofNat n }
  | minptime => { p with minptime := UInt32.ofNat n }
  | usedtx => { p with usedtx := decide (n = 1) }
  | stereo => { p with stereo := decide (n = 1) }
  | useinbandfec => { p with useinbandfec := decide (n = 1) }
  | cbr => { p with cbr := decide (n = 1) }
  | apt => { p with rtx := some ⟨UInt8.ofNat n, none⟩ }

theorem u32_ofNat {n : Nat} (h : n < 2^32) : (UInt32.ofNat n).toNat = n := by
  rw [UInt32.toNat_ofNat', Nat.mod_eq_of_lt h]
theorem u8_ofNat {n : Nat} (h : n < 2^8) : (UInt8.ofNat n).toNat = n := by
  rw [UInt8.toNat_ofNat', Nat.mod_eq_of_lt h]
theorem bool_ofNat {n : Nat} (h : n ≤ 1) : (decide (n = 1)).toNat = n := by
  have : n = 0 ∨ n = 1 := by omega
  rcases this with rfl | rfl <;> rfl

theorem get_set {f : FmtpField} {p : FmtpParams} {n : Nat} (h : n ≤ f.max) : f.get (f.set p n) = some n := by
  cases f <;> simp only [max] at h <;> simp only [get, set, Option.map_some, Option.some.injEq] <;>
    first
    | exact u32_ofNat (by omega)
    | exact u8_ofNat (by omega)
    | exact bool_ofNat (by omega)

theorem get_set_ne {f g : FmtpField} (p : FmtpParams) (n : Nat) (h : f ≠ g) : g.get (f.set p n) = g.get p := by
  cases f <;> cases g <;> first | rfl | exact absurd rfl h

theorem text_inj {f g : FmtpField} (h : f.text = g.text) : f = g := by
  cases f <;> cases g <;> first | rfl | (simp [text] at h)

theorem text_ne_rtx (f : FmtpField) : f.text ≠ c%"RTX-TIME" := by cases f <;> simp [text]

theorem set_unknown (f : FmtpField) (p : FmtpParams) (n : Nat) :
    (f.set p n).unknownTokens = p.unknownTokens ∧ (f.set p n).encodings = p.encodings ∧
      (f.set p n).dtmfTones = p.dtmfTones := by cases f <;> simp [set]

theorem set_rtx {f : FmtpField} (p : FmtpParams) (n : Nat) (h : f ≠ .apt) : (f.set p n).rtx = p.rtx := by
  cases f <;> first | rfl | exact absurd rfl h

theorem mem_all (f : FmtpField) : f ∈ all := by cases f <;> simp [all]

end FmtpField

theorem not_mem_fmtpNames {n : Str} :
    n ∉ fmtpNames ↔ (∀ f : FmtpField, n ≠ f.text) ∧ n ≠ c%"RTX-TIME" := by
  simp only [fmtpNames, List.mem_cons, List.mem_map, not_or, not_exists, not_and]
  constructor
  · rintro ⟨h1, h2⟩; exact ⟨fun f h => h2 f f.mem_all h.symm, h1⟩
  · rintro ⟨h1, h2⟩; exact ⟨h2, fun f _ h => h1 f h.symm⟩

/-! ## The numbers -/

theorem u32_max (x : UInt32) : x.toNat ≤ 0xffffffff := by have := x.toNat_lt; omega

theorem u32_step {β : Type} {v : Str} {mk : UInt32 → β} {r : β} :
    (do return mk (← parseU32 v) : IRes β) = .ok r ↔ ∃ n, DecText v n ∧ n ≤ 0xffffffff ∧ r = mk (UInt32.ofNat n) := by
  simp only [bind_eq_ok, pure_eq_ok, Outcome.ok.injEq]
  constructor
  · rintro ⟨x, hx, rfl⟩
    exact ⟨x.toNat, parseU32_ok.1 hx, u32_max x, by rw [UInt32.ofNat_toNat]⟩
  · rintro ⟨n, hn, hm, rfl⟩
    refine ⟨UInt32.ofNat n, parseU32_ok.2 ?_, rfl⟩
    rwa [FmtpField.u32_ofNat (by omega)]

theorem u32_step_le {β : Type} {v : Str} {mk : UInt32 → β} {r : β} {m : UInt32} {e : Str} :
    (do let x ← parseU32 v; if x ≤ m then return mk x else egeneric e : IRes β) = .ok r ↔
      ∃ n, DecText v n ∧ n ≤ m.toNat ∧ r = mk (UInt32.ofNat n) := by
  rw [bind_eq_ok]
  constructor
  · rintro ⟨x, hx, h⟩
    rcases ite_cases h with ⟨hc, h⟩ | ⟨-, h⟩
    · simp at h; subst h
      exact ⟨x.toNat, parseU32_ok.1 hx, UInt32.le_iff_toNat_le.1 hc, by rw [UInt32.ofNat_toNat]⟩
    · simp at h
  · rintro ⟨n, hn, hm, rfl⟩
    have e : (UInt32.ofNat n).toNat = n := FmtpField.u32_ofNat (by have := m.toNat_lt; omega)
    refine ⟨UInt32.ofNat n, parseU32_ok.2 (by rwa [e]), ?_⟩
    rw [if_pos (UInt32.le_iff_toNat_le.2 (by rwa [e]))]; rfl

theorem hex_step_le {β : Type} {v : Str} {mk : UInt32 → β} {r : β} {m : UInt32} {e : Str} :
    (do let x ← parseHexU32 v; if x ≤ m then return mk x else egeneric e : IRes β) = .ok r ↔
      ∃ n, HexText v n ∧ n ≤ m.toNat ∧ r = mk (UInt32.ofNat n) := by
  rw [bind_eq_ok]
  constructor
  · rintro ⟨x, hx, h⟩
    rcases ite_cases h with ⟨hc, h⟩ | ⟨-, h⟩
    · simp at h; subst h
      exact ⟨x.toNat, parseHexU32_ok.1 hx, UInt32.le_iff_toNat_le.1 hc, by rw [UInt32.ofNat_toNat]⟩
    · simp at h
  · rintro ⟨n, hn, hm, rfl⟩
    have e : (UInt32.ofNat n).toNat = n := FmtpField.u32_ofNat (by have := m.toNat_lt; omega)
    refine ⟨UInt32.ofNat n, parseHexU32_ok.2 (by rwa [e]), ?_⟩
    rw [if_pos (UInt32.le_iff_toNat_le.2 (by rwa [e]))]; rfl

theorem u8_step {β : Type} {v : Str} {mk : UInt8 → β} {r : β} :
    (do return mk (← parseU8 v) : IRes β) = .ok r ↔ ∃ n, DecText v n ∧ n ≤ 255 ∧ r = mk (UInt8.ofNat n) := by
  simp only [bind_eq_ok, pure_eq_ok, Outcome.ok.injEq]
  constructor
  · rintro ⟨x, hx, rfl⟩
    exact ⟨x.toNat, parseU8_ok.1 hx, by have := x.toNat_lt; omega, by rw [UInt8.ofNat_toNat]⟩
  · rintro ⟨n, hn, hm, rfl⟩
    refine ⟨UInt8.ofNat n, parseU8_ok.2 ?_, rfl⟩
    rwa [FmtpField.u8_ofNat (by omega)]

theorem u8_step_le {β : Type} {v : Str} {mk : UInt8 → β} {r : β} {m : UInt8} {e : Str} :
    (do let x ← parseU8 v; if x ≤ m then return mk x else egeneric e : IRes β) = .ok r ↔
      ∃ n, DecText v n ∧ n ≤ m.toNat ∧ r = mk (UInt8.ofNat n) := by
  rw [bind_eq_ok]
  constructor
  · rintro ⟨x, hx, h⟩
    rcases ite_cases h with ⟨hc, h⟩ | ⟨-, h⟩
    · simp at h; subst h
      exact ⟨x.toNat, parseU8_ok.1 hx, UInt8.le_iff_toNat_le.1 hc, by rw [UInt8.ofNat_toNat]⟩
    · simp at h
  · rintro ⟨n, hn, hm, rfl⟩
    have e : (UInt8.ofNat n).toNat = n := FmtpField.u8_ofNat (by have := m.toNat_lt; omega)
    refine ⟨UInt8.ofNat n, parseU8_ok.2 (by rwa [e]), ?_⟩
    rw [if_pos (UInt8.le_iff_toNat_le.2 (by rwa [e]))]; rfl

theorem fmtpBool_ok {v nm : Str} {b : Bool} :
    fmtpBool v nm = .ok b ↔ ∃ n, DecText v n ∧ n ≤ 1 ∧ b = decide (n = 1) := by
  unfold fmtpBool
  rw [bind_eq_ok]
  constructor
  · rintro ⟨x, hx, h⟩
    have hd := parseU8_ok.1 hx
    rcases ite_cases h with ⟨rfl, h⟩ | ⟨-, h⟩
    · simp at h; subst h; exact ⟨_, hd, by decide, rfl⟩
    rcases ite_cases h with ⟨rfl, h⟩ | ⟨-, h⟩
    · simp at h; subst h; exact ⟨_, hd, by decide, rfl⟩
    · simp at h
  · rintro ⟨n, hn, hm, rfl⟩
    have : n = 0 ∨ n = 1 := by omega
    rcases this with rfl | rfl
    · exact ⟨0, parseU8_ok.2 hn, rfl⟩
    · exact ⟨1, parseU8_ok.2 hn, rfl⟩

theorem bool_step {β : Type} {v nm : Str} {mk : Bool → β} {r : β} :
    (do return mk (← fmtpBool v nm) : IRes β) = .ok r ↔
      ∃ n, DecText v n ∧ n ≤ 1 ∧ r = mk (decide (n = 1)) := by
  simp only [bind_eq_ok, pure_eq_ok, Outcome.ok.injEq, fmtpBool_ok]
  constructor
  · rintro ⟨_, ⟨n, h1, h2, rfl⟩, rfl⟩; exact ⟨n, h1, h2, rfl⟩
  · rintro ⟨n, h1, h2, rfl⟩; exact ⟨_, ⟨n, h1, h2, rfl⟩, rfl⟩

section
variable [Env]

theorem paramName_eq {a v : Str} (h : '=' ∉ a) : paramName (a ++ '=' :: v) = upper a := by
  unfold paramName; rw [takeWhile_stop h]

theorem paramValue_eq {a v : Str} (h : '=' ∉ a) : paramValue (a ++ '=' :: v) = v := by
  unfold paramValue; rw [dropWhile_stop h]; rfl

theorem eq_cases {t : Str} (h : '=' ∈ t) : ∃ a v, t = a ++ '=' :: v ∧ '=' ∉ a := by
  obtain ⟨a, b, -, h1, h2⟩ := splitn_two_of_mem h
  exact ⟨a, b, h1, h2⟩

theorem fmtpParam_no_eq {p : FmtpParams} {t : Str} (h : '=' ∉ t) : ∃ e, fmtpParam p t = .err e := by
  unfold fmtpParam
  rw [splitn_two_of_not_mem h]
  exact ⟨_, rfl⟩

/-- A known parameter is stored when its value is well-formed, and an error otherwise. -/
theorem fmtpParam_field {f : FmtpField} {p p' : FmtpParams} {a v : Str} (ha : '=' ∉ a)
    (hf : upper a = f.text) :
    fmtpParam p (a ++ '=' :: v) = .ok p' ↔ ∃ n, f.Notation v n ∧ n ≤ f.max ∧ p' = f.set p n := by
  unfold fmtpParam
  rw [splitn_two_append ha]
  cases f <;>
    simp only [FmtpField.text] at hf <;>
    simp only [List.length_cons, List.length_nil, ne_eq, Nat.reduceAdd, not_true_eq_false, if_false,
      idx, List.getElem?_cons_zero, List.getElem?_cons_succ, ok_bind, hf, FmtpField.Notation,
      FmtpField.max, FmtpField.set, reduceCtorEq, ite_false, ite_true, List.cons.injEq,
      Char.reduceEq, false_and, and_false, and_true, true_and] <;>
    first
    | exact hex_step_le
    | exact u32_step_le
    | exact u32_step
    | exact u8_step_le
    | exact u8_step
    | exact bool_step

theorem fmtpParam_rtx_time {p p' : FmtpParams} {a v : Str} (ha : '=' ∉ a) (hf : upper a = c%"RTX-TIME") :
    fmtpParam p (a ++ '=' :: v) = .ok p' ↔
      ∃ r, p.rtx = some r ∧ ∃ n, DecText v n ∧ n ≤ 0xffffffff ∧
        p' = { p with rtx := some { r with rtxTime := some (UInt32.ofNat n) } } := by
  unfold fmtpParam
  rw [splitn_two_append ha]
  simp only [List.length_cons, List.length_nil, ne_eq, Nat.reduceAdd, not_true_eq_false, if_false,
      idx, List.getElem?_cons_zero, List.getElem?_cons_succ, ok_bind, hf, List.cons.injEq,
      Char.reduceEq, false_and, and_false, and_true, true_and, reduceCtorEq, if_true]
  cases p.rtx with
  | none => simp
  | some r =>
    simp only [Option.some.injEq, exists_eq_left']
    exact u32_step

theorem fmtpParam_unknown {p : FmtpParams} {a v : Str} (ha : '=' ∉ a) (hf : ∀ f : FmtpField, upper a ≠ f.text)
    (hr : upper a ≠ c%"RTX-TIME") :
    fmtpParam p (a ++ '=' :: v) = .ok { p with unknownTokens := p.unknownTokens ++ [a ++ '=' :: v] } := by
  unfold fmtpParam
  rw [splitn_two_append ha]
  have h0 := hf .profileLevelId
  have h1 := hf .packetizationMode
  have h2 := hf .levelAsymmetryAllowed
  have h3 := hf .maxMbps
  have h4 := hf .maxFs
  have h5 := hf .maxCpb
  have h6 := hf .maxDpb
  have h7 := hf .maxBr
  have h8 := hf .maxFr
  have h9 := hf .profile
  have h10 := hf .levelIdx
  have h11 := hf .tier
  have h12 := hf .maxplaybackrate
  have h13 := hf .maxaveragebitrate
  have h14 := hf .ptime
  have h15 := hf .maxptime
  have h16 := hf .minptime
  have h17 := hf .usedtx
  have h18 := hf .stereo
  have h19 := hf .useinbandfec
  have h20 := hf .cbr
  have h21 := hf .apt
  simp only [FmtpField.text] at h0 h1 h2 h3 h4 h5 h6 h7 h8 h9 h10 h11 h12 h13 h14 h15 h16 h17 h18 h19 h20 h21
  simp only [List.length_cons, List.length_nil, ne_eq, Nat.reduceAdd, not_true_eq_false, if_false,
      idx, List.getElem?_cons_zero, List.getElem?_cons_succ, ok_bind, hr, pure_eq_ok,
      h0, h1, h2, h3, h4, h5, h6, h7, h8, h9, h10, h11, h12, h13, h14, h15, h16, h17, h18, h19, h20, h21]

/-- What one parameter does, completely. -/
inductive FmtpStep (p : FmtpParams) (t : Str) : FmtpParams → Prop
  | field (f : FmtpField) (n : Nat) (he : '=' ∈ t) (hn : paramName t = f.text)
      (hv : f.Notation (paramValue t) n) (hm : n ≤ f.max) : FmtpStep p t (f.set p n)
  | rtxTime (r : RtxParams) (n : Nat) (he : '=' ∈ t) (hn : paramName t = c%"RTX-TIME") (hr : p.rtx = some r)
      (hv : DecText (paramValue t) n) (hm : n ≤ 0xffffffff) :
      FmtpStep p t { p with rtx := some { r with rtxTime := some (UInt32.ofNat n) } }
  | unknown (he : '=' ∈ t) (hf : ∀ f : FmtpField, paramName t ≠ f.text) (hr : paramName t ≠ c%"RTX-TIME") :
      FmtpStep p t { p with unknownTokens := p.unknownTokens ++ [t] }

theorem fmtpParam_iff {p p' : FmtpParams} {t : Str} : fmtpParam p t = .ok p' ↔ FmtpStep p t p' := by
  by_cases he : '=' ∈ t
  · obtain ⟨a, v, rfl, ha⟩ := eq_cases he
    constructor
    · intro h
      by_cases hf : ∃ f : FmtpField, upper a = f.text
      · obtain ⟨f, hf⟩ := hf
        obtain ⟨n, h1, h2, rfl⟩ := (fmtpParam_field ha hf).1 h
        exact .field f n he (by rw [paramName_eq ha, hf]) (by rwa [paramValue_eq ha]) h2
      · by_cases hr : upper a = c%"RTX-TIME"
        · obtain ⟨r, h1, n, h2, h3, rfl⟩ := (fmtpParam_rtx_time ha hr).1 h
          exact .rtxTime r n he (by rw [paramName_eq ha, hr]) h1 (by rwa [paramValue_eq ha]) h3
        · have hf' : ∀ f : FmtpField, upper a ≠ f.text := fun f h => hf ⟨f, h⟩
          rw [fmtpParam_unknown ha hf' hr] at h
          cases h
          exact .unknown he (by rwa [paramName_eq ha]) (by rwa [paramName_eq ha])
    · intro h
      cases h with
      | field f n he hn hv hm =>
        rw [paramName_eq ha] at hn; rw [paramValue_eq ha] at hv
        exact (fmtpParam_field ha hn).2 ⟨n, hv, hm, rfl⟩
      | rtxTime r n he hn hr hv hm =>
        rw [paramName_eq ha] at hn; rw [paramValue_eq ha] at hv
        exact (fmtpParam_rtx_time ha hn).2 ⟨r, hr, n, hv, hm, rfl⟩
      | unknown he hf hr =>
        rw [paramName_eq ha] at hr; simp only [paramName_eq ha] at hf
        exact fmtpParam_unknown ha hf hr
  · constructor
    · intro h; obtain ⟨e, h'⟩ := fmtpParam_no_eq (p := p) he; rw [h'] at h; cases h
    · intro h; cases h <;> contradiction

theorem fmtpParamList_append {p p' : FmtpParams} {l l' : List Str} :
    fmtpParamList p (l ++ l') = .ok p' ↔ ∃ q, fmtpParamList p l = .ok q ∧ fmtpParamList q l' = .ok p' := by
  induction l generalizing p with
  | nil => simp [fmtpParamList]
  | cons x xs ih =>
    simp only [List.cons_append, fmtpParamList, bind_eq_ok, ih]
    constructor
    · rintro ⟨a, ha, q, h1, h2⟩; exact ⟨q, ⟨a, ha, h1⟩, h2⟩
    · rintro ⟨q, ⟨a, ha, h1⟩, h2⟩; exact ⟨a, ha, q, h1, h2⟩

theorem fmtpParamList_snoc {p p' : FmtpParams} {l : List Str} {t : Str} :
    fmtpParamList p (l ++ [t]) = .ok p' ↔ ∃ q, fmtpParamList p l = .ok q ∧ FmtpStep q t p' := by
  simp [fmtpParamList_append, fmtpParamList, bind_eq_ok, fmtpParam_iff]

end

end Sdp
