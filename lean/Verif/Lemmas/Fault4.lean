import Verif.Lemmas.Fault3
/-!
# Which error a format parameter or a restriction gives
-/

namespace Sdp

theorem big_hex [Env] {s : Str} {x : UInt32} (h : parseHexU32 s = .ok x) (k : Nat) : (∃ n, HexText s n ∧ k < n) ↔ k < x.toNat := by
  rw [parseHexU32_ok] at h
  exact ⟨fun ⟨n, hn, hk⟩ => by rwa [h.unique hn], fun hk => ⟨_, h, hk⟩⟩

theorem judges_fmtpBool (v name : Str) :
    Judges (fmtpBool v name) [notNumber 8 v, wrongIf (∃ n, DecText v n ∧ 1 < n)
      (c%"The fmtp parameter '" ++ name ++ c%"' must be 0 or 1")] := by
  unfold fmtpBool
  refine .bind1 (judges_u8 v) fun x hx => ?_
  have hb := big_u8 hx 1
  split
  · rename_i h; subst h; exact .skip (fun e he => absurd (hb.1 he.1) (by decide)) (.ok _)
  rename_i h0
  split
  · rename_i h; subst h; exact .skip (fun e he => absurd (hb.1 he.1) (by decide)) (.ok _)
  rename_i h1
  have : 1 < x.toNat := by
    have h0 : x.toNat ≠ 0 := fun h => h0 (UInt8.toNat_inj.1 h)
    have h1 : x.toNat ≠ 1 := fun h => h1 (UInt8.toNat_inj.1 h)
    omega
  exact .stop fun e => by simp only [wrongIf, hb.2 this, true_and]

section
variable [Env]

theorem fmtpParam_judged {f : FmtpField} {p : FmtpParams} {a v : Str} (ha : '=' ∉ a) (hf : upper a = f.text) :
    Judges (fmtpParam p (a ++ '=' :: v)) (f.faults v) := by
  unfold fmtpParam
  rw [splitn_two_append ha]
  have u8 (m : UInt8) (g : UInt8 → FmtpParams) (msg : Str) :
      Judges (do let x ← parseU8 v; if x ≤ m then return g x else egeneric msg : IRes FmtpParams)
        [notNumber 8 v, wrongIf (∃ n, DecText v n ∧ m.toNat < n) msg] := by
    refine .bind1 (judges_u8 v) fun x hx => .check' ?_ fun _ => .ok _
    rw [big_u8 hx, UInt8.le_iff_toNat_le]; omega
  have u32 (m : UInt32) (g : UInt32 → FmtpParams) (msg : Str) :
      Judges (do let x ← parseU32 v; if x ≤ m then return g x else egeneric msg : IRes FmtpParams)
        [notNumber 32 v, wrongIf (∃ n, DecText v n ∧ m.toNat < n) msg] := by
    refine .bind1 (judges_u32 v) fun x hx => .check' ?_ fun _ => .ok _
    rw [big_u32 hx, UInt32.le_iff_toNat_le]; omega
  have hex (m : UInt32) (g : UInt32 → FmtpParams) (msg : Str) :
      Judges (do let x ← parseHexU32 v; if x ≤ m then return g x else egeneric msg : IRes FmtpParams)
        [notHex 32 v, wrongIf (∃ n, HexText v n ∧ m.toNat < n) msg] := by
    refine .bind1 (judges_hexU32 v) fun x hx => .check' ?_ fun _ => .ok _
    rw [big_hex hx, UInt32.le_iff_toNat_le]; omega
  cases f <;>
    simp only [FmtpField.text] at hf <;>
    simp only [List.length_cons, List.length_nil, ne_eq, Nat.reduceAdd, not_true_eq_false, if_false,
      idx, List.getElem?_cons_zero, List.getElem?_cons_succ, ok_bind, hf, FmtpField.Notation,
      FmtpField.max, FmtpField.faults, FmtpField.message, FmtpField.bits, reduceCtorEq, ite_false, ite_true, List.cons.injEq,
      Char.reduceEq, false_and, and_false, and_true, true_and] <;>
    first
    | exact hex _ _ _
    | exact u32 _ _ _
    | exact .andThen (judges_u32 v)
    | exact u8 _ _ _
    | exact .andThen (judges_u8 v)
    | exact .andThen (judges_fmtpBool v _)

theorem judges_fmtpParam {p : FmtpParams} {earlier : List Str} (t : Str)
    (hp : p.rtx.isSome ↔ ∃ q ∈ earlier, paramName q = c%"APT") :
    Judges (fmtpParam p t) (fmtpParamFaults earlier t) := by
  unfold fmtpParamFaults
  by_cases he : '=' ∈ t
  swap
  · unfold fmtpParam
    rw [splitn_two_of_not_mem he]
    exact .stop fun e => by simp [wrongIf, he]
  refine .skip (fun e h => h.1 he) ?_
  obtain ⟨a, v, rfl, ha⟩ := eq_cases he
  rw [paramName_eq ha, paramValue_eq ha]
  by_cases hf : ∃ f : FmtpField, upper a = f.text
  · obtain ⟨f, hf⟩ := hf
    have hr : upper a ≠ c%"RTX-TIME" := by rw [hf]; exact f.text_ne_rtx
    have h1 : Judges (fmtpParam p (a ++ '=' :: v)) [fun e => ∃ f : FmtpField, upper a = f.text ∧ FirstFault (f.faults v) e] := by
      refine (fmtpParam_judged ha hf).whole fun e => ?_
      constructor
      · rintro ⟨g, hg, h⟩
        rw [hf] at hg
        rwa [FmtpField.text_inj hg]
      · exact fun h => ⟨f, hf, h⟩
    refine ⟨h1.1, fun e => ?_⟩
    rw [h1.2]
    simp [firstFault_cons, firstFault_nil, wrongIf, hr]
  · refine .skip (fun e ⟨f, h, _⟩ => hf ⟨f, h⟩) ?_
    by_cases hr : upper a = c%"RTX-TIME"
    · unfold fmtpParam
      rw [splitn_two_append ha]
      simp only [List.length_cons, List.length_nil, ne_eq, Nat.reduceAdd, not_true_eq_false, if_false,
          idx, List.getElem?_cons_zero, List.getElem?_cons_succ, ok_bind, hr, List.cons.injEq,
          Char.reduceEq, false_and, and_false, and_true, true_and, reduceCtorEq, if_true]
      cases hx : p.rtx with
      | none =>
        rw [hx] at hp
        refine .stop fun e => ?_
        have : ∀ q ∈ earlier, ¬ paramName q = c%"APT" := fun q hq hn => by simpa using hp.2 ⟨q, hq, hn⟩
        simp only [wrongIf]
        exact ⟨fun h => h.2, fun h => ⟨this, h⟩⟩
      | some r =>
        rw [hx] at hp
        obtain ⟨q, hq, hn⟩ := hp.1 rfl
        exact .skip (fun e h => h.1 q hq hn) (.andThen (judges_u32 v))
    · rw [fmtpParam_unknown ha (fun f h => hf ⟨f, h⟩) hr]
      exact .skip (fun e h => hr h.1.1) (.skip (fun e h => hr h.1) (.ok _))

theorem fmtpParam_apt {p p' : FmtpParams} {t : Str} (h : fmtpParam p t = .ok p') :
    p'.rtx.isSome ↔ p.rtx.isSome ∨ paramName t = c%"APT" := by
  rw [fmtpParam_iff] at h
  cases h with
  | field f n he hn hv hm =>
    rw [hn]
    by_cases hf : f = .apt
    · subst hf; simp [FmtpField.set, FmtpField.text]
    · rw [FmtpField.set_rtx p n hf]
      have : f.text ≠ c%"APT" := fun h => hf (FmtpField.text_inj (g := .apt) h)
      simp [this]
  | rtxTime r n he hn hr hv hm => simp [hr]
  | unknown he hf hr =>
    have := hf .apt
    simp only [FmtpField.text] at this
    simp [this]

theorem judges_fmtpParamList {p : FmtpParams} {earlier : List Str} (ts : List Str)
    (hp : p.rtx.isSome ↔ ∃ q ∈ earlier, paramName q = c%"APT") :
    Judges (fmtpParamList p ts) (fmtpParamsFaults earlier ts) := by
  induction ts generalizing p earlier with
  | nil => exact .ok _
  | cons t ts ih =>
    refine .bind (judges_fmtpParam t hp) fun p' hp' => ih ?_
    rw [fmtpParam_apt hp', hp]
    simp [or_and_right, exists_or]

omit [Env] in
theorem judges_fmtpRed (p : FmtpParams) (ts : List Str) :
    Judges (fmtpRed p ts) (ts.flatMap fun f => [notNumber 8 f, tooBig f 128 c%"Red codec must be in range [0,128]"]) := by
  induction ts generalizing p with
  | nil => exact .ok _
  | cons t ts ih =>
    rw [List.flatMap_cons]
    refine .bind1 (judges_u8 t) fun x hx => .check' ?_ fun _ => ih _
    rw [big_u8 hx, UInt8.le_iff_toNat_le]
    show 128 < x.toNat ↔ ¬ x.toNat ≤ 128
    omega

theorem judges_fmtp (s : Str) : Judges (parseFmtp s)
    (fmtpFaults s ((splitC ';' (behind ' ' s)).filter fun t => !t.isEmpty) (splitC '/' (behind ' ' s))) := by
  unfold parseFmtp fmtpFaults
  by_cases h : ' ' ∈ s
  swap
  · rw [splitn_two_of_not_mem h]
    exact .stop fun e => by simp [unsupportedIf, h]
  rw [split_upTo h]
  refine .skip (fun e he => he.1 h) ?_
  simp only [List.length_cons, List.length_nil, ne_eq, Nat.reduceAdd, not_true_eq_false, if_false,
      idx, List.getElem?_cons_zero, ok_bind, sliceFrom, Nat.one_le_ofNat, if_true, List.drop_succ_cons, List.drop_zero,
      fmtpBlocks]
  refine Judges.bind ?_ fun p _ => .andThen (judges_u8 _)
  refine Judges.andThen (f := fun p => p) ?_
  unfold fmtpBlock
  split
  · exact judges_fmtpParamList _ (by simp [FmtpParams.default])
  split
  · exact judges_fmtpRed _ _
  split <;> exact .ok _

omit [Env] in
theorem judges_ridParam (st : RidState) (t : Str) : Judges (ridParam st t) (ridParamFaults t) := by
  unfold ridParam ridParamFaults
  by_cases he : '=' ∈ t
  swap
  · rw [splitn_two_of_not_mem he]
    exact .stop fun e => by simp [wrongIf, he]
  refine .skip (fun e h => h.1 he) ?_
  rw [split_upTo he]
  generalize upTo '=' t = a
  generalize behind '=' t = v
  by_cases hf : ∃ f : RidField, a = f.text
  · obtain ⟨f, rfl⟩ := hf
    have key : ∀ (g : UInt32 → RidState), Judges (do return g (← parseU32 v) : IRes RidState)
        [fun e => ∃ f' : RidField, f.text = f'.text ∧ notNumber 32 v e] := fun g =>
      .andThen ((judges_u32 v).congr fun e => ⟨fun h => ⟨f, rfl, h⟩, fun ⟨_, _, h⟩ => h⟩)
    cases f <;>
    simp only [RidField.text] at key ⊢ <;>
    simp only [List.length_cons, List.length_nil, ne_eq, Nat.reduceAdd, not_true_eq_false, if_false,
      idx, List.getElem?_cons_zero, List.getElem?_cons_succ, ok_bind, reduceCtorEq, ite_false, ite_true, List.cons.injEq,
      Char.reduceEq, false_and, and_false, and_true, true_and] <;>
    exact key _
  · refine .skip (fun e ⟨f, h, _⟩ => hf ⟨f, h⟩) ?_
    have hf : ∀ f : RidField, a ≠ f.text := fun f h => hf ⟨f, h⟩
    have h0 := hf .maxWidth
    have h1 := hf .maxHeight
    have h2 := hf .maxFps
    have h3 := hf .maxFs
    have h4 := hf .maxBr
    have h5 := hf .maxPps
    simp only [RidField.text] at h0 h1 h2 h3 h4 h5
    simp only [List.length_cons, List.length_nil, ne_eq, Nat.reduceAdd, not_true_eq_false, if_false,
      idx, List.getElem?_cons_zero, List.getElem?_cons_succ, ok_bind, h0, h1, h2, h3, h4, h5]
    split <;> exact .ok _

omit [Env] in
theorem judges_ridParamList (st : RidState) (ts : List Str) : Judges (ridParamList st ts) (ts.flatMap ridParamFaults) := by
  induction ts generalizing st with
  | nil => exact .ok _
  | cons t ts ih => exact .bind (judges_ridParam st t) fun st' _ => ih st'

omit [Env] in
theorem judges_ridFormats (l : Str) : Judges (collect (fun f => parseU16 (trim f)) (splitC ',' l)) [ridFormatsFault l] := by
  refine Judges.whole (.collect1 (g := fun f e => ∃ w, Stripped f w ∧ notNumber 16 w e) fun t _ => ?_) fun e => ?_
  · refine (judges_u16 (trim t)).congr fun e => ?_
    simp [stripped_iff]
  · simp [ridFormatsFault, fields_iff]

omit [Env] in
theorem judges_ridParams (ps : List Str) : Judges (do
      let (formats, ps) ← ridFormats ps
      let st ← ridParamList RidState.default ps
      return (formats, st) : IRes (List UInt16 × RidState)) (ridParamsFaults ps) := by
  cases ps with
  | nil => exact .ok _
  | cons p ps =>
    unfold ridFormats ridParamsFaults
    dsimp only
    rw [← strip_prefix]
    by_cases hp : c%"pt=".isPrefixOf p
    · rw [if_pos hp, if_pos hp]
      have := Judges.bind1 (f := fun fs => (do
          let st ← ridParamList RidState.default ps
          return (fs, st) : IRes (List UInt16 × RidState))) (judges_ridFormats (p.drop 3)) fun fs _ =>
        .andThen (judges_ridParamList RidState.default ps)
      dsimp only
      cases hc : collect (fun f => parseU16 (trim f)) (splitC ',' (p.drop 3)) <;> rw [hc] at this <;> exact this
    · rw [if_neg hp, if_neg hp]
      exact .andThen (judges_ridParamList RidState.default _)

omit [Env] in
theorem judges_rid (s : Str) : Judges (parseRid s) (ridFaults s (splitC ';' (behind ' ' (behind ' ' s)))) := by
  unfold parseRid ridFaults
  by_cases h : ' ' ∈ s
  swap
  · rw [splitn_of_not_mem h]
    exact .stop fun e => by simp [wrongIf, h]
  obtain ⟨a, b, -, rfl, ha⟩ := splitn_two_of_mem h
  refine .skip (fun e he => he.1 h) ?_
  rw [splitn_append ha, behind_eq ha]
  by_cases h2 : ' ' ∈ b
  · rw [split_upTo h2]
    simp only [List.length_cons, List.length_nil, Nat.reduceAdd, Nat.reduceLT, if_false, h2, if_true,
      idx, List.getElem?_cons_zero, List.getElem?_cons_succ, ok_bind]
    exact Judges.bind (judges_ridParams _) fun x _ => .andThen (judges_direction _)
  · rw [splitn_two_of_not_mem h2, upTo_of_not_mem h2]
    simp only [List.length_cons, List.length_nil, Nat.reduceAdd, Nat.reduceLT, if_false, h2,
      idx, List.getElem?_cons_zero, List.getElem?_cons_succ, ok_bind]
    exact .andThen (judges_direction _)

end

end Sdp
