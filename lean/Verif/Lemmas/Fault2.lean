import Verif.Lemmas.Fault
/-!
# Which error a line other than an attribute gives
-/

namespace Sdp

/-- The parser has only one error. -/
def OneError {α : Type} (x : IRes α) (err : InternalError) : Prop := x = .err err ∨ ∃ a, x = .ok a

theorem OneError.ite {α : Type} {p : Prop} [Decidable p] {a : α} {y : IRes α} {err : InternalError} (h : OneError y err) :
    OneError (if p then .ok a else y) err := by
  split
  · exact .inr ⟨_, rfl⟩
  · exact h

/-- A parser of keywords. -/
theorem Judges.keyword {α : Type} {x : IRes α} {T : α → Prop} {err : InternalError} (hok : ∀ a, x = .ok a ↔ T a)
    (herr : OneError x err) : Judges x [fun e => (∀ a, ¬ T a) ∧ e = err] := by
  rcases herr with rfl | ⟨a, rfl⟩
  · refine .stop fun e => ?_
    have : ∀ a, ¬ T a := fun a ha => by have := (hok a).2 ha; cases this
    simp [this]
  · exact .skip (fun e h => h.1 a ((hok a).1 rfl)) (.ok _)

/-- A chain of keywords has one error. -/
macro "keyword_error" : tactic => `(tactic| ((repeat with_reducible apply OneError.ite); exact Or.inl rfl))

/-- There are enough words. -/
theorem not_missing {ts : List Str} {i : Nat} {m : Str} (h : i < ts.length) (e : InternalError) : ¬ missing ts i m e :=
  fun he => by have := he.1; omega

/-- There are too few words. -/
theorem Judges.missing {α : Type} {ts : List Str} {i : Nat} {m : Str} {cs : List Fault} (h : ts.length ≤ i) :
    Judges (egeneric m : IRes α) (missing ts i m :: cs) :=
  .stop fun e => by simp [Sdp.missing, wrongIf, h]

theorem item_getElem {ts : List Str} {i : Nat} {t : Str} (h : ts[i]? = some t) : item ts i = t := by
  simp [item, List.getD_eq_getElem?_getD, h]

theorem idx_item {ε : Type} {ts : List Str} {i : Nat} (h : i < ts.length) : (idx ts i : Outcome ε Str) = .ok (item ts i) := by
  simp [idx, item, h]

section
variable [Env]

theorem judges_origin (v : Str) : Judges (parseOrigin v) (originFaults (splitWs v)) := by
  unfold parseOrigin originFaults
  generalize splitWs v = ts
  cases ts with
  | nil => exact .missing (by simp)
  | cons t0 ts =>
  refine .skip (not_missing (by simp)) ?_
  cases ts with
  | nil => exact .missing (by simp)
  | cons t1 ts =>
  refine .skip (not_missing (by simp)) (.bind1 (judges_u64 t1) fun _ _ => ?_)
  cases ts with
  | nil => exact .missing (by simp)
  | cons t2 ts =>
  refine .skip (not_missing (by simp)) (.bind1 (judges_u64 t2) fun _ _ => ?_)
  cases ts with
  | nil => exact .missing (by simp)
  | cons t3 ts =>
  refine .skip (not_missing (by simp)) (.bind1 (judges_network t3) fun _ _ => ?_)
  cases ts with
  | nil => exact .missing (by simp)
  | cons t4 ts =>
  refine .skip (not_missing (by simp)) (.bind1 (judges_addressType t4) fun ty hty => ?_)
  cases ts with
  | nil => exact .missing (by simp)
  | cons t5 ts =>
  refine .skip (not_missing (by simp)) ?_
  refine Judges.bind (cs := [_, _]) (ds := []) (judges_typed ty (upper (upper t4)) t5 (addressType_ok hty)) fun a ha => ?_
  rw [typedTryFrom_iff] at ha
  have : ¬ ty ≠ a.addressType := by
    cases a with
    | ip ip => obtain ⟨-, rfl⟩ := ha; cases ip <;> simp [TypedAddress.addressType, ipFamily, ipAddressType]
    | fqdn u d => obtain ⟨-, rfl⟩ := ha; simp [TypedAddress.addressType]
  rw [if_neg this]
  exact .ok _

theorem judges_connection (v : Str) :
    Judges (parseConnection v) (connectionFaults (splitWs v) (splitC '/' (item (splitWs v) 2))) := by
  unfold parseConnection connectionFaults
  generalize splitWs v = ts
  refine .check Iff.rfl fun h => ?_
  have h : ts.length = 3 := by simpa using h
  rw [idx_item (by omega), idx_item (by omega), idx_item (by omega)]
  simp only [ok_bind]
  refine .bind1 (judges_network _) fun _ _ => .bind1 (judges_addressType _) fun ty hty => ?_
  have hc : Judges (parseConnAddr (item ts 2))
      [fun e => 2 < (splitC '/' (item ts 2)).length ∧ notNumber 32 (item (splitC '/' (item ts 2)) 2) e,
       fun e => 1 < (splitC '/' (item ts 2)).length ∧ notNumber 8 (item (splitC '/' (item ts 2)) 1) e] ∧
      ∀ a x y, parseConnAddr (item ts 2) = .ok (a, x, y) → a = item (splitC '/' (item ts 2)) 0 := by
    unfold parseConnAddr
    by_cases hm : '/' ∈ item ts 2
    · have h1 : 1 < (splitC '/' (item ts 2)).length := splitC_two_le hm
      rw [if_pos hm]
      generalize splitC '/' (item ts 2) = fs at h1
      simp only []
      rw [idx_item h1, idx_item (show 0 < fs.length by omega)]
      simp only [ok_bind]
      constructor
      · refine .bind1 ?_ fun amount _ => ?_
        · by_cases h2 : fs.length ≥ 3
          · rw [if_pos h2, idx_item (by omega)]
            simp only [ok_bind]
            refine (Judges.andThen (judges_u32 _)).congr fun e => ?_
            simp only [show 2 < fs.length by omega, true_and]
          · rw [if_neg h2]
            exact .skip (fun e he => h2 he.1) (.ok _)
        · refine (Judges.andThen (judges_u8 _)).congr fun e => ?_
          simp only [h1, true_and]
      · intro a x y h
        obtain ⟨am, -, h⟩ := bind_eq_ok.1 h
        obtain ⟨tt, -, h⟩ := bind_eq_ok.1 h
        cases h; rfl
    · rw [if_neg hm, splitC_of_not_mem hm]
      refine ⟨.skip (by simp) (.skip (by simp) (.ok _)), ?_⟩
      intro a x y h; cases h; rfl
  refine Judges.bind (cs := [_, _]) hc.1 ?_
  rintro ⟨a, x, y⟩ ha
  rw [← hc.2 a x y ha]
  exact .andThen (judges_typed ty _ _ (addressType_ok hty))

theorem judges_bandwidth (v : Str) : Judges (parseBandwidth v) (bandwidthFaults (splitC ':' v)) := by
  unfold parseBandwidth bandwidthFaults
  generalize splitC ':' v = ts
  refine .check Iff.rfl fun h => ?_
  have h : ts.length = 2 := by simpa using h
  rw [idx_item (by omega), idx_item (by omega)]
  simp only [ok_bind]
  refine .bind1 (judges_u32 _) fun n _ => ?_
  split
  · exact .ok _
  split
  · exact .ok _
  split <;> exact .ok _

omit [Env] in
theorem judges_timing (v : Str) : Judges (parseTiming v) (timingFaults (splitWs v)) := by
  unfold parseTiming timingFaults
  generalize splitWs v = ts
  refine .check Iff.rfl fun h => ?_
  have h : ts.length = 2 := by simpa using h
  rw [idx_item (by omega), idx_item (by omega)]
  simp only [ok_bind]
  exact .bind1 (judges_u64 _) fun _ _ => .andThen (judges_u64 _)

omit [Env] in
theorem judges_version (v : Str) : Judges (parseVersion v) (versionFaults v) := by
  unfold parseVersion versionFaults
  refine .bind1 (judges_u64 v) fun n hn => ?_
  rw [parseU64_ok] at hn
  split
  · rename_i h
    refine .stop fun e => ?_
    constructor
    · rintro ⟨k, hk, -, rfl⟩; rw [← hn.unique hk]; rfl
    · rintro rfl; exact ⟨_, hn, by simpa [← UInt64.toNat_inj] using h, rfl⟩
  · rename_i h
    refine .skip ?_ (.ok _)
    rintro e ⟨k, hk, h0, -⟩
    rw [← hn.unique hk] at h0
    exact h fun h' => h0 (by rw [h']; rfl)

theorem judges_mediaToken (s : Str) :
    Judges (parseMediaToken s) [unsupportedIf (∀ k, lower s ≠ mediaText k) (c%"unsupported media value: " ++ s)] :=
  .keyword (fun _ => mediaToken_iff) (by unfold parseMediaToken; simp only []; keyword_error)

theorem judges_protocolToken (s : Str) :
    Judges (parseProtocolToken s)
      [unsupportedIf (∀ k, upper s ≠ protocolText k) (c%"unsupported protocol value: " ++ s)] :=
  .keyword (fun _ => protocolToken_iff) (by unfold parseProtocolToken; simp only []; keyword_error)

omit [Env] in
theorem judges_fmtNum (t : Str) :
    Judges (parseFmtNum t) [notNumber 32 t,
      wrongIf (∃ n, DecText t n ∧ ¬ FormatNumber n) c%"format number in media line is out of range"] := by
  unfold parseFmtNum
  refine .bind1 (judges_u32 t) fun n hn => ?_
  rw [parseU32_ok] at hn
  refine .check ?_ fun _ => .ok _
  have h1 : FormatNumber n.toNat ↔ ¬ fmtNumReserved n = true := by
    have : parseFmtNum (showU32 n) = .ok n ↔ ¬ fmtNumReserved n = true := by
      unfold parseFmtNum; rw [parseU32_show]; simp only [ok_bind]; split <;> simp_all
    rw [← this, fmtNum_iff]
    exact ⟨fun h => ⟨DecText.show _, h⟩, fun h => h.2⟩
  constructor
  · rintro ⟨k, hk, h⟩; rw [← hn.unique hk, h1] at h; simpa using h
  · intro h; exact ⟨_, hn, by rw [h1]; simpa using h⟩

theorem judges_media (v : Str) : Judges (parseMedia v) (mediaFaults (splitWs v) (splitC '/' (item (splitWs v) 1))) := by
  unfold parseMedia mediaFaults
  generalize splitWs v = ts
  refine .check Iff.rfl fun h => ?_
  rw [idx_item (by omega), idx_item (by omega), idx_item (by omega)]
  simp only [ok_bind]
  refine .bind1 (judges_mediaToken _) fun k hk => ?_
  have hne := splitC_ne_nil '/' (item ts 1)
  generalize splitC '/' (item ts 1) = fs at hne
  cases fs with
  | nil => exact absurd rfl hne
  | cons p fs =>
  refine .bind1 (judges_u32 p) fun n hn => ?_
  refine .check (by rw [show item (p :: fs) 0 = p from rfl, big_u32 hn]; rfl) fun _ => ?_
  refine .bind1 ?_ fun count _ => ?_
  · unfold parsePortCount
    cases fs with
    | nil => exact .skip (by simp) (.ok _)
    | cons c fs => exact (judges_u32 c).congr fun e => by simp [item]
  refine .bind1 (judges_protocolToken _) fun proto _ => ?_
  have hs : (sliceFrom ts 3 : IRes (List Str)) = .ok (ts.drop 3) := by unfold sliceFrom; rw [if_pos (by omega)]
  rw [hs]
  simp only [ok_bind]
  refine .andThen ?_
  rw [mediaToken_iff] at hk
  unfold parseFormats
  cases k with
  | application => rw [if_pos (by rw [hk]; rfl)]; exact .ok _
  | audio => rw [if_neg (by rw [hk]; decide)]; exact .andThen (.collect fun t _ => judges_fmtNum t)
  | video => rw [if_neg (by rw [hk]; decide)]; exact .andThen (.collect fun t _ => judges_fmtNum t)

end

end Sdp
