import Verif.Lemmas.ReadsBack
import Mathlib.Tactic.IntervalCases
/-!
# Reading a printed attribute again does not make its text longer
-/

namespace Sdp

/-- `t` is `s` itself or shorter. -/
def Shrinks (s t : Str) : Prop := t = s ∨ t.length < s.length

namespace Shrinks

theorem refl (s : Str) : Shrinks s s := .inl rfl

theorem trans {s t u : Str} (h : Shrinks s t) (k : Shrinks t u) : Shrinks s u := by
  rcases h with rfl | h
  · exact k
  · rcases k with rfl | k
    · exact .inr h
    · exact .inr (by omega)

theorem le {s t : Str} (h : Shrinks s t) : t.length ≤ s.length := by
  rcases h with rfl | h
  · exact le_refl _
  · omega

theorem of_le {s t : Str} (h : t.length ≤ s.length) (k : t.length = s.length → t = s) : Shrinks s t := by
  by_cases e : t.length = s.length
  · exact .inl (k e)
  · exact .inr (by omega)

theorem append {a b c d : Str} (h : Shrinks a c) (k : Shrinks b d) : Shrinks (a ++ b) (c ++ d) := by
  have h1 := h.le
  have h2 := k.le
  rcases h with rfl | h
  · rcases k with rfl | k
    · exact .refl _
    · exact .inr (by simp; omega)
  · exact .inr (by simp; omega)

theorem prefix_ (a : Str) {b d : Str} (k : Shrinks b d) : Shrinks (a ++ b) (a ++ d) := (refl a).append k

theorem cons (a : Char) {b d : Str} (k : Shrinks b d) : Shrinks (a :: b) (a :: d) := prefix_ [a] k

theorem trimEnd (s : Str) : Shrinks s (trimEnd s) := by
  obtain ⟨w, -, e⟩ := trimEnd_spec s
  by_cases h : w = []
  · subst h; rw [List.append_nil] at e; exact .inl e.symm
  · refine .inr ?_
    have := congrArg List.length e
    have := List.length_pos_iff.2 h
    simp at *; omega

theorem trimStart (s : Str) : Shrinks s (trimStart s) := by
  obtain ⟨w, -, e⟩ := trimStart_spec s
  by_cases h : w = []
  · subst h; rw [List.nil_append] at e; exact .inl e.symm
  · refine .inr ?_
    have := congrArg List.length e
    have := List.length_pos_iff.2 h
    simp at *; omega

theorem trim (s : Str) : Shrinks s (trim s) := (trimStart s).trans (trimEnd _)

theorem join (sep : Str) {l m : List Str} (h : List.Forall₂ Shrinks l m) : Shrinks (joinS sep l) (joinS sep m) := by
  induction h with
  | nil => exact .refl _
  | @cons a b as bs h hs ih =>
    cases hs with
    | nil => exact h
    | cons _ _ => exact (h.append (.refl sep)).append ih

theorem nonEmpty (c : Char) (l : List Str) : Shrinks (joinS [c] l) (joinS [c] (nonEmpty l)) := by
  obtain ⟨h, k⟩ := joinS_nonEmpty_length c l
  refine .of_le h fun e => ?_
  rcases k e with k | k
  · rw [k]
  · rw [k]; rfl

end Shrinks

theorem trim_trimEnd (s : Str) : trim (trimEnd s) = trim s := by
  obtain ⟨w, hw, e⟩ := trimEnd_spec s
  conv_rhs => rw [e]
  exact (trim_append_ws hw).symm

theorem trimEnd_trimEnd (s : Str) : trimEnd (trimEnd s) = trimEnd s := by
  obtain ⟨w, hw, e⟩ := trimEnd_spec s
  conv_rhs => rw [e]
  exact (trimEnd_append_ws hw).symm

theorem forall₂_refl (l : List Str) : List.Forall₂ Shrinks l l := by
  induction l with
  | nil => exact .nil
  | cons a l ih => exact .cons (.refl a) ih

theorem forall₂_trans {l m n : List Str} (h : List.Forall₂ Shrinks l m) (k : List.Forall₂ Shrinks m n) :
    List.Forall₂ Shrinks l n := by
  induction h generalizing n with
  | nil => cases k; exact .nil
  | cons h _ ih => cases k with
    | cons k ks => exact .cons (h.trans k) (ih ks)

theorem digits_shrink {ds : Str} (h : ∀ c ∈ ds, c.isDigit = true) (hne : ds ≠ []) : Shrinks ds (showNat (decValue ds)) := by
  induction ds using List.reverseRecOn with
  | nil => exact absurd rfl hne
  | append_singleton ds c ih =>
    have hc : c.isDigit = true := h c (by simp)
    have hd : c.toNat - '0'.toNat < 10 ∧ showNat (c.toNat - '0'.toNat) = [c] := by
      have h1 := hc
      simp only [Char.isDigit, Bool.and_eq_true, decide_eq_true_eq, ge_iff_le] at h1
      obtain ⟨a, b⟩ := h1
      have a : 48 ≤ c.toNat := a
      have b : c.toNat ≤ 57 := b
      have hx : c = Char.ofNat c.toNat := (Char.ofNat_toNat c).symm
      generalize c.toNat = n at *
      subst hx
      interval_cases n <;> exact ⟨by decide, by decide⟩
    have e : decValue (ds ++ [c]) = 10 * decValue ds + (c.toNat - '0'.toNat) := by
      rw [decValue_append]; simp [decValue]; omega
    by_cases hds : ds = []
    · subst hds
      rw [e]
      simp only [decValue, List.foldl_nil, Nat.mul_zero, Nat.zero_add, List.nil_append]
      rw [hd.2]; exact .refl _
    · have ih := ih (fun x hx => h x (by simp [hx])) hds
      by_cases h0 : decValue ds = 0
      · rw [e, h0, Nat.mul_zero, Nat.zero_add, hd.2]
        refine .inr ?_
        have := List.length_pos_iff.2 hds
        simp; omega
      · rw [e]
        unfold showNat at *
        rw [← Nat.toDigits_append_toDigits (by decide) (by omega) hd.1, hd.2]
        exact ih.append (.refl _)

theorem DecText.shrink {s : Str} {n : Nat} (h : DecText s n) : Shrinks s (showNat n) := by
  obtain ⟨ds, h1, h2, h3, rfl⟩ := h
  have := digits_shrink h3 h2
  rcases h1 with rfl | rfl
  · exact this
  · exact .inr (by have := this.le; simp; omega)

section
variable [Env]

/-! ## rid -/

/-- What is known of every rid attribute that was read. -/
structure Rid.Read (r : Rid) : Prop where
  id : BeginsClean r.id ∧ ' ' ∉ r.id
  unknown : ∀ u ∈ r.params.unknown, '=' ∈ u ∧ ';' ∉ u ∧ ridName u ∉ ridNames
  depends : ∀ d ∈ r.depends, ',' ∉ d ∧ ';' ∉ d

/-- The last piece of the text: what the stream depends on. -/
def ridDepPiece (r : Rid) : List Str :=
  if r.depends = [] then [] else [c%"depends" ++ '=' :: joinS c%"," (nonEmpty r.depends)]

omit [Env] in
theorem Rid.Read.pieces {r : Rid} (h : r.Read) :
    pieces (ridText r) = ridHead r ++ (ridFront r ++ (r.params.unknown ++ ridDepPiece r)) := by
  set r' : Rid := { r with depends := ridDeps r.depends } with hr'
  have hunk' : ∀ u ∈ r'.params.unknown, ';' ∉ u ∧ u ≠ [] :=
    fun u hu => ⟨(h.unknown u hu).2.1, List.ne_nil_of_mem (h.unknown u hu).1⟩
  have hdep' : r'.depends = [[]] ∨ ∀ d ∈ r'.depends, d ≠ [] ∧ ',' ∉ d ∧ ';' ∉ d := by
    show ridDeps r.depends = [[]] ∨ ∀ d ∈ ridDeps r.depends, d ≠ [] ∧ ',' ∉ d ∧ ';' ∉ d
    unfold ridDeps
    split_ifs with h1 h2
    · exact .inr (by simp)
    · exact .inl rfl
    · refine .inr fun d hd => ?_
      have := List.mem_filter.1 hd
      exact ⟨by simpa using this.2, h.depends d this.1⟩
  have hp := rid_pieces hunk' hdep'
  have hT : ridText r' = ridText r := by
    unfold ridText
    rw [ridDeps_text]
  have hhead : ridHead r' = ridHead r := rfl
  have htail : ridTail r' = ridFront r ++ (r.params.unknown ++ ridDepPiece r) := by
    rw [ridTail_split]
    simp only [hr', ridDeps_eq_nil, ridDeps_join]
    rfl
  rwa [hT, hhead, htail] at hp

omit [Env] in
theorem joinS_pieces (s : Str) : joinS c%";" (pieces s) = s := by
  unfold pieces
  split
  · rename_i h; rw [h]; rfl
  · exact joinS_splitC

theorem ridParamList_front (r : Rid) :
    ridParamList RidState.default (ridFront r) = .ok ⟨{ r.params with unknown := [] }, []⟩ := by
  have hw : Rid.WF { r with id := c%"x", params := { r.params with unknown := [] }, depends := [] } :=
    ⟨⟨⟨'x', [], rfl, by decide⟩, by simp⟩, by simp, .inr (by simp), by simp, by simp, by simp⟩
  have e : ridFront r = ridTail { r with id := c%"x", params := { r.params with unknown := [] }, depends := [] } := rfl
  rw [e]
  exact ridParamList_tail hw

omit [Env] in
theorem ridFormats_shrink {r : Rid} {R ps : List Str} {fs : List UInt16}
    (h : ridFormats (ridHead r ++ R) = .ok (fs, ps)) :
    (fs = r.formats ∧ ps = R) ∨
    (r.formats = [] ∧ fs ≠ [] ∧ ∃ x, R = x :: ps ∧ ridName x = c%"pt" ∧
      Shrinks x (c%"pt=" ++ joinS c%"," (fs.map showU16))) := by
  unfold ridHead at h
  by_cases hf : r.formats = []
  · rw [if_pos hf, List.nil_append] at h
    cases R with
    | nil => cases h; exact .inl ⟨hf.symm, rfl⟩
    | cons x xs =>
      unfold ridFormats at h
      dsimp only at h
      cases hx : stripPrefix c%"pt=" x with
      | none => rw [hx] at h; cases h; exact .inl ⟨hf.symm, rfl⟩
      | some l =>
        rw [hx] at h
        simp only [bind_eq_ok] at h
        obtain ⟨fs', hfs, h⟩ := h
        cases h
        have e := stripPrefix_eq_some.1 hx
        refine .inr ⟨hf, ?_, x, rfl, ?_, ?_⟩
        · intro hc
          have := collect_eq_ok_length hfs
          rw [hc] at this
          exact splitC_ne_nil ',' l (List.length_eq_zero_iff.1 this.symm)
        · rw [e]; exact ridName_append (n := c%"pt") (v := l) (by decide)
        · rw [e]
          refine Shrinks.prefix_ _ ?_
          conv in Shrinks l => rw [← joinS_splitC (c := ',') (s := l)]
          refine Shrinks.join _ ?_
          rw [List.forall₂_map_right_iff]
          exact (collect_eq_ok.1 hfs).imp fun a b hab => (Shrinks.trim a).trans (parseU16_ok.1 hab).shrink
  · rw [if_neg hf] at h
    have hs : stripPrefix c%"pt=" (c%"pt=" ++ joinS c%"," (r.formats.map showU16)) =
        some (joinS c%"," (r.formats.map showU16)) := by simp [stripPrefix]
    simp only [List.cons_append, List.nil_append] at hs h
    unfold ridFormats at h
    dsimp only at h
    rw [hs] at h
    simp only at h
    rw [splitC_joinS (by simpa using hf) (by
      intro t ht hm
      obtain ⟨n, -, rfl⟩ := List.mem_map.1 ht
      have := showNat_digits hm; exact absurd this (by decide)),
      collect_map_id (f := fun f => parseU16 (trim f)) (fun n _ => by
        rw [(Token.u16 n).trimmed.trim, parseU16_show])] at h
    cases h
    exact .inl ⟨rfl, rfl⟩

/-- The pieces read again, the last of them trimmed. -/
theorem rid_core {r s : Rid} {T : Str} {us dep : List Str} (hid : ' ' ∉ r.id)
    (h : parseRid (r.id ++ ' ' :: (showSingleDirection r.direction ++ ' ' :: T)) = .ok (.rid s))
    (hT : splitC ';' T = ridHead r ++ (ridFront r ++ (us ++ dep)))
    (hus : ∀ u ∈ us, '=' ∈ u ∧ ridName u ∉ ridNames)
    (hdep : dep = [] ∨ ∃ v, dep = [c%"depends" ++ '=' :: v]) :
    s.id = r.id ∧ s.direction = r.direction ∧
    List.Forall₂ Shrinks (ridHead r ++ (ridFront r ++ (us ++ dep)))
      (ridHead s ++ (ridFront s ++ (s.params.unknown ++ ridDepPiece s))) := by
  have hdir : Token (showSingleDirection r.direction) := by cases r.direction <;> exact ⟨by decide, by decide⟩
  have pdir : parseSingleDirection (showSingleDirection r.direction) = .ok r.direction := by
    cases r.direction <;> rfl
  unfold parseRid at h
  rw [splitn_append hid, splitn_append hdir.not_space] at h
  simp only [splitn, List.length_cons, List.length_nil, Nat.reduceAdd, Nat.reduceLT, if_false,
    List.getElem?_cons_succ, List.getElem?_cons_zero, hT, bind_eq_ok] at h
  obtain ⟨q, hq, i, hi, dt, hdt, d, hd, h⟩ := h
  obtain ⟨⟨fs, ps⟩, hf, st, hst, hq⟩ := hq
  cases hq
  simp only [pure, Outcome.ok.injEq, Attribute.rid.injEq] at h
  have hi : r.id = i := by simpa using idx_eq_ok.1 hi
  have hdt : showSingleDirection r.direction = dt := by simpa using idx_eq_ok.1 hdt
  subst hdt
  rw [pdir] at hd
  cases hd
  subst hi
  -- what the rest gives
  have rest : ∀ (st0 : RidState) (us : List Str), st0.depends = [] → st0.params.unknown = [] →
      (∀ u ∈ us, '=' ∈ u ∧ ridName u ∉ ridNames) → ∀ st, ridParamList st0 (us ++ dep) = .ok st →
      st.params = { st0.params with unknown := us } ∧
      List.Forall₂ Shrinks dep (if st.depends = [] then [] else [c%"depends" ++ '=' :: joinS c%"," (nonEmpty st.depends)]) := by
    intro st0 us h0 h1 hus st hst
    rw [ridParamList_append, ridParamList_unknown hus, ok_bind, h1, List.nil_append] at hst
    rcases hdep with rfl | ⟨v, rfl⟩
    · cases hst
      refine ⟨rfl, ?_⟩
      rw [if_pos h0]; exact .nil
    · have e : ridParamList ({ st0 with params := { st0.params with unknown := us } }) [c%"depends" ++ '=' :: v] =
          .ok { st0 with params := { st0.params with unknown := us }, depends := splitC ',' v } := by
        unfold ridParamList ridParam
        rw [splitn_two_append (by decide)]
        simp [idx, h0, ridParamList]
      rw [e] at hst
      cases hst
      refine ⟨rfl, ?_⟩
      rw [if_neg (splitC_ne_nil ',' v)]
      refine .cons (Shrinks.prefix_ _ (Shrinks.cons _ ?_)) .nil
      have := Shrinks.nonEmpty ',' (splitC ',' v)
      rwa [joinS_splitC] at this
  rcases ridFormats_shrink hf with ⟨rfl, rfl⟩ | ⟨hf0, hfs, x, hR, hx, hsx⟩
  · rw [ridParamList_append, ridParamList_front, ok_bind] at hst
    obtain ⟨k1, k2⟩ := rest _ us rfl rfl hus st hst
    subst h
    refine ⟨rfl, rfl, List.rel_append (forall₂_refl _) (List.rel_append ?_ (List.rel_append ?_ k2))⟩
    · simp only [ridFront, ridTail, k1]; exact forall₂_refl _
    · simp only [k1]; exact forall₂_refl _
  · have hF : ridFront r = [] := by
      cases hF : ridFront r with
      | nil => rfl
      | cons y ys =>
        exfalso
        rw [hF] at hR
        obtain ⟨rfl, -⟩ := List.cons.inj hR
        obtain ⟨n, v, e, h1, -, -, h2⟩ := ridFront_named r y (by rw [hF]; simp)
        rw [e, ridName_append h1] at hx
        exact h2 hx
    have hfr := ridParamList_front r
    rw [hF] at hfr
    have hp : RidState.default = ⟨{ r.params with unknown := [] }, []⟩ := Outcome.ok.inj hfr
    rw [hF, List.nil_append] at hR
    cases us with
    | nil =>
      exfalso
      rw [List.nil_append] at hR
      rcases hdep with rfl | ⟨v, rfl⟩
      · cases hR
      · obtain ⟨rfl, -⟩ := List.cons.inj hR
        rw [ridName_append (by decide)] at hx
        exact absurd hx (by decide)
    | cons u us =>
      obtain ⟨rfl, rfl⟩ := List.cons.inj hR
      obtain ⟨k1, k2⟩ := rest _ us rfl rfl (fun v hv => hus v (by simp [hv])) st hst
      subst h
      refine ⟨rfl, rfl, ?_⟩
      have e1 : ridHead r = [] := by unfold ridHead; rw [if_pos hf0]
      have e2 : ridFront (⟨r.id, r.direction, fs, st.params, st.depends⟩ : Rid) = [] := by
        rw [← hF]
        simp only [ridFront, ridTail, k1]
        have := congrArg RidState.params hp
        simp only [RidState.default, RidParams.mk.injEq] at this
        obtain ⟨a1, a2, a3, a4, a5, a6, -⟩ := this
        simp only [← a1, ← a2, ← a3, ← a4, ← a5, ← a6, RidState.default]
      have e3 : ridHead (⟨r.id, r.direction, fs, st.params, st.depends⟩ : Rid) = [c%"pt=" ++ joinS c%"," (fs.map showU16)] := by
        unfold ridHead; rw [if_neg hfs]
      rw [e1, hF, e3, e2]
      simp only [List.nil_append, List.cons_append, k1]
      exact .cons hsx (List.rel_append (forall₂_refl _) k2)

theorem rid_read {v : Str} {r : Rid} (h : parseRid (trim v) = .ok (.rid r)) : r.Read := by
  have hw : trim v ≠ [] := by
    intro hc; rw [hc] at h
    have : parseRid [] = egeneric c%"A rid attribute must at least have an id and a direction token." := rfl
    rw [this] at h; cases h
  obtain ⟨r', e, hid, hunk, hdep⟩ := rid_facts (trimmed_of_trim (trim_trim _) hw) _ h
  cases e
  exact ⟨hid, hunk, hdep⟩

theorem rid_shrink {r s : Rid} (hr : r.Read) (h : parseRid (trim (showRid r)) = .ok (.rid s)) :
    Shrinks (showRid r) (showRid s) := by
  have hs := rid_read h
  have hpr := hr.pieces
  have hps := hs.pieces
  have fin (h1 : s.id = r.id) (h2 : s.direction = r.direction)
      (h3 : List.Forall₂ Shrinks (pieces (ridText r)) (pieces (ridText s))) : Shrinks (showRid r) (showRid s) := by
    rw [showRid_eq, showRid_eq, h1, h2]
    refine Shrinks.prefix_ _ (Shrinks.cons _ (Shrinks.prefix_ _ ?_))
    have := Shrinks.join c%";" h3
    rw [joinS_pieces, joinS_pieces] at this
    by_cases e : ridText s = []
    · rw [if_pos e]
      split_ifs
      · exact .refl _
      · exact .inr (by simp)
    · have e' : ridText r ≠ [] := by
        intro hc; rw [hc] at this
        apply e; exact List.length_eq_zero_iff.1 (by simpa using this.le)
      rw [if_neg e, if_neg e']
      exact this.cons _
  have hdir : Token (showSingleDirection r.direction) := by cases r.direction <;> exact ⟨by decide, by decide⟩
  have pdir : parseSingleDirection (showSingleDirection r.direction) = .ok r.direction := by
    cases r.direction <;> rfl
  by_cases ht : ridText r = []
  · rw [showRid_eq, if_pos ht, List.append_nil] at h
    have htr : Trimmed (r.id ++ ' ' :: showSingleDirection r.direction) :=
      ⟨hr.id.1.append, hdir.ends.cons.append⟩
    rw [htr.trim] at h
    unfold parseRid at h
    rw [splitn_append hr.id.2, splitn_of_not_mem hdir.not_space] at h
    simp [idx, pdir] at h
    subst h
    refine fin rfl rfl ?_
    rw [ht]
    exact .nil
  · rw [showRid_eq, if_neg ht] at h
    unfold pieces at hpr
    rw [if_neg ht] at hpr
    have hnb {q : Str} (hq : '=' ∈ q) : ¬ Blank q := fun hb => absurd (hb '=' hq) (by decide)
    have trimmed {l : List Str} {q : Str} (hs : splitC ';' (ridText r) = l ++ [q]) (hq : '=' ∈ q) :
        parseRid (r.id ++ ' ' :: (showSingleDirection r.direction ++ ' ' :: trimEnd (ridText r))) = .ok (.rid s) := by
      have hb : ¬ Blank (ridText r) := fun hb => hnb hq fun c hc => hb c (by
        have := splitC_mem_sub (c := ';') (s := ridText r) (t := q) (by rw [hs]; simp) c hc
        exact this)
      have e : trim (r.id ++ ' ' :: (showSingleDirection r.direction ++ ' ' :: ridText r)) =
          r.id ++ ' ' :: (showSingleDirection r.direction ++ ' ' :: trimEnd (ridText r)) := by
        unfold trim
        rw [trimStart_begins hr.id.1.append]
        have := trimEnd_append (s := r.id ++ ' ' :: (showSingleDirection r.direction ++ [' '])) hb
        simpa using this
      rwa [e] at h
    have go {l : List Str} {q : Str} {us dep : List Str} (hl : ridHead r ++ (ridFront r ++ (r.params.unknown ++ ridDepPiece r)) = l ++ [q])
        (hq : '=' ∈ q) (e : l ++ [trimEnd q] = ridHead r ++ (ridFront r ++ (us ++ dep)))
        (hus : ∀ u ∈ us, '=' ∈ u ∧ ridName u ∉ ridNames)
        (hdep : dep = [] ∨ ∃ v, dep = [c%"depends" ++ '=' :: v]) : Shrinks (showRid r) (showRid s) := by
      rw [hl] at hpr
      obtain ⟨h1, h2, h3⟩ := rid_core (us := us) (dep := dep) hr.id.2 (trimmed hpr hq)
        (by rw [splitC_trimEnd hpr (hnb hq), e]) hus hdep
      refine fin h1 h2 ?_
      rw [hps, pieces, if_neg ht, hpr]
      rw [← e] at h3
      have : List.Forall₂ Shrinks (l ++ [q]) (l ++ [trimEnd q]) :=
        List.rel_append (forall₂_refl l) (.cons (.trimEnd q) .nil)
      exact forall₂_trans this h3
    by_cases hd : r.depends = []
    · have e0 : ridDepPiece r = [] := by unfold ridDepPiece; rw [if_pos hd]
      rcases List.eq_nil_or_concat r.params.unknown with hu | ⟨us, u, hu⟩
      · rcases List.eq_nil_or_concat (ridHead r ++ ridFront r) with hx | ⟨l, q, hx⟩
        · exfalso
          rw [hu, e0] at hpr
          exact splitC_ne_nil _ _ (by rw [hpr]; simpa using hx)
        · rw [List.concat_eq_append] at hx
          have hq := ridFront_ends r q (by
            have : q ∈ ridHead r ++ ridFront r := by rw [hx]; simp
            exact this)
          have hqe : '=' ∈ q := by
            have : q ∈ ridHead r ++ ridFront r := by rw [hx]; simp
            rcases List.mem_append.1 this with hm | hm
            · unfold ridHead at hm
              split at hm
              · cases hm
              · simp only [List.mem_singleton] at hm; rw [hm]; simp
            · obtain ⟨n, v, rfl, -⟩ := ridFront_named r q hm; simp
          refine go (l := l) (q := q) (us := []) (dep := []) ?_ hqe ?_ (by simp) (.inl rfl)
          · rw [hu, e0]; simpa using hx
          · rw [trimEnd_ends hq]; simpa using hx.symm
      · rw [List.concat_eq_append] at hu
        have hum := hr.unknown u (by rw [hu]; simp)
        obtain ⟨n, v, e1, e2, e3⟩ := trimEnd_name hum.1
        refine go (l := ridHead r ++ (ridFront r ++ us)) (q := u) (us := us ++ [trimEnd u]) (dep := []) ?_ hum.1 ?_ ?_ (.inl rfl)
        · rw [hu, e0]; simp
        · simp
        · intro x hx
          rcases List.mem_append.1 hx with hx | hx
          · have := hr.unknown x (by rw [hu]; simp [hx])
            exact ⟨this.1, this.2.2⟩
          · simp only [List.mem_singleton] at hx
            have := hum.2.2
            rw [e1, ridName_append e2] at this
            rw [hx, e3, ridName_append e2]; exact ⟨by simp, this⟩
    · have e0 : ridDepPiece r = [c%"depends" ++ '=' :: joinS c%"," (nonEmpty r.depends)] := by
        unfold ridDepPiece; rw [if_neg hd]
      have et : trimEnd (c%"depends" ++ '=' :: joinS c%"," (nonEmpty r.depends)) =
          c%"depends" ++ '=' :: trimEnd (joinS c%"," (nonEmpty r.depends)) := by
        rw [trimEnd_append (fun hb => absurd (hb '=' (by simp)) (by decide)), trimEnd_cons (by decide)]
      refine go (l := ridHead r ++ (ridFront r ++ r.params.unknown))
        (q := c%"depends" ++ '=' :: joinS c%"," (nonEmpty r.depends)) (us := r.params.unknown)
        (dep := [c%"depends" ++ '=' :: trimEnd (joinS c%"," (nonEmpty r.depends))]) (by rw [e0]; simp) (by simp)
        (by rw [et]; simp) (fun x hx => ⟨(hr.unknown x hx).1, (hr.unknown x hx).2.2⟩) (.inr ⟨_, rfl⟩)

/-! ## simulcast -/

theorem versions_shrink {X : Str} {l : List SimulcastVersion} (h : parseVersionList X = .ok l) :
    Shrinks X (versionsText l) := by
  have key (t : Str) : Shrinks t (versionsText (makeVersionList t)) := by
    unfold versionsText
    rw [versions_text]
    have := Shrinks.nonEmpty ';' (splitC ';' t)
    rwa [joinS_splitC] at this
  unfold parseVersionList at h
  split_ifs at h with he
  · obtain ⟨a, b, e1, e2, -⟩ := trimEnd_name he
    rw [e1, splitn_append e2] at h
    simp only [splitn, List.getElem?_cons_zero, List.getElem?_cons_succ, bind_eq_ok] at h
    obtain ⟨d, hd, h⟩ := h
    cases unwrap_eq_ok.1 hd
    split at h
    · obtain ⟨x, hx, h⟩ := bind_eq_ok.1 h
      cases unwrap_eq_ok.1 hx
      cases h
      have := (key b).le
      exact .inr (by rw [e1]; simp; omega)
    · cases h
  · cases h
    exact key X

theorem versions_ne {X : Str} {l : List SimulcastVersion} (h : parseVersionList X = .ok l) : l ≠ [] := by
  obtain ⟨u, -, rfl⟩ := versionList_ok l h
  unfold makeVersionList
  simpa using splitC_ne_nil ';' u

omit [Env] in
theorem showSimulcast_eq (s : Simulcast) : showSimulcast s =
    if s.send = [] then (if s.receive = [] then [] else c%"recv " ++ versionsText s.receive)
    else if s.receive = [] then c%"send " ++ versionsText s.send
    else c%"send " ++ versionsText s.send ++ c%" recv " ++ versionsText s.receive := by
  unfold showSimulcast
  by_cases e1 : s.send = [] <;> by_cases e2 : s.receive = []
  · rw [e1, e2]; rfl
  · rw [versions_maybe e2, e1, if_pos rfl, if_neg e2]; rfl
  · rw [versions_maybe e1, e2, if_neg e1, if_pos rfl]; rfl
  · rw [versions_maybe e1, versions_maybe e2, if_neg e1, if_neg e2]
    simp [nonEmpty, joinS]

theorem simulcast_shrink {s t : Simulcast} (hn : NoWs (versionsText s.send) ∧ NoWs (versionsText s.receive))
    (h : parseSimulcast (trim (showSimulcast s)) = .ok (.simulcast t)) : Shrinks (showSimulcast s) (showSimulcast t) := by
  obtain ⟨n1, n2⟩ := hn
  unfold parseSimulcast at h
  rw [splitWs_trim, showSimulcast_eq] at h
  have dsend : parseSingleDirection c%"send" = .ok .send := rfl
  have ns : NoWs c%"send" := fun c hc => by revert c; decide
  have nr : NoWs c%"recv" := fun c hc => by revert c; decide
  have drecv : parseSingleDirection c%"recv" = .ok .recv := rfl
  rw [showSimulcast_eq s]
  by_cases e1 : s.send = [] <;> by_cases e2 : s.receive = []
  · rw [if_pos e1, if_pos e2] at h
    cases h
  · rw [if_pos e1, if_neg e2] at h ⊢
    have e : splitWs (c%"recv " ++ versionsText s.receive) = c%"recv" :: splitWs (versionsText s.receive) :=
      splitWs_space (a := c%"recv") nr (by decide)
    simp only [e, drecv] at h
    by_cases f : versionsText s.receive = []
    · rw [f] at h
      obtain ⟨_, -, h⟩ := bind_eq_ok.1 h
      cases h
    · rw [splitWs_single n2 f] at h
      simp only [bind_eq_ok] at h
      obtain ⟨_, hd, l1, h1, l2, h2, h⟩ := h
      cases hd
      cases h2
      cases h
      rw [showSimulcast_eq, if_pos rfl, if_neg (versions_ne h1)]
      exact (versions_shrink h1).prefix_ _
  · rw [if_neg e1, if_pos e2] at h ⊢
    have e : splitWs (c%"send " ++ versionsText s.send) = c%"send" :: splitWs (versionsText s.send) :=
      splitWs_space (a := c%"send") ns (by decide)
    simp only [e, dsend] at h
    by_cases f : versionsText s.send = []
    · rw [f] at h
      obtain ⟨_, -, h⟩ := bind_eq_ok.1 h
      cases h
    · rw [splitWs_single n1 f] at h
      simp only [bind_eq_ok] at h
      obtain ⟨_, hd, l1, h1, l2, h2, h⟩ := h
      cases hd
      cases h2
      cases h
      rw [showSimulcast_eq, if_neg (versions_ne h1), if_pos rfl]
      exact (versions_shrink h1).prefix_ _
  · rw [if_neg e1, if_neg e2] at h ⊢
    have e : splitWs (c%"send " ++ versionsText s.send ++ c%" recv " ++ versionsText s.receive) =
        c%"send" :: (splitWs (versionsText s.send) ++ c%"recv" :: splitWs (versionsText s.receive)) := by
      have a1 : c%"send " ++ versionsText s.send ++ c%" recv " ++ versionsText s.receive =
          c%"send" ++ ' ' :: (versionsText s.send ++ ' ' :: (c%"recv" ++ ' ' :: versionsText s.receive)) := by
        simp
      rw [a1, splitWs_space ns (by decide), splitWs_append_sep (by decide), splitWs_space nr (by decide)]
    simp only [e, dsend] at h
    by_cases f1 : versionsText s.send = []
    · rw [f1] at h ⊢
      simp only [splitWs_nil, List.nil_append, bind_eq_ok] at h
      obtain ⟨_, hd, l1, h1, l2, h2, h⟩ := h
      cases hd
      have h1 : Outcome.ok (makeVersionList c%"recv") = Outcome.ok l1 := h1
      by_cases f2 : versionsText s.receive = []
      · rw [f2] at h2 ⊢
        cases h2
        cases h
        rw [← Outcome.ok.inj h1]
        exact .inr (by decide)
      · rw [splitWs_single n2 f2] at h2
        obtain ⟨d, hd, h2⟩ := bind_eq_ok.1 h2
        split at h2 <;> cases h2
    · rw [splitWs_single n1 f1] at h
      simp only [List.singleton_append, bind_eq_ok] at h
      obtain ⟨_, hd, l1, h1, l2, h2, h⟩ := h
      cases hd
      by_cases f2 : versionsText s.receive = []
      · rw [f2] at h2
        obtain ⟨d, hd, h2⟩ := bind_eq_ok.1 h2
        rw [drecv] at hd
        cases hd
        cases h2
      · rw [splitWs_single n2 f2] at h2
        obtain ⟨d, hd, h2⟩ := bind_eq_ok.1 h2
        rw [drecv] at hd
        cases hd
        rw [if_neg (by decide)] at h2
        cases h
        rw [showSimulcast_eq, if_neg (versions_ne h1), if_neg (versions_ne h2)]
        exact (((versions_shrink h1).prefix_ _).append (.refl _)).append (versions_shrink h2)

/-! ## msid-semantic -/

theorem msidSemantic_shrink {m n : MsidSemantic} (h : parseMsidSemantic (trim (showMsidSemantic m)) = .ok (.msidSemantic n))
    (hm : Token m.semantic) (hmm : m.msids = []) : showMsidSemantic n = showMsidSemantic m := by
  have e : splitWs (m.semantic ++ c%" " ++ c%"*") = m.semantic :: [c%"*"] := by
    rw [List.append_assoc]
    have : splitWs (m.semantic ++ ' ' :: c%"*") = m.semantic :: splitWs c%"*" := splitWs_space hm.2 hm.1
    rw [show m.semantic ++ (c%" " ++ c%"*") = m.semantic ++ ' ' :: c%"*" from rfl, this]
    rfl
  unfold parseMsidSemantic at h
  rw [splitWs_trim] at h
  unfold showMsidSemantic at h ⊢
  rw [hmm] at h ⊢
  simp only [e] at h
  cases h
  rfl

/-! ## fmtp -/

/-- What is read again from printed format parameters is well-formed, with the same text up to white space at the end. -/
theorem fmtp_mend {s : Str} {f : Fmtp} (h : parseFmtp s = .ok (.fmtp f)) (hne : showFmtp f ≠ []) :
    ∃ m : Fmtp, m.WF ∧ showFmtp m = trimEnd (showFmtp f) := by
  have same : ∀ g : Fmtp, g.WF → showFmtp g = showFmtp f → ∃ m : Fmtp, m.WF ∧ showFmtp m = trimEnd (showFmtp f) := by
    intro g hw hg
    refine ⟨g, hw, ?_⟩
    rw [← hg] at hne ⊢
    have ht := (attr_round (a := .fmtp g) hw).1
    have e : showAttribute (.fmtp g) = (AttributeType.fmtp.name ++ [':']) ++ showFmtp g := by
      show attrToString _ (showFmtp g) = _
      unfold attrToString
      rw [if_neg (by simpa using hne)]
    rw [e] at ht
    exact (trimEnd_ends (ht.2.suffix hne)).symm
  unfold parseFmtp at h
  simp only [] at h
  split_ifs at h with hl
  · cases h
  rcases splitn_two_cases ' ' s with ⟨hs, -⟩ | ⟨a, b, hs, e, ha⟩
  · simp [hs] at hl
  rw [hs] at h
  simp only [bind_eq_ok] at h
  obtain ⟨_, -, bs, hbs, p, hp, pt, -, h⟩ := h
  cases h
  obtain ⟨-, rfl⟩ := sliceFrom_eq_ok.1 hbs
  have hrange := fmtpBlocks_range FmtpInRange.default _ p hp
  simp only [List.drop_succ_cons, List.drop_zero, fmtpBlocks] at hp
  obtain ⟨q, hp, hq⟩ := bind_eq_ok.1 hp
  cases hq
  unfold fmtpBlock at hp
  split_ifs at hp with h1 h2 h3
  · -- a parameter list
    obtain ⟨hf, hu, henc, htones⟩ := paramList_facts hp
    have hacc := (paramList_accepts.1 ⟨_, hp⟩).1
    cases hr : p.rtx with
    | some r =>
      refine same ⟨pt, { FmtpParams.default with rtx := some r }⟩
        ⟨.rtx r rfl (fun g hg => by cases g <;> first | rfl | exact absurd rfl hg) rfl rfl rfl⟩ ?_
      unfold showFmtp showFmtpParams
      simp only [hr]
    | none =>
      have some : AllDefault p → p.unknownTokens ≠ [] := by
        intro h3 h4
        apply (showFmtp_eq hne).1
        have : p = FmtpParams.default :=
          FmtpParams.ext_get (fun g hg => by rw [h3 g hg, get_default]) hr h4 henc htones
        show showFmtpParams p = []
        rw [this]; decide +kernel
      by_cases hu0 : p.unknownTokens = []
      · exact same _ ⟨.params hrange hr henc htones (by simp [hu0]) (by simp [hu0]) some⟩ rfl
      have htok : ∀ t ∈ p.unknownTokens, '=' ∈ t ∧ ';' ∉ t ∧ paramName t ∉ fmtpNames := by
        intro t ht
        rw [hu] at ht
        obtain ⟨ht, hn⟩ := List.mem_filter.1 ht
        exact ⟨(hacc t ht).1, splitC_not_mem (List.mem_filter.1 ht).1, by simpa using hn⟩
      have hun : ∀ t ∈ p.unknownTokens, t ≠ [] := fun t ht => List.ne_nil_of_mem (htok t ht).1
      obtain ⟨u, us, hus⟩ := List.exists_cons_of_ne_nil hu0
      have hqe : '=' ∈ joinS c%"," p.unknownTokens := by
        rw [mem_joinS_sep (by decide)]
        exact ⟨u, by rw [hus]; simp, (htok u (by rw [hus]; simp)).1⟩
      have hqs : ';' ∉ joinS c%"," p.unknownTokens := by
        rw [mem_joinS_sep (by decide)]
        rintro ⟨t, ht, hm⟩
        exact (htok t ht).2.1 hm
      have hqn : paramName (joinS c%"," p.unknownTokens) = paramName u := by
        obtain ⟨n, v, e1, e2, -⟩ := trimEnd_name (htok u (by rw [hus]; simp)).1
        have : ∃ w, joinS c%"," p.unknownTokens = n ++ '=' :: w := by
          rw [hus, e1]
          cases us with
          | nil => exact ⟨v, rfl⟩
          | cons y ys => exact ⟨v ++ c%"," ++ joinS c%"," (y :: ys), by simp [joinS]⟩
        obtain ⟨w, hw⟩ := this
        unfold paramName
        rw [hw, e1, takeWhile_stop e2, takeWhile_stop e2]
      have hnb : ¬ Blank (joinS c%"," p.unknownTokens) := fun hb => absurd (hb '=' hqe) (by decide)
      have text : ∀ p' : FmtpParams, p'.rtx = none → p'.encodings = [] → p'.dtmfTones = [] →
          fmtpOrder.map (pieceOf p') = fmtpOrder.map (pieceOf p) → (∀ t ∈ p'.unknownTokens, t ≠ []) →
          p'.unknownTokens ≠ [] →
          showFmtpParams p' = joinS c%";" (nonEmpty (fmtpOrder.map (pieceOf p)) ++ [joinS c%"," p'.unknownTokens]) := by
        intro p' r1 r2 r3 r4 r5 r6
        have e : showFmtpParams p' = joinS c%";" (nonEmpty (fmtpPieces p')) := by
          simp [showFmtpParams, r1, r2, r3]
        rw [e, fmtpPieces_eq, nonEmpty_append, r4]
        refine congrArg (fun l => joinS c%";" (nonEmpty (fmtpOrder.map (pieceOf p)) ++ l)) ?_
        have hf : p'.unknownTokens.filter (fun s => !s.isEmpty) = p'.unknownTokens :=
          List.filter_eq_self.2 fun t ht => by simpa using r5 t ht
        have : maybeVec [] [] c%"," p'.unknownTokens = joinS c%"," p'.unknownTokens := by
          obtain ⟨y, ys, hy⟩ := List.exists_cons_of_ne_nil r6
          unfold maybeVec
          rw [hy] at hf ⊢
          simp [hf]
        have hj : joinS c%"," p'.unknownTokens ≠ [] := by
          intro hc
          rcases (joinS_eq_nil (by decide)).1 hc with hc | hc
          · exact r6 hc
          · exact r5 [] (by rw [hc]; simp) rfl
        rw [this]
        simp [nonEmpty, hj]
      obtain ⟨n, v, e1, e2, e3⟩ := trimEnd_name hqe
      refine ⟨⟨pt, { p with unknownTokens := [trimEnd (joinS c%"," p.unknownTokens)] }⟩,
        ⟨.params ⟨hrange.1, hrange.2, hrange.3, hrange.4, hrange.5, hrange.6⟩ hr henc htones (by simp) ?_ (by simp)⟩, ?_⟩
      · intro t ht
        simp only [List.mem_singleton] at ht
        subst ht
        refine ⟨by rw [e3]; simp, ?_, ?_, ?_⟩
        · obtain ⟨w, -, e⟩ := trimEnd_spec (joinS c%"," p.unknownTokens)
          intro hc; apply hqs; rw [e]; simp [hc]
        · have : paramName (trimEnd (joinS c%"," p.unknownTokens)) = paramName (joinS c%"," p.unknownTokens) := by
            unfold paramName
            conv_rhs => rw [e1]
            rw [e3, takeWhile_stop e2, takeWhile_stop e2]
          rw [this, hqn]
          exact (htok u (by rw [hus]; simp)).2.2
        · exact endsClean_of_trimEnd (trimEnd_trimEnd _) (by rw [e3]; simp)
      · have t1 := text p hr henc htones rfl hun hu0
        have t2 := text { p with unknownTokens := [trimEnd (joinS c%"," p.unknownTokens)] } hr henc htones rfl
          (by intro t ht; simp only [List.mem_singleton] at ht; rw [ht, e3]; simp) (by simp)
        have t3 : showFmtpParams { p with unknownTokens := [trimEnd (joinS c%"," p.unknownTokens)] } =
            trimEnd (showFmtpParams p) := by
          rw [t1, joinS_trimEnd hnb, t2]; rfl
        obtain ⟨g1, g2⟩ := showFmtp_eq hne
        have hb : ¬ Blank (showFmtpParams p) := by
          intro hb
          apply hnb
          intro c hc
          refine hb c ?_
          rw [t1]
          exact joinS_mem (t := joinS c%"," p.unknownTokens) (by simp) c hc
        have g3 : trimEnd (showFmtpParams p) ≠ [] := by
          intro hc
          obtain ⟨w, hw, e⟩ := trimEnd_spec (showFmtpParams p)
          rw [hc, List.nil_append] at e
          exact hb (e ▸ hw)
        rw [g2]
        have := trimEnd_append (s := showU8 pt ++ [' ']) hb
        rw [show showU8 pt ++ ' ' :: showFmtpParams p = showU8 pt ++ [' '] ++ showFmtpParams p by simp, this, ← t3]
        rw [← t3] at g3
        unfold showFmtp
        simp only []
        rw [if_neg (by simpa using g3)]
  · -- a redundancy list
    obtain ⟨ns, g1, rfl⟩ := fmtpRed_ok.1 hp
    have hlen := g1.length_eq
    have h2' := splitC_two_le h2
    exact same _ ⟨.red (by simpa [FmtpParams.default] using hlen ▸ h2') hrange.encodings (fun f _ => by cases f <;> rfl) rfl rfl rfl⟩ rfl
  · cases hp
    exact same _ ⟨.tones (toneList_iff.1 h3) (fun f _ => by cases f <;> rfl) rfl rfl rfl⟩ rfl
  · cases hp
    refine same _ ⟨.tones ?_ (fun f _ => by cases f <;> rfl) rfl rfl rfl⟩ rfl
    show ToneList c%"0-15"
    exact toneList_iff.1 (by decide +kernel)

/-! ## All attributes -/

theorem attr_value {l : Str} {a : Attribute} (h : attrFromStr l = .ok a) :
    ∃ v, trim v = v ∧ parseAttrValue a.type v = .ok a := by
  have key {t : AttributeType} {v : Str} (hv : trim v = v) (h : parseAttrValue t v = .ok a) :
      ∃ v, trim v = v ∧ parseAttrValue a.type v = .ok a := by
    have := (parseAttrValue_range t v a h).1
    exact ⟨v, hv, by rw [this]; exact h⟩
  rcases colon_cases l with hc | ⟨n, v, rfl, hn⟩
  · rw [attrFromStr_plain hc] at h
    split at h
    · exact key (by rfl) h
    · cases h
  · rw [attrFromStr_colon hn] at h
    split at h
    · cases h
    · split at h
      · exact key (trim_trim v) h
      · cases h

theorem attrToString_shrink {t : AttributeType} {v w : Str} (h : Shrinks v w) :
    Shrinks (attrToString t v) (attrToString t w) := by
  unfold attrToString
  by_cases hw : w = []
  · subst hw
    by_cases hv : v = []
    · subst hv; exact .refl _
    · rw [if_neg (by simpa using hv)]
      exact .inr (by simp)
  · have hv : v ≠ [] := by
      intro hc; subst hc
      apply hw; exact List.length_eq_zero_iff.1 (by simpa using h.le)
    rw [if_neg (by simpa using hv), if_neg (by simpa using hw)]
    exact h.prefix_ _

/-- A printed attribute that is read again has the same text or a shorter one. -/
theorem attr_shrink (L : Laws) {l : Str} {a b : Attribute} (ha : attrFromStr l = .ok a)
    (hb : attrFromStr (showAttribute a) = .ok b) : Shrinks (showAttribute a) (showAttribute b) := by
  by_cases hp : a.Plain
  · have := (attr_round (attr_wf L ha hp)).2
    rw [hb] at this
    rw [Outcome.ok.inj this]
    exact .refl _
  obtain ⟨v, hv, ha⟩ := attr_value ha
  cases a with
  | fmtp f =>
    obtain ⟨hne, h⟩ := value_back (t := .fmtp) rfl hb
    have ha : parseFmtp v = .ok (.fmtp f) := ha
    obtain ⟨m, hw, hm⟩ := fmtp_mend ha hne
    have h2 := (value_back (t := .fmtp) rfl (attr_round (a := .fmtp m) hw).2).2
    have e : trim (trimEnd (showFmtp f)) = trim (showFmtp f) := trim_trimEnd _
    have h2 : parseAttrValue .fmtp (trim (showFmtp m)) = .ok (.fmtp m) := h2
    rw [hm, e, h] at h2
    rw [Outcome.ok.inj h2]
    refine attrToString_shrink ?_
    rw [hm]
    exact .trimEnd _
  | imageAttr i =>
    obtain ⟨j, hj, hw⟩ := imageAttr_mend L _ _ ha
    cases hj
    have e : showAttribute (.imageAttr i.mend) = showAttribute (.imageAttr i) := by
      show attrToString _ (showImageAttr _) = attrToString _ (showImageAttr _)
      unfold showImageAttr ImageAttr.mend
      rw [showMaybeSets_mend, showMaybeSets_mend]
    have hm := (attr_round (a := .imageAttr i.mend) hw).2
    rw [e, hb] at hm
    rw [Outcome.ok.inj hm, e]
    exact .refl _
  | msidSemantic m =>
    obtain ⟨-, h⟩ := value_back (t := .msidSemantic) rfl hb
    have ht := (parseAttrValue_range _ _ b h).1
    cases b with
    | msidSemantic n =>
      have hm : m.msids = [] := by
        by_contra hc; exact hp hc
      have hs : Token m.semantic := by
        have ha : parseMsidSemantic v = .ok (.msidSemantic m) := ha
        unfold parseMsidSemantic at ha
        simp only [] at ha
        split_ifs at ha
        · cases ha
        simp only [bind_eq_ok] at ha
        obtain ⟨x, hx, y, hy, ha⟩ := ha
        cases ha
        exact tok (List.mem_of_getElem? (idx_eq_ok.1 hx))
      refine attrToString_shrink ?_
      rw [msidSemantic_shrink h hs hm]
      exact .refl _
    | _ => cases ht
  | rid r =>
    obtain ⟨-, h⟩ := value_back (t := .rid) rfl hb
    have ht := (parseAttrValue_range _ _ b h).1
    cases b with
    | rid s =>
      refine attrToString_shrink (rid_shrink ?_ h)
      rw [← hv] at ha
      exact rid_read ha
    | _ => cases ht
  | simulcast s =>
    obtain ⟨-, h⟩ := value_back (t := .simulcast) rfl hb
    have ht := (parseAttrValue_range _ _ b h).1
    cases b with
    | simulcast t => exact attrToString_shrink (simulcast_shrink (simulcast_noWs ha) h)
    | _ => cases ht
  | _ => exact absurd trivial hp

end

end Sdp
