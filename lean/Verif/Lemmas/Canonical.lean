import Verif.Lemmas.Numeral
import Verif.Lemmas.Ip
import Verif.Lemmas.IpGrammar
import Verif.Lemmas.PrintSession
/-!
# What is printed is the canonical text
-/

namespace Sdp

/-- The field has exactly one text. -/
def Only (P : Field) (s : Str) : Prop := ∀ t, P t ↔ t = s

theorem Only.word (w : Str) : Only (word w) w := fun _ => Iff.rfl

theorem Only.number (n : Nat) : Only (Sdp.number n) (showNat n) := fun _ => numberField_iff

theorem Only.of_eq {P : Field} {s s' : Str} (h : Only P s) (e : s = s') : Only P s' := e ▸ h

theorem Only.eq {P : Field} {s t : Str} (h : Only P s) (h' : P t) : t = s := (h t).1 h'

theorem Only.self {P : Field} {s : Str} (h : Only P s) : P s := (h s).2 rfl

theorem joinS_eq_intercalate (sep : Str) (l : List Str) : sep.intercalate l = joinS sep l := by
  induction l with
  | nil => rfl
  | cons x r ih =>
    cases r with
    | nil => simp [joinS]
    | cons y r => rw [List.intercalate_cons_cons, ih]; simp [joinS]

/-- Fields with their texts. -/
inductive OnlyAll : List Field → List Str → Prop
  | nil : OnlyAll [] []
  | cons {P : Field} {s : Str} {Ps : List Field} {ss : List Str} : Only P s → OnlyAll Ps ss → OnlyAll (P :: Ps) (s :: ss)

theorem OnlyAll.append {Ps Qs : List Field} {ss ts : List Str} (h : OnlyAll Ps ss) (h' : OnlyAll Qs ts) :
    OnlyAll (Ps ++ Qs) (ss ++ ts) := by
  induction h with
  | nil => exact h'
  | cons h1 _ ih => exact .cons h1 ih

theorem OnlyAll.map {α : Type} {f : α → Field} {g : α → Str} (h : ∀ a, Only (f a) (g a)) (l : List α) :
    OnlyAll (l.map f) (l.map g) := by
  induction l with
  | nil => exact .nil
  | cons a l ih => exact .cons (h a) ih

theorem OnlyAll.flatMap {α : Type} {f : α → List Field} {g : α → List Str} (h : ∀ a, OnlyAll (f a) (g a)) (l : List α) :
    OnlyAll (l.flatMap f) (l.flatMap g) := by
  induction l with
  | nil => exact .nil
  | cons a l ih => exact (h a).append ih

theorem OnlyAll.optional {α : Type} {o : Option α} {f : α → List Field} {g : α → List Str} (h : ∀ a, OnlyAll (f a) (g a)) :
    OnlyAll (optional o f) (match o with | none => [] | some a => g a) := by
  cases o with
  | none => exact .nil
  | some a => exact h a

theorem OnlyAll.each {Ps : List Field} {ss : List Str} (h : OnlyAll Ps ss) (ts : List Str) :
    Each (fun x P => P x) ts Ps ↔ ts = ss := by
  induction h generalizing ts with
  | nil => cases ts <;> simp [Each]
  | cons h1 _ ih =>
    cases ts with
    | nil => simp [Each]
    | cons t ts => simp [Each, ih, h1 t]

theorem OnlyAll.separated {sep : Str} {Ps : List Field} {ss : List Str} (h : OnlyAll Ps ss) :
    Only (Separated sep Ps) (joinS sep ss) := by
  intro t
  simp [Separated, h.each, joinS_eq_intercalate]

theorem OnlyAll.spaced {Ps : List Field} {ss : List Str} (h : OnlyAll Ps ss) : Only (Spaced Ps) (joinS c%" " ss) :=
  h.separated

theorem joinS_nil (l : List Str) : joinS [] l = l.flatten := by
  induction l with
  | nil => rfl
  | cons x r ih =>
    cases r with
    | nil => simp [joinS]
    | cons y r => rw [joinS, ih]; simp

theorem OnlyAll.sequence {Ps : List Field} {ss : List Str} (h : OnlyAll Ps ss) : Only (Sequence Ps) ss.flatten :=
  h.separated.of_eq (joinS_nil ss)

theorem filter_decide_ne (l : List Str) : l.filter (fun x => decide (x ≠ [])) = nonEmpty l := by
  unfold nonEmpty
  congr 1
  funext x
  cases x <;> simp

theorem OnlyAll.separatedNonEmpty {sep : Str} {Ps : List Field} {ss : List Str} (h : OnlyAll Ps ss) :
    Only (SeparatedNonEmpty sep Ps) (joinS sep (nonEmpty ss)) := by
  intro t
  simp only [SeparatedNonEmpty, h.each, joinS_eq_intercalate, filter_decide_ne]
  simp

theorem OnlyAll.listed {pre sep : Str} {Ps : List Field} {ss : List Str} (h : OnlyAll Ps ss) :
    OnlyAll (listed pre sep Ps) (if ss = [] then [] else [maybeVec pre [] sep ss]) := by
  unfold Sdp.listed
  cases h with
  | nil => simp; exact .nil
  | cons h1 h2 =>
    simp only [List.cons_ne_nil, if_false]
    refine .cons ?_ .nil
    intro t
    have := (OnlyAll.cons h1 h2).each
    simp only [this, joinS_eq_intercalate, filter_decide_ne]
    simp [maybeVec, nonEmpty]

/-! ## Addresses -/

theorem Only.v4 (a : UInt32) : Only (v4Field a) (showV4 a) := by
  refine OnlyAll.separated (.cons (.number _) (.cons (.number _) (.cons (.number _) (.cons (.number _) .nil))))

theorem Only.groups (gs : List Nat) : Only (groupsField gs) (showSegs gs) :=
  OnlyAll.separated (OnlyAll.map (g := Nat.toDigits 16) (fun _ _ => hexNumber_one_iff) gs)

/-- What the scan for zeros knows about all runs it has seen. -/
structure ZBest (segs : List Nat) (i : Nat) (z : ZeroScan) : Prop where
  /-- the current run cannot be extended to the left -/
  left : ∀ s n, s + n = i → (∀ k, s ≤ k → k < s + n → segs[k]? = some 0) → n ≤ z.curLen
  /-- no run is longer than the best one, and none of its length begins earlier -/
  best : ∀ s n, s + n ≤ i → (∀ k, s ≤ k → k < s + n → segs[k]? = some 0) → n ≤ z.bestLen
  first : ∀ s, s + z.bestLen ≤ i → (∀ k, s ≤ k → k < s + z.bestLen → segs[k]? = some 0) → z.bestStart ≤ s

theorem ZBest.step {segs : List Nat} {i g : Nat} {z : ZeroScan} (hz : ZInv segs i z) (h : ZBest segs i z)
    (hg : segs[i]? = some g) : ZBest segs (i + 1) (z.step i g) := by
  obtain ⟨h1, h2, h3⟩ := h
  unfold ZeroScan.step
  by_cases g0 : g = 0
  · subst g0
    simp only [if_true]
    have hs : (if z.curLen = 0 then i else z.curStart) + z.curLen = i := by
      split
      · omega
      · exact hz.cur ‹_›
    have hleft : ∀ s n, s + n = i + 1 → (∀ k, s ≤ k → k < s + n → segs[k]? = some 0) → n ≤ z.curLen + 1 := by
      intro s n hsn hk
      rcases Nat.eq_zero_or_pos n with rfl | hn
      · omega
      · have := h1 s (n - 1) (by omega) (fun k hk1 hk2 => hk k hk1 (by omega))
        omega
    have hbest : ∀ s n, s + n ≤ i + 1 → (∀ k, s ≤ k → k < s + n → segs[k]? = some 0) → n ≤ max z.bestLen (z.curLen + 1) := by
      intro s n hsn hk
      by_cases he : s + n = i + 1
      · have := hleft s n he hk; omega
      · have := h2 s n (by omega) hk; omega
    split
    · rename_i hlt
      refine ⟨hleft, fun s n hsn hk => ?_, fun s hsn hk => ?_⟩
      · have := hbest s n hsn hk; dsimp only; omega
      · dsimp only at hsn hk ⊢
        by_cases he : s + (z.curLen + 1) = i + 1
        · omega
        · have := h2 s (z.curLen + 1) (by omega) hk; omega
    · rename_i hlt
      refine ⟨hleft, fun s n hsn hk => ?_, fun s hsn hk => ?_⟩
      · have := hbest s n hsn hk; dsimp only; omega
      · dsimp only at hsn hk ⊢
        by_cases he : s + z.bestLen = i + 1
        · have hcur := hleft s _ he hk
          have hb := hz.best
          omega
        · exact h3 s (by omega) hk
  · simp only [g0, if_false]
    have hend : ∀ s n, s + n = i + 1 → (∀ k, s ≤ k → k < s + n → segs[k]? = some 0) → n = 0 := by
      intro s n hsn hk
      rcases Nat.eq_zero_or_pos n with h | hn
      · exact h
      · have := hk i (by omega) (by omega)
        rw [hg] at this
        exact absurd (Option.some.inj this) g0
    refine ⟨fun s n hsn hk => by have := hend s n hsn hk; omega, fun s n hsn hk => ?_, fun s hsn hk => ?_⟩
    · by_cases he : s + n = i + 1
      · rw [hend s n he hk]; exact Nat.zero_le _
      · exact h2 s n (by omega) hk
    · dsimp only at hsn hk ⊢
      by_cases he : s + z.bestLen = i + 1
      · have := hend s _ he hk
        have hb := hz.best
        omega
      · exact h3 s (by omega) hk

theorem ZBest.scan {segs l : List Nat} {i : Nat} {z : ZeroScan} (hz : ZInv segs i z) (h : ZBest segs i z)
    (hl : segs.drop i = l) (hi : i ≤ segs.length) : ZBest segs segs.length (zeroScan i l z) := by
  induction l generalizing i z with
  | nil =>
    have : segs.length ≤ i := List.drop_eq_nil_iff.1 hl
    have : i = segs.length := by omega
    subst this; exact h
  | cons g gs ih =>
    have hi : i < segs.length := by
      by_contra hc
      rw [List.drop_eq_nil_of_le (by omega)] at hl; cases hl
    have hg : segs[i]? = some g := by
      rw [← List.head?_drop, hl]; rfl
    have hd : segs.drop (i + 1) = gs := by
      rw [← List.drop_drop, hl]; rfl
    exact ih (hz.step hg) (h.step hz hg) hd hi

theorem run_getElem {gs l r : List Nat} {n : Nat} (h : gs = l ++ List.replicate n 0 ++ r) :
    l.length + n ≤ gs.length ∧ ∀ k, l.length ≤ k → k < l.length + n → gs[k]? = some 0 := by
  subst h
  refine ⟨by simp, fun k h1 h2 => ?_⟩
  rw [List.append_assoc, List.getElem?_append_right h1,
    List.getElem?_append_left (by rw [List.length_replicate]; omega), List.getElem?_replicate, if_pos (by omega)]

theorem longestZeros (segs : List Nat) :
    let z := zeroScan 0 segs ⟨0, 0, 0, 0⟩
    LongestZeros segs (segs.take z.bestStart) z.bestLen (segs.drop (z.bestStart + z.bestLen)) := by
  intro z
  have h0 : ZInv segs 0 ⟨0, 0, 0, 0⟩ := ⟨by simp, by intro k _ h; simp at h, by simp, by intro k _ h; simp at h⟩
  have b0 : ZBest segs 0 ⟨0, 0, 0, 0⟩ :=
    ⟨fun s n h _ => by dsimp only; omega, fun s n h _ => by dsimp only; omega, fun s _ _ => Nat.zero_le _⟩
  have hb : ZBest segs segs.length z := b0.scan h0 (by simp) (by simp)
  obtain ⟨hle, hsplit⟩ := zeroRun segs
  refine ⟨hsplit, fun l' m r' h => ?_, fun l' r' h => ?_⟩
  · obtain ⟨h1, h2⟩ := run_getElem h
    exact hb.best _ _ h1 h2
  · obtain ⟨h1, h2⟩ := run_getElem h
    have h3 := hb.first _ h1 h2
    have : (segs.take z.bestStart).length ≤ z.bestStart := by rw [List.length_take]; omega
    omega

theorem LongestZeros.unique {gs l l' r r' : List Nat} {n n' : Nat} (h : LongestZeros gs l n r) (h' : LongestZeros gs l' n' r') :
    l = l' ∧ n = n' ∧ r = r' := by
  have hn : n = n' := Nat.le_antisymm (h'.longest _ _ _ h.split) (h.longest _ _ _ h'.split)
  subst hn
  have hl : l.length = l'.length := Nat.le_antisymm (h.first _ _ h'.split) (h'.first _ _ h.split)
  have e := h.split.symm.trans h'.split
  rw [List.append_assoc, List.append_assoc] at e
  obtain ⟨e1, e2⟩ := List.append_inj e hl
  exact ⟨e1, rfl, (List.append_inj e2 rfl).2⟩

theorem groupsValue_snoc (gs : List Nat) (g : Nat) : groupsValue (gs ++ [g]) = groupsValue gs * 65536 + g := by
  simp [groupsValue]

theorem groupsValue_inj {gs hs : List Nat} (hg : ∀ g ∈ gs, g < 65536) (hh : ∀ g ∈ hs, g < 65536)
    (hl : gs.length = hs.length) (h : groupsValue gs = groupsValue hs) : gs = hs := by
  induction gs using snoc_induction generalizing hs with
  | nil => simpa using hl.symm
  | append_singleton gs g ih =>
    rcases List.eq_nil_or_concat hs with rfl | ⟨hs', k, rfl⟩
    · simp at hl
    · rw [List.concat_eq_append] at *
      rw [groupsValue_snoc, groupsValue_snoc] at h
      have h1 := hg g (by simp)
      have h2 := hh k (by simp)
      have e2 : g = k := by omega
      rw [ih (hs := hs') (fun x hx => hg x (by simp [hx])) (fun x hx => hh x (by simp [hx])) (by simpa using hl) (by omega), e2]

theorem groupsValue_segments (a : BitVec 128) : a.toNat = groupsValue (segments a) := by
  have h := ofSegments_segments a
  have h1 := ofSegments_toNat (gs := segments a) (segments_length a) (segments_lt a)
  rw [h] at h1; exact h1

theorem Only.v6 (a : BitVec 128) : Only (v6Field a) (showV6 a) := by
  intro t
  unfold v6Field showV6
  split
  · have := (OnlyAll.cons (Only.word c%"::ffff:") (.cons (Only.v4 (UInt32.ofNat (a.toNat % 2^32))) .nil)).sequence t
    simpa using this
  · have hz := longestZeros (segments a)
    have hlt := segments_lt a
    have hlen := segments_length a
    have hval := groupsValue_segments a
    constructor
    · rintro ⟨gs, l, n, r, h1, h2, h3, h4, h5⟩
      have e : gs = segments a := groupsValue_inj h2 hlt (h1.trans hlen.symm) (h3.symm.trans hval)
      subst e
      obtain ⟨rfl, rfl, rfl⟩ := h4.unique hz
      dsimp only
      by_cases hn : 2 ≤ (zeroScan 0 (segments a) ⟨0, 0, 0, 0⟩).bestLen
      · rw [if_pos hn] at h5
        rw [if_pos (by omega)]
        have := (OnlyAll.cons (Only.groups _) (.cons (Only.word c%"::") (.cons (Only.groups _) .nil))).sequence.eq h5
        simpa using this
      · rw [if_neg hn] at h5
        rw [if_neg (by omega)]
        exact (Only.groups _).eq h5
    · intro h
      refine ⟨segments a, _, _, _, hlen, hlt, hval, hz, ?_⟩
      dsimp only at h
      by_cases hn : 2 ≤ (zeroScan 0 (segments a) ⟨0, 0, 0, 0⟩).bestLen
      · rw [if_pos (by omega)] at h
        rw [if_pos hn, h]
        exact ((OnlyAll.cons (Only.groups _) (.cons (Only.word c%"::") (.cons (Only.groups _) .nil))).sequence _).2 (by simp)
      · rw [if_neg (by omega)] at h
        rw [if_neg hn, h]
        exact (Only.groups _).self

theorem Only.ip (a : IpAddr) : Only (ipField a) (showIp a) := by
  cases a with
  | v4 a => exact .v4 a
  | v6 a => exact .v6 a

theorem Only.address (a : Address) : Only (addressField a) (showAddress a) := by
  cases a with
  | fqdn d => exact .word d
  | ip a => exact .ip a

theorem addrTypeText_show (t : AddressType) : addrTypeText t = showAddressType t := by cases t <;> rfl

theorem ipFamily_type (a : IpAddr) : ipFamily a = ipAddressType a := by cases a <;> rfl

theorem Only.typed (a : TypedAddress) : Only (typedField a) (showTyped a) := by
  cases a with
  | fqdn t d =>
    refine (OnlyAll.cons (.word _) (.cons (.word _) (.cons (.word _) .nil))).spaced.of_eq ?_
    simp [joinS, showTyped, TypedAddress.addressType, addrTypeText_show]
  | ip a =>
    refine (OnlyAll.cons (.word _) (.cons (.word _) (.cons (.ip _) .nil))).spaced.of_eq ?_
    simp [joinS, showTyped, TypedAddress.addressType, addrTypeText_show, ipFamily_type]

end Sdp
