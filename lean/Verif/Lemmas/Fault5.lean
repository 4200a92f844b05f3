import Verif.Lemmas.Fault4
/-!
# Which error an image attribute gives
-/

namespace Sdp

theorem starts_iff {c : Char} {t : Str} : startsWithC c t = true ↔ t.head? = some c := by
  cases t <;> simp [startsWithC]

theorem ends_iff {c : Char} {t : Str} : endsWithC c t = true ↔ t.getLast? = some c := by
  simp [endsWithC]

/-- Looking for the brackets. -/
theorem judges_braced (t m : Str) (h : t.head? = some '[') :
    (Outcome.okOr (bracedToken t) (.generic m) : IRes Str) =
      if t.getLast? ≠ some ']' then egeneric m else .ok (inner t) := by
  unfold bracedToken
  rw [if_neg (by simp [starts_iff, h])]
  by_cases he : t.getLast? = some ']'
  · rw [if_neg (by simp [ends_iff, he]), if_neg (by simp [he])]; rfl
  · rw [if_pos (by simpa [endsWithC] using he), if_pos he]; rfl

theorem Judges.braced {α : Type} {t m : Str} {f : Str → IRes α} {cs : List Fault} (h : t.head? = some '[')
    (hf : t.getLast? = some ']' → Judges (f (inner t)) cs) :
    Judges (Outcome.okOr (bracedToken t) (.generic m) >>= f) (wrongIf (t.getLast? ≠ some ']') m :: cs) := by
  rw [judges_braced t m h]
  by_cases he : t.getLast? = some ']'
  · rw [if_neg (by simp [he])]; exact .skip (fun e hh => hh.1 he) (hf he)
  · rw [if_pos he]; exact .stop fun e => by simp [wrongIf, he]

theorem judges_xyRange (t : Str) : Judges (parseXyRange t) [xyRangeFault t] := by
  have key : Judges (parseXyRange t) (xyRangeFaults t (splitC ':' (inner t)) (splitC ',' (inner t))) := by
    unfold parseXyRange xyRangeFaults
    by_cases h : t.head? = some '['
    swap
    · rw [if_neg (by simpa [starts_iff] using h), if_pos h]
      exact .andThen (judges_u32 t)
    rw [if_pos (starts_iff.2 h), if_neg (by simp [h])]
    refine .braced h fun _ => ?_
    split
    · dsimp only
      generalize splitC ':' (inner t) = cs
      match cs with
      | [] => exact .stop fun e => by simp [wrongIf]
      | [_] => exact .stop fun e => by simp [wrongIf]
      | [a, b] => 
        simp only [idx, List.getElem?_cons_zero, List.getElem?_cons_succ, ok_bind]
        exact .bind1 (judges_u32 a) fun _ _ => .andThen (judges_u32 b)
      | [a, b, c] => 
        simp only [idx, List.getElem?_cons_zero, List.getElem?_cons_succ, ok_bind]
        exact .bind1 (judges_u32 a) fun _ _ => .bind1 (judges_u32 c) fun _ _ => .andThen (judges_u32 b)
      | _ :: _ :: _ :: _ :: _ =>
        dsimp only
        rw [if_neg (by simp), if_neg (by simp)]
        exact .stop fun e => by simp [wrongIf]
    · refine .bind (.collect1 fun t _ => judges_u32 t) fun l hl => .check ?_ fun _ => .ok _
      rw [collect_eq_ok_length hl]
  exact key.whole fun e => by simp [xyRangeFault, fields_iff]

section
variable [Env]

theorem judges_psRange (t : Str) : Judges (parsePsRange t) (ratioRangeFaults (splitC '-' t)) := by
  unfold parsePsRange ratioRangeFaults
  generalize splitC '-' t = fs
  refine .check Iff.rfl fun h => ?_
  have h : fs.length = 2 := by simpa using h
  rw [idx_item (by omega), idx_item (by omega)]
  simp only [ok_bind]
  refine .bind1 (judges_f32 _) fun x hx => .bind1 (judges_f32 _) fun y hy => .check ?_ fun _ => .ok _
  rw [f32_iff] at hx hy
  rw [F32.ge_iff]
  constructor
  · rintro ⟨x', y', hx', hy', h⟩
    rw [← f32_iff] at hx hx' hy hy'
    rw [hx] at hx'; rw [hy] at hy'
    cases hx'; cases hy'; exact h
  · exact fun h => ⟨x, y, hx, hy, h⟩

theorem judges_ascending (x : F32) (vs : List F32) : Judges (sarAscending x vs)
    [wrongIf (∃ a y z b, x :: vs = a ++ y :: z :: b ∧ y.AtLeast z)
      c%"imageattr's sar discrete value list must contain ascending values"] := by
  have hs : OneError (sarAscending x vs) (.generic c%"imageattr's sar discrete value list must contain ascending values") := by
    induction vs generalizing x with
    | nil => exact .inr ⟨(), rfl⟩
    | cons v vs ih =>
      unfold sarAscending
      split
      · exact .inl rfl
      · exact ih v
  rcases hs with h | ⟨⟨⟩, h⟩
  · rw [h]
    refine .stop fun e => ?_
    have : ∃ a y z b, x :: vs = a ++ y :: z :: b ∧ y.AtLeast z := by
      by_contra hn
      have : sarAscending x vs = .ok () := sarAscending_iff.2 fun a y z b he ha => hn ⟨a, y, z, b, he, ha⟩
      rw [h] at this; cases this
    simp only [wrongIf, this, true_and]
  · rw [h]
    refine .skip (fun e he => ?_) (.ok _)
    obtain ⟨⟨a, y, z, b, he, ha⟩, -⟩ := he
    exact sarAscending_iff.1 h a y z b he ha

theorem inner_eq {t : Str} (h : t.head? = some '[') (h' : t.getLast? = some ']') : t = '[' :: inner t ++ [']'] := by
  have : bracedToken t = some (inner t) := by
    unfold bracedToken
    rw [if_neg (by simp [starts_iff, h]), if_neg (by simp [ends_iff, h'])]; rfl
  exact braced_iff.1 this

theorem judges_sar (k : ImgKeys) (t v : Str) (ht : stripPrefix c%"sar=" t = some v) :
    Judges (imageKey k t) (sarFaults v (splitC '-' (inner v)) (splitC ',' (inner v))) := by
  unfold imageKey sarFaults
  rw [ht]
  dsimp only
  by_cases h : v.head? = some '['
  swap
  · rw [if_neg (by simpa [starts_iff] using h), if_pos h]
    exact .andThen (judges_f32 v)
  rw [if_pos (starts_iff.2 h), if_neg (by simp [h])]
  refine .braced h fun h' => ?_
  split
  · exact .andThen (judges_psRange _)
  split
  · rename_i hc
    have hc : ',' ∈ inner v := by
      rw [inner_eq h h'] at hc
      simpa using hc
    refine .bind (.collect1 fun t _ => judges_f32 t) fun l hl => ?_
    have hlen := collect_eq_ok_length hl
    have h2 := splitC_two_le hc
    rw [if_neg (by omega)]
    refine .andThen ((judges_ascending _ l).congr fun e => ?_)
    have hu : ∀ xs, Each F32Text (splitC ',' (inner v)) xs ↔ xs = l := fun xs => by
      rw [← collect_each fun _ _ _ => f32_iff, hl]
      simp [eq_comm]
    simp [wrongIf, hu]
  · exact .ok _

theorem judges_par (k : ImgKeys) (t v : Str) (ht0 : stripPrefix c%"sar=" t = none) (ht : stripPrefix c%"par=" t = some v) :
    Judges (imageKey k t) (parFaults v (splitC '-' (inner v))) := by
  unfold imageKey parFaults
  rw [ht0, ht]
  dsimp only
  refine .check (by simp [startsWithC]) fun h => ?_
  exact .braced (by simpa [starts_iff] using h) fun _ => .andThen (judges_psRange _)

theorem judges_key (k : ImgKeys) (t : Str) : Judges (imageKey k t) [imageKeyFault t] := by
  have no (u : Str) (v : Str) (hu : u.isPrefixOf t) (hv : v.isPrefixOf t) : u.head? = v.head? ∨ u = [] ∨ v = [] := by
    cases u <;> cases v <;> cases t <;> simp_all [List.isPrefixOf]
  by_cases hs : c%"sar=".isPrefixOf t
  · have e := (strip_prefix c%"sar=" t).symm
    rw [if_pos hs] at e
    refine (judges_sar k t _ e).whole fun e => ?_
    have h1 : ¬ c%"par=".isPrefixOf t := fun h => by have := no _ _ hs h; revert this; decide
    have h2 : ¬ c%"q=".isPrefixOf t := fun h => by have := no _ _ hs h; revert this; decide
    simp only [imageKeyFault, hs, h1, h2, true_and, false_and, or_false, fields_iff, Bool.false_eq_true]
    exact ⟨fun ⟨_, _, h1, h2, h⟩ => by subst h1 h2; exact h, fun h => ⟨_, _, rfl, rfl, h⟩⟩
  by_cases hp : c%"par=".isPrefixOf t
  · have e0 := (strip_prefix c%"sar=" t).symm
    have e := (strip_prefix c%"par=" t).symm
    rw [if_pos hp] at e
    rw [if_neg hs] at e0
    refine (judges_par k t _ e0 e).whole fun e => ?_
    have h2 : ¬ c%"q=".isPrefixOf t := fun h => by have := no _ _ hp h; revert this; decide
    simp only [imageKeyFault, hs, hp, h2, true_and, false_and, or_false, false_or, fields_iff, Bool.false_eq_true]
    exact ⟨fun ⟨_, h1, h⟩ => by subst h1; exact h, fun h => ⟨_, rfl, h⟩⟩
  have e0 := (strip_prefix c%"sar=" t).symm
  have e1 := (strip_prefix c%"par=" t).symm
  have e2 := (strip_prefix c%"q=" t).symm
  rw [if_neg hs] at e0
  rw [if_neg hp] at e1
  unfold imageKey
  rw [e0, e1, e2]
  dsimp only
  by_cases hq : c%"q=".isPrefixOf t
  · rw [if_pos hq]
    refine .andThen ((judges_f32 _).congr fun e => ?_)
    simp only [imageKeyFault, hs, hp, hq, true_and, false_and, or_false, false_or, Bool.false_eq_true]
    rfl
  · rw [if_neg hq]
    refine .skip (fun e he => ?_) (.ok _)
    simp only [imageKeyFault, hs, hp, hq, false_and, or_false, Bool.false_eq_true] at he

theorem judges_keys (k : ImgKeys) (ts : List Str) : Judges (imageKeys k ts) (ts.map imageKeyFault) := by
  induction ts generalizing k with
  | nil => exact .ok _
  | cons t ts ih => exact .bind1 (judges_key k t) fun k' _ => ih k'

omit [Env] in
theorem imageTokensLoop_ne_err (sep : Char) (n : Int) (cur l : List Str) (e : InternalError) :
    imageTokensLoop sep n cur l ≠ .err e := by
  induction l generalizing n cur with
  | nil => simp [imageTokensLoop]
  | cons t ts ih =>
    simp only [imageTokensLoop]
    generalize (if '[' ∈ t then n + 1 else n) = n1
    generalize (if ']' ∈ t then n1 - 1 else n1) = n2
    by_cases h1 : n1 ≥ 2^31
    · rw [if_pos h1]; exact fun h => by cases h
    rw [if_neg h1]
    by_cases h2 : n2 < -2^31
    · rw [if_pos h2]; exact fun h => by cases h
    rw [if_neg h2]
    by_cases h3 : n2 = 0
    · rw [if_pos h3]
      intro h
      have := ih n2 []
      cases hx : imageTokensLoop sep n2 [] ts <;> rw [hx] at h this
      · cases h
      · exact this (by rw [err_bind] at h; exact h)
      · cases h
    · rw [if_neg h3]; exact ih _ _

omit [Env] in
theorem imageTokens_ne_err (s : Str) (sep : Char) (e : InternalError) : imageTokens s sep ≠ .err e :=
  imageTokensLoop_ne_err _ _ _ _ _

/-- The tokens of a text. -/
theorem tokens_exist {sep : Char} {s : Str} (h : s.length + 1 < 2^31) :
    ∃ ts, imageTokens s sep = .ok ts ∧ ∀ ts', TokensText sep s ts' ↔ ts' = ts := by
  have hp := np_imageTokens h sep
  cases he : imageTokens s sep with
  | ok ts =>
    refine ⟨ts, rfl, fun ts' => ?_⟩
    rw [← tokens_iff h, he]
    simp [eq_comm]
  | err e => exact absurd he (imageTokens_ne_err _ _ _)
  | panic => rw [he] at hp; exact absurd rfl hp

theorem starts_two {c : Char} {t : Str} (h : startsWith [c, '='] t = true) :
    (sliceFrom t 2 : IRes Str) = .ok (t.drop 2) := by
  rw [startsWith, ← strip_prefix] at h
  have hp : [c, '='] <+: t := by
    by_contra hn
    rw [← List.isPrefixOf_iff_prefix] at hn
    rw [if_neg hn] at h; cases h
  have := hp.length_le
  unfold sliceFrom
  rw [if_pos (by simpa using this)]

omit [Env] in
theorem not_starts (u t : Str) : (¬ u.isPrefixOf t) ↔ ((!startsWith u t) = true) := by
  rw [startsWith, ← strip_prefix]
  by_cases h : u.isPrefixOf t
  · rw [if_pos h]; simp [h]
  · rw [if_neg h]; simp [h]

theorem judges_imageSet (t : Str) (h : t.length < 2^31) : Judges (parseBracedSet t) [imageSetFault t] := by
  have hlen : (inner t).length + 1 < 2^31 := by
    simp only [inner, List.length_dropLast, List.length_drop]
    omega
  by_cases h1 : t.head? = some '['
  swap
  · have : parseBracedSet t = egeneric c%"imageattr sets must be enclosed by ']'" := by
      unfold parseBracedSet bracedToken
      rw [if_pos (by simpa [startsWithC] using h1)]
      rfl
    rw [this]
    refine .stop fun e => ?_
    constructor
    · rintro ⟨ts, -, h⟩
      rw [imageSetFaults, List.cons_append, firstFault_cons] at h
      rcases h with h | h
      · exact h.2
      · exact absurd ⟨.inl h1, rfl⟩ (h.1 (.generic c%"imageattr sets must be enclosed by ']'"))
    · rintro rfl
      obtain ⟨ts, -, hu⟩ := tokens_exist (sep := ',') (hlen)
      exact ⟨ts, (hu ts).2 rfl, firstFault_cons.2 (.inl ⟨.inl h1, rfl⟩)⟩
  obtain ⟨ts, hts, hu⟩ := tokens_exist (sep := ',') hlen
  refine Judges.whole (cs := imageSetFaults t ts) ?_ fun e => by simp [imageSetFault, hu]
  unfold parseBracedSet imageSetFaults
  have key : Judges (parseImageSet (inner t)) ([missing ts 0 c%"imageattr set is missing the 'x=' token",
   wrongIf (¬ c%"x=".isPrefixOf (item ts 0)) c%"The first token in an imageattr set must begin with 'x='",
   xyRangeFault ((item ts 0).drop 2),
   missing ts 1 c%"imageattr set is missing the 'y=' token",
   wrongIf (¬ c%"y=".isPrefixOf (item ts 1)) c%"The second token in an imageattr set must begin with 'y='",
   xyRangeFault ((item ts 1).drop 2)] ++
  (ts.drop 2).map imageKeyFault) := by
    unfold parseImageSet
    rw [hts, ok_bind]
    cases ts with
    | nil => exact .missing (by simp)
    | cons t0 ts =>
    refine .skip (not_missing (by simp)) (.check (not_starts _ _) fun hx => ?_)
    rw [starts_two (c := 'x') (by simpa using hx), ok_bind]
    refine .bind1 (judges_xyRange _) fun x _ => ?_
    cases ts with
    | nil => exact .missing (by simp)
    | cons t1 ts =>
    refine .skip (not_missing (by simp)) (.check (not_starts _ _) fun hx => ?_)
    rw [starts_two (c := 'y') (by simpa using hx), ok_bind]
    refine .bind1 (judges_xyRange _) fun y _ => ?_
    exact .andThen (judges_keys _ ts)
  rw [judges_braced t _ h1]
  by_cases he : t.getLast? = some ']'
  · rw [if_neg (by simp [he]), ok_bind]
    exact .skip (fun e hh => hh.1.elim (· h1) (· he)) key
  · rw [if_pos he]; exact .stop fun e => by simp [wrongIf, he]

omit [Env] in
theorem drop_takeWhile {α : Type} (p : α → Bool) (l : List α) : l.dropWhile p = l.drop (l.takeWhile p).length := by
  induction l with
  | nil => rfl
  | cons a l ih =>
    by_cases h : p a
    · rw [List.dropWhile_cons_of_pos h, List.takeWhile_cons_of_pos h]; simpa using ih
    · rw [List.dropWhile_cons_of_neg h, List.takeWhile_cons_of_neg h]; rfl

theorem judges_moreSets (ts : List Str) (hl : ∀ t ∈ ts, t.length < 2^31) :
    Judges (moreSets ts) ((ts.takeWhile fun u => decide (u.head? = some '[')).map imageSetFault) ∧
    ∀ r, moreSets ts = .ok r → r.2 = ts.dropWhile fun u => decide (u.head? = some '[') := by
  induction ts with
  | nil => exact ⟨.ok _, fun r h => by cases h; rfl⟩
  | cons t ts ih =>
    obtain ⟨ih1, ih2⟩ := ih fun u hu => hl u (by simp [hu])
    unfold moreSets
    by_cases h : t.head? = some '['
    · rw [if_pos (starts_iff.2 h), List.takeWhile_cons_of_pos (by simpa using h), List.dropWhile_cons_of_pos (by simpa using h)]
      constructor
      · exact .bind1 (judges_imageSet t (hl t (by simp))) fun s _ => .andThen ih1
      · intro r hr
        obtain ⟨s, -, hr⟩ := bind_eq_ok.1 hr
        obtain ⟨x, hx, hr⟩ := bind_eq_ok.1 hr
        cases hr
        exact ih2 x hx
    · rw [if_neg (by simpa [starts_iff] using h), List.takeWhile_cons_of_neg (by simpa using h),
        List.dropWhile_cons_of_neg (by simpa using h)]
      exact ⟨.ok _, fun r hr => by cases hr; rfl⟩

theorem judges_setList (ts : List Str) (hl : ∀ t ∈ ts, t.length < 2^31) :
    Judges (parseSetList ts) (setListFaults ts) ∧ ∀ r, parseSetList ts = .ok r → r.2 = afterSets ts := by
  unfold parseSetList setListFaults afterSets setTokens
  cases ts with
  | nil => exact ⟨.missing (by simp), fun r hr => by cases hr⟩
  | cons t ts =>
    by_cases h : t = c%"*"
    · subst h
      exact ⟨.skip (not_missing (by simp)) (.skip (fun e he => he.1 rfl) (.ok _)), fun r hr => by cases hr; rfl⟩
    · obtain ⟨ih1, ih2⟩ := judges_moreSets ts fun u hu => hl u (by simp [hu])
      dsimp only
      rw [if_neg h, if_neg h]
      constructor
      · refine .skip (not_missing (by simp)) (.bind1 ((judges_imageSet t (hl t (by simp))).congr fun e => by simp [h]) fun s _ => ?_)
        refine .andThen (f := fun x : List ImageAttrSet × List Str => (ImageAttrSetList.sets (s :: x.1), x.2)) ?_
        have : (ts.takeWhile fun u => decide (u.head? = some '[')).map (fun t e => t ≠ c%"*" ∧ imageSetFault t e) =
            (ts.takeWhile fun u => decide (u.head? = some '[')).map imageSetFault := by
          refine List.map_congr_left fun u hu => ?_
          have hu := mem_takeWhile_true hu
          funext e
          have : u ≠ c%"*" := by rintro rfl; simp at hu
          simp [this]
        rw [this]; exact ih1
      · intro r hr
        obtain ⟨s, -, hr⟩ := bind_eq_ok.1 hr
        obtain ⟨x, hx, hr⟩ := bind_eq_ok.1 hr
        cases hr
        rw [List.length_cons, List.drop_succ_cons]
        refine (ih2 x hx).trans ?_
        exact drop_takeWhile _ _

theorem judges_secondSetList (d : SingleDirection) (ts : List Str) (hl : ∀ t ∈ ts, t.length < 2^31) :
    Judges (parseSecondSetList d ts) (if ts = [] then [] else
      [noDirection (item ts 0), wrongIf (item ts 0 = singleDirectionText d)
        c%"imageattr's second direction token must be different from the first one"] ++ setListFaults (ts.drop 1)) ∧
    ∀ r, parseSecondSetList d ts = .ok r → r.2 = if ts = [] then [] else afterSets (ts.drop 1) := by
  unfold parseSecondSetList
  cases ts with
  | nil => exact ⟨.ok _, fun r hr => by cases hr; rfl⟩
  | cons t ts =>
    obtain ⟨h1, h2⟩ := judges_setList ts fun u hu => hl u (by simp [hu])
    rw [if_neg (by simp), if_neg (by simp)]
    constructor
    · refine .bind1 (judges_direction t) fun d' hd' => .check ?_ fun _ => h1
      rw [direction_ok] at hd'
      show t = _ ↔ _
      rw [hd']
      cases d <;> cases d' <;> simp [singleDirectionText]
    · intro r hr
      obtain ⟨d', -, hr⟩ := bind_eq_ok.1 hr
      rcases ite_cases hr with ⟨-, hr⟩ | ⟨-, hr⟩
      · cases hr
      · exact h2 r hr

theorem judges_imageAttr (s : Str) (h : s.length + 1 < 2^31) (ts : List Str) (hts : imageTokens s ' ' = .ok ts) :
    Judges (parseImageAttr s) (imageAttrFaults ts) := by
  have hl : ∀ t ∈ ts, t.length < 2^31 := fun t ht => by have := imageTokens_mem hts t ht; omega
  unfold parseImageAttr imageAttrFaults
  rw [hts, ok_bind]
  cases ts with
  | nil => exact .missing (by simp)
  | cons t0 ts =>
  refine .skip (not_missing (by simp)) (.bind1 (judges_payloadType t0) fun pt _ => ?_)
  cases ts with
  | nil => exact .missing (by simp)
  | cons t1 ts =>
  refine .skip (not_missing (by simp)) (.bind1 (judges_direction t1) fun d hd => ?_)
  rw [direction_ok] at hd
  obtain ⟨h1, h2⟩ := judges_setList ts fun u hu => hl u (by simp [hu])
  refine Judges.bind h1 fun x hx => ?_
  have hx := h2 x hx
  show Judges _ (secondSetListFaults t1 (afterSets ts))
  rw [← hx]
  have hl' : ∀ t ∈ x.2, t.length < 2^31 := fun t ht => hl t (by
    rw [hx] at ht; simp [List.mem_of_mem_drop ht])
  obtain ⟨h3, h4⟩ := judges_secondSetList d x.2 hl'
  have hs : secondSetListFaults t1 x.2 = (if x.2 = [] then [] else
      [noDirection (item x.2 0), wrongIf (item x.2 0 = singleDirectionText d)
        c%"imageattr's second direction token must be different from the first one"] ++ setListFaults (x.2.drop 1)) ++
      if x.2 = [] then []
      else [wrongIf (afterSets (x.2.drop 1) ≠ []) c%"imageattr must not contain any token after the second set list"] := by
    unfold secondSetListFaults
    by_cases h : x.2 = []
    · simp only [if_pos h, List.append_nil]
    · simp only [if_neg h, hd]
  rw [hs]
  refine Judges.bind h3 ?_
  rintro ⟨l2, rest⟩ hy
  have hy : rest = _ := h4 _ hy
  dsimp only
  by_cases h : x.2 = []
  · rw [if_pos h] at hy ⊢
    rw [hy]
    cases d <;> exact .ok _
  · rw [if_neg h] at hy ⊢
    rw [← hy]
    refine .check (by simp) fun _ => ?_
    cases d <;> exact .ok _

end

end Sdp
