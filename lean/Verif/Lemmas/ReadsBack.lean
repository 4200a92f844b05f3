import Verif.Lemmas.ParsedWF
import Verif.Lemmas.PrintAttr
import Verif.Lemmas.Recase
/-!
# What is read back from its own text has no corner cases: rid and simulcast
-/

namespace Sdp

/-! ## Texts -/

theorem trimEnd_append {s w : Str} (h : ¬ Blank w) : trimEnd (s ++ w) = s ++ trimEnd w := by
  unfold trimEnd
  rw [List.reverse_append, List.dropWhile_append]
  have : w.reverse.dropWhile isWs ≠ [] := fun h' => h (trimEnd_eq_nil.1 (by unfold trimEnd; rw [h']; rfl))
  simp [this]

theorem trimEnd_cons {c : Char} {w : Str} (h : isWs c = false) : trimEnd (c :: w) = c :: trimEnd w := by
  by_cases hw : Blank w
  · rw [trimEnd_eq_nil.2 hw]
    have := trimEnd_append_ws (s := [c]) hw
    rw [show [c] ++ w = c :: w from rfl] at this
    rw [this]
    simp [trimEnd, h]
  · exact trimEnd_append (s := [c]) hw

theorem trimStart_begins {s : Str} (h : BeginsClean s) : trimStart s = s := by
  obtain ⟨c, r, rfl, hc⟩ := h
  simp [trimStart, hc]

theorem trimEnd_ends {s : Str} (h : EndsClean s) : trimEnd s = s := by
  obtain ⟨r, c, rfl, hc⟩ := h
  simp [trimEnd, hc]

theorem endsClean_of_trimEnd {s : Str} (h : trimEnd s = s) (hne : s ≠ []) : EndsClean s := by
  rcases List.eq_nil_or_concat s with rfl | ⟨r, c, rfl⟩
  · exact absurd rfl hne
  · refine ⟨r, c, by simp, ?_⟩
    by_contra hc
    have hc : isWs c = true := by simpa using hc
    have h1 : trimEnd (r.concat c) = trimEnd r := by
      rw [List.concat_eq_append]
      exact trimEnd_append_ws (by intro x hx; simp at hx; subst hx; exact hc)
    obtain ⟨w, -, e⟩ := trimEnd_spec r
    have h2 := congrArg List.length e
    rw [h1] at h
    have h3 := congrArg List.length h
    simp at h2 h3; omega

theorem trimEnd_name {u : Str} (h : '=' ∈ u) : ∃ a b, u = a ++ '=' :: b ∧ '=' ∉ a ∧ trimEnd u = a ++ '=' :: trimEnd b := by
  obtain ⟨a, b, rfl, ha⟩ : ∃ a b, u = a ++ '=' :: b ∧ '=' ∉ a := by
    rcases splitn_two_cases '=' u with ⟨-, h'⟩ | ⟨a, b, -, e, ha⟩
    · exact absurd h h'
    · exact ⟨a, b, e, ha⟩
  refine ⟨a, b, rfl, ha, ?_⟩
  rw [trimEnd_append, trimEnd_cons (by decide)]
  intro hb
  exact absurd (hb '=' (by simp)) (by decide)

/-- The join without the empty pieces is not longer, and equal only if there are none. -/
theorem joinS_nonEmpty_length (c : Char) (l : List Str) :
    (joinS [c] (nonEmpty l)).length ≤ (joinS [c] l).length ∧
    ((joinS [c] (nonEmpty l)).length = (joinS [c] l).length → nonEmpty l = l ∨ l = [[]]) := by
  induction l with
  | nil => exact ⟨le_refl _, fun _ => .inl rfl⟩
  | cons x xs ih =>
    cases xs with
    | nil =>
      cases x with
      | nil => exact ⟨le_refl _, fun _ => .inr rfl⟩
      | cons y ys => exact ⟨le_refl _, fun _ => .inl rfl⟩
    | cons y ys =>
      have e : joinS [c] (x :: y :: ys) = x ++ [c] ++ joinS [c] (y :: ys) := rfl
      have hl : (joinS [c] (x :: y :: ys)).length = x.length + 1 + (joinS [c] (y :: ys)).length := by rw [e]; simp; omega
      obtain ⟨h1, h2⟩ := ih
      cases x with
      | nil =>
        have e2 : nonEmpty ([] :: y :: ys) = nonEmpty (y :: ys) := rfl
        rw [e2]
        simp only [List.length_nil] at hl
        exact ⟨by omega, fun h => by omega⟩
      | cons z zs =>
        have e2 : nonEmpty ((z :: zs) :: y :: ys) = (z :: zs) :: nonEmpty (y :: ys) := rfl
        rw [e2]
        cases hn : nonEmpty (y :: ys) with
        | nil =>
          have : (joinS [c] [z :: zs]).length = (z :: zs).length := rfl
          exact ⟨by omega, fun h => by omega⟩
        | cons w ws =>
          have e3 : (joinS [c] ((z :: zs) :: w :: ws)).length = (z :: zs).length + 1 + (joinS [c] (w :: ws)).length := by
            rw [show joinS [c] ((z :: zs) :: w :: ws) = (z :: zs) ++ [c] ++ joinS [c] (w :: ws) from rfl]; simp; omega
          rw [hn] at h1 h2
          refine ⟨by omega, fun h => .inl ?_⟩
          rcases h2 (by omega) with h3 | h3
          · rw [h3]
          · rw [h3] at hn; cases hn

section
variable [Env]

/-- If an attribute with a value is read back, its value is. -/
theorem value_back {t : AttributeType} {v : Str} {a : Attribute} (hf : isFlagName t.name = false)
    (h : attrFromStr (attrToString t v) = .ok a) : v ≠ [] ∧ parseAttrValue t (trim v) = .ok a := by
  unfold attrToString at h
  by_cases hv : v = []
  · subst hv
    exact absurd h (by
      have : attrFromStr [] = eunsupported c%"Unknown attribute type " := rfl
      simp [this, eunsupported])
  · refine ⟨hv, ?_⟩
    obtain ⟨h1, h2, -, -⟩ := t.name_facts
    rw [if_neg (by simpa using hv)] at h
    have e : t.name ++ c%":" ++ v = t.name ++ ':' :: v := by simp
    rw [e, attrFromStr_colon h1, h2, hf, attrTypeOfName_name] at h
    simpa using h

theorem back_msidSemantic {m : MsidSemantic} (h : attrFromStr (showAttribute (.msidSemantic m)) = .ok (.msidSemantic m)) :
    m.msids ≠ [] := by
  obtain ⟨-, h⟩ := value_back (t := .msidSemantic) rfl h
  intro hc
  have h : parseMsidSemantic (trim (showMsidSemantic m)) = .ok (.msidSemantic m) := h
  unfold parseMsidSemantic at h
  rw [splitWs_trim] at h
  unfold showMsidSemantic at h
  rw [hc] at h
  have e : splitWs (m.semantic ++ c%" " ++ c%"*") = splitWs m.semantic ++ [c%"*"] := by
    rw [List.append_assoc]
    exact splitWs_append_sep (c := ' ') rfl
  simp only [e] at h
  rw [if_neg (by simp)] at h
  simp only [bind_eq_ok] at h
  obtain ⟨x, hx, y, hy, h⟩ := h
  cases h
  obtain ⟨-, hy⟩ := sliceFrom_eq_ok.1 hy
  have hx := idx_eq_ok.1 hx
  simp only at hc e
  rw [hc] at hy
  have hl := congrArg List.length hy
  simp at hl
  rw [hl] at hx
  simp at hx
  subst hx
  revert hl; decide

/-! ## rid -/

/-- The name of a parameter. -/
def ridName (p : Str) : Str := p.takeWhile (fun c => decide (c ≠ '='))

omit [Env] in
theorem ridParam_parts {st st' : RidState} {p : Str} (h : ridParam st p = .ok st') :
    ∃ n v, p = n ++ '=' :: v ∧ ridName p = n ∧
      st'.params.unknown = st.params.unknown ++ (if n ∈ ridNames then [] else [p]) ∧
      st'.depends = st.depends ++ (if n = c%"depends" then splitC ',' v else []) := by
  unfold ridParam at h
  simp only [] at h
  rcases splitn_two_cases '=' p with ⟨hs, -⟩ | ⟨n, v, hs, e, hn⟩
  · simp [hs, egeneric] at h
  have i0 : (idx [n, v] 0 : IRes Str) = .ok n := rfl
  have i1 : (idx [n, v] 1 : IRes Str) = .ok v := rfl
  rw [if_neg (by simp [hs])] at h
  simp only [hs, i0, i1, ok_bind] at h
  refine ⟨n, v, e, by rw [ridName, e, takeWhile_stop hn], ?_⟩
  split_ifs at h with e1 e2 e3 e4 e5 e6 e7
  iterate 6
    simp only [bind_eq_ok] at h
    obtain ⟨_, _, h⟩ := h
    cases h
    subst_vars
    simp [ridNames]
  · cases h; subst_vars; simp [ridNames]
  · cases h
    simp [ridNames, e1, e2, e3, e4, e5, e6, e7]

omit [Env] in
theorem ridParamList_parts {st st' : RidState} {ps : List Str} (h : ridParamList st ps = .ok st') :
    st'.params.unknown = st.params.unknown ++ ps.filter (fun p => decide (ridName p ∉ ridNames)) ∧
    st'.depends = st.depends ++ (ps.filter (fun p => decide (ridName p = c%"depends"))).flatMap
      (fun p => splitC ',' (p.drop 8)) := by
  induction ps generalizing st with
  | nil => cases h; simp
  | cons p ps ih =>
    rw [ridParamList] at h
    obtain ⟨st1, h1, h2⟩ := bind_eq_ok.1 h
    obtain ⟨n, v, e, hn, hu, hd⟩ := ridParam_parts h1
    obtain ⟨k1, k2⟩ := ih h2
    rw [k1, k2, hu, hd, List.filter_cons, List.filter_cons, hn]
    constructor
    · by_cases hm : n ∈ ridNames <;> simp [hm]
    · by_cases hm : n = c%"depends"
      · subst hm
        simp [e]
      · simp [hm]

/-- What is printed of the list of streams a stream depends on. -/
def ridDeps (l : List Str) : List Str := if l = [] then [] else if nonEmpty l = [] then [[]] else nonEmpty l

omit [Env] in
theorem nonEmpty_nonEmpty (l : List Str) : nonEmpty (nonEmpty l) = nonEmpty l := by simp [nonEmpty]

omit [Env] in
theorem ridDeps_text (l : List Str) : maybeVec c%"depends=" [] c%"," (ridDeps l) = maybeVec c%"depends=" [] c%"," l := by
  cases l with
  | nil => rfl
  | cons x xs =>
    have e : maybeVec c%"depends=" [] c%"," (x :: xs) = c%"depends=" ++ joinS c%"," (nonEmpty (x :: xs)) ++ [] := rfl
    unfold ridDeps
    rw [if_neg (by simp), e]
    by_cases h : nonEmpty (x :: xs) = []
    · rw [if_pos h, h]; rfl
    · rw [if_neg h]
      obtain ⟨y, ys, hy⟩ := List.exists_cons_of_ne_nil h
      have : maybeVec c%"depends=" [] c%"," (nonEmpty (x :: xs)) =
          c%"depends=" ++ joinS c%"," (nonEmpty (nonEmpty (x :: xs))) ++ [] := by rw [hy]; rfl
      rw [this, nonEmpty_nonEmpty]

omit [Env] in
theorem ridDeps_join (l : List Str) : joinS c%"," (ridDeps l) = joinS c%"," (nonEmpty l) := by
  unfold ridDeps
  split_ifs with h1 h2
  · subst h1; rfl
  · rw [h2]; rfl
  · rfl

omit [Env] in
theorem ridDeps_eq_nil {l : List Str} : ridDeps l = [] ↔ l = [] := by
  unfold ridDeps
  split_ifs with h1 h2
  · simp [h1]
  · simp [h1]
  · simp [h1, h2]

omit [Env] in
theorem showRid_eq (r : Rid) : showRid r = r.id ++ ' ' :: (showSingleDirection r.direction ++
    (if ridText r = [] then [] else ' ' :: ridText r)) := by
  unfold showRid
  rw [show joinS c%";" (nonEmpty
      [ maybeVec c%"pt=" [] c%"," (r.formats.map showU16),
        showRidParams r.params,
        maybeVec c%"depends=" [] c%"," r.depends ]) = ridText r from rfl]
  cases ridText r <;> simp

/-- The parameters before the unknown ones. -/
def ridFront (r : Rid) : List Str := ridTail { r with params := { r.params with unknown := [] }, depends := [] }

omit [Env] in
theorem ridFront_named (r : Rid) : ∀ t ∈ ridFront r, ∃ n v, t = n ++ '=' :: v ∧ '=' ∉ n ∧ n ∈ ridNames ∧
    n ≠ c%"depends" ∧ n ≠ c%"pt" := by
  intro t ht
  simp only [ridFront, ridTail, List.mem_append] at ht
  rcases ht with ht | ht | ht | ht | ht | ht | ht | ht
  iterate 6
    split at ht
    · simp at ht
    · simp only [List.mem_cons, List.not_mem_nil, or_false] at ht; subst ht
      exact ⟨_, _, rfl, by decide, by decide, by decide, by decide⟩
  · cases ht
  · simp at ht

omit [Env] in
theorem ridFront_bare {r : Rid} (h : r.Bare) : ridFront r = [] := by
  obtain ⟨h0, h1, h2, h3, h4, h5, h6⟩ := h
  simp [ridFront, ridTail, h1, h2, h3, h4, h5, h6]

omit [Env] in
theorem ridName_append {n v : Str} (h : '=' ∉ n) : ridName (n ++ '=' :: v) = n := takeWhile_stop h

omit [Env] in
theorem filter_front {r : Rid} : (ridFront r).filter (fun p => decide (ridName p ∉ ridNames)) = [] ∧
    (ridFront r).filter (fun p => decide (ridName p = c%"depends")) = [] := by
  constructor <;> refine List.filter_eq_nil_iff.2 fun t ht => ?_
  · obtain ⟨n, v, rfl, h1, h2, -⟩ := ridFront_named r t ht
    simpa [ridName_append h1] using h2
  · obtain ⟨n, v, rfl, h1, -, h2, -⟩ := ridFront_named r t ht
    simpa [ridName_append h1] using h2

omit [Env] in
/-- The formats are read from the first piece exactly if it is printed. -/
theorem ridFormats_back {r : Rid} {R ps : List Str} {fs : List UInt16} {n : Nat}
    (h : ridFormats (ridHead r ++ R) = .ok (fs, ps))
    (hn : (ps.filter (fun p => decide (ridName p ∉ ridNames))).length = n)
    (hR : (R.filter (fun p => decide (ridName p ∉ ridNames))).length = n) :
    ps = R ∧ (r.formats = [] → ∀ x, R.head? = some x → stripPrefix c%"pt=" x = none) := by
  unfold ridHead at h
  by_cases hf : r.formats = []
  · rw [if_pos hf, List.nil_append] at h
    cases R with
    | nil => cases h; exact ⟨rfl, by simp⟩
    | cons x xs =>
      unfold ridFormats at h
      dsimp only at h
      cases hx : stripPrefix c%"pt=" x with
      | none => rw [hx] at h; cases h; exact ⟨rfl, fun _ y hy => by cases hy; exact hx⟩
      | some l =>
        rw [hx] at h
        simp only [bind_eq_ok] at h
        obtain ⟨_, _, h⟩ := h
        cases h
        exfalso
        have e := stripPrefix_eq_some.1 hx
        have hnm : ridName x = c%"pt" := by
          rw [e]; exact ridName_append (n := c%"pt") (v := l) (by decide)
        rw [List.filter_cons, if_pos (by rw [hnm]; decide)] at hR
        simp only [List.length_cons] at hR
        omega
  · rw [if_neg hf] at h
    refine ⟨?_, fun h' => absurd h' hf⟩
    have hs : stripPrefix c%"pt=" (c%"pt=" ++ joinS c%"," (r.formats.map showU16)) =
        some (joinS c%"," (r.formats.map showU16)) := by simp [stripPrefix]
    simp only [List.cons_append, List.nil_append] at hs h
    unfold ridFormats at h
    dsimp only at h
    rw [hs] at h
    simp only [bind_eq_ok] at h
    obtain ⟨_, _, h⟩ := h
    cases h
    rfl

omit [Env] in
theorem joinS_trimEnd {l : List Str} {q : Str} (hq : ¬ Blank q) :
    trimEnd (joinS c%";" (l ++ [q])) = joinS c%";" (l ++ [trimEnd q]) := by
  induction l with
  | nil => rfl
  | cons x xs ih =>
    obtain ⟨y, ys, hy⟩ : ∃ y ys, xs ++ [q] = y :: ys := List.exists_cons_of_ne_nil (by simp)
    obtain ⟨y', ys', hy'⟩ : ∃ y ys, xs ++ [trimEnd q] = y :: ys := List.exists_cons_of_ne_nil (by simp)
    have e1 : joinS c%";" (x :: xs ++ [q]) = (x ++ c%";") ++ joinS c%";" (xs ++ [q]) := by
      rw [List.cons_append, hy]; rfl
    have e2 : joinS c%";" (x :: xs ++ [trimEnd q]) = (x ++ c%";") ++ joinS c%";" (xs ++ [trimEnd q]) := by
      rw [List.cons_append, hy']; rfl
    rw [e1, e2, trimEnd_append, ih]
    intro hb
    apply hq
    intro c hc
    exact hb c (by
      have := joinS_mem (sep := c%";") (l := xs ++ [q]) (t := q) (by simp) c hc
      exact this)

omit [Env] in
/-- The pieces, when the text has lost the white space at its end. -/
theorem splitC_trimEnd {T : Str} {l : List Str} {q : Str} (hT : splitC ';' T = l ++ [q]) (hq : ¬ Blank q) :
    splitC ';' (trimEnd T) = l ++ [trimEnd q] := by
  rw [← joinS_splitC (c := ';') (s := T), hT, joinS_trimEnd hq]
  refine splitC_joinS (by simp) fun t ht => ?_
  rcases List.mem_append.1 ht with ht | ht
  · exact splitC_not_mem (s := T) (by rw [hT]; simp [ht])
  · simp only [List.mem_singleton] at ht
    subst ht
    have h1 : ';' ∉ q := splitC_not_mem (s := T) (by rw [hT]; simp)
    obtain ⟨w, -, e⟩ := trimEnd_spec q
    intro hc; apply h1; rw [e]; simp [hc]

/-- The parameters are read from the pieces. -/
theorem back_rid_core {r : Rid} {T : Str} {us dep : List Str} (hid : ' ' ∉ r.id)
    (h : parseRid (r.id ++ ' ' :: (showSingleDirection r.direction ++ ' ' :: T)) = .ok (.rid r))
    (hT : splitC ';' T = ridHead r ++ (ridFront r ++ (us ++ dep)))
    (hus : ∀ u ∈ us, ridName u ∉ ridNames) (hl : us.length = r.params.unknown.length)
    (hdep : ∀ d ∈ dep, ridName d = c%"depends") :
    r.params.unknown = us ∧ r.depends = dep.flatMap (fun p => splitC ',' (p.drop 8)) ∧
    (r.formats = [] → ∀ x, (ridFront r ++ (us ++ dep)).head? = some x → stripPrefix c%"pt=" x = none) := by
  have hdir : Token (showSingleDirection r.direction) := by cases r.direction <;> exact ⟨by decide, by decide⟩
  unfold parseRid at h
  rw [splitn_append hid, splitn_append hdir.not_space] at h
  simp only [splitn, List.length_cons, List.length_nil, Nat.reduceAdd, Nat.reduceLT, if_false,
    List.getElem?_cons_succ, List.getElem?_cons_zero, hT, bind_eq_ok] at h
  obtain ⟨q, hq, i, -, dt, -, d, -, h⟩ := h
  obtain ⟨⟨fs, ps⟩, hf, st, hst, hq⟩ := hq
  cases hq
  simp only [pure, Outcome.ok.injEq, Attribute.rid.injEq] at h
  obtain ⟨hu, hd⟩ := ridParamList_parts hst
  have eu : r.params.unknown = ps.filter (fun p => decide (ridName p ∉ ridNames)) := by
    rw [← h]; simpa [RidState.default] using hu
  have ed : r.depends = (ps.filter (fun p => decide (ridName p = c%"depends"))).flatMap (fun p => splitC ',' (p.drop 8)) := by
    rw [← h]; simpa [RidState.default] using hd
  have fu : us.filter (fun p => decide (ridName p ∉ ridNames)) = us :=
    List.filter_eq_self.2 fun u hu' => by simpa using hus u hu'
  have fu' : us.filter (fun p => decide (ridName p = c%"depends")) = [] :=
    List.filter_eq_nil_iff.2 fun u hu' => by
      simp only [decide_eq_true_eq]
      intro hc; apply hus u hu'; rw [hc]; decide
  have fd : dep.filter (fun p => decide (ridName p ∉ ridNames)) = [] :=
    List.filter_eq_nil_iff.2 fun u hu' => by
      rw [hdep u hu']; decide
  have fd' : dep.filter (fun p => decide (ridName p = c%"depends")) = dep :=
    List.filter_eq_self.2 fun u hu' => by simpa using hdep u hu'
  have hR : (ridFront r ++ (us ++ dep)).filter (fun p => decide (ridName p ∉ ridNames)) = us := by
    rw [List.filter_append, List.filter_append, filter_front.1, fu, fd]; simp
  obtain ⟨rfl, hs⟩ := ridFormats_back hf rfl (by rw [hR, hl, eu])
  refine ⟨by rw [eu, hR], ?_, hs⟩
  rw [ed, List.filter_append, List.filter_append, filter_front.2, fu', fd']
  simp

theorem back_rid {r : Rid} (h : attrFromStr (showAttribute (.rid r)) = .ok (.rid r)) : r.Plain := by
  obtain ⟨-, h⟩ := value_back (t := .rid) rfl h
  have h : parseRid (trim (showRid r)) = .ok (.rid r) := h
  have hw : trim (showRid r) ≠ [] := by
    intro hc; rw [hc] at h
    have : parseRid [] = egeneric c%"A rid attribute must at least have an id and a direction token." := rfl
    rw [this] at h; cases h
  obtain ⟨r', e, hid, hunk, hdep⟩ := rid_facts (trimmed_of_trim (trim_trim _) hw) _ h
  obtain rfl : r = r' := by simpa using e
  clear e
  set r' : Rid := { r with depends := ridDeps r.depends } with hr'
  have hunk' : ∀ u ∈ r'.params.unknown, ';' ∉ u ∧ u ≠ [] :=
    fun u hu => ⟨(hunk u hu).2.1, List.ne_nil_of_mem (hunk u hu).1⟩
  have hdep' : r'.depends = [[]] ∨ ∀ d ∈ r'.depends, d ≠ [] ∧ ',' ∉ d ∧ ';' ∉ d := by
    show ridDeps r.depends = [[]] ∨ ∀ d ∈ ridDeps r.depends, d ≠ [] ∧ ',' ∉ d ∧ ';' ∉ d
    unfold ridDeps
    split_ifs with h1 h2
    · exact .inr (by simp)
    · exact .inl rfl
    · refine .inr fun d hd => ?_
      have := List.mem_filter.1 hd
      exact ⟨by simpa using this.2, hdep d this.1⟩
  have hp := rid_pieces hunk' hdep'
  have hT : ridText r' = ridText r := by
    unfold ridText
    rw [ridDeps_text]
  have hhead : ridHead r' = ridHead r := rfl
  have htail : ridTail r' = ridFront r ++ (r.params.unknown ++ (if r.depends = [] then [] else
      [c%"depends" ++ '=' :: joinS c%"," (nonEmpty r.depends)])) := by
    rw [ridTail_split]
    simp only [hr', ridDeps_eq_nil, ridDeps_join]
    rfl
  rw [hT, hhead, htail] at hp
  by_cases ht : ridText r = []
  · rw [ht] at hp
    have hp := (List.append_eq_nil_iff.1 (List.append_eq_nil_iff.1 hp.symm).2).2
    obtain ⟨h1, h2⟩ := List.append_eq_nil_iff.1 hp
    have h3 : r.depends = [] := by
      by_contra hc; rw [if_neg hc] at h2; cases h2
    exact ⟨.inr (by simp [h3]), by simp [h1], by simp [h1], by simp [h3]⟩
  · rw [showRid_eq, if_neg ht] at h
    unfold pieces at hp
    rw [if_neg ht] at hp
    have hnb {q : Str} (hq : '=' ∈ q) : ¬ Blank q := fun hb => absurd (hb '=' hq) (by decide)
    have trimmed {l : List Str} {q : Str} (hs : splitC ';' (ridText r) = l ++ [q]) (hq : '=' ∈ q) :
        parseRid (r.id ++ ' ' :: (showSingleDirection r.direction ++ ' ' :: trimEnd (ridText r))) = .ok (.rid r) := by
      have hb : ¬ Blank (ridText r) := fun hb => hnb hq fun c hc => hb c (by
        have := splitC_mem_sub (c := ';') (s := ridText r) (t := q) (by rw [hs]; simp) c hc
        exact this)
      have e : trim (r.id ++ ' ' :: (showSingleDirection r.direction ++ ' ' :: ridText r)) =
          r.id ++ ' ' :: (showSingleDirection r.direction ++ ' ' :: trimEnd (ridText r)) := by
        unfold trim
        rw [trimStart_begins hid.1.append]
        have := trimEnd_append (s := r.id ++ ' ' :: (showSingleDirection r.direction ++ [' '])) hb
        simpa using this
      rwa [e] at h
    by_cases hd : r.depends = []
    · rw [if_pos hd, List.append_nil] at hp
      rcases List.eq_nil_or_concat r.params.unknown with hu | ⟨us, u, hu⟩
      · exact ⟨.inr (by simp [hd]), by simp [hu], by simp [hu], by simp [hd]⟩
      · rw [List.concat_eq_append] at hu
        have hue : '=' ∈ u := (hunk u (by rw [hu]; simp)).1
        obtain ⟨n, v, e1, e2, e3⟩ := trimEnd_name hue
        have hs : splitC ';' (ridText r) = (ridHead r ++ (ridFront r ++ us)) ++ [u] := by rw [hp, hu]; simp
        have hk := back_rid_core (us := us ++ [trimEnd u]) (dep := []) hid.2 (trimmed hs hue)
          (by rw [splitC_trimEnd hs (hnb hue)]; simp) (by
            intro x hx
            rcases List.mem_append.1 hx with hx | hx
            · exact (hunk x (by rw [hu]; simp [hx])).2.2
            · simp only [List.mem_singleton] at hx
              have := (hunk u (by rw [hu]; simp)).2.2
              rw [e1, takeWhile_stop e2] at this
              rw [hx, e3, ridName_append e2]; exact this) (by rw [hu]; simp) (by simp)
        obtain ⟨k1, -, k3⟩ := hk
        have hu' : trimEnd u = u := by
          rw [hu] at k1
          simpa using k1.symm
        refine ⟨.inr (by simp [hd]), ?_, ?_, by simp [hd]⟩
        · intro hb x hx hn
          have k := k3 hb.1 x (by rw [ridFront_bare hb, List.nil_append, List.append_nil, ← k1]; exact hx)
          obtain ⟨a, b, f1, f2⟩ : ∃ a b, x = a ++ '=' :: b ∧ '=' ∉ a :=
            let ⟨a, b, f1, f2, _⟩ := trimEnd_name (hunk x (List.mem_of_head? hx)).1; ⟨a, b, f1, f2⟩
          rw [f1, takeWhile_stop f2] at hn
          rw [f1, hn] at k
          simp [stripPrefix] at k
        · intro _ x hx
          rw [hu] at hx
          obtain rfl : u = x := by simpa using hx
          exact endsClean_of_trimEnd hu' (List.ne_nil_of_mem hue)
    · rw [if_neg hd] at hp
      have hs : splitC ';' (ridText r) = (ridHead r ++ (ridFront r ++ r.params.unknown)) ++
          [c%"depends" ++ '=' :: joinS c%"," (nonEmpty r.depends)] := by rw [hp]; simp
      have hq : '=' ∈ c%"depends" ++ '=' :: joinS c%"," (nonEmpty r.depends) := by simp
      have et : trimEnd (c%"depends" ++ '=' :: joinS c%"," (nonEmpty r.depends)) =
          c%"depends" ++ '=' :: trimEnd (joinS c%"," (nonEmpty r.depends)) := by
        rw [trimEnd_append (fun hb => absurd (hb '=' (by simp)) (by decide)), trimEnd_cons (by decide)]
      have hk := back_rid_core (us := r.params.unknown)
        (dep := [c%"depends" ++ '=' :: trimEnd (joinS c%"," (nonEmpty r.depends))]) hid.2 (trimmed hs hq)
        (by rw [splitC_trimEnd hs (hnb hq), et]; simp) (fun x hx => (hunk x hx).2.2) rfl (by
          intro d hd'
          simp only [List.mem_singleton] at hd'
          rw [hd', ridName_append (by decide)])
      obtain ⟨-, k2, k3⟩ := hk
      have k2 : r.depends = splitC ',' (trimEnd (joinS c%"," (nonEmpty r.depends))) := by
        rw [List.flatMap_singleton] at k2
        exact k2
      have kj : joinS c%"," r.depends = trimEnd (joinS c%"," (nonEmpty r.depends)) := by
        conv_lhs => rw [k2]
        exact joinS_splitC
      have hlen := joinS_nonEmpty_length ',' r.depends
      have hlt := trimEnd_length (joinS c%"," (nonEmpty r.depends))
      have hkl := congrArg List.length kj
      have heq := hlen.2 (by omega)
      refine ⟨?_, ?_, fun h => absurd h hd, ?_⟩
      · rcases heq with heq | heq
        · refine .inr fun d hd' => ?_
          rw [← heq] at hd'
          simpa using (List.mem_filter.1 hd').2
        · exact .inl heq
      · intro hb x hx hn
        have k := k3 hb.1 x (by
          rw [ridFront_bare hb, List.nil_append]
          cases hu : r.params.unknown with
          | nil => rw [hu] at hx; cases hx
          | cons y ys => rw [hu] at hx; exact hx)
        obtain ⟨a, b, f1, f2⟩ : ∃ a b, x = a ++ '=' :: b ∧ '=' ∉ a :=
          let ⟨a, b, f1, f2, _⟩ := trimEnd_name (hunk x (List.mem_of_head? hx)).1; ⟨a, b, f1, f2⟩
        rw [f1, takeWhile_stop f2] at hn
        rw [f1, hn] at k
        simp [stripPrefix] at k
      · intro d hd'
        rcases heq with heq | heq
        · right
          have hdm : d ∈ r.depends := List.mem_of_getLast? hd'
          have hdne : d ≠ [] := by rw [← heq] at hdm; simpa using (List.mem_filter.1 hdm).2
          rw [heq] at kj
          have hjne : joinS c%"," r.depends ≠ [] := by
            intro hc
            rcases (joinS_eq_nil (by decide)).1 hc with hc | hc
            · exact hd hc
            · rw [hc] at hdm; simp at hdm; exact hdne hdm
          have := endsClean_of_trimEnd kj.symm hjne
          obtain ⟨l', hl'⟩ := List.getLast?_eq_some_iff.1 hd'
          rw [hl'] at this
          have hsuf : ∃ pre, joinS c%"," (l' ++ [d]) = pre ++ d := by
            clear * -
            induction l' with
            | nil => exact ⟨[], rfl⟩
            | cons x xs ih =>
              obtain ⟨pre, hpre⟩ := ih
              refine ⟨x ++ c%"," ++ pre, ?_⟩
              obtain ⟨y, ys, hy⟩ : ∃ y ys, xs ++ [d] = y :: ys := List.exists_cons_of_ne_nil (by simp)
              rw [hy] at hpre
              rw [List.cons_append, hy]
              show x ++ c%"," ++ joinS c%"," (y :: ys) = _
              rw [hpre]; simp
          obtain ⟨pre, hpre⟩ := hsuf
          rw [hpre] at this
          exact this.suffix hdne
        · rw [heq] at hd'; cases hd'; exact .inl rfl

/-! ## simulcast -/

omit [Env] in
theorem showSimulcastId_new (u : Str) : showSimulcastId (SimulcastId.new u) = u := by
  unfold SimulcastId.new
  split
  · rename_i r hr
    rw [stripPrefix_eq_some.1 hr]; simp [showSimulcastId]
  · simp [showSimulcastId]

omit [Env] in
theorem showSimulcastVersion_new (t : Str) : showSimulcastVersion (SimulcastVersion.new t) = t := by
  unfold showSimulcastVersion SimulcastVersion.new
  rw [List.map_map]
  have : showSimulcastId ∘ SimulcastId.new = id := funext showSimulcastId_new
  rw [this, List.map_id]
  exact joinS_splitC

omit [Env] in
theorem versions_text (t : Str) : (makeVersionList t).map showSimulcastVersion = splitC ';' t := by
  unfold makeVersionList
  rw [List.map_map]
  have : showSimulcastVersion ∘ SimulcastVersion.new = id := funext showSimulcastVersion_new
  rw [this, List.map_id]

/-- The printed list of alternatives. -/
def versionsText (l : List SimulcastVersion) : Str := joinS c%";" (nonEmpty (l.map showSimulcastVersion))

omit [Env] in
theorem versions_maybe {pre : Str} {l : List SimulcastVersion} (h : l ≠ []) :
    maybeVec pre [] c%";" (l.map showSimulcastVersion) = pre ++ versionsText l := by
  cases l with
  | nil => exact absurd rfl h
  | cons v vs => simp [maybeVec, versionsText, nonEmpty]

omit [Env] in
theorem versionsText_chars {t : Str} : ∀ c ∈ versionsText (makeVersionList t), c = ';' ∨ c ∈ t := by
  intro c hc
  unfold versionsText at hc
  rw [versions_text] at hc
  rcases mem_joinS hc with hc | ⟨u, hu, hc⟩
  · exact .inl (by simpa using hc)
  · exact .inr (splitC_mem_sub (List.mem_filter.1 hu).1 c hc)

/-- The list of alternatives is read back from its text: no alternative is lost and no id has an equals sign. -/
theorem back_versions {l : List SimulcastVersion} (h : parseVersionList (versionsText l) = .ok l)
    (hne : versionsText l ≠ []) : ∀ v ∈ l, v.Plain := by
  have hlen := joinS_nonEmpty_length ';' (l.map showSimulcastVersion)
  by_cases he : '=' ∈ versionsText l
  · exfalso
    unfold parseVersionList at h
    rw [if_pos he] at h
    obtain ⟨a, b, e1, e2, -⟩ := trimEnd_name he
    rw [e1, splitn_append e2] at h
    simp only [splitn, List.getElem?_cons_zero, List.getElem?_cons_succ, bind_eq_ok] at h
    obtain ⟨d, hd, h⟩ := h
    cases unwrap_eq_ok.1 hd
    split at h
    · obtain ⟨x, hx, h⟩ := bind_eq_ok.1 h
      cases unwrap_eq_ok.1 hx
      cases h
      rw [versions_text, joinS_splitC] at hlen
      have := congrArg List.length e1
      unfold versionsText at this
      rw [versions_text] at this
      have h1 := hlen.1
      rw [this] at h1
      simp at h1
      omega
    · cases h
  · unfold parseVersionList at h
    rw [if_neg he] at h
    have h := Outcome.ok.inj h
    have hj : joinS c%";" (l.map showSimulcastVersion) = versionsText l := by
      conv_lhs => rw [← h]
      rw [versions_text, joinS_splitC]
    have := hlen.2 (by rw [hj]; rfl)
    rcases this with hn | hn
    · intro v hv
      have hv' : showSimulcastVersion v ≠ [] := by
        have : showSimulcastVersion v ∈ nonEmpty (l.map showSimulcastVersion) := by
          rw [hn]; exact List.mem_map.2 ⟨v, hv, rfl⟩
        simpa using (List.mem_filter.1 this).2
      refine ⟨fun hc => hv' (by unfold showSimulcastVersion; rw [hc]; rfl), fun i hi hm => he ?_⟩
      rw [← hj, mem_joinS_sep (by decide)]
      refine ⟨_, List.mem_map.2 ⟨v, hv, rfl⟩, ?_⟩
      unfold showSimulcastVersion
      rw [mem_joinS_sep (by decide)]
      exact ⟨_, List.mem_map.2 ⟨i, hi, rfl⟩, by unfold showSimulcastId; simp [hm]⟩
    · exact absurd (by rw [← hj, hn]; rfl) hne

/-- Each list that was read has a text without white space. -/
theorem simulcast_noWs {s : Simulcast} {v : Str} (h : parseSimulcast v = .ok (.simulcast s)) :
    NoWs (versionsText s.send) ∧ NoWs (versionsText s.receive) := by
  have nil : NoWs (versionsText []) := by intro c hc; cases hc
  have key {t : Str} {l : List SimulcastVersion} (ht : t ∈ splitWs v) (h : parseVersionList t = .ok l) :
      NoWs (versionsText l) := by
    obtain ⟨u, hu, rfl⟩ := versionList_ok l h
    intro c hc
    rcases versionsText_chars c hc with rfl | hc
    · decide
    · exact (splitWs_mem ht).1 c (hu c hc)
  unfold parseSimulcast at h
  split at h
  · cases h
  rename_i t0 ts h0
  obtain ⟨dir, -, h⟩ := bind_eq_ok.1 h
  split at h
  · cases h
  rename_i t1 ts
  obtain ⟨l1, h1, h⟩ := bind_eq_ok.1 h
  obtain ⟨l2, h2, h⟩ := bind_eq_ok.1 h
  have k1 := key (by rw [h0]; simp) h1
  have k2 : NoWs (versionsText l2) := by
    unfold parseSecondVersionList at h2
    split at h2
    · cases h2; exact nil
    · obtain ⟨_, _, h2⟩ := bind_eq_ok.1 h2
      split at h2
      · cases h2
      · split at h2
        · cases h2
        · exact key (by rw [h0]; simp) h2
  cases dir <;> cases h
  · exact ⟨k1, k2⟩
  · exact ⟨k2, k1⟩

theorem back_simulcast {s : Simulcast} (h : attrFromStr (showAttribute (.simulcast s)) = .ok (.simulcast s)) :
    (∀ v ∈ s.send, v.Plain) ∧ ∀ v ∈ s.receive, v.Plain := by
  obtain ⟨hne, h⟩ := value_back (t := .simulcast) rfl h
  have h : parseSimulcast (trim (showSimulcast s)) = .ok (.simulcast s) := h
  obtain ⟨n1, n2⟩ := simulcast_noWs h
  unfold parseSimulcast at h
  rw [splitWs_trim] at h
  have dsend : parseSingleDirection c%"send" = .ok .send := rfl
  have ns : NoWs c%"send" := fun c hc => by revert c; decide
  have nr : NoWs c%"recv" := fun c hc => by revert c; decide
  have drecv : parseSingleDirection c%"recv" = .ok .recv := rfl
  unfold showSimulcast at h hne
  by_cases e1 : s.send = [] <;> by_cases e2 : s.receive = []
  · rw [e1, e2] at hne; exact absurd rfl hne
  · rw [versions_maybe e2, e1] at h
    have e : splitWs (joinS c%" " (nonEmpty [maybeVec c%"send " [] c%";" (([] : List SimulcastVersion).map showSimulcastVersion),
        c%"recv " ++ versionsText s.receive])) = c%"recv" :: splitWs (versionsText s.receive) :=
      splitWs_space (a := c%"recv") nr (by decide)
    simp only [e, drecv] at h
    by_cases f : versionsText s.receive = []
    · rw [f] at h
      obtain ⟨_, -, h⟩ := bind_eq_ok.1 h
      cases h
    · rw [splitWs_single n2 f] at h
      simp only [bind_eq_ok] at h
      obtain ⟨_, hd, l1, h1, l2, h2, h⟩ := h
      cases hd
      cases h
      exact ⟨fun v hv => absurd (e1 ▸ hv) List.not_mem_nil, back_versions h1 f⟩
  · rw [versions_maybe e1, e2] at h
    have e : splitWs (joinS c%" " (nonEmpty [c%"send " ++ versionsText s.send,
        maybeVec c%"recv " [] c%";" (([] : List SimulcastVersion).map showSimulcastVersion)])) = c%"send" :: splitWs (versionsText s.send) :=
      splitWs_space (a := c%"send") ns (by decide)
    simp only [e, dsend] at h
    by_cases f : versionsText s.send = []
    · rw [f] at h
      obtain ⟨_, -, h⟩ := bind_eq_ok.1 h
      cases h
    · rw [splitWs_single n1 f] at h
      simp only [bind_eq_ok] at h
      obtain ⟨_, hd, l1, h1, l2, h2, h⟩ := h
      cases hd
      cases h
      exact ⟨back_versions h1 f, fun v hv => absurd (e2 ▸ hv) List.not_mem_nil⟩
  · rw [versions_maybe e1, versions_maybe e2] at h
    have e : splitWs (joinS c%" " (nonEmpty [c%"send " ++ versionsText s.send, c%"recv " ++ versionsText s.receive])) =
        c%"send" :: (splitWs (versionsText s.send) ++ c%"recv" :: splitWs (versionsText s.receive)) := by
      have a1 : joinS c%" " (nonEmpty [c%"send " ++ versionsText s.send, c%"recv " ++ versionsText s.receive]) =
          c%"send" ++ ' ' :: (versionsText s.send ++ ' ' :: (c%"recv" ++ ' ' :: versionsText s.receive)) := by
        simp [nonEmpty, joinS]
      rw [a1, splitWs_space ns (by decide), splitWs_append_sep (by decide), splitWs_space nr (by decide)]
    simp only [e, dsend] at h
    by_cases f1 : versionsText s.send = []
    · rw [f1] at h
      simp only [splitWs_nil, List.nil_append, bind_eq_ok] at h
      obtain ⟨_, hd, l1, h1, l2, h2, h⟩ := h
      cases hd
      cases h
      have h1 : Outcome.ok (makeVersionList c%"recv") = Outcome.ok l1 := h1
      have f1 : versionsText l1 = [] := f1
      rw [← Outcome.ok.inj h1] at f1
      exact absurd f1 (by decide)
    · rw [splitWs_single n1 f1] at h
      simp only [List.singleton_append, bind_eq_ok] at h
      obtain ⟨_, hd, l1, h1, l2, h2, h⟩ := h
      cases hd
      by_cases f2 : versionsText s.receive = []
      · rw [f2] at h2
        obtain ⟨d, hd, h2⟩ := bind_eq_ok.1 h2
        rw [drecv] at hd
        cases hd
        cases h2
      · rw [splitWs_single n2 f2] at h2
        obtain ⟨d, hd, h2⟩ := bind_eq_ok.1 h2
        rw [drecv] at hd
        cases hd
        rw [if_neg (by decide)] at h2
        cases h
        exact ⟨back_versions h1 f1, back_versions h2 f2⟩

/-! ## imageattr -/

omit [Env] in
theorem F32.text_mend (x : F32) : F32.text x.mend = F32.text x := by
  by_cases h : x = ⟨0xffc00000⟩
  · subst h; decide +kernel
  · rw [F32.mend_eq h]

omit [Env] in
theorem showSRange_mend (r : SRange) : showSRange r.mend = showSRange r := by
  match r with
  | .discrete [x] => exact F32.text_mend x
  | .discrete [] => rfl
  | .discrete (_ :: _ :: _) => rfl
  | .range _ _ => rfl

omit [Env] in
theorem showImageAttrSet_mend (s : ImageAttrSet) : showImageAttrSet s.mend = showImageAttrSet s := by
  obtain ⟨x, y, sar, par, q⟩ := s
  unfold showImageAttrSet ImageAttrSet.mend
  cases sar <;> cases q <;> simp [optStr, showSRange_mend, F32.text_mend]

omit [Env] in
theorem showSets_mend (l : ImageAttrSetList) : showImageAttrSetList l.mend = showImageAttrSetList l := by
  cases l with
  | wildcard => rfl
  | sets l =>
    simp only [ImageAttrSetList.mend, showImageAttrSetList, List.map_map]
    congr 1
    exact List.map_congr_left fun s _ => showImageAttrSet_mend s

omit [Env] in
theorem showMaybeSets_mend (pre : Str) (l : ImageAttrSetList) :
    optStr pre showImageAttrSetList (maybeSets l.mend) = optStr pre showImageAttrSetList (maybeSets l) := by
  match l with
  | .wildcard => rfl
  | .sets [] => rfl
  | .sets (a :: as) =>
    have := showSets_mend (.sets (a :: as))
    simp only [ImageAttrSetList.mend, List.map_cons] at this
    simp [ImageAttrSetList.mend, maybeSets, optStr, this]

omit [Env] in
theorem mend_plain (l : ImageAttrSetList) : l.mend.Plain := by
  have hx (x : F32) : x.mend ≠ ⟨0xffc00000⟩ := by
    by_cases h : x = ⟨0xffc00000⟩
    · subst h; decide
    · rw [F32.mend_eq h]; exact h
  cases l with
  | wildcard => trivial
  | sets l =>
    intro s hs
    obtain ⟨s, -, rfl⟩ := List.mem_map.1 hs
    constructor
    · intro x h
      obtain ⟨r, -, h⟩ := Option.map_eq_some_iff.1 h
      match r, h with
      | .discrete [y], h =>
        simp only [SRange.mend, SRange.discrete.injEq, List.cons.injEq, and_true] at h
        rw [← h]; exact hx y
      | .discrete [], h => simp [SRange.mend] at h
      | .discrete (_ :: _ :: _), h => simp [SRange.mend] at h
      | .range _ _, h => simp [SRange.mend] at h
    · intro x h
      obtain ⟨y, -, rfl⟩ := Option.map_eq_some_iff.1 h
      exact hx y

theorem back_imageAttr (L : Laws) {i : ImageAttr} (h : attrFromStr (showAttribute (.imageAttr i)) = .ok (.imageAttr i)) :
    i.send.Plain ∧ i.recv.Plain := by
  obtain ⟨-, hv⟩ := value_back (t := .imageAttr) rfl h
  obtain ⟨j, hj, hw⟩ := imageAttr_mend L _ _ hv
  cases hj
  have e : showAttribute (.imageAttr i.mend) = showAttribute (.imageAttr i) := by
    show attrToString _ (showImageAttr _) = attrToString _ (showImageAttr _)
    unfold showImageAttr ImageAttr.mend
    rw [showMaybeSets_mend, showMaybeSets_mend]
  have hm := (attr_round (a := .imageAttr i.mend) hw).2
  rw [e, h] at hm
  have := Attribute.imageAttr.inj (Outcome.ok.inj hm)
  rw [this]
  exact ⟨mend_plain _, mend_plain _⟩

/-! ## fmtp -/

omit [Env] in
theorem showFmtp_eq {f : Fmtp} (h : showFmtp f ≠ []) :
    showFmtpParams f.parameters ≠ [] ∧ showFmtp f = showU8 f.payloadType ++ ' ' :: showFmtpParams f.parameters := by
  unfold showFmtp at h ⊢
  by_cases e : showFmtpParams f.parameters = []
  · simp [e] at h
  · simp [e]

/-- What is read from the printed parameters. -/
theorem fmtp_back {f : Fmtp} (hne : showFmtp f ≠ []) (h : parseFmtp (trim (showFmtp f)) = .ok (.fmtp f)) :
    fmtpBlock FmtpParams.default (trimEnd (showFmtpParams f.parameters)) = .ok f.parameters := by
  obtain ⟨h1, e⟩ := showFmtp_eq hne
  rw [e] at h
  unfold trim at h
  rw [trimStart_begins (Token.u8 _).begins.append] at h
  by_cases hb : Blank (showFmtpParams f.parameters)
  · exfalso
    have e2 : trimEnd (showU8 f.payloadType ++ ' ' :: showFmtpParams f.parameters) = showU8 f.payloadType := by
      rw [trimEnd_append_ws, trimEnd_ends (Token.u8 _).ends]
      intro c hc
      rcases List.mem_cons.1 hc with rfl | hc
      · decide
      · exact hb c hc
    rw [e2] at h
    unfold parseFmtp at h
    rw [splitn_two_of_not_mem (Token.u8 _).not_space] at h
    cases h
  · have e2 : trimEnd (showU8 f.payloadType ++ ' ' :: showFmtpParams f.parameters) =
        showU8 f.payloadType ++ ' ' :: trimEnd (showFmtpParams f.parameters) := by
      have := trimEnd_append (s := showU8 f.payloadType ++ [' ']) hb
      simpa using this
    rw [e2] at h
    unfold parseFmtp at h
    rw [splitn_two_append (Token.u8 _).not_space] at h
    simp only [List.length_cons, List.length_nil, ne_eq, Nat.reduceAdd, not_true_eq_false, if_false, bind_eq_ok] at h
    obtain ⟨_, -, bs, hbs, p, hp, _, -, h⟩ := h
    obtain ⟨-, rfl⟩ := sliceFrom_eq_ok.1 hbs
    cases h
    simp only [List.drop_succ_cons, List.drop_zero, fmtpBlocks] at hp
    obtain ⟨q, hp, hq⟩ := bind_eq_ok.1 hp
    cases hq
    exact hp

theorem back_fmtp {f : Fmtp} (h : attrFromStr (showAttribute (.fmtp f)) = .ok (.fmtp f)) : f.parameters.Plain := by
  obtain ⟨hne, hv⟩ := value_back (t := .fmtp) rfl h
  have hv : parseFmtp (trim (showFmtp f)) = .ok (.fmtp f) := hv
  cases hr : f.parameters.rtx with
  | some r =>
    have hw : (Fmtp.mk f.payloadType { FmtpParams.default with rtx := some r }).WF :=
      ⟨.rtx r rfl (fun g hg => by cases g <;> first | rfl | exact absurd rfl hg) rfl rfl rfl⟩
    have hm := (attr_round (a := .fmtp ⟨f.payloadType, { FmtpParams.default with rtx := some r }⟩) hw).2
    have e : showAttribute (.fmtp ⟨f.payloadType, { FmtpParams.default with rtx := some r }⟩) = showAttribute (.fmtp f) := by
      show attrToString _ (showFmtp _) = attrToString _ (showFmtp _)
      unfold showFmtp showFmtpParams
      simp only [hr]
    rw [e, h] at hm
    have := Attribute.fmtp.inj (Outcome.ok.inj hm)
    rw [this]
    exact ⟨fun _ => ⟨fun g hg => by cases g <;> first | rfl | exact absurd rfl hg, rfl⟩, by simp [FmtpParams.default],
      by simp [FmtpParams.default], fun h => by simp at h⟩
  | none =>
    have hb := fmtp_back hne hv
    have hrange : FmtpInRange f.parameters := by
      refine fmtpBlocks_range FmtpInRange.default [trimEnd (showFmtpParams f.parameters)] _ ?_
      simp [fmtpBlocks, hb]
    have some : f.parameters.encodings = [] → f.parameters.dtmfTones = [] → AllDefault f.parameters →
        f.parameters.unknownTokens ≠ [] := by
      intro h1 h2 h3 h4
      apply (showFmtp_eq hne).1
      have : f.parameters = FmtpParams.default :=
        FmtpParams.ext_get (fun g hg => by rw [h3 g hg, get_default]) hr h4 h1 h2
      rw [this]; decide +kernel
    by_cases hu : f.parameters.unknownTokens = []
    · exact ⟨fun h => absurd hr h, by simp [hu], by simp [hu], fun _ => some⟩
    have hlist : ∀ b, fmtpBlock FmtpParams.default b = .ok f.parameters → f.parameters.encodings = [] ∧
        f.parameters.dtmfTones = [] ∧ '=' ∈ b ∧ (∀ t ∈ f.parameters.unknownTokens, '=' ∈ t ∧ ';' ∉ t) ∧
        fmtpParamList FmtpParams.default ((splitC ';' b).filter (fun t => !t.isEmpty)) = .ok f.parameters := by
      intro b hp
      unfold fmtpBlock at hp
      split_ifs at hp with h1 h2 h3
      · obtain ⟨hf, hu, henc, htones⟩ := paramList_facts hp
        have hacc := (paramList_accepts.1 ⟨_, hp⟩).1
        refine ⟨henc, htones, h1, ?_, hp⟩
        intro t ht
        rw [hu] at ht
        obtain ⟨ht, -⟩ := List.mem_filter.1 ht
        exact ⟨(hacc t ht).1, splitC_not_mem (List.mem_filter.1 ht).1⟩
      · obtain ⟨ns, -, e⟩ := fmtpRed_ok.1 hp
        exact absurd (by rw [e]; rfl) hu
      · exact absurd (by rw [← Outcome.ok.inj hp]; rfl) hu
      · exact absurd (by rw [← Outcome.ok.inj hp]; rfl) hu
    obtain ⟨henc, htones, -, htok, hp⟩ := hlist _ hb
    have hun : ∀ t ∈ f.parameters.unknownTokens, t ≠ [] := fun t ht => List.ne_nil_of_mem (htok t ht).1
    obtain ⟨u, us, hus⟩ := List.exists_cons_of_ne_nil hu
    -- the unknown parameters are printed as one piece
    have hq : nonEmpty [maybeVec [] [] c%"," f.parameters.unknownTokens] = [joinS c%"," f.parameters.unknownTokens] := by
      have hf : f.parameters.unknownTokens.filter (fun s => !s.isEmpty) = f.parameters.unknownTokens :=
        List.filter_eq_self.2 fun t ht => by simpa using hun t ht
      have : maybeVec [] [] c%"," f.parameters.unknownTokens = joinS c%"," f.parameters.unknownTokens := by
        conv_lhs => rw [hus]
        rw [← hus] 
        unfold maybeVec
        rw [hus] at hf ⊢
        simp [hf]
      have hj : joinS c%"," f.parameters.unknownTokens ≠ [] := by
        intro hc
        rcases (joinS_eq_nil (by decide)).1 hc with hc | hc
        · exact hu hc
        · exact hun [] (by rw [hc]; simp) rfl
      rw [this]
      simp [nonEmpty, hj]
    have hqe : '=' ∈ joinS c%"," f.parameters.unknownTokens := by
      rw [mem_joinS_sep (by decide)]
      exact ⟨u, by rw [hus]; simp, (htok u (by rw [hus]; simp)).1⟩
    have hqs : ';' ∉ joinS c%"," f.parameters.unknownTokens := by
      rw [mem_joinS_sep (by decide)]
      rintro ⟨t, ht, hm⟩
      exact (htok t ht).2 hm
    have hl : nonEmpty (fmtpPieces f.parameters) = nonEmpty (fmtpOrder.map (pieceOf f.parameters)) ++
        [joinS c%"," f.parameters.unknownTokens] := by
      rw [fmtpPieces_eq, nonEmpty_append, hq]
    have e : showFmtpParams f.parameters = joinS c%";" (nonEmpty (fmtpPieces f.parameters)) := by
      simp [showFmtpParams, hr, htones, henc]
    have hpp : ∀ s ∈ nonEmpty (fmtpOrder.map (pieceOf f.parameters)), ';' ∉ s := by
      intro s hs
      simp only [nonEmpty, List.mem_filter] at hs
      obtain ⟨hs, hne⟩ := hs
      obtain ⟨g, hg, rfl⟩ := List.mem_map.1 hs
      rcases pieceOf_cases hrange (f := g) (by rintro rfl; simp [fmtpOrder] at hg) with ⟨h1, -⟩ | ⟨n, -, h⟩
      · rw [h1] at hne; simp at hne
      · exact h.facts.2.2.1
    have hs : splitC ';' (showFmtpParams f.parameters) = nonEmpty (fmtpOrder.map (pieceOf f.parameters)) ++
        [joinS c%"," f.parameters.unknownTokens] := by
      rw [e, hl]
      refine splitC_joinS (by simp) fun t ht => ?_
      rcases List.mem_append.1 ht with ht | ht
      · exact hpp t ht
      · simp only [List.mem_singleton] at ht
        rw [ht]; exact hqs
    have hnb : ¬ Blank (joinS c%"," f.parameters.unknownTokens) := fun hb => absurd (hb '=' hqe) (by decide)
    rw [splitC_trimEnd hs hnb] at hp
    obtain ⟨n, v, -, -, e3⟩ := trimEnd_name hqe
    have hqt : trimEnd (joinS c%"," f.parameters.unknownTokens) ≠ [] := by rw [e3]; simp
    have hfl : (nonEmpty (fmtpOrder.map (pieceOf f.parameters)) ++ [trimEnd (joinS c%"," f.parameters.unknownTokens)]).filter
        (fun t => !t.isEmpty) = nonEmpty (fmtpOrder.map (pieceOf f.parameters)) ++
          [trimEnd (joinS c%"," f.parameters.unknownTokens)] := by
      rw [List.filter_append]
      congr 1
      · unfold nonEmpty; rw [List.filter_filter]; simp
      · simp [hqt]
    rw [hfl, fmtpParamList_snoc] at hp
    obtain ⟨q, hq1, hstep⟩ := hp
    obtain ⟨r, k1, -, -, -, k5, -, -⟩ := paramList_pieces hrange (fs := fmtpOrder) (by decide) (by decide)
      (q := FmtpParams.default) fun f _ => get_default f
    rw [k1] at hq1
    obtain rfl := Outcome.ok.inj hq1
    have k5 : r.unknownTokens = [] := k5
    have hfin : f.parameters.unknownTokens = [trimEnd (joinS c%"," f.parameters.unknownTokens)] := by
      generalize hP : f.parameters = P at *
      generalize hQ : trimEnd (joinS c%"," P.unknownTokens) = Q at *
      cases hstep with
      | field g n _ _ _ _ => exact absurd (by rw [(FmtpField.set_unknown g r _).1, k5]) hu
      | rtxTime => exact absurd k5 hu
      | unknown => simp [k5]
    have hus' : us = [] := by
      rw [hus] at hfin; simpa using (List.cons.inj hfin).2
    rw [hus'] at hus
    have htu : trimEnd u = u := by
      rw [hus] at hfin
      simpa [joinS] using hfin.symm
    refine ⟨fun h => absurd hr h, by simp [hus], ?_, fun _ => some⟩
    intro t ht
    rw [hus] at ht
    simp only [List.mem_singleton] at ht
    subst ht
    exact endsClean_of_trimEnd htu (hun t (by rw [hus]; simp))

/-- What is read back loses nothing. -/
theorem plain_of_back (L : Laws) {a : Attribute} (h : attrFromStr (showAttribute a) = .ok a) : a.Plain := by
  cases a with
  | fmtp f => exact back_fmtp h
  | imageAttr i => exact back_imageAttr L h
  | msidSemantic m => exact back_msidSemantic h
  | rid r => exact back_rid h
  | simulcast s => exact back_simulcast h
  | _ => trivial

/-- Exactly the well-formed attributes are read back. -/
theorem attr_back_iff (L : Laws) {a : Attribute} : attrFromStr (showAttribute a) = .ok a ↔ a.WF :=
  ⟨fun h => attr_wf L h (plain_of_back L h), fun h => (attr_round h).2⟩

end

end Sdp
