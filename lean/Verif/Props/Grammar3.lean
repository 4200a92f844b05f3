import Verif.Props.Grammar2
import Verif.Lemmas.FloatShow
import Verif.Lemmas.Print4

/-!
# C67: image attributes

The texts are shorter than 2^31 characters, as in C01.
-/

namespace Sdp

/-! ## Tokens -/

/-- Pieces that no more close than they have opened. -/
abbrev OpenPieces (ps : List Str) : Prop := ∀ a b, ps = a ++ b → a ≠ [] → openedIn a ≠ 0

/-- Pieces that close at the end and not before. -/
abbrev ClosedPieces (g : List Str) : Prop :=
  g ≠ [] ∧ openedIn g = 0 ∧ ∀ a b, g = a ++ b → a ≠ [] → b ≠ [] → openedIn a ≠ 0

theorem openedIn_snoc (ps : List Str) (t : Str) : openedIn (ps ++ [t]) = openedIn ps + opened t := by
  simp [openedIn]

theorem OpenPieces.snoc {ps : List Str} {t : Str} (h : OpenPieces ps) (ht : openedIn (ps ++ [t]) ≠ 0) :
    OpenPieces (ps ++ [t]) := by
  intro a b e ha
  rcases List.eq_nil_or_concat b with rfl | ⟨b', x, rfl⟩
  · rw [List.append_nil] at e; rw [← e]; exact ht
  · rw [List.concat_eq_append, ← List.append_assoc] at e
    exact h a b' (List.append_inj' e rfl).1 ha

theorem OpenPieces.closed {ps : List Str} {t : Str} (h : OpenPieces ps) (ht : openedIn (ps ++ [t]) = 0) :
    ClosedPieces (ps ++ [t]) := by
  refine ⟨by simp, ht, ?_⟩
  intro a b e ha hb
  rcases List.eq_nil_or_concat b with rfl | ⟨b', x, rfl⟩
  · exact absurd rfl hb
  · rw [List.concat_eq_append, ← List.append_assoc] at e
    exact h a b' (List.append_inj' e rfl).1 ha

theorem ClosedPieces.eq {g h x y : List Str} (hg : ClosedPieces g) (hh : ClosedPieces h) (e : g ++ x = h ++ y) :
    g = h ∧ x = y := by
  rcases List.append_eq_append_iff.1 e with ⟨c, rfl, rfl⟩ | ⟨c, rfl, rfl⟩
  · by_cases hc : c = []
    · subst hc; simp
    · exact absurd hg.2.1 (hh.2.2 _ _ rfl hg.1 hc)
  · by_cases hc : c = []
    · subst hc; simp
    · exact absurd hh.2.1 (hg.2.2 _ _ rfl hh.1 hc)

theorem imageTokensLoop_iff {sep : Char} {cur l ts : List Str} (k : Nat) (ho : OpenPieces cur)
    (hn : -(k : Int) ≤ openedIn cur ∧ openedIn cur ≤ k) (hk : k + l.length < 2^31) :
    imageTokensLoop sep (openedIn cur) cur l = .ok ts ↔
      ∃ (groups : List (List Str)) (rest : List Str), cur ++ l = groups.flatten ++ rest ∧
        ts = groups.map (joinS [sep]) ∧ (∀ g ∈ groups, ClosedPieces g) ∧ OpenPieces rest := by
  induction l generalizing cur ts k with
  | nil =>
    simp only [imageTokensLoop, Outcome.ok.injEq, List.append_nil]
    constructor
    · rintro rfl; exact ⟨[], cur, by simp, rfl, by simp, ho⟩
    · rintro ⟨groups, rest, e, rfl, hg, hr⟩
      cases groups with
      | nil => rfl
      | cons g gs =>
        have := hg g (by simp)
        rw [List.flatten_cons, List.append_assoc] at e
        exact absurd this.2.1 (ho g _ e this.1)
  | cons t l ih =>
    have e2 : (if ']' ∈ t then (if '[' ∈ t then openedIn cur + 1 else openedIn cur) - 1
        else if '[' ∈ t then openedIn cur + 1 else openedIn cur) = openedIn (cur ++ [t]) := by
      rw [openedIn_snoc]; unfold opened
      by_cases h1 : '[' ∈ t <;> by_cases h2 : ']' ∈ t <;> simp [h1, h2] <;> omega
    have hb : openedIn (cur ++ [t]) ≤ k + 1 ∧ -((k : Int) + 1) ≤ openedIn (cur ++ [t]) := by
      rw [openedIn_snoc]; unfold opened
      by_cases h1 : '[' ∈ t <;> by_cases h2 : ']' ∈ t <;> simp [h1, h2] <;> omega
    have hb1 : (if '[' ∈ t then openedIn cur + 1 else openedIn cur) ≤ k + 1 := by split <;> omega
    simp only [List.length_cons] at hk
    simp only [imageTokensLoop]
    rw [if_neg (by omega), e2, if_neg (by omega)]
    by_cases h0 : openedIn (cur ++ [t]) = 0
    · rw [if_pos h0]
      have hc := ho.closed h0
      have this (ts' : List Str) := ih (cur := []) (ts := ts') (k := 0) (by rintro a b e ha; simp at e; exact absurd e.1 ha) (by simp [openedIn]) (by omega)
      have z : openedIn [] = 0 := rfl
      simp only [z] at this
      simp only [bind_eq_ok, h0, this, List.nil_append]
      constructor
      · rintro ⟨ts', ⟨gs, rest, rfl, rfl, hg, hr⟩, h⟩
        simp at h; subst h
        refine ⟨(cur ++ [t]) :: gs, rest, by simp, by simp, ?_, hr⟩
        intro g hg'
        rcases List.mem_cons.1 hg' with rfl | hg'
        · exact hc
        · exact hg g hg'
      · rintro ⟨gs, rest, e, rfl, hg, hr⟩
        cases gs with
        | nil =>
          simp only [List.flatten_nil, List.nil_append] at e
          exact absurd h0 (hr (cur ++ [t]) l (by rw [← e]; simp) (by simp))
        | cons g gs =>
          obtain ⟨rfl, rfl⟩ := hc.eq (hg g (by simp)) (x := l) (y := gs.flatten ++ rest) (by simpa using e)
          exact ⟨_, ⟨gs, rest, rfl, rfl, fun g h => hg g (by simp [h]), hr⟩, by simp⟩
    · rw [if_neg h0, ih (k := k + 1) (ho.snoc h0) (by push_cast; omega) (by omega)]
      simp

theorem tokens_iff {sep : Char} {s : Str} {ts : List Str} (h : s.length + 1 < 2^31) :
    imageTokens s sep = .ok ts ↔ TokensText sep s ts := by
  have hl : 0 + (splitC sep s).length < 2^31 := by
    rw [splitC_length]
    have := List.count_le_length (a := sep) (l := s)
    omega
  have := imageTokensLoop_iff (sep := sep) (cur := []) (l := splitC sep s) (ts := ts) 0
    (by rintro a b e ha; simp at e; exact absurd e.1 ha) (by simp [openedIn]) hl
  unfold imageTokens TokensText
  simp only [fields_iff]
  exact Iff.trans (show imageTokensLoop sep 0 [] (splitC sep s) = .ok ts ↔ _ from this) (by simp)

/-! ## Ranges -/

theorem braced_iff {s u : Str} : bracedToken s = some u ↔ s = '[' :: u ++ [']'] := by
  constructor
  · intro h
    unfold bracedToken at h
    cases s with
    | nil => simp [startsWithC] at h
    | cons c cs =>
      by_cases hc : c = '['
      · subst hc
        rcases List.eq_nil_or_concat cs with rfl | ⟨a, z, rfl⟩
        · simp [startsWithC, endsWithC] at h
        · by_cases hz : z = ']'
          · subst hz
            simp [startsWithC, endsWithC] at h
            rw [← h.2]; simp
          · have : ('[' :: (a ++ [z])).getLast? = some z := List.getLast?_append_of_ne_nil ('[' :: a) (by simp)
            simp [startsWithC, endsWithC, this, hz] at h
      · simp [startsWithC, hc] at h
  · rintro rfl; simpa using bracedToken_braces u

theorem DecText.head {t : Str} {n : Nat} (h : DecText t n) : t.head? ≠ some '[' := by
  have := h.not_mem (c := '[') (by decide) (by decide)
  cases t with
  | nil => simp
  | cons c cs => simp at this ⊢; exact fun h => this.1 h.symm

theorem xyRange_iff {t : Str} {r : XyRange} : parseXyRange t = .ok r ↔ XyRangeText t r := by
  have nums {fs : List Str} {ns : List UInt32} : collect parseU32 fs = .ok ns ↔
      Each (fun f (n : UInt32) => DecText f n.toNat) fs ns := collect_each fun _ _ _ => parseU32_ok
  constructor
  · intro h0
    unfold parseXyRange at h0
    rcases ite_cases h0 with ⟨hs, h⟩ | ⟨hs, h⟩ <;> clear h0
    · simp only [bind_eq_ok, okOr_eq_ok, braced_iff] at h
      obtain ⟨u, rfl, h⟩ := h
      rcases ite_cases h with ⟨hc, h1⟩ | ⟨hc, h1⟩ <;> clear h
      · rcases ite_cases h1 with ⟨hl, h⟩ | ⟨-, h⟩ <;> clear h1
        · rcases hv : splitC ':' u with _ | ⟨a, _ | ⟨b, _ | ⟨c, _ | ⟨d, r⟩⟩⟩⟩ <;> rw [hv] at hl h <;> simp at hl
          simp only [idx, List.getElem?_cons_zero, List.getElem?_cons_succ, ok_bind, bind_eq_ok, parseU32_ok, pure_eq_ok,
            Outcome.ok.injEq] at h
          obtain ⟨mn, h1, mx, h2, st, h3, rfl⟩ := h
          exact ⟨u, a, b, c, rfl, fields_iff.2 hv, h1, h3, h2⟩
        · rcases ite_cases h with ⟨hl, h1⟩ | ⟨-, h1⟩ <;> clear h
          · rcases hv : splitC ':' u with _ | ⟨a, _ | ⟨b, _ | ⟨c, r⟩⟩⟩ <;> rw [hv] at hl h1 <;> simp at hl
            simp only [idx, List.getElem?_cons_zero, List.getElem?_cons_succ, ok_bind, bind_eq_ok, parseU32_ok, pure_eq_ok,
              Outcome.ok.injEq] at h1
            obtain ⟨mn, h1, mx, h2, rfl⟩ := h1
            exact ⟨u, a, b, rfl, fields_iff.2 hv, h1, h2⟩
          · simp at h1
      · simp only [bind_eq_ok, nums] at h1
        obtain ⟨ns, hns, h⟩ := h1
        rcases ite_cases h with ⟨-, h1⟩ | ⟨hl, h1⟩ <;> clear h
        · simp at h1
        · simp at h1; subst h1
          refine .inr ⟨u, _, rfl, ?_, fields_iff.2 rfl, hns, by omega⟩
          intro h; exact hc (by simp [h])
    · simp only [bind_eq_ok, parseU32_ok, pure_eq_ok, Outcome.ok.injEq] at h
      obtain ⟨n, hn, rfl⟩ := h
      exact .inl ⟨n, rfl, hn⟩
  · intro h
    unfold parseXyRange
    have hs (u : Str) : startsWithC '[' ('[' :: u ++ [']']) = true := by simp [startsWithC]
    have colon {u : Str} {a b : Str} {more : List Str} (h : Fields ':' u (a :: b :: more)) : ':' ∈ u := by
      rw [h.2.2]; simp [joinS]
    rcases r with ⟨mn, mx, _ | st⟩ | ns
    · obtain ⟨u, a, b, rfl, hf, h1, h2⟩ := h
      rw [if_pos (hs u)]
      simp only [bind_eq_ok, okOr_eq_ok, braced_iff]
      refine ⟨u, rfl, ?_⟩
      rw [if_pos (by simp [colon hf]), fields_iff.1 hf, if_neg (by simp), if_pos (by simp)]
      simp only [idx, List.getElem?_cons_zero, List.getElem?_cons_succ, ok_bind, bind_eq_ok, parseU32_ok, pure_eq_ok]
      exact ⟨mn, h1, mx, h2, rfl⟩
    · obtain ⟨u, a, b, c, rfl, hf, h1, h2, h3⟩ := h
      rw [if_pos (hs u)]
      simp only [bind_eq_ok, okOr_eq_ok, braced_iff]
      refine ⟨u, rfl, ?_⟩
      rw [if_pos (by simp [colon hf]), fields_iff.1 hf, if_pos (by simp)]
      simp only [idx, List.getElem?_cons_zero, List.getElem?_cons_succ, ok_bind, bind_eq_ok, parseU32_ok, pure_eq_ok]
      exact ⟨mn, h1, mx, h3, st, h2, rfl⟩
    · rcases h with ⟨n, rfl, hn⟩ | ⟨u, fs, rfl, hc, hf, he, hl⟩
      · rw [if_neg (by simpa [startsWithC] using hn.head)]
        simp only [bind_eq_ok, parseU32_ok, pure_eq_ok]
        exact ⟨n, hn, rfl⟩
      · rw [if_pos (hs u)]
        simp only [bind_eq_ok, okOr_eq_ok, braced_iff]
        refine ⟨u, rfl, ?_⟩
        rw [if_neg (by simp [hc]), fields_iff.1 hf]
        simp only [bind_eq_ok, nums]
        refine ⟨ns, he, ?_⟩
        rw [if_neg (by omega)]
        rfl

section
variable [Env]

omit [Env] in
theorem f32_iff {t : Str} {x : F32} : parseF32 t = .ok x ↔ F32Text t x := by
  rw [← F32.ofText_iff]
  unfold parseF32
  cases h : F32.ofText t <;> simp

omit [Env] in
theorem psRange_iff {t : Str} {mn mx : F32} : parsePsRange t = .ok (mn, mx) ↔ PsRangeText t mn mx := by
  unfold parsePsRange PsRangeText
  simp only [fields_iff]
  constructor
  · intro h0
    rcases ite_cases h0 with ⟨-, h⟩ | ⟨hl, h⟩ <;> clear h0
    · simp at h
    rcases hv : splitC '-' t with _ | ⟨a, _ | ⟨b, _ | ⟨c, r⟩⟩⟩ <;> rw [hv] at hl h <;> simp at hl
    simp only [idx, List.getElem?_cons_zero, List.getElem?_cons_succ, ok_bind, bind_eq_ok, f32_iff] at h
    obtain ⟨x, hx, y, hy, h1⟩ := h
    rcases ite_cases h1 with ⟨-, h⟩ | ⟨hg, h⟩ <;> clear h1
    · simp at h
    · simp at h; obtain ⟨rfl, rfl⟩ := h
      exact ⟨a, b, rfl, hx, hy, F32.ge_false_iff.1 (by simpa using hg)⟩
  · rintro ⟨a, b, hv, hx, hy, hg⟩
    rw [hv, if_neg (by simp)]
    simp only [idx, List.getElem?_cons_zero, List.getElem?_cons_succ, ok_bind, bind_eq_ok, f32_iff]
    refine ⟨mn, hx, mx, hy, ?_⟩
    rw [if_neg (by simp [F32.ge_false_iff.2 hg])]
    rfl

omit [Env] in
theorem sarAscending_iff {x : F32} {vs : List F32} : sarAscending x vs = .ok () ↔
    ∀ a y z b, x :: vs = a ++ y :: z :: b → ¬ y.AtLeast z := by
  simp only [← F32.ge_false_iff]
  induction vs generalizing x with
  | nil =>
    simp only [sarAscending, true_iff]
    intro a y z b h
    have := congrArg List.length h
    simp at this; omega
  | cons v vs ih =>
    simp only [sarAscending]
    by_cases hg : x.ge v = true
    · rw [if_pos hg]
      simp only [egeneric_eq_ok, false_iff]
      intro h
      rw [h [] x v vs rfl] at hg; simp at hg
    · rw [if_neg hg, ih]
      constructor
      · intro h a y z b e
        cases a with
        | nil => simp at e; obtain ⟨rfl, rfl, rfl⟩ := e; simpa using hg
        | cons a as => simp at e; exact h as y z b e.2
      · intro h a y z b e
        exact h (x :: a) y z b (by rw [e]; rfl)

theorem sar_iff {k k' : ImgKeys} {v : Str} :
    imageKey k (c%"sar=" ++ v) = .ok k' ↔ ∃ r, SarText v r ∧ k' = { k with sar := r.or k.sar } := by
  unfold imageKey
  simp only [stripPrefix_eq_some.2 rfl]
  have hmem (c : Char) (u : Str) (h1 : c ≠ '[') (h2 : c ≠ ']') : c ∈ '[' :: u ++ [']'] ↔ c ∈ u := by simp [h1, h2]
  constructor
  · intro h0
    rcases ite_cases h0 with ⟨hs, h⟩ | ⟨hs, h⟩ <;> clear h0
    · simp only [bind_eq_ok, okOr_eq_ok, braced_iff] at h
      obtain ⟨u, rfl, h1⟩ := h
      simp only [hmem '-' u (by decide) (by decide), hmem ',' u (by decide) (by decide)] at h1
      rcases ite_cases h1 with ⟨hd, h⟩ | ⟨hd, h⟩ <;> clear h1
      · simp only [bind_eq_ok, pure_eq_ok, Outcome.ok.injEq] at h
        obtain ⟨⟨mn, mx⟩, h1, rfl⟩ := h
        exact ⟨some (.range mn mx), .inr ⟨u, rfl, .inl ⟨hd, mn, mx, psRange_iff.1 h1, rfl⟩⟩, by simp⟩
      · rcases ite_cases h with ⟨hc, h1⟩ | ⟨hc, h1⟩ <;> clear h
        · simp only [bind_eq_ok] at h1
          obtain ⟨xs, hx, h⟩ := h1
          rcases ite_cases h with ⟨-, h1⟩ | ⟨-, h1⟩ <;> clear h
          · simp at h1
          · simp only [bind_eq_ok, pure_eq_ok, Outcome.ok.injEq] at h1
            obtain ⟨x, h2, rfl⟩ := h1
            cases x
            exact ⟨some (.discrete xs), .inr ⟨u, rfl, .inr (.inl ⟨hd, hc, _, xs, fields_iff.2 rfl,
              (collect_each fun _ _ _ => f32_iff).1 hx, sarAscending_iff.1 h2, rfl⟩)⟩, by simp⟩
        · simp at h1; subst h1
          exact ⟨none, .inr ⟨u, rfl, .inr (.inr ⟨hd, hc, rfl⟩)⟩, by simp⟩
    · simp only [bind_eq_ok, pure_eq_ok, Outcome.ok.injEq, f32_iff] at h
      obtain ⟨x, hx, rfl⟩ := h
      exact ⟨_, .inl ⟨by simpa [startsWithC] using hs, x, hx, rfl⟩, by simp⟩
  · have hs (u : Str) : startsWithC '[' ('[' :: u ++ [']']) = true := by simp [startsWithC]
    rintro ⟨r, ⟨hh, x, hx, rfl⟩ | ⟨u, rfl, h⟩, rfl⟩
    · rw [if_neg (by simpa [startsWithC] using hh)]
      simp only [bind_eq_ok, f32_iff]
      exact ⟨x, hx, by simp⟩
    · rw [if_pos (hs u)]
      simp only [bind_eq_ok, okOr_eq_ok, braced_iff]
      refine ⟨u, rfl, ?_⟩
      simp only [hmem '-' u (by decide) (by decide), hmem ',' u (by decide) (by decide)]
      rcases h with ⟨hd, mn, mx, h, rfl⟩ | ⟨hd, hc, fs, xs, hf, he, ha, rfl⟩ | ⟨hd, hc, rfl⟩
      · rw [if_pos hd, psRange_iff.2 h]; rfl
      · rw [if_neg hd, if_pos hc, fields_iff.1 hf]
        simp only [bind_eq_ok]
        refine ⟨xs, (collect_each fun _ _ _ => f32_iff).2 he, ?_⟩
        have : 2 ≤ xs.length := by
          have h1 := splitC_two_le hc
          rw [fields_iff.1 hf, (each_iff.1 he).length_eq] at h1
          exact h1
        rw [if_neg (by omega), sarAscending_iff.2 ha]
        rfl
      · rw [if_neg hd, if_neg hc]; rfl

theorem par_iff {k k' : ImgKeys} {v : Str} :
    imageKey k (c%"par=" ++ v) = .ok k' ↔
      ∃ r : PRange, (∃ u, v = '[' :: u ++ [']'] ∧ PsRangeText u r.min r.max) ∧ k' = { k with par := some r } := by
  unfold imageKey
  have : stripPrefix c%"sar=" (c%"par=" ++ v) = none := by simp [stripPrefix]
  simp only [this, stripPrefix_eq_some.2 rfl]
  constructor
  · intro h0
    rcases ite_cases h0 with ⟨hs, h⟩ | ⟨hs, h⟩ <;> clear h0
    · simp at h
    · simp only [bind_eq_ok, okOr_eq_ok, braced_iff, pure_eq_ok, Outcome.ok.injEq] at h
      obtain ⟨u, rfl, ⟨mn, mx⟩, h1, rfl⟩ := h
      exact ⟨⟨mn, mx⟩, ⟨u, rfl, psRange_iff.1 h1⟩, rfl⟩
  · rintro ⟨⟨mn, mx⟩, ⟨u, rfl, h1⟩, rfl⟩
    rw [if_neg (by simp [startsWithC])]
    simp only [bind_eq_ok, okOr_eq_ok, braced_iff, pure_eq_ok]
    exact ⟨u, rfl, (mn, mx), psRange_iff.2 h1, rfl⟩

theorem q_iff {k k' : ImgKeys} {v : Str} :
    imageKey k (c%"q=" ++ v) = .ok k' ↔ ∃ x, F32Text v x ∧ k' = { k with q := some x } := by
  unfold imageKey
  have h1 : stripPrefix c%"sar=" (c%"q=" ++ v) = none := by simp [stripPrefix]
  have h2 : stripPrefix c%"par=" (c%"q=" ++ v) = none := by simp [stripPrefix]
  simp only [h1, h2, stripPrefix_eq_some.2 rfl, bind_eq_ok, f32_iff, pure_eq_ok, Outcome.ok.injEq]
  exact exists_congr fun x => and_congr_right fun _ => eq_comm

omit [Env] in
theorem strip_prefix (key t : Str) :
    (if key.isPrefixOf t then some (t.drop key.length) else none) = stripPrefix key t := by
  induction key generalizing t with
  | nil => simp [stripPrefix]
  | cons k ks ih =>
    cases t with
    | nil => simp [stripPrefix, List.isPrefixOf]
    | cons c cs =>
      by_cases h : k = c
      · subst h; simpa [stripPrefix, List.isPrefixOf] using ih cs
      · simp [stripPrefix, List.isPrefixOf, h]

omit [Env] in
theorem valuesOf_cons (key t : Str) (ts : List Str) :
    valuesOf key (t :: ts) = (stripPrefix key t).toList ++ valuesOf key ts := by
  unfold valuesOf
  rw [List.filterMap_cons, strip_prefix]
  cases stripPrefix key t <;> rfl

omit [Env] in
theorem getLast?_cons_or {α : Type} (a : α) (l : List α) (o : Option α) :
    ((a :: l).getLast?).or o = (l.getLast?).or (some a) := by
  cases l with
  | nil => rfl
  | cons b l => simp [List.getLast?_cons_cons, List.getLast?_cons]

theorem imageKeys_iff {k k' : ImgKeys} {ts : List Str} :
    imageKeys k ts = .ok k' ↔
    (∃ rs, Each SarText (valuesOf c%"sar=" ts) rs ∧ k'.sar = ((rs.filterMap id).getLast?).or k.sar) ∧
    (∃ rs, Each (fun v (r : PRange) => ∃ u, v = '[' :: u ++ [']'] ∧ PsRangeText u r.min r.max) (valuesOf c%"par=" ts) rs ∧
      k'.par = rs.getLast?.or k.par) ∧
    (∃ rs, Each F32Text (valuesOf c%"q=" ts) rs ∧ k'.q = rs.getLast?.or k.q) := by
  induction ts generalizing k with
  | nil =>
    obtain ⟨a, b, c⟩ := k; obtain ⟨a', b', c'⟩ := k'
    simp only [imageKeys, valuesOf, List.filterMap_nil, Outcome.ok.injEq, ImgKeys.mk.injEq]
    constructor
    · rintro ⟨rfl, rfl, rfl⟩; exact ⟨⟨[], trivial, rfl⟩, ⟨[], trivial, rfl⟩, ⟨[], trivial, rfl⟩⟩
    · rintro ⟨⟨r1, h1, e1⟩, ⟨r2, h2, e2⟩, ⟨r3, h3, e3⟩⟩
      cases r1 <;> cases r2 <;> cases r3 <;> simp [Each] at h1 h2 h3
      exact ⟨e1.symm, e2.symm, e3.symm⟩
  | cons t ts ih =>
    simp only [imageKeys, bind_eq_ok, valuesOf_cons, ih]
    rcases hs : stripPrefix c%"sar=" t with _ | v
    · rcases hp : stripPrefix c%"par=" t with _ | v
      · rcases hq : stripPrefix c%"q=" t with _ | v
        · have : imageKey k t = .ok k := by unfold imageKey; simp only [hs, hp, hq]
          simp [this]
        · obtain rfl := stripPrefix_eq_some.1 hq
          simp only [q_iff, Option.toList, List.nil_append, List.singleton_append]
          constructor
          · rintro ⟨m, ⟨x, hx, rfl⟩, h1, h2, rs, h3, h4⟩
            exact ⟨h1, h2, x :: rs, ⟨hx, h3⟩, by rw [getLast?_cons_or]; exact h4⟩
          · rintro ⟨h1, h2, rs, h3, h4⟩
            cases rs with
            | nil => exact h3.elim
            | cons x rs =>
              rw [getLast?_cons_or] at h4
              exact ⟨_, ⟨x, h3.1, rfl⟩, h1, h2, rs, h3.2, h4⟩
      · obtain rfl := stripPrefix_eq_some.1 hp
        have hq : stripPrefix c%"q=" (c%"par=" ++ v) = none := by simp [stripPrefix]
        simp only [par_iff, Option.toList, List.nil_append, List.singleton_append, hq]
        constructor
        · rintro ⟨m, ⟨x, hx, rfl⟩, h1, ⟨rs, h3, h4⟩, h2⟩
          exact ⟨h1, ⟨x :: rs, ⟨hx, h3⟩, by rw [getLast?_cons_or]; exact h4⟩, h2⟩
        · rintro ⟨h1, ⟨rs, h3, h4⟩, h2⟩
          cases rs with
          | nil => exact h3.elim
          | cons x rs =>
            rw [getLast?_cons_or] at h4
            exact ⟨_, ⟨x, h3.1, rfl⟩, h1, ⟨rs, h3.2, h4⟩, h2⟩
    · obtain rfl := stripPrefix_eq_some.1 hs
      have hq : stripPrefix c%"q=" (c%"sar=" ++ v) = none := by simp [stripPrefix]
      have hp : stripPrefix c%"par=" (c%"sar=" ++ v) = none := by simp [stripPrefix]
      have key (r : Option SRange) (rs : List (Option SRange)) (o : Option SRange) :
          (((r :: rs).filterMap id).getLast?).or o = ((rs.filterMap id).getLast?).or (r.or o) := by
        cases r with
        | none => rfl
        | some x => simp only [List.filterMap_cons, id_eq]; rw [getLast?_cons_or]; rfl
      simp only [sar_iff, Option.toList, List.nil_append, List.singleton_append, hq, hp]
      constructor
      · rintro ⟨m, ⟨x, hx, rfl⟩, ⟨rs, h3, h4⟩, h1, h2⟩
        exact ⟨⟨x :: rs, ⟨hx, h3⟩, by rw [key]; exact h4⟩, h1, h2⟩
      · rintro ⟨⟨rs, h3, h4⟩, h1, h2⟩
        cases rs with
        | nil => exact h3.elim
        | cons x rs =>
          rw [key] at h4
          exact ⟨_, ⟨x, h3.1, rfl⟩, ⟨rs, h3.2, h4⟩, h1, h2⟩

/-! ## Sets -/

theorem imageSet_iff {t : Str} {s : ImageAttrSet} (h : t.length < 2^31) :
    parseBracedSet t = .ok s ↔ ImageSetText t s := by
  unfold parseBracedSet ImageSetText parseImageSet
  simp only [bind_eq_ok, okOr_eq_ok, braced_iff]
  obtain ⟨x, y, sar, par, q⟩ := s
  constructor
  · rintro ⟨u, rfl, ts, hts, h0⟩
    rw [tokens_iff (by simp at h ⊢; omega)] at hts
    rcases ts with _ | ⟨xt, ts⟩
    · simp at h0
    simp only at h0
    rcases ite_cases h0 with ⟨-, h1⟩ | ⟨hx, h1⟩ <;> clear h0
    · simp at h1
    have hx : startsWith c%"x=" xt = true := by simpa using hx
    obtain ⟨xv, hxv⟩ := Option.isSome_iff_exists.1 hx
    obtain rfl := stripPrefix_eq_some.1 hxv
    simp only [bind_eq_ok, sliceFrom_eq_ok, xyRange_iff] at h1
    obtain ⟨_, ⟨-, rfl⟩, x', hx', h0⟩ := h1
    rcases ts with _ | ⟨yt, ts⟩
    · simp at h0
    simp only at h0
    rcases ite_cases h0 with ⟨-, h1⟩ | ⟨hy, h1⟩ <;> clear h0
    · simp at h1
    have hy : startsWith c%"y=" yt = true := by simpa using hy
    obtain ⟨yv, hyv⟩ := Option.isSome_iff_exists.1 hy
    obtain rfl := stripPrefix_eq_some.1 hyv
    simp only [bind_eq_ok, sliceFrom_eq_ok, xyRange_iff, imageKeys_iff, Option.or_none] at h1
    obtain ⟨_, ⟨-, rfl⟩, y', hy', k, hk, h0⟩ := h1
    simp at h0; obtain ⟨rfl, rfl, rfl, rfl, rfl⟩ := h0
    exact ⟨u, xv, yv, ts, rfl, hts, hx', hy', hk⟩
  · rintro ⟨u, xv, yv, ts, rfl, hts, hx, hy, hk⟩
    refine ⟨u, rfl, _, (tokens_iff (by simp at h ⊢; omega)).2 hts, ?_⟩
    simp only
    rw [if_neg (by simp [startsWith, stripPrefix])]
    simp only [bind_eq_ok, sliceFrom_eq_ok, xyRange_iff]
    refine ⟨xv, ⟨by simp, rfl⟩, x, hx, ?_⟩
    rw [if_neg (by simp [startsWith, stripPrefix])]
    simp only [bind_eq_ok, sliceFrom_eq_ok, xyRange_iff, imageKeys_iff, Option.or_none]
    exact ⟨yv, ⟨by simp, rfl⟩, y, hy, ⟨sar, par, q⟩, hk, rfl⟩

omit [Env] in
theorem ImageSetText.head {t : Str} {s : ImageAttrSet} (h : ImageSetText t s) : startsWithC '[' t = true := by
  obtain ⟨u, x, y, ts, rfl, -⟩ := h
  simp [startsWithC]

theorem moreSets_iff {ts : List Str} (hl : ∀ t ∈ ts, t.length < 2^31) {ss : List ImageAttrSet} {rest : List Str} :
    moreSets ts = .ok (ss, rest) ↔
      ∃ pre, ts = pre ++ rest ∧ Each ImageSetText pre ss ∧ ∀ t, rest.head? = some t → startsWithC '[' t = false := by
  induction ts generalizing ss with
  | nil =>
    simp only [moreSets, Outcome.ok.injEq, Prod.mk.injEq]
    constructor
    · rintro ⟨rfl, rfl⟩; exact ⟨[], rfl, trivial, by simp⟩
    · rintro ⟨pre, e, h, -⟩
      simp at e; obtain ⟨rfl, rfl⟩ := e
      cases ss with
      | nil => exact ⟨rfl, rfl⟩
      | cons s ss => exact h.elim
  | cons t ts ih =>
    unfold moreSets
    by_cases hs : startsWithC '[' t = true
    · rw [if_pos hs]
      simp only [bind_eq_ok, imageSet_iff (hl t (by simp))]
      constructor
      · rintro ⟨s, h1, ⟨more, rest'⟩, h2, h3⟩
        simp at h3; obtain ⟨rfl, rfl⟩ := h3
        obtain ⟨pre, rfl, h4, h5⟩ := (ih fun t h => hl t (by simp [h])).1 h2
        exact ⟨t :: pre, rfl, ⟨h1, h4⟩, h5⟩
      · rintro ⟨pre, e, h4, h5⟩
        cases pre with
        | nil =>
          simp at e; subst e
          rw [h5 t (by simp)] at hs; simp at hs
        | cons p pre =>
          simp at e; obtain ⟨rfl, rfl⟩ := e
          cases ss with
          | nil => exact h4.elim
          | cons s ss =>
            exact ⟨s, h4.1, (ss, rest), (ih fun t h => hl t (by simp [h])).2 ⟨pre, rfl, h4.2, h5⟩, rfl⟩
    · rw [if_neg hs]
      simp only [Outcome.ok.injEq, Prod.mk.injEq]
      constructor
      · rintro ⟨rfl, rfl⟩; exact ⟨[], rfl, trivial, by simpa using hs⟩
      · rintro ⟨pre, e, h4, h5⟩
        cases pre with
        | nil =>
          cases ss with
          | nil => exact ⟨rfl, e⟩
          | cons s ss => exact h4.elim
        | cons p pre =>
          simp at e; obtain ⟨rfl, rfl⟩ := e
          cases ss with
          | nil => exact h4.elim
          | cons s ss => exact absurd h4.1.head hs

theorem setList_iff {ts : List Str} (hl : ∀ t ∈ ts, t.length < 2^31) {l : ImageAttrSetList} {rest : List Str} :
    parseSetList ts = .ok (l, rest) ↔
      ∃ pre, ts = pre ++ rest ∧ ImageSetsText pre l ∧
        (l = .wildcard ∨ ∀ t, rest.head? = some t → startsWithC '[' t = false) := by
  cases ts with
  | nil =>
    simp only [parseSetList, egeneric_eq_ok, false_iff]
    rintro ⟨pre, e, h, -⟩
    simp at e; obtain ⟨rfl, rfl⟩ := e
    rcases h with ⟨h, -⟩ | ⟨ss, h, -⟩
    · simp at h
    · exact h rfl
  | cons t ts =>
    simp only [parseSetList]
    by_cases ht : t = c%"*"
    · simp only [ht, if_true, Outcome.ok.injEq, Prod.mk.injEq]
      constructor
      · rintro ⟨rfl, rfl⟩; exact ⟨[c%"*"], rfl, .inl ⟨rfl, rfl⟩, .inl rfl⟩
      · rintro ⟨pre, e, ⟨rfl, rfl⟩ | ⟨ss, hne, he, rfl⟩, -⟩
        · simp at e; exact ⟨rfl, e⟩
        · cases pre with
          | nil => exact absurd rfl hne
          | cons p pre =>
            simp at e; obtain ⟨rfl, rfl⟩ := e
            cases ss with
            | nil => exact he.elim
            | cons s ss => exact absurd he.1.head (by decide)
    · rw [if_neg ht]
      simp only [bind_eq_ok, imageSet_iff (hl t (by simp))]
      constructor
      · rintro ⟨s, h1, ⟨more, rest'⟩, h2, h3⟩
        simp at h3; obtain ⟨rfl, rfl⟩ := h3
        obtain ⟨pre, rfl, h4, h5⟩ := (moreSets_iff fun t h => hl t (by simp [h])).1 h2
        exact ⟨t :: pre, rfl, .inr ⟨s :: more, by simp, ⟨h1, h4⟩, rfl⟩, .inr h5⟩
      · rintro ⟨pre, e, ⟨rfl, rfl⟩ | ⟨ss, hne, he, rfl⟩, h⟩
        · simp at e; exact absurd e.1 ht
        · cases pre with
          | nil => exact absurd rfl hne
          | cons p pre =>
            simp at e; obtain ⟨rfl, rfl⟩ := e
            cases ss with
            | nil => exact he.elim
            | cons s ss =>
              refine ⟨s, he.1, (ss, rest), (moreSets_iff fun t h => hl t (by simp [h])).2 ⟨pre, rfl, he.2, ?_⟩, rfl⟩
              exact h.resolve_left (by simp)

/-- **C67.** An image attribute: a payload type or a star, a direction with its sets, and possibly the
other direction with its sets. Spaces separate outside of brackets only. -/
theorem C67_imageattr {l : Str} {a : ImageAttr} (hl : l.length < 2^31) :
    attrFromStr l = .ok (.imageAttr a) ↔ ∃ v, AttrText l c%"imageattr" v ∧ ImageAttrText v a := by
  rw [attr_iff (t := .imageAttr) rfl rfl]
  refine exists_congr fun v => and_congr_right fun hv => ?_
  show parseImageAttr v = _ ↔ _
  have hv : v.length + 1 < 2^31 := by
    obtain ⟨n, w, rfl, -, -, ⟨w1, w2, -, -, rfl⟩, -⟩ := hv
    simp at hl
    omega
  have dirHead (d : SingleDirection) : startsWithC '[' (singleDirectionText d) = false := by cases d <;> rfl
  have small {ts : List Str} (h : imageTokens v ' ' = .ok ts) : ∀ t ∈ ts, t.length < 2^31 := by
    intro t ht
    have := imageTokens_mem h t ht
    omega
  unfold parseImageAttr ImageAttrText
  simp only [bind_eq_ok]
  constructor
  · rintro ⟨ts, hts, h⟩
    have hsm := small hts
    rw [tokens_iff hv] at hts
    rcases ts with _ | ⟨t0, _ | ⟨t1, ts⟩⟩
    · simp at h
    · simp only [bind_eq_ok] at h; obtain ⟨_, _, h⟩ := h; simp at h
    simp only [bind_eq_ok, parsePayloadType_iff, parseSingleDirection_iff] at h
    obtain ⟨pt, hpt, d, rfl, ⟨l1, rest⟩, h1, ⟨l2, rest2⟩, h2, h3⟩ := h
    obtain ⟨pre, rfl, h4, h5⟩ := (setList_iff fun t h => hsm t (by simp [h])).1 h1
    rcases ite_cases h3 with ⟨-, h6⟩ | ⟨hr, h6⟩ <;> clear h3
    · simp at h6
    simp at hr; subst hr
    have second : ∃ e, d ≠ e ∧ ((rest = [] ∧ l2 = .sets []) ∨
        ∃ ts', rest = singleDirectionText e :: ts' ∧ ImageSetsText ts' l2) := by
      rcases rest with _ | ⟨x, rest⟩
      · simp [parseSecondSetList] at h2
        cases d with
        | send => exact ⟨.recv, by decide, .inl ⟨rfl, h2.symm⟩⟩
        | recv => exact ⟨.send, by decide, .inl ⟨rfl, h2.symm⟩⟩
      · simp only [parseSecondSetList, bind_eq_ok, parseSingleDirection_iff] at h2
        obtain ⟨e, rfl, h7⟩ := h2
        rcases ite_cases h7 with ⟨-, h8⟩ | ⟨hne, h8⟩ <;> clear h7
        · simp at h8
        obtain ⟨pre', e', h9, -⟩ := (setList_iff fun t h => hsm t (by simp [h])).1 h8
        simp at e'; subst e'
        exact ⟨e, Ne.symm hne, .inr ⟨rest, rfl, h9⟩⟩
    obtain ⟨e, hne, hsec⟩ := second
    have ha : a.pt = pt ∧ a.of d = l1 ∧ a.of e = l2 := by
      cases d <;> cases e <;> simp at h6 hne <;> subst h6 <;> exact ⟨rfl, rfl, rfl⟩
    obtain ⟨rfl, rfl, rfl⟩ := ha
    refine ⟨t0, d, e, pre, hpt, hne, h4, ?_⟩
    rcases hsec with ⟨rfl, h⟩ | ⟨ts', rfl, h⟩
    · exact .inl ⟨by simpa using hts, h⟩
    · exact .inr ⟨ts', hts, h⟩
  · rintro ⟨pt, d, e, ts, hpt, hne, h1, h2⟩
    have : ∃ rest, TokensText ' ' v (pt :: singleDirectionText d :: (ts ++ rest)) ∧
        ((rest = [] ∧ a.of e = .sets []) ∨ ∃ ts', rest = singleDirectionText e :: ts' ∧ ImageSetsText ts' (a.of e)) := by
      rcases h2 with ⟨h, h'⟩ | ⟨ts', h, h'⟩
      · exact ⟨[], by simpa using h, .inl ⟨rfl, h'⟩⟩
      · exact ⟨_, h, .inr ⟨ts', rfl, h'⟩⟩
    obtain ⟨rest, hts, hsec⟩ := this
    rw [← tokens_iff hv] at hts
    have hsm := small hts
    refine ⟨_, hts, ?_⟩
    simp only [bind_eq_ok, parsePayloadType_iff, parseSingleDirection_iff]
    refine ⟨a.pt, hpt, d, rfl, (a.of d, rest), ?_, (a.of e, []), ?_, ?_⟩
    · refine (setList_iff fun t h => hsm t (by simp at h ⊢; tauto)).2 ⟨ts, rfl, h1, .inr ?_⟩
      rcases hsec with ⟨rfl, -⟩ | ⟨ts', rfl, -⟩
      · simp
      · rintro t h; simp at h; subst h; exact dirHead e
    · rcases hsec with ⟨rfl, h⟩ | ⟨ts', rfl, h⟩
      · rw [h]; rfl
      · simp only [parseSecondSetList, bind_eq_ok, parseSingleDirection_iff]
        refine ⟨e, rfl, ?_⟩
        rw [if_neg (Ne.symm hne)]
        exact (setList_iff fun t h => hsm t (by simp [h])).2 ⟨ts', by simp, h, .inr (by simp)⟩
    · rw [if_neg (by simp)]
      obtain ⟨p, s, r⟩ := a
      cases d <;> cases e <;> first | exact absurd rfl hne | rfl

end

/-! ## Concrete cases -/

section
attribute [local instance] sampleEnv

example : ∃ v, AttrText c%"imageattr:97 send [x=800,y=[320:16:640],sar=[1-2],q=0.5,q=0.6] [x=[176,208],y=144,par=[1-3]] recv *" c%"imageattr" v ∧
    ImageAttrText v ⟨.pt 97, .sets [⟨.discrete [800], .range 320 640 (some 16), some (.range ⟨0x3f800000⟩ ⟨0x40000000⟩), none, some ⟨0x3f19999a⟩⟩, ⟨.discrete [176, 208], .discrete [144], none, some ⟨⟨0x3f800000⟩, ⟨0x40400000⟩⟩, none⟩], .wildcard⟩ :=
  (C67_imageattr (by decide)).1 (by decide +kernel)

-- Brackets around a single sar value: the key has no effect.
example : (match attrFromStr c%"imageattr:97 send [x=800,y=600,sar=[1]]" with
    | .ok (.imageAttr a) => some a.send
    | _ => none) = some (.sets [⟨.discrete [800], .discrete [600], none, none, none⟩]) := by decide +kernel
-- An unclosed bracket: the rest is dropped.
example : (match attrFromStr c%"imageattr:97 send * recv [x=800,y=600" with
    | .ok _ => 0
    | .err _ => 1
    | .panic => 2) = 1 := by decide +kernel
example : (match attrFromStr c%"imageattr:97 recv [x=800,y=600] [oops" with
    | .ok (.imageAttr a) => some a.recv
    | _ => none) = some (.sets [⟨.discrete [800], .discrete [600], none, none, none⟩]) := by decide +kernel

end

end Sdp
