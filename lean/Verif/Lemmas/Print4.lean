import Verif.Lemmas.Print3
import Verif.Lemmas.FloatShow
/-!
# Printed attributes are parsed back: imageattr
-/

namespace Sdp

/-! ## The tokenizer -/

theorem imageLoop_one {sep : Char} {t : Str} {ts : List Str} (h : '[' ∈ t ↔ ']' ∈ t) :
    imageTokensLoop sep 0 [] (t :: ts) = imageTokensLoop sep 0 [] ts >>= fun r => .ok (t :: r) := by
  by_cases hb : '[' ∈ t
  · have hc := h.1 hb
    simp [imageTokensLoop, hb, hc, joinS]
  · have hc : ']' ∉ t := fun h' => hb (h.2 h')
    simp [imageTokensLoop, hb, hc, joinS]

theorem imageLoop_open {sep : Char} {cur ms : List Str} {z : Str} {ts : List Str}
    (hm : ∀ m ∈ ms, '[' ∉ m ∧ ']' ∉ m) (h1 : '[' ∉ z) (h2 : ']' ∈ z) :
    imageTokensLoop sep 1 cur (ms ++ z :: ts) =
      imageTokensLoop sep 0 [] ts >>= fun r => .ok (joinS [sep] (cur ++ ms ++ [z]) :: r) := by
  induction ms generalizing cur with
  | nil => simp [imageTokensLoop, h1, h2]
  | cons m ms ih =>
    obtain ⟨k1, k2⟩ := hm m (by simp)
    have := ih (cur := cur ++ [m]) fun m h => hm m (by simp [h])
    simp only [List.cons_append, imageTokensLoop, k1, k2, if_false]
    simp [this]

/-- A token that the tokenizer keeps together. -/
def ItemOk (sep : Char) (s : Str) : Prop :=
  (sep ∉ s ∧ ('[' ∈ s ↔ ']' ∈ s)) ∨
    ∃ a ms z, splitC sep s = a :: (ms ++ [z]) ∧ '[' ∈ a ∧ ']' ∉ a ∧ (∀ m ∈ ms, '[' ∉ m ∧ ']' ∉ m) ∧
      '[' ∉ z ∧ ']' ∈ z

theorem imageLoop_item {sep : Char} {s : Str} {ts : List Str} (h : ItemOk sep s) :
    imageTokensLoop sep 0 [] (splitC sep s ++ ts) = imageTokensLoop sep 0 [] ts >>= fun r => .ok (s :: r) := by
  rcases h with ⟨h1, h2⟩ | ⟨a, ms, z, h, h1, h2, h3, h4, h5⟩
  · rw [splitC_of_not_mem h1]; exact imageLoop_one h2
  · have hj : joinS [sep] (a :: (ms ++ [z])) = s := by rw [← h, joinS_splitC]
    have := imageLoop_open (sep := sep) (cur := [a]) (ts := ts) h3 h4 h5
    rw [h]
    simp only [List.cons_append, imageTokensLoop, h1, h2, if_false, if_true]
    simp [this]
    rw [← hj]

theorem imageTokens_join {sep : Char} {l : List Str} (hne : l ≠ []) (h : ∀ t ∈ l, ItemOk sep t) :
    imageTokens (joinS [sep] l) sep = .ok l := by
  unfold imageTokens
  rw [splitC_joinS_flatMap hne]
  clear hne
  induction l with
  | nil => rfl
  | cons x xs ih =>
    rw [List.flatMap_cons, imageLoop_item (h x (by simp)), ih fun t ht => h t (by simp [ht])]; rfl

theorem bracedToken_braces (s : Str) : bracedToken ('[' :: (s ++ [']'])) = some s := by
  simp [bracedToken, startsWithC, endsWithC, List.getLast?_cons]

/-! ## Characters -/

/-- The characters a printed number consists of -/
def FloatChar (c : Char) : Prop := c.isDigit = true ∨ c ∈ c%"+-.einfNa"

theorem FloatChar.of {c : Char} (h : c.isDigit = true ∨ c ∈ c%"-.infNa") : FloatChar c := by
  rcases h with h | h
  · exact .inl h
  · right; simp at h ⊢; tauto

theorem FloatChar.facts {c : Char} (h : FloatChar c) :
    c ≠ ',' ∧ c ≠ '[' ∧ c ≠ ']' ∧ c ≠ ':' ∧ isWs c = false := by
  rcases h with h | h
  · exact ⟨by rintro rfl; exact absurd h (by decide), by rintro rfl; exact absurd h (by decide),
      by rintro rfl; exact absurd h (by decide), by rintro rfl; exact absurd h (by decide), isDigit_ws h⟩
  · simp only [List.mem_cons, List.not_mem_nil, or_false] at h
    rcases h with rfl | rfl | rfl | rfl | rfl | rfl | rfl | rfl | rfl <;> decide

/-- The text of a number. -/
def NumText (s : Str) : Prop := s ≠ [] ∧ ∀ c ∈ s, FloatChar c

theorem NumText.u32 (n : UInt32) : NumText (showU32 n) :=
  ⟨showNat_ne_nil _, fun _ h => .inl (showNat_digits h)⟩

theorem NumText.not {s : Str} (h : NumText s) : ',' ∉ s ∧ '[' ∉ s ∧ ']' ∉ s ∧ ':' ∉ s :=
  ⟨fun hm => (h.2 _ hm).facts.1 rfl, fun hm => (h.2 _ hm).facts.2.1 rfl, fun hm => (h.2 _ hm).facts.2.2.1 rfl,
    fun hm => (h.2 _ hm).facts.2.2.2.1 rfl⟩

theorem NumText.starts {s : Str} (h : NumText s) : startsWithC '[' s = false := by
  obtain ⟨h1, h2⟩ := h
  cases s with
  | nil => exact absurd rfl h1
  | cons c cs =>
    have := (h2 c (by simp)).facts.2.1
    simpa [startsWithC] using this

theorem joinS_cons_ne (sep a : Str) {l : List Str} (h : l ≠ []) : joinS sep (a :: l) = a ++ sep ++ joinS sep l := by
  cases l with
  | nil => exact absurd rfl h
  | cons b l => rfl

theorem joinS_snoc_append (sep : Str) (l : List Str) (z post : Str) :
    joinS sep (l ++ [z]) ++ post = joinS sep (l ++ [z ++ post]) := by
  induction l with
  | nil => rfl
  | cons a l ih =>
    rw [List.cons_append, List.cons_append, joinS_cons_ne _ _ (by simp), joinS_cons_ne _ _ (by simp),
      List.append_assoc, ih]

/-- A bracketed list of at least two numbers is kept together. -/
theorem itemOk_list {pre : Str} {vs : List Str} (h2 : 2 ≤ vs.length) (hv : ∀ v ∈ vs, NumText v)
    (p1 : ',' ∉ pre) (p2 : ']' ∉ pre) : ItemOk ',' (pre ++ '[' :: (joinS c%"," vs ++ [']'])) := by
  right
  match vs, h2 with
  | a :: b :: r, _ =>
    obtain ⟨ms, z, hz⟩ : ∃ ms z, b :: r = ms ++ [z] := ⟨(b :: r).dropLast, (b :: r).getLast (List.cons_ne_nil _ _),
      (List.dropLast_append_getLast _).symm⟩
    rw [hz] at hv ⊢
    have ha := (hv a (by simp)).not
    have hzz := (hv z (by simp)).not
    have hms : ∀ m ∈ ms, NumText m := fun m hm => hv m (by simp [hm])
    have e : pre ++ '[' :: (joinS c%"," (a :: (ms ++ [z])) ++ [']']) =
        joinS c%"," ((pre ++ '[' :: a) :: (ms ++ [z ++ [']']])) := by
      rw [joinS_cons_ne _ _ (by simp), joinS_cons_ne _ _ (by simp), ← joinS_snoc_append]; simp
    refine ⟨pre ++ '[' :: a, ms, z ++ [']'], ?_, by simp, ?_, fun m hm => ⟨(hms m hm).not.2.1, (hms m hm).not.2.2.1⟩,
      ?_, by simp⟩
    · rw [e, splitC_joinS (by simp)]
      intro t ht
      simp only [List.mem_cons, List.mem_append, List.not_mem_nil, or_false] at ht
      rcases ht with rfl | ht | rfl
      · simp only [List.mem_append, List.mem_cons, not_or]; exact ⟨p1, by decide, ha.1⟩
      · exact (hms t ht).not.1
      · simp only [List.mem_append, List.mem_cons, List.not_mem_nil, or_false, not_or]; exact ⟨hzz.1, by decide⟩
    · simp only [List.mem_append, List.mem_cons, not_or]; exact ⟨p2, by decide, ha.2.2.1⟩
    · simp only [List.mem_append, List.mem_cons, List.not_mem_nil, or_false, not_or]; exact ⟨hzz.2.1, by decide⟩

/-- A text in brackets without a comma is kept together. -/
theorem itemOk_braces {pre s : Str} (p1 : ',' ∉ pre) (h : ',' ∉ s) : ItemOk ',' (pre ++ '[' :: (s ++ [']'])) := by
  left
  refine ⟨?_, by simp⟩
  simp only [List.mem_append, List.mem_cons, List.not_mem_nil, or_false, not_or]
  exact ⟨p1, by decide, h, by decide⟩

theorem itemOk_plain {sep : Char} {s : Str} (h : sep ∉ s) (h1 : '[' ∉ s) (h2 : ']' ∉ s) : ItemOk sep s :=
  .inl ⟨h, by simp [h1, h2]⟩

/-! ## Ranges -/

theorem showXyRange_shape {r : XyRange} (h : r.WF) {pre : Str} (p1 : ',' ∉ pre) (p2 : ']' ∉ pre) (p3 : '[' ∉ pre) :
    ItemOk ',' (pre ++ showXyRange r) ∧ parseXyRange (showXyRange r) = .ok r ∧
      ∀ c ∈ showXyRange r, isWs c = false := by
  have hn := NumText.u32
  have hw : ∀ (n : UInt32) (c : Char), c ∈ showU32 n → isWs c = false := fun n c hc => ((hn n).2 c hc).facts.2.2.2.2
  cases r with
  | range mn mx st =>
    cases st with
    | none =>
      have e : showXyRange (.range mn mx none) = '[' :: ((showU32 mn ++ ':' :: showU32 mx) ++ [']']) := by
        simp [showXyRange]
      rw [e]
      refine ⟨itemOk_braces p1 ?_, ?_, ?_⟩
      · simp only [List.mem_append, List.mem_cons, not_or]; exact ⟨(hn _).not.1, by decide, (hn _).not.1⟩
      · unfold parseXyRange
        rw [if_pos (by simp [startsWithC]), bracedToken_braces]
        simp only [Outcome.okOr, ok_bind]
        rw [if_pos (by simp), splitC_append (hn _).not.2.2.2, splitC_of_not_mem (hn _).not.2.2.2]
        simp [idx, parseU32_show]
      · intro c hc
        simp only [List.mem_append, List.mem_cons, List.not_mem_nil, or_false] at hc
        rcases hc with rfl | (hc | rfl | hc) | rfl
        · decide
        · exact hw _ _ hc
        · decide
        · exact hw _ _ hc
        · decide
    | some s =>
      have e : showXyRange (.range mn mx (some s)) =
          '[' :: ((showU32 mn ++ ':' :: (showU32 s ++ ':' :: showU32 mx)) ++ [']']) := by
        simp [showXyRange]
      rw [e]
      refine ⟨itemOk_braces p1 ?_, ?_, ?_⟩
      · simp only [List.mem_append, List.mem_cons, not_or]
        exact ⟨(hn _).not.1, by decide, (hn _).not.1, by decide, (hn _).not.1⟩
      · unfold parseXyRange
        rw [if_pos (by simp [startsWithC]), bracedToken_braces]
        simp only [Outcome.okOr, ok_bind]
        rw [if_pos (by simp), splitC_append (hn _).not.2.2.2, splitC_append (hn _).not.2.2.2,
          splitC_of_not_mem (hn _).not.2.2.2]
        simp [idx, parseU32_show]
      · intro c hc
        simp only [List.mem_append, List.mem_cons, List.not_mem_nil, or_false] at hc
        rcases hc with rfl | (hc | rfl | hc | rfl | hc) | rfl
        · decide
        · exact hw _ _ hc
        · decide
        · exact hw _ _ hc
        · decide
        · exact hw _ _ hc
        · decide
  | discrete vs =>
    match vs, h with
    | [], h => exact absurd rfl h
    | [v], _ =>
      have e : showXyRange (.discrete [v]) = showU32 v := rfl
      rw [e]
      refine ⟨itemOk_plain ?_ ?_ ?_, ?_, hw v⟩
      · simp only [List.mem_append, not_or]; exact ⟨p1, (hn _).not.1⟩
      · simp only [List.mem_append, not_or]; exact ⟨p3, (hn _).not.2.1⟩
      · simp only [List.mem_append, not_or]; exact ⟨p2, (hn _).not.2.2.1⟩
      · unfold parseXyRange
        rw [(hn v).starts]
        simp [parseU32_show]
    | a :: b :: r, _ =>
      have e : showXyRange (.discrete (a :: b :: r)) = '[' :: (joinS c%"," ((a :: b :: r).map showU32) ++ [']']) := by
        simp [showXyRange, showDiscrete]
      rw [e]
      have hv : ∀ v ∈ (a :: b :: r).map showU32, NumText v := by
        intro v hv; obtain ⟨n, -, rfl⟩ := List.mem_map.1 hv; exact hn n
      have hcolon : ':' ∉ '[' :: (joinS c%"," ((a :: b :: r).map showU32) ++ [']']) := by
        intro hm
        simp only [List.mem_cons, List.mem_append, List.not_mem_nil, or_false] at hm
        rcases hm with hm | hm | hm
        · exact absurd hm (by decide)
        · rcases mem_joinS hm with hm | ⟨t, ht, hm⟩
          · simp at hm
          · exact (hv t ht).not.2.2.2 hm
        · exact absurd hm (by decide)
      refine ⟨itemOk_list (by simp) hv p1 p2, ?_, ?_⟩
      · unfold parseXyRange
        rw [if_pos (by simp [startsWithC]), bracedToken_braces]
        simp only [Outcome.okOr, ok_bind]
        rw [if_neg hcolon, splitC_joinS (by simp) fun t ht => (hv t ht).not.1,
          collect_map_id fun n _ => parseU32_show n, ok_bind, if_neg (by simp)]
        rfl
      · intro c hc
        simp only [List.mem_cons, List.mem_append, List.not_mem_nil, or_false] at hc
        rcases hc with rfl | hc | rfl
        · decide
        · rcases mem_joinS hc with hm | ⟨t, ht, hm⟩
          · simp only [List.mem_cons, List.not_mem_nil, or_false] at hm; subst hm; decide
          · exact ((hv t ht).2 c hm).facts.2.2.2.2
        · decide

section
variable [Env]

theorem FloatWF32.num {x : F32} (_ : FloatWF32 x) : NumText (F32.text x) := ⟨x.text_ne_nil, fun c hc => .of (x.text_chars c hc)⟩

theorem FloatWF32.parse {x : F32} (h : FloatWF32 x) : parseF32 (F32.text x) = .ok x := by
  unfold parseF32; rw [F32.ofText_text h]

theorem NumText.ws {s : Str} (h : NumText s) {c : Char} (hc : c ∈ s) : isWs c = false := (h.2 c hc).facts.2.2.2.2

theorem parsePsRange_show {a b : F32} (ha : RangeFloatWF a) (hb : RangeFloatWF b) (h : ¬ a.AtLeast b) :
    parsePsRange (F32.text a ++ '-' :: F32.text b) = .ok (a, b) := by
  unfold parsePsRange
  rw [splitC_append (F32.text_no_minus ha.2), splitC_of_not_mem (F32.text_no_minus hb.2)]
  simp [idx, ha.1.parse, hb.1.parse, F32.ge_false_iff.2 h]

theorem sarAscending_ok {x : F32} {l : List F32} (h : AscendingFrom x l) : sarAscending x l = .ok () := by
  induction l generalizing x with
  | nil => rfl
  | cons y ys ih => simp [sarAscending, F32.ge_false_iff.2 h.1, ih h.2]

theorem range_braces {a b : F32} (ha : RangeFloatWF a) (hb : RangeFloatWF b) {pre : Str} (p1 : ',' ∉ pre) :
    ItemOk ',' (pre ++ '[' :: ((F32.text a ++ '-' :: F32.text b) ++ [']'])) ∧
      ∀ c ∈ '[' :: ((F32.text a ++ '-' :: F32.text b) ++ [']']), isWs c = false := by
  refine ⟨itemOk_braces p1 ?_, ?_⟩
  · simp only [List.mem_append, List.mem_cons, not_or]; exact ⟨ha.1.num.not.1, by decide, hb.1.num.not.1⟩
  · intro c hc
    simp only [List.mem_append, List.mem_cons, List.not_mem_nil, or_false] at hc
    rcases hc with rfl | (hc | rfl | hc) | rfl
    · decide
    · exact ha.1.num.ws hc
    · decide
    · exact hb.1.num.ws hc
    · decide

theorem strip_sar (v : Str) : stripPrefix c%"sar=" (c%"sar=" ++ v) = some v := by simp [stripPrefix]

theorem imageKey_sar {r : SRange} (h : r.WF) (k : ImgKeys) :
    ItemOk ',' (c%"sar=" ++ showSRange r) ∧ imageKey k (c%"sar=" ++ showSRange r) = .ok { k with sar := some r } ∧
      ∀ c ∈ showSRange r, isWs c = false := by
  cases r with
  | range a b =>
    obtain ⟨ha, hb, hge⟩ := h
    have e : showSRange (.range a b) = '[' :: ((F32.text a ++ '-' :: F32.text b) ++ [']']) := by
      simp [showSRange]
    obtain ⟨h1, h2⟩ := range_braces ha hb (pre := c%"sar=") (by decide)
    rw [e]
    refine ⟨h1, ?_, h2⟩
    unfold imageKey
    rw [strip_sar]
    dsimp only
    rw [if_pos (by simp [startsWithC]), bracedToken_braces]
    simp only [Outcome.okOr, ok_bind]
    rw [if_pos (by simp), parsePsRange_show ha hb hge]
    rfl
  | discrete vs =>
    rcases h with ⟨x, rfl, hx⟩ | ⟨h2, hv, hasc⟩
    · have e : showSRange (.discrete [x]) = F32.text x := rfl
      rw [e]
      refine ⟨itemOk_plain ?_ ?_ ?_, ?_, fun c hc => hx.num.ws hc⟩
      · simp only [List.mem_append, not_or]; exact ⟨by decide, hx.num.not.1⟩
      · simp only [List.mem_append, not_or]; exact ⟨by decide, hx.num.not.2.1⟩
      · simp only [List.mem_append, not_or]; exact ⟨by decide, hx.num.not.2.2.1⟩
      · unfold imageKey
        rw [strip_sar]
        dsimp only
        rw [hx.num.starts, hx.parse]
        rfl
    · match vs, h2 with
      | a :: b :: r, _ =>
        have e : showSRange (.discrete (a :: b :: r)) =
            '[' :: (joinS c%"," ((a :: b :: r).map F32.text) ++ [']']) := by
          simp [showSRange, showDiscrete]
        rw [e]
        have hv' : ∀ v ∈ (a :: b :: r).map F32.text, NumText v ∧ '-' ∉ v := by
          intro v hm; obtain ⟨n, hn, rfl⟩ := List.mem_map.1 hm; exact ⟨(hv n hn).1.num, F32.text_no_minus (hv n hn).2⟩
        have hdash : '-' ∉ '[' :: (joinS c%"," ((a :: b :: r).map F32.text) ++ [']']) := by
          intro hm
          simp only [List.mem_cons, List.mem_append, List.not_mem_nil, or_false] at hm
          rcases hm with hm | hm | hm
          · exact absurd hm (by decide)
          · rcases mem_joinS hm with hm | ⟨t, ht, hm⟩
            · simp at hm
            · exact (hv' t ht).2 hm
          · exact absurd hm (by decide)
        have hcomma : ',' ∈ '[' :: (joinS c%"," ((a :: b :: r).map F32.text) ++ [']']) := by
          simp [joinS]
        refine ⟨itemOk_list (by simp) (fun v hv => (hv' v hv).1) (by decide) (by decide), ?_, ?_⟩
        · unfold imageKey
          rw [strip_sar]
          dsimp only
          rw [if_pos (by simp [startsWithC]), bracedToken_braces]
          simp only [Outcome.okOr, ok_bind]
          rw [if_neg hdash, if_pos hcomma, splitC_joinS (by simp) fun t ht => (hv' t ht).1.not.1,
            collect_map_id fun n hn => (hv n hn).1.parse, ok_bind, if_neg (by simp), sarAscending_ok hasc]
          rfl
        · intro c hc
          simp only [List.mem_cons, List.mem_append, List.not_mem_nil, or_false] at hc
          rcases hc with rfl | hc | rfl
          · decide
          · rcases mem_joinS hc with hm | ⟨t, ht, hm⟩
            · simp only [List.mem_cons, List.not_mem_nil, or_false] at hm; subst hm; decide
            · exact (hv' t ht).1.ws hm
          · decide

theorem imageKey_par {r : PRange} (h : RangeFloatWF r.min ∧ RangeFloatWF r.max ∧ ¬ r.min.AtLeast r.max) (k : ImgKeys) :
    ItemOk ',' (c%"par=" ++ showPRange r) ∧ imageKey k (c%"par=" ++ showPRange r) = .ok { k with par := some r } ∧
      ∀ c ∈ showPRange r, isWs c = false := by
  obtain ⟨ha, hb, hge⟩ := h
  have e : showPRange r = '[' :: ((F32.text r.min ++ '-' :: F32.text r.max) ++ [']']) := by
    simp [showPRange]
  obtain ⟨h1, h2⟩ := range_braces ha hb (pre := c%"par=") (by decide)
  rw [e]
  refine ⟨h1, ?_, h2⟩
  unfold imageKey
  have s1 : ∀ v, stripPrefix c%"sar=" (c%"par=" ++ v) = none := by intro v; simp [stripPrefix]
  have s2 : ∀ v, stripPrefix c%"par=" (c%"par=" ++ v) = some v := by intro v; simp [stripPrefix]
  rw [s1]
  dsimp only
  rw [s2]
  dsimp only
  rw [if_neg (by simp [startsWithC]), bracedToken_braces]
  simp only [Outcome.okOr, ok_bind]
  rw [parsePsRange_show ha hb hge]
  rfl

theorem imageKey_q {x : F32} (h : FloatWF32 x) (k : ImgKeys) :
    ItemOk ',' (c%"q=" ++ F32.text x) ∧ imageKey k (c%"q=" ++ F32.text x) = .ok { k with q := some x } ∧
      ∀ c ∈ F32.text x, isWs c = false := by
  refine ⟨itemOk_plain ?_ ?_ ?_, ?_, fun c hc => h.num.ws hc⟩
  · simp only [List.mem_append, not_or]; exact ⟨by decide, h.num.not.1⟩
  · simp only [List.mem_append, not_or]; exact ⟨by decide, h.num.not.2.1⟩
  · simp only [List.mem_append, not_or]; exact ⟨by decide, h.num.not.2.2.1⟩
  · unfold imageKey
    have s1 : ∀ v, stripPrefix c%"sar=" (c%"q=" ++ v) = none := by intro v; simp [stripPrefix]
    have s2 : ∀ v, stripPrefix c%"par=" (c%"q=" ++ v) = none := by intro v; simp [stripPrefix]
    have s3 : ∀ v, stripPrefix c%"q=" (c%"q=" ++ v) = some v := by intro v; simp [stripPrefix]
    rw [s1]
    dsimp only
    rw [s2]
    dsimp only
    rw [s3]
    dsimp only
    rw [h.parse]
    rfl

/-! ## Sets -/

def optItem (pre : Str) {α : Type} (sh : α → Str) : Option α → List Str
  | none => []
  | some a => [pre ++ sh a]

def setItems (s : ImageAttrSet) : List Str :=
  (c%"x=" ++ showXyRange s.x) :: (c%"y=" ++ showXyRange s.y) ::
    (optItem c%"sar=" showSRange s.sar ++ (optItem c%"par=" showPRange s.par ++ optItem c%"q=" F32.text s.q))

theorem showImageAttrSet_eq (s : ImageAttrSet) : showImageAttrSet s = '[' :: (joinS c%"," (setItems s) ++ [']']) := by
  obtain ⟨x, y, sar, par, q⟩ := s
  cases sar <;> cases par <;> cases q <;>
    simp [showImageAttrSet, setItems, optItem, optStr, joinS]

theorem imageKeys_append {k : ImgKeys} {a b : List Str} :
    imageKeys k (a ++ b) = imageKeys k a >>= fun k => imageKeys k b := by
  induction a generalizing k with
  | nil => rfl
  | cons t ts ih =>
    simp only [List.cons_append, imageKeys]
    cases imageKey k t <;> simp [ih]

theorem set_facts {s : ImageAttrSet} (h : s.WF) :
    (∀ t ∈ setItems s, ItemOk ',' t ∧ ∀ c ∈ t, isWs c = false) ∧
      imageKeys ⟨none, none, none⟩
        (optItem c%"sar=" showSRange s.sar ++ (optItem c%"par=" showPRange s.par ++ optItem c%"q=" F32.text s.q)) =
        .ok ⟨s.sar, s.par, s.q⟩ := by
  have k0 : ImgKeys := ⟨none, none, none⟩
  have wsp : ∀ {pre v : Str}, (∀ c ∈ pre, isWs c = false) → (∀ c ∈ v, isWs c = false) →
      ∀ c ∈ pre ++ v, isWs c = false := by
    intro pre v h1 h2 c hc
    rcases List.mem_append.1 hc with hc | hc
    · exact h1 c hc
    · exact h2 c hc
  constructor
  · intro t ht
    simp only [setItems, List.mem_cons, List.mem_append] at ht
    rcases ht with rfl | rfl | ht | ht | ht
    · obtain ⟨a, -, b⟩ := showXyRange_shape h.x (pre := c%"x=") (by decide) (by decide) (by decide)
      exact ⟨a, wsp (by decide) b⟩
    · obtain ⟨a, -, b⟩ := showXyRange_shape h.y (pre := c%"y=") (by decide) (by decide) (by decide)
      exact ⟨a, wsp (by decide) b⟩
    · cases hr : s.sar with
      | none => rw [hr] at ht; simp [optItem] at ht
      | some r =>
        rw [hr] at ht
        simp only [optItem, List.mem_cons, List.not_mem_nil, or_false] at ht; subst ht
        obtain ⟨a, -, b⟩ := imageKey_sar (h.sar r hr) k0
        exact ⟨a, wsp (by decide) b⟩
    · cases hr : s.par with
      | none => rw [hr] at ht; simp [optItem] at ht
      | some r =>
        rw [hr] at ht
        simp only [optItem, List.mem_cons, List.not_mem_nil, or_false] at ht; subst ht
        obtain ⟨a, -, b⟩ := imageKey_par (h.par r hr) k0
        exact ⟨a, wsp (by decide) b⟩
    · cases hr : s.q with
      | none => rw [hr] at ht; simp [optItem] at ht
      | some r =>
        rw [hr] at ht
        simp only [optItem, List.mem_cons, List.not_mem_nil, or_false] at ht; subst ht
        obtain ⟨a, -, b⟩ := imageKey_q (h.q r hr) k0
        exact ⟨a, wsp (by decide) b⟩
  · have e1 : ∀ k : ImgKeys, k.sar = none → imageKeys k (optItem c%"sar=" showSRange s.sar) =
        .ok { k with sar := s.sar } := by
      intro k hk
      cases hr : s.sar with
      | none => cases k; cases hk; rfl
      | some r => simp only [optItem, imageKeys]; rw [(imageKey_sar (h.sar r hr) k).2.1]; rfl
    have e2 : ∀ k : ImgKeys, k.par = none → imageKeys k (optItem c%"par=" showPRange s.par) =
        .ok { k with par := s.par } := by
      intro k hk
      cases hr : s.par with
      | none => cases k; cases hk; rfl
      | some r => simp only [optItem, imageKeys]; rw [(imageKey_par (h.par r hr) k).2.1]; rfl
    have e3 : ∀ k : ImgKeys, k.q = none → imageKeys k (optItem c%"q=" F32.text s.q) =
        .ok { k with q := s.q } := by
      intro k hk
      cases hr : s.q with
      | none => cases k; cases hk; rfl
      | some r => simp only [optItem, imageKeys]; rw [(imageKey_q (h.q r hr) k).2.1]; rfl
    rw [imageKeys_append, e1 _ rfl, ok_bind, imageKeys_append, e2 _ rfl, ok_bind, e3 _ rfl]

theorem parseImageSet_show {s : ImageAttrSet} (h : s.WF) : parseBracedSet (showImageAttrSet s) = .ok s := by
  obtain ⟨h1, h2⟩ := set_facts h
  unfold parseBracedSet
  rw [showImageAttrSet_eq, bracedToken_braces]
  simp only [Outcome.okOr, ok_bind]
  unfold parseImageSet
  rw [imageTokens_join (by simp [setItems]) fun t ht => (h1 t ht).1, ok_bind]
  unfold setItems
  dsimp only
  have sx : ∀ v, startsWith c%"x=" (c%"x=" ++ v) = true := by intro v; simp [startsWith, stripPrefix]
  have sy : ∀ v, startsWith c%"y=" (c%"y=" ++ v) = true := by intro v; simp [startsWith, stripPrefix]
  have px := (showXyRange_shape h.x (pre := []) (by simp) (by simp) (by simp)).2.1
  have py := (showXyRange_shape h.y (pre := []) (by simp) (by simp) (by simp)).2.1
  rw [sx]
  simp only [Bool.not_true, Bool.false_eq_true, if_false]
  have l2 : ∀ (a b : Char) (v : Str), sliceFrom ([a, b] ++ v) 2 = (.ok v : IRes Str) := by
    intro a b v; simp [sliceFrom]
  rw [l2, ok_bind, px, ok_bind, sy]
  simp only [Bool.not_true, Bool.false_eq_true, if_false]
  rw [l2, ok_bind, py, ok_bind, h2]
  rfl

theorem showImageAttrSet_ws {s : ImageAttrSet} (h : s.WF) : ∀ c ∈ showImageAttrSet s, isWs c = false := by
  obtain ⟨h1, -⟩ := set_facts h
  rw [showImageAttrSet_eq]
  intro c hc
  simp only [List.mem_append, List.mem_cons, List.not_mem_nil, or_false] at hc
  rcases hc with rfl | hc | rfl
  · decide
  · rcases mem_joinS hc with hm | ⟨t, ht, hm⟩
    · simp only [List.mem_cons, List.not_mem_nil, or_false] at hm; subst hm; decide
    · exact (h1 t ht).2 c hm
  · decide

/-- The tokens of a set list. -/
def listTokens : ImageAttrSetList → List Str
  | .sets l => l.map showImageAttrSet
  | .wildcard => [c%"*"]

theorem listTokens_ok {l : ImageAttrSetList} (h : l.WF) : ∀ t ∈ listTokens l, Token t ∧ ItemOk ' ' t := by
  intro t ht
  cases l with
  | wildcard =>
    simp only [listTokens, List.mem_cons, List.not_mem_nil, or_false] at ht; subst ht
    exact ⟨⟨by decide, by decide⟩, itemOk_plain (by decide) (by decide) (by decide)⟩
  | sets l =>
    obtain ⟨s, hs, rfl⟩ := List.mem_map.1 ht
    have hw := showImageAttrSet_ws (h s hs)
    have hne : showImageAttrSet s ≠ [] := by rw [showImageAttrSet_eq]; simp
    refine ⟨⟨hne, hw⟩, .inl ⟨?_, ?_⟩⟩
    · intro hm; exact absurd (hw _ hm) (by decide)
    · rw [showImageAttrSet_eq]; simp

theorem moreSets_show {l : List ImageAttrSet} (h : ∀ s ∈ l, s.WF) {rest : List Str}
    (hr : ∀ t, rest.head? = some t → startsWithC '[' t = false) :
    moreSets (l.map showImageAttrSet ++ rest) = .ok (l, rest) := by
  induction l with
  | nil =>
    cases rest with
    | nil => rfl
    | cons t ts => have := hr t rfl; simp [moreSets, this]
  | cons s l ih =>
    have hs : startsWithC '[' (showImageAttrSet s) = true := by rw [showImageAttrSet_eq]; simp [startsWithC]
    simp only [List.map_cons, List.cons_append, moreSets]
    rw [if_pos hs, parseImageSet_show (h s (by simp)), ok_bind, ih fun s hs => h s (by simp [hs])]
    rfl

theorem parseSetList_show {l : ImageAttrSetList} (h : l.WF) (hc : l.count ≠ 0) {rest : List Str}
    (hr : ∀ t, rest.head? = some t → startsWithC '[' t = false) :
    parseSetList (listTokens l ++ rest) = .ok (l, rest) := by
  cases l with
  | wildcard => rfl
  | sets l =>
    cases l with
    | nil => exact absurd rfl hc
    | cons s l =>
      have hne : showImageAttrSet s ≠ c%"*" := by rw [showImageAttrSet_eq]; simp
      have hl : ∀ s ∈ l, s.WF := fun t ht => h t (by simp [ht])
      simp only [listTokens, List.map_cons, List.cons_append, parseSetList]
      rw [if_neg hne, parseImageSet_show (h s (by simp)), ok_bind, moreSets_show hl hr]
      rfl

/-- The tokens of one direction. -/
def dirTokens (d : Str) (l : ImageAttrSetList) : List Str := if l.count = 0 then [] else d :: listTokens l

theorem showImageAttr_eq (i : ImageAttr) :
    showImageAttr i = joinS c%" " (showPayloadType i.pt :: (dirTokens c%"send" i.send ++ dirTokens c%"recv" i.recv)) := by
  obtain ⟨pt, s, r⟩ := i
  have join2 : ∀ (a b : List Str), a ≠ [] → b ≠ [] → joinS c%" " (a ++ b) = joinS c%" " a ++ c%" " ++ joinS c%" " b := by
    intro a b ha hb
    induction a with
    | nil => exact absurd rfl ha
    | cons x xs ih =>
      cases xs with
      | nil => rw [List.cons_append, List.nil_append, joinS_cons_ne _ _ hb]; rfl
      | cons y ys =>
        rw [List.cons_append, joinS_cons_ne _ _ (by simp), ih (by simp), joinS_cons_ne _ x (l := y :: ys) (by simp)]
        simp
  have one : ∀ (pre : Str) (d : Str) (l : ImageAttrSetList), pre = ' ' :: (d ++ [' ']) →
      optStr pre showImageAttrSetList (maybeSets l) =
        if dirTokens d l = [] then [] else ' ' :: joinS c%" " (dirTokens d l) := by
    intro pre d l hp
    cases l with
    | wildcard => subst hp; simp [maybeSets, optStr, showImageAttrSetList, dirTokens, ImageAttrSetList.count, listTokens, joinS]
    | sets l =>
      cases l with
      | nil => rfl
      | cons s l =>
        subst hp
        simp [maybeSets, optStr, showImageAttrSetList, dirTokens, ImageAttrSetList.count, listTokens, joinS]
  unfold showImageAttr
  dsimp only
  rw [one c%" send " c%"send" s rfl, one c%" recv " c%"recv" r rfl]
  by_cases hs : dirTokens c%"send" s = []
  · by_cases hr : dirTokens c%"recv" r = []
    · rw [hs, hr]; simp [joinS]
    · rw [hs, if_pos rfl, if_neg hr, List.nil_append, joinS_cons_ne _ _ hr]; simp
  · by_cases hr : dirTokens c%"recv" r = []
    · rw [hr, if_pos rfl, if_neg hs, List.append_nil, List.append_nil, joinS_cons_ne _ _ hs]; simp
    · rw [if_neg hs, if_neg hr, joinS_cons_ne _ _ (by simp [hs]), join2 _ _ hs hr]; simp

theorem prints_imageAttr {i : ImageAttr} (h : i.WF) : Prints .imageAttr (showImageAttr i) (.imageAttr i) := by
  rw [showImageAttr_eq]
  obtain ⟨pt, s, r⟩ := i
  obtain ⟨hs, hr, hc⟩ := h
  dsimp only at hs hr hc ⊢
  have hpt : Token (showPayloadType pt) ∧ parsePayloadType (showPayloadType pt) = .ok pt := by
    cases pt with
    | pt n =>
      refine ⟨Token.u8 n, ?_⟩
      show parsePayloadType (showNat n.toNat) = _
      unfold parsePayloadType
      rw [if_neg]
      · rw [show showNat n.toNat = showU8 n from rfl, parseU8_show]; rfl
      · intro h
        have := showNat_digits (n := n.toNat) (c := '*') (by rw [h]; simp)
        exact absurd this (by decide)
    | wildcard => exact ⟨⟨by decide, by decide⟩, rfl⟩
  have hd : ∀ d, Token d → '[' ∉ d → ']' ∉ d → ∀ l : ImageAttrSetList, l.WF → ∀ t ∈ dirTokens d l, Token t ∧ ItemOk ' ' t := by
    intro d h1 h2 h3 l hl t ht
    unfold dirTokens at ht
    split at ht
    · simp at ht
    · rcases List.mem_cons.1 ht with rfl | ht
      · exact ⟨h1, itemOk_plain h1.not_space h2 h3⟩
      · exact listTokens_ok hl t ht
  have hpb : '[' ∉ showPayloadType pt ∧ ']' ∉ showPayloadType pt := by
    cases pt with
    | pt n =>
      exact ⟨fun h => absurd (showNat_digits h) (by decide), fun h => absurd (showNat_digits h) (by decide)⟩
    | wildcard => exact ⟨by decide, by decide⟩
  have hall : ∀ t ∈ showPayloadType pt :: (dirTokens c%"send" s ++ dirTokens c%"recv" r), Token t ∧ ItemOk ' ' t := by
    intro t ht
    simp only [List.mem_cons, List.mem_append] at ht
    rcases ht with rfl | ht | ht
    · exact ⟨hpt.1, itemOk_plain hpt.1.not_space hpb.1 hpb.2⟩
    · exact hd _ ⟨by decide, by decide⟩ (by decide) (by decide) s hs t ht
    · exact hd _ ⟨by decide, by decide⟩ (by decide) (by decide) r hr t ht
  refine ⟨tokens_trimmed (by simp) fun t ht => (hall t ht).1, ?_⟩
  rw [show ∀ s, parseAttrValue .imageAttr s = parseImageAttr s from fun _ => rfl]
  unfold parseImageAttr
  rw [imageTokens_join (by simp) fun t ht => (hall t ht).2, ok_bind]
  dsimp only
  rw [hpt.2, ok_bind]
  by_cases c1 : s.count = 0
  · have c2 : r.count ≠ 0 := by omega
    have e : s = .sets [] := by
      cases s with
      | wildcard => cases c1
      | sets l => cases l with
        | nil => rfl
        | cons _ _ => cases c1
    subst e
    have := parseSetList_show hr c2 (rest := []) (by simp)
    rw [List.append_nil] at this
    have t1 : dirTokens c%"send" (.sets []) = [] := rfl
    have t2 : dirTokens c%"recv" r = c%"recv" :: listTokens r := by unfold dirTokens; rw [if_neg c2]
    rw [t1, t2, List.nil_append]
    dsimp only
    rw [show parseSingleDirection c%"recv" = .ok .recv from rfl, ok_bind, this]
    rfl
  · by_cases c2 : r.count = 0
    · have e : r = .sets [] := by
        cases r with
        | wildcard => cases c2
        | sets l => cases l with
          | nil => rfl
          | cons _ _ => cases c2
      subst e
      have := parseSetList_show hs c1 (rest := []) (by simp)
      have t1 : dirTokens c%"recv" (.sets []) = [] := rfl
      have t2 : dirTokens c%"send" s = c%"send" :: listTokens s := by unfold dirTokens; rw [if_neg c1]
      rw [t1, t2]
      simp only [List.cons_append]
      rw [show parseSingleDirection c%"send" = .ok .send from rfl, ok_bind, this]
      rfl
    · have p1 := parseSetList_show hs c1 (rest := c%"recv" :: listTokens r) (by
        intro t ht; cases ht; rfl)
      have p2 := parseSetList_show hr c2 (rest := []) (by simp)
      rw [List.append_nil] at p2
      simp only [dirTokens, c1, c2, if_false, List.cons_append]
      rw [show parseSingleDirection c%"send" = .ok .send from rfl, ok_bind, p1, ok_bind]
      dsimp only
      simp only [parseSecondSetList]
      rw [show parseSingleDirection c%"recv" = .ok .recv from rfl, ok_bind, if_neg (by simp), p2]
      rfl

end

end Sdp
