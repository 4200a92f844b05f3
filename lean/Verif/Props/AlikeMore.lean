import Verif.Props.Alike
import Verif.Lemmas.Shrink
/-!
# C122: fmtp, rid and simulcast values that are written alike
-/

namespace Sdp

/-! ### Lists and separators -/

private theorem cut {c : Char} {a b x y : Str} (ha : c ∉ a) (hb : c ∉ b) (hx : x = [] ∨ ∃ z, x = c :: z)
    (hy : y = [] ∨ ∃ z, y = c :: z) (h : a ++ x = b ++ y) : a = b ∧ x = y := by
  induction a generalizing b with
  | nil =>
    cases b with
    | nil => exact ⟨rfl, h⟩
    | cons d b =>
      rcases hx with rfl | ⟨z, rfl⟩
      · simp at h
      · simp only [List.nil_append, List.cons_append, List.cons.injEq] at h
        exact absurd (by simp [h.1]) hb
  | cons d a ih =>
    cases b with
    | nil =>
      rcases hy with rfl | ⟨z, rfl⟩
      · simp at h
      · simp only [List.nil_append, List.cons_append, List.cons.injEq] at h
        exact absurd (by simp [h.1]) ha
    | cons e b =>
      simp only [List.cons_append, List.cons.injEq] at h
      obtain ⟨e1, e2⟩ := ih (fun hm => ha (by simp [hm])) (fun hm => hb (by simp [hm])) h.2
      exact ⟨by rw [h.1, e1], e2⟩

private theorem joinS_inj {c : Char} {l m : List Str} (hl : ∀ t ∈ l, c ∉ t ∧ t ≠ []) (hm : ∀ t ∈ m, c ∉ t ∧ t ≠ [])
    (h : joinS [c] l = joinS [c] m) : l = m := by
  have nil : ∀ {l : List Str}, (∀ t ∈ l, c ∉ t ∧ t ≠ []) → joinS [c] l = [] → l = [] := by
    intro l hl h
    rcases (joinS_eq_nil (by simp)).1 h with h | h
    · exact h
    · subst h; exact absurd rfl (hl [] (by simp)).2
  by_cases h1 : l = []
  · subst h1; exact (nil hm h.symm).symm
  · by_cases h2 : m = []
    · subst h2; exact nil hl h
    · rw [← splitC_joinS h1 fun t ht => (hl t ht).1, h, splitC_joinS h2 fun t ht => (hm t ht).1]

private theorem map_inj {α : Type} {f : α → Str} {P : α → Prop} (hf : ∀ x y, P x → P y → f x = f y → x = y) {l m : List α}
    (hl : ∀ x ∈ l, P x) (hm : ∀ x ∈ m, P x) (h : l.map f = m.map f) : l = m := by
  induction l generalizing m with
  | nil => cases m with
    | nil => rfl
    | cons => simp at h
  | cons a l ih =>
    cases m with
    | nil => simp at h
    | cons b m =>
      simp only [List.map_cons, List.cons.injEq] at h
      rw [hf a b (hl a (by simp)) (hm b (by simp)) h.1,
        ih (fun x hx => hl x (by simp [hx])) (fun x hx => hm x (by simp [hx])) h.2]

/-! ### simulcast -/

private theorem id_inj {i j : SimulcastId} (hi : i.Readable) (hj : j.Readable) (h : showSimulcastId i = showSimulcastId j) : i = j := by
  obtain ⟨i, p⟩ := i
  obtain ⟨j, q⟩ := j
  have h1 := hi.tilde
  have h2 := hj.tilde
  cases p <;> cases q <;> simp only [showSimulcastId, if_true, Bool.false_eq_true, if_false, List.nil_append] at h h1 h2
  · rw [h]
  · exact absurd (by rw [h]; rfl) (h1 trivial)
  · exact absurd (by rw [← h]; rfl) (h2 trivial)
  · have e : i = j := List.append_cancel_left h
    rw [e]

private theorem id_chars {i : SimulcastId} (hi : i.Readable) : ∀ c ∈ showSimulcastId i, isWs c = false ∧ c ≠ ',' ∧ c ≠ ';' := by
  intro c hc
  unfold showSimulcastId at hc
  rcases List.mem_append.1 hc with hc | hc
  · split at hc
    · rw [List.mem_singleton.1 hc]; decide
    · cases hc
  · exact hi.chars c hc

private def Ok (v : SimulcastVersion) : Prop := v.ids ≠ [] ∧ ∀ i ∈ v.ids, i.Readable

private theorem version_inj {v w : SimulcastVersion} (hv : Ok v) (hw : Ok w) (h : showSimulcastVersion v = showSimulcastVersion w) : v = w := by
  obtain ⟨v⟩ := v
  obtain ⟨w⟩ := w
  have hc : ∀ {u : List SimulcastId}, (∀ i ∈ u, i.Readable) → ∀ t ∈ u.map showSimulcastId, ',' ∉ t := by
    intro u hu t ht hm
    obtain ⟨i, hi, rfl⟩ := List.mem_map.1 ht
    exact (id_chars (hu i hi) _ hm).2.1 rfl
  have hs : v.map showSimulcastId = w.map showSimulcastId := by
    have e := congrArg (splitC ',') h
    unfold showSimulcastVersion at e
    dsimp only at e
    rwa [splitC_joinS (by simpa using hv.1) (hc hv.2), splitC_joinS (by simpa using hw.1) (hc hw.2)] at e
  have e : v = w := map_inj (P := SimulcastId.Readable) (fun x y => id_inj) hv.2 hw.2 hs
  rw [e]

private theorem version_chars {v : SimulcastVersion} (hv : Ok v) : ';' ∉ showSimulcastVersion v ∧ ' ' ∉ showSimulcastVersion v := by
  constructor <;> intro hm <;> rcases mem_joinS hm with hc | ⟨t, ht, hc⟩
  · simp at hc
  · obtain ⟨i, hi, rfl⟩ := List.mem_map.1 ht
    exact (id_chars (hv.2 i hi) _ hc).2.2 rfl
  · simp at hc
  · obtain ⟨i, hi, rfl⟩ := List.mem_map.1 ht
    exact absurd (id_chars (hv.2 i hi) _ hc).1 (by decide)

private theorem version_empty {v : SimulcastVersion} (hv : Ok v) : showSimulcastVersion v = [] ↔ v = ⟨[⟨[], false⟩]⟩ := by
  constructor
  · intro h
    refine version_inj hv ⟨by simp, fun i hi => ?_⟩ h
    rw [List.mem_singleton.1 hi]
    exact ⟨by simp, by simp⟩
  · rintro rfl; rfl

private def full (l : List SimulcastVersion) : List SimulcastVersion := l.filter (fun v => decide (v ≠ ⟨[⟨[], false⟩]⟩))

private def listText (l : List SimulcastVersion) : Str := joinS c%";" ((full l).map showSimulcastVersion)

private theorem listText_eq {l : List SimulcastVersion} (h : ∀ v ∈ l, Ok v) (pre : Str) :
    maybeVec pre [] c%";" (l.map showSimulcastVersion) = if l = [] then [] else pre ++ listText l := by
  have e : (l.map showSimulcastVersion).filter (fun s => !s.isEmpty) = (full l).map showSimulcastVersion := by
    unfold full
    rw [List.filter_map]
    congr 1
    refine List.filter_congr fun v hv => ?_
    have := version_empty (h v hv)
    by_cases hx : v = ⟨[⟨[], false⟩]⟩
    · subst hx; rfl
    · have h2 : showSimulcastVersion v ≠ [] := fun h0 => hx (this.1 h0)
      simp [hx, h2]
  cases l with
  | nil => rfl
  | cons v l =>
    rw [if_neg (by simp)]
    unfold listText
    rw [← e]
    simp [maybeVec]

private theorem full_ok {l : List SimulcastVersion} (h : ∀ v ∈ l, Ok v) : ∀ v ∈ full l, Ok v :=
  fun v hv => h v (List.mem_filter.1 hv).1

private theorem listText_inj {l m : List SimulcastVersion} (hl : ∀ v ∈ l, Ok v) (hm : ∀ v ∈ m, Ok v) (h : listText l = listText m) :
    full l = full m := by
  have hc : ∀ {l : List SimulcastVersion}, (∀ v ∈ l, Ok v) → ∀ t ∈ (full l).map showSimulcastVersion, ';' ∉ t ∧ t ≠ [] := by
    intro l hl t ht
    obtain ⟨v, hv, rfl⟩ := List.mem_map.1 ht
    have hk := full_ok hl v hv
    refine ⟨(version_chars hk).1, fun h0 => ?_⟩
    have := (List.mem_filter.1 hv).2
    rw [(version_empty hk).1 h0] at this
    simp at this
  exact map_inj (P := Ok) (fun x y => version_inj) (full_ok hl) (full_ok hm) (joinS_inj (hc hl) (hc hm) h)

private theorem listText_space {l : List SimulcastVersion} (h : ∀ v ∈ l, Ok v) : ' ' ∉ listText l := by
  intro hm
  rcases mem_joinS hm with hc | ⟨t, ht, hc⟩
  · simp at hc
  · obtain ⟨v, hv, rfl⟩ := List.mem_map.1 ht
    exact (version_chars (full_ok h v hv)).2 hc

private theorem simulcast_text {s : Simulcast} (h : s.Readable) : showSimulcast s =
    if s.send = [] then c%"recv " ++ listText s.receive
    else c%"send " ++ (listText s.send ++ if s.receive = [] then [] else ' ' :: (c%"recv " ++ listText s.receive)) := by
  unfold showSimulcast
  rw [listText_eq h.send, listText_eq h.receive]
  have := h.some
  by_cases h1 : s.send = [] <;> by_cases h2 : s.receive = []
  · simp [h1, h2] at this
  · simp [h1, h2, nonEmpty, joinS]
  · simp [h1, h2, nonEmpty, joinS]
  · simp [h1, h2, nonEmpty, joinS]

section
variable [Env]

/-- **C122.** simulcast: an empty alternative is not written, and nothing else is written alike. -/
theorem C122_simulcast {s t : Simulcast} (hs : (Attribute.simulcast s).Readable) (ht : (Attribute.simulcast t).Readable) :
    showAttribute (.simulcast s) = showAttribute (.simulcast t) ↔ s.Alike t := by
  replace hs : s.Readable := hs
  replace ht : t.Readable := ht
  have e1 := simulcast_text hs
  have e2 := simulcast_text ht
  have ne : ∀ {s : Simulcast}, s.Readable → showSimulcast s ≠ [] := by
    intro s hs
    rw [simulcast_text hs]
    split <;> simp
  have a1 : showAttribute (.simulcast s) = showAttribute (.simulcast t) ↔ showSimulcast s = showSimulcast t := by
    show attrToString _ _ = attrToString _ _ ↔ _
    simp [attrToString, ne hs, ne ht]
  rw [a1, e1, e2]
  constructor
  · intro e
    by_cases h1 : s.send = [] <;> by_cases h2 : t.send = []
    · rw [if_pos h1, if_pos h2] at e
      have n1 := hs.some
      have n2 := ht.some
      exact ⟨by rw [h1, h2], listText_inj hs.receive ht.receive (List.append_cancel_left e), by simp [h1, h2], by
        simp only [h1, h2, ne_eq, not_true_eq_false, false_or] at n1 n2; simp [n1, n2]⟩
    · rw [if_pos h1, if_neg h2] at e
      cases (List.cons.inj (show 'r' :: _ = 's' :: _ from e)).1
    · rw [if_neg h1, if_pos h2] at e
      cases (List.cons.inj (show 's' :: _ = 'r' :: _ from e)).1
    · rw [if_neg h1, if_neg h2] at e
      have e := List.append_cancel_left e
      obtain ⟨k1, k2⟩ := cut (listText_space hs.send) (listText_space ht.send) (by split <;> simp) (by split <;> simp) e
      refine ⟨listText_inj hs.send ht.send k1, ?_, by simp [h1, h2], ?_⟩
      · by_cases h3 : s.receive = [] <;> by_cases h4 : t.receive = []
        · rw [h3, h4]
        · simp [h3, h4] at k2
        · simp [h3, h4] at k2
        · rw [if_neg h3, if_neg h4] at k2
          exact listText_inj hs.receive ht.receive (List.append_cancel_left (List.cons.inj k2).2)
      · by_cases h3 : s.receive = [] <;> by_cases h4 : t.receive = [] <;> simp [h3, h4] at k2 ⊢
  · rintro ⟨k1, k2, k3, k4⟩
    have l1 : listText s.send = listText t.send := congrArg (fun l : List SimulcastVersion => joinS c%";" (l.map showSimulcastVersion)) k1
    have l2 : listText s.receive = listText t.receive := congrArg (fun l : List SimulcastVersion => joinS c%";" (l.map showSimulcastVersion)) k2
    simp only [l1, l2, k3, k4]

/-! ### rid -/

private def nameOf (t : Str) : Str := t.takeWhile (fun c => decide (c ≠ '='))

omit [Env] in
private theorem nameOf_append {n v : Str} (h : '=' ∉ n) : nameOf (n ++ '=' :: v) = n := by
  unfold nameOf
  induction n with
  | nil => simp
  | cons a n ih =>
    have h1 : a ≠ '=' := by rintro rfl; simp at h
    rw [List.cons_append, List.takeWhile_cons, if_pos (by simpa using h1), ih (fun hm => h (by simp [hm]))]

/-- The piece is one of the six limits. -/
private def isLimit (t : Str) : Bool := decide (nameOf t ∈ ridNames) && decide (nameOf t ≠ c%"depends")

private def isDepends (t : Str) : Bool := decide (nameOf t = c%"depends")

omit [Env] in
private theorem front_kind (r : Rid) : ∀ t ∈ ridFront r, isLimit t = true ∧ isDepends t = false := by
  intro t ht
  obtain ⟨n, v, rfl, h1, h2, h3, h4⟩ := ridFront_named r t ht
  simp [isLimit, isDepends, nameOf_append h1, h2, h3]

omit [Env] in
private theorem head_kind (r : Rid) : ∀ t ∈ ridHead r, isLimit t = false ∧ isDepends t = false := by
  intro t ht
  unfold ridHead at ht
  split at ht
  · cases ht
  · rw [List.mem_singleton.1 ht]
    have : nameOf (c%"pt=" ++ joinS c%"," (r.formats.map showU16)) = c%"pt" :=
      nameOf_append (n := c%"pt") (by decide)
    unfold isLimit isDepends
    rw [this]
    decide

omit [Env] in
private theorem unknown_kind {r : Rid} (h : r.Readable) : ∀ t ∈ r.params.unknown, isLimit t = false ∧ isDepends t = false := by
  intro t ht
  have h3 : nameOf t ∉ ridNames := (h.unknown t ht).2.2
  have h4 : nameOf t ≠ c%"depends" := by
    intro h0; rw [h0] at h3; exact h3 (by decide)
  simp [isLimit, isDepends, h3, h4]

omit [Env] in
private theorem depends_kind (r : Rid) : ∀ t ∈ ridDepPiece r, isLimit t = false ∧ isDepends t = true := by
  intro t ht
  unfold ridDepPiece at ht
  split at ht
  · cases ht
  · rw [List.mem_singleton.1 ht]
    have := nameOf_append (n := c%"depends") (v := joinS c%"," (nonEmpty r.depends)) (by decide)
    unfold isLimit isDepends
    rw [this]
    decide

omit [Env] in
private theorem filter_none {P : Str → Bool} {l : List Str} (h : ∀ t ∈ l, P t = false) : l.filter P = [] := by
  rw [List.filter_eq_nil_iff]; intro t ht; simp [h t ht]

omit [Env] in
private theorem filter_all {P : Str → Bool} {l : List Str} (h : ∀ t ∈ l, P t = true) : l.filter P = l :=
  List.filter_eq_self.2 h

omit [Env] in
private theorem kinds {r : Rid} (h : r.Readable) :
    (ridHead r ++ (ridFront r ++ (r.params.unknown ++ ridDepPiece r))).filter isLimit = ridFront r ∧
    (ridHead r ++ (ridFront r ++ (r.params.unknown ++ ridDepPiece r))).filter isDepends = ridDepPiece r ∧
    (ridHead r ++ (ridFront r ++ (r.params.unknown ++ ridDepPiece r))).filter (fun t => !isLimit t && !isDepends t) =
      ridHead r ++ r.params.unknown := by
  have a := head_kind r
  have b := front_kind r
  have c := unknown_kind h
  have d := depends_kind r
  simp only [List.filter_append]
  refine ⟨?_, ?_, ?_⟩
  · rw [filter_none fun t ht => (a t ht).1, filter_all fun t ht => (b t ht).1, filter_none fun t ht => (c t ht).1,
      filter_none fun t ht => (d t ht).1]
    simp
  · rw [filter_none fun t ht => (a t ht).2, filter_none fun t ht => (b t ht).2, filter_none fun t ht => (c t ht).2,
      filter_all fun t ht => (d t ht).2]
    simp
  · rw [filter_all (l := ridHead r) fun t ht => by simp [a t ht], filter_none (l := ridFront r) fun t ht => by simp [b t ht],
      filter_all (l := r.params.unknown) fun t ht => by simp [c t ht], filter_none (l := ridDepPiece r) fun t ht => by simp [d t ht]]
    simp

private theorem limits_read (r : Rid) (h : r.Readable) :
    ridParamList RidState.default (ridFront r) = .ok ⟨{ r.params with unknown := [] }, []⟩ := by
  unfold ridFront
  refine ridParamList_tail (r := { r with params := { r.params with unknown := [] }, depends := [] }) ?_
  exact ⟨h.id, by simp, .inr (by simp), by simp, by simp, by simp⟩

omit [Env] in
private theorem u16_inj {x y : UInt16} (h : showU16 x = showU16 y) : x = y := by
  have h1 := parseU16_show x
  rw [h, parseU16_show y] at h1
  cases h1; rfl

omit [Env] in
private theorem head_inj {r s : Rid} (h : ridHead r = ridHead s) : r.formats = s.formats := by
  unfold ridHead at h
  by_cases h1 : r.formats = [] <;> by_cases h2 : s.formats = []
  · rw [h1, h2]
  · simp [h1, h2] at h
  · simp [h1, h2] at h
  · rw [if_neg h1, if_neg h2] at h
    have h := List.append_cancel_left (List.cons.inj h).1
    have hc : ∀ (l : List UInt16), ∀ t ∈ l.map showU16, ',' ∉ t ∧ t ≠ [] := by
      intro l t ht
      obtain ⟨n, -, rfl⟩ := List.mem_map.1 ht
      exact ⟨fun hm => absurd (showNat_digits hm) (by decide), (Token.u16 n).ne⟩
    exact map_inj (P := fun _ => True) (fun x y _ _ => u16_inj) (by simp) (by simp) (joinS_inj (hc _) (hc _) h)

omit [Env] in
private theorem filter_nonEmpty (l : List Str) : l.filter (fun d => decide (d ≠ [])) = nonEmpty l := by
  refine List.filter_congr fun d _ => ?_
  cases d <;> rfl

/-- **C122.** rid: empty names of streams it depends on are not written, formats without limits are written like an unknown
parameter in front, and nothing else is written alike. -/
theorem C122_rid {r s : Rid} (hr : (Attribute.rid r).Readable) (hs : (Attribute.rid s).Readable) :
    showAttribute (.rid r) = showAttribute (.rid s) ↔ r.Alike s := by
  replace hr : r.Readable := hr
  replace hs : s.Readable := hs
  have p1 := Rid.Read.pieces (r := r) ⟨hr.id, hr.unknown, hr.depends⟩
  have p2 := Rid.Read.pieces (r := s) ⟨hs.id, hs.unknown, hs.depends⟩
  have ne : ∀ r : Rid, showRid r ≠ [] := by intro r; rw [showRid_eq]; simp
  have a1 : showAttribute (.rid r) = showAttribute (.rid s) ↔ showRid r = showRid s := by
    show attrToString _ _ = attrToString _ _ ↔ _
    simp [attrToString, ne]
  have dir : ∀ d, ' ' ∉ showSingleDirection d := by intro d; cases d <;> decide
  have dinj : ∀ d e, showSingleDirection d = showSingleDirection e → d = e := by
    intro d e; cases d <;> cases e <;> first | (intro _; rfl) | (intro h; exact absurd h (by decide))
  have hdep : ∀ {r : Rid}, r.Readable → ∀ t ∈ nonEmpty r.depends, ',' ∉ t ∧ t ≠ [] := by
    intro r hr t ht
    have := List.mem_filter.1 ht
    exact ⟨(hr.depends t this.1).1, by simpa using this.2⟩
  rw [a1]
  constructor
  · intro e
    rw [showRid_eq, showRid_eq] at e
    obtain ⟨k1, e⟩ := cut hr.id.2 hs.id.2 (.inr ⟨_, rfl⟩) (.inr ⟨_, rfl⟩) e
    obtain ⟨k2, e⟩ := cut (dir _) (dir _) (by split <;> simp) (by split <;> simp) (List.cons.inj e).2
    have et : ridText r = ridText s := by
      by_cases h1 : ridText r = [] <;> by_cases h2 : ridText s = []
      · rw [h1, h2]
      · simp [h1, h2] at e
      · simp [h1, h2] at e
      · simpa [h1, h2] using e
    rw [et, p2] at p1
    obtain ⟨u1, u2, u3⟩ := kinds hr
    obtain ⟨v1, v2, v3⟩ := kinds hs
    have f1 : ridFront s = ridFront r := by rw [← v1, p1, u1]
    have f2 : ridDepPiece s = ridDepPiece r := by rw [← v2, p1, u2]
    have f3 : ridHead s ++ s.params.unknown = ridHead r ++ r.params.unknown := by rw [← v3, p1, u3]
    have l1 := limits_read r hr
    have l2 := limits_read s hs
    have lim : { r.params with unknown := [] } = { s.params with unknown := [] } := by
      rw [← f1, l2] at l1
      have h0 := congrArg (fun o : Outcome _ RidState => match o with | .ok st => st.params | _ => r.params) l1
      exact h0.symm
    refine ⟨k1, dinj _ _ k2, lim, ?_, ?_, ?_⟩
    · by_cases h0 : ridFront r = []
      · refine .inr ⟨?_, f3.symm⟩
        rw [h0] at l1
        have h0 := congrArg (fun o : Outcome _ RidState => match o with | .ok st => st.params | _ => r.params) l1
        exact h0.symm
      · have g : ridHead s = ridHead r := by
          have tk : ∀ (r' : Rid), ridFront r' = ridFront r →
              (ridHead r' ++ (ridFront r' ++ (r'.params.unknown ++ ridDepPiece r'))).takeWhile (fun t => !isLimit t) = ridHead r' := by
            intro r' hf
            rw [hf]
            obtain ⟨x, xs, hx⟩ := List.exists_cons_of_ne_nil h0
            have hl : isLimit x = true := (front_kind r x (by rw [hx]; simp)).1
            rw [hx, List.takeWhile_append_of_pos fun t ht => by simp [head_kind r' t ht]]
            simp [hl]
          rw [← tk s f1, p1, tk r rfl]
        rw [g] at f3
        exact .inl ⟨(head_inj g).symm, (List.append_cancel_left f3).symm⟩
    · rw [filter_nonEmpty, filter_nonEmpty]
      unfold ridDepPiece at f2
      by_cases h1 : r.depends = [] <;> by_cases h2 : s.depends = []
      · rw [h1, h2]
      · simp [h1, h2] at f2
      · simp [h1, h2] at f2
      · rw [if_neg h1, if_neg h2] at f2
        have f2 := (List.cons.inj (List.append_cancel_left (List.cons.inj f2).1)).2
        exact (joinS_inj (hdep hs) (hdep hr) f2).symm
    · unfold ridDepPiece at f2
      by_cases h1 : r.depends = [] <;> by_cases h2 : s.depends = [] <;> simp [h1, h2] at f2 ⊢
  · rintro ⟨k1, k2, k3, k4, k5, k6⟩
    rw [filter_nonEmpty, filter_nonEmpty] at k5
    have g1 : ridFront r = ridFront s := by
      have : ∀ r : Rid, ridFront r = ridTail ⟨[], .send, [], { r.params with unknown := [] }, []⟩ := fun r => rfl
      rw [this, this, k3]
    have g2 : ridDepPiece r = ridDepPiece s := by
      unfold ridDepPiece
      simp only [k5, k6]
    have g3 : pieces (ridText r) = pieces (ridText s) := by
      rw [p1, p2, g1, g2]
      rcases k4 with ⟨h1, h2⟩ | ⟨h1, h2⟩
      · have : ridHead r = ridHead s := by unfold ridHead; rw [h1]
        rw [this, h2]
      · have z : ridFront s = [] := by
          rw [← g1]
          have : ∀ r : Rid, ridFront r = ridTail ⟨[], .send, [], { r.params with unknown := [] }, []⟩ := fun r => rfl
          rw [this, h1]
          decide
        have h2 : ridHead r ++ r.params.unknown = ridHead s ++ s.params.unknown := h2
        rw [z, List.nil_append, List.nil_append, ← List.append_assoc, ← List.append_assoc, h2]
    have g4 : ridText r = ridText s := by rw [← joinS_pieces (ridText r), g3, joinS_pieces]
    rw [showRid_eq, showRid_eq, k1, k2, g4]

/-! ### fmtp -/

omit [Env] in
private theorem takeWhile_join {t : Str} (h : '=' ∈ t) (z : Str) :
    (t ++ z).takeWhile (fun c => decide (c ≠ '=')) = t.takeWhile (fun c => decide (c ≠ '=')) := by
  induction t with
  | nil => cases h
  | cons a t ih =>
    rw [List.cons_append, List.takeWhile_cons, List.takeWhile_cons]
    by_cases ha : a = '='
    · simp [ha]
    · rw [if_pos (by simpa using ha), if_pos (by simpa using ha),
        ih ((List.mem_cons.1 h).resolve_left fun h' => ha h'.symm)]

private theorem merged_unknown {us : List Str} (hne : us ≠ []) (h : ∀ t ∈ us, '=' ∈ t ∧ ';' ∉ t ∧ paramName t ∉ fmtpNames) :
    '=' ∈ joinS c%"," us ∧ ';' ∉ joinS c%"," us ∧ paramName (joinS c%"," us) ∉ fmtpNames := by
  cases us with
  | nil => exact absurd rfl hne
  | cons u us =>
    obtain ⟨h1, h2, h3⟩ := h u (by simp)
    obtain ⟨z, hz⟩ : ∃ z, joinS c%"," (u :: us) = u ++ z := by
      cases us with
      | nil => exact ⟨[], by simp [joinS]⟩
      | cons v us => exact ⟨c%"," ++ joinS c%"," (v :: us), by simp [joinS]⟩
    refine ⟨by rw [hz]; simp [h1], fun hm => ?_, ?_⟩
    · rcases mem_joinS hm with hc | ⟨t, ht, hc⟩
      · simp at hc
      · exact (h t ht).2.1 hc
    · rw [hz]
      unfold paramName
      rw [takeWhile_join h1]
      exact h3

/-- What is written of the parameters is one of three: what survives printing, defaults, or something with white space at
the end, which would survive with a letter more. -/
private inductive Kind (p : FmtpParams) : Prop
  | wf (h : p.merged.WF)
  | default (h : p.merged = FmtpParams.default)
  | blank (u : Str) (hu : p.merged.unknownTokens = [u]) (hw : ¬ EndsClean u) (hn : u ≠ [])
      (rtx : p.merged.rtx = none) (enc : p.merged.encodings = []) (tones : p.merged.dtmfTones = [])
      (h : FmtpParams.WF { p.merged with unknownTokens := [u ++ c%"x"] })

omit [Env] in
private theorem range_other {p : FmtpParams} (h : FmtpInRange p) (us : List Str) : FmtpInRange { p with unknownTokens := us } :=
  ⟨h.1, h.2, h.3, h.4, h.5, h.6⟩

private theorem kind {p : FmtpParams} (h : p.Readable) : Kind p := by
  have same : p.rtx = none → p.unknownTokens = [] → p.merged = p := by
    intro h1 h2
    obtain ⟨⟩ := p
    dsimp only at h1 h2
    subst h1 h2
    rfl
  cases h with
  | tones h rest unknown enc rtx => exact .wf (by rw [same rtx unknown]; exact .tones h rest unknown enc rtx)
  | red h le rest unknown tones rtx => exact .wf (by rw [same rtx unknown]; exact .red h le rest unknown tones rtx)
  | params range enc tones unknown =>
    cases hr : p.rtx with
    | some r =>
      refine .wf ?_
      have e : p.merged = { FmtpParams.default with rtx := some r } := by unfold FmtpParams.merged; rw [hr]
      rw [e]
      refine .rtx r rfl (fun f hf => ?_) rfl rfl rfl
      rw [← get_default f]
      cases f <;> first | rfl | exact absurd rfl hf
    | none =>
      by_cases hu : p.unknownTokens = []
      · rw [← same hr hu] at range enc tones
        have hr' : p.merged.rtx = none := by rw [same hr hu]; exact hr
        have hu' : p.merged.unknownTokens = [] := by rw [same hr hu]; exact hu
        by_cases hd : AllDefault p.merged
        · refine .default (FmtpParams.ext_get (fun f hf => ?_) hr' hu' enc tones)
          rw [hd f hf, get_default]
        · exact .wf (.params range hr' enc tones (by simp [hu']) (by simp [hu']) (fun h0 => absurd h0 hd))
      · obtain ⟨u1, u2, u3⟩ := merged_unknown hu unknown
        have e : p.merged = { p with unknownTokens := [joinS c%"," p.unknownTokens] } := by
          unfold FmtpParams.merged; rw [hr]; simp [hu]
        by_cases hw : EndsClean (joinS c%"," p.unknownTokens)
        · refine .wf ?_
          rw [e]
          exact .params (range_other range _) hr enc tones (by simp)
            (fun t ht => by rw [List.mem_singleton.1 ht]; exact ⟨u1, u2, u3, hw⟩) (by simp)
        · refine .blank (joinS c%"," p.unknownTokens) (by rw [e]) hw (List.ne_nil_of_mem u1) (by rw [e]; exact hr)
            (by rw [e]; exact enc) (by rw [e]; exact tones) ?_
          rw [e]
          refine .params (range_other range _) hr enc tones (by simp) (fun t ht => ?_) (by simp)
          rw [List.mem_singleton.1 ht]
          refine ⟨by simp [u1], by simp [u2], ?_, ⟨_, 'x', rfl, by decide⟩⟩
          unfold paramName
          rw [takeWhile_join u1]
          exact u3

omit [Env] in
private theorem show_merged {p : FmtpParams} (h : ∀ t ∈ p.unknownTokens, t ≠ []) : showFmtpParams p.merged = showFmtpParams p := by
  cases hr : p.rtx with
  | some r =>
    have e : p.merged = { FmtpParams.default with rtx := some r } := by unfold FmtpParams.merged; rw [hr]
    rw [e]; unfold showFmtpParams; rw [hr]
  | none =>
    have e : p.merged = { p with unknownTokens := if p.unknownTokens = [] then [] else [joinS c%"," p.unknownTokens] } := by
      unfold FmtpParams.merged; rw [hr]
    have e2 : maybeVec [] [] c%"," (if p.unknownTokens = [] then [] else [joinS c%"," p.unknownTokens]) =
        maybeVec [] [] c%"," p.unknownTokens := by
      cases hu : p.unknownTokens with
      | nil => rfl
      | cons u us =>
        have hf : (u :: us).filter (fun s => !s.isEmpty) = u :: us := by
          rw [List.filter_eq_self]; intro t ht; simpa using h t (by rw [hu]; exact ht)
        have hj : joinS c%"," (u :: us) ≠ [] := by
          rw [ne_eq, joinS_eq_nil (by decide)]
          rintro (h' | h')
          · cases h'
          · exact h u (by rw [hu]; simp) (List.cons.inj h').1
        simp [maybeVec, hf, joinS, hj]
    rw [e]
    unfold showFmtpParams
    rw [hr]
    dsimp only
    rw [fmtpPieces_eq, fmtpPieces_eq]
    dsimp only
    rw [e2]
    rfl

omit [Env] in
/-- Something unknown stands at the end. -/
private theorem show_last {p : FmtpParams} {u : Str} (hu : p.unknownTokens = [u]) (hn : u ≠ [])
    (rtx : p.rtx = none) (enc : p.encodings = []) (tones : p.dtmfTones = []) :
    showFmtpParams p = joinS c%";" (nonEmpty (fmtpOrder.map (pieceOf p)) ++ [u]) := by
  have e : showFmtpParams p = joinS c%";" (nonEmpty (fmtpPieces p)) := by simp [showFmtpParams, rtx, tones, enc]
  rw [e, fmtpPieces_eq, nonEmpty_append, maybeVec_one (by simp [hu]) (by simp [hu, hn]), hu]

private theorem wf_inj {f g : Fmtp} (hf : f.parameters.WF) (hg : g.parameters.WF) (e : showFmtp f = showFmtp g) : f = g := by
  have h1 := (prints_fmtp ⟨hf⟩).2
  rw [e, (prints_fmtp ⟨hg⟩).2] at h1
  cases h1; rfl

private theorem Kind.text {p : FmtpParams} (k : Kind p) :
    p.merged.WF ∧ EndsClean (showFmtpParams p.merged) ∨ p.merged = FmtpParams.default ∧ showFmtpParams p.merged = [] ∨
    ∃ u, p.merged.unknownTokens = [u] ∧ FmtpParams.WF { p.merged with unknownTokens := [u ++ c%"x"] } ∧
      showFmtpParams { p.merged with unknownTokens := [u ++ c%"x"] } = showFmtpParams p.merged ++ c%"x" ∧
      ¬ EndsClean (showFmtpParams p.merged) ∧ showFmtpParams p.merged ≠ [] := by
  cases k with
  | wf h => exact .inl ⟨h, (fmtpBlock_show h).2⟩
  | default h => exact .inr (.inl ⟨h, by rw [h]; decide⟩)
  | blank u hu hw hn rtx enc tones h =>
    have e := show_last hu hn rtx enc tones
    refine .inr (.inr ⟨u, hu, h, ?_, ?_, ?_⟩)
    · rw [show_last (p := { p.merged with unknownTokens := [u ++ c%"x"] }) rfl (by simp) rtx enc tones, e, joinS_snoc_append]
      rfl
    · rw [e]
      have : ∀ z : Str, ¬ EndsClean (z ++ u) := by
        rintro z ⟨r, c, h1, h2⟩
        rcases List.eq_nil_or_concat u with rfl | ⟨u', d, rfl⟩
        · exact hn rfl
        · rw [List.concat_eq_append, ← List.append_assoc] at h1
          have := List.append_inj' h1 rfl
          refine hw ⟨u', d, by rw [List.concat_eq_append], ?_⟩
          rw [(List.cons.inj this.2).1]; exact h2
      have e3 := joinS_snoc_append c%";" (nonEmpty (fmtpOrder.map (pieceOf p.merged))) [] u
      rw [List.nil_append] at e3
      rw [← e3]
      exact this _
    · rw [e]
      have e3 := joinS_snoc_append c%";" (nonEmpty (fmtpOrder.map (pieceOf p.merged))) [] u
      rw [List.nil_append] at e3
      rw [← e3]
      simp [hn]

/-- **C122.** fmtp: next to retransmission parameters nothing else is written, unknown parameters are written as one with
commas, defaults are not written at all, and nothing else is written alike. -/
theorem C122_fmtp {f g : Fmtp} (hf : (Attribute.fmtp f).Readable) (hg : (Attribute.fmtp g).Readable) :
    showAttribute (.fmtp f) = showAttribute (.fmtp g) ↔ f.Alike g := by
  replace hf : f.parameters.Readable := hf
  replace hg : g.parameters.Readable := hg
  have ne : ∀ {p : FmtpParams}, p.Readable → ∀ t ∈ p.unknownTokens, t ≠ [] := by
    intro p h t ht
    cases h with
    | params _ _ _ unknown => exact List.ne_nil_of_mem (unknown t ht).1
    | tones _ _ unknown => rw [unknown] at ht; cases ht
    | red _ _ _ unknown => rw [unknown] at ht; cases ht
  have merged : ∀ {f : Fmtp}, f.parameters.Readable → showFmtp f = showFmtp ⟨f.payloadType, f.parameters.merged⟩ := by
    intro f h
    unfold showFmtp
    dsimp only
    rw [show_merged (ne h)]
  have a1 : showAttribute (.fmtp f) = showAttribute (.fmtp g) ↔ showFmtp f = showFmtp g := by
    show attrToString _ _ = attrToString _ _ ↔ _
    unfold attrToString
    by_cases h1 : showFmtp f = [] <;> by_cases h2 : showFmtp g = [] <;> simp [h1, h2]
  rw [a1, merged hf, merged hg]
  obtain ⟨a, p⟩ := f
  obtain ⟨b, q⟩ := g
  dsimp only at hf hg ⊢
  have full : ∀ {a : UInt8} {p : FmtpParams}, showFmtpParams p ≠ [] → showFmtp ⟨a, p⟩ = showU8 a ++ c%" " ++ showFmtpParams p := by
    intro a p h; simp [showFmtp, h]
  have none : ∀ {a : UInt8} {p : FmtpParams}, showFmtpParams p = [] → showFmtp ⟨a, p⟩ = [] := by
    intro a p h; simp [showFmtp, h]
  have ends : ∀ {a : UInt8} {s : Str}, s ≠ [] → EndsClean (showU8 a ++ c%" " ++ s) → EndsClean s := by
    rintro a s hs ⟨r, c, h1, h2⟩
    rcases List.eq_nil_or_concat s with rfl | ⟨u', d, rfl⟩
    · exact absurd rfl hs
    · rw [List.concat_eq_append, ← List.append_assoc] at h1
      have := List.append_inj' h1 rfl
      refine ⟨u', d, by rw [List.concat_eq_append], ?_⟩
      rw [(List.cons.inj this.2).1]; exact h2
  constructor
  · intro e
    rcases (kind hf).text with ⟨k1, k2⟩ | ⟨k1, k2⟩ | ⟨u, k1, k2, k3, k4, k5⟩ <;>
      rcases (kind hg).text with ⟨l1, l2⟩ | ⟨l1, l2⟩ | ⟨v, l1, l2, l3, l4, l5⟩
    · have := wf_inj (f := ⟨a, p.merged⟩) (g := ⟨b, q.merged⟩) k1 l1 e
      rw [Fmtp.mk.injEq] at this
      exact ⟨this.2, .inr this.1⟩
    · rw [full k2.ne, none l2] at e; simp at e
    · rw [full k2.ne, full l5] at e
      exact absurd (ends l5 (by rw [← e]; exact k2.append)) l4
    · rw [none k2, full l2.ne] at e; simp at e
    · exact ⟨by rw [k1, l1], .inl k1⟩
    · rw [none k2, full l5] at e; simp at e
    · rw [full k5, full l2.ne] at e
      exact absurd (ends k5 (by rw [e]; exact l2.append)) k4
    · rw [full k5, none l2] at e; simp at e
    · rw [full k5, full l5] at e
      have e2 : showFmtp ⟨a, { p.merged with unknownTokens := [u ++ c%"x"] }⟩ = showFmtp ⟨b, { q.merged with unknownTokens := [v ++ c%"x"] }⟩ := by
        rw [full (by rw [k3]; simp), full (by rw [l3]; simp), k3, l3, ← List.append_assoc, ← List.append_assoc, e]
      have := wf_inj (f := ⟨a, _⟩) (g := ⟨b, _⟩) k2 l2 e2
      rw [Fmtp.mk.injEq] at this
      refine ⟨?_, .inr this.1⟩
      have h2 := this.2
      have hu : u = v := by
        have := congrArg FmtpParams.unknownTokens h2
        exact List.append_cancel_right (List.cons.inj this).1
      have h3 := congrArg (fun r : FmtpParams => { r with unknownTokens := [u] }) h2
      have hp : { p.merged with unknownTokens := [u] } = p.merged := by rw [← k1]
      have hq : { q.merged with unknownTokens := [u] } = q.merged := by rw [hu, ← l1]
      exact hp.symm.trans (h3.trans hq)
  · rintro ⟨k1, k2⟩
    dsimp only at k1 k2
    rcases k2 with k2 | k2
    · rw [none (by rw [k2]; decide), none (by rw [← k1, k2]; decide)]
    · rw [k1, k2]

/-! ### All attributes -/

/-- **C122.** Two attributes that can be read have the same text exactly if their values are alike. -/
theorem C122_attribute_iff (L : Laws) {a b : Attribute} (ha : a.Readable) (hb : b.Readable) :
    showAttribute a = showAttribute b ↔ a.Alike b := by
  have other : ∀ {a b : Attribute}, a.Readable → b.Readable → (a.type ≠ b.type ∨ a.type ∉ ambiguousTypes) →
      (showAttribute a = showAttribute b ↔ a = b) := by
    intro a b ha hb h
    refine ⟨fun e => ?_, fun e => by rw [e]⟩
    rcases C122_attribute L ha hb e with e | ⟨e1, e2, -⟩
    · exact e
    · rcases h with h | h
      · exact absurd e1 h
      · exact absurd e2 h
  by_cases ht : a.type = b.type ∧ a.type ∈ ambiguousTypes
  · obtain ⟨h1, h2⟩ := ht
    cases a with
    | fmtp f => cases b with
      | fmtp g => exact C122_fmtp ha hb
      | _ => cases h1
    | imageAttr f => cases b with
      | imageAttr g => exact C122_imageAttr L ha hb
      | _ => cases h1
    | msidSemantic f => cases b with
      | msidSemantic g => exact C122_msidSemantic L ha hb
      | _ => cases h1
    | rid f => cases b with
      | rid g => exact C122_rid ha hb
      | _ => cases h1
    | simulcast f => cases b with
      | simulcast g => exact C122_simulcast ha hb
      | _ => cases h1
    | _ => exact absurd h2 (by simp [Attribute.type, ambiguousTypes])
  · rw [other ha hb (by by_contra hc; exact ht (by simpa using hc))]
    have : a.Alike b ↔ a = b := by
      unfold Attribute.Alike
      split
      iterate 5 exact absurd ⟨rfl, by simp [Attribute.type, ambiguousTypes]⟩ ht
      exact Iff.rfl
    rw [this]

private theorem default_readable : FmtpParams.default.Readable :=
  .params ⟨by decide, by decide, by simp [FmtpParams.default], by simp [FmtpParams.default],
    by simp [FmtpParams.default], by simp [FmtpParams.default]⟩ rfl rfl (by simp [FmtpParams.default])

private theorem hasText_iff (L : Laws) {a : Attribute} (h : a.Readable) : a.hasText = true ↔ showAttribute a ≠ [] := by
  by_cases ht : a.type = .fmtp
  · cases a with
    | fmtp f =>
      have d : (Attribute.fmtp ⟨f.payloadType, FmtpParams.default⟩).Readable := default_readable
      have e : showAttribute (.fmtp ⟨f.payloadType, FmtpParams.default⟩) = [] := by
        show attrToString _ (showFmtp _) = []
        have : showFmtpParams FmtpParams.default = [] := by decide
        simp [showFmtp, this, attrToString]
      have k := C122_fmtp h d
      rw [e] at k
      rw [ne_eq, k]
      have m : FmtpParams.default.merged = FmtpParams.default := rfl
      simp only [Attribute.hasText, decide_eq_true_eq, ne_eq, not_iff_not]
      exact ⟨fun h0 => ⟨by rw [h0]; rfl, .inl h0⟩, fun h0 => h0.parameters.trans m⟩
    | _ => cases ht
  · have h1 : a.hasText = true := by cases a <;> first | rfl | exact absurd rfl ht
    simp only [h1, true_iff]
    intro e
    have d : (Attribute.fmtp ⟨0, FmtpParams.default⟩).Readable := default_readable
    have e2 : showAttribute (.fmtp ⟨0, FmtpParams.default⟩) = [] := by decide
    rcases C122_attribute L h d (e.trans e2.symm) with h0 | ⟨h0, -⟩
    · rw [h0] at ht; exact ht rfl
    · exact ht h0

private theorem map_forall (L : Laws) {as bs : List Attribute} (ha : ∀ a ∈ as, a.Readable) (hb : ∀ b ∈ bs, b.Readable) :
    as.map showAttribute = bs.map showAttribute ↔ List.Forall₂ Attribute.Alike as bs := by
  induction as generalizing bs with
  | nil => cases bs <;> simp
  | cons a as ih =>
    cases bs with
    | nil => simp
    | cons b bs =>
      rw [List.map_cons, List.map_cons, List.cons.injEq, List.forall₂_cons,
        C122_attribute_iff L (ha a (by simp)) (hb b (by simp)),
        ih (fun a h => ha a (by simp [h])) (fun b h => hb b (by simp [h]))]

/-- **C122.** The attribute lines of two lists are the same exactly if, those without text aside, the attributes are alike
one by one. -/
theorem C122_attributes (L : Laws) {as bs : List Attribute} (ha : ∀ a ∈ as, a.Readable) (hb : ∀ b ∈ bs, b.Readable) :
    AttrsAlike as bs ↔ AttrsSame as bs := by
  have e : ∀ {as : List Attribute}, (∀ a ∈ as, a.Readable) →
      (as.map showAttribute).filter (fun t => decide (t ≠ [])) = (as.filter Attribute.hasText).map showAttribute := by
    intro as ha
    rw [List.filter_map]
    congr 1
    refine List.filter_congr fun a h => ?_
    have := hasText_iff L (ha a h)
    by_cases h1 : showAttribute a = []
    · simp only [h1, ne_eq, not_true_eq_false, iff_false, Bool.not_eq_true] at this
      simp [h1, this]
    · simp only [ne_eq, h1, not_false_eq_true, iff_true] at this
      simp [h1, this]
  have k := map_forall L (as := as.filter Attribute.hasText) (bs := bs.filter Attribute.hasText)
    (fun a h => ha a (List.mem_filter.1 h).1) (fun b h => hb b (List.mem_filter.1 h).1)
  rw [← e ha, ← e hb] at k
  exact ⟨fun h => ⟨k.1 h.texts, h.none⟩, fun h => ⟨k.2 h.1, h.2⟩⟩

/-- **C122.** Two sessions that can be read have the same text exactly if they are the same but for attributes, which are
alike, and warnings. -/
theorem C122_session_values (L : Laws) {s s' : Session} (h : s.Readable) (h' : s'.Readable) :
    showSession s = showSession s' ↔ s.Same s' := by
  have km : ∀ {ms ms' : List Media}, (∀ m ∈ ms, m.Readable) → (∀ m ∈ ms', m.Readable) →
      (List.Forall₂ Media.Alike ms ms' ↔ List.Forall₂ Media.Same ms ms') := by
    intro ms
    induction ms with
    | nil => intro ms' _ _; cases ms' <;> simp
    | cons m ms ih =>
      intro ms' h1 h2
      cases ms' with
      | nil => simp
      | cons n ms' =>
        rw [List.forall₂_cons, List.forall₂_cons, ih (fun m hm => h1 m (by simp [hm])) (fun m hm => h2 m (by simp [hm]))]
        have k := C122_attributes L (h1 m (by simp)).attrs (h2 n (by simp)).attrs
        have : m.Alike n ↔ m.Same n :=
          ⟨fun a => ⟨a.media, a.bandwidth, a.connection, k.1 a.attrs⟩, fun a => ⟨a.media, a.bandwidth, a.connection, k.2 a.attrs⟩⟩
        rw [this]
  have ks := C122_attributes L h.attrs h'.attrs
  have km := km h.media h'.media
  rw [C122_session h h']
  exact ⟨fun a => ⟨a.version, a.origin, a.session, a.timing, a.bandwidth, a.connection, ks.1 a.attrs, km.1 a.media⟩,
    fun a => ⟨a.version, a.origin, a.session, a.timing, a.bandwidth, a.connection, ks.2 a.attrs, km.2 a.media⟩⟩

/-- **C122.** The same, of what the parser returned. -/
theorem C122_parsed (L : Laws) {t t' : Str} {f f' : Bool} {s s' : Session} (h : parseSdp t f = .ok s) (h' : parseSdp t' f' = .ok s') :
    showSession s = showSession s' ↔ s.Same s' := C122_session_values L (parsed_readable L h) (parsed_readable L h')

end

section
attribute [local instance] sampleEnv

/-! Values that are different and alike. -/

example : showAttribute (.simulcast ⟨[⟨[⟨c%"1", false⟩]⟩, ⟨[⟨[], false⟩]⟩], []⟩) = showAttribute (.simulcast ⟨[⟨[⟨c%"1", false⟩]⟩], []⟩) := by
  refine (C122_simulcast ⟨?_, by simp, by simp⟩ ⟨?_, by simp, by simp⟩).2 ⟨by decide, by decide, by decide, by decide⟩ <;>
    simp only [List.mem_cons, List.not_mem_nil, or_false, forall_eq_or_imp, forall_eq] <;>
    first | exact ⟨⟨by decide, ⟨by decide, by decide⟩⟩, by decide, ⟨by decide, by decide⟩⟩ | exact ⟨by decide, ⟨by decide, by decide⟩⟩

example : showAttribute (.rid ⟨c%"1", .send, [], ⟨0, 0, 0, 0, 0, 0, [c%"pt=96"]⟩, []⟩) =
    showAttribute (.rid ⟨c%"1", .send, [96], ⟨0, 0, 0, 0, 0, 0, []⟩, []⟩) := by
  refine (C122_rid ⟨⟨⟨'1', [], rfl, by decide⟩, by decide⟩, ?_, by simp⟩ ⟨⟨⟨'1', [], rfl, by decide⟩, by decide⟩, by simp, by simp⟩).2
    ⟨rfl, rfl, rfl, .inr ⟨rfl, by decide⟩, rfl, by decide⟩
  decide

example : showAttribute (.fmtp ⟨96, { FmtpParams.default with unknownTokens := [c%"x=1", c%"y=2"] }⟩) =
    showAttribute (.fmtp ⟨96, { FmtpParams.default with unknownTokens := [c%"x=1,y=2"] }⟩) := by
  refine (C122_fmtp (.params ?_ rfl rfl ?_) (.params ?_ rfl rfl ?_)).2 ⟨by decide, .inr rfl⟩
  · exact ⟨by decide, by decide, by simp [FmtpParams.default], by simp [FmtpParams.default],
      by simp [FmtpParams.default], by simp [FmtpParams.default]⟩
  · decide +kernel
  · exact ⟨by decide, by decide, by simp [FmtpParams.default], by simp [FmtpParams.default],
      by simp [FmtpParams.default], by simp [FmtpParams.default]⟩
  · decide +kernel

end

end Sdp
