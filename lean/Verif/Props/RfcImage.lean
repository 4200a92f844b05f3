import Verif.Props.RfcMore
import Verif.Props.Grammar3
import Verif.Spec.RfcWritten
import Verif.Lemmas.RfcFloat2
/-!
# C110: image attributes of RFC 6236 are accepted
-/

namespace Sdp

open Abnf

/-! ## Tokens -/

private theorem closed_single {t : Str} (h : '[' ∈ t ↔ ']' ∈ t) : ClosedPieces [t] := by
  refine ⟨by simp, ?_, ?_⟩
  · unfold openedIn opened
    by_cases h1 : ']' ∈ t <;> simp [h1, h]
  · intro a b e ha hb
    cases a with
    | nil => exact absurd rfl ha
    | cons x a =>
      simp only [List.cons_append, List.cons.injEq, List.nil_eq, List.append_eq_nil_iff] at e
      exact absurd e.2.2 hb

private theorem closed_list {k a z : Str} {l : List Str} (hk : ']' ∉ k ++ a) (hl : ∀ t ∈ l, '[' ∉ t ∧ ']' ∉ t) (hz : '[' ∉ z) :
    ClosedPieces ((k ++ '[' :: a) :: l ++ [z ++ [']']]) := by
  have h0 : ∀ l : List Str, (∀ t ∈ l, '[' ∉ t ∧ ']' ∉ t) → openedIn l = 0 := by
    intro l hl
    induction l with
    | nil => rfl
    | cons t l ih =>
      have := hl t (by simp)
      have := ih fun t h => hl t (by simp [h])
      simp only [openedIn, List.map_cons, List.sum_cons] at this ⊢
      rw [this]
      simp [opened, *]
  have h1 : opened (k ++ '[' :: a) = 1 := by
    simp only [List.mem_append, not_or] at hk
    simp [opened, hk.1, hk.2]
  have h2 : opened (z ++ [']']) = -1 := by simp [opened, hz]
  have hcons : ∀ l : List Str, openedIn ((k ++ '[' :: a) :: l) = 1 + openedIn l := fun l => by
    simp only [openedIn, List.map_cons, List.sum_cons, h1]
  refine ⟨by simp, ?_, ?_⟩
  · rw [List.cons_append, hcons, openedIn_snoc, h0 l hl, h2]; rfl
  · intro x y e hx hy
    cases x with
    | nil => exact absurd rfl hx
    | cons p x =>
      simp only [List.cons_append, List.cons.injEq] at e
      obtain ⟨rfl, e⟩ := e
      rw [hcons, h0 x]
      · decide
      intro t ht
      refine hl t ?_
      rcases List.eq_nil_or_concat y with rfl | ⟨y, w, rfl⟩
      · exact absurd rfl hy
      rw [List.concat_eq_append, ← List.append_assoc] at e
      rw [(List.append_inj' e rfl).1]
      simp [ht]

/-- A text that the tokenizer does not divide. -/
private def Whole (sep : Char) (t : Str) : Prop := ClosedPieces (splitC sep t)

private theorem whole_single {sep : Char} {t : Str} (hs : sep ∉ t) (h : '[' ∈ t ↔ ']' ∈ t) : Whole sep t := by
  unfold Whole
  rw [splitC_of_not_mem hs]
  exact closed_single h

private theorem whole_list {k : Str} {a : Str} {l : List Str} (hne : l ≠ []) (hk : ∀ c ∈ k, c ≠ ',' ∧ c ≠ ']')
    (hl : ∀ t ∈ a :: l, ∀ c ∈ t, c ≠ ',' ∧ c ≠ '[' ∧ c ≠ ']') : Whole ',' (k ++ '[' :: joinS [','] (a :: l) ++ [']']) := by
  obtain ⟨m, z, rfl⟩ : ∃ m z, l = m ++ [z] := by
    rcases List.eq_nil_or_concat l with rfl | ⟨m, z, rfl⟩
    · exact absurd rfl hne
    · exact ⟨m, z, by simp⟩
  have e : k ++ '[' :: joinS [','] (a :: (m ++ [z])) ++ [']'] = joinS [','] ((k ++ '[' :: a) :: (m ++ [z ++ [']']])) := by
    rw [← joinS_words, ← joinS_words]
    simp
  unfold Whole
  rw [e, splitC_joinS (by simp)]
  · refine closed_list ?_ ?_ ?_
    · intro h
      rcases List.mem_append.1 h with h | h
      · exact (hk _ h).2 rfl
      · exact (hl a (by simp) _ h).2.2 rfl
    · intro t ht
      exact ⟨fun h => (hl t (by simp [ht]) _ h).2.1 rfl, fun h => (hl t (by simp [ht]) _ h).2.2 rfl⟩
    · intro h
      exact (hl z (by simp) _ h).2.1 rfl
  · intro t ht
    simp only [List.mem_cons, List.mem_append, List.not_mem_nil, or_false] at ht
    rcases ht with rfl | ht | rfl
    · intro h
      simp only [List.mem_append, List.mem_cons] at h
      rcases h with h | h | h
      · exact (hk _ h).1 rfl
      · exact absurd h (by decide)
      · exact (hl a (by simp) _ h).1 rfl
    · exact fun h => (hl t (by simp [ht]) _ h).1 rfl
    · intro h
      simp only [List.mem_append, List.mem_cons, List.not_mem_nil, or_false] at h
      rcases h with h | h
      · exact (hl z (by simp) _ h).1 rfl
      · exact absurd h (by decide)

private theorem tokens_join {sep : Char} {ts : List Str} (hne : ts ≠ []) (h : ∀ t ∈ ts, Whole sep t) :
    TokensText sep (joinS [sep] ts) ts := by
  refine ⟨ts.map (splitC sep), [], ?_, ?_, ?_, ?_⟩
  · rw [fields_iff, List.append_nil, splitC_joinS_flatMap hne, List.flatMap_def]
  · rw [List.map_map]
    have : ts.map (joinS [sep] ∘ splitC sep) = ts.map id := List.map_congr_left fun t _ => joinS_splitC
    rw [this, List.map_id]
  · intro g hg
    obtain ⟨t, ht, rfl⟩ := List.mem_map.1 hg
    exact h t ht
  · intro a b e ha
    simp at e
    exact absurd e.1 ha

/-! ## What is written for decimal numbers -/

theorem F32.text_small {x : F32} {n : Nat} (h : FloatFormat.Rounds ⟨23, 8⟩ (n / 10000) x.bits.toNat) (h1 : 1 ≤ n) (h2 : n < 100000) :
    ∃ D k p, ShortestDecimal ⟨23, 8⟩ x.bits.toNat D k p ∧ PlacedDigits D k p x.text ∧ (D : ℚ) * 10 ^ (p - k) = n / 10000 := by
  have hi : FloatFormat.infinity ⟨23, 8⟩ < 2 ^ 31 := by decide
  have hr := h.range
  obtain ⟨b0, bi⟩ := FloatFormat.rounds_small h h1 h2
  rcases (F32.text_iff x x.text).1 rfl with ⟨h3, -⟩ | ⟨-, ⟨h3, -⟩ | ⟨h3, -⟩ | ⟨-, -, D, k, p, hs, hp⟩⟩ | ⟨b, u, -, h3, -⟩
  · simp only at h3
    rw [Nat.mod_eq_of_lt (by omega)] at h3
    omega
  · exact absurd h3 bi
  · exact absurd h3 b0
  · exact ⟨D, k, p, hs, hp, FloatFormat.shortest_small h h1 h2 hs⟩
  · simp only at h3; omega

/-- What is written for a `spvalue`. -/
theorem rfc_sp_written {x : F32} {n : Nat} (h : FloatFormat.Rounds ⟨23, 8⟩ (n / 10000) x.bits.toNat) (h1 : 1000 ≤ n) (h2 : n < 100000) :
    DecimalText x.text (n / 10000) ∧ Rfc.spWritten x.text := by
  obtain ⟨D, k, p, hs, ht, hv⟩ := F32.text_small h (by omega) h2
  have hk := rfc_shortest_len hs
  have q1 : (1000 : ℚ) ≤ n := by exact_mod_cast h1
  have q2 : (n : ℚ) < 100000 := by exact_mod_cast h2
  refine ⟨hv ▸ rfc_placed hk ht, ?_⟩
  have he : -((4 : Nat) : ℤ) ≤ p - k := FloatFormat.exponent_ge (m := n) (by rw [hv]; norm_num) (rfc_shortest_last hs hk)
  obtain ⟨b1, b2⟩ := FloatFormat.point_bounds hs hk
  rw [hv] at b1 b2
  have p1 : p ≤ 1 := by
    by_contra hp
    have : (10 : ℚ) ^ (1 : ℤ) ≤ 10 ^ (p - 1) := zpow_le_zpow_right₀ (by norm_num) (by omega)
    rw [zpow_one] at this
    have u : (n : ℚ) / 10000 < 10 := by rw [div_lt_iff₀ (by norm_num)]; linarith
    linarith
  have p0 : 0 ≤ p := by
    by_contra hp
    have : (10 : ℚ) ^ p ≤ 10 ^ (-1 : ℤ) := zpow_le_zpow_right₀ (by norm_num) (by omega)
    rw [zpow_neg_one] at this
    have u : (10 : ℚ)⁻¹ ≤ (n : ℚ) / 10000 := by rw [le_div_iff₀ (by norm_num)]; linarith
    linarith
  obtain ⟨ds, d1, d2, d3, hd⟩ := ht
  obtain ⟨⟨c, r, rfl, hc⟩, -⟩ := rfc_shortest_digits hs d1 d2 d3
  simp only [List.length_cons] at d2
  rcases hd with ⟨hp, e⟩ | ⟨hp, e⟩ | ⟨w, f, e', hw, hf, hp, e⟩
  · have : p = 0 := by omega
    subst this
    rw [e]
    refine rfc_alt_here (rfc_alt_here (rfc_seq_cons (u := c%"0.") rfl (rfc_seq_cons (u := [c]) ⟨c, rfl, hc⟩ (rfc_seq_one (rfc_reps_of ⟨by omega, by omega, fun x hx => d1 x (by simp [hx])⟩)))))
  · have : r = [] := by
      cases r with
      | nil => rfl
      | cons => simp at d2; omega
    subst this
    rw [e, show (p - k).toNat = 0 by omega]
    exact rfc_alt_there (rfc_alt_here ⟨c, rfl, hc⟩)
  · have hl : w.length = 1 := by have := List.length_pos_iff.2 hw; omega
    match w, hl with
    | [y], _ =>
    simp at e'
    obtain ⟨rfl, rfl⟩ := e'
    rw [e, show [c] ++ c%"." ++ r = [c] ++ (['.'] ++ r) by simp]
    refine rfc_alt_here (rfc_alt_there (rfc_alt_here (rfc_seq_cons ⟨c, rfl, hc⟩ (rfc_seq_cons rfl (rfc_seq_one (rfc_reps_of ⟨?_, by omega, fun x hx => d1 x (by simp [hx])⟩))))))
    exact List.length_pos_iff.2 hf

/-- What is written for a `qvalue`. -/
theorem rfc_q_written {x : F32} {m : Nat} (h : FloatFormat.Rounds ⟨23, 8⟩ (m / 100) x.bits.toNat) (h2 : m ≤ 100) :
    DecimalText x.text (m / 100) ∧ Rfc.qWritten x.text := by
  rcases Nat.eq_zero_or_pos m with rfl | h1
  · rw [Nat.cast_zero, zero_div] at h ⊢
    have hb := FloatFormat.rounds_zero_small h
    have : x = ⟨0⟩ := by cases x; simp only at hb; congr 1; exact UInt32.toNat_inj.1 hb
    subst this
    have e : F32.text ⟨0⟩ = ['0'] := by decide +kernel
    rw [e]
    exact ⟨⟨['0'], [], [], 0, by decide, by decide, .inl ⟨rfl, rfl⟩, .inr ⟨rfl, rfl⟩, by simp [decValue]⟩, rfc_alt_there (rfc_alt_here rfl)⟩
  have q1 : (1 : ℚ) ≤ m := by exact_mod_cast h1
  have q2 : (m : ℚ) ≤ 100 := by exact_mod_cast h2
  have e4 : (m : ℚ) / 100 = ((m * 100 : Nat) : ℚ) / 10000 := by push_cast; ring
  rw [e4] at h
  obtain ⟨D, k, p, hs, ht, hv⟩ := F32.text_small h (by omega) (by omega)
  rw [← e4] at hv
  have hk := rfc_shortest_len hs
  have hl := rfc_shortest_last hs hk
  refine ⟨hv ▸ rfc_placed hk ht, ?_⟩
  have he : -((2 : Nat) : ℤ) ≤ p - k := FloatFormat.exponent_ge (m := m) (by rw [hv]; norm_num) hl
  obtain ⟨b1, b2⟩ := FloatFormat.point_bounds hs hk
  rw [hv] at b1 b2
  have u : (m : ℚ) / 100 ≤ 1 := by rw [div_le_iff₀ (by norm_num)]; linarith
  have p1 : p ≤ 1 := by
    by_contra hp
    have : (10 : ℚ) ^ (1 : ℤ) ≤ 10 ^ (p - 1) := zpow_le_zpow_right₀ (by norm_num) (by omega)
    rw [zpow_one] at this
    linarith
  have whole : p = 1 → D = 1 ∧ k = 1 := by
    rintro rfl
    rw [sub_self, zpow_zero] at b1
    have h1 : (m : ℚ) / 100 = 1 := le_antisymm u b1
    rw [h1, show (1 : ℤ) - k = -((k - 1 : Nat) : ℤ) by omega, zpow_neg, zpow_natCast, ← div_eq_mul_inv, div_eq_iff (by positivity), one_mul] at hv
    have hD : D = 10 ^ (k - 1) := by exact_mod_cast hv
    rcases Nat.lt_or_ge 1 k with hk | hk
    · rw [hD, show k - 1 = k - 2 + 1 by omega, pow_succ] at hl
      omega
    · have : k = 1 := by omega
      subst this
      exact ⟨by simpa using hD, rfl⟩
  obtain ⟨ds, d1, d2, d3, hd⟩ := ht
  rcases hd with ⟨hp, e⟩ | ⟨hp, e⟩ | ⟨w, f, e', hw, hf, hp, e⟩
  · rw [e, List.append_assoc]
    refine rfc_alt_here (rfc_alt_here (rfc_seq_cons rfl (rfc_seq_one (rfc_reps_of ⟨?_, ?_, fun x hx => ?_⟩))))
    · simp; omega
    · simp; omega
    · rcases List.mem_append.1 hx with hx | hx
      · rw [List.eq_of_mem_replicate hx]; rfl
      · exact d1 x hx
  · obtain ⟨rfl, rfl⟩ := whole (by omega)
    match ds, d2 with
    | [c], _ =>
    have hc : c = '1' := by
      have := d1 c (by simp)
      rw [← digitChar_of this]
      simp [decValue] at d3
      rw [d3]
      rfl
    subst hc
    have : p = 1 := by omega
    subst this
    rw [e]
    exact rfc_alt_there (rfc_alt_there (rfc_alt_here rfl))
  · have := whole (by have := List.length_pos_iff.2 hw; omega)
    rw [e'] at d2
    simp at d2
    have := List.length_pos_iff.2 hw
    have := List.length_pos_iff.2 hf
    omega

/-! ## Values -/

/-- Digits, and points in them. -/
private def Plain (s : Str) : Prop := s ≠ [] ∧ ∀ c ∈ s, c.isDigit = true ∨ c = '.'

private theorem Plain.not_mem {s : Str} (h : Plain s) {c : Char} (hc : c.isDigit = false ∧ c ≠ '.') : c ∉ s := fun hm => by
  rcases h.2 c hm with h | h
  · rw [h] at hc; exact absurd hc.1 (by decide)
  · exact hc.2 h

private theorem Plain.ne {s : Str} (h : Plain s) : ∀ c ∈ s, c ≠ ',' ∧ c ≠ '[' ∧ c ≠ ']' := fun c hc =>
  ⟨fun e => h.not_mem (c := ',') (by decide) (e ▸ hc), fun e => h.not_mem (c := '[') (by decide) (e ▸ hc),
    fun e => h.not_mem (c := ']') (by decide) (e ▸ hc)⟩

private theorem xyValue_ok {s : Str} (h : Rfc.xyValue s) : Plain s ∧ ∃ n : UInt32, DecText s n.toNat ∧ showU32 n = s := by
  obtain ⟨_, _, rfl, ⟨c, rfl, hc⟩, ds, _, rfl, hds, rfl⟩ := h
  obtain ⟨-, hl, hd⟩ := reps_char hds
  have hd' : ∀ x ∈ c :: ds, x.isDigit = true := by simpa using ⟨(rfc_posDigit hc).1, hd⟩
  have hn : number (2 ^ 32 - 1) (c :: ds) := by
    refine ⟨by simp, hd', ?_⟩
    have h1 := FloatFormat.decValue_lt hd'
    have h2 : 10 ^ (c :: ds).length ≤ 10 ^ 6 := Nat.pow_le_pow_right (by decide) (by simp; omega)
    have h3 : 10 ^ 6 ≤ 2 ^ 32 - 1 := by decide
    omega
  obtain ⟨n, h, -⟩ := number_u32 hn (by decide)
  have hv : n.toNat = decValue (c :: ds) := h.unique (number_dec hn).1
  simp only [List.append_nil, List.singleton_append]
  refine ⟨⟨by simp, fun x hx => .inl (hd' x hx)⟩, n, h, ?_⟩
  rw [showU32, hv]
  refine showNat_decValue (by simp) hd' (.inl ?_)
  rintro e
  cases e
  exact absurd hc (by decide)

private theorem xyRange_ok {s : Str} (h : Rfc.xyRange s) :
    (∃ r, XyRangeText s r ∧ showXyRange r = s) ∧ ' ' ∉ s ∧ ∀ k : Str, (∀ c ∈ k, c ≠ ',' ∧ c ≠ '[' ∧ c ≠ ']') → Whole ',' (k ++ s) := by
  obtain ⟨r, hr, h⟩ := h
  simp only [List.mem_cons, List.not_mem_nil, or_false] at hr
  have single {u : Str} (hu : ',' ∉ u ∧ ' ' ∉ u) :
      ' ' ∉ '[' :: u ++ [']'] ∧ ∀ k : Str, (∀ c ∈ k, c ≠ ',' ∧ c ≠ '[' ∧ c ≠ ']') → Whole ',' (k ++ ('[' :: u ++ [']'])) := by
    refine ⟨by simp [hu.2], fun k hk => whole_single ?_ (by simp)⟩
    intro h
    simp only [List.mem_append, List.mem_cons, List.not_mem_nil, or_false] at h
    rcases h with h | (h | h) | h
    · exact (hk _ h).1 rfl
    · exact absurd h (by decide)
    · exact hu.1 h
    · exact absurd h (by decide)
  rcases hr with rfl | rfl | rfl
  · obtain ⟨_, _, rfl, rfl, a, _, rfl, ha, _, _, rfl, rfl, o, _, rfl, ho, b, _, rfl, hb, _, _, rfl, rfl, rfl⟩ := h
    obtain ⟨pa, x, hx, ex⟩ := xyValue_ok ha
    obtain ⟨pb, y, hy, ey⟩ := xyValue_ok hb
    rcases ho with rfl | ⟨t, _, rfl, ht, _, _, rfl, rfl, rfl⟩
    · have e : ['['] ++ (a ++ ([':'] ++ ([] ++ (b ++ ([']'] ++ []))))) = '[' :: (a ++ ':' :: b) ++ [']'] := by simp
      rw [e]
      have nc : ',' ∉ a ++ ':' :: b ∧ ' ' ∉ a ++ ':' :: b := by
        simp [pa.not_mem (c := ',') (by decide), pb.not_mem (c := ',') (by decide), pa.not_mem (c := ' ') (by decide),
          pb.not_mem (c := ' ') (by decide)]
      refine ⟨⟨.range x y none, ⟨a ++ ':' :: b, a, b, rfl, ?_, hx, hy⟩, by simp [showXyRange, ex, ey]⟩, single nc⟩
      rw [fields_iff, splitC_append (pa.not_mem (by decide)), splitC_of_not_mem (pb.not_mem (by decide))]
    · obtain ⟨pt, z, hz, ez⟩ := xyValue_ok ht
      have e : ['['] ++ (a ++ ([':'] ++ (t ++ ([':'] ++ []) ++ (b ++ ([']'] ++ []))))) = '[' :: (a ++ ':' :: (t ++ ':' :: b)) ++ [']'] := by
        simp
      rw [e]
      have nc : ',' ∉ a ++ ':' :: (t ++ ':' :: b) ∧ ' ' ∉ a ++ ':' :: (t ++ ':' :: b) := by
        simp [pa.not_mem (c := ',') (by decide), pb.not_mem (c := ',') (by decide), pt.not_mem (c := ',') (by decide),
          pa.not_mem (c := ' ') (by decide), pb.not_mem (c := ' ') (by decide), pt.not_mem (c := ' ') (by decide)]
      refine ⟨⟨.range x y (some z), ⟨a ++ ':' :: (t ++ ':' :: b), a, t, b, rfl, ?_, hx, hz, hy⟩, by simp [showXyRange, ex, ey, ez]⟩, single nc⟩
      rw [fields_iff, splitC_append (pa.not_mem (by decide)), splitC_append (pt.not_mem (by decide)),
        splitC_of_not_mem (pb.not_mem (by decide))]
  · obtain ⟨_, _, rfl, rfl, a, _, rfl, ha, m, _, rfl, hm, _, _, rfl, rfl, rfl⟩ := h
    obtain ⟨l, hlen, hl, rfl⟩ := rep_sep hm
    have hall : ∀ t ∈ a :: l, Rfc.xyValue t := by simpa using ⟨ha, hl⟩
    have hpl : ∀ t ∈ a :: l, Plain t := fun t ht => (xyValue_ok (hall t ht)).1
    have e : ['['] ++ (a ++ ((l.map (',' :: ·)).flatten ++ ([']'] ++ []))) = '[' :: joinS [','] (a :: l) ++ [']'] := by
      rw [← joinS_words]; simp
    rw [e]
    have hne : l ≠ [] := by rintro rfl; simp at hlen
    obtain ⟨ns, hns⟩ := rfc_each_of (R := fun f (n : UInt32) => DecText f n.toNat ∧ showU32 n = f) (l := a :: l) fun t ht => (xyValue_ok (hall t ht)).2
    have hc : ∀ c : Char, c.isDigit = false ∧ c ≠ '.' → c ≠ ',' → c ∉ joinS [','] (a :: l) := fun c hc hc' h => by
      rcases mem_joinS h with h | ⟨t, ht, h⟩
      · exact hc' (by simpa using h)
      · exact (hpl t ht).not_mem hc h
    have hshow : ns.map showU32 = a :: l := by
      have h := (each_iff.1 hns).imp fun _ _ h => h.2
      clear hns
      generalize a :: l = m at h
      induction h with
      | nil => rfl
      | cons h _ ih => rw [List.map_cons, h, ih]
    have hlen2 : 2 ≤ ns.length := by
      have := congrArg List.length hshow
      rw [List.length_map] at this
      rw [this]
      cases l with
      | nil => exact absurd rfl hne
      | cons => simp
    refine ⟨⟨.discrete ns, .inr ⟨_, a :: l, rfl, hc _ (by decide) (by decide), ?_, each_iff.2 ((each_iff.1 hns).imp fun _ _ h => h.1), ?_⟩, ?_⟩, ?_, fun k hk => ?_⟩
    · rw [fields_iff, splitC_joinS (by simp) fun t ht => (hpl t ht).not_mem (by decide)]
    · exact hlen2
    · show showDiscrete showU32 ns = _
      rw [show showDiscrete showU32 ns = c%"[" ++ joinS c%"," (ns.map showU32) ++ c%"]" by
        unfold showDiscrete; split
        · simp at hlen2
        · rfl, hshow]
      rfl
    · have := hc ' ' (by decide) (by decide)
      simp [this]
    · have := whole_list (k := k) hne (fun c h => ⟨(hk c h).1, (hk c h).2.2⟩) fun t ht => (hpl t ht).ne
      simpa using this
  · obtain ⟨hp, n, hn, en⟩ := xyValue_ok h
    refine ⟨⟨.discrete [n], .inl ⟨n, rfl, hn⟩, en⟩, hp.not_mem (by decide), fun k hk => whole_single ?_ ?_⟩
    · intro h
      rcases List.mem_append.1 h with h | h
      · exact (hk _ h).1 rfl
      · exact hp.not_mem (by decide) h
    · constructor
      · intro h
        rcases List.mem_append.1 h with h | h
        · exact absurd rfl (hk _ h).2.1
        · exact absurd h (hp.not_mem (by decide))
      · intro h
        rcases List.mem_append.1 h with h | h
        · exact absurd rfl (hk _ h).2.2
        · exact absurd h (hp.not_mem (by decide))

/-- Up to one digit before and four digits after the point, and not zero. -/
private theorem decimal_small {whole frac : Str} (hd : ∀ c ∈ whole ++ frac, c.isDigit = true) (hp : 10 ^ (frac.length - 1) ≤ decValue (whole ++ frac))
    (hw : whole.length = 1) (hf : frac.length ≤ 4) :
    ∃ n : Nat, 1000 ≤ n ∧ n < 100000 ∧ DecimalText (whole ++ '.' :: frac) (n / 10000) := by
  refine ⟨decValue (whole ++ frac) * 10 ^ (4 - frac.length), ?_, ?_, whole, frac, [], 0, hd, ?_, .inl ⟨rfl, rfl⟩, by simp, ?_⟩
  · refine le_trans ?_ (Nat.mul_le_mul_right _ hp)
    rw [← Nat.pow_add]
    exact (show 1000 = 10 ^ 3 by decide) ▸ Nat.pow_le_pow_right (by decide) (by omega)
  · have h1 := FloatFormat.decValue_lt hd
    calc decValue (whole ++ frac) * 10 ^ (4 - frac.length) < 10 ^ (whole ++ frac).length * 10 ^ (4 - frac.length) :=
          Nat.mul_lt_mul_of_pos_right h1 (Nat.pow_pos (by decide))
      _ = 10 ^ 5 := by rw [← Nat.pow_add]; congr 1; simp [hw]; omega
      _ = 100000 := by decide
  · intro h; simp at h; rw [h.1] at hw; simp at hw
  · rw [zero_sub, zpow_neg, zpow_natCast]
    push_cast
    have e : (10 : ℚ) ^ 4 = 10 ^ (4 - frac.length) * 10 ^ frac.length := by rw [← pow_add]; congr 1; omega
    rw [show (10000 : ℚ) = 10 ^ 4 by norm_num, e]
    have : (10 : ℚ) ^ (4 - frac.length) ≠ 0 := by positivity
    have : (10 : ℚ) ^ frac.length ≠ 0 := by positivity
    field_simp

private theorem dec_ge {a b : Str} {c : Char} (h : Rfc.isPosDigit c = true) : 10 ^ b.length ≤ decValue (a ++ c :: b) := by
  have h1 := (rfc_posDigit h).2
  have e : decValue [c] = c.toNat - '0'.toNat := by simp [decValue]
  rw [show a ++ c :: b = a ++ ([c] ++ b) by simp, decValue_append, decValue_append, e]
  have := Nat.mul_le_mul_right (10 ^ b.length) h1
  omega

private theorem spValue_ok {s : Str} (h : Rfc.spValue s) :
    Plain s ∧ ∃ n : Nat, 1000 ≤ n ∧ n < 100000 ∧ DecimalText s (n / 10000) := by
  obtain ⟨r, hr, h⟩ := h
  simp only [List.mem_cons, List.not_mem_nil, or_false] at hr
  have plain {w f : Str} (hd : ∀ c ∈ w ++ f, c.isDigit = true) : Plain (w ++ '.' :: f) := by
    refine ⟨by simp, fun c hc => ?_⟩
    simp only [List.mem_append, List.mem_cons] at hc
    rcases hc with h | h | h
    · exact .inl (hd c (by simp [h]))
    · exact .inr h
    · exact .inl (hd c (by simp [h]))
  rcases hr with rfl | rfl
  · obtain ⟨_, _, rfl, rfl, _, _, rfl, ⟨c, rfl, hc⟩, ds, _, rfl, hds, rfl⟩ := h
    obtain ⟨-, hl, hd⟩ := reps_char hds
    have hd' : ∀ x ∈ ['0'] ++ c :: ds, x.isDigit = true := by simpa using ⟨(rfc_posDigit hc).1, hd⟩
    have e : c%"0." ++ ([c] ++ (ds ++ [])) = ['0'] ++ '.' :: (c :: ds) := by simp
    rw [e]
    exact ⟨plain hd', decimal_small hd' (by simpa using dec_ge (a := ['0']) (b := ds) hc) rfl (by simp; omega)⟩
  · obtain ⟨_, _, rfl, ⟨c, rfl, hc⟩, _, _, rfl, rfl, ds, _, rfl, hds, rfl⟩ := h
    obtain ⟨-, hl, hd⟩ := reps_char hds
    have hd' : ∀ x ∈ [c] ++ ds, x.isDigit = true := by simpa using ⟨(rfc_posDigit hc).1, hd⟩
    have e : [c] ++ (['.'] ++ (ds ++ [])) = [c] ++ '.' :: ds := by simp
    rw [e]
    exact ⟨plain hd', decimal_small hd' (le_trans (Nat.pow_le_pow_right (by decide) (by omega)) (dec_ge (a := []) (b := ds) hc)) rfl hl⟩

private theorem decimal_unique {t : Str} {x y : ℚ} (h1 : DecimalText t x) (h2 : DecimalText t y) : x = y := by
  obtain ⟨d, e, h, rfl⟩ := parseDecimal_iff.1 h1
  obtain ⟨d', e', h', rfl⟩ := parseDecimal_iff.1 h2
  rw [h] at h'
  cases h'
  rfl

/-- The float of a value, and its number. -/
private def SpFloat (s : Str) (x : F32) : Prop :=
  F32Text s x ∧ ∃ n : Nat, 1000 ≤ n ∧ n < 100000 ∧ DecimalText s (n / 10000) ∧ FloatFormat.Rounds ⟨23, 8⟩ (n / 10000) x.bits.toNat

private theorem spFloat {s : Str} (h : Rfc.spValue s) : ∃ x, SpFloat s x := by
  obtain ⟨-, n, h1, h2, h3⟩ := spValue_ok h
  obtain ⟨⟨x, hx, hr, -⟩, -⟩ := C82_decimals h3
  exact ⟨x, ((C82_reads s).1 x).1 hx, n, h1, h2, h3, hr⟩

private theorem less_floats {a b : Str} {x y : F32} (ha : SpFloat a x) (hb : SpFloat b y) (h : Rfc.Less a b) : ¬ x.AtLeast y := by
  obtain ⟨-, n, n1, n2, n3, n4⟩ := ha
  obtain ⟨-, m, m1, m2, m3, m4⟩ := hb
  obtain ⟨u, v, hu, hv, hlt⟩ := h
  rw [decimal_unique hu n3, decimal_unique hv m3] at hlt
  have hnm : n < m := by
    have : (n : ℚ) < m := by
      rw [div_lt_div_iff_of_pos_right (by norm_num)] at hlt
      exact hlt
    exact_mod_cast this
  have h1 : (n : ℚ) + 1 ≤ m := by exact_mod_cast hnm
  have h2 : (m : ℚ) < 100000 := by exact_mod_cast m2
  refine F32.rounds_order n4 m4 (by positivity) ?_ ?_
  · rw [← add_div]; exact div_le_div_of_nonneg_right h1 (by norm_num)
  · rw [div_lt_iff₀ (by norm_num)]; linarith

private theorem zero_floats {b : Str} {y : F32} (hb : SpFloat b y) : ¬ (F32.mk 0).AtLeast y := by
  obtain ⟨-, m, m1, m2, m3, m4⟩ := hb
  have h1 : (1 : ℚ) ≤ m := by exact_mod_cast le_trans (by decide) m1
  have h2 : (m : ℚ) < 100000 := by exact_mod_cast m2
  refine F32.rounds_order F32.rounds_zero m4 le_rfl ?_ ?_
  · rw [zero_add]; exact div_le_div_of_nonneg_right h1 (by norm_num)
  · rw [div_lt_iff₀ (by norm_num)]; linarith

private theorem SpFloat.written {s : Str} {x : F32} (h : SpFloat s x) : Rfc.spWritten x.text ∧ ∀ v, DecimalText s v → DecimalText x.text v := by
  obtain ⟨-, n, n1, n2, n3, n4⟩ := h
  obtain ⟨h1, h2⟩ := rfc_sp_written n4 n1 n2
  exact ⟨h2, fun v hv => decimal_unique hv n3 ▸ h1⟩

private theorem SpFloat.less {a b : Str} {x y : F32} (ha : SpFloat a x) (hb : SpFloat b y) (h : Rfc.Less a b) : Rfc.Less x.text y.text :=
  let ⟨u, v, hu, hv, hl⟩ := h; ⟨u, v, ha.written.2 u hu, hb.written.2 v hv, hl⟩

private theorem spRange_ok {u : Str} (h : Rfc.spRange u) :
    (∃ mn mx, PsRangeText u mn mx ∧ Rfc.spRangeOf Rfc.spWritten (mn.text ++ '-' :: mx.text)) ∧ '-' ∈ u ∧ ∀ c ∈ u, c.isDigit = true ∨ c = '.' ∨ c = '-' := by
  obtain ⟨a, b, rfl, ha, hb, hl⟩ := h
  obtain ⟨x, hx⟩ := spFloat ha
  obtain ⟨y, hy⟩ := spFloat hb
  have pa := (spValue_ok ha).1
  have pb := (spValue_ok hb).1
  refine ⟨⟨x, y, ⟨a, b, ?_, hx.1, hy.1, less_floats hx hy hl⟩, _, _, rfl, hx.written.1, hy.written.1, hx.less hy hl⟩, by simp, fun c hc => ?_⟩
  · rw [fields_iff, splitC_append (pa.not_mem (by decide)), splitC_of_not_mem (pb.not_mem (by decide))]
  · simp only [List.mem_append, List.mem_cons] at hc
    rcases hc with h | h | h
    · rcases pa.2 c h with h | h
      · exact .inl h
      · exact .inr (.inl h)
    · exact .inr (.inr h)
    · rcases pb.2 c h with h | h
      · exact .inl h
      · exact .inr (.inl h)

private theorem chain_floats {a : Str} {l : List Str} {x : F32} {xs : List F32} (ha : SpFloat a x) (h : Each SpFloat l xs)
    (hc : (a :: l).IsChain Rfc.Less) : ∀ p y z q, x :: xs = p ++ y :: z :: q → ¬ y.AtLeast z := by
  induction l generalizing a x xs with
  | nil =>
    cases xs with
    | cons => exact h.elim
    | nil =>
      intro p y z q e
      have := congrArg List.length e
      simp at this
      omega
  | cons b l ih =>
    cases xs with
    | nil => exact h.elim
    | cons w xs =>
      intro p y z q e
      rw [List.isChain_cons_cons] at hc
      cases p with
      | nil =>
        simp only [List.nil_append, List.cons.injEq] at e
        obtain ⟨rfl, rfl, -⟩ := e
        exact less_floats ha h.1 hc.1
      | cons p0 p =>
        simp only [List.cons_append, List.cons.injEq] at e
        exact ih h.1 h.2 hc.2 p y z q e.2

/-- What is needed of the value of a key. -/
private def ValueOk (P : Str → Prop) (v : Str) : Prop :=
  P v ∧ ' ' ∉ v ∧ ∀ k : Str, (∀ c ∈ k, c ≠ ',' ∧ c ≠ '[' ∧ c ≠ ']') → Whole ',' (k ++ v)

private theorem bracketed {u : Str} (h : ∀ c ∈ u, c.isDigit = true ∨ c = '.' ∨ c = '-') :
    ' ' ∉ '[' :: u ++ [']'] ∧ ∀ k : Str, (∀ c ∈ k, c ≠ ',' ∧ c ≠ '[' ∧ c ≠ ']') → Whole ',' (k ++ ('[' :: u ++ [']'])) := by
  have n1 : ' ' ∉ u := fun hm => by rcases h _ hm with h | h | h <;> exact absurd h (by decide)
  have n2 : ',' ∉ u := fun hm => by rcases h _ hm with h | h | h <;> exact absurd h (by decide)
  refine ⟨by simp [n1], fun k hk => whole_single ?_ (by simp)⟩
  intro h
  simp only [List.mem_append, List.mem_cons, List.not_mem_nil, or_false] at h
  rcases h with h | (h | h) | h
  · exact (hk _ h).1 rfl
  · exact absurd h (by decide)
  · exact n2 h
  · exact absurd h (by decide)

private theorem plain_whole {v : Str} (hp : Plain v) :
    ' ' ∉ v ∧ ∀ k : Str, (∀ c ∈ k, c ≠ ',' ∧ c ≠ '[' ∧ c ≠ ']') → Whole ',' (k ++ v) := by
  have no (c : Char) (h1 : c.isDigit = false ∧ c ≠ '.') {k : Str} (h2 : ∀ x ∈ k, x ≠ c) : c ∉ k ++ v := fun h => by
    rcases List.mem_append.1 h with h | h
    · exact h2 _ h rfl
    · exact hp.not_mem h1 h
  refine ⟨hp.not_mem (by decide), fun k hk => whole_single (no _ (by decide) fun x hx => (hk x hx).1) ?_⟩
  exact iff_of_false (no _ (by decide) fun x hx => (hk x hx).2.1) (no _ (by decide) fun x hx => (hk x hx).2.2)

private theorem bracketed_written {mn mx : F32} (h : Rfc.spRangeOf Rfc.spWritten (mn.text ++ '-' :: mx.text)) :
    seq [exactly ['['], Rfc.spRangeOf Rfc.spWritten, exactly [']']] (c%"[" ++ mn.text ++ c%"-" ++ mx.text ++ c%"]") := by
  rw [show c%"[" ++ mn.text ++ c%"-" ++ mx.text ++ c%"]" = ['['] ++ ((mn.text ++ '-' :: mx.text) ++ [']']) by simp]
  exact rfc_seq_cons rfl (rfc_seq_cons h (rfc_seq_one rfl))

private theorem pRange_ok {v : Str} (h : Rfc.pRange v) :
    ValueOk (fun v => ∃ r : PRange, (∃ u : Str, v = '[' :: u ++ [']'] ∧ PsRangeText u r.min r.max) ∧
      seq [exactly ['['], Rfc.spRangeOf Rfc.spWritten, exactly [']']] (showPRange r)) v := by
  obtain ⟨_, _, rfl, rfl, u, _, rfl, hu, _, _, rfl, rfl, rfl⟩ := h
  obtain ⟨⟨mn, mx, hp, hw⟩, -, hc⟩ := spRange_ok hu
  have e : ['['] ++ (u ++ ([']'] ++ [])) = '[' :: u ++ [']'] := by simp
  rw [e]
  exact ⟨⟨⟨mn, mx⟩, ⟨u, rfl, hp⟩, bracketed_written hw⟩, bracketed hc⟩

private theorem chain_less {a : Str} {l : List Str} {x : F32} {xs : List F32} (ha : SpFloat a x) (h : Each SpFloat l xs)
    (hc : (a :: l).IsChain Rfc.Less) : ((x :: xs).map F32.text).IsChain Rfc.Less ∧ ∀ t ∈ (x :: xs).map F32.text, Rfc.spWritten t := by
  induction l generalizing a x xs with
  | nil =>
    cases xs with
    | cons => exact h.elim
    | nil => exact ⟨by simp, by simpa using ha.written.1⟩
  | cons b l ih =>
    cases xs with
    | nil => exact h.elim
    | cons w xs =>
      rw [List.isChain_cons_cons] at hc
      obtain ⟨h1, h2⟩ := ih h.1 h.2 hc.2
      refine ⟨?_, ?_⟩
      · rw [List.map_cons, List.map_cons, List.isChain_cons_cons]
        exact ⟨ha.less h.1 hc.1, h1⟩
      · intro t ht
        rw [List.map_cons, List.mem_cons] at ht
        rcases ht with rfl | ht
        · exact ha.written.1
        · exact h2 t ht

private theorem chain_written {a : Str} {l : List Str} {xs : List F32} (hne : l ≠ []) (h : Each SpFloat (a :: l) xs)
    (hc : (a :: l).IsChain Rfc.Less) : Rfc.sRangeOf Rfc.spWritten (showSRange (.discrete xs)) := by
  cases xs with
  | nil => exact h.elim
  | cons x xs =>
    cases xs with
    | nil =>
      cases l with
      | nil => exact absurd rfl hne
      | cons => exact h.2.elim
    | cons y xs =>
      obtain ⟨h1, h2⟩ := chain_less h.1 h.2 hc
      exact rfc_alt_here ⟨x.text, (y :: xs).map F32.text, by simp, rfl, h2, h1⟩

private theorem sRange_ok {v : Str} (h : Rfc.sRange v) : ValueOk (fun v => ∃ r, SarText v (some r) ∧ Rfc.sRangeOf Rfc.spWritten (showSRange r)) v := by
  obtain ⟨r, hr, h⟩ := h
  simp only [List.mem_cons, List.not_mem_nil, or_false] at hr
  rcases hr with rfl | rfl | rfl
  · obtain ⟨a, l, hne, rfl, hv, hc⟩ := h
    have hpl : ∀ t ∈ a :: l, Plain t := fun t ht => (spValue_ok (hv t (List.mem_cons.1 ht))).1
    obtain ⟨xs, hxs⟩ := rfc_each_of (R := SpFloat) (l := a :: l) fun t ht => spFloat (hv t (List.mem_cons.1 ht))
    have hnm : ∀ c : Char, c.isDigit = false ∧ c ≠ '.' → c ≠ ',' → c ∉ joinS c%"," (a :: l) := fun c hc hc' h => by
      rcases mem_joinS h with h | ⟨t, ht, h⟩
      · exact hc' (by simpa using h)
      · exact (hpl t ht).not_mem hc h
    refine ⟨⟨.discrete xs, .inr ⟨joinS c%"," (a :: l), rfl, .inr (.inl ⟨hnm _ (by decide) (by decide), ?_, a :: l, xs, ?_, ?_, ?_, rfl⟩)⟩, ?_⟩, ?_, fun k hk => ?_⟩
    · cases l with
      | nil => exact absurd rfl hne
      | cons b l => simp [joinS]
    · rw [fields_iff, splitC_joinS (by simp) fun t ht => (hpl t ht).not_mem (by decide)]
    · exact each_iff.2 ((each_iff.1 hxs).imp fun _ _ h => h.1)
    · cases xs with
      | nil => exact hxs.elim
      | cons x xs =>
        intro p y z q e
        cases p with
        | nil =>
          simp only [List.nil_append, List.cons.injEq] at e
          obtain ⟨rfl, rfl, -⟩ := e
          exact zero_floats hxs.1
        | cons p0 p =>
          simp only [List.cons_append, List.cons.injEq] at e
          exact chain_floats hxs.1 hxs.2 hc p y z q e.2
    · exact chain_written hne hxs hc
    · have := hnm ' ' (by decide) (by decide)
      simp [this]
    · have := whole_list (k := k) hne (fun c h => ⟨(hk c h).1, (hk c h).2.2⟩) fun t ht => (hpl t ht).ne
      simpa using this
  · obtain ⟨_, _, rfl, rfl, u, _, rfl, hu, _, _, rfl, rfl, rfl⟩ := h
    obtain ⟨⟨mn, mx, hp, hw⟩, hd, hc⟩ := spRange_ok hu
    have e : ['['] ++ (u ++ ([']'] ++ [])) = '[' :: u ++ [']'] := by simp
    rw [e]
    exact ⟨⟨.range mn mx, .inr ⟨u, rfl, .inl ⟨hd, mn, mx, hp, rfl⟩⟩, rfc_alt_there (rfc_alt_here (bracketed_written hw))⟩, bracketed hc⟩
  · have hp := (spValue_ok h).1
    obtain ⟨x, hx⟩ := spFloat h
    refine ⟨⟨.discrete [x], .inl ⟨?_, x, hx.1, rfl⟩, rfc_alt_there (rfc_alt_there (rfc_alt_here hx.written.1))⟩, plain_whole hp⟩
    intro h
    cases v with
    | nil => simp at h
    | cons c v =>
      simp at h
      subst h
      exact hp.not_mem (c := '[') (by decide) (by simp)

private theorem qValue_ok {v : Str} (h : Rfc.qValue v) : ValueOk (fun v => ∃ x : F32, F32Text v x ∧ Rfc.qWritten x.text ∧ ∀ y, DecimalText v y → DecimalText x.text y) v := by
  have key : ∃ c ds, v = c :: '.' :: ds ∧ (∀ x ∈ c :: ds, x.isDigit = true) ∧ ds.length ≤ 2 ∧ decValue (c :: ds) ≤ 10 ^ ds.length := by
    obtain ⟨r, hr, h⟩ := h
    simp only [List.mem_cons, List.not_mem_nil, or_false] at hr
    rcases hr with rfl | rfl
    · obtain ⟨_, _, rfl, rfl, ds, _, rfl, hds, rfl⟩ := h
      have hd := (reps_char hds).2.2
      refine ⟨'0', ds, by simp, by simpa using hd, (reps_char hds).2.1, ?_⟩
      have e : decValue ('0' :: ds) = decValue ds := by rw [FloatFormat.decValue_cons]; simp
      rw [e]
      exact (FloatFormat.decValue_lt hd).le
    · obtain ⟨_, _, rfl, rfl, ds, _, rfl, ⟨ts, rfl, -, hle, hts⟩, rfl⟩ := h
      have hz : ts.flatten = List.replicate ts.length '0' := by
        clear hle
        induction ts with
        | nil => rfl
        | cons t ts ih =>
          rw [List.flatten_cons, hts t (by simp), ih fun t ht => hts t (by simp [ht])]
          rfl
      refine ⟨'1', ts.flatten, by simp, ?_, by rw [hz]; simpa using hle, by
        rw [hz, FloatFormat.decValue_cons, decValue_zeros]; simp⟩
      intro x hx
      rcases List.mem_cons.1 hx with rfl | hx
      · rfl
      · obtain ⟨t, ht, hx⟩ := List.mem_flatten.1 hx
        rw [hts t ht] at hx
        simp at hx; subst hx; rfl
  obtain ⟨c, ds, rfl, hd, hl, hle⟩ := key
  have hdec : DecimalText (c :: '.' :: ds) (decValue ([c] ++ ds) * 10 ^ ((0 : ℤ) - ds.length)) :=
    ⟨[c], ds, [], 0, hd, by simp, .inl ⟨rfl, rfl⟩, by simp, rfl⟩
  obtain ⟨⟨x, hx, hr, -⟩, -⟩ := C82_decimals hdec
  have hm : (decValue ([c] ++ ds) : ℚ) * 10 ^ ((0 : ℤ) - ds.length) = (decValue (c :: ds) * 10 ^ (2 - ds.length) : Nat) / 100 := by
    rw [zero_sub, zpow_neg, zpow_natCast]
    push_cast
    have e : (10 : ℚ) ^ 2 = 10 ^ (2 - ds.length) * 10 ^ ds.length := by rw [← pow_add]; congr 1; omega
    rw [show (100 : ℚ) = 10 ^ 2 by norm_num, e]
    have : (10 : ℚ) ^ (2 - ds.length) ≠ 0 := by positivity
    have : (10 : ℚ) ^ ds.length ≠ 0 := by positivity
    rw [List.singleton_append]
    field_simp
  rw [hm] at hdec hr
  have hq := rfc_q_written hr (by
    refine le_trans (Nat.mul_le_mul_right _ hle) ?_
    rw [← Nat.pow_add]
    exact (show 100 = 10 ^ 2 by decide) ▸ Nat.pow_le_pow_right (by decide) (by omega))
  refine ⟨⟨x, ((C82_reads _).1 x).1 hx, hq.2, fun y hy => decimal_unique hy hdec ▸ hq.1⟩, plain_whole ⟨by simp, ?_⟩⟩
  intro y hy
  simp only [List.mem_cons] at hy
  rcases hy with rfl | rfl | h
  · exact .inl (hd y (by simp))
  · exact .inr rfl
  · exact .inl (hd y (by simp [h]))

/-- What is written for decimal numbers stands for the same numbers. -/
theorem rfc_decimals {s : Str} {x : F32} (hx : F32Text s x) :
    (Rfc.spValue s → Rfc.spWritten x.text ∧ ∀ v, DecimalText s v → DecimalText x.text v) ∧
    (Rfc.qValue s → Rfc.qWritten x.text ∧ ∀ v, DecimalText s v → DecimalText x.text v) := by
  have uniq {y : F32} (hy : F32Text s y) : y = x := by
    have h1 := ((C82_reads s).1 x).2 hx
    have h2 := ((C82_reads s).1 y).2 hy
    rw [h1] at h2
    cases h2
    rfl
  constructor
  · intro h
    obtain ⟨y, hy⟩ := spFloat h
    cases uniq hy.1
    exact hy.written
  · intro h
    obtain ⟨⟨y, hy, h1, h2⟩, -⟩ := qValue_ok h
    cases uniq hy
    exact ⟨h1, h2⟩

/-- A key and its value. -/
private theorem keyValue_ok {t : Str} (h : Rfc.keyValue t) : Whole ',' t ∧ ' ' ∉ t ∧
    (∀ v, t = c%"sar=" ++ v → ∃ r, SarText v (some r) ∧ Rfc.sRangeOf Rfc.spWritten (showSRange r)) ∧
    (∀ v, t = c%"par=" ++ v → ∃ r : PRange, (∃ u : Str, v = '[' :: u ++ [']'] ∧ PsRangeText u r.min r.max) ∧
      seq [exactly ['['], Rfc.spRangeOf Rfc.spWritten, exactly [']']] (showPRange r)) ∧
    (∀ v, t = c%"q=" ++ v → ∃ x : F32, F32Text v x ∧ Rfc.qWritten x.text) := by
  obtain ⟨r, hr, h⟩ := h
  simp only [List.mem_cons, List.not_mem_nil, or_false] at hr
  rcases hr with rfl | rfl | rfl
  · obtain ⟨_, _, rfl, rfl, v, _, rfl, hv, rfl⟩ := h
    obtain ⟨h1, h2, h3⟩ := sRange_ok hv
    rw [List.append_nil]
    exact ⟨h3 _ (by decide), by simp [h2], fun w e => by simp at e; subst e; exact h1, fun w e => by simp at e, fun w e => by simp at e⟩
  · obtain ⟨_, _, rfl, rfl, v, _, rfl, hv, rfl⟩ := h
    obtain ⟨h1, h2, h3⟩ := pRange_ok hv
    rw [List.append_nil]
    exact ⟨h3 _ (by decide), by simp [h2], fun w e => by simp at e, fun w e => by simp only [List.append_cancel_left_eq] at e; subst e; exact h1, fun w e => by simp at e⟩
  · obtain ⟨_, _, rfl, rfl, v, _, rfl, hv, rfl⟩ := h
    obtain ⟨h1, h2, h3⟩ := qValue_ok hv
    rw [List.append_nil]
    exact ⟨h3 _ (by decide), by simp [h2], fun w e => by simp at e, fun w e => by simp at e, fun w e => by simp at e; subst e; obtain ⟨x, hx, hq, -⟩ := h1; exact ⟨x, hx, hq⟩⟩

private theorem valuesOf_mem {key v : Str} {ts : List Str} (h : v ∈ valuesOf key ts) : key ++ v ∈ ts := by
  unfold valuesOf at h
  obtain ⟨t, ht, h⟩ := List.mem_filterMap.1 h
  split at h
  · rename_i hp
    simp at h; subst h
    obtain ⟨r, rfl⟩ := List.isPrefixOf_iff_prefix.1 hp
    simpa using ht
  · simp at h

private theorem each_last {α : Type} {R : Str → α → Prop} {l : List Str} {r : List α} (h : Each R l r) {x : α} (hx : x ∈ r) : ∃ v, R v x := by
  induction l generalizing r with
  | nil =>
    cases r with
    | nil => cases hx
    | cons => exact h.elim
  | cons a l ih =>
    cases r with
    | nil => exact h.elim
    | cons b r =>
      rcases List.mem_cons.1 hx with rfl | hx
      · exact ⟨a, h.1⟩
      · exact ih h.2 hx

private theorem image_written {s : ImageAttrSet} (hx : Rfc.xyRange (showXyRange s.x)) (hy : Rfc.xyRange (showXyRange s.y))
    (h1 : ∀ r, s.sar = some r → Rfc.sRangeOf Rfc.spWritten (showSRange r))
    (h2 : ∀ r, s.par = some r → seq [exactly ['['], Rfc.spRangeOf Rfc.spWritten, exactly [']']] (showPRange r))
    (h3 : ∀ r, s.q = some r → Rfc.qWritten r.text) : Rfc.imageSetOf Rfc.spWritten Rfc.qWritten (showImageAttrSet s) := by
  have one {t : Str} (h : Rfc.keyValueOf Rfc.spWritten Rfc.qWritten t) :
      rep 0 (seq [exactly [','], Rfc.keyValueOf Rfc.spWritten Rfc.qWritten]) (',' :: t) :=
    ⟨[',' :: t], by simp, Nat.zero_le _, fun u hu => by
      rw [List.mem_singleton.1 hu]; exact rfc_seq_cons (u := [',']) rfl (rfc_seq_one h)⟩
  have join {a b : Str} (ha : rep 0 (seq [exactly [','], Rfc.keyValueOf Rfc.spWritten Rfc.qWritten]) a)
      (hb : rep 0 (seq [exactly [','], Rfc.keyValueOf Rfc.spWritten Rfc.qWritten]) b) :
      rep 0 (seq [exactly [','], Rfc.keyValueOf Rfc.spWritten Rfc.qWritten]) (a ++ b) := by
    obtain ⟨ts, rfl, -, ht⟩ := ha
    obtain ⟨us, rfl, -, hu⟩ := hb
    exact ⟨ts ++ us, by simp, Nat.zero_le _, fun t h => (List.mem_append.1 h).elim (ht t) (hu t)⟩
  have part {α : Type} (pre : Str) (f : α → Str) (o : Option α)
      (h : ∀ r, o = some r → Rfc.keyValueOf Rfc.spWritten Rfc.qWritten (pre ++ f r)) :
      rep 0 (seq [exactly [','], Rfc.keyValueOf Rfc.spWritten Rfc.qWritten]) (optStr (',' :: pre) f o) := by
    cases o with
    | none => exact ⟨[], rfl, Nat.zero_le _, by simp⟩
    | some r => exact one (h r rfl)
  have k := join (part c%"sar=" showSRange s.sar fun r hr => rfc_alt_here (rfc_seq_cons rfl (rfc_seq_one (h1 r hr))))
    (join (part c%"par=" showPRange s.par fun r hr => rfc_alt_there (rfc_alt_here (rfc_seq_cons rfl (rfc_seq_one (h2 r hr)))))
      (part c%"q=" F32.text s.q fun r hr => rfc_alt_there (rfc_alt_there (rfc_alt_here (rfc_seq_cons rfl (rfc_seq_one (h3 r hr)))))))
  have := rfc_seq_cons (a := exactly c%"[x=") rfl (rfc_seq_cons hx (rfc_seq_cons (a := exactly c%",y=") rfl (rfc_seq_cons hy
    (rfc_seq_cons k (rfc_seq_one (a := exactly [']']) rfl)))))
  unfold showImageAttrSet
  unfold Rfc.imageSetOf
  simpa using this

private theorem imageSet_ok {t : Str} (h : Rfc.imageSet t) :
    (∃ s, ImageSetText t s ∧ Rfc.imageSetOf Rfc.spWritten Rfc.qWritten (showImageAttrSet s)) ∧ ' ' ∉ t ∧ '[' ∈ t ∧ ']' ∈ t ∧ EndsClean t := by
  obtain ⟨_, _, rfl, rfl, x, _, rfl, hx, _, _, rfl, rfl, y, _, rfl, hy, k, _, rfl, hk, _, _, rfl, rfl, rfl⟩ := h
  obtain ⟨ks, -, hks, rfl⟩ := rep_sep hk
  obtain ⟨⟨rx, hrx, ex⟩, sx, wx⟩ := xyRange_ok hx
  obtain ⟨⟨ry, hry, ey⟩, sy, wy⟩ := xyRange_ok hy
  have e : c%"[x=" ++ (x ++ (c%",y=" ++ (y ++ ((ks.map (',' :: ·)).flatten ++ ([']'] ++ []))))) =
      '[' :: joinS [','] ((c%"x=" ++ x) :: (c%"y=" ++ y) :: ks) ++ [']'] := by
    rw [← joinS_words]; simp
  rw [e]
  obtain ⟨r1, h1⟩ := rfc_each_of (R := fun v r => SarText v (some r) ∧ Rfc.sRangeOf Rfc.spWritten (showSRange r)) (l := valuesOf c%"sar=" ks) fun v hv =>
    (keyValue_ok (hks _ (valuesOf_mem hv))).2.2.1 v rfl
  obtain ⟨r2, h2⟩ := rfc_each_of (R := fun v (r : PRange) => (∃ u, v = '[' :: u ++ [']'] ∧ PsRangeText u r.min r.max) ∧
      seq [exactly ['['], Rfc.spRangeOf Rfc.spWritten, exactly [']']] (showPRange r))
    (l := valuesOf c%"par=" ks) fun v hv => (keyValue_ok (hks _ (valuesOf_mem hv))).2.2.2.1 v rfl
  obtain ⟨r3, h3⟩ := rfc_each_of (R := fun v (x : F32) => F32Text v x ∧ Rfc.qWritten x.text) (l := valuesOf c%"q=" ks) fun v hv =>
    (keyValue_ok (hks _ (valuesOf_mem hv))).2.2.2.2 v rfl
  have h1' : Each SarText (valuesOf c%"sar=" ks) (r1.map some) := by
    rw [each_iff, List.forall₂_map_right_iff]
    exact (each_iff.1 h1).imp fun _ _ h => h.1
  refine ⟨⟨⟨rx, ry, ((r1.map some).filterMap id).getLast?, r2.getLast?, r3.getLast?⟩, ⟨_, x, y, ks, rfl, tokens_join (by simp) ?_, hrx, hry,
    ⟨r1.map some, h1', rfl⟩, ⟨r2, each_iff.2 ((each_iff.1 h2).imp fun _ _ h => h.1), rfl⟩,
    ⟨r3, each_iff.2 ((each_iff.1 h3).imp fun _ _ h => h.1), rfl⟩⟩, ?_⟩, ?_, by simp, by simp, ⟨_, ']', rfl, rfl⟩⟩
  · intro t ht
    simp only [List.mem_cons] at ht
    rcases ht with rfl | rfl | ht
    · exact wx _ (by decide)
    · exact wy _ (by decide)
    · exact (keyValue_ok (hks t ht)).1
  · refine image_written (ex ▸ hx) (ey ▸ hy) (fun r hr => ?_) (fun r hr => ?_) fun r hr => ?_
    · rw [List.filterMap_map] at hr
      simp at hr
      exact (each_last h1 (List.mem_of_getLast? hr)).choose_spec.2
    · exact (each_last h2 (List.mem_of_getLast? hr)).choose_spec.2
    · exact (each_last h3 (List.mem_of_getLast? hr)).choose_spec.2
  · intro h
    simp only [List.mem_append, List.mem_cons, List.not_mem_nil, or_false] at h
    rcases h with (h | h) | h
    · exact absurd h (by decide)
    · rcases mem_joinS h with h | ⟨t, ht, h⟩
      · exact absurd h (by decide)
      · simp only [List.mem_cons] at ht
        rcases ht with rfl | rfl | ht
        · simp at h; exact sx h
        · simp at h; exact sy h
        · exact (keyValue_ok (hks t ht)).2.1 h
    · exact absurd h (by decide)

private theorem imageSets_ok {s : Str} (h : Rfc.imageSets s) : ∃ ts l, ts ≠ [] ∧ s = joinS [' '] ts ∧ ImageSetsText ts l ∧
    (∀ t ∈ ts, Whole ' ' t) ∧ EndsClean s ∧ maybeSets l = some l ∧
    Rfc.imageSetsOf Rfc.spWritten Rfc.qWritten (showImageAttrSetList l) := by
  obtain ⟨r, hr, h⟩ := h
  simp only [List.mem_cons, List.not_mem_nil, or_false] at hr
  rcases hr with rfl | rfl
  · obtain ⟨a, _, rfl, ha, m, _, rfl, hm, rfl⟩ := h
    obtain ⟨l, -, hl, rfl⟩ := rep_sep hm
    have hall : ∀ t ∈ a :: l, Rfc.imageSet t := by simpa using ⟨ha, hl⟩
    obtain ⟨ss, hss⟩ := rfc_each_of
      (R := fun t s => ImageSetText t s ∧ Rfc.imageSetOf Rfc.spWritten Rfc.qWritten (showImageAttrSet s)) (l := a :: l) fun t ht => (imageSet_ok (hall t ht)).1
    refine ⟨a :: l, .sets ss, by simp, by rw [List.append_nil, joinS_words], .inr ⟨ss, by simp, each_iff.2 ((each_iff.1 hss).imp fun _ _ h => h.1), rfl⟩, ?_, ?_, ?_⟩
    · intro t ht
      obtain ⟨-, h1, h2, h3, -⟩ := imageSet_ok (hall t ht)
      exact whole_single h1 (iff_of_true h2 h3)
    · rcases List.eq_nil_or_concat l with rfl | ⟨l', z, rfl⟩
      · simpa using (imageSet_ok ha).2.2.2.2
      · obtain ⟨r, d, e, hd⟩ := (imageSet_ok (hall z (by simp))).2.2.2.2
        refine ⟨a ++ ((l'.map (' ' :: ·)).flatten ++ ' ' :: r), d, ?_, hd⟩
        simp [e]
    · cases ss with
      | nil => exact hss.elim
      | cons b ss =>
        refine ⟨rfl, rfc_alt_here (rfc_list fun w hw => ?_)⟩
        rw [← List.map_cons] at hw
        obtain ⟨x, hx, rfl⟩ := List.mem_map.1 hw
        exact (each_last hss hx).choose_spec.2
  · cases h
    exact ⟨[['*']], .wildcard, by simp, rfl, .inl ⟨rfl, rfl⟩, by simpa using whole_single (by decide) (by decide), ⟨[], '*', rfl, rfl⟩,
      rfl, rfc_alt_there (rfc_alt_here rfl)⟩

private theorem shown_one {a : ImageAttr} {d e : SingleDirection} (hde : d ≠ e) (hp : alt [number 127, exactly ['*']] (showPayloadType a.pt))
    (h1 : maybeSets (a.of d) = some (a.of d)) (h2 : Rfc.imageSetsOf Rfc.spWritten Rfc.qWritten (showImageAttrSetList (a.of d)))
    (h3 : a.of e = .sets []) : Rfc.imageattrOf Rfc.spWritten Rfc.qWritten (showImageAttr a) := by
  have key (w : Str) (hw : w = c%"send" ∨ w = c%"recv") :
      Rfc.imageattrOf Rfc.spWritten Rfc.qWritten (showPayloadType a.pt ++ ([' '] ++ (w ++ ([' '] ++ showImageAttrSetList (a.of d))))) := by
    refine rfc_seq_cons hp (rfc_seq_cons rfl (rfc_seq_one ?_))
    rw [show w ++ ([' '] ++ showImageAttrSetList (a.of d)) = w ++ ([' '] ++ (showImageAttrSetList (a.of d) ++ [])) by simp]
    rcases hw with rfl | rfl
    · exact rfc_alt_here (rfc_seq_cons rfl (rfc_seq_cons rfl (rfc_seq_cons h2 (rfc_seq_one (.inl rfl)))))
    · exact rfc_alt_there (rfc_alt_here (rfc_seq_cons rfl (rfc_seq_cons rfl (rfc_seq_cons h2 (rfc_seq_one (.inl rfl))))))
  unfold showImageAttr
  cases d <;> cases e <;> simp only [ImageAttr.of] at h1 h3 key
  · exact absurd rfl hde
  · have := key c%"send" (.inl rfl)
    rw [h1, h3]
    simpa [optStr, maybeSets] using this
  · have := key c%"recv" (.inr rfl)
    rw [h1, h3]
    simpa [optStr, maybeSets] using this
  · exact absurd rfl hde

private theorem shown_two {a : ImageAttr} {d e : SingleDirection} (hde : d ≠ e) (hp : alt [number 127, exactly ['*']] (showPayloadType a.pt))
    (h1 : maybeSets (a.of d) = some (a.of d)) (h2 : Rfc.imageSetsOf Rfc.spWritten Rfc.qWritten (showImageAttrSetList (a.of d)))
    (h3 : maybeSets (a.of e) = some (a.of e)) (h4 : Rfc.imageSetsOf Rfc.spWritten Rfc.qWritten (showImageAttrSetList (a.of e))) :
    Rfc.imageattrOf Rfc.spWritten Rfc.qWritten (showImageAttr a) := by
  have key (h1 : Rfc.imageSetsOf Rfc.spWritten Rfc.qWritten (showImageAttrSetList a.send))
      (h2 : Rfc.imageSetsOf Rfc.spWritten Rfc.qWritten (showImageAttrSetList a.recv)) :
      Rfc.imageattrOf Rfc.spWritten Rfc.qWritten (showPayloadType a.pt ++ ([' '] ++ (c%"send" ++ ([' '] ++ (showImageAttrSetList a.send ++
        ([' '] ++ (c%"recv" ++ ([' '] ++ showImageAttrSetList a.recv)))))))) :=
    rfc_seq_cons hp (rfc_seq_cons rfl (rfc_seq_one (rfc_alt_here (rfc_seq_cons rfl (rfc_seq_cons rfl (rfc_seq_cons h1 (rfc_seq_one (.inr
      (rfc_seq_cons rfl (rfc_seq_cons rfl (rfc_seq_cons rfl (rfc_seq_one h2))))))))))))
  unfold showImageAttr
  cases d <;> cases e <;> simp only [ImageAttr.of] at h1 h2 h3 h4
  · exact absurd rfl hde
  · rw [h1, h3]
    simpa [optStr] using key h2 h4
  · rw [h1, h3]
    simpa [optStr] using key h4 h2
  · exact absurd rfl hde

section
variable [Env]

theorem rfc_imageattr {v : Str} (h : Rfc.imageattr v) : ∃ a, attrFromStr (c%"imageattr:" ++ v) = .ok (.imageAttr a) ∧
    Rfc.imageattrOf Rfc.spWritten Rfc.qWritten (showImageAttr a) := by
  obtain ⟨hlen, pt, _, rfl, hpt, _, _, rfl, rfl, w, _, rfl, hw, rfl⟩ := h
  have hp : ∃ p, PayloadTypeText pt p ∧ Whole ' ' pt ∧ BeginsClean pt ∧ alt [number 127, exactly ['*']] (showPayloadType p) := by
    obtain ⟨r, hr, h⟩ := hpt
    simp only [List.mem_cons, List.not_mem_nil, or_false] at hr
    rcases hr with rfl | rfl
    · obtain ⟨n, hn, hv⟩ := number_u8 h (by omega)
      exact ⟨.pt n, hn, whole_single (number_not_mem h rfl) (iff_of_false (number_not_mem h rfl) (number_not_mem h rfl)),
        (number_token h).begins, rfc_alt_here (rfc_number_show hv)⟩
    · cases h
      exact ⟨.wildcard, rfl, whole_single (by decide) (by decide), ⟨'*', [], rfl, rfl⟩, rfc_alt_there (rfc_alt_here rfl)⟩
  obtain ⟨p, hp, wp, ⟨c, r, hbegin, hc⟩, hshow⟩ := hp
  simp only [List.append_nil, List.singleton_append] at hlen ⊢
  have wd (d : SingleDirection) : Whole ' ' (singleDirectionText d) := by cases d <;> exact whole_single (by decide) (by decide)
  have key (d e : SingleDirection) (hde : d ≠ e) {w : Str} (hlen : (pt ++ ' ' :: w).length ≤ 2 ^ 31 - 16)
      (hw : seq [exactly (singleDirectionText d), Rfc.SP, Rfc.imageSets,
        opt (seq [Rfc.SP, exactly (singleDirectionText e), Rfc.SP, Rfc.imageSets])] w) :
      ∃ a, attrFromStr (c%"imageattr:" ++ (pt ++ ' ' :: w)) = .ok (.imageAttr a) ∧
        Rfc.imageattrOf Rfc.spWritten Rfc.qWritten (showImageAttr a) := by
    have mk (l1 l2 : ImageAttrSetList) : ∃ a : ImageAttr, a.pt = p ∧ a.of d = l1 ∧ a.of e = l2 := by
      cases d <;> cases e
      · exact absurd rfl hde
      · exact ⟨⟨p, l1, l2⟩, rfl, rfl, rfl⟩
      · exact ⟨⟨p, l2, l1⟩, rfl, rfl, rfl⟩
      · exact absurd rfl hde
    have hll : (c%"imageattr:" ++ (pt ++ ' ' :: w)).length < 2 ^ 31 := by
      rw [List.length_append]; simp only [List.length_cons, List.length_nil]; omega
    have trimmed {x : Str} (hx : EndsClean x) (y : Str) : trim (pt ++ ' ' :: (y ++ x)) = pt ++ ' ' :: (y ++ x) := by
      obtain ⟨r', d, rfl, hd⟩ := hx
      refine Trimmed.trim ⟨⟨c, r ++ ' ' :: (y ++ (r' ++ [d])), by rw [hbegin]; rfl, hc⟩, pt ++ ' ' :: (y ++ r'), d, by simp, hd⟩
    obtain ⟨_, _, rfl, rfl, _, _, rfl, rfl, s, _, rfl, hs, o, _, rfl, ho, rfl⟩ := hw
    obtain ⟨ts, l, hne, rfl, hts, wts, ets, mts, gts⟩ := imageSets_ok hs
    have j (d : Str) (ts : List Str) (hne : ts ≠ []) : joinS [' '] (d :: ts) = d ++ [' '] ++ joinS [' '] ts := by
      cases ts with
      | nil => exact absurd rfl hne
      | cons => rfl
    rcases ho with rfl | ⟨_, _, rfl, rfl, _, _, rfl, rfl, _, _, rfl, rfl, s', _, rfl, hs', rfl⟩
    · obtain ⟨a, h1, h2, h3⟩ := mk l (.sets [])
      refine ⟨a, (C67_imageattr hll).2 ⟨_, attr_open (name := c%"imageattr") (by decide) rfl _, pt, d, e, ts, h1 ▸ hp, hde, h2 ▸ hts, .inl ⟨?_, h3⟩⟩,
        shown_one hde (h1 ▸ hshow) (h2 ▸ mts) (h2 ▸ gts) h3⟩
      have : singleDirectionText d ++ ([' '] ++ (joinS [' '] ts ++ ([] ++ []))) = (singleDirectionText d ++ [' ']) ++ joinS [' '] ts := by simp
      rw [this, List.append_eq, List.nil_append, trimmed ets]
      have := tokens_join (sep := ' ') (ts := pt :: singleDirectionText d :: ts) (by simp) (by
        intro t ht
        simp only [List.mem_cons] at ht
        rcases ht with rfl | rfl | ht
        · exact wp
        · exact wd d
        · exact wts t ht)
      rw [j _ _ (by simp), j _ _ hne] at this
      simpa using this
    · obtain ⟨ts', l', hne', rfl, hts', wts', ets', mts', gts'⟩ := imageSets_ok hs'
      obtain ⟨a, h1, h2, h3⟩ := mk l l'
      refine ⟨a, (C67_imageattr hll).2 ⟨_, attr_open (name := c%"imageattr") (by decide) rfl _, pt, d, e, ts, h1 ▸ hp, hde, h2 ▸ hts, .inr ⟨ts', ?_, h3 ▸ hts'⟩⟩,
        shown_two hde (h1 ▸ hshow) (h2 ▸ mts) (h2 ▸ gts) (h3 ▸ mts') (h3 ▸ gts')⟩
      have : singleDirectionText d ++ ([' '] ++ (joinS [' '] ts ++ ([' '] ++ (singleDirectionText e ++ ([' '] ++ (joinS [' '] ts' ++ []))) ++ []))) =
          (singleDirectionText d ++ [' '] ++ (joinS [' '] ts ++ ([' '] ++ (singleDirectionText e ++ [' '])))) ++ joinS [' '] ts' := by simp
      rw [this, List.append_eq, List.nil_append, trimmed ets']
      have := tokens_join (sep := ' ') (ts := pt :: singleDirectionText d :: ts ++ singleDirectionText e :: ts') (by simp) (by
        intro t ht
        simp only [List.cons_append, List.mem_cons, List.mem_append] at ht
        rcases ht with rfl | rfl | ht | rfl | ht
        · exact wp
        · exact wd d
        · exact wts t ht
        · exact wd e
        · exact wts' t ht)
      have j2 : ∀ ts : List Str, ts ≠ [] → ∀ us : List Str, us ≠ [] → joinS [' '] (ts ++ us) = joinS [' '] ts ++ [' '] ++ joinS [' '] us := by
        intro ts hts us hus
        induction ts with
        | nil => exact absurd rfl hts
        | cons t ts ih =>
          cases ts with
          | nil => exact j t us hus
          | cons t' ts =>
            rw [List.cons_append, j _ _ (by simp), ih (by simp), j t (t' :: ts) (by simp)]
            simp
      rw [List.cons_append, List.cons_append, j _ _ (by simp), j _ _ (by simp), j2 _ hne _ (by simp), j _ _ hne'] at this
      simpa using this
  obtain ⟨r, hr, hw⟩ := hw
  simp only [List.mem_cons, List.not_mem_nil, or_false] at hr
  rcases hr with rfl | rfl
  · exact key .send .recv (by decide) hlen hw
  · exact key .recv .send (by decide) hlen hw

/-- **C110.** `imageattr` (RFC 6236, 3.1.1). -/
theorem C110_imageattr {v : Str} (h : Rfc.imageattr v) : ∃ a, attrFromStr (c%"imageattr:" ++ v) = .ok (.imageAttr a) :=
  let ⟨a, h, _⟩ := rfc_imageattr h; ⟨a, h⟩

end

/-! ## Concrete cases -/

section
attribute [local instance] sampleEnv

private theorem xy_of {a : Char} {b : Str} (h : Rfc.isPosDigit a = true ∧ b.length ≤ 5 ∧ ∀ c ∈ b, c.isDigit = true) :
    Rfc.xyRange (a :: b) :=
  ⟨_, List.mem_cons_of_mem _ (List.mem_cons_of_mem _ List.mem_cons_self), [a], b, rfl, ⟨a, rfl, h.1⟩, b, [], by simp,
    rfc_reps_of ⟨by simp, h.2.1, h.2.2⟩, rfl⟩

private theorem less_of {a b c d : Str} (h1 : ∀ x ∈ a ++ b, x.isDigit = true) (h2 : ∀ x ∈ c ++ d, x.isDigit = true)
    (n1 : a ++ b ≠ []) (n2 : c ++ d ≠ []) (h : decValue (a ++ b) * 10 ^ d.length < decValue (c ++ d) * 10 ^ b.length) :
    Rfc.Less (a ++ '.' :: b) (c ++ '.' :: d) := by
  refine ⟨_, _, ⟨a, b, [], 0, h1, n1, .inl ⟨rfl, rfl⟩, .inl (by simp), rfl⟩, ⟨c, d, [], 0, h2, n2, .inl ⟨rfl, rfl⟩, .inl (by simp), rfl⟩, ?_⟩
  rw [zero_sub, zero_sub, zpow_neg, zpow_neg, ← div_eq_mul_inv, ← div_eq_mul_inv, div_lt_div_iff₀ (by positivity) (by positivity)]
  exact_mod_cast h

example : Rfc.imageattr c%"97 send [x=800,y=[320,640],sar=[1.1-1.3],q=0.6] [x=480,y=320] recv *" :=
  ⟨by decide, c%"97", _, rfl, ⟨_, List.mem_cons_self, by decide, by decide, by decide⟩, [' '], _, rfl, rfl,
    c%"send [x=800,y=[320,640],sar=[1.1-1.3],q=0.6] [x=480,y=320] recv *", [], rfl,
    ⟨_, List.mem_cons_self, c%"send", _, rfl, rfl, [' '], _, rfl, rfl, c%"[x=800,y=[320,640],sar=[1.1-1.3],q=0.6] [x=480,y=320]", _, rfl,
      ⟨_, List.mem_cons_self, c%"[x=800,y=[320,640],sar=[1.1-1.3],q=0.6]", _, rfl,
        ⟨c%"[x=", _, rfl, rfl, c%"800", _, rfl, xy_of (by decide), c%",y=", _, rfl, rfl, c%"[320,640]", _, rfl,
          ⟨_, List.mem_cons_of_mem _ List.mem_cons_self, ['['], _, rfl, rfl, c%"320", _, rfl,
            ⟨['3'], _, rfl, ⟨_, rfl, rfl⟩, c%"20", [], rfl, rfc_reps_of (by decide), rfl⟩, c%",640", _, rfl,
            ⟨[c%",640"], rfl, by decide, by
              intro t ht; simp at ht; subst ht
              exact ⟨[','], _, rfl, rfl, c%"640", [], rfl, ⟨['6'], _, rfl, ⟨_, rfl, rfl⟩, c%"40", [], rfl, rfc_reps_of (by decide), rfl⟩, rfl⟩⟩,
            [']'], [], rfl, rfl, rfl⟩,
          c%",sar=[1.1-1.3],q=0.6", _, rfl, ⟨[c%",sar=[1.1-1.3]", c%",q=0.6"], rfl, by decide, by
            intro t ht; simp at ht
            rcases ht with rfl | rfl
            · refine ⟨[','], _, rfl, rfl, c%"sar=[1.1-1.3]", [], rfl, ⟨_, List.mem_cons_self, c%"sar=", _, rfl, rfl, c%"[1.1-1.3]", [], rfl,
                ⟨_, List.mem_cons_of_mem _ List.mem_cons_self, ['['], _, rfl, rfl, c%"1.1-1.3", _, rfl,
                  ⟨c%"1.1", c%"1.3", rfl, ?_, ?_, less_of (a := ['1']) (b := ['1']) (c := ['1']) (d := ['3']) (by decide) (by decide)
                    (by decide) (by decide) (by decide)⟩, [']'], [], rfl, rfl, rfl⟩, rfl⟩, rfl⟩
              · exact ⟨_, List.mem_cons_of_mem _ List.mem_cons_self, ['1'], _, rfl, ⟨_, rfl, rfl⟩, ['.'], _, rfl, rfl, ['1'], [], rfl,
                  rfc_reps_of (by decide), rfl⟩
              · exact ⟨_, List.mem_cons_of_mem _ List.mem_cons_self, ['1'], _, rfl, ⟨_, rfl, rfl⟩, ['.'], _, rfl, rfl, ['3'], [], rfl,
                  rfc_reps_of (by decide), rfl⟩
            · exact ⟨[','], _, rfl, rfl, c%"q=0.6", [], rfl, ⟨_, List.mem_cons_of_mem _ (List.mem_cons_of_mem _ List.mem_cons_self),
                c%"q=", _, rfl, rfl, c%"0.6", [], rfl, ⟨_, List.mem_cons_self, c%"0.", _, rfl, rfl, ['6'], [], rfl, rfc_reps_of (by decide), rfl⟩,
                rfl⟩, rfl⟩⟩,
          [']'], [], rfl, rfl, rfl⟩,
        c%" [x=480,y=320]", [], rfl, ⟨[c%" [x=480,y=320]"], rfl, by decide, by
          intro t ht; simp at ht; subst ht
          exact ⟨[' '], _, rfl, rfl, c%"[x=480,y=320]", [], rfl, ⟨c%"[x=", _, rfl, rfl, c%"480", _, rfl, xy_of (by decide), c%",y=", _, rfl, rfl,
            c%"320", _, rfl, xy_of (by decide), [], _, rfl, ⟨[], rfl, by decide, by simp⟩, [']'], [], rfl, rfl, rfl⟩, rfl⟩⟩, rfl⟩,
      c%" recv *", [], rfl, .inr ⟨[' '], _, rfl, rfl, c%"recv", _, rfl, rfl, [' '], _, rfl, rfl, ['*'], [], rfl,
        ⟨_, List.mem_cons_of_mem _ List.mem_cons_self, rfl⟩, rfl⟩, rfl⟩, rfl⟩

/-! ## Where the library takes less than RFC 6236 -/

/-- **C110.** The same direction twice, ranges that do not increase, two spaces and upper case are all allowed by RFC 6236, and all
rejected. -/
theorem C110_imageattr_limits : ∀ l ∈ [c%"imageattr:97 send [x=800,y=640] send [x=480,y=320]",
    c%"imageattr:97 send [x=800,y=640,sar=[1.3-1.1]]", c%"imageattr:97 send [x=800,y=640,sar=[1.3,1.1]]",
    c%"imageattr:97 send [x=800,y=640,par=[1.0-1.0]]", c%"imageattr:97  send [x=800,y=640]",
    c%"imageattr:97 send [x=800,y=640]  [x=480,y=320]", c%"imageattr:97 SEND [x=800,y=640]",
    c%"imageattr:97 send [X=800,y=640]"], (attrFromStr l).isOk = false := by decide +kernel

/-- **C110.** A key in upper case is not rejected but lost. -/
theorem C110_imageattr_key :
    attrFromStr c%"imageattr:97 send [x=800,y=640,Q=0.6]" = attrFromStr c%"imageattr:97 send [x=800,y=640]" ∧
      (attrFromStr c%"imageattr:97 send [x=800,y=640,Q=0.6]").isOk = true := by decide +kernel

end

end Sdp
