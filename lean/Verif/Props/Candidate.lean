import Verif.Spec.Sample
import Verif.Spec.Candidate
import Verif.Lemmas.Fmtp
import Verif.Lemmas.Ws
import Mathlib.Data.List.Induction
/-!
# C49: candidate attributes
-/

namespace Sdp

theorem CandExt.text_inj {j k : CandExt} (h : j.text = k.text) : j = k := by
  cases j <;> cases k <;> first | rfl | (simp [CandExt.text] at h)

theorem mem_candExtNames {n : Str} : n ∈ candExtNames ↔ ∃ k : CandExt, n = k.text := by
  constructor
  · intro h
    simp only [candExtNames, List.mem_cons, List.not_mem_nil, or_false] at h
    rcases h with rfl | rfl | rfl | rfl | rfl | rfl
    exacts [⟨.generation, rfl⟩, ⟨.networkCost, rfl⟩, ⟨.raddr, rfl⟩, ⟨.rport, rfl⟩, ⟨.tcptype, rfl⟩, ⟨.ufrag, rfl⟩]
  · rintro ⟨k, rfl⟩; cases k <;> simp [candExtNames, CandExt.text]

/-- The seven fields of the mandatory tokens agree. -/
def SameBase (c d : Candidate) : Prop :=
  d.foundation = c.foundation ∧ d.component = c.component ∧ d.transport = c.transport ∧
  d.priority = c.priority ∧ d.address = c.address ∧ d.port = c.port ∧ d.cType = c.cType

/-- The field of one extension agrees. -/
def SameExt (k : CandExt) (c d : Candidate) : Prop :=
  match k with
  | .generation => d.generation = c.generation
  | .networkCost => d.networkcost = c.networkcost
  | .raddr => d.raddr = c.raddr
  | .rport => d.rport = c.rport
  | .tcptype => d.tcpType = c.tcpType
  | .ufrag => d.ufrag = c.ufrag

section
variable [Env]

theorem SameExt.holds {k : CandExt} {c d : Candidate} {v : Str} (h : SameExt k c d) : k.Holds d v ↔ k.Holds c v := by
  cases k <;> simp only [SameExt] at h <;> simp [CandExt.Holds, h]

omit [Env] in
theorem SameExt.absent {k : CandExt} {c d : Candidate} (h : SameExt k c d) : k.Absent d ↔ k.Absent c := by
  cases k <;> simp only [SameExt] at h <;> simp [CandExt.Absent, h]

theorem parseCandTcpType_ok {v : Str} {t : CandTcpType} : parseCandTcpType v = .ok t ↔ lower v = tcpTypeText t := by
  unfold parseCandTcpType
  constructor
  · intro h
    rcases ite_cases h with ⟨hu, h⟩ | ⟨-, h⟩
    · cases h; exact hu
    rcases ite_cases h with ⟨hu, h⟩ | ⟨-, h⟩
    · cases h; exact hu
    rcases ite_cases h with ⟨hu, h⟩ | ⟨-, h⟩
    · cases h; exact hu
    · simp at h
  · intro h; cases t <;> simp [h, tcpTypeText]

theorem parseCandType_ok {v : Str} {t : CandType} : parseCandType v = .ok t ↔ lower v = candTypeText t := by
  unfold parseCandType
  constructor
  · intro h
    rcases ite_cases h with ⟨hu, h⟩ | ⟨-, h⟩
    · cases h; exact hu
    rcases ite_cases h with ⟨hu, h⟩ | ⟨-, h⟩
    · cases h; exact hu
    rcases ite_cases h with ⟨hu, h⟩ | ⟨-, h⟩
    · cases h; exact hu
    rcases ite_cases h with ⟨hu, h⟩ | ⟨-, h⟩
    · cases h; exact hu
    · simp at h
  · intro h; cases t <;> simp [h, candTypeText]

theorem parseCandTransport_ok {v : Str} {t : CandTransport} :
    parseCandTransport v = .ok t ↔ lower v = transportText t := by
  unfold parseCandTransport
  constructor
  · intro h
    rcases ite_cases h with ⟨hu, h⟩ | ⟨-, h⟩
    · cases h; exact hu
    rcases ite_cases h with ⟨hu, h⟩ | ⟨-, h⟩
    · cases h; exact hu
    · simp at h
  · intro h; cases t <;> simp [h, transportText]

/-- What one pair does. -/
theorem candExt_known {k : CandExt} {c d : Candidate} {n v : Str} (hn : lower n = k.text)
    (h : candExt c n v = .ok d) :
    k.Holds d v ∧ k.Legal v ∧ (∀ j, j ≠ k → SameExt j c d) ∧ SameBase c d ∧
      d.unknownExtensions = c.unknownExtensions := by
  unfold candExt at h
  cases k <;> simp only [CandExt.text] at hn <;> simp only [hn] at h
  · obtain ⟨x, hx, h⟩ := bind_eq_ok.1 h
    cases h
    have := parseU32_ok.1 hx
    refine ⟨⟨x, rfl, this⟩, ⟨_, x.toNat_lt, this⟩, fun j hj => ?_, ⟨rfl, rfl, rfl, rfl, rfl, rfl, rfl⟩, rfl⟩
    cases j <;> first | rfl | exact absurd rfl hj
  · obtain ⟨x, hx, h⟩ := bind_eq_ok.1 h
    cases h
    have := parseU32_ok.1 hx
    refine ⟨⟨x, rfl, this⟩, ⟨_, x.toNat_lt, this⟩, fun j hj => ?_, ⟨rfl, rfl, rfl, rfl, rfl, rfl, rfl⟩, rfl⟩
    cases j <;> first | rfl | exact absurd rfl hj
  · obtain ⟨x, hx, h⟩ := bind_eq_ok.1 h
    cases h
    refine ⟨⟨x, rfl, hx⟩, ⟨_, hx⟩, fun j hj => ?_, ⟨rfl, rfl, rfl, rfl, rfl, rfl, rfl⟩, rfl⟩
    cases j <;> first | rfl | exact absurd rfl hj
  · obtain ⟨x, hx, h⟩ := bind_eq_ok.1 h
    rcases ite_cases h with ⟨-, h⟩ | ⟨hp, h⟩
    · simp at h
    cases h
    have := parseU32_ok.1 hx
    refine ⟨⟨x, rfl, this⟩, ⟨_, not_gt_u32 hp, this⟩, fun j hj => ?_, ⟨rfl, rfl, rfl, rfl, rfl, rfl, rfl⟩, rfl⟩
    cases j <;> first | rfl | exact absurd rfl hj
  · obtain ⟨x, hx, h⟩ := bind_eq_ok.1 h
    cases h
    refine ⟨⟨x, rfl, parseCandTcpType_ok.1 hx⟩, ⟨_, parseCandTcpType_ok.1 hx⟩, fun j hj => ?_,
      ⟨rfl, rfl, rfl, rfl, rfl, rfl, rfl⟩, rfl⟩
    cases j <;> first | rfl | exact absurd rfl hj
  · cases h
    refine ⟨rfl, trivial, fun j hj => ?_, ⟨rfl, rfl, rfl, rfl, rfl, rfl, rfl⟩, rfl⟩
    cases j <;> first | rfl | exact absurd rfl hj

theorem candExt_legal {k : CandExt} {n v : Str} (c : Candidate) (hn : lower n = k.text)
    (h : k.Legal v) : ∃ d, candExt c n v = .ok d := by
  unfold candExt
  cases k <;> simp only [CandExt.text] at hn <;> simp only [hn]
  · obtain ⟨m, hm, h⟩ := h
    have := parseU32_ok (s := v) (x := UInt32.ofNat m) |>.2 (by rwa [FmtpField.u32_ofNat hm])
    simp [this]
  · obtain ⟨m, hm, h⟩ := h
    have := parseU32_ok (s := v) (x := UInt32.ofNat m) |>.2 (by rwa [FmtpField.u32_ofNat hm])
    simp [this]
  · obtain ⟨a, ha⟩ := h
    simp [parseUnicastAddress, ha]
  · obtain ⟨m, hm, h⟩ := h
    have e : (UInt32.ofNat m).toNat = m := FmtpField.u32_ofNat (by omega)
    have := parseU32_ok (s := v) (x := UInt32.ofNat m) |>.2 (by rwa [e])
    have hle : ¬ (UInt32.ofNat m > 65535) := by
      rw [gt_iff_lt, UInt32.lt_iff_toNat_lt, e]
      have : (65535 : UInt32).toNat = 65535 := rfl
      omega
    simp [this, hle]
  · obtain ⟨t, ht⟩ := h
    simp [parseCandTcpType_ok.2 ht]
  · simp

theorem candExt_unknown {c : Candidate} {n v : Str} (hn : lower n ∉ candExtNames) :
    candExt c n v = .ok { c with unknownExtensions := c.unknownExtensions ++ [(n, v)] } := by
  simp only [candExtNames, List.mem_cons, List.not_mem_nil, or_false, not_or] at hn
  obtain ⟨h1, h2, h3, h4, h5, h6⟩ := hn
  simp [candExt, h1, h2, h3, h4, h5, h6]

/-- The extension loop on complete pairs. -/
def candPairs : Candidate → List (Str × Str) → IRes Candidate
  | c, [] => .ok c
  | c, p :: ps => do candPairs (← candExt c p.1 p.2) ps

theorem candExts_pairs {ps : List (Str × Str)} (c : Candidate) : candExts c (pairTokens ps) = candPairs c ps := by
  induction ps generalizing c with
  | nil => rfl
  | cons p ps ih =>
    show candExts c (p.1 :: p.2 :: pairTokens ps) = _
    simp only [candExts, candPairs]
    cases candExt c p.1 p.2 <;> simp [ih]

theorem candExts_odd {ps : List (Str × Str)} {x : Str} (c : Candidate) :
    candExts c (pairTokens ps ++ [x]) = (do
      let _ ← candPairs c ps
      eunsupported c%"Ice candidate extension name without value") := by
  induction ps generalizing c with
  | nil => rfl
  | cons p ps ih =>
    show candExts c (p.1 :: p.2 :: (pairTokens ps ++ [x])) = _
    simp only [candExts, candPairs]
    cases candExt c p.1 p.2 <;> simp [ih]

omit [Env] in
theorem pairs_or_odd (l : List Str) :
    (∃ ps, l = pairTokens ps) ∨ ∃ ps x, l = pairTokens ps ++ [x] := by
  induction hn : l.length using Nat.strongRecOn generalizing l with
  | ind n ih =>
    match l with
    | [] => exact .inl ⟨[], rfl⟩
    | [x] => exact .inr ⟨[], x, rfl⟩
    | a :: b :: r =>
      rcases ih r.length (by simp at hn; omega) r rfl with ⟨ps, h⟩ | ⟨ps, x, h⟩
      · exact .inl ⟨(a, b) :: ps, by simp [pairTokens, h]⟩
      · exact .inr ⟨(a, b) :: ps, x, by simp [pairTokens, h]⟩

theorem candPairs_snoc {c d : Candidate} {ps : List (Str × Str)} {p : Str × Str} :
    candPairs c (ps ++ [p]) = .ok d ↔ ∃ e, candPairs c ps = .ok e ∧ candExt e p.1 p.2 = .ok d := by
  induction ps generalizing c with
  | nil =>
    simp only [List.nil_append, candPairs, bind_eq_ok]
    constructor
    · rintro ⟨a, h, h'⟩; cases h'; exact ⟨c, rfl, h⟩
    · rintro ⟨e, h, h'⟩; cases h; exact ⟨d, h', rfl⟩
  | cons q qs ih =>
    simp only [List.cons_append, candPairs, bind_eq_ok, ih]
    constructor
    · rintro ⟨a, h, e, h1, h2⟩; exact ⟨e, ⟨a, h, h1⟩, h2⟩
    · rintro ⟨e, ⟨a, h, h1⟩, h2⟩; exact ⟨a, h, e, h1, h2⟩

omit [Env] in
theorem LastWith.snoc {α : Type} {P : α → Prop} {l : List α} {a t : α} (h : LastWith P (l ++ [a]) t) :
    (t = a ∧ P a) ∨ (¬ P a ∧ LastWith P l t) := by
  obtain ⟨pre, post, h, ht, hp⟩ := h
  rcases List.eq_nil_or_concat post with rfl | ⟨post', x, rfl⟩
  · obtain ⟨-, h2⟩ := List.append_inj' h rfl
    simp at h2; subst h2; exact .inl ⟨rfl, ht⟩
  · have h' : l ++ [a] = (pre ++ t :: post') ++ [x] := by simpa using h
    obtain ⟨h1, h2⟩ := List.append_inj' h' rfl
    simp at h2; subst h2
    exact .inr ⟨hp a (by simp), pre, post', h1, ht, fun y hy => hp y (by simp [hy])⟩

/-- A candidate without extensions. -/
def Bare (c : Candidate) : Prop := (∀ k : CandExt, k.Absent c) ∧ c.unknownExtensions = []

theorem candPairs_facts {c d : Candidate} (hb : Bare c) {ps : List (Str × Str)} (h : candPairs c ps = .ok d) :
    SameBase c d ∧
    (∀ k : CandExt, (∀ p, LastWith (fun p => lower p.1 = k.text) ps p → k.Holds d p.2) ∧
      ((∀ p ∈ ps, lower p.1 ≠ k.text) → k.Absent d)) ∧
    (∀ p ∈ ps, ∀ k : CandExt, lower p.1 = k.text → k.Legal p.2) ∧
    d.unknownExtensions = ps.filter (fun p => decide (lower p.1 ∉ candExtNames)) := by
  induction ps using List.reverseRecOn generalizing d with
  | nil =>
    cases h
    refine ⟨⟨rfl, rfl, rfl, rfl, rfl, rfl, rfl⟩, fun k => ⟨?_, fun _ => hb.1 k⟩, by simp, hb.2⟩
    rintro p ⟨_, _, h, -⟩; simp at h
  | append_singleton ps q ih =>
    obtain ⟨e, he, hq⟩ := candPairs_snoc.1 h
    obtain ⟨i1, i2, i3, i4⟩ := ih he
    by_cases hn : lower q.1 ∈ candExtNames
    · obtain ⟨k, hk⟩ := mem_candExtNames.1 hn
      obtain ⟨h1, h2, h3, h4, h5⟩ := candExt_known hk hq
      refine ⟨?_, fun j => ?_, ?_, ?_⟩
      · obtain ⟨a1, a2, a3, a4, a5, a6, a7⟩ := i1
        obtain ⟨b1, b2, b3, b4, b5, b6, b7⟩ := h4
        exact ⟨b1.trans a1, b2.trans a2, b3.trans a3, b4.trans a4, b5.trans a5, b6.trans a6, b7.trans a7⟩
      · by_cases hj : j = k
        · subst hj
          refine ⟨fun p hp => ?_, fun hall => absurd hk (hall q (by simp))⟩
          rcases hp.snoc with ⟨rfl, -⟩ | ⟨hne, -⟩
          · exact h1
          · exact absurd hk hne
        · have hne : lower q.1 ≠ j.text := fun h => hj (CandExt.text_inj (h.symm.trans hk))
          refine ⟨fun p hp => ?_, fun hall => ?_⟩
          · rcases hp.snoc with ⟨-, h⟩ | ⟨-, hp⟩
            · exact absurd h hne
            · exact (h3 j hj).holds.2 ((i2 j).1 p hp)
          · exact (h3 j hj).absent.2 ((i2 j).2 fun p hp => hall p (by simp [hp]))
      · intro p hp j hj
        simp only [List.mem_append, List.mem_singleton] at hp
        rcases hp with hp | rfl
        · exact i3 p hp j hj
        · obtain rfl := CandExt.text_inj (hk.symm.trans hj); exact h2
      · rw [h5, i4]; simp [hn]
    · rw [candExt_unknown hn] at hq
      cases hq
      refine ⟨i1, fun j => ?_, ?_, ?_⟩
      · have hne : lower q.1 ≠ j.text := fun h => hn (mem_candExtNames.2 ⟨j, h⟩)
        have hs : SameExt j e { e with unknownExtensions := e.unknownExtensions ++ [(q.1, q.2)] } := by
          cases j <;> rfl
        refine ⟨fun p hp => ?_, fun hall => ?_⟩
        · rcases hp.snoc with ⟨-, h⟩ | ⟨-, hp⟩
          · exact absurd h hne
          · exact hs.holds.2 ((i2 j).1 p hp)
        · exact hs.absent.2 ((i2 j).2 fun p hp => hall p (by simp [hp]))
      · intro p hp j hj
        simp only [List.mem_append, List.mem_singleton] at hp
        rcases hp with hp | rfl
        · exact i3 p hp j hj
        · exact absurd (mem_candExtNames.2 ⟨j, hj⟩) hn
      · simp [i4, hn]

theorem candPairs_legal {ps : List (Str × Str)} (c : Candidate)
    (h : ∀ p ∈ ps, ∀ k : CandExt, lower p.1 = k.text → k.Legal p.2) : ∃ d, candPairs c ps = .ok d := by
  induction ps generalizing c with
  | nil => exact ⟨c, rfl⟩
  | cons p ps ih =>
    have : ∃ d, candExt c p.1 p.2 = .ok d := by
      by_cases hn : lower p.1 ∈ candExtNames
      · obtain ⟨k, hk⟩ := mem_candExtNames.1 hn
        exact candExt_legal c hk (h p (by simp) k hk)
      · exact ⟨_, candExt_unknown hn⟩
    obtain ⟨d, hd⟩ := this
    obtain ⟨e, he⟩ := ih d fun p hp => h p (by simp [hp])
    exact ⟨e, by simp [candPairs, hd, he]⟩

/-! ## The whole attribute -/

theorem cand_parse {l : Str} {toks : List Str} (h : IsCandidate l toks) :
    ∃ v, attrFromStr l = parseCandidate v ∧ splitWs v = toks := by
  obtain ⟨n, v, rfl, hn, hl, hv⟩ := h
  refine ⟨trim v, ?_, by rw [splitWs_trim, hv]⟩
  rw [attrFromStr_colon hn, if_neg (by rw [hl]; decide), hl]
  rfl

/-- The record built from the mandatory tokens. -/
theorem parseCandidate_eq {v t0 t1 t2 t3 t4 t5 t6 t7 : Str} {r : List Str}
    (h : splitWs v = t0 :: t1 :: t2 :: t3 :: t4 :: t5 :: t6 :: t7 :: r) {a : Attribute} :
    parseCandidate v = .ok a ↔ ∃ c d, Bare c ∧ CandBase c t0 t1 t2 t3 t4 t5 t6 t7 ∧
      candExts c r = .ok d ∧ a = .candidate d := by
  unfold parseCandidate
  simp only [h]
  rw [if_neg (by simp)]
  simp only [idx, List.getElem?_cons_zero, List.getElem?_cons_succ, ok_bind, List.drop_succ_cons, List.drop_zero]
  constructor
  · intro hh
    obtain ⟨comp, h1, hh⟩ := bind_eq_ok.1 hh
    obtain ⟨tr, h2, hh⟩ := bind_eq_ok.1 hh
    obtain ⟨prio, h3, hh⟩ := bind_eq_ok.1 hh
    obtain ⟨addr, h4, hh⟩ := bind_eq_ok.1 hh
    obtain ⟨port, h5, hh⟩ := bind_eq_ok.1 hh
    rcases ite_cases hh with ⟨-, hh⟩ | ⟨hp, hh⟩
    · simp at hh
    rcases ite_cases hh with ⟨-, hh⟩ | ⟨htyp, hh⟩
    · simp at hh
    obtain ⟨ty, h6, hh⟩ := bind_eq_ok.1 hh
    obtain ⟨d, h7, hh⟩ := bind_eq_ok.1 hh
    cases hh
    refine ⟨_, d, ?_, ?_, h7, rfl⟩
    · exact ⟨fun k => by cases k <;> rfl, rfl⟩
    · exact ⟨rfl, parseU32_ok.1 h1, parseCandTransport_ok.1 h2, parseU64_ok.1 h3, h4, parseU32_ok.1 h5,
        not_gt_u32 hp, Classical.not_not.1 htyp, parseCandType_ok.1 h6⟩
  · rintro ⟨c, d, hb, hc, hd, rfl⟩
    obtain ⟨g0, g1, g2, g3, g4, g5, g5', g6, g7⟩ := hc
    have hle : ¬ (c.port > 65535) := by
      rw [gt_iff_lt, UInt32.lt_iff_toNat_lt]
      have : (65535 : UInt32).toNat = 65535 := rfl
      omega
    rw [parseU32_ok.2 g1, ok_bind, parseCandTransport_ok.2 g2, ok_bind, parseU64_ok.2 g3, ok_bind, g4, ok_bind,
      parseU32_ok.2 g5, ok_bind, if_neg hle, if_neg (not_not.2 g6), parseCandType_ok.2 g7, ok_bind]
    have : ({ foundation := t0, component := c.component, transport := c.transport, priority := c.priority,
              address := c.address, port := c.port, cType := c.cType, raddr := none, rport := none,
              tcpType := none, generation := none, ufrag := none, networkcost := none,
              unknownExtensions := [] } : Candidate) = c := by
      obtain ⟨b, hb⟩ := hb
      have b1 := b .generation; have b2 := b .networkCost; have b3 := b .raddr
      have b4 := b .rport; have b5 := b .tcptype; have b6 := b .ufrag
      simp only [CandExt.Absent] at b1 b2 b3 b4 b5 b6
      cases c
      simp_all
    rw [this, hd]; rfl

/-- **C49.** Which candidates are accepted: eight mandatory tokens of the right form, then complete
pairs, the known ones among them with legal values. -/
theorem C49_accepts {l t0 t1 t2 t3 t4 t5 t6 t7 : Str} {exts : List Str}
    (h : IsCandidate l (t0 :: t1 :: t2 :: t3 :: t4 :: t5 :: t6 :: t7 :: exts)) :
    (∃ a, attrFromStr l = .ok a) ↔
      (∃ c, CandBase c t0 t1 t2 t3 t4 t5 t6 t7) ∧
      ∃ ps, exts = pairTokens ps ∧ ∀ p ∈ ps, ∀ k : CandExt, lower p.1 = k.text → k.Legal p.2 := by
  obtain ⟨v, hv, ht⟩ := cand_parse h
  simp only [hv, parseCandidate_eq ht]
  constructor
  · rintro ⟨a, c, d, hb, hc, hd, rfl⟩
    refine ⟨⟨c, hc⟩, ?_⟩
    rcases pairs_or_odd exts with ⟨ps, rfl⟩ | ⟨ps, x, rfl⟩
    · rw [candExts_pairs] at hd
      exact ⟨ps, rfl, (candPairs_facts hb hd).2.2.1⟩
    · rw [candExts_odd] at hd
      obtain ⟨_, _, hd⟩ := bind_eq_ok.1 hd
      simp at hd
  · rintro ⟨⟨c, hc⟩, ps, rfl, hps⟩
    let c' : Candidate := { c with
      raddr := none, rport := none, tcpType := none, generation := none, ufrag := none,
      networkcost := none, unknownExtensions := [] }
    have hb : Bare c' := ⟨fun k => by cases k <;> rfl, rfl⟩
    obtain ⟨d, hd⟩ := candPairs_legal c' hps
    exact ⟨.candidate d, c', d, hb, hc, by rw [candExts_pairs]; exact hd, rfl⟩

/-- **C49.** What an accepted candidate contains: the mandatory fields, the unknown pairs in order
as they were written, and of each known extension the last value, or nothing. The position and order
of the pairs is otherwise irrelevant. -/
theorem C49_values {l t0 t1 t2 t3 t4 t5 t6 t7 : Str} {ps : List (Str × Str)}
    (h : IsCandidate l (t0 :: t1 :: t2 :: t3 :: t4 :: t5 :: t6 :: t7 :: pairTokens ps)) {a : Attribute}
    (ha : attrFromStr l = .ok a) :
    ∃ c, a = .candidate c ∧ CandBase c t0 t1 t2 t3 t4 t5 t6 t7 ∧
      c.unknownExtensions = ps.filter (fun p => decide (lower p.1 ∉ candExtNames)) ∧
      ∀ k : CandExt, (∀ p, LastWith (fun p => lower p.1 = k.text) ps p → k.Holds c p.2) ∧
        ((∀ p ∈ ps, lower p.1 ≠ k.text) → k.Absent c) := by
  obtain ⟨v, hv, ht⟩ := cand_parse h
  rw [hv, parseCandidate_eq ht] at ha
  obtain ⟨c, d, hb, hc, hd, rfl⟩ := ha
  rw [candExts_pairs] at hd
  obtain ⟨f1, f2, -, f4⟩ := candPairs_facts hb hd
  refine ⟨d, rfl, ?_, f4, f2⟩
  obtain ⟨b1, b2, b3, b4, b5, b6, b7⟩ := f1
  unfold CandBase at hc ⊢
  rw [b1, b2, b3, b4, b5, b6, b7]
  exact hc

/-- **C49.** A dangling extension name after an otherwise acceptable candidate is reported as
unsupported. -/
theorem C49_odd {l l' t0 t1 t2 t3 t4 t5 t6 t7 x : Str} {ps : List (Str × Str)}
    (h : IsCandidate l (t0 :: t1 :: t2 :: t3 :: t4 :: t5 :: t6 :: t7 :: pairTokens ps))
    (h' : IsCandidate l' (t0 :: t1 :: t2 :: t3 :: t4 :: t5 :: t6 :: t7 :: (pairTokens ps ++ [x])))
    {a : Attribute} (ha : attrFromStr l = .ok a) :
    attrFromStr l' = .err (.unsupported c%"Ice candidate extension name without value") := by
  obtain ⟨v, hv, ht⟩ := cand_parse h
  obtain ⟨v', hv', ht'⟩ := cand_parse h'
  rw [hv] at ha
  rw [hv']
  unfold parseCandidate at ha ⊢
  simp only [ht, ht'] at ha ⊢
  rw [if_neg (by simp)] at ha ⊢
  simp only [idx, List.getElem?_cons_zero, List.getElem?_cons_succ, ok_bind, List.drop_succ_cons, List.drop_zero] at ha ⊢
  obtain ⟨comp, h1, ha⟩ := bind_eq_ok.1 ha
  obtain ⟨tr, h2, ha⟩ := bind_eq_ok.1 ha
  obtain ⟨prio, h3, ha⟩ := bind_eq_ok.1 ha
  obtain ⟨addr, h4, ha⟩ := bind_eq_ok.1 ha
  obtain ⟨port, h5, ha⟩ := bind_eq_ok.1 ha
  rw [h1, ok_bind, h2, ok_bind, h3, ok_bind, h4, ok_bind, h5, ok_bind]
  rcases ite_cases ha with ⟨-, ha⟩ | ⟨hp, ha⟩
  · simp at ha
  rcases ite_cases ha with ⟨-, ha⟩ | ⟨htyp, ha⟩
  · simp at ha
  rw [if_neg hp, if_neg htyp]
  obtain ⟨ty, h6, ha⟩ := bind_eq_ok.1 ha
  obtain ⟨d, h7, ha⟩ := bind_eq_ok.1 ha
  rw [candExts_pairs] at h7
  rw [h6, ok_bind, candExts_odd, h7]
  rfl

/-- **C49.** Every token list is one or the other, so nothing is left out. -/
theorem C49_cases (exts : List Str) :
    (∃ ps, exts = pairTokens ps) ∨ ∃ ps x, exts = pairTokens ps ++ [x] := pairs_or_odd exts

end

/-! ## Concrete cases -/

section
attribute [local instance] sampleEnv

def sampleCandidate : Str :=
  c%"candidate:0 1 UDP 2122252543 10.0.0.1 49203 typ host generation 1 foo bar Generation 2 tcptype SO"

example : IsCandidate sampleCandidate
    (c%"0" :: c%"1" :: c%"UDP" :: c%"2122252543" :: c%"10.0.0.1" :: c%"49203" :: c%"typ" :: c%"host" ::
      pairTokens [(c%"generation", c%"1"), (c%"foo", c%"bar"), (c%"Generation", c%"2"), (c%"tcptype", c%"SO")]) :=
  ⟨c%"candidate", _, rfl, by decide, by decide +kernel, by decide +kernel⟩
example : (match attrFromStr sampleCandidate with
    | .ok (.candidate c) => some (c.generation, c.tcpType, c.unknownExtensions)
    | _ => none) = some (some 2, some .simultaneous, [(c%"foo", c%"bar")]) := by decide +kernel
end

end Sdp
