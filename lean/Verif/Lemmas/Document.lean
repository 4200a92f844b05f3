import Verif.Spec.Document
import Verif.Props.Candidate
import Verif.Props.Fmtp
import Verif.Props.Grammar4
import Verif.Props.Grammar3
import Verif.Props.Unsupported
/-!
# Attributes, lines and texts denote at most one thing
-/

namespace Sdp

section
variable [Env]

theorem says_iff {k : CandExt} {v : Str} {c : Candidate} : k.Says v c ↔ k.Holds c v := by
  cases k <;> simp only [CandExt.Says, CandExt.Holds, parseAddress_iff]

theorem valueText_iff {k : CandExt} {v : Str} : k.ValueText v ↔ k.Legal v := by
  cases k <;> simp only [CandExt.ValueText, CandExt.Legal, parseAddress_iff]

theorem transportText_inj {a b : CandTransport} (h : transportText a = transportText b) : a = b := by
  cases a <;> cases b <;> first | rfl | exact absurd h (by decide)

theorem candTypeText_inj {a b : CandType} (h : candTypeText a = candTypeText b) : a = b := by
  cases a <;> cases b <;> first | rfl | exact absurd h (by decide)

theorem tcpTypeText_inj {a b : CandTcpType} (h : tcpTypeText a = tcpTypeText b) : a = b := by
  cases a <;> cases b <;> first | rfl | exact absurd h (by decide)

/-- Two candidates agree on an extension. -/
def CandExt.Same (k : CandExt) (c d : Candidate) : Prop :=
  match k with
  | .generation => c.generation = d.generation
  | .networkCost => c.networkcost = d.networkcost
  | .raddr => c.raddr = d.raddr
  | .rport => c.rport = d.rport
  | .tcptype => c.tcpType = d.tcpType
  | .ufrag => c.ufrag = d.ufrag

theorem holds_same {k : CandExt} {v : Str} {c d : Candidate} (hc : k.Holds c v) (hd : k.Holds d v) : k.Same c d := by
  cases k <;> simp only [CandExt.Holds] at hc hd <;> simp only [CandExt.Same]
  case ufrag => rw [hc, hd]
  all_goals
    obtain ⟨a, h1, h2⟩ := hc
    obtain ⟨b, h3, h4⟩ := hd
    rw [h1, h3]
    congr 1
  case raddr => rw [h2] at h4; exact Outcome.ok.inj h4
  case tcptype => rw [h2] at h4; exact tcpTypeText_inj h4
  all_goals exact UInt32.toNat_inj.1 (h2.unique h4)

theorem absent_same {k : CandExt} {c d : Candidate} (hc : k.Absent c) (hd : k.Absent d) : k.Same c d := by
  cases k <;> simp only [CandExt.Absent] at hc hd <;> simp only [CandExt.Same] <;> rw [hc, hd]

theorem candidate_of_tokens {v : Str} {c : Candidate} (h : parseCandidate v = .ok (.candidate c)) :
    ∃ t0 t1 t2 t3 t4 t5 t6 t7 r, splitWs v = t0 :: t1 :: t2 :: t3 :: t4 :: t5 :: t6 :: t7 :: r := by
  unfold parseCandidate at h
  simp only [] at h
  rcases ite_cases h with ⟨-, h⟩ | ⟨hl, -⟩
  · simp at h
  clear h
  revert hl
  generalize splitWs v = l
  intro hl
  rcases l with _ | ⟨t0, _ | ⟨t1, _ | ⟨t2, _ | ⟨t3, _ | ⟨t4, _ | ⟨t5, _ | ⟨t6, _ | ⟨t7, r⟩⟩⟩⟩⟩⟩⟩⟩ <;>
    first | exact ⟨_, _, _, _, _, _, _, _, _, rfl⟩ | exact absurd (by simp) hl

theorem parseCandidate_iff {v : Str} {c : Candidate} : parseCandidate v = .ok (.candidate c) ↔ CandidateText v c := by
  have facts {c : Candidate} {t0 t1 t2 t3 t4 t5 t6 t7 : Str} {ps : List (Str × Str)}
      (hw : splitWs v = t0 :: t1 :: t2 :: t3 :: t4 :: t5 :: t6 :: t7 :: pairTokens ps)
      (h : parseCandidate v = .ok (.candidate c)) :
      CandBase c t0 t1 t2 t3 t4 t5 t6 t7 ∧
      c.unknownExtensions = ps.filter (fun p => decide (lower p.1 ∉ candExtNames)) ∧
      (∀ p ∈ ps, ∀ k : CandExt, lower p.1 = k.text → k.Legal p.2) ∧
      ∀ k : CandExt, (∀ p, LastWith (fun p => lower p.1 = k.text) ps p → k.Holds c p.2) ∧
        ((∀ p ∈ ps, lower p.1 ≠ k.text) → k.Absent c) := by
    obtain ⟨b, d, hb, hc, hd, e⟩ := (parseCandidate_eq hw).1 h
    cases e
    rw [candExts_pairs] at hd
    obtain ⟨f1, f2, f3, f4⟩ := candPairs_facts hb hd
    refine ⟨?_, f4, f3, f2⟩
    obtain ⟨b1, b2, b3, b4, b5, b6, b7⟩ := f1
    unfold CandBase at hc ⊢
    rw [b1, b2, b3, b4, b5, b6, b7]
    exact hc
  constructor
  · intro h
    obtain ⟨t0, t1, t2, t3, t4, t5, t6, t7, r, hw⟩ := candidate_of_tokens h
    obtain ⟨ps, rfl⟩ : ∃ ps, r = pairTokens ps := by
      obtain ⟨b, d, hb, hc, hd, e⟩ := (parseCandidate_eq hw).1 h
      rcases pairs_or_odd r with ⟨ps, rfl⟩ | ⟨ps, x, rfl⟩
      · exact ⟨ps, rfl⟩
      · rw [candExts_odd] at hd
        obtain ⟨_, _, hd⟩ := bind_eq_ok.1 hd
        simp at hd
    obtain ⟨⟨g0, g1, g2, g3, g4, g5, g5', g6, g7⟩, hu, hl, hk⟩ := facts hw h
    subst g0
    exact ⟨t1, t2, t3, t4, t5, t6, t7, ps, words_iff.2 hw, g1, g2, g3, parseAddress_iff.1 g4, g5, g5', g6, g7,
      fun k => ⟨fun p hp e => valueText_iff.2 (hl p hp k e), fun p hp => says_iff.2 ((hk k).1 p hp), (hk k).2⟩, hu⟩
  · rintro ⟨t1, t2, t3, t4, t5, t6, t7, ps, hw, g1, g2, g3, g4, g5, g5', g6, g7, hk, hu⟩
    rw [words_iff] at hw
    have hbase : CandBase c c.foundation t1 t2 t3 t4 t5 t6 t7 :=
      ⟨rfl, g1, g2, g3, parseAddress_iff.2 g4, g5, g5', g6, g7⟩
    obtain ⟨d, hd⟩ : ∃ d, parseCandidate v = .ok (.candidate d) := by
      let c' : Candidate := { c with
        raddr := none, rport := none, tcpType := none, generation := none, ufrag := none,
        networkcost := none, unknownExtensions := [] }
      have hb : Bare c' := ⟨fun k => by cases k <;> rfl, rfl⟩
      obtain ⟨d, hd⟩ := candPairs_legal c' (ps := ps) fun p hp k e => valueText_iff.1 ((hk k).1 p hp e)
      exact ⟨d, (parseCandidate_eq hw).2 ⟨c', d, hb, hbase, by rw [candExts_pairs]; exact hd, rfl⟩⟩
    obtain ⟨⟨e0, e1, e2, e3, e4, e5, -, -, e7⟩, eu, -, ek⟩ := facts hw hd
    have same (k : CandExt) : k.Same c d := by
      by_cases h : ∃ p ∈ ps, lower p.1 = k.text
      · obtain ⟨p, hp⟩ := exists_lastWith h
        exact holds_same (says_iff.1 ((hk k).2.1 p hp)) ((ek k).1 p hp)
      · have h : ∀ p ∈ ps, lower p.1 ≠ k.text := fun p hp e => h ⟨p, hp, e⟩
        exact absent_same ((hk k).2.2 h) ((ek k).2 h)
    have s1 := same .generation; have s2 := same .networkCost; have s3 := same .raddr
    have s4 := same .rport; have s5 := same .tcptype; have s6 := same .ufrag
    simp only [CandExt.Same] at s1 s2 s3 s4 s5 s6
    have a1 := UInt32.toNat_inj.1 (g1.unique e1)
    have a2 := transportText_inj (g2.symm.trans e2)
    have a3 := UInt64.toNat_inj.1 (g3.unique e3)
    have a4 : c.address = d.address := by
      have := hbase.2.2.2.2.1
      rw [e4] at this; exact (Outcome.ok.inj this).symm
    have a5 := UInt32.toNat_inj.1 (g5.unique e5)
    have a7 := candTypeText_inj (g7.symm.trans e7)
    rw [hd]
    rw [← hu] at eu
    cases c; cases d
    simp only at *
    subst e0 eu s1 s2 s3 s4 s5 s6 a1 a2 a3 a4 a5 a7
    rfl

theorem HexText.unique {s : Str} {m n : Nat} (h : HexText s m) (h' : HexText s n) : m = n := by
  obtain ⟨d, h1, h2, h3, h4⟩ := h
  obtain ⟨d', g1, g2, g3, g4⟩ := h'
  have plus : ¬ IsHexDigit '+' := by unfold IsHexDigit; decide
  have e : d = d' := by
    rcases h1 with rfl | rfl <;> rcases g1 with h | h
    · exact h
    · exact absurd (h3 '+' (by rw [h]; simp)) plus
    · exact absurd (g3 '+' (by rw [← h]; simp)) plus
    · exact (List.cons.inj h).2
  rw [← h4, ← g4, e]

theorem notation_unique {f : FmtpField} {v : Str} {m n : Nat} (h : f.Notation v m) (h' : f.Notation v n) : m = n := by
  unfold FmtpField.Notation at h h'
  by_cases hf : f = .profileLevelId
  · rw [if_pos hf] at h h'; exact h.unique h'
  · rw [if_neg hf] at h h'; exact h.unique h'

/-- What `FmtpListText` says about the parameters. -/
def FmtpListed (ts : List Str) (p : FmtpParams) : Prop :=
  (∀ f : FmtpField,
      (∀ t, LastWith (fun t => paramName t = f.text) ts t →
        ∃ n, f.Notation (paramValue t) n ∧ f.get p = some n) ∧
      ((∀ t ∈ ts, paramName t ≠ f.text) → f.get p = f.absent)) ∧
    (∀ pre t post r, ts = pre ++ t :: post → paramName t = c%"APT" → (∀ q ∈ post, paramName q ≠ c%"APT") →
      p.rtx = some r →
      ((∀ q ∈ post, paramName q ≠ c%"RTX-TIME") → r.rtxTime = none) ∧
      ∀ u, LastWith (fun u => paramName u = c%"RTX-TIME") post u →
        ∃ x, r.rtxTime = some x ∧ DecText (paramValue u) x.toNat) ∧
    p.unknownTokens = ts.filter (fun t => decide (paramName t ∉ fmtpNames)) ∧ p.encodings = [] ∧ p.dtmfTones = []

theorem FmtpListed.unique {ts : List Str} {p q : FmtpParams} (hp : FmtpListed ts p) (hq : FmtpListed ts q) : p = q := by
  obtain ⟨p1, p2, p3, p4, p5⟩ := hp
  obtain ⟨q1, q2, q3, q4, q5⟩ := hq
  have get (f : FmtpField) : f.get p = f.get q := by
    by_cases h : ∃ t ∈ ts, paramName t = f.text
    · obtain ⟨t, ht⟩ := exists_lastWith h
      obtain ⟨m, h1, h2⟩ := (p1 f).1 t ht
      obtain ⟨n, h3, h4⟩ := (q1 f).1 t ht
      rw [h2, h4, notation_unique h1 h3]
    · have h : ∀ t ∈ ts, paramName t ≠ f.text := fun t ht e => h ⟨t, ht, e⟩
      rw [(p1 f).2 h, (q1 f).2 h]
  have hr : p.rtx = q.rtx := by
    have ha := get .apt
    simp only [FmtpField.get] at ha
    cases h1 : p.rtx with
    | none => cases h2 : q.rtx with
      | none => rfl
      | some r => rw [h1, h2] at ha; simp at ha
    | some r => cases h2 : q.rtx with
      | none => rw [h1, h2] at ha; simp at ha
      | some r' =>
        rw [h1, h2] at ha
        have hapt : r.apt = r'.apt := by
          simp at ha; exact UInt8.toNat_inj.1 ha
        by_cases h : ∃ t ∈ ts, paramName t = c%"APT"
        · obtain ⟨t, pre, post, rfl, ht, hpost⟩ := exists_lastWith h
          have a := p2 pre t post r rfl ht hpost h1
          have b := q2 pre t post r' rfl ht hpost h2
          have : r.rtxTime = r'.rtxTime := by
            by_cases hx : ∃ u ∈ post, paramName u = c%"RTX-TIME"
            · obtain ⟨u, hu⟩ := exists_lastWith hx
              obtain ⟨x, x1, x2⟩ := a.2 u hu
              obtain ⟨y, y1, y2⟩ := b.2 u hu
              rw [x1, y1, UInt32.toNat_inj.1 (x2.unique y2)]
            · have hx : ∀ u ∈ post, paramName u ≠ c%"RTX-TIME" := fun u hu e => hx ⟨u, hu, e⟩
              rw [a.1 hx, b.1 hx]
          cases r; cases r'
          simp only at hapt this
          rw [hapt, this]
        · have := (p1 .apt).2 fun t ht e => h ⟨t, ht, e⟩
          simp [FmtpField.get, FmtpField.absent, h1] at this
  have b2n {a b : Bool} (h : a.toNat = b.toNat) : a = b := by cases a <;> cases b <;> simp at h <;> rfl
  have o2n {a b : Option UInt8} (h : a.map (·.toNat) = b.map (·.toNat)) : a = b := by
    cases a <;> cases b <;> simp at h
    · rfl
    · rw [UInt8.toNat_inj.1 h]
  have g1 := get .packetizationMode; have g2 := get .levelAsymmetryAllowed; have g3 := get .profileLevelId
  have g4 := get .maxFs; have g5 := get .maxCpb; have g6 := get .maxDpb; have g7 := get .maxBr
  have g8 := get .maxMbps; have g9 := get .maxFr; have g10 := get .profile; have g11 := get .levelIdx
  have g12 := get .tier; have g13 := get .maxplaybackrate; have g14 := get .maxaveragebitrate
  have g15 := get .usedtx; have g16 := get .stereo; have g17 := get .useinbandfec; have g18 := get .cbr
  have g19 := get .ptime; have g20 := get .minptime; have g21 := get .maxptime
  simp only [FmtpField.get, Option.some.injEq, UInt32.toNat_inj] at g1 g3 g4 g5 g6 g7 g8 g9 g13 g14 g19 g20 g21
  simp only [FmtpField.get] at g10 g11 g12
  simp only [FmtpField.get, Option.some.injEq] at g2 g15 g16 g17 g18
  replace g2 := b2n g2; replace g15 := b2n g15; replace g16 := b2n g16; replace g17 := b2n g17
  replace g18 := b2n g18; replace g10 := o2n g10; replace g11 := o2n g11; replace g12 := o2n g12
  have g22 := p3.trans q3.symm; have g23 := p4.trans q4.symm; have g24 := p5.trans q5.symm
  clear p1 p2 p3 p4 p5 q1 q2 q3 q4 q5 get
  cases p; cases q
  simp only at g1 g2 g3 g4 g5 g6 g7 g8 g9 g10 g11 g12 g13 g14 g15 g16 g17 g18 g19 g20 g21 g22 g23 g24 hr
  subst g1 g2 g3 g4 g5 g6 g7 g8 g9 g10 g11 g12 g13 g14 g15 g16 g17 g18 g19 g20 g21 g22 g23 g24 hr
  rfl

theorem paramList_listed {ts : List Str} {p : FmtpParams} (h : fmtpParamList FmtpParams.default ts = .ok p) :
    FmtpListed ts p := by
  obtain ⟨h1, h2, h3, h4⟩ := paramList_facts h
  obtain ⟨-, -, h5⟩ := paramList_rtx h
  refine ⟨h1, ?_, h2, h3, h4⟩
  intro pre t post r e ht hp hr
  obtain ⟨r', hr', -, h6⟩ := h5 pre t post e ht hp
  rw [hr] at hr'; cases hr'
  exact h6

theorem paramList_iff {b : Str} {p : FmtpParams} :
    fmtpParamList FmtpParams.default (paramsOf b) = .ok p ↔ FmtpListText b p := by
  have hpar {ts : List Str} : ParamsText b ts ↔ ts = paramsOf b := by
    unfold ParamsText paramsOf
    simp only [fields_iff, exists_eq_left']
    have : (fun t : Str => decide (t ≠ [])) = fun t => !t.isEmpty := by
      funext t; cases t <;> rfl
    rw [this]
  constructor
  · intro h
    obtain ⟨a1, a2⟩ := paramList_accepts.1 ⟨p, h⟩
    obtain ⟨h1, h2, h3, h4, h5⟩ := paramList_listed h
    refine ⟨⟨paramsOf b, hpar.2 rfl, fun t ht => (a1 t ht).1, fun f => ⟨fun t ht => (a1 t ht).2.1 f, h1 f⟩, ?_, h2, h3⟩, h4, h5⟩
    intro pre t post e ht
    exact ⟨(a1 t (by rw [e]; simp)).2.2 ht, a2 pre t post e ht⟩
  · rintro ⟨⟨ts, hts, a1, a2, a3, a4, a5⟩, h4, h5⟩
    rw [hpar] at hts
    obtain ⟨q, hq⟩ := (paramList_accepts (l := ts)).2
      ⟨fun t ht => ⟨a1 t ht, fun f => (a2 f).1 t ht, fun e => by
        obtain ⟨pre, post, rfl⟩ := List.append_of_mem ht
        exact (a3 pre t post rfl e).1⟩,
       fun pre t post e ht => (a3 pre t post e ht).2⟩
    have : p = q := FmtpListed.unique ⟨fun f => (a2 f).2, a4, a5, h4, h5⟩ (paramList_listed hq)
    rw [← hts, this, hq]

theorem fmtpBlock_iff {b : Str} {p : FmtpParams} : fmtpBlock FmtpParams.default b = .ok p ↔
    (('=' ∈ b ∧ FmtpListText b p) ∨
     ('=' ∉ b ∧ '/' ∈ b ∧ ∃ fs ns, Fields '/' b fs ∧
        Each (fun t (n : UInt8) => DecText t n.toNat ∧ n.toNat ≤ 128) fs ns ∧
        p = { FmtpParams.default with encodings := ns }) ∨
     ('=' ∉ b ∧ '/' ∉ b ∧ ∃ tones, p = { FmtpParams.default with dtmfTones := tones } ∧
        ((ToneList b ∧ tones = b) ∨ (¬ ToneList b ∧ tones = c%"0-15")))) := by
  unfold fmtpBlock
  by_cases he : '=' ∈ b
  · rw [if_pos he]
    have := paramList_iff (b := b) (p := p)
    unfold paramsOf at this
    simp [he, this]
  rw [if_neg he]
  by_cases hs : '/' ∈ b
  · rw [if_pos hs, fmtpRed_ok]
    simp only [he, hs, false_and, not_false_eq_true, true_and, false_or, not_true_eq_false, or_false, fields_iff,
      exists_eq_left', each_iff]
    have : FmtpParams.default.encodings = [] := rfl
    simp only [this, List.nil_append]
    constructor
    · rintro ⟨ns, h1, h2⟩; exact ⟨_, ns, rfl, h1, h2⟩
    · rintro ⟨_, ns, rfl, h1, h2⟩; exact ⟨ns, h1, h2⟩
  · rw [if_neg hs]
    simp only [he, hs, false_and, not_false_eq_true, true_and, false_or]
    by_cases ht : ToneList b
    · rw [if_pos (toneList_iff.2 ht)]
      simp only [ht, true_and, not_true_eq_false, false_and, or_false, exists_eq_right, Outcome.ok.injEq]
      exact eq_comm
    · rw [if_neg (fun h => ht (toneList_iff.1 h))]
      simp only [ht, not_false_eq_true, true_and, false_and, false_or, exists_eq_right, Outcome.ok.injEq]
      exact eq_comm

theorem parseFmtp_iff {v : Str} {f : Fmtp} : parseFmtp v = .ok (.fmtp f) ↔ FmtpText v f := by
  unfold parseFmtp FmtpText
  simp only []
  obtain ⟨pt, p⟩ := f
  rcases splitn_two_cases ' ' v with ⟨hs, hv⟩ | ⟨a, b, hs, rfl, ha⟩
  · rw [hs, if_pos (by simp)]
    constructor
    · intro h; simp at h
    · rintro ⟨pt, b, rfl, -⟩; simp at hv
  · rw [hs, if_neg (by simp)]
    simp only [List.length_cons, List.length_nil, Nat.reduceAdd, 
      idx, List.getElem?_cons_zero, ok_bind, sliceFrom, show (1 ≤ 2) from by decide, if_true, List.drop_succ_cons,
      List.drop_zero, fmtpBlocks, bind_eq_ok, pure_eq_ok, Outcome.ok.injEq, parseU8_ok, Attribute.fmtp.injEq, Fmtp.mk.injEq]
    constructor
    · rintro ⟨q, ⟨q', h1, rfl⟩, x, hx, rfl, rfl⟩
      exact ⟨a, b, rfl, ha, hx, fmtpBlock_iff.1 h1⟩
    · rintro ⟨a', b', e, ha', hx, h⟩
      have := splitn_two_append (b := b') ha'
      rw [← e, splitn_two_append ha] at this
      simp only [List.cons.injEq, and_true] at this
      obtain ⟨rfl, rfl⟩ := this
      exact ⟨p, ⟨p, fmtpBlock_iff.2 h, rfl⟩, pt, hx, rfl, rfl⟩

/-! ## Unsupported lines -/

omit [Env] in
theorem mem_attributeNames {n : Str} : n ∈ attributeNames ↔ ∃ t : AttributeType, t.name = n := by
  constructor
  · intro h
    simp only [attributeNames, List.mem_cons, List.not_mem_nil, or_false] at h
    rcases h with rfl | rfl | rfl | rfl | rfl | rfl | rfl | rfl | rfl | rfl | rfl | rfl | rfl | rfl | rfl | rfl | rfl |
      rfl | rfl | rfl | rfl | rfl | rfl | rfl | rfl | rfl | rfl | rfl | rfl | rfl | rfl | rfl | rfl | rfl | rfl | rfl |
      rfl | rfl | rfl | rfl | rfl | rfl | rfl
    exacts [⟨.bundleOnly, rfl⟩, ⟨.candidate, rfl⟩, ⟨.dtlsMessage, rfl⟩, ⟨.endOfCandidates, rfl⟩, ⟨.extmap, rfl⟩,
      ⟨.extmapAllowMixed, rfl⟩, ⟨.fingerprint, rfl⟩, ⟨.fmtp, rfl⟩, ⟨.frameRate, rfl⟩, ⟨.group, rfl⟩, ⟨.iceLite, rfl⟩,
      ⟨.iceMismatch, rfl⟩, ⟨.iceOptions, rfl⟩, ⟨.icePacing, rfl⟩, ⟨.icePwd, rfl⟩, ⟨.iceUfrag, rfl⟩, ⟨.identity, rfl⟩,
      ⟨.imageAttr, rfl⟩, ⟨.inactive, rfl⟩, ⟨.label, rfl⟩, ⟨.maxMessageSize, rfl⟩, ⟨.maxPtime, rfl⟩, ⟨.mid, rfl⟩,
      ⟨.msid, rfl⟩, ⟨.msidSemantic, rfl⟩, ⟨.ptime, rfl⟩, ⟨.rid, rfl⟩, ⟨.recvonly, rfl⟩, ⟨.remoteCandidate, rfl⟩,
      ⟨.rtpmap, rfl⟩, ⟨.rtcp, rfl⟩, ⟨.rtcpfb, rfl⟩, ⟨.rtcpMux, rfl⟩, ⟨.rtcpMuxOnly, rfl⟩, ⟨.rtcpRsize, rfl⟩,
      ⟨.sctpmap, rfl⟩, ⟨.sctpPort, rfl⟩, ⟨.sendonly, rfl⟩, ⟨.sendrecv, rfl⟩, ⟨.setup, rfl⟩, ⟨.simulcast, rfl⟩,
      ⟨.ssrc, rfl⟩, ⟨.ssrcGroup, rfl⟩]
  · rintro ⟨t, rfl⟩
    cases t <;> decide

omit [Env] in
theorem not_attributeNames {n : Str} : n ∉ attributeNames ↔ ∀ t : AttributeType, t.name ≠ n := by
  rw [mem_attributeNames]; simp

omit [Env] in
theorem group_names {s : Str} : s ∉ groupSemantics ↔ ∀ g, s ≠ groupText g := by
  constructor
  · rintro h g rfl; apply h; cases g <;> decide
  · intro h hm
    simp only [groupSemantics, List.mem_cons, List.not_mem_nil, or_false] at hm
    rcases hm with h' | h' | h' | h' | h' | h' | h'
    exacts [h .lipSynchronization h', h .flowIdentification h', h .singleReservationFlow h',
      h .alternateNetworkAddressType h', h .forwardErrorCorrection h', h .decodingDependency h', h .bundle h']

omit [Env] in
theorem ssrc_group_names {s : Str} : s ∉ ssrcGroupSemantics ↔ ∀ g, s ≠ ssrcGroupText g := by
  constructor
  · rintro h g rfl; apply h; cases g <;> decide
  · intro h hm
    simp only [ssrcGroupSemantics, List.mem_cons, List.not_mem_nil, or_false] at hm
    rcases hm with h' | h' | h' | h' | h'
    exacts [h .duplication h', h .flowIdentification h', h .forwardErrorCorrection h',
      h .forwardErrorCorrectionFr h', h .sim h']

omit [Env] in
theorem hash_names {s : Str} : s ∉ hashNames ↔ ∀ g, s ≠ hashText g := by
  constructor
  · rintro h g rfl; apply h; cases g <;> decide
  · intro h hm
    simp only [hashNames, List.mem_cons, List.not_mem_nil, or_false] at hm
    rcases hm with h' | h' | h' | h' | h'
    exacts [h .sha1 h', h .sha224 h', h .sha256 h', h .sha384 h', h .sha512 h']

omit [Env] in
theorem media_names {s : Str} : s ∉ mediaNames ↔ ∀ g, s ≠ mediaText g := by
  constructor
  · rintro h g rfl; apply h; cases g <;> decide
  · intro h hm
    simp only [mediaNames, List.mem_cons, List.not_mem_nil, or_false] at hm
    rcases hm with h' | h' | h'
    exacts [h .audio h', h .video h', h .application h']

omit [Env] in
theorem protocol_names {s : Str} : s ∉ protocolNames ↔ ∀ g, s ≠ protocolText g := by
  constructor
  · rintro h g rfl; apply h; cases g <;> decide
  · intro h hm
    simp only [protocolNames, List.mem_cons, List.not_mem_nil, or_false] at hm
    rcases hm with h' | h' | h' | h' | h' | h' | h' | h' | h' | h' | h'
    exacts [h .rtpAvp h', h .rtpAvpf h', h .rtpSavp h', h .rtpSavpf h', h .tcpDtlsRtpSavp h', h .tcpDtlsRtpSavpf h',
      h .udpTlsRtpSavp h', h .udpTlsRtpSavpf h', h .dtlsSctp h', h .udpDtlsSctp h', h .tcpDtlsSctp h']

omit [Env] in
theorem feedback_names {s : Str} : s ∉ feedbackTypes ↔ ∀ g, s ≠ fbText g := by
  constructor
  · rintro h g rfl; apply h; cases g <;> decide
  · intro h hm
    simp only [feedbackTypes, List.mem_cons, List.not_mem_nil, or_false] at hm
    rcases hm with h' | h' | h' | h' | h' | h'
    exacts [h .ack h', h .ccm h', h .nack h', h .trrInt h', h .remb h', h .transCc h']

omit [Env] in
theorem feedback_params {t : RtcpFbType} (ht : t ≠ .trrInt) {x : Str} :
    x ∈ feedbackParams (fbText t) ↔ FbParameter t x := by
  cases t <;> first | exact absurd rfl ht | simp [feedbackParams, fbText, FbParameter]

theorem parseCandidate_congr {u v : Str} (h : splitWs u = splitWs v) : parseCandidate u = parseCandidate v := by
  unfold parseCandidate; rw [h]

theorem candidate_text (w : Str) : attrFromStr (c%"candidate:" ++ w) = parseCandidate (trim w) :=
  attrFromStr_colon (n := c%"candidate") (by decide)

theorem unsupportedValue_iff {t : AttributeType} {l v : Str} (hl : AttrText l t.name v) (h : UnsupportedValue t v) :
    UnsupportedAttribute l := by
  cases t <;> try exact h.elim
  case group =>
    obtain ⟨s, r, h1, h2⟩ := h
    exact .group hl (words_iff.2 h1) (group_names.1 h2)
  case ssrcGroup =>
    obtain ⟨s, r, h1, h2⟩ := h
    exact .ssrcGroup hl (words_iff.2 h1) (ssrc_group_names.1 h2)
  case fingerprint =>
    obtain ⟨s, r, h1, h2⟩ := h
    exact .fingerprint hl (words_iff.2 h1) (hash_names.1 h2)
  case rtcpfb =>
    obtain ⟨p, k, r, h1, h2⟩ := h
    by_cases hk : k ∈ feedbackTypes
    · obtain ⟨t, rfl⟩ : ∃ t, k = fbText t := by
        by_contra hn
        exact feedback_names.2 (fun g e => hn ⟨g, e⟩) hk
      rcases h2 with h2 | ⟨h2, rfl⟩ | ⟨h2, x, r', rfl, h3⟩
      · exact absurd hk h2
      · rw [h2] at h1; exact .ack hl (fields_iff.2 h1)
      · have ht : t ≠ .trrInt := by rintro rfl; exact h2 rfl
        exact .parameter hl (fields_iff.2 h1) ht (fun hp => h3 ((feedback_params ht).2 hp))
    · exact .feedback hl (fields_iff.2 h1) (feedback_names.1 hk)
  case fmtp => exact .fmtp hl h
  case candidate =>
    obtain ⟨ts, t, h1, -, c, h2⟩ := h
    rw [candidate_text] at h2
    have h3 : splitWs (trim (joinS c%" " ts)) = ts := by
      rw [splitWs_trim]
      exact splitWs_joinS fun x hx => by
        have := splitWs_mem (show x ∈ splitWs v by rw [h1]; simp [hx])
        exact ⟨this.1, this.2⟩
    exact .candidate hl (words_iff.2 h1) (words_iff.2 h3) (parseCandidate_iff.1 h2)

theorem unsupportedAttribute_iff {l : Str} : UnsupportedAttribute l ↔ UnsupportedAttr l := by
  have named {t : AttributeType} {v : Str} (h : AttrText l t.name v) (hu : UnsupportedValue t v) : UnsupportedAttr l := by
    obtain ⟨n, w, rfl, hn, h1, h2⟩ := h
    exact ⟨n, v, .inr ⟨w, hn, rfl, stripped_iff.1 h2⟩, .inr ⟨t, h1.symm, hu⟩⟩
  constructor
  · intro h
    cases h with
    | flag h1 h2 => exact ⟨l, [], .inl ⟨h1, rfl, rfl⟩, .inl (not_attributeNames.1 h2)⟩
    | name h1 h2 h3 => exact ⟨_, _, .inr ⟨_, h2, h1, rfl⟩, .inl (not_attributeNames.1 h3)⟩
    | group h1 h2 h3 => exact named (t := .group) h1 ⟨_, _, words_iff.1 h2, group_names.2 h3⟩
    | ssrcGroup h1 h2 h3 => exact named (t := .ssrcGroup) h1 ⟨_, _, words_iff.1 h2, ssrc_group_names.2 h3⟩
    | fingerprint h1 h2 h3 => exact named (t := .fingerprint) h1 ⟨_, _, words_iff.1 h2, hash_names.2 h3⟩
    | feedback h1 h2 h3 => exact named (t := .rtcpfb) h1 ⟨_, _, _, fields_iff.1 h2, .inl (feedback_names.2 h3)⟩
    | ack h1 h2 => exact named (t := .rtcpfb) h1 ⟨_, _, _, fields_iff.1 h2, .inr (.inl ⟨rfl, rfl⟩)⟩
    | @parameter v p x t r h1 h2 h3 h4 =>
      refine named (t := .rtcpfb) h1 ⟨_, _, _, fields_iff.1 h2, .inr (.inr ⟨?_, _, _, rfl, fun hp => h4 ((feedback_params h3).1 hp)⟩)⟩
      cases t <;> first | exact absurd rfl h3 | simp [fbText]
    | fmtp h1 h2 => exact named (t := .fmtp) h1 h2
    | fmtpAlone h1 h2 => exact ⟨l, [], .inl ⟨h2, rfl, rfl⟩, .inr ⟨.fmtp, h1.symm, by simp [UnsupportedValue]⟩⟩
    | @candidate v u t ts c h1 h2 h3 h4 =>
      rw [words_iff] at h2 h3
      have hj : splitWs (trim (joinS c%" " ts)) = ts := by
        rw [splitWs_trim]
        exact splitWs_joinS fun x hx => by
          have := splitWs_mem (show x ∈ splitWs u by rw [h3]; exact hx)
          exact ⟨this.1, this.2⟩
      refine named (t := .candidate) h1 ⟨ts, t, h2, ?_, c, ?_⟩
      · obtain ⟨_, _, _, _, _, _, _, ps, hw, -⟩ := h4
        rw [words_iff, h3] at hw
        rw [hw]
        simp only [List.length_cons]
        have : ∀ ps : List (Str × Str), (pairTokens ps).length % 2 = 0 := by
          intro ps
          induction ps with
          | nil => rfl
          | cons p ps ih => simp only [pairTokens, List.flatMap_cons, List.length_append] at ih ⊢; simp
        have := this ps
        omega
      · rw [candidate_text]
        exact (parseCandidate_congr (hj.trans h3.symm)).trans (parseCandidate_iff.2 h4)
  · rintro ⟨n, v, hn, h⟩
    rcases hn with ⟨h1, rfl, rfl⟩ | ⟨w, h1, rfl, rfl⟩
    · rcases h with h | ⟨t, h2, h3⟩
      · exact .flag h1 (not_attributeNames.2 h)
      · cases t <;> try exact h3.elim
        case fmtp => exact .fmtpAlone h2.symm h1
        all_goals
          exfalso
          unfold UnsupportedValue at h3
          simp [splitWs, splitP, splitC] at h3
    · rcases h with h | ⟨t, h2, h3⟩
      · exact .name rfl h1 (not_attributeNames.2 h)
      · exact unsupportedValue_iff ⟨n, w, rfl, h1, h2.symm, stripped_iff.2 rfl⟩ h3

theorem unsupportedMedia_iff {v : Str} : UnsupportedMediaText v ↔ UnsupportedMedia v := by
  constructor
  · intro h
    cases h with
    | media h1 h2 => exact ⟨_, _, _, _, _, words_iff.1 h1, .inl (media_names.2 h2)⟩
    | @protocol m p q f r fs n h1 h2 h3 h4 h5 h6 =>
      refine ⟨_, _, _, _, _, words_iff.1 h1, .inr ⟨?_, protocol_names.2 h2⟩⟩
      rcases fs with _ | ⟨a, fs⟩
      · exact absurd rfl h3.1
      · refine ⟨a, fs, fields_iff.1 h3, ⟨n, h4 a rfl, h5⟩, ?_⟩
        rintro c r' rfl
        obtain ⟨k, h7, h8⟩ := h6 c rfl
        exact ⟨k, h8, h7⟩
  · rintro ⟨m, p, q, f, r, h1, h2 | ⟨⟨a, fs, h3, ⟨n, h4, h5⟩, h6⟩, h2⟩⟩
    · exact .media (words_iff.2 h1) (media_names.1 h2)
    · refine .protocol (words_iff.2 h1) (protocol_names.1 h2) (fields_iff.2 h3) (n := n) ?_ h5 ?_
      · rintro a' ⟨⟩; exact h4
      · intro b hb
        rcases fs with _ | ⟨c, fs⟩
        · simp at hb
        · obtain ⟨k, h7, h8⟩ := h6 c fs rfl
          simp only [List.getElem?_cons_succ, List.getElem?_cons_zero, Option.some.injEq] at hb
          subst hb
          exact ⟨k, h8, h7⟩

theorem unsupportedText_iff {l : Str} : UnsupportedText l ↔ UnsupportedLine l := by
  have letter {c d : Char} (hc : 97 ≤ c.toNat ∧ c.toNat ≤ 122) (hd : d.toNat + 32 = c.toNat) {raw : Str} :
      LineForm l c raw ↔ ∃ a, '=' ∉ a ∧ l = a ++ '=' :: raw ∧ trim a ∈ [[c], [d]] := by
    constructor
    · rintro ⟨t, x, rfl, h1, h2, h3, h4⟩
      rw [stripped_iff] at h2
      exact ⟨t, h1, rfl, by rw [← h2]; exact (lower_letter (byteLen_one.2 ⟨x, rfl, h4⟩).1 hc hd).1 h3⟩
    · rintro ⟨a, h1, h2, h3⟩
      have one : ∃ x, trim a = [x] ∧ x.toNat < 128 := by
        simp only [List.mem_cons, List.not_mem_nil, or_false] at h3
        rcases h3 with h3 | h3
        · exact ⟨c, h3, by omega⟩
        · exact ⟨d, h3, by omega⟩
      obtain ⟨x, hx, hlt⟩ := one
      refine ⟨a, x, h2, h1, stripped_iff.2 hx.symm, ?_, hlt⟩
      rw [hx] at h3
      exact (lower_letter (byteLen_one.2 ⟨x, rfl, hlt⟩).1 hc hd).2 h3
  have la {raw : Str} := letter (c := 'a') (d := 'A') (by decide) (by decide) (raw := raw)
  have lm {raw : Str} := letter (c := 'm') (d := 'M') (by decide) (by decide) (raw := raw)
  constructor
  · rintro (⟨v, ⟨raw, h1, h2, h3⟩, h4⟩ | ⟨v, ⟨raw, h1, h2, h3⟩, h4⟩) <;> rw [stripped_iff] at h2 <;> subst h2
    · obtain ⟨a, h5, h6, h7⟩ := la.1 h1
      exact ⟨a, raw, h5, h6, .inl ⟨h7, h3, unsupportedAttribute_iff.1 h4⟩⟩
    · obtain ⟨a, h5, h6, h7⟩ := lm.1 h1
      refine ⟨a, raw, h5, h6, .inr ⟨h7, ?_⟩⟩
      have := unsupportedMedia_iff.1 h4
      unfold UnsupportedMedia at this ⊢
      rwa [splitWs_trim] at this
  · rintro ⟨a, raw, h1, h2, ⟨h3, h4, h5⟩ | ⟨h3, h4⟩⟩
    · exact .inl ⟨_, ⟨raw, la.2 ⟨a, h1, h2, h3⟩, stripped_iff.2 rfl, h4⟩, unsupportedAttribute_iff.2 h5⟩
    · refine .inr ⟨trim raw, ⟨raw, lm.2 ⟨a, h1, h2, h3⟩, stripped_iff.2 rfl, ?_⟩, unsupportedMedia_iff.2 ?_⟩
      · obtain ⟨m, p, q, f, r, h5, -⟩ := h4
        rw [← splitWs_trim] at h5
        exact words_ne_nil (words_iff.2 h5)
      · unfold UnsupportedMedia at h4 ⊢
        rwa [splitWs_trim]

/-! ## Texts -/

omit [Env] in
theorem lines_lf {l rest : Str} (h : '\n' ∉ l) : lines (l ++ '\n' :: rest) = stripCR l :: lines rest := by
  unfold lines
  rw [splitC_append h, linesGo_cons (splitC_ne_nil _ _)]

omit [Env] in
theorem stripCR_none {l : Str} (h : l.getLast? ≠ some '\r') : stripCR l = l := by
  unfold stripCR
  rw [if_neg]
  rw [endsWithC_iff]; exact h

omit [Env] in
theorem textLines_iff {s : Str} {ls : List Str} : TextLines s ls ↔ ls = lines s := by
  constructor
  · intro h
    induction h with
    | nil => rfl
    | @last l h1 h2 =>
      unfold lines
      rw [splitC_of_not_mem h2]
      simp [linesGo, h1]
    | lf h1 h2 _ ih => rw [lines_lf h1, stripCR_none h2, ih]
    | @crlf l rest ls h1 _ ih =>
      rw [show l ++ '\r' :: '\n' :: rest = (l ++ ['\r']) ++ '\n' :: rest by simp, lines_lf (by simp [h1]), stripCR_cr, ih]
  · rintro rfl
    generalize hn : s.length = n
    induction n using Nat.strongRecOn generalizing s with
    | ind n ih =>
      by_cases hs : '\n' ∈ s
      · obtain ⟨l, rest, -, rfl, h2⟩ := splitn_two_of_mem hs
        have ih := ih rest.length (by simp at hn; omega) rfl
        rw [lines_lf h2]
        by_cases hr : l.getLast? = some '\r'
        · obtain ⟨l', rfl⟩ : ∃ l', l = l' ++ ['\r'] := by
            obtain ⟨l', h⟩ := List.getLast?_eq_some_iff.1 hr
            exact ⟨l', h⟩
          rw [stripCR_cr, show (l' ++ ['\r']) ++ '\n' :: rest = l' ++ '\r' :: '\n' :: rest by simp]
          exact .crlf (by simp at h2; exact h2) ih
        · rw [stripCR_none hr]
          exact .lf h2 hr ih
      · unfold lines
        rw [splitC_of_not_mem hs]
        by_cases hs' : s = []
        · subst hs'; exact .nil
        · simp only [linesGo, List.isEmpty_iff, hs', if_false]
          exact .last hs' hs

end

end Sdp
