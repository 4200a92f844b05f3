import Verif.Lemmas.Print
/-!
# Printed attributes are parsed back: candidate, extmap, fingerprint, rtcp-fb, ssrc, simulcast
-/

namespace Sdp

/-! ## Splitting a concatenation -/

theorem splitP_append_sep {p : Char → Bool} {a b : Str} {c : Char} (hc : p c = true) :
    splitP p (a ++ c :: b) = splitP p a ++ splitP p b := by
  induction a with
  | nil => simp [splitP, hc]
  | cons x xs ih =>
    by_cases hx : p x = true
    · rw [List.cons_append, splitP_cons_true hx, splitP_cons_true hx, ih]; rfl
    · simp only [Bool.not_eq_true] at hx
      simp only [List.cons_append, splitP, hx, ih]
      cases h : splitP p xs with
      | nil => exact absurd h (splitP_ne_nil _ _)
      | cons y ys => simp

theorem splitWs_append_sep {a b : Str} {c : Char} (hc : isWs c = true) :
    splitWs (a ++ c :: b) = splitWs a ++ splitWs b := by
  unfold splitWs; rw [splitP_append_sep hc, List.filter_append]

theorem splitC_append_sep {c : Char} {a b : Str} : splitC c (a ++ c :: b) = splitC c a ++ splitC c b :=
  splitP_append_sep (by simp)

theorem splitC_joinS_flatMap {c : Char} {l : List Str} (h : l ≠ []) :
    splitC c (joinS [c] l) = l.flatMap (splitC c) := by
  induction l with
  | nil => exact absurd rfl h
  | cons x xs ih =>
    cases xs with
    | nil => simp [joinS]
    | cons y ys =>
      rw [joinS, List.append_assoc, List.cons_append, List.nil_append, splitC_append_sep, ih (by simp)]
      simp

theorem splitn_append {n : Nat} {c : Char} {a b : Str} (h : c ∉ a) :
    splitn (n + 2) c (a ++ c :: b) = a :: splitn (n + 1) c b := by
  simp [splitn, breakC_append h]

theorem splitn_of_not_mem {n : Nat} {c : Char} {a : Str} (h : c ∉ a) : splitn (n + 1) c a = [a] := by
  cases n with
  | zero => rfl
  | succ n => simp [splitn, breakC_eq_none.2 h]

theorem NoWs.not_mem {s : Str} (h : NoWs s) : ' ' ∉ s := fun hm => by
  have := h _ hm; exact absurd this (by decide)

theorem Token.not_space {s : Str} (h : Token s) : ' ' ∉ s := h.noWs.not_mem

section
variable [Env]

/-! ## candidate -/

omit [Env] in
theorem showExts_append (a b : List (Str × Str)) : showExts (a ++ b) = showExts a ++ showExts b := by
  induction a with
  | nil => rfl
  | cons p ps ih => simp [showExts, ih]

/-- The extensions of a candidate as they are printed. -/
def extsOf (c : Candidate) : List (Str × Str) :=
  (c.raddr.map fun a => (c%"raddr", showAddress a)).toList ++
  ((c.rport.map fun a => (c%"rport", showU32 a)).toList ++
  ((c.tcpType.map fun a => (c%"tcptype", showCandTcpType a)).toList ++
  ((c.generation.map fun a => (c%"generation", showU32 a)).toList ++
  ((c.ufrag.map fun a => (c%"ufrag", a)).toList ++
  ((c.networkcost.map fun a => (c%"network-cost", showU32 a)).toList ++ c.unknownExtensions)))))

omit [Env] in
theorem optStr_exts {α : Type} {pre : Str} {sh : α → Str} {n : Str} (hp : pre = ' ' :: (n ++ [' '])) (o : Option α) :
    optStr pre sh o = showExts (o.map fun a => (n, sh a)).toList := by
  cases o <;> simp [optStr, showExts, hp]

omit [Env] in
theorem showCandidate_eq (c : Candidate) : showCandidate c =
    c.foundation ++ ' ' :: (showU32 c.component ++ ' ' :: (showCandTransport c.transport ++ ' ' ::
      (showU64 c.priority ++ ' ' :: (showAddress c.address ++ ' ' :: (showU32 c.port ++ ' ' ::
        (c%"typ" ++ ' ' :: (showCandType c.cType ++ showExts (extsOf c)))))))) := by
  unfold showCandidate extsOf
  simp only [showExts_append]
  rw [optStr_exts (pre := c%" raddr ") (n := c%"raddr") rfl, optStr_exts (pre := c%" rport ") (n := c%"rport") rfl,
    optStr_exts (pre := c%" tcptype ") (n := c%"tcptype") rfl,
    optStr_exts (pre := c%" generation ") (n := c%"generation") rfl,
    optStr_exts (pre := c%" ufrag ") (n := c%"ufrag") rfl,
    optStr_exts (pre := c%" network-cost ") (n := c%"network-cost") rfl]
  simp

omit [Env] in
theorem splitWs_exts {s : Str} {ps : List (Str × Str)} (h : ∀ p ∈ ps, Token p.1 ∧ Token p.2) :
    splitWs (s ++ showExts ps) = splitWs s ++ pairTokens ps := by
  induction ps generalizing s with
  | nil => simp [showExts, pairTokens]
  | cons p ps ih =>
    obtain ⟨h1, h2⟩ := h p (by simp)
    have : s ++ showExts (p :: ps) = (s ++ ' ' :: (p.1 ++ ' ' :: p.2)) ++ showExts ps := by simp [showExts]
    rw [this, ih fun q hq => h q (by simp [hq]), splitWs_append_sep (by decide), splitWs_append_sep (by decide),
      splitWs_single h1.noWs h1.ne, splitWs_single h2.noWs h2.ne]
    simp [pairTokens]

omit [Env] in
theorem showExts_ends {s : Str} {ps : List (Str × Str)} (hs : EndsClean s) (h : ∀ p ∈ ps, Token p.1 ∧ Token p.2) :
    EndsClean (s ++ showExts ps) := by
  induction ps generalizing s with
  | nil => simpa [showExts] using hs
  | cons p ps ih =>
    obtain ⟨h1, h2⟩ := h p (by simp)
    have : s ++ showExts (p :: ps) = (s ++ ' ' :: (p.1 ++ ' ' :: p.2)) ++ showExts ps := by simp [showExts]
    rw [this]
    exact ih ((h2.ends.cons.append).cons.append) fun q hq => h q (by simp [hq])

omit [Env] in
theorem Token.candTransport (t : CandTransport) : Token (showCandTransport t) := by
  cases t <;> exact ⟨by decide, by decide⟩
omit [Env] in
theorem Token.candType (t : CandType) : Token (showCandType t) := by
  cases t <;> exact ⟨by decide, by decide⟩
omit [Env] in
theorem Token.candTcpType (t : CandTcpType) : Token (showCandTcpType t) := by
  cases t <;> exact ⟨by decide, by decide⟩

omit [Env] in
theorem Token.typ : Token c%"typ" := ⟨by decide, by decide⟩

theorem extsOf_tokens {c : Candidate} (h1 : ∀ a, c.raddr = some a → a.WF) (h2 : ∀ u, c.ufrag = some u → Token u)
    (h3 : ∀ p ∈ c.unknownExtensions, Token p.1 ∧ Token p.2) : ∀ p ∈ extsOf c, Token p.1 ∧ Token p.2 := by
  have tok : ∀ {n : Str}, n ∈ candExtNames → Token n := by
    intro n hn
    simp only [candExtNames, List.mem_cons, List.not_mem_nil, or_false] at hn
    rcases hn with rfl | rfl | rfl | rfl | rfl | rfl <;> exact ⟨by decide, by decide⟩
  intro p hp
  simp only [extsOf, List.mem_append, Option.mem_toList, Option.mem_def, Option.map_eq_some_iff] at hp
  rcases hp with ⟨a, ha, rfl⟩ | ⟨a, ha, rfl⟩ | ⟨a, ha, rfl⟩ | ⟨a, ha, rfl⟩ | ⟨a, ha, rfl⟩ | ⟨a, ha, rfl⟩ | hp
  · exact ⟨tok (by simp [candExtNames]), (h1 a ha).token⟩
  · exact ⟨tok (by simp [candExtNames]), Token.u32 _⟩
  · exact ⟨tok (by simp [candExtNames]), Token.candTcpType _⟩
  · exact ⟨tok (by simp [candExtNames]), Token.u32 _⟩
  · exact ⟨tok (by simp [candExtNames]), h2 a ha⟩
  · exact ⟨tok (by simp [candExtNames]), Token.u32 _⟩
  · exact h3 p hp

theorem Candidate.WF.exts_tokens {c : Candidate} (h : c.WF) : ∀ p ∈ extsOf c, Token p.1 ∧ Token p.2 :=
  extsOf_tokens h.raddr h.ufrag fun p hp => ⟨(h.exts p hp).1, (h.exts p hp).2.1⟩

/-- The words of the text of a candidate. -/
theorem splitWs_candidate {c : Candidate} (hf : Token c.foundation) (ha : Token (showAddress c.address))
    (hx : ∀ p ∈ extsOf c, Token p.1 ∧ Token p.2) :
    splitWs (showCandidate c) = c.foundation :: showU32 c.component :: showCandTransport c.transport ::
      showU64 c.priority :: showAddress c.address :: showU32 c.port :: c%"typ" :: showCandType c.cType ::
      pairTokens (extsOf c) := by
  rw [showCandidate_eq, splitWs_space hf.noWs hf.ne, splitWs_space (Token.u32 _).noWs (Token.u32 _).ne,
    splitWs_space (Token.candTransport _).noWs (Token.candTransport _).ne,
    splitWs_space (Token.u64 _).noWs (Token.u64 _).ne,
    splitWs_space ha.noWs ha.ne, splitWs_space (Token.u32 _).noWs (Token.u32 _).ne,
    splitWs_space Token.typ.noWs Token.typ.ne, splitWs_exts hx,
    splitWs_single (Token.candType _).noWs (Token.candType _).ne]
  rfl

theorem candPairs_append (c : Candidate) (a b : List (Str × Str)) :
    candPairs c (a ++ b) = candPairs c a >>= fun d => candPairs d b := by
  induction a generalizing c with
  | nil => rfl
  | cons p ps ih =>
    simp only [List.cons_append, candPairs]
    cases candExt c p.1 p.2 <;> simp [ih]

theorem candPairs_unknown (c : Candidate) (us : List (Str × Str)) (h : ∀ p ∈ us, lower p.1 ∉ candExtNames) :
    candPairs c us = .ok { c with unknownExtensions := c.unknownExtensions ++ us } := by
  induction us generalizing c with
  | nil => simp [candPairs]
  | cons p ps ih =>
    rw [candPairs, candExt_unknown (h p (by simp)), ok_bind, ih _ fun q hq => h q (by simp [hq])]
    simp

theorem parseCandTcpType_show (t : CandTcpType) : parseCandTcpType (showCandTcpType t) = .ok t := by
  cases t <;> rfl

/-- The candidate without its extensions. -/
def Candidate.base (c : Candidate) : Candidate :=
  ⟨c.foundation, c.component, c.transport, c.priority, c.address, c.port, c.cType, none, none, none, none, none,
    none, []⟩

theorem candPairs_exts {c : Candidate} (h : c.WF) : candPairs c.base (extsOf c) = .ok c := by
  obtain ⟨fo, co, tr, pr, ad, po, ty, ra, rp, tt, ge, uf, nc, un⟩ := c
  have hra := h.raddr
  have hrp := h.rport
  have hex := h.exts
  clear h
  dsimp only at hra hrp hex
  unfold extsOf Candidate.base
  dsimp only
  have l1 : lower c%"raddr" = c%"raddr" := rfl
  have l2 : lower c%"rport" = c%"rport" := rfl
  have l3 : lower c%"tcptype" = c%"tcptype" := rfl
  have l4 : lower c%"generation" = c%"generation" := rfl
  have l5 : lower c%"ufrag" = c%"ufrag" := rfl
  have l6 : lower c%"network-cost" = c%"network-cost" := rfl
  rw [candPairs_append]
  have : ∀ c : Candidate, c.raddr = none →
      candPairs c (ra.map fun a => (c%"raddr", showAddress a)).toList = .ok { c with raddr := ra } := by
    intro c hc; cases ra with
    | none => cases c; cases hc; rfl
    | some a => simp [candPairs, candExt, l1, parseUnicastAddress, (hra a rfl).parse]
  rw [this _ rfl, ok_bind, candPairs_append]
  have : ∀ c : Candidate, c.rport = none →
      candPairs c (rp.map fun a => (c%"rport", showU32 a)).toList = .ok { c with rport := rp } := by
    intro c hc; cases rp with
    | none => cases c; cases hc; rfl
    | some a => simp [candPairs, candExt, l2, parseU32_show, u32_port (hrp a rfl)]
  rw [this _ rfl, ok_bind, candPairs_append]
  have : ∀ c : Candidate, c.tcpType = none →
      candPairs c (tt.map fun a => (c%"tcptype", showCandTcpType a)).toList = .ok { c with tcpType := tt } := by
    intro c hc; cases tt with
    | none => cases c; cases hc; rfl
    | some a => simp [candPairs, candExt, l3, parseCandTcpType_show]
  rw [this _ rfl, ok_bind, candPairs_append]
  have : ∀ c : Candidate, c.generation = none →
      candPairs c (ge.map fun a => (c%"generation", showU32 a)).toList = .ok { c with generation := ge } := by
    intro c hc; cases ge with
    | none => cases c; cases hc; rfl
    | some a => simp [candPairs, candExt, l4, parseU32_show]
  rw [this _ rfl, ok_bind, candPairs_append]
  have : ∀ c : Candidate, c.ufrag = none →
      candPairs c (uf.map fun a => (c%"ufrag", a)).toList = .ok { c with ufrag := uf } := by
    intro c hc; cases uf with
    | none => cases c; cases hc; rfl
    | some a => simp [candPairs, candExt, l5]
  rw [this _ rfl, ok_bind, candPairs_append]
  have : ∀ c : Candidate, c.networkcost = none →
      candPairs c (nc.map fun a => (c%"network-cost", showU32 a)).toList = .ok { c with networkcost := nc } := by
    intro c hc; cases nc with
    | none => cases c; cases hc; rfl
    | some a => simp [candPairs, candExt, l6, parseU32_show]
  rw [this _ rfl, ok_bind, candPairs_unknown _ _ fun p hp => (hex p hp).2.2]
  simp

theorem prints_candidate {c : Candidate} (h : c.WF) : Prints .candidate (showCandidate c) (.candidate c) := by
  have hx := h.exts_tokens
  rw [showCandidate_eq]
  refine ⟨⟨h.foundation.begins.append, ?_⟩, ?_⟩
  · refine EndsClean.append (.cons <| .append <| .cons <| .append <| .cons <| .append <| .cons <| .append <|
      .cons <| .append <| .cons <| .append <| .cons ?_)
    exact showExts_ends (Token.candType _).ends hx
  · show parseCandidate _ = _
    rw [parseCandidate_eq (t0 := c.foundation) (t1 := showU32 c.component) (t2 := showCandTransport c.transport)
      (t3 := showU64 c.priority) (t4 := showAddress c.address) (t5 := showU32 c.port) (t6 := c%"typ")
      (t7 := showCandType c.cType) (r := pairTokens (extsOf c))]
    · refine ⟨c.base, _, ?_, ?_, ?_, rfl⟩
      · exact ⟨fun k => by cases k <;> rfl, rfl⟩
      · refine ⟨rfl, DecText.show _, ?_, DecText.show _, h.address.parse, DecText.show _, h.port, rfl, ?_⟩
        · show lower (showCandTransport c.transport) = transportText c.transport
          cases c.transport <;> rfl
        · show lower (showCandType c.cType) = candTypeText c.cType
          cases c.cType <;> rfl
      · rw [candExts_pairs, candPairs_exts h]
    · rw [← showCandidate_eq]; exact splitWs_candidate h.foundation h.address.token hx

/-! ## extmap -/

omit [Env] in
theorem mem_joinS {c : Char} {sep : Str} {l : List Str} (h : c ∈ joinS sep l) : c ∈ sep ∨ ∃ t ∈ l, c ∈ t := by
  induction l with
  | nil => simp [joinS] at h
  | cons a as ih =>
    cases as with
    | nil => exact .inr ⟨a, by simp, h⟩
    | cons b bs =>
      simp only [joinS, List.mem_append] at h
      rcases h with (h | h) | h
      · exact .inr ⟨a, by simp, h⟩
      · exact .inl h
      · rcases ih h with h | ⟨t, h, h'⟩
        · exact .inl h
        · exact .inr ⟨t, by simp [h], h'⟩

omit [Env] in
theorem slash_not_mem_u16 (n : UInt16) : '/' ∉ showU16 n := by
  intro h; have := showNat_digits h; exact absurd this (by decide)

theorem parseExtmapId_show (id : UInt16) (d : Option Direction) :
    parseExtmapId (showU16 id ++ optStr c%"/" showDirection d) = .ok (id, d) := by
  unfold parseExtmapId
  cases d with
  | none =>
    simp only [optStr, List.append_nil]
    rw [if_pos (slash_not_mem_u16 _), parseU16_show]; rfl
  | some d =>
    simp only [optStr]
    have hm : '/' ∈ showU16 id ++ (c%"/" ++ showDirection d) := by simp
    simp only [hm, not_true_eq_false, if_false]
    rw [show showU16 id ++ (c%"/" ++ showDirection d) = showU16 id ++ '/' :: showDirection d from rfl,
      splitn_two_append (slash_not_mem_u16 _)]
    have : parseExtmapDirection (showDirection d) = .ok d := by cases d <;> rfl
    simp [idx, parseU16_show, this]

omit [Env] in
theorem token_extmapId (id : UInt16) (d : Option Direction) :
    Token (showU16 id ++ optStr c%"/" showDirection d) := by
  refine ⟨fun h => (Token.u16 id).ne (List.append_eq_nil_iff.1 h).1, fun c hc => ?_⟩
  rcases List.mem_append.1 hc with hc | hc
  · exact (Token.u16 id).2 c hc
  · cases d with
    | none => simp [optStr] at hc
    | some d =>
      have : ∀ c ∈ c%"/" ++ showDirection d, isWs c = false := by cases d <;> decide
      exact this c hc

theorem prints_extmap {e : Extmap} (h : e.WF) : Prints .extmap (showExtmap e) (.extmap e) := by
  obtain ⟨id, d, url, ext⟩ := e
  have ht := token_extmapId id d
  obtain ⟨hu, hx⟩ := h
  dsimp only at hu hx
  cases ext with
  | none =>
    have e : showExtmap ⟨id, d, url, none⟩ = (showU16 id ++ optStr c%"/" showDirection d) ++ ' ' :: url := by
      simp [showExtmap, optStr]
    rw [e]
    refine ⟨⟨ht.begins.append, hu.ends.cons.append⟩, ?_⟩
    show parseExtmap _ = _
    unfold parseExtmap
    rw [splitWs_space ht.noWs ht.ne, splitWs_single hu.noWs hu.ne]
    simp [idx, parseExtmapId_show]
  | some x =>
    obtain ⟨ts, hne, hts, rfl⟩ := hx x rfl
    have e : showExtmap ⟨id, d, url, some (joinS c%" " ts)⟩ =
        (showU16 id ++ optStr c%"/" showDirection d) ++ ' ' :: (url ++ ' ' :: joinS c%" " ts) := by
      simp [showExtmap, optStr]
    have htk : ∀ t ∈ ts, Token t := fun t h => (hts t h).1
    rw [e]
    refine ⟨⟨ht.begins.append, ((tokens_trimmed hne htk).2.cons.append).cons.append⟩, ?_⟩
    show parseExtmap _ = _
    unfold parseExtmap
    rw [splitWs_space ht.noWs ht.ne, splitWs_space hu.noWs hu.ne, splitWs_tokens htk]
    have hv : validByteString (joinS c%" " ts) = true := by
      have key : ∀ c ∈ joinS c%" " ts, c = ' ' ∨ ∃ t ∈ ts, c ∈ t := by
        intro c hc
        rcases mem_joinS hc with h | h
        · exact .inl (by simpa using h)
        · exact .inr h
      have no : ∀ c : Char, (∀ t ∈ ts, c ∉ t) → c ≠ ' ' → (joinS c%" " ts).contains c = false := by
        intro c h1 h2
        cases hc : (joinS c%" " ts).contains c with
        | false => rfl
        | true =>
          rcases key c (by simpa using hc) with h | ⟨t, h, h'⟩
          · exact absurd h h2
          · exact absurd h' (h1 t h)
      unfold validByteString
      rw [no _ (fun t h => (hts t h).2) (by decide),
        no '\n' (fun t h hm => absurd ((htk t h).2 _ hm) (by decide)) (by decide),
        no '\r' (fun t h hm => absurd ((htk t h).2 _ hm) (by decide)) (by decide)]
      rfl
    cases ts with
    | nil => exact absurd rfl hne
    | cons t ts => simp [idx, sliceFrom, parseExtmapId_show, hv]

/-! ## fingerprint -/

omit [Env] in
theorem hexUpper_facts {d : Nat} (h : d < 16) :
    (hexUpper d).utf8Size = 1 ∧ isWs (hexUpper d) = false ∧ hexUpper d ≠ ':' := by
  have : d = 0 ∨ d = 1 ∨ d = 2 ∨ d = 3 ∨ d = 4 ∨ d = 5 ∨ d = 6 ∨ d = 7 ∨ d = 8 ∨ d = 9 ∨ d = 10 ∨
    d = 11 ∨ d = 12 ∨ d = 13 ∨ d = 14 ∨ d = 15 := by omega
  rcases this with rfl | rfl | rfl | rfl | rfl | rfl | rfl | rfl | rfl | rfl | rfl | rfl | rfl | rfl | rfl | rfl <;>
    decide

omit [Env] in
theorem showByteHex_facts (b : UInt8) : byteLen (showByteHex b) = 2 ∧ Token (showByteHex b) ∧ ':' ∉ showByteHex b := by
  have h1 := hexUpper_facts (d := b.toNat / 16) (by have := b.toNat_lt; omega)
  have h2 := hexUpper_facts (d := b.toNat % 16) (by omega)
  refine ⟨?_, ⟨by simp [showByteHex], ?_⟩, ?_⟩
  · simp [showByteHex, byteLen, h1.1, h2.1]
  · intro c hc
    simp only [showByteHex, List.mem_cons, List.not_mem_nil, or_false] at hc
    rcases hc with rfl | rfl
    · exact h1.2.1
    · exact h2.2.1
  · intro hc
    simp only [showByteHex, List.mem_cons, List.not_mem_nil, or_false] at hc
    rcases hc with hc | hc
    · exact h1.2.2 hc.symm
    · exact h2.2.2 hc.symm

omit [Env] in
theorem collect_map {ε α β γ : Type} {f : β → Outcome ε γ} {g : α → β} {k : α → γ} {l : List α}
    (h : ∀ x ∈ l, f (g x) = .ok (k x)) : collect f (l.map g) = .ok (l.map k) := by
  induction l with
  | nil => rfl
  | cons x xs ih =>
    simp [collect, h x (by simp), ih fun y hy => h y (by simp [hy])]

omit [Env] in
theorem collect_map_id {ε α β : Type} {f : β → Outcome ε α} {g : α → β} {l : List α}
    (h : ∀ x ∈ l, f (g x) = .ok x) : collect f (l.map g) = .ok l := by
  have := collect_map (k := id) h; simpa using this

omit [Env] in
theorem joinS_eq_nil {sep : Str} {l : List Str} (hs : sep ≠ []) : joinS sep l = [] ↔ l = [] ∨ l = [[]] := by
  cases l with
  | nil => simp [joinS]
  | cons a as =>
    cases as with
    | nil => simp [joinS]
    | cons b bs => simp [joinS, hs]

theorem prints_fingerprint {f : Fingerprint} (h : f.fingerprint.length = fingerprintBytes f.hashAlgorithm) :
    Prints .fingerprint (showFingerprint f) (.fingerprint f) := by
  obtain ⟨ha, bs⟩ := f
  dsimp only at h
  have hoc : octetCount ha = fingerprintBytes ha := by cases ha <;> rfl
  have hne : bs.map showByteHex ≠ [] := by
    intro h0; simp at h0; subst h0; cases ha <;> simp [fingerprintBytes] at h
  have htk : Token (joinS c%":" (bs.map showByteHex)) := by
    constructor
    · rw [ne_eq, joinS_eq_nil (by decide)]
      rintro (h | h)
      · exact hne h
      · cases bs with
        | nil => exact absurd rfl hne
        | cons b bs => simp [showByteHex] at h
    · intro c hc
      rcases mem_joinS hc with hc | ⟨t, ht, hc⟩
      · simp at hc; subst hc; decide
      · obtain ⟨b, -, rfl⟩ := List.mem_map.1 ht
        exact (showByteHex_facts b).2.1.2 c hc
  have hh : Token (showHashType ha) := by cases ha <;> exact ⟨by decide, by decide⟩
  have e : showFingerprint ⟨ha, bs⟩ = showHashType ha ++ ' ' :: joinS c%":" (bs.map showByteHex) := by
    simp [showFingerprint]
  rw [e]
  refine ⟨⟨hh.begins.append, htk.ends.cons.append⟩, ?_⟩
  show parseFingerprint _ = _
  unfold parseFingerprint
  rw [splitWs_space hh.noWs hh.ne, splitWs_single htk.noWs htk.ne]
  have hp : parseHashType (showHashType ha) = .ok ha := by cases ha <;> rfl
  have ho : parseOctets ha (joinS c%":" (bs.map showByteHex)) = .ok bs := by
    unfold parseOctets
    rw [splitC_joinS hne (by intro t ht; obtain ⟨b, -, rfl⟩ := List.mem_map.1 ht; exact (showByteHex_facts b).2.2),
      collect_map_id (by intro b _; simp [parseOctet, (showByteHex_facts b).1, parseHexU8_show])]
    simp [hoc, h]
  simp [idx, hp, ho, fingerprintTryFrom, hoc, h]

/-! ## rtcp-fb -/

theorem prints_rtcpfb {r : RtcpFb} (h : r.WF) : Prints .rtcpfb (showRtcpFb r) (.rtcpfb r) := by
  obtain ⟨pt, ty, p, x⟩ := r
  obtain ⟨hp, hx⟩ := h
  dsimp only at hp hx
  have hpt : Token (showPayloadType pt) := by
    cases pt
    · exact Token.showNat _
    · exact ⟨by decide, by decide⟩
  have hty : Token (showRtcpFbType ty) := by cases ty <;> exact ⟨by decide, by decide⟩
  have ppt : parsePayloadType (showPayloadType pt) = .ok pt := by
    cases pt with
    | wildcard => rfl
    | pt n =>
      show parsePayloadType (showNat n.toNat) = _
      unfold parsePayloadType
      rw [if_neg]
      · rw [show showNat n.toNat = showU8 n from rfl, parseU8_show]; rfl
      · intro h
        have := showNat_digits (n := n.toNat) (c := '*') (by rw [h]; simp)
        exact absurd this (by decide)
  have pty : parseFbType (some (showRtcpFbType ty)) = .ok ty := by cases ty <;> rfl
  by_cases hp0 : p = []
  · have hx0 : x = [] := by
      by_cases h : x = []
      · exact h
      · exact absurd hp0 (hx h).1
    subst hp0 hx0
    have e : showRtcpFb ⟨pt, ty, [], []⟩ = showPayloadType pt ++ ' ' :: showRtcpFbType ty := by simp [showRtcpFb]
    rw [e]
    refine ⟨⟨hpt.begins.append, hty.ends.cons.append⟩, ?_⟩
    show parseRtcpFb _ = _
    unfold parseRtcpFb
    rw [splitn_append hpt.not_space, splitn_of_not_mem hty.not_space]
    have pp : parseFbParam ty none = .ok [] := by
      cases ty <;> first | rfl | (simp at hp) | skip
      obtain ⟨n, -, hn⟩ := hp
      obtain ⟨ds, h1, h2, -⟩ := hn
      rcases h1 with h1 | h1
      · exact absurd h1.symm h2
      · cases h1
    simp [idx, pty, pp, ppt]
  · have pp : parseFbParam ty (some p) = .ok p := by
      cases ty with
      | ack => simp only [List.mem_cons, List.not_mem_nil, or_false] at hp; simp [parseFbParam, hp]
      | ccm =>
        simp only [List.mem_cons, List.not_mem_nil, or_false, hp0, false_or] at hp; simp [parseFbParam, hp]
      | nack =>
        simp only [List.mem_cons, List.not_mem_nil, or_false, hp0, false_or] at hp; simp [parseFbParam, hp]
      | trrInt =>
        obtain ⟨n, hn, hd⟩ := hp
        have := parseU32_ok (s := p) (x := UInt32.ofNat n) |>.2 (by rwa [FmtpField.u32_ofNat hn])
        simp [parseFbParam, this, Outcome.isOk]
      | remb => exact absurd hp hp0
      | transCc => exact absurd hp hp0
    have ptk : Token p := by
      refine ⟨hp0, ?_⟩
      cases ty with
      | trrInt =>
        obtain ⟨n, hn, hd⟩ := hp
        intro c hc
        rcases hd.chars c hc with rfl | h
        · decide
        · exact isDigit_ws h
      | remb => exact absurd hp hp0
      | transCc => exact absurd hp hp0
      | ack =>
        simp only [List.mem_cons, List.not_mem_nil, or_false] at hp
        rcases hp with rfl | rfl <;> decide
      | ccm =>
        simp only [List.mem_cons, List.not_mem_nil, or_false] at hp
        rcases hp with rfl | rfl | rfl | rfl | rfl <;> decide
      | nack =>
        simp only [List.mem_cons, List.not_mem_nil, or_false] at hp
        rcases hp with rfl | rfl | rfl | rfl | rfl <;> decide
    by_cases hx0 : x = []
    · subst hx0
      have e : showRtcpFb ⟨pt, ty, p, []⟩ = showPayloadType pt ++ ' ' :: (showRtcpFbType ty ++ ' ' :: p) := by
        simp [showRtcpFb, hp0, maybeParamS]
      rw [e]
      refine ⟨⟨hpt.begins.append, (ptk.ends.cons.append).cons.append⟩, ?_⟩
      show parseRtcpFb _ = _
      unfold parseRtcpFb
      rw [splitn_append hpt.not_space, splitn_append hty.not_space, splitn_of_not_mem ptk.not_space]
      simp [idx, pty, pp, ppt]
    · have e : showRtcpFb ⟨pt, ty, p, x⟩ =
          showPayloadType pt ++ ' ' :: (showRtcpFbType ty ++ ' ' :: (p ++ ' ' :: x)) := by
        simp [showRtcpFb, hp0, maybeParamS, hx0]
      rw [e]
      refine ⟨⟨hpt.begins.append, (((hx hx0).2.cons.append).cons.append).cons.append⟩, ?_⟩
      show parseRtcpFb _ = _
      unfold parseRtcpFb
      rw [splitn_append hpt.not_space, splitn_append hty.not_space, splitn_append ptk.not_space]
      simp [idx, splitn, pty, pp, ppt]

/-! ## ssrc -/

omit [Env] in
theorem parseSsrc_show {s : Ssrc} (h : s.WF) : parseSsrc (showSsrc s) = .ok s ∧ Trimmed (showSsrc s) := by
  obtain ⟨id, a, v⟩ := s
  obtain ⟨ha, hv⟩ := h
  dsimp only at ha hv
  cases a with
  | none =>
    cases v with
    | some v => exact absurd rfl (hv v rfl).1
    | none =>
      simp only [showSsrc, optStr, List.append_nil]
      refine ⟨?_, (Token.u32 _).trimmed⟩
      unfold parseSsrc
      rw [splitn_of_not_mem (Token.u32 _).not_space]
      simp [parseU32_show]
  | some a =>
    obtain ⟨h1, h2⟩ := ha a rfl
    cases v with
    | none =>
      have e : showSsrc ⟨id, some a, none⟩ = showU32 id ++ ' ' :: a := by simp [showSsrc, optStr]
      rw [e]
      refine ⟨?_, (Token.u32 _).begins.append, (h2 rfl).cons.append⟩
      unfold parseSsrc
      rw [splitn_two_append (Token.u32 _).not_space]
      simp [parseU32_show, Ssrc.setAttribute, h1]
    | some v =>
      have e : showSsrc ⟨id, some a, some v⟩ = showU32 id ++ ' ' :: (a ++ ':' :: v) := by simp [showSsrc, optStr]
      rw [e]
      refine ⟨?_, (Token.u32 _).begins.append, ?_⟩
      · unfold parseSsrc
        rw [splitn_two_append (Token.u32 _).not_space]
        simp [parseU32_show, Ssrc.setAttribute, splitn_two_append h1, idx]
      · rcases (hv v rfl).2 with rfl | h
        · exact EndsClean.append (.cons <| .append ⟨[], ':', rfl, by decide⟩)
        · exact (h.cons.append).cons.append

theorem prints_ssrc {s : Ssrc} (h : s.WF) : Prints .ssrc (showSsrc s) (.ssrc s) := by
  obtain ⟨h1, h2⟩ := parseSsrc_show h
  refine ⟨h2, ?_⟩
  show (do return Attribute.ssrc (← parseSsrc (showSsrc s)) : IRes Attribute) = _
  rw [h1]; rfl

theorem prints_ssrcGroup {k : SsrcGroupSemantic} {l : List Ssrc} (hn : l ≠ [])
    (h : ∀ s ∈ l, s.attr = none ∧ s.value = none) :
    Prints .ssrcGroup (showSsrcGroupSemantic k ++ c%" " ++ joinS c%" " (l.map showSsrc)) (.ssrcGroup k l) := by
  have hk : Token (showSsrcGroupSemantic k) := by cases k <;> exact ⟨by decide, by decide⟩
  have ht : ∀ t ∈ l.map showSsrc, Token t := by
    intro t ht
    obtain ⟨s, hs, rfl⟩ := List.mem_map.1 ht
    obtain ⟨h1, h2⟩ := h s hs
    simp only [showSsrc, h1, h2, optStr, List.append_nil]
    exact Token.u32 _
  have e : showSsrcGroupSemantic k ++ c%" " ++ joinS c%" " (l.map showSsrc) =
      showSsrcGroupSemantic k ++ ' ' :: joinS c%" " (l.map showSsrc) := by simp
  rw [e]
  refine ⟨⟨hk.begins.append, (tokens_trimmed (by simpa using hn) ht).2.cons.append⟩, ?_⟩
  show parseSsrcGroup _ = _
  unfold parseSsrcGroup
  rw [splitWs_space hk.noWs hk.ne, splitWs_tokens ht]
  have hp : parseSsrcGroupSemantic (showSsrcGroupSemantic k) = .ok k := by cases k <;> rfl
  have hc : collect parseSsrc (l.map showSsrc) = .ok l :=
    collect_map_id fun s hs => (parseSsrc_show ⟨by simp [(h s hs).1], by simp [(h s hs).2]⟩).1
  simp [hp, hc, hn]

/-! ## simulcast -/

omit [Env] in
theorem SimulcastId.new_show {i : SimulcastId} (h : i.WF) : SimulcastId.new (showSimulcastId i) = i := by
  obtain ⟨s, p⟩ := i
  cases p with
  | true => simp [showSimulcastId, SimulcastId.new, stripPrefix]
  | false =>
    have := h.tilde rfl
    dsimp only at this
    cases s with
    | nil => simp [showSimulcastId, SimulcastId.new, stripPrefix]
    | cons c r =>
      have hc : c ≠ '~' := by simpa using this
      simp [showSimulcastId, SimulcastId.new, stripPrefix, hc.symm]

omit [Env] in
theorem showSimulcastId_chars {i : SimulcastId} (h : i.WF) :
    ∀ c ∈ showSimulcastId i, isWs c = false ∧ c ≠ ',' ∧ c ≠ ';' ∧ c ≠ '=' := by
  intro c hc
  unfold showSimulcastId at hc
  rcases List.mem_append.1 hc with hc | hc
  · have : c = '~' := by
      by_cases hp : i.paused = true
      · simpa [hp] using hc
      · simp [hp] at hc
    subst this; decide
  · exact h.chars c hc

omit [Env] in
theorem SimulcastVersion.new_show {v : SimulcastVersion} (h : v.WF) :
    SimulcastVersion.new (showSimulcastVersion v) = v := by
  obtain ⟨ids⟩ := v
  unfold SimulcastVersion.new showSimulcastVersion
  rw [splitC_joinS (by simpa using h.some) (by
    intro t ht hm
    obtain ⟨i, hi, rfl⟩ := List.mem_map.1 ht
    exact (showSimulcastId_chars (h.ids i hi) _ hm).2.1 rfl)]
  simp only [List.map_map, SimulcastVersion.mk.injEq]
  conv_rhs => rw [← List.map_id ids]
  exact List.map_congr_left fun i hi => SimulcastId.new_show (h.ids i hi)

omit [Env] in
theorem showSimulcastVersion_chars {v : SimulcastVersion} (h : v.WF) :
    showSimulcastVersion v ≠ [] ∧ ∀ c ∈ showSimulcastVersion v, isWs c = false ∧ c ≠ ';' ∧ c ≠ '=' := by
  constructor
  · unfold showSimulcastVersion
    rw [ne_eq, joinS_eq_nil (by decide)]
    rintro (h' | h')
    · exact h.some (by simpa using h')
    · obtain ⟨ids⟩ := v
      have ht := h.text
      cases ids with
      | nil => simp at h'
      | cons i is =>
        obtain ⟨s, p⟩ := i
        cases is with
        | cons j js => simp at h'
        | nil =>
          cases p <;> simp [showSimulcastId] at h'
          subst h'; exact ht rfl
  · intro c hc
    rcases mem_joinS hc with hc | ⟨t, ht, hc⟩
    · simp at hc; subst hc; decide
    · obtain ⟨i, hi, rfl⟩ := List.mem_map.1 ht
      obtain ⟨h1, -, h2, h3⟩ := showSimulcastId_chars (h.ids i hi) c hc
      exact ⟨h1, h2, h3⟩

omit [Env] in
theorem versionText {l : List SimulcastVersion} (hn : l ≠ []) (h : ∀ v ∈ l, v.WF) {pre : Str} :
    maybeVec pre [] c%";" (l.map showSimulcastVersion) = pre ++ joinS c%";" (l.map showSimulcastVersion) := by
  have : (l.map showSimulcastVersion).filter (fun s => !s.isEmpty) = l.map showSimulcastVersion := by
    rw [List.filter_eq_self]
    intro t ht
    obtain ⟨v, hv, rfl⟩ := List.mem_map.1 ht
    simpa using (showSimulcastVersion_chars (h v hv)).1
  cases l with
  | nil => exact absurd rfl hn
  | cons v vs => simp only [List.map_cons] at this ⊢; simp [maybeVec, this]

theorem parseVersionList_show {l : List SimulcastVersion} (hn : l ≠ []) (h : ∀ v ∈ l, v.WF) :
    parseVersionList (joinS c%";" (l.map showSimulcastVersion)) = .ok l ∧
      Token (joinS c%";" (l.map showSimulcastVersion)) := by
  have key : ∀ c ∈ joinS c%";" (l.map showSimulcastVersion), isWs c = false ∧ c ≠ '=' := by
    intro c hc
    rcases mem_joinS hc with hc | ⟨t, ht, hc⟩
    · simp at hc; subst hc; decide
    · obtain ⟨v, hv, rfl⟩ := List.mem_map.1 ht
      obtain ⟨h1, -, h2⟩ := (showSimulcastVersion_chars (h v hv)).2 c hc
      exact ⟨h1, h2⟩
  refine ⟨?_, ?_, fun c hc => (key c hc).1⟩
  · unfold parseVersionList
    rw [if_neg (fun hm => (key _ hm).2 rfl)]
    unfold makeVersionList
    rw [splitC_joinS (by simpa using hn) (by
      intro t ht hm
      obtain ⟨v, hv, rfl⟩ := List.mem_map.1 ht
      exact ((showSimulcastVersion_chars (h v hv)).2 _ hm).2.1 rfl)]
    simp only [List.map_map, Outcome.ok.injEq]
    conv_rhs => rw [← List.map_id l]
    exact List.map_congr_left fun v hv => SimulcastVersion.new_show (h v hv)
  · rw [ne_eq, joinS_eq_nil (by decide)]
    rintro (h' | h')
    · exact hn (by simpa using h')
    · cases l with
      | nil => simp at h'
      | cons v vs => simp at h'; exact (showSimulcastVersion_chars (h v (by simp))).1 h'.1

theorem prints_simulcast {s : Simulcast} (h : s.WF) : Prints .simulcast (showSimulcast s) (.simulcast s) := by
  obtain ⟨sd, rc⟩ := s
  obtain ⟨h1, h2, h3⟩ := h
  dsimp only at h1 h2 h3
  have tS : Token c%"send" := ⟨by decide, by decide⟩
  have tR : Token c%"recv" := ⟨by decide, by decide⟩
  by_cases hs : sd = []
  · have hr : rc ≠ [] := by rcases h3 with h | h; exacts [absurd hs h, h]
    subst hs
    obtain ⟨p2, t2⟩ := parseVersionList_show hr h2
    have e : showSimulcast ⟨[], rc⟩ = c%"recv" ++ ' ' :: joinS c%";" (rc.map showSimulcastVersion) := by
      unfold showSimulcast
      dsimp only
      rw [versionText hr h2]
      simp [maybeVec, nonEmpty, joinS]
    rw [e]
    refine ⟨⟨tR.begins.append, t2.ends.cons.append⟩, ?_⟩
    rw [show ∀ s, parseAttrValue .simulcast s = parseSimulcast s from fun _ => rfl]
    unfold parseSimulcast
    rw [splitWs_space tR.noWs tR.ne, splitWs_single t2.noWs t2.ne]
    simp [parseSingleDirection, p2, parseSecondVersionList]
  · obtain ⟨p1, t1⟩ := parseVersionList_show hs h1
    by_cases hr : rc = []
    · subst hr
      have e : showSimulcast ⟨sd, []⟩ = c%"send" ++ ' ' :: joinS c%";" (sd.map showSimulcastVersion) := by
        unfold showSimulcast
        dsimp only
        rw [versionText hs h1]
        simp [maybeVec, nonEmpty, joinS]
      rw [e]
      refine ⟨⟨tS.begins.append, t1.ends.cons.append⟩, ?_⟩
      rw [show ∀ s, parseAttrValue .simulcast s = parseSimulcast s from fun _ => rfl]
      unfold parseSimulcast
      rw [splitWs_space tS.noWs tS.ne, splitWs_single t1.noWs t1.ne]
      simp [parseSingleDirection, p1, parseSecondVersionList]
    · obtain ⟨p2, t2⟩ := parseVersionList_show hr h2
      have e : showSimulcast ⟨sd, rc⟩ = c%"send" ++ ' ' :: (joinS c%";" (sd.map showSimulcastVersion) ++
          ' ' :: (c%"recv" ++ ' ' :: joinS c%";" (rc.map showSimulcastVersion))) := by
        unfold showSimulcast
        dsimp only
        rw [versionText hs h1, versionText hr h2]
        simp [nonEmpty, joinS]
      rw [e]
      refine ⟨⟨tS.begins.append, (((t2.ends.cons.append).cons.append).cons.append)⟩, ?_⟩
      rw [show ∀ s, parseAttrValue .simulcast s = parseSimulcast s from fun _ => rfl]
      unfold parseSimulcast
      rw [splitWs_space tS.noWs tS.ne, splitWs_space t1.noWs t1.ne, splitWs_space tR.noWs tR.ne,
        splitWs_single t2.noWs t2.ne]
      simp [parseSingleDirection, p1, p2, parseSecondVersionList]

end

end Sdp
