import Verif.Props.Grammar3
import Verif.Lemmas.Recase

/-!
# C68 to C71: lines and addresses
-/

namespace Sdp

section
variable [Env]

/-! ## Lines -/

omit [Env] in
theorem byteLen_one {s : Str} : (¬ byteLen s > 1 ∧ s ≠ []) ↔ ∃ c, s = [c] ∧ c.toNat < 128 := by
  have size (c : Char) : 1 ≤ c.utf8Size := c.utf8Size_pos
  constructor
  · rintro ⟨h, hne⟩
    rcases s with _ | ⟨c, _ | ⟨d, s⟩⟩
    · exact absurd rfl hne
    · refine ⟨c, rfl, ?_⟩
      have := isAscii_of_byteLen h
      simpa [isAscii] using this
    · have h1 := size c; have h2 := size d
      simp [byteLen] at h; omega
  · rintro ⟨c, rfl, h⟩
    refine ⟨?_, by simp⟩
    have h' : c.val ≤ 127 := by
      rw [UInt32.le_iff_toNat_le]; change c.toNat ≤ 127; omega
    simp [byteLen, Char.utf8Size, h']

/-- What a line says, in terms of the parser for its value. -/
theorem line_iff {l : Str} {n : Nat} {x : SdpLine} :
    parseSdpLine l n = .ok x ↔ ∃ letter raw, LineForm l letter raw ∧ (trim raw ≠ [] ∨ letter = 's') ∧
      parseLineValue [letter] (trim raw) raw = .ok x.sdpType ∧ x.lineNumber = n ∧ x.text = l := by
  have low {c : Char} (h : c.toNat < 128) : ∃ d, lower [c] = [d] :=
    ⟨asciiLower c, by simp [lower, isAscii, h]⟩
  constructor
  · intro h
    obtain ⟨a, b, rfl, ha, hl, hne, hv, h1, h2, h3⟩ := parseSdpLine_ok h
    obtain ⟨c, hc, hlt⟩ := byteLen_one.1 ⟨by omega, hne⟩
    obtain ⟨d, hd⟩ := low hlt
    refine ⟨d, b, ⟨a, c, rfl, ha, stripped_iff.2 hc.symm, hd, hlt⟩, ?_, ?_, h2, h3⟩
    · rw [hc, hd] at hv
      by_cases hb : trim b = []
      · right
        by_cases hs : d = 's'
        · exact hs
        · exact absurd ⟨hb, by simpa using hs⟩ hv
      · exact .inl hb
    · rw [hc, hd] at h1; exact h1
  · rintro ⟨d, b, ⟨a, c, rfl, ha, hc, hd, hlt⟩, hv, h1, h2, h3⟩
    have hc := (stripped_iff.1 hc).symm
    have hb := byteLen_one.2 ⟨c, hc, hlt⟩
    unfold parseSdpLine
    simp only []
    rw [if_neg (by simp), splitn_two_append ha]
    simp only []
    rw [if_neg hb.1, if_neg (by simpa using hb.2)]
    rw [if_neg, hc, hd, h1]
    · obtain ⟨ln, ty, tx⟩ := x; simp only at h2 h3; subst h2; rw [← h3]
    · rw [hc, hd]
      rintro ⟨h4, h5⟩
      rcases hv with hv | rfl
      · exact hv (by simpa using h4)
      · exact h5 rfl

/-- What the values of the letters are parsed to. -/
theorem lineValue_ok {d : Char} {v raw : Str} {x : SdpType} (h : parseLineValue [d] v raw = .ok x) :
    (d = 'a' ∧ parseAttribute v = .ok x) ∨ (d = 'b' ∧ parseBandwidth v = .ok x) ∨
    (d = 'c' ∧ parseConnection v = .ok x) ∨ (d = 'm' ∧ parseMedia v = .ok x) ∨
    (d = 'o' ∧ parseOrigin v = .ok x) ∨ (d = 's' ∧ x = .session raw) ∨
    (d = 't' ∧ parseTiming v = .ok x) ∨ (d = 'v' ∧ parseVersion v = .ok x) := by
  unfold parseLineValue at h
  have step {p : Prop} [Decidable p] {α : Type} {x y : IRes α} {v : α} {q : Prop} (h : (if p then x else y) = .ok v)
      (h1 : p → x = .ok v → q) (h2 : y = .ok v → q) : q := by
    rcases ite_cases h with ⟨hp, h⟩ | ⟨-, h⟩
    · exact h1 hp h
    · exact h2 h
  have one {c : Char} (h : [d] = [c]) : d = c := by simpa using h
  refine step h (fun h e => by simp [one h, e]) fun h => ?_
  refine step h (fun h e => by simp [one h, e]) fun h => ?_
  refine step h (fun h e => by simp [one h, e]) fun h => ?_
  refine step h (fun _ h => by simp at h) fun h => ?_
  refine step h (fun _ h => by simp at h) fun h => ?_
  refine step h (fun _ h => by simp at h) fun h => ?_
  refine step h (fun h e => by simp [one h, e]) fun h => ?_
  refine step h (fun h e => by simp [one h, e]) fun h => ?_
  refine step h (fun _ h => by simp at h) fun h => ?_
  refine step h (fun _ h => by simp at h) fun h => ?_
  refine step h (fun h' e => by simp [parseSessionName] at e; simp [one h', ← e]) fun h => ?_
  refine step h (fun h e => by simp [one h, e]) fun h => ?_
  refine step h (fun _ h => by simp at h) fun h => ?_
  refine step h (fun h e => by simp [one h, e]) fun h => ?_
  refine step h (fun _ h => by simp at h) fun h => ?_
  simp at h

/-- **C70.** Only these letters are accepted, whatever follows, and the line is kept as it is. -/
theorem C70_letters {l : Str} {n : Nat} {x : SdpLine} (h : parseSdpLine l n = .ok x) :
    ∃ letter raw, LineForm l letter raw ∧ letter ∈ ['a', 'b', 'c', 'm', 'o', 's', 't', 'v'] ∧
      x.lineNumber = n ∧ x.text = l := by
  obtain ⟨d, b, h1, -, h2, h3, h4⟩ := line_iff.1 h
  refine ⟨d, b, h1, ?_, h3, h4⟩
  rcases lineValue_ok h2 with ⟨rfl, -⟩ | ⟨rfl, -⟩ | ⟨rfl, -⟩ | ⟨rfl, -⟩ | ⟨rfl, -⟩ | ⟨rfl, -⟩ | ⟨rfl, -⟩ | ⟨rfl, -⟩ <;> decide

/-- The kind of value a letter stands for. -/
def kindOf : SdpType → Char
  | .attr _ => 'a'
  | .bandwidth _ => 'b'
  | .connection _ => 'c'
  | .media _ => 'm'
  | .origin _ => 'o'
  | .session _ => 's'
  | .timing _ => 't'
  | .version _ => 'v'

theorem attribute_kind {v : Str} {x : SdpType} (h : parseAttribute v = .ok x) : ∃ a, x = .attr a := by
  simp only [parseAttribute, bind_eq_ok, pure_eq_ok, Outcome.ok.injEq] at h
  obtain ⟨a, -, rfl⟩ := h; exact ⟨a, rfl⟩

theorem bandwidth_iff {v : Str} {b : Bandwidth} : parseBandwidth v = .ok (.bandwidth b) ↔ BandwidthText v b := by
  unfold parseBandwidth BandwidthText
  simp only [fields_iff]
  constructor
  · intro h0
    rcases ite_cases h0 with ⟨-, h⟩ | ⟨hl, h⟩ <;> clear h0
    · simp at h
    rcases hv : splitC ':' v with _ | ⟨t, _ | ⟨k, _ | ⟨c, r⟩⟩⟩ <;> rw [hv] at hl h <;> simp at hl
    simp only [idx, List.getElem?_cons_zero, List.getElem?_cons_succ, ok_bind, bind_eq_ok, parseU32_ok] at h
    obtain ⟨n, hn, h0⟩ := h
    refine ⟨t, k, rfl, ?_⟩
    rcases ite_cases h0 with ⟨e1, h⟩ | ⟨e1, h⟩ <;> clear h0
    · cases h; exact ⟨e1, hn⟩
    rcases ite_cases h with ⟨e2, h0⟩ | ⟨e2, h0⟩ <;> clear h
    · cases h0; exact ⟨e2, hn⟩
    rcases ite_cases h0 with ⟨e3, h⟩ | ⟨e3, h⟩ <;> clear h0
    · cases h; exact ⟨e3, hn⟩
    · cases h; exact ⟨rfl, by simp only [List.mem_cons, List.not_mem_nil, or_false, not_or]; exact ⟨e1, e2, e3⟩, hn⟩
  · rintro ⟨t, k, hv, h⟩
    rw [hv, if_neg (by simp)]
    simp only [idx, List.getElem?_cons_zero, List.getElem?_cons_succ, ok_bind, bind_eq_ok, parseU32_ok]
    cases b with
    | as n => exact ⟨n, h.2, by rw [if_pos h.1]; rfl⟩
    | ct n => exact ⟨n, h.2, by rw [if_neg (by rw [h.1]; decide), if_pos h.1]; rfl⟩
    | tias n => exact ⟨n, h.2, by rw [if_neg (by rw [h.1]; decide), if_neg (by rw [h.1]; decide), if_pos h.1]; rfl⟩
    | unknown u n =>
      obtain ⟨rfl, h1, h2⟩ := h
      simp only [List.mem_cons, List.not_mem_nil, or_false, not_or] at h1
      exact ⟨n, h2, by rw [if_neg h1.1, if_neg h1.2.1, if_neg h1.2.2]; rfl⟩

theorem bandwidth_kind {v : Str} {x : SdpType} (h : parseBandwidth v = .ok x) : ∃ b, x = .bandwidth b := by
  unfold parseBandwidth at h
  rcases ite_cases h with ⟨-, h⟩ | ⟨hl, h⟩
  · simp at h
  simp only [bind_eq_ok] at h
  obtain ⟨_, _, n, _, t, _, h⟩ := h
  rcases ite_cases h with ⟨-, h⟩ | ⟨-, h⟩
  · cases h; exact ⟨_, rfl⟩
  rcases ite_cases h with ⟨-, h⟩ | ⟨-, h⟩
  · cases h; exact ⟨_, rfl⟩
  rcases ite_cases h with ⟨-, h⟩ | ⟨-, h⟩
  · cases h; exact ⟨_, rfl⟩
  · cases h; exact ⟨_, rfl⟩

theorem addressType_iff {t : Str} {ty : AddressType} :
    parseAddressType t = .ok ty ↔ upper (upper t) = addrTypeText ty := by
  rw [← parseAddrType_iff]
  unfold parseAddressType
  cases parseAddrType (upper t) <;> simp [Outcome.mapErr]

theorem connAddr_iff {t a : Str} {ttl : Option UInt8} {m : Option UInt32} :
    parseConnAddr t = .ok (a, ttl, m) ↔
      (Fields '/' t [t] ∧ a = t ∧ ttl = none ∧ m = none) ∨
      (∃ y n, Fields '/' t [a, y] ∧ ttl = some n ∧ DecText y n.toNat ∧ m = none) ∨
      (∃ y z more n k, Fields '/' t (a :: y :: z :: more) ∧ ttl = some n ∧ DecText y n.toNat ∧
        m = some k ∧ DecText z k.toNat) := by
  unfold parseConnAddr
  by_cases h : '/' ∈ t
  · rw [if_pos h]
    have h2 := splitC_two_le h
    simp only [fields_iff]
    rcases hv : splitC '/' t with _ | ⟨x, _ | ⟨y, _ | ⟨z, more⟩⟩⟩ <;> rw [hv] at h2
    · simp at h2
    · simp at h2
    · simp [idx, bind_eq_ok, parseU8_ok]
      constructor
      · rintro ⟨n, hn, rfl, rfl, rfl⟩; exact ⟨rfl, n, rfl, hn, rfl⟩
      · rintro ⟨rfl, n, rfl, hn, rfl⟩; exact ⟨n, hn, rfl, rfl, rfl⟩
    · simp [idx, bind_eq_ok, parseU8_ok, parseU32_ok]
      constructor
      · rintro ⟨k, hk, n, hn, rfl, rfl, rfl⟩; exact ⟨rfl, n, rfl, hn, k, rfl, hk⟩
      · rintro ⟨rfl, n, rfl, hn, k, rfl, hk⟩; exact ⟨k, hk, n, hn, rfl, rfl, rfl⟩
  · rw [if_neg h]
    simp [fields_iff, splitC_of_not_mem h, eq_comm]

theorem connection_iff {v : Str} {c : Connection} : parseConnection v = .ok (.connection c) ↔ ConnectionText v c := by
  unfold parseConnection ConnectionText
  simp only [words_iff]
  obtain ⟨addr, ttl, m⟩ := c
  have key {ty : AddressType} {t : Str} : (∃ a, parseConnAddr t = .ok (a, ttl, m) ∧ TypedText ty a addr) ↔
      ((Fields '/' t [t] ∧ TypedText ty t addr ∧ ttl = none ∧ m = none) ∨
       (∃ x y n, Fields '/' t [x, y] ∧ TypedText ty x addr ∧ ttl = some n ∧ DecText y n.toNat ∧ m = none) ∨
       (∃ x y z more n k, Fields '/' t (x :: y :: z :: more) ∧ TypedText ty x addr ∧ ttl = some n ∧
        DecText y n.toNat ∧ m = some k ∧ DecText z k.toNat)) := by
    simp only [connAddr_iff]
    constructor
    · rintro ⟨a, ⟨h1, rfl, h2, h3⟩ | ⟨y, n, h1, h2, h3, h4⟩ | ⟨y, z, more, n, k, h1, h2, h3, h4, h5⟩, h⟩
      · exact .inl ⟨h1, h, h2, h3⟩
      · exact .inr (.inl ⟨a, y, n, h1, h, h2, h3, h4⟩)
      · exact .inr (.inr ⟨a, y, z, more, n, k, h1, h, h2, h3, h4, h5⟩)
    · rintro (⟨h1, h, h2, h3⟩ | ⟨x, y, n, h1, h, h2, h3, h4⟩ | ⟨x, y, z, more, n, k, h1, h, h2, h3, h4, h5⟩)
      · exact ⟨t, .inl ⟨h1, rfl, h2, h3⟩, h⟩
      · exact ⟨x, .inr (.inl ⟨y, n, h1, h2, h3, h4⟩), h⟩
      · exact ⟨x, .inr (.inr ⟨y, z, more, n, k, h1, h2, h3, h4, h5⟩), h⟩
  simp only [← key]
  constructor
  · intro h0
    rcases ite_cases h0 with ⟨-, h⟩ | ⟨hl, h⟩ <;> clear h0
    · simp at h
    rcases hv : splitWs v with _ | ⟨x, _ | ⟨y, _ | ⟨z, _ | ⟨w, r⟩⟩⟩⟩ <;> rw [hv] at hl h <;> simp at hl
    simp only [idx, List.getElem?_cons_zero, List.getElem?_cons_succ, ok_bind, bind_eq_ok, parseNetworkType_iff,
      addressType_iff, typedTryFrom_iff] at h
    obtain ⟨_, h1, ty, h2, ⟨a, ttl', m'⟩, h3, addr', h4, h5⟩ := h
    simp at h5; obtain ⟨rfl, rfl, rfl⟩ := h5
    exact ⟨x, y, z, ty, rfl, h1, h2, a, h3, h4⟩
  · rintro ⟨x, y, z, ty, hv, h1, h2, a, h3, h4⟩
    rw [hv, if_neg (by simp)]
    simp only [idx, List.getElem?_cons_zero, List.getElem?_cons_succ, ok_bind, bind_eq_ok, parseNetworkType_iff,
      addressType_iff, typedTryFrom_iff]
    exact ⟨(), h1, ty, h2, (a, ttl, m), h3, addr, h4, rfl⟩

theorem connection_kind {v : Str} {x : SdpType} (h : parseConnection v = .ok x) : ∃ b, x = .connection b := by
  unfold parseConnection at h
  rcases ite_cases h with ⟨-, h⟩ | ⟨hl, h⟩
  · simp at h
  simp only [bind_eq_ok] at h
  obtain ⟨_, _, _, _, _, _, _, _, _, _, ⟨_, _, _⟩, _, _, _, h⟩ := h
  cases h; exact ⟨_, rfl⟩

theorem TypedText.type {t : AddressType} {s : Str} {a : TypedAddress} (h : TypedText t s a) : a.addressType = t := by
  cases a with
  | ip a => rw [← h.2]; cases a <;> rfl
  | fqdn u d => exact h.2

theorem origin_iff {v : Str} {o : Origin} : parseOrigin v = .ok (.origin o) ↔ OriginText v o := by
  unfold parseOrigin OriginText
  simp only [words_iff]
  obtain ⟨user, sid, sver, addr⟩ := o
  constructor
  · intro h
    rcases hv : splitWs v with _ | ⟨t0, _ | ⟨t1, _ | ⟨t2, _ | ⟨t3, _ | ⟨t4, _ | ⟨t5, rest⟩⟩⟩⟩⟩⟩ <;> rw [hv] at h <;>
      simp only [bind_eq_ok, parseU64_ok, parseNetworkType_iff, addressType_iff, typedTryFrom_iff, egeneric_eq_ok,
        and_false, exists_false] at h
    obtain ⟨i, h1, n, h2, _, h3, ty, h4, a, h5, h6⟩ := h
    rcases ite_cases h6 with ⟨-, h⟩ | ⟨-, h⟩ <;> clear h6
    · simp at h
    · simp at h; obtain ⟨rfl, rfl, rfl, rfl⟩ := h
      exact ⟨t1, t2, t3, t4, t5, rest, ty, rfl, h1, h2, h3, h4, h5⟩
  · rintro ⟨t1, t2, t3, t4, t5, rest, ty, hv, h1, h2, h3, h4, h5⟩
    rw [hv]
    simp only [bind_eq_ok, parseU64_ok, parseNetworkType_iff, addressType_iff, typedTryFrom_iff]
    refine ⟨sid, h1, sver, h2, (), h3, ty, h4, addr, h5, ?_⟩
    rw [if_neg (by simpa using h5.type.symm)]
    rfl

theorem origin_kind {v : Str} {x : SdpType} (h : parseOrigin v = .ok x) : ∃ b, x = .origin b := by
  unfold parseOrigin at h
  rcases hv : splitWs v with _ | ⟨t0, _ | ⟨t1, _ | ⟨t2, _ | ⟨t3, _ | ⟨t4, _ | ⟨t5, rest⟩⟩⟩⟩⟩⟩ <;> rw [hv] at h <;>
    simp only [bind_eq_ok, egeneric_eq_ok, and_false, exists_false] at h
  obtain ⟨_, _, _, _, _, _, _, _, _, _, h⟩ := h
  rcases ite_cases h with ⟨-, h⟩ | ⟨-, h⟩
  · simp at h
  · cases h; exact ⟨_, rfl⟩

theorem timing_iff {v : Str} {t : Timing} : parseTiming v = .ok (.timing t) ↔ TimingText v t := by
  unfold parseTiming TimingText
  simp only [words_iff]
  obtain ⟨a, b⟩ := t
  constructor
  · intro h0
    rcases ite_cases h0 with ⟨-, h⟩ | ⟨hl, h⟩ <;> clear h0
    · simp at h
    rcases hv : splitWs v with _ | ⟨x, _ | ⟨y, _ | ⟨z, r⟩⟩⟩ <;> rw [hv] at hl h <;> simp at hl
    simp only [idx, List.getElem?_cons_zero, List.getElem?_cons_succ, ok_bind, bind_eq_ok, parseU64_ok] at h
    obtain ⟨m, h1, n, h2, h3⟩ := h
    simp at h3; obtain ⟨rfl, rfl⟩ := h3
    exact ⟨x, y, rfl, h1, h2⟩
  · rintro ⟨x, y, hv, h1, h2⟩
    rw [hv, if_neg (by simp)]
    simp only [idx, List.getElem?_cons_zero, List.getElem?_cons_succ, ok_bind, bind_eq_ok, parseU64_ok]
    exact ⟨a, h1, b, h2, rfl⟩

theorem timing_kind {v : Str} {x : SdpType} (h : parseTiming v = .ok x) : ∃ b, x = .timing b := by
  unfold parseTiming at h
  rcases ite_cases h with ⟨-, h⟩ | ⟨hl, h⟩
  · simp at h
  simp only [bind_eq_ok] at h
  obtain ⟨_, _, _, _, _, _, _, _, h⟩ := h
  cases h; exact ⟨_, rfl⟩

theorem version_iff {v : Str} {n : UInt64} : parseVersion v = .ok (.version n) ↔ DecText v 0 ∧ n = 0 := by
  unfold parseVersion
  simp only [bind_eq_ok, parseU64_ok]
  constructor
  · rintro ⟨m, h1, h⟩
    rcases ite_cases h with ⟨-, h⟩ | ⟨hm, h⟩
    · simp at h
    · simp at hm h; subst hm; subst h; exact ⟨h1, rfl⟩
  · rintro ⟨h, rfl⟩
    exact ⟨0, h, rfl⟩

theorem version_kind {v : Str} {x : SdpType} (h : parseVersion v = .ok x) : ∃ n, x = .version n := by
  unfold parseVersion at h
  simp only [bind_eq_ok] at h
  obtain ⟨m, h1, h⟩ := h
  rcases ite_cases h with ⟨-, h⟩ | ⟨hm, h⟩
  · simp at h
  · cases h; exact ⟨_, rfl⟩

theorem mediaToken_iff {v : Str} {x : MediaValue} : parseMediaToken v = .ok x ↔ lower v = mediaText x := by
  constructor
  · intro h
    unfold parseMediaToken at h
    simp only [] at h
    iterate 3
      rcases ite_cases h with ⟨e, h⟩ | ⟨-, h⟩
      · cases h; exact e
    simp at h
  · intro h; cases x <;> simp [parseMediaToken, h, mediaText]

theorem protocolToken_iff {v : Str} {x : ProtocolValue} : parseProtocolToken v = .ok x ↔ upper v = protocolText x := by
  constructor
  · intro h
    unfold parseProtocolToken at h
    simp only [] at h
    iterate 11
      rcases ite_cases h with ⟨e, h⟩ | ⟨-, h⟩
      · cases h; exact e
    simp at h
  · intro h; cases x <;> simp [parseProtocolToken, h, protocolText]

omit [Env] in
theorem fmtNum_iff {t : Str} {n : UInt32} : parseFmtNum t = .ok n ↔ DecText t n.toNat ∧ FormatNumber n.toNat := by
  have key (n : UInt32) : fmtNumReserved n = true ↔ ¬ FormatNumber n.toNat := by
    unfold fmtNumReserved FormatNumber
    simp only [Bool.or_eq_true, beq_iff_eq, Bool.and_eq_true, decide_eq_true_eq, ← UInt32.toNat_inj, UInt32.le_iff_toNat_le]
    simp
    omega
  unfold parseFmtNum
  simp only [bind_eq_ok, parseU32_ok]
  constructor
  · rintro ⟨m, h1, h⟩
    rcases ite_cases h with ⟨-, h⟩ | ⟨hm, h⟩
    · simp at h
    · simp at h; subst h
      rw [key] at hm; exact ⟨h1, Classical.not_not.1 hm⟩
  · rintro ⟨h1, h2⟩
    refine ⟨n, h1, ?_⟩
    rw [if_neg (by rw [key]; exact fun h => h h2)]
    rfl

omit [Env] in
theorem formats_iff {m : MediaValue} {fs : List Str} {l : FormatList} : parseFormats m fs = .ok l ↔ FormatsText m fs l := by
  cases m <;> cases l <;>
    simp [parseFormats, FormatsText, bind_eq_ok, collect_each fun _ _ _ => fmtNum_iff]
  exact eq_comm

theorem media_iff {v : Str} {m : MediaLine} : parseMedia v = .ok (.media m) ↔ MediaText v m := by
  unfold parseMedia MediaText
  simp only [words_iff, fields_iff]
  obtain ⟨media, port, count, proto, formats⟩ := m
  constructor
  · intro h0
    rcases ite_cases h0 with ⟨-, h⟩ | ⟨hl, h⟩ <;> clear h0
    · simp at h
    rcases hv : splitWs v with _ | ⟨x, _ | ⟨y, _ | ⟨z, fs⟩⟩⟩ <;> rw [hv] at hl h
    · simp at hl
    · simp at hl
    · simp at hl
    have hne : fs ≠ [] := by rintro rfl; simp at hl
    simp only [idx, List.getElem?_cons_zero, List.getElem?_cons_succ, ok_bind, bind_eq_ok, mediaToken_iff] at h
    obtain ⟨m, hm, h0⟩ := h
    refine ⟨x, y, z, fs, rfl, hne, ?_⟩
    rcases hp : splitC '/' y with _ | ⟨p, ps⟩ <;> rw [hp] at h0
    · simp at h0
    simp only [bind_eq_ok, parseU32_ok] at h0
    obtain ⟨pt, hpt, h⟩ := h0
    rcases ite_cases h with ⟨-, h0⟩ | ⟨hle, h0⟩ <;> clear h
    · simp at h0
    simp only [bind_eq_ok, protocolToken_iff, formats_iff, sliceFrom_eq_ok] at h0
    obtain ⟨c, hc, q, hq, _, ⟨-, rfl⟩, f, hf, h⟩ := h0
    simp at h; obtain ⟨rfl, rfl, rfl, rfl, rfl⟩ := h
    rw [gt_iff_lt, UInt32.lt_iff_toNat_lt] at hle
    refine ⟨hm, hq, by simpa using hle, ?_, hf⟩
    rcases ps with _ | ⟨b, more⟩
    · have e := (fields_iff.2 hp).2.2
      simp [joinS] at e; subst e
      simp [parsePortCount] at hc
      exact .inl ⟨rfl, hpt, hc.symm⟩
    · exact .inr ⟨p, b, more, rfl, hpt, parseU32_ok.1 hc⟩
  · rintro ⟨x, y, z, fs, hv, hne, hm, hq, hle, hp, hf⟩
    have : ∃ p ps, splitC '/' y = p :: ps ∧ DecText p port.toNat ∧ parsePortCount ps = .ok count := by
      rcases hp with ⟨h1, h2, h3⟩ | ⟨a, b, more, h1, h2, h3⟩
      · simp only at h3; subst h3; exact ⟨y, [], h1, h2, rfl⟩
      · exact ⟨a, b :: more, h1, h2, parseU32_ok.2 h3⟩
    obtain ⟨p, ps, h1, h2, h3⟩ := this
    have hlen : ¬ (x :: y :: z :: fs).length < 4 := by
      cases fs with
      | nil => exact absurd rfl hne
      | cons f fs => simp
    rw [hv, if_neg hlen]
    simp only [idx, List.getElem?_cons_zero, List.getElem?_cons_succ, ok_bind, bind_eq_ok, mediaToken_iff]
    refine ⟨media, hm, ?_⟩
    rw [h1]
    simp only [bind_eq_ok, parseU32_ok]
    refine ⟨port, h2, ?_⟩
    rw [if_neg (by rw [gt_iff_lt, UInt32.lt_iff_toNat_lt]; simpa using hle)]
    simp only [bind_eq_ok, protocolToken_iff, formats_iff, sliceFrom_eq_ok]
    exact ⟨count, h3, proto, hq, fs, ⟨by simp, rfl⟩, formats, hf, rfl⟩

theorem media_kind {v : Str} {x : SdpType} (h : parseMedia v = .ok x) : ∃ m, x = .media m := by
  unfold parseMedia at h
  rcases ite_cases h with ⟨-, h⟩ | ⟨hl, h⟩
  · simp at h
  simp only [bind_eq_ok] at h
  obtain ⟨_, _, _, _, y, _, h⟩ := h
  rcases hp : splitC '/' y with _ | ⟨p, ps⟩ <;> rw [hp] at h
  · simp at h
  simp only [bind_eq_ok] at h
  obtain ⟨_, _, h⟩ := h
  rcases ite_cases h with ⟨-, h⟩ | ⟨-, h⟩
  · simp at h
  simp only [bind_eq_ok] at h
  obtain ⟨_, _, _, _, _, _, _, _, _, _, h⟩ := h
  cases h; exact ⟨_, rfl⟩

theorem lineValue_kind {d : Char} {v raw : Str} {x : SdpType} (h : parseLineValue [d] v raw = .ok x) : d = kindOf x := by
  rcases lineValue_ok h with ⟨rfl, h⟩ | ⟨rfl, h⟩ | ⟨rfl, h⟩ | ⟨rfl, h⟩ | ⟨rfl, h⟩ | ⟨rfl, h'⟩ | ⟨rfl, h⟩ | ⟨rfl, h⟩
  · obtain ⟨a, rfl⟩ := attribute_kind h; rfl
  · obtain ⟨a, rfl⟩ := bandwidth_kind h; rfl
  · obtain ⟨a, rfl⟩ := connection_kind h; rfl
  · obtain ⟨a, rfl⟩ := media_kind h; rfl
  · obtain ⟨a, rfl⟩ := origin_kind h; rfl
  · subst h'; rfl
  · obtain ⟨a, rfl⟩ := timing_kind h; rfl
  · obtain ⟨a, rfl⟩ := version_kind h; rfl

/-- A line whose value is `x`, in terms of the parser for values of that kind. -/
theorem line_value {l : Str} {n : Nat} {x : SdpType} {P : Str → Prop} (hs : kindOf x ≠ 's')
    (hx : ∀ v raw, parseLineValue [kindOf x] v raw = .ok x ↔ P v) :
    parseSdpLine l n = .ok ⟨n, x, l⟩ ↔ ∃ raw v, LineForm l (kindOf x) raw ∧ Stripped raw v ∧ v ≠ [] ∧ P v := by
  rw [line_iff]
  constructor
  · rintro ⟨d, raw, h1, h2, h3, -, -⟩
    obtain rfl := lineValue_kind h3
    exact ⟨raw, trim raw, h1, stripped_iff.2 rfl, h2.resolve_right hs, (hx _ _).1 h3⟩
  · rintro ⟨raw, v, h1, h2, h3, h4⟩
    rw [stripped_iff] at h2; subst h2
    exact ⟨_, raw, h1, .inl h3, (hx _ _).2 h4, rfl, rfl⟩

/-! ## C68 -/

omit [Env] in
theorem words_ne_nil {v t : Str} {ts : List Str} (h : Words v (t :: ts)) : v ≠ [] := by
  rintro rfl
  rw [words_iff] at h
  exact absurd h (by rw [show splitWs [] = [] from rfl]; simp)

/-- **C68.** The version line says zero. -/
theorem C68_version {l : Str} {n : Nat} {x : UInt64} : parseSdpLine l n = .ok ⟨n, .version x, l⟩ ↔
    ∃ raw v, LineForm l 'v' raw ∧ Stripped raw v ∧ DecText v 0 ∧ x = 0 := by
  rw [line_value (x := .version x) (P := fun v => DecText v 0 ∧ x = 0) (by simp [kindOf] : kindOf (.version x) ≠ 's') fun v raw => version_iff]
  refine exists_congr fun raw => exists_congr fun v => and_congr_right fun _ => and_congr_right fun _ =>
    and_iff_right_of_imp ?_
  rintro ⟨⟨ds, h1, h2, -⟩, -⟩ rfl
  rcases h1 with rfl | h1
  · exact h2 rfl
  · simp at h1

/-- **C68.** The origin line. -/
theorem C68_origin {l : Str} {n : Nat} {o : Origin} : parseSdpLine l n = .ok ⟨n, .origin o, l⟩ ↔
    ∃ raw v, LineForm l 'o' raw ∧ Stripped raw v ∧ OriginText v o := by
  rw [line_value (x := .origin o) (P := fun v => OriginText v o) (by simp [kindOf] : kindOf (.origin o) ≠ 's') fun v raw => origin_iff]
  refine exists_congr fun raw => exists_congr fun v => and_congr_right fun _ => and_congr_right fun _ =>
    and_iff_right_of_imp ?_
  rintro ⟨_, _, _, _, _, _, _, h, -⟩; exact words_ne_nil h

/-- **C68.** The session name is everything after the equals sign, with all white space. -/
theorem C68_session_name {l : Str} {n : Nat} {s : Str} : parseSdpLine l n = .ok ⟨n, .session s, l⟩ ↔
    LineForm l 's' s := by
  rw [line_iff]
  constructor
  · rintro ⟨d, raw, h1, -, h3, -, -⟩
    obtain rfl := lineValue_kind h3
    have : parseLineValue [kindOf (.session s)] (trim raw) raw = .ok (.session raw) := rfl
    simp only at h3
    rw [this] at h3
    cases h3; exact h1
  · intro h
    exact ⟨'s', s, h, .inr rfl, rfl, rfl, rfl⟩

/-- **C68.** A connection line. -/
theorem C68_connection {l : Str} {n : Nat} {c : Connection} : parseSdpLine l n = .ok ⟨n, .connection c, l⟩ ↔
    ∃ raw v, LineForm l 'c' raw ∧ Stripped raw v ∧ ConnectionText v c := by
  rw [line_value (x := .connection c) (P := fun v => ConnectionText v c) (by simp [kindOf] : kindOf (.connection c) ≠ 's') fun v raw => connection_iff]
  refine exists_congr fun raw => exists_congr fun v => and_congr_right fun _ => and_congr_right fun _ =>
    and_iff_right_of_imp ?_
  rintro ⟨_, _, _, _, h, -⟩; exact words_ne_nil h

/-- **C68.** A bandwidth line. -/
theorem C68_bandwidth {l : Str} {n : Nat} {b : Bandwidth} : parseSdpLine l n = .ok ⟨n, .bandwidth b, l⟩ ↔
    ∃ raw v, LineForm l 'b' raw ∧ Stripped raw v ∧ BandwidthText v b := by
  rw [line_value (x := .bandwidth b) (P := fun v => BandwidthText v b) (by simp [kindOf] : kindOf (.bandwidth b) ≠ 's') fun v raw => bandwidth_iff]
  refine exists_congr fun raw => exists_congr fun v => and_congr_right fun _ => and_congr_right fun _ =>
    and_iff_right_of_imp ?_
  rintro ⟨t, k, h, -⟩ rfl
  rw [fields_iff] at h
  exact absurd h (by rw [show splitC ':' [] = [[]] from rfl]; simp)

/-- **C68.** A timing line. -/
theorem C68_timing {l : Str} {n : Nat} {t : Timing} : parseSdpLine l n = .ok ⟨n, .timing t, l⟩ ↔
    ∃ raw v, LineForm l 't' raw ∧ Stripped raw v ∧ TimingText v t := by
  rw [line_value (x := .timing t) (P := fun v => TimingText v t) (by simp [kindOf] : kindOf (.timing t) ≠ 's') fun v raw => timing_iff]
  refine exists_congr fun raw => exists_congr fun v => and_congr_right fun _ => and_congr_right fun _ =>
    and_iff_right_of_imp ?_
  rintro ⟨_, _, h, -⟩; exact words_ne_nil h

/-! ## C69 -/

/-- **C69.** A line is read as an m= line with these fields exactly if it is a media text with these fields. -/
theorem C69_media {l : Str} {n : Nat} {m : MediaLine} : parseSdpLine l n = .ok ⟨n, .media m, l⟩ ↔
    ∃ raw v, LineForm l 'm' raw ∧ Stripped raw v ∧ MediaText v m := by
  rw [line_value (x := .media m) (P := fun v => MediaText v m) (by simp [kindOf] : kindOf (.media m) ≠ 's') fun v raw => media_iff]
  refine exists_congr fun raw => exists_congr fun v => and_congr_right fun _ => and_congr_right fun _ =>
    and_iff_right_of_imp ?_
  rintro ⟨_, _, _, _, h, -⟩; exact words_ne_nil h

/-! ## C70 -/

/-- **C70.** An attribute line: its value, without white space around it, is the text of the
attribute. -/
theorem C70_attribute {l : Str} {n : Nat} {a : Attribute} : parseSdpLine l n = .ok ⟨n, .attr a, l⟩ ↔
    ∃ raw v, LineForm l 'a' raw ∧ Stripped raw v ∧ v ≠ [] ∧ attrFromStr v = .ok a := by
  rw [line_iff]
  constructor
  · rintro ⟨d, raw, h1, h2, h3, -, -⟩
    obtain rfl := lineValue_kind h3
    have : parseLineValue [kindOf (.attr a)] (trim raw) raw = parseAttribute (trim raw) := rfl
    simp only at h3
    rw [this] at h3
    simp only [parseAttribute, bind_eq_ok, pure_eq_ok, Outcome.ok.injEq, SdpType.attr.injEq, exists_eq_right] at h3
    rw [trim_trim] at h3
    exact ⟨raw, trim raw, h1, stripped_iff.2 rfl, h2.resolve_right (by simp [kindOf]), h3⟩
  · rintro ⟨raw, v, h1, h2, h3, h4⟩
    rw [stripped_iff] at h2; subst h2
    refine ⟨_, raw, h1, .inl h3, ?_, rfl, rfl⟩
    have : parseLineValue ['a'] (trim raw) raw = parseAttribute (trim raw) := rfl
    rw [this]
    simp only [parseAttribute, bind_eq_ok]
    rw [trim_trim]
    exact ⟨a, h4, rfl⟩

/-! ## C71 -/

omit [Env] in
/-- **C71.** IP addresses: dotted quads, and groups of up to four hexadecimal digits with at most one
gap and possibly a dotted quad at the end. -/
theorem C71_ip {s : Str} {ip : IpAddr} : ipFromStr s = some ip ↔ IpText s ip := ipFromStr_iff

/-- **C71.** Addresses: IP addresses, and otherwise what the host parser says. -/
theorem C71_address {s : Str} {a : Address} : parseAddress s = .ok a ↔ AddressText s a := parseAddress_iff

/-- **C71.** Addresses with a declared type. -/
theorem C71_typed {t : AddressType} {s : Str} {a : TypedAddress} :
    typedTryFrom t s = .ok a ↔ TypedText t s a := typedTryFrom_iff

end

/-! ## Concrete cases -/

section
attribute [local instance] sampleEnv

example : ∃ raw v, LineForm c%" V = +00 " 'v' raw ∧ Stripped raw v ∧ DecText v 0 ∧ (0 : UInt64) = 0 :=
  C68_version.1 (by decide +kernel : parseSdpLine c%" V = +00 " 3 = .ok ⟨3, .version 0, c%" V = +00 "⟩)
example : ∃ raw v, LineForm c%"o=- 1 2 IN ip4 1.2.3.4 more" 'o' raw ∧ Stripped raw v ∧ OriginText v ⟨c%"-", 1, 2, .ip (.v4 0x01020304)⟩ :=
  C68_origin.1 (by decide +kernel : parseSdpLine c%"o=- 1 2 IN ip4 1.2.3.4 more" 3 = .ok ⟨3, .origin ⟨c%"-", 1, 2, .ip (.v4 0x01020304)⟩, c%"o=- 1 2 IN ip4 1.2.3.4 more"⟩)
example : LineForm c%"s=  a=b " 's' c%"  a=b " :=
  C68_session_name.1 (by decide +kernel : parseSdpLine c%"s=  a=b " 3 = .ok ⟨3, .session c%"  a=b ", c%"s=  a=b "⟩)
example : ∃ raw v, LineForm c%"c=in IP4 1.2.3.4/127/3" 'c' raw ∧ Stripped raw v ∧ ConnectionText v ⟨.ip (.v4 0x01020304), some 127, some 3⟩ :=
  C68_connection.1 (by decide +kernel : parseSdpLine c%"c=in IP4 1.2.3.4/127/3" 3 = .ok ⟨3, .connection ⟨.ip (.v4 0x01020304), some 127, some 3⟩, c%"c=in IP4 1.2.3.4/127/3"⟩)
example : ∃ raw v, LineForm c%"b=tias:64000" 'b' raw ∧ Stripped raw v ∧ BandwidthText v (.tias 64000) :=
  C68_bandwidth.1 (by decide +kernel : parseSdpLine c%"b=tias:64000" 3 = .ok ⟨3, .bandwidth (.tias 64000), c%"b=tias:64000"⟩)
example : ∃ raw v, LineForm c%"t=0  7" 't' raw ∧ Stripped raw v ∧ TimingText v ⟨0, 7⟩ :=
  C68_timing.1 (by decide +kernel : parseSdpLine c%"t=0  7" 3 = .ok ⟨3, .timing ⟨0, 7⟩, c%"t=0  7"⟩)
example : ∃ raw v, LineForm c%"m=AUDIO 9/2 udp/tls/RTP/SAVPF 109 0" 'm' raw ∧ Stripped raw v ∧ MediaText v ⟨.audio, 9, 2, .udpTlsRtpSavpf, .integers [109, 0]⟩ :=
  C69_media.1 (by decide +kernel : parseSdpLine c%"m=AUDIO 9/2 udp/tls/RTP/SAVPF 109 0" 3 = .ok ⟨3, .media ⟨.audio, 9, 2, .udpTlsRtpSavpf, .integers [109, 0]⟩, c%"m=AUDIO 9/2 udp/tls/RTP/SAVPF 109 0"⟩)
example : ∃ raw v, LineForm c%"a= mid:x " 'a' raw ∧ Stripped raw v ∧ v ≠ [] ∧ attrFromStr v = .ok (.mid c%"x") :=
  C70_attribute.1 (by decide +kernel : parseSdpLine c%"a= mid:x " 3 = .ok ⟨3, .attr (.mid c%"x"), c%"a= mid:x "⟩)
example : ∃ letter raw, LineForm c%" V = +00 " letter raw ∧ letter ∈ ['a', 'b', 'c', 'm', 'o', 's', 't', 'v'] ∧
    (⟨3, .version 0, c%" V = +00 "⟩ : SdpLine).lineNumber = 3 ∧ (⟨3, .version 0, c%" V = +00 "⟩ : SdpLine).text = c%" V = +00 " :=
  C70_letters (by decide +kernel)
example : IpText c%"1:2::3:10.0.0.1" (.v6 0x0001000200000000000000030a000001) := C71_ip.1 (by decide +kernel)
example : ∀ ip, ¬ IpText c%"1.2.3.04" ip := fun ip h => absurd (C71_ip.2 h) (by rw [show ipFromStr c%"1.2.3.04" = none by decide +kernel]; simp)
example : AddressText c%"a.example" (.fqdn c%"a.example") := C71_address.1 (by decide +kernel)
example : TypedText .ipV6 c%"a.example" (.fqdn .ipV6 c%"a.example") := C71_typed.1 (by decide +kernel)
example : ¬ TypedText .ipV6 c%"1.2.3.4" (.ip (.v4 0x01020304)) := fun h => absurd (C71_typed.2 h) (by decide +kernel)

end

end Sdp
