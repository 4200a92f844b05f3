import Verif.Lemmas.PrintAttr
import Verif.Spec.SessionWF
/-!
# The printed forms of lines are read back
-/

namespace Sdp

variable [Env]

/-- The letters of the lines a session prints. -/
def lineLetters : List Char := ['v', 'o', 's', 't', 'b', 'c', 'a', 'm']

omit [Env] in
theorem splitn_letter {x : Char} (h : x ≠ '=') (v : Str) : splitn 2 '=' (x :: '=' :: v) = [[x], v] :=
  splitn_two_append (a := [x]) (by simpa using h.symm)

/-- A line with one of these letters is read by the parser of its letter. -/
theorem parseSdpLine_letter {x : Char} (hx : x ∈ lineLetters) {v : Str} (hv : trim v ≠ [] ∨ x = 's') (n : Nat) :
    parseSdpLine (x :: '=' :: v) n =
      match parseLineValue [x] (trim v) v with
      | .ok t => .ok ⟨n, t, x :: '=' :: v⟩
      | .err e => .err (classifyErr (x :: '=' :: v) n e)
      | .panic => .panic := by
  have h : x ≠ '=' ∧ trim [x] = [x] ∧ byteLen [x] = 1 ∧ lower [x] = [x] := by
    simp only [lineLetters, List.mem_cons, List.not_mem_nil, or_false] at hx
    rcases hx with rfl | rfl | rfl | rfl | rfl | rfl | rfl | rfl <;> exact ⟨by decide, by decide, by decide, rfl⟩
  obtain ⟨h1, h2, h3, h4⟩ := h
  have hm : '=' ∈ x :: '=' :: v := by simp
  unfold parseSdpLine
  rw [splitn_letter h1]
  simp only [hm, not_true_eq_false, if_false, h2, h3, h4]
  have hc : ¬ ((trim v).isEmpty = true ∧ [x] ≠ c%"s") := by
    rintro ⟨ha, hb⟩
    rcases hv with hv | hv
    · exact hv (by simpa using ha)
    · exact hb (by rw [hv])
  rw [if_neg (by decide), if_neg (by simp), if_neg hc]
  rfl

/-- The value denotes `t` after the letter `x`. -/
def LinePrints (x : Char) (v : Str) (t : SdpType) : Prop := Trimmed v ∧ parseLineValue [x] v v = .ok t

theorem LinePrints.line {x : Char} {v : Str} {t : SdpType} (h : LinePrints x v t) (hx : x ∈ lineLetters) (n : Nat) :
    parseSdpLine (x :: '=' :: v) n = .ok ⟨n, t, x :: '=' :: v⟩ := by
  rw [parseSdpLine_letter hx (.inl (by rw [h.1.trim]; exact h.1.1.ne)), h.1.trim, h.2]

theorem LinePrints.attr {a : Attribute} (h : a.WF) : LinePrints 'a' (showAttribute a) (.attr a) := by
  obtain ⟨h1, h2⟩ := attr_round h
  refine ⟨h1, ?_⟩
  show parseAttribute _ = _
  simp [parseAttribute, h1.trim, h2]

theorem LinePrints.version {n : UInt64} (h : n = 0) : LinePrints 'v' (showU64 n) (.version n) := by
  subst h
  exact ⟨(Token.u64 _).trimmed, rfl⟩

theorem LinePrints.timing (t : Timing) : LinePrints 't' (showTiming t) (.timing t) := by
  unfold showTiming
  refine ⟨⟨(Token.u64 _).begins.append.append, (Token.u64 _).ends.append⟩, ?_⟩
  show parseTiming _ = _
  unfold parseTiming
  simp only [List.append_assoc, List.cons_append, List.nil_append]
  rw [splitWs_space (Token.u64 _).noWs (Token.u64 _).ne, splitWs_single (Token.u64 _).noWs (Token.u64 _).ne]
  simp [idx, parseU64_show]

theorem Token.addressType (t : AddressType) : Token (showAddressType t) := by
  cases t <;> exact ⟨by decide, by decide⟩

theorem Token.IN : Token c%"IN" := ⟨by decide, by decide⟩

theorem LinePrints.origin {o : Origin} (h : o.WF) : LinePrints 'o' (showOrigin o) (.origin o) := by
  obtain ⟨hu, ha⟩ := h
  obtain ⟨u, i, v, a⟩ := o
  dsimp only at hu ha
  have e : showOrigin ⟨u, i, v, a⟩ = u ++ ' ' :: (showU64 i ++ ' ' :: (showU64 v ++ ' ' :: (c%"IN" ++ ' ' ::
      (showAddressType a.addressType ++ ' ' :: typedHost a)))) := by
    simp [showOrigin, showTyped_eq]
  rw [e]
  refine ⟨⟨hu.begins.append, .append <| .cons <| .append <| .cons <| .append <| .cons <| .append <| .cons <|
    .append <| .cons ha.token.ends⟩, ?_⟩
  show parseOrigin _ = _
  unfold parseOrigin
  rw [splitWs_space hu.noWs hu.ne, splitWs_space (Token.u64 _).noWs (Token.u64 _).ne,
    splitWs_space (Token.u64 _).noWs (Token.u64 _).ne, splitWs_space Token.IN.noWs Token.IN.ne,
    splitWs_space (Token.addressType _).noWs (Token.addressType _).ne, splitWs_single ha.token.noWs ha.token.ne]
  have h1 : parseNetworkType c%"IN" = .ok () := rfl
  have h2 : parseAddressType (showAddressType a.addressType) = .ok a.addressType := by
    cases a.addressType <;> rfl
  simp [parseU64_show, h1, h2, ha.parse]

theorem LinePrints.bandwidth {b : Bandwidth} (h : b.WF) : LinePrints 'b' (showBandwidth b) (.bandwidth b) := by
  have key : ∀ (t : Str) (n : UInt32), ':' ∉ t → (t = [] ∨ BeginsClean t) →
      Trimmed (t ++ c%":" ++ showU32 n) ∧ parseBandwidth (t ++ c%":" ++ showU32 n) =
        (if upper t = c%"AS" then return .bandwidth (.as n)
         else if upper t = c%"CT" then return .bandwidth (.ct n)
         else if upper t = c%"TIAS" then return .bandwidth (.tias n)
         else return .bandwidth (.unknown t n)) := by
    intro t n h1 h2
    refine ⟨⟨?_, (Token.u32 _).ends.append⟩, ?_⟩
    · rcases h2 with rfl | h2
      · exact ⟨':', _, rfl, by decide⟩
      · exact h2.append.append
    · unfold parseBandwidth
      have e : t ++ c%":" ++ showU32 n = t ++ ':' :: showU32 n := by simp
      have hn : ':' ∉ showU32 n := fun hm => by
        have := showNat_digits hm; revert this; decide
      rw [e, splitC_append h1, splitC_of_not_mem hn]
      simp [idx, parseU32_show]
  cases b with
  | as n => exact (key c%"AS" n (by decide) (.inr ⟨_, _, rfl, by decide⟩)).imp id fun h => h.trans rfl
  | ct n => exact (key c%"CT" n (by decide) (.inr ⟨_, _, rfl, by decide⟩)).imp id fun h => h.trans rfl
  | tias n => exact (key c%"TIAS" n (by decide) (.inr ⟨_, _, rfl, by decide⟩)).imp id fun h => h.trans rfl
  | unknown t n =>
    obtain ⟨h1, h2, h3⟩ := h
    simp only [List.mem_cons, List.not_mem_nil, or_false, not_or] at h3
    obtain ⟨k1, k2⟩ := key t n h1 h2
    refine ⟨k1, k2.trans ?_⟩
    rw [if_neg h3.1, if_neg h3.2.1, if_neg h3.2.2]; rfl

theorem LinePrints.connection {c : Connection} (h : c.WF) :
    LinePrints 'c' (showConnection c) (.connection c) := by
  obtain ⟨ha, hm⟩ := h
  obtain ⟨a, ttl, am⟩ := c
  dsimp only at ha hm
  have hs : '/' ∉ typedHost a := by
    cases a with
    | fqdn t d => exact ha.2.2.1
    | ip i =>
      intro hm
      have := showIp_chars hm; unfold IpChar IsHexDigit at this; revert this; decide
  have e : showConnection ⟨a, ttl, am⟩ = c%"IN" ++ ' ' :: (showAddressType a.addressType ++ ' ' ::
      (typedHost a ++ optStr c%"/" showU8 ttl ++ optStr c%"/" showU32 am)) := by
    simp [showConnection, showTyped_eq]
  have ht : Token (typedHost a ++ optStr c%"/" showU8 ttl ++ optStr c%"/" showU32 am) := by
    refine ⟨by have := ha.token.ne; simp [this], fun c hc => ?_⟩
    simp only [List.mem_append] at hc
    rcases hc with (hc | hc) | hc
    · exact ha.token.2 c hc
    · cases ttl with
      | none => cases hc
      | some t =>
        rcases List.mem_cons.1 hc with rfl | hc
        · decide
        · exact (Token.u8 t).2 c hc
    · cases am with
      | none => cases hc
      | some t =>
        rcases List.mem_cons.1 hc with rfl | hc
        · decide
        · exact (Token.u32 t).2 c hc
  have hp : parseConnAddr (typedHost a ++ optStr c%"/" showU8 ttl ++ optStr c%"/" showU32 am) =
      .ok (typedHost a, ttl, am) := by
    unfold parseConnAddr
    cases ttl with
    | none => rw [hm rfl]; simp [optStr, hs]
    | some t =>
      have hd : ∀ n : Nat, '/' ∉ showNat n := fun n hm => by
        have := showNat_digits hm; revert this; decide
      cases am with
      | none =>
        have e : typedHost a ++ optStr c%"/" showU8 (some t) ++ optStr c%"/" showU32 none =
            typedHost a ++ '/' :: showU8 t := by simp [optStr]
        rw [e, if_pos (by simp), splitC_append hs, splitC_of_not_mem (a := showU8 t) (hd _)]
        simp [idx, parseU8_show]
      | some m =>
        have e : typedHost a ++ optStr c%"/" showU8 (some t) ++ optStr c%"/" showU32 (some m) =
            typedHost a ++ '/' :: (showU8 t ++ '/' :: showU32 m) := by simp [optStr]
        rw [e, if_pos (by simp), splitC_append hs, splitC_append (a := showU8 t) (hd _), splitC_of_not_mem (a := showU32 m) (hd _)]
        simp [idx, parseU8_show, parseU32_show]
  rw [e]
  refine ⟨⟨Token.IN.begins.append, .append <| .cons <| .append <| .cons ht.ends⟩, ?_⟩
  show parseConnection _ = _
  unfold parseConnection
  rw [splitWs_space Token.IN.noWs Token.IN.ne, splitWs_space (Token.addressType _).noWs (Token.addressType _).ne,
    splitWs_single ht.noWs ht.ne]
  have h1 : parseNetworkType c%"IN" = .ok () := rfl
  have h2 : parseAddressType (showAddressType a.addressType) = .ok a.addressType := by
    cases a.addressType <;> rfl
  rw [List.append_assoc] at hp ⊢
  simp only [List.length_cons, List.length_nil, idx]
  simp [h1, h2, hp, ha.parse]

omit [Env] in
theorem fmtNumReserved_of {n : UInt32} (h : RtpFormat n.toNat) : fmtNumReserved n = false := by
  unfold RtpFormat at h
  simp only [fmtNumReserved, Bool.or_eq_false_iff, Bool.and_eq_false_iff, decide_eq_false_iff_not, beq_eq_false_iff_ne,
    UInt32.le_iff_toNat_le, ne_eq, ← UInt32.toNat_inj]
  simp
  omega

theorem LinePrints.media {m : MediaLine} (h : m.WF) : LinePrints 'm' (showMediaLine m) (.media m) := by
  obtain ⟨hp, hf⟩ := h
  obtain ⟨md, port, count, proto, fs⟩ := m
  dsimp only at hp hf
  have tM : Token (showMediaValue md) := by cases md <;> exact ⟨by decide, by decide⟩
  have tP : Token (showProtocol proto) := by cases proto <;> exact ⟨by decide, by decide⟩
  have pM : parseMediaToken (showMediaValue md) = .ok md := by cases md <;> rfl
  have pP : parseProtocolToken (showProtocol proto) = .ok proto := by cases proto <;> rfl
  obtain ⟨ts, hts, htn, htt, hfp⟩ : ∃ ts, showFormatList fs = joinS c%" " ts ∧ ts ≠ [] ∧ (∀ t ∈ ts, Token t) ∧
      parseFormats md ts = .ok fs := by
    have hint : ∀ l : List UInt32, l ≠ [] → (∀ n ∈ l, RtpFormat n.toNat) →
        ∃ ts, showFormatList (.integers l) = joinS c%" " ts ∧ ts ≠ [] ∧ (∀ t ∈ ts, Token t) ∧
          collect parseFmtNum ts = .ok l := by
      intro l hl hr
      refine ⟨l.map showU32, ?_, by simpa using hl, ?_, ?_⟩
      · unfold showFormatList maybeVec
        have hfl : (l.map showU32).filter (fun s => !s.isEmpty) = l.map showU32 := by
          rw [List.filter_eq_self]
          intro t ht
          obtain ⟨n, -, rfl⟩ := List.mem_map.1 ht
          have := (Token.u32 n).ne
          simpa using this
        cases l with
        | nil => exact absurd rfl hl
        | cons n l =>
          show [] ++ joinS c%" " (((n :: l).map showU32).filter (fun s => !s.isEmpty)) ++ [] = _
          rw [hfl]; simp
      · intro t ht
        obtain ⟨n, -, rfl⟩ := List.mem_map.1 ht
        exact Token.u32 n
      · clear hl
        induction l with
        | nil => rfl
        | cons n l ih =>
          have := ih fun x hx => hr x (by simp [hx])
          simp only [List.map_cons, collect]
          rw [this]
          simp [parseFmtNum, parseU32_show, fmtNumReserved_of (hr n (by simp))]
    cases md <;> cases fs <;> simp only [FormatsWF] at hf
    · obtain ⟨ts, h1, h2, h3, h4⟩ := hint _ hf.1 hf.2
      exact ⟨ts, h1, h2, h3, by simp [parseFormats, h4]⟩
    · obtain ⟨ts, h1, h2, h3, h4⟩ := hint _ hf.1 hf.2
      exact ⟨ts, h1, h2, h3, by simp [parseFormats, h4]⟩
    · exact ⟨_, rfl, hf.1, hf.2, rfl⟩
  have hd : ∀ n : Nat, '/' ∉ showNat n := fun n hm => by
    have := showNat_digits hm; revert this; decide
  obtain ⟨pt, hpt, tpt, ppt⟩ : ∃ pt, showU32 port ++ maybeParam c%"/" count 0 = pt ∧ Token pt ∧
      ∃ ps, splitC '/' pt = showU32 port :: ps ∧ parsePortCount ps = .ok count := by
    refine ⟨_, rfl, ?_⟩
    by_cases hc : count = 0
    · subst hc
      have e : showU32 port ++ maybeParam c%"/" 0 0 = showU32 port := by simp [maybeParam]
      rw [e]
      exact ⟨Token.u32 _, [], splitC_of_not_mem (a := showU32 port) (hd _), rfl⟩
    · have e : showU32 port ++ maybeParam c%"/" count 0 = showU32 port ++ '/' :: showU32 count := by
        simp [maybeParam, hc]; rfl
      rw [e]
      refine ⟨⟨by simp, fun c hc => ?_⟩, [showU32 count], ?_, ?_⟩
      · simp only [List.mem_append, List.mem_cons] at hc
        rcases hc with hc | rfl | hc
        · exact (Token.u32 _).2 c hc
        · decide
        · exact (Token.u32 _).2 c hc
      · rw [splitC_append (a := showU32 port) (hd _), splitC_of_not_mem (a := showU32 count) (hd _)]
      · simp [parsePortCount, parseU32_show]
  have e : showMediaLine ⟨md, port, count, proto, fs⟩ = showMediaValue md ++ ' ' :: (pt ++ ' ' :: (showProtocol proto ++
      ' ' :: joinS c%" " ts)) := by
    simp [showMediaLine, ← hpt, hts]
  rw [e]
  refine ⟨⟨tM.begins.append, .append <| .cons <| .append <| .cons <| .append <| .cons (tokens_trimmed htn htt).2⟩, ?_⟩
  show parseMedia _ = _
  unfold parseMedia
  rw [splitWs_space tM.noWs tM.ne, splitWs_space tpt.noWs tpt.ne, splitWs_space tP.noWs tP.ne, splitWs_tokens htt]
  obtain ⟨ps, hps, hpc⟩ := ppt
  have hlen : ¬ (showMediaValue md :: pt :: showProtocol proto :: ts).length < 4 := by
    cases ts with
    | nil => exact absurd rfl htn
    | cons t ts => simp
  have hport : ¬ port > 65535 := by rw [gt_iff_lt, UInt32.lt_iff_toNat_lt]; simp; omega
  simp only [hlen, if_false, idx, sliceFrom]
  simp [pM, hps, parseU32_show, hport, hpc, pP, hfp]

end Sdp
