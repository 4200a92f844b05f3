import Verif.Spec.Fault
import Verif.Props.Document
import Verif.Props.Num
import Verif.Props.Float
import Verif.Lemmas.NumError
/-!
# Which error a parser gives: the machinery
-/

namespace Sdp

theorem firstFault_nil (e : InternalError) : FirstFault [] e ↔ False := by
  simp [FirstFault]

theorem firstFault_cons {c : Fault} {cs : List Fault} {e : InternalError} :
    FirstFault (c :: cs) e ↔ c e ∨ (∀ e', ¬ c e') ∧ FirstFault cs e := by
  constructor
  · rintro ⟨pre, d, post, h, hn, hd⟩
    cases pre with
    | nil => simp only [List.nil_append, List.cons.injEq] at h; exact .inl (h.1 ▸ hd)
    | cons a pre =>
      simp only [List.cons_append, List.cons.injEq] at h
      exact .inr ⟨h.1 ▸ hn a (by simp), pre, d, post, h.2, fun x hx => hn x (by simp [hx]), hd⟩
  · rintro (h | ⟨h, pre, d, post, rfl, hn, hd⟩)
    · exact ⟨[], c, cs, rfl, by simp, h⟩
    · refine ⟨c :: pre, d, post, rfl, ?_, hd⟩
      intro x hx
      rcases List.mem_cons.1 hx with rfl | hx
      · exact h
      · exact hn x hx

theorem firstFault_append {cs ds : List Fault} {e : InternalError} :
    FirstFault (cs ++ ds) e ↔ FirstFault cs e ∨ (∀ e', ¬ FirstFault cs e') ∧ FirstFault ds e := by
  induction cs generalizing e with
  | nil => simp [firstFault_nil]
  | cons c cs ih =>
    simp only [List.cons_append, firstFault_cons, ih]
    constructor
    · rintro (h | ⟨h, h' | ⟨h1, h2⟩⟩)
      · exact .inl (.inl h)
      · exact .inl (.inr ⟨h, h'⟩)
      · exact .inr ⟨fun e' he => he.elim (h e') fun x => h1 e' x.2, h2⟩
    · rintro ((h | ⟨h, h'⟩) | ⟨h1, h2⟩)
      · exact .inl h
      · exact .inr ⟨h, .inl h'⟩
      · exact .inr ⟨fun e' he => h1 e' (.inl he), .inr ⟨fun e' he => h1 e' (.inr ⟨fun e'' h'' => h1 e'' (.inl h''), he⟩), h2⟩⟩

theorem firstFault_single {c : Fault} {e : InternalError} : FirstFault [c] e ↔ c e := by
  simp [firstFault_cons, firstFault_nil]

/-- The parser does not panic, and its errors are those of the first fault. -/
def Judges {α : Type} (x : IRes α) (cs : List Fault) : Prop := x ≠ .panic ∧ ∀ e, x = .err e ↔ FirstFault cs e

namespace Judges

variable {α β : Type} {x y : IRes α} {f : α → IRes β} {cs ds : List Fault} {c : Fault}

theorem ok (a : α) : Judges (.ok a : IRes α) [] := ⟨by simp, fun e => by simp [firstFault_nil]⟩

theorem bind (hx : Judges x cs) (hf : ∀ a, x = .ok a → Judges (f a) ds) : Judges (x >>= f) (cs ++ ds) := by
  cases x with
  | ok a =>
    have hn : ∀ e', ¬ FirstFault cs e' := fun e' he => by have := (hx.2 e').2 he; cases this
    refine ⟨(hf a rfl).1, fun e => ?_⟩
    rw [firstFault_append, ok_bind, (hf a rfl).2 e]
    exact ⟨fun h => .inr ⟨hn, h⟩, fun h => h.elim (fun h => absurd h (hn e)) fun h => h.2⟩
  | err e0 =>
    have h0 := (hx.2 e0).1 rfl
    refine ⟨by simp, fun e => ?_⟩
    rw [err_bind, firstFault_append, ← hx.2 e]
    simp only [Outcome.err.injEq]
    exact ⟨.inl, fun h => h.elim id fun h => absurd h0 (h.1 e0)⟩
  | panic => exact absurd rfl hx.1

theorem bind1 (hx : Judges x [c]) (hf : ∀ a, x = .ok a → Judges (f a) ds) : Judges (x >>= f) (c :: ds) := bind hx hf

theorem andThen {f : α → β} (hx : Judges x cs) : Judges (x >>= fun a => .ok (f a)) cs := by
  have := bind (ds := []) hx fun a _ => ok (f a)
  rwa [List.append_nil] at this

theorem single (hp : x ≠ .panic) (h : ∀ e, x = .err e ↔ c e) : Judges x [c] :=
  ⟨hp, fun e => by rw [firstFault_single, h]⟩

theorem of_single (h : Judges x [c]) : x ≠ .panic ∧ ∀ e, x = .err e ↔ c e :=
  ⟨h.1, fun e => by rw [h.2, firstFault_single]⟩

theorem skip (h : ∀ e, ¬ c e) (hx : Judges x cs) : Judges x (c :: cs) :=
  ⟨hx.1, fun e => by rw [firstFault_cons, hx.2]; simp [h]⟩

theorem stop {e : InternalError} (h : ∀ e', c e' ↔ e' = e) : Judges (.err e : IRes α) (c :: cs) :=
  ⟨by simp, fun e' => by rw [firstFault_cons]; simp [h, eq_comm]⟩

theorem check {p q : Prop} [Decidable p] {m : Str} (hq : q ↔ p) (h : ¬ p → Judges x cs) :
    Judges (if p then egeneric m else x) (wrongIf q m :: cs) := by
  split
  · rename_i hp
    exact stop fun e' => by simp [wrongIf, hq.2 hp]
  · rename_i hp
    exact skip (fun e he => hp (hq.1 he.1)) (h hp)

/-- The test the other way round. -/
theorem check' {p q : Prop} [Decidable p] {m : Str} (hq : q ↔ ¬ p) (h : p → Judges x cs) :
    Judges (if p then x else egeneric m) (wrongIf q m :: cs) := by
  split
  · rename_i hp
    exact skip (fun e he => hq.1 he.1 hp) (h hp)
  · rename_i hp
    exact stop fun e' => by simp [wrongIf, hq.2 hp]

theorem checku {p q : Prop} [Decidable p] {m : Str} (hq : q ↔ p) (h : ¬ p → Judges x cs) :
    Judges (if p then eunsupported m else x) (unsupportedIf q m :: cs) := by
  split
  · rename_i hp
    exact stop fun e' => by simp [unsupportedIf, hq.2 hp]
  · rename_i hp
    exact skip (fun e he => hp (hq.1 he.1)) (h hp)

theorem congr (h : Judges x [c]) {d : Fault} (hd : ∀ e, c e ↔ d e) : Judges x [d] :=
  single h.of_single.1 fun e => by rw [h.of_single.2, hd]

theorem whole (h : Judges x cs) (hc : ∀ e, c e ↔ FirstFault cs e) : Judges x [c] :=
  single h.1 fun e => by rw [h.2, hc]

theorem collect {f : α → IRes β} {g : α → List Fault} {l : List α} (h : ∀ t ∈ l, Judges (f t) (g t)) :
    Judges (Sdp.collect f l) (l.flatMap g) := by
  induction l with
  | nil => exact ok _
  | cons a l ih =>
    rw [List.flatMap_cons]
    refine bind (h a (by simp)) fun b _ => ?_
    exact andThen (ih fun t ht => h t (by simp [ht]))

theorem collect1 {f : α → IRes β} {g : α → Fault} {l : List α} (h : ∀ t ∈ l, Judges (f t) [g t]) :
    Judges (Sdp.collect f l) (l.map g) := by
  have := collect h
  rwa [← List.map_eq_flatMap] at this

end Judges

/-! ## Numbers -/

theorem judges_u8 (s : Str) : Judges (parseU8 s) [notNumber 8 s] :=
  .single (np_parseU8 s) fun e => by rw [(C23_errors s e).1]; simp [notNumber, and_comm]
theorem judges_u16 (s : Str) : Judges (parseU16 s) [notNumber 16 s] :=
  .single (np_parseU16 s) fun e => by rw [(C23_errors s e).2.1]; simp [notNumber, and_comm]
theorem judges_u32 (s : Str) : Judges (parseU32 s) [notNumber 32 s] :=
  .single (np_parseU32 s) fun e => by rw [(C23_errors s e).2.2.1]; simp [notNumber, and_comm]
theorem judges_u64 (s : Str) : Judges (parseU64 s) [notNumber 64 s] :=
  .single (np_parseU64 s) fun e => by rw [(C23_errors s e).2.2.2]; simp [notNumber, and_comm]

theorem big_u8 {s : Str} {x : UInt8} (h : parseU8 s = .ok x) (k : Nat) : (∃ n, DecText s n ∧ k < n) ↔ k < x.toNat := by
  rw [parseU8_ok] at h
  exact ⟨fun ⟨n, hn, hk⟩ => by rwa [h.unique hn], fun hk => ⟨_, h, hk⟩⟩
theorem big_u32 {s : Str} {x : UInt32} (h : parseU32 s = .ok x) (k : Nat) : (∃ n, DecText s n ∧ k < n) ↔ k < x.toNat := by
  rw [parseU32_ok] at h
  exact ⟨fun ⟨n, hn, hk⟩ => by rwa [h.unique hn], fun hk => ⟨_, h, hk⟩⟩
theorem big_u64 {s : Str} {x : UInt64} (h : parseU64 s = .ok x) (k : Nat) : (∃ n, DecText s n ∧ k < n) ↔ k < x.toNat := by
  rw [parseU64_ok] at h
  exact ⟨fun ⟨n, hn, hk⟩ => by rwa [h.unique hn], fun hk => ⟨_, h, hk⟩⟩

theorem hexLoop_error {lim acc : Nat} (hacc : acc < lim) (s : Str) :
    digitLoop 16 lim acc s =
      if lim ≤ (s.takeWhile fun c => decide (IsHexDigit c)).foldl (fun acc c => acc * 16 + hexDigitValue c) acc then .error .posOverflow
      else if (s.takeWhile fun c => decide (IsHexDigit c)) = s then .ok (s.foldl (fun acc c => acc * 16 + hexDigitValue c) acc)
      else .error .invalidDigit := by
  have mono (t : Str) (a : Nat) : a ≤ t.foldl (fun acc c => acc * 16 + hexDigitValue c) a := by
    induction t generalizing a with
    | nil => exact Nat.le_refl _
    | cons c t ih => exact Nat.le_trans (by show a ≤ a * 16 + _; omega) (ih _)
  induction s generalizing acc with
  | nil => simp [digitLoop, hacc]
  | cons c cs ih =>
    simp only [digitLoop, toDigit_sixteen]
    by_cases hd : IsHexDigit c
    · simp only [hd, if_true, decide_true, List.takeWhile_cons, List.foldl_cons, List.cons.injEq, true_and]
      by_cases h1 : acc * 16 + hexDigitValue c < lim
      · rw [if_pos (by omega), if_pos h1, ih h1]
      · have h2 := mono (cs.takeWhile fun c => decide (IsHexDigit c)) (acc * 16 + hexDigitValue c)
        rw [if_neg h1, ite_self, if_pos (by omega)]
    · simp [hd, hacc]

theorem parseRadix_hexError {lim : Nat} (hlim : 0 < lim) (s : Str) (e : IntErr) :
    parseRadix 16 lim s = .error e ↔ hexError lim s = some e := by
  have key (t : Str) (ht : t ≠ []) : digitLoop 16 lim 0 t = .error e ↔
      (if lim ≤ hexValue (t.takeWhile fun c => decide (IsHexDigit c)) then some IntErr.posOverflow
       else if (t.takeWhile fun c => decide (IsHexDigit c)) = [] ∨ (t.takeWhile fun c => decide (IsHexDigit c)) ≠ t then some .invalidDigit
       else none) = some e := by
    rw [hexLoop_error hlim]
    unfold hexValue
    split
    · simp
    · by_cases h : (t.takeWhile fun c => decide (IsHexDigit c)) = t
      · rw [if_pos h, if_neg (by simp only [h]; simp [ht])]; simp
      · rw [if_neg h, if_pos (.inr h)]; simp
  have hz : ¬ lim = 0 := by omega
  unfold hexError leadingHex
  by_cases h0 : s = []
  · subst h0; simp [parseRadix]
  by_cases hp : ∃ ds, s = '+' :: ds
  · obtain ⟨ds, rfl⟩ := hp
    have hu : unsigned ('+' :: ds) = ds := rfl
    rw [hu, if_neg h0]
    by_cases hd : ds = []
    · subst hd; simp [parseRadix, hexValue, hz]
    · have h1 : parseRadix 16 lim ('+' :: ds) = digitLoop 16 lim 0 ds := by
        unfold parseRadix; split
        · rename_i h; cases h
        · rename_i h; cases h; exact absurd rfl hd
        · rename_i h; cases h; rfl
        · rename_i h; exact absurd rfl (h ds)
      rw [h1]; exact key ds hd
  · have hu : unsigned s = s := by
      unfold unsigned; split
      · exact absurd ⟨_, rfl⟩ hp
      · rfl
    have h1 : parseRadix 16 lim s = digitLoop 16 lim 0 s := by
      unfold parseRadix; split
      · exact absurd rfl h0
      · exact absurd ⟨_, rfl⟩ hp
      · exact absurd ⟨_, rfl⟩ hp
      · rfl
    rw [hu, h1, if_neg h0]
    exact key s h0

theorem judges_hexU8 (s : Str) : Judges (parseHexU8 s) [notHex 8 s] :=
  .single (np_parseHexU8 s) fun e => by
    unfold parseHexU8 notHex
    simp only [← parseRadix_hexError (show 0 < 2^8 by decide)]
    cases parseRadix 16 (2^8) s <;> simp [eq_comm]
theorem judges_hexU32 (s : Str) : Judges (parseHexU32 s) [notHex 32 s] :=
  .single (np_parseHexU32 s) fun e => by
    unfold parseHexU32 notHex
    simp only [← parseRadix_hexError (show 0 < 2^32 by decide)]
    cases parseRadix 16 (2^32) s <;> simp [eq_comm]

theorem judges_f32 (s : Str) : Judges (parseF32 s) [notF32 s] :=
  .single (by unfold parseF32; cases F32.ofText s <;> simp) fun e => by rw [(C82_rejects s e).1]; simp [notF32]
theorem judges_f64 (s : Str) : Judges (parseF64 s) [notF64 s] :=
  .single (by unfold parseF64; cases F64.ofText s <;> simp) fun e => by rw [(C82_rejects s e).2]; simp [notF64]

/-! ## Small pieces -/

theorem judges_direction (s : Str) : Judges (parseSingleDirection s) [noDirection s] := by
  unfold parseSingleDirection
  split
  · rename_i h; exact .skip (fun e he => he.1 .send h) (.ok _)
  · split
    · rename_i h; exact .skip (fun e he => he.1 .recv h) (.ok _)
    · rename_i h1 h2
      refine .stop fun e' => ?_
      have : ∀ d, s ≠ singleDirectionText d := by intro d; cases d <;> assumption
      simp [noDirection, wrongIf, this]

theorem direction_ok {s : Str} {d : SingleDirection} : parseSingleDirection s = .ok d ↔ s = singleDirectionText d := by
  unfold parseSingleDirection
  split
  · rename_i h; subst h; cases d <;> simp [singleDirectionText]
  · split
    · rename_i h; subst h; cases d <;> simp [singleDirectionText]
    · cases d <;> simp_all [singleDirectionText]

theorem judges_payloadType (s : Str) : Judges (parsePayloadType s) [noPayloadType s] := by
  unfold parsePayloadType
  split
  · rename_i h; exact .skip (fun e he => he.1 h) (.ok _)
  · rename_i h
    exact (Judges.andThen (judges_u8 s)).congr fun e => by simp [noPayloadType, h]

section
variable [Env]

theorem judges_address (s : Str) : Judges (parseAddress s) [noAddress s] := by
  refine .single (np_parseAddress s) fun e => ?_
  unfold noAddress
  by_cases hip : ∃ ip, IpText s ip
  · obtain ⟨ip, hip⟩ := hip
    rw [parseAddress_iff.2 (.inl ⟨ip, hip, rfl⟩)]
    simp only [reduceCtorEq, false_iff]
    exact fun h => h.1 ip hip
  · have hno : ∀ jp, ¬ IpText s jp := fun jp h => hip ⟨jp, h⟩
    have hn : ipFromStr s = none := by
      rcases h : ipFromStr s with _ | x
      · rfl
      · exact absurd (ipFromStr_iff.1 h) (hno x)
    have hv : parseV4Strict s = none := by
      rcases h : parseV4Strict s with _ | x
      · rfl
      · exact absurd (parseV4Strict_iff.1 h) (hno (.v4 x))
    have hh : hostParse s = Env.hostNA s := by unfold hostParse; rw [hv]
    unfold parseAddress
    rw [hn, hh]
    by_cases hc : ':' ∈ s <;> cases Env.hostNA s <;> simp [hc, hno, eq_comm]

omit [Env] in
theorem addrTypeText_inj {t u : AddressType} (h : addrTypeText t = addrTypeText u) : t = u := by
  cases t <;> cases u <;> simp_all [addrTypeText]

theorem judges_typed (t : AddressType) (u s : Str) (h : u = addrTypeText t) :
    Judges (typedTryFrom t s) [noAddress s, wrongFamily u s] := by
  unfold typedTryFrom
  refine .bind1 (judges_address s) fun a ha => ?_
  rw [parseAddress_iff] at ha
  cases a with
  | ip ip =>
    have hf : ipAddressType ip = ipFamily ip := by cases ip <;> rfl
    simp only [hf]
    split
    · rename_i hne
      refine .stop fun e => ?_
      subst h
      constructor
      · rintro ⟨jp, ty, hj, ht, -, rfl⟩
        rw [← parseAddress_iff] at ha hj
        rw [ha] at hj
        cases hj
        rw [addrTypeText_inj ht]
      · rintro rfl
        exact ⟨ip, t, ha, rfl, hne, rfl⟩
    · rename_i he
      refine .skip ?_ (.ok _)
      rintro e ⟨jp, ty, hj, ht, hne, -⟩
      subst h
      rw [← parseAddress_iff] at ha hj
      rw [ha] at hj
      cases hj
      exact he (addrTypeText_inj ht ▸ hne)
  | fqdn d =>
    refine .skip ?_ (.ok _)
    rintro e ⟨jp, ty, hj, -⟩
    rw [← parseAddress_iff] at ha hj
    rw [ha] at hj
    cases hj

theorem judges_network (s : Str) : Judges (parseNetworkType s) [noNetwork s] := by
  unfold parseNetworkType
  exact .check Iff.rfl fun _ => .ok _

theorem judges_addressType (s : Str) : Judges (parseAddressType s) [noAddressType s] := by
  unfold parseAddressType parseAddrType
  by_cases h4 : upper (upper s) = c%"IP4"
  · simp only [h4, if_true, Outcome.mapErr]
    exact .skip (fun e he => he.1 .ipV4 h4) (.ok _)
  · by_cases h6 : upper (upper s) = c%"IP6"
    · simp only [h6, if_true, Outcome.mapErr]
      exact .skip (fun e he => he.1 .ipV6 h6) (.ok _)
    · simp only [h4, h6, if_false, Outcome.mapErr]
      refine .stop fun e => ?_
      have : ∀ t, upper (upper s) ≠ addrTypeText t := by intro t; cases t <;> assumption
      simp [noAddressType, wrongIf, this]

theorem addrType_ok {s : Str} {t : AddressType} (h : parseAddrType s = .ok t) : upper s = addrTypeText t := by
  unfold parseAddrType at h
  simp only [] at h
  split at h
  · cases h; assumption
  · split at h
    · cases h; assumption
    · cases h

theorem addressType_ok {s : Str} {t : AddressType} (h : parseAddressType s = .ok t) : upper (upper s) = addrTypeText t := by
  unfold parseAddressType at h
  cases h' : parseAddrType (upper s) with
  | ok u => rw [h'] at h; cases h; exact addrType_ok h'
  | err e => rw [h'] at h; cases h
  | panic => rw [h'] at h; cases h

theorem judges_addrType (s : Str) :
    Judges (parseAddrType s) [fun e => (∀ t, upper s ≠ addrTypeText t) ∧ e = .unknownAddressType s] := by
  unfold parseAddrType
  by_cases h4 : upper s = c%"IP4"
  · simp only [h4, if_true]
    exact .skip (fun e he => he.1 .ipV4 rfl) (.ok _)
  · by_cases h6 : upper s = c%"IP6"
    · simp only [h6, if_true]
      exact .skip (fun e he => he.1 .ipV6 rfl) (.ok _)
    · simp only [h4, h6, if_false]
      refine .stop fun e => ?_
      have : ∀ t, upper s ≠ addrTypeText t := by intro t; cases t <;> assumption
      simp [this]

end

end Sdp
