import Verif.Lemmas.Grammar
/-!
# Which texts are IP addresses
-/

namespace Sdp

theorem readNumber_iff {radix m lim : Nat} {al : Bool} {s rest : Str} {n : Nat} :
    readNumber radix m al lim s = some (n, rest) ↔
      ∃ ds, s = ds ++ rest ∧ (∀ c ∈ ds, (toDigit radix c).isSome = true) ∧ Stops radix rest ∧ ds ≠ [] ∧
        ds.length ≤ m ∧ (al = true ∨ ds.head? ≠ some '0' ∨ ds.length ≤ 1) ∧ radixFold radix 0 ds = n ∧ n < lim := by
  constructor
  · intro h
    have hr := readNumber_some h
    have e : s = s.takeWhile (fun c => (toDigit radix c).isSome) ++ rest := by
      rw [hr]; exact (List.takeWhile_append_dropWhile).symm
    unfold readNumber at h
    simp only [] at h
    rcases ite_cases h with ⟨-, h⟩ | ⟨h1, h⟩
    · cases h
    rcases ite_cases h with ⟨-, h⟩ | ⟨h2, h⟩
    · cases h
    rcases ite_cases h with ⟨-, h⟩ | ⟨h3, h⟩
    · cases h
    rcases ite_cases h with ⟨h4, h⟩ | ⟨-, h⟩
    · refine ⟨_, e, fun c hc => mem_takeWhile_true (p := fun c => (toDigit radix c).isSome) hc, ?_, fun h0 => h2 (by rw [h0]; rfl), by omega, ?_, ?_⟩
      · intro c hc
        have := List.head?_dropWhile_not (fun c => (toDigit radix c).isSome) s
        rw [← hr, hc] at this
        simpa using this
      · rcases Classical.em (al = true) with ha | ha
        · exact .inl ha
        · right
          simp at ha
          simp [ha] at h3
          rcases Classical.em ((s.takeWhile (fun c => (toDigit radix c).isSome)).head? = some '0') with hh | hh
          · exact .inr (h3 hh)
          · exact .inl hh
      · simp at h; exact ⟨h.1, h.1 ▸ h4⟩
    · cases h
  · rintro ⟨ds, rfl, h1, h2, h3, h4, h5, rfl, h6⟩
    exact readNumber_append h1 h2 h3 h4 h5 h6

theorem decValue_snoc (xs : Str) (c : Char) : decValue (xs ++ [c]) = decValue xs * 10 + (c.toNat - 48) := by
  simp [decValue]

theorem decValue_pos {xs : Str} (h : xs ≠ []) (hd : ∀ c ∈ xs, c.isDigit = true) (h0 : xs.head? ≠ some '0') :
    0 < decValue xs := by
  induction xs using List.reverseRecOn with
  | nil => exact absurd rfl h
  | append_singleton xs c ih =>
    rw [decValue_snoc]
    by_cases hx : xs = []
    · subst hx
      have hc := isDigit_iff.1 (hd c (by simp))
      have : c ≠ '0' := by rintro rfl; simp at h0
      have : c.toNat ≠ 48 := fun e => this (Char.toNat_inj.1 (e.trans (by decide)))
      omega
    · have := ih hx (fun c hc => hd c (by simp [hc])) (by
        rw [List.head?_append_of_ne_nil _ hx] at h0; exact h0)
      omega

theorem digitChar_of {c : Char} (h : c.isDigit = true) : Nat.digitChar (c.toNat - 48) = c := by
  have hc := isDigit_iff.1 h
  have key : ∀ k : Fin 10, Nat.digitChar k.val = Char.ofNat (k.val + 48) := by decide
  have := key ⟨c.toNat - 48, by omega⟩
  simp only at this
  rw [this, show c.toNat - 48 + 48 = c.toNat by omega, Char.ofNat_toNat]

/-- Digits without a leading zero are what the number prints as. -/
theorem showNat_decValue {ds : Str} (h : ds ≠ []) (hd : ∀ c ∈ ds, c.isDigit = true)
    (h0 : ds.head? ≠ some '0' ∨ ds.length ≤ 1) : showNat (decValue ds) = ds := by
  induction ds using List.reverseRecOn with
  | nil => exact absurd rfl h
  | append_singleton xs c ih =>
    have hc := hd c (by simp)
    have hc' := isDigit_iff.1 hc
    rw [decValue_snoc]
    by_cases hx : xs = []
    · subst hx
      simp only [decValue, List.foldl_nil, Nat.zero_mul, Nat.zero_add, List.nil_append]
      unfold showNat
      rw [Nat.toDigits_of_lt_base (by omega), digitChar_of hc]
    · have h0' : xs.head? ≠ some '0' := by
        rcases h0 with h0 | h0
        · rwa [List.head?_append_of_ne_nil _ hx] at h0
        · have := List.length_pos_of_ne_nil hx
          have h1 : (xs ++ [c]).length = xs.length + 1 := by simp
          omega
      have hd' : ∀ c ∈ xs, c.isDigit = true := fun c hc => hd c (by simp [hc])
      have hp := decValue_pos hx hd' h0'
      have := Nat.toDigits_append_toDigits (b := 10) (n := decValue xs) (d := c.toNat - 48) (by decide) hp (by omega)
      unfold showNat at ih ⊢
      rw [Nat.mul_comm, ← this, ih hx hd' (.inl h0'), Nat.toDigits_of_lt_base (by omega), digitChar_of hc]

theorem readByte_iff {s rest : Str} {n : Nat} :
    readNumber 10 3 false 256 s = some (n, rest) ↔ s = showNat n ++ rest ∧ n < 256 ∧ Stops 10 rest := by
  constructor
  · intro h
    obtain ⟨ds, rfl, h1, h2, h3, h4, h5, h6, h7⟩ := readNumber_iff.1 h
    have hd : ∀ c ∈ ds, c.isDigit = true := fun c hc => toDigit_ten_isSome.1 (h1 c hc)
    rw [radixFold_ten hd] at h6
    refine ⟨?_, h7, h2⟩
    rw [← h6, showNat_decValue h3 hd (by simpa using h5)]
  · rintro ⟨rfl, h1, h2⟩; exact readNumber_byte h1 h2

theorem readV4_iff {s rest : Str} {a : UInt32} :
    readV4 s = some (a, rest) ↔ ∃ q, s = q ++ rest ∧ V4Text q a ∧ Stops 10 rest := by
  constructor
  · intro h
    have sep {i : Nat} (hi : i ≠ 0) {t : Str} {p : Nat × Str}
        (h : readSep '.' i (readNumber 10 3 false 256) t = some p) :
        ∃ u, t = '.' :: u ∧ readNumber 10 3 false 256 u = some p := by
      unfold readSep at h
      rw [if_neg hi] at h
      split at h
      · rename_i c cs
        split at h
        · rename_i hc; simp at hc; subst hc; exact ⟨cs, rfl, h⟩
        · cases h
      · cases h
    simp only [readV4, Option.bind_eq_bind, Option.bind_eq_some_iff] at h
    obtain ⟨⟨w, s1⟩, h1, ⟨x, s2⟩, h2, ⟨y, s3⟩, h3, ⟨z, s4⟩, h4, h⟩ := h
    replace h1 : readNumber 10 3 false 256 s = some (w, s1) := h1
    obtain ⟨u1, rfl, h2⟩ := sep (by decide) h2
    obtain ⟨u2, rfl, h3⟩ := sep (by decide) h3
    obtain ⟨u3, rfl, h4⟩ := sep (by decide) h4
    obtain ⟨rfl, b1, -⟩ := readByte_iff.1 h1
    obtain ⟨rfl, b2, -⟩ := readByte_iff.1 h2
    obtain ⟨rfl, b3, -⟩ := readByte_iff.1 h3
    obtain ⟨rfl, b4, b5⟩ := readByte_iff.1 h4
    simp at h
    obtain ⟨rfl, rfl⟩ := h
    refine ⟨joinS ['.'] [showNat w, showNat x, showNat y, showNat z], by simp [joinS],
      ⟨w, x, y, z, b1, b2, b3, b4, rfl, ?_⟩, b5⟩
    unfold ofOctets
    rw [UInt32.toNat_ofNat', Nat.mod_eq_of_lt (by omega)]
    omega
  · rintro ⟨q, rfl, ⟨w, x, y, z, b1, b2, b3, b4, rfl, ha⟩, hr⟩
    have e : joinS ['.'] [showNat w, showNat x, showNat y, showNat z] = showV4 a := by
      have i1 : a.toNat / 2^24 = w := by omega
      have i2 : a.toNat / 2^16 % 2^8 = x := by omega
      have i3 : a.toNat / 2^8 % 2^8 = y := by omega
      have i4 : a.toNat % 2^8 = z := by omega
      simp only [showV4, octets, i1, i2, i3, i4, List.map]
    rw [e]
    exact readV4_show a hr

theorem parseV4Strict_iff {s : Str} {a : UInt32} : parseV4Strict s = some a ↔ V4Text s a := by
  have := readV4_iff (s := s) (rest := []) (a := a)
  simp only [List.append_nil, Stops.nil, and_true, exists_eq_left'] at this
  rw [← this]
  unfold parseV4Strict
  rcases readV4 s with _ | ⟨b, _ | _⟩ <;> simp

theorem V4Text.chars {s : Str} {a : UInt32} (h : V4Text s a) : s ≠ [] ∧ ∀ c ∈ s, c.isDigit = true ∨ c = '.' := by
  obtain ⟨w, x, y, z, -, -, -, -, rfl, -⟩ := h
  have key : joinS ['.'] [showNat w, showNat x, showNat y, showNat z] =
    showNat w ++ '.' :: (showNat x ++ '.' :: (showNat y ++ '.' :: showNat z)) := by simp [joinS]
  rw [key]
  refine ⟨by simp, fun c h => ?_⟩
  simp only [List.mem_append, List.mem_cons] at h
  rcases h with h | rfl | h | rfl | h | rfl | h
  all_goals first | exact .inr rfl | exact .inl (showNat_digits h)

/-! ## Groups -/

theorem hexDigitValue_lt {c : Char} (h : IsHexDigit c) : hexDigitValue c < 16 := by
  have e1 : 'a'.toNat = 97 := rfl
  have e2 : 'f'.toNat = 102 := rfl
  have e3 : 'A'.toNat = 65 := rfl
  have e4 : 'F'.toNat = 70 := rfl
  have e5 : '0'.toNat = 48 := rfl
  unfold IsHexDigit at h
  rw [isDigit_iff, char_le_iff, char_le_iff, char_le_iff, char_le_iff] at h
  unfold hexDigitValue
  by_cases hd : c.isDigit = true
  · have := isDigit_iff.1 hd
    rw [if_pos hd]; omega
  · rw [if_neg hd]
    rw [isDigit_iff] at hd
    by_cases hf : 'a' ≤ c ∧ c ≤ 'f'
    · rw [if_pos hf]; rw [char_le_iff, char_le_iff] at hf; omega
    · rw [if_neg hf]; rw [char_le_iff, char_le_iff] at hf; omega

theorem hexValue_lt {ds : Str} (h : ∀ c ∈ ds, IsHexDigit c) : hexValue ds < 16 ^ ds.length := by
  induction ds using List.reverseRecOn with
  | nil => decide
  | append_singleton xs c ih =>
    have h1 := ih fun c hc => h c (by simp [hc])
    have h2 := hexDigitValue_lt (h c (by simp))
    rw [hexValue_append, List.length_append, Nat.pow_add]
    simp only [List.foldl_cons, List.foldl_nil, List.length_singleton, Nat.pow_one]
    omega

theorem HexGroup.lt {t : Str} {g : Nat} (h : HexGroup t g) : g < 65536 := by
  obtain ⟨-, h2, h3, rfl⟩ := h
  exact Nat.lt_of_lt_of_le (hexValue_lt h3) (Nat.pow_le_pow_right (n := 16) (by decide) h2)

theorem readGroup_iff {s rest : Str} {g : Nat} :
    readNumber 16 4 true 65536 s = some (g, rest) ↔ ∃ t, s = t ++ rest ∧ HexGroup t g ∧ Stops 16 rest := by
  rw [readNumber_iff]
  constructor
  · rintro ⟨ds, rfl, h1, h2, h3, h4, -, h6, -⟩
    have hd : ∀ c ∈ ds, IsHexDigit c := fun c hc => toDigit_sixteen_isSome.1 (h1 c hc)
    exact ⟨ds, rfl, ⟨h3, h4, hd, by rw [← h6, radixFold_sixteen hd]⟩, h2⟩
  · rintro ⟨t, rfl, h, h5⟩
    have hlt := h.lt
    obtain ⟨h1, h2, h3, h4⟩ := h
    refine ⟨t, rfl, fun c hc => toDigit_sixteen_isSome.2 (h3 c hc), h5, h1, h2, .inl rfl,
      by rw [radixFold_sixteen h3, h4], hlt⟩

/-- The texts, with a colon before each. -/
def colons (ts : List Str) : Str := ts.flatMap fun t => ':' :: t

theorem joinS_colons (t : Str) (ts : List Str) : joinS [':'] (t :: ts) = t ++ colons ts := by
  induction ts generalizing t with
  | nil => simp [joinS, colons]
  | cons x xs ih =>
    rw [joinS, ih x]; simp [colons]

/-- The texts, with colons between them, and one more in front when something stands before. -/
def chain (i : Nat) (ts : List Str) : Str := if i = 0 then joinS [':'] ts else colons ts

theorem chain_nil (i : Nat) : chain i [] = [] := by unfold chain; split <;> rfl

theorem chain_cons (i : Nat) (t : Str) (ts : List Str) :
    chain i (t :: ts) = (if i = 0 then [] else [':']) ++ t ++ chain (i + 1) ts := by
  unfold chain
  split
  · rw [joinS_colons]; simp
  · simp [colons]

theorem readSep_iff {α : Type} {i : Nat} {f : Str → Option (α × Str)} {s : Str} {p : α × Str} :
    readSep ':' i f s = some p ↔ ∃ u, s = (if i = 0 then [] else [':']) ++ u ∧ f u = some p := by
  unfold readSep
  split
  · simp
  · cases s with
    | nil => simp
    | cons c cs =>
      by_cases hc : c = ':'
      · subst hc; simp
      · simp [hc]

/-- The groups a run of texts stands for; the last may be a dotted quad. -/
def Run (b : Bool) (ts : List Str) (gs : List Nat) : Prop :=
  if b = true then ∃ us q hs a, ts = us ++ [q] ∧ Each HexGroup us hs ∧ V4Text q a ∧
    gs = hs ++ [a.toNat / 2^16, a.toNat % 2^16]
  else Each HexGroup ts gs

theorem Run.cons {b : Bool} {t : Str} {g : Nat} {ts : List Str} {gs : List Nat} (h : HexGroup t g) (hr : Run b ts gs) :
    Run b (t :: ts) (g :: gs) := by
  cases b with
  | false => exact ⟨h, hr⟩
  | true =>
    obtain ⟨us, q, hs, a, rfl, h1, h2, rfl⟩ := hr
    exact ⟨t :: us, q, g :: hs, a, rfl, ⟨h, h1⟩, h2, rfl⟩

theorem readGroups_sound {left i : Nat} {s rest : Str} {gs : List Nat} {b : Bool}
    (h : readGroups left i s = (gs, b, rest)) :
    gs.length ≤ left ∧ ∃ ts, s = chain i ts ++ rest ∧ Run b ts gs := by
  induction left generalizing i s gs b rest with
  | zero =>
    simp only [readGroups, Prod.mk.injEq] at h
    obtain ⟨rfl, rfl, rfl⟩ := h
    exact ⟨Nat.le_refl _, [], by simp [chain_nil], trivial⟩
  | succ left ih =>
    rw [readGroups] at h
    split at h
    · rename_i v4 s' hv
      simp only [Prod.mk.injEq] at h
      obtain ⟨rfl, rfl, rfl⟩ := h
      rcases ite_cases hv with ⟨hl, hv⟩ | ⟨-, hv⟩
      · obtain ⟨u, rfl, hu⟩ := readSep_iff.1 hv
        obtain ⟨q, rfl, hq, -⟩ := readV4_iff.1 hu
        refine ⟨by simp; omega, [q], ?_, [], q, [], v4, rfl, trivial, hq, rfl⟩
        rw [chain_cons, chain_nil]; simp
      · cases hv
    · split at h
      · simp only [Prod.mk.injEq] at h
        obtain ⟨rfl, rfl, rfl⟩ := h
        exact ⟨by simp, [], by simp [chain_nil], trivial⟩
      · rename_i g s' hg
        simp only [Prod.mk.injEq] at h
        obtain ⟨rfl, h2, h3⟩ := h
        obtain ⟨u, rfl, hu⟩ := readSep_iff.1 hg
        obtain ⟨t, rfl, ht, -⟩ := readGroup_iff.1 hu
        obtain ⟨hlen, ts, e, hrun⟩ := ih (i := i + 1) (s := s') (gs := (readGroups left (i + 1) s').1) (b := b) (rest := rest)
          (by rw [← h2, ← h3])
        refine ⟨by simp; omega, t :: ts, ?_, hrun.cons ht⟩
        rw [chain_cons, e]; simp

theorem hexGroup_no_v4 {t rest : Str} {g : Nat} (h : HexGroup t g) (hr : ∀ c, rest.head? = some c → c = ':') :
    readV4 (t ++ rest) = none := readV4_none h.2.2.1 hr

theorem head_chain {i : Nat} (hi : i ≠ 0) {ts : List Str} {rest : Str} (hr : GroupEnd rest) :
    ∀ c, (chain i ts ++ rest).head? = some c → c = ':' := by
  intro c hc
  cases ts with
  | nil =>
    rw [chain_nil] at hc
    rcases hr with rfl | ⟨t, rfl⟩ <;> simp at hc
    exact hc.symm
  | cons t ts => rw [chain_cons, if_neg hi] at hc; simp at hc; exact hc.symm

theorem readGroups_hex {left i : Nat} {ts : List Str} {gs : List Nat} (h : Each HexGroup ts gs)
    (hl : gs.length ≤ left) {rest : Str} (hr : GroupEnd rest) :
    readGroups left i (chain i ts ++ rest) = (gs, false, rest) := by
  induction ts generalizing left i gs with
  | nil =>
    cases gs with
    | nil => rw [chain_nil]; exact readGroups_end left i hr
    | cons g gs => exact absurd h (by simp [Each])
  | cons t ts ih =>
    cases gs with
    | nil => exact absurd h (by simp [Each])
    | cons g gs =>
      obtain ⟨h1, h2⟩ := h
      cases left with
      | zero => simp at hl
      | succ left =>
        have hh := head_chain (i := i + 1) (by omega) (ts := ts) hr
        have hg : readSep ':' i (readNumber 16 4 true 65536) (chain i (t :: ts) ++ rest) =
            some (g, chain (i + 1) ts ++ rest) := by
          rw [readSep_iff]
          refine ⟨t ++ (chain (i + 1) ts ++ rest), by rw [chain_cons]; simp, readGroup_iff.2 ⟨t, rfl, h1, ?_⟩⟩
          intro c hc; rw [hh c hc]; decide
        have hv : readSep ':' i readV4 (chain i (t :: ts) ++ rest) = none := by
          rcases hx : readSep ':' i readV4 (chain i (t :: ts) ++ rest) with _ | p
          · rfl
          · obtain ⟨u, e, hu⟩ := readSep_iff.1 hx
            rw [chain_cons, List.append_assoc, List.append_assoc, List.append_cancel_left_eq] at e
            rw [← e, hexGroup_no_v4 h1 hh] at hu
            cases hu
        have := ih (left := left) (i := i + 1) h2 (by simpa using hl)
        rw [readGroups, hv, ite_self]
        simp [hg, this]

theorem readGroups_mixed {left i : Nat} {ts : List Str} {gs : List Nat} (h : Run true ts gs)
    (hl : gs.length ≤ left) : readGroups left i (chain i ts) = (gs, true, []) := by
  obtain ⟨us, q, hs, a, rfl, h1, h2, rfl⟩ := h
  induction us generalizing left i hs with
  | nil =>
    cases hs with
    | cons g gs => exact absurd h1 (by simp [Each])
    | nil =>
      cases left with
      | zero => simp at hl
      | succ left =>
        have hv : readSep ':' i readV4 (chain i ([] ++ [q])) = some (a, []) := by
          rw [readSep_iff]
          exact ⟨q, by rw [List.nil_append, chain_cons, chain_nil, List.append_nil],
            readV4_iff.2 ⟨q, by simp, h2, Stops.nil _⟩⟩
        rw [readGroups, if_pos (by simp at hl; omega), hv]
        rfl
  | cons t us ih =>
    cases hs with
    | nil => exact absurd h1 (by simp [Each])
    | cons g gs =>
      obtain ⟨h1, h2'⟩ := h1
      cases left with
      | zero => simp at hl
      | succ left =>
        have hh : ∀ c, (chain (i + 1) (us ++ [q])).head? = some c → c = ':' := by
          have := head_chain (i := i + 1) (by omega) (ts := us ++ [q]) (rest := []) (.inl rfl)
          simpa using this
        have hg : readSep ':' i (readNumber 16 4 true 65536) (chain i (t :: us ++ [q])) =
            some (g, chain (i + 1) (us ++ [q])) := by
          rw [readSep_iff]
          refine ⟨t ++ chain (i + 1) (us ++ [q]), by rw [List.cons_append, chain_cons]; simp,
            readGroup_iff.2 ⟨t, rfl, h1, ?_⟩⟩
          intro c hc; rw [hh c hc]; decide
        have hv : readSep ':' i readV4 (chain i (t :: us ++ [q])) = none := by
          rcases hx : readSep ':' i readV4 (chain i (t :: us ++ [q])) with _ | p
          · rfl
          · obtain ⟨u, e, hu⟩ := readSep_iff.1 hx
            rw [List.cons_append, chain_cons, List.append_assoc, List.append_cancel_left_eq] at e
            rw [← e, hexGroup_no_v4 h1 hh] at hu
            cases hu
        have := ih (left := left) (i := i + 1) (hs := gs) h2' (by simp at hl ⊢; omega)
        rw [readGroups, hv, ite_self]
        simp only [hg, this]; rfl

theorem mixedGroups_iff {s : Str} {gs : List Nat} : MixedGroups s gs ↔ ∃ b ts, s = chain 0 ts ∧ Run b ts gs := by
  constructor
  · rintro (⟨ts, rfl, h⟩ | ⟨ts, q, hs, a, rfl, h1, h2, rfl⟩)
    · exact ⟨false, ts, rfl, h⟩
    · exact ⟨true, ts ++ [q], rfl, ts, q, hs, a, rfl, h1, h2, rfl⟩
  · rintro ⟨b, ts, rfl, h⟩
    cases b with
    | false => exact .inl ⟨ts, rfl, h⟩
    | true =>
      obtain ⟨us, q, hs, a, rfl, h1, h2, rfl⟩ := h
      exact .inr ⟨us, q, hs, a, rfl, h1, h2, rfl⟩

theorem Run.lt {b : Bool} {ts : List Str} {gs : List Nat} (h : Run b ts gs) : ∀ g ∈ gs, g < 65536 := by
  have hex {ts : List Str} {gs : List Nat} (h : Each HexGroup ts gs) : ∀ g ∈ gs, g < 65536 := by
    induction ts generalizing gs with
    | nil => cases gs <;> simp [Each] at h ⊢
    | cons t ts ih =>
      cases gs with
      | nil => simp
      | cons g gs =>
        intro x hx
        rcases List.mem_cons.1 hx with rfl | hx
        · exact h.1.lt
        · exact ih h.2 x hx
  cases b with
  | false => exact hex h
  | true =>
    obtain ⟨us, q, hs, a, rfl, h1, h2, rfl⟩ := h
    intro x hx
    have := a.toNat_lt
    simp only [List.mem_append, List.mem_cons, List.not_mem_nil, or_false] at hx
    rcases hx with hx | rfl | rfl
    · exact hex h1 x hx
    · omega
    · omega

theorem groupsValue_lt {gs : List Nat} (h : ∀ g ∈ gs, g < 65536) : groupsValue gs < 65536 ^ gs.length := by
  induction gs using List.reverseRecOn with
  | nil => decide
  | append_singleton xs g ih =>
    have h1 := ih fun c hc => h c (by simp [hc])
    have h2 := h g (by simp)
    unfold groupsValue at h1 ⊢
    rw [List.foldl_append, List.length_append, Nat.pow_add]
    simp only [List.foldl_cons, List.foldl_nil, List.length_singleton, Nat.pow_one]
    omega

theorem ofSegments_toNat {gs : List Nat} (hl : gs.length = 8) (h : ∀ g ∈ gs, g < 65536) :
    (ofSegments gs).toNat = groupsValue gs := by
  have := groupsValue_lt h
  rw [hl] at this
  unfold ofSegments
  rw [BitVec.toNat_ofNat]
  exact Nat.mod_eq_of_lt (Nat.lt_of_lt_of_le this (by decide))

theorem double_colon {α : Type} {s1 : Str} {f : Str → Option α} {x : α}
    (h : (match s1 with
      | ':' :: ':' :: s2 => f s2
      | _ => none) = some x) : ∃ s2, s1 = ':' :: ':' :: s2 ∧ f s2 = some x := by
  split at h
  · exact ⟨_, rfl, h⟩
  · cases h

theorem readV6_iff {s : Str} {a : BitVec 128} : readV6 s = some (a, []) ↔ V6Text s a := by
  constructor
  · intro h
    unfold readV6 at h
    rcases h1 : readGroups 8 0 s with ⟨head, b, s1⟩
    rw [h1] at h
    obtain ⟨hl, ts, rfl, hrun⟩ := readGroups_sound h1
    simp only [] at h
    rcases ite_cases h with ⟨h8, h⟩ | ⟨h8, h⟩
    · simp only [Option.some.injEq, Prod.mk.injEq] at h
      obtain ⟨rfl, rfl⟩ := h
      left
      refine ⟨head, mixedGroups_iff.2 ⟨b, ts, by simp, hrun⟩, h8, ofSegments_toNat h8 hrun.lt⟩
    rcases ite_cases h with ⟨-, h⟩ | ⟨hb, h⟩
    · cases h
    simp only [Bool.not_eq_true] at hb; subst hb
    obtain ⟨s2, rfl, h⟩ := double_colon (f := fun s2 =>
      some (ofSegments (head ++ List.replicate (8 - head.length - (readGroups (8 - (head.length + 1)) 0 s2).1.length) 0 ++
        (readGroups (8 - (head.length + 1)) 0 s2).1), (readGroups (8 - (head.length + 1)) 0 s2).2.2)) h
    · simp only [] at h
      rcases h2 : readGroups (8 - (head.length + 1)) 0 s2 with ⟨tail, b2, s3⟩
      rw [h2] at h
      simp only [Option.some.injEq, Prod.mk.injEq] at h
      obtain ⟨rfl, rfl⟩ := h
      obtain ⟨hl2, ts2, rfl, hrun2⟩ := readGroups_sound h2
      right
      refine ⟨chain 0 ts, chain 0 ts2, head, tail, by simp, ⟨ts, rfl, hrun⟩, mixedGroups_iff.2 ⟨b2, ts2, rfl, hrun2⟩,
        by omega, ofSegments_toNat ?_ ?_⟩
      · simp; omega
      · intro g hg
        simp only [List.mem_append] at hg
        rcases hg with (hg | hg) | hg
        · exact hrun.lt g hg
        · rw [List.eq_of_mem_replicate hg]; decide
        · exact hrun2.lt g hg
  · rintro (⟨gs, hm, hl, ha⟩ | ⟨l, r, gl, gr, rfl, ⟨ts, rfl, hlr⟩, hm, hl, ha⟩)
    · obtain ⟨b, ts, rfl, hrun⟩ := mixedGroups_iff.1 hm
      have hr : readGroups 8 0 (chain 0 ts) = (gs, b, []) := by
        cases b with
        | false =>
          have := readGroups_hex (left := 8) (i := 0) hrun (by omega) (rest := []) (.inl rfl)
          rwa [List.append_nil] at this
        | true => exact readGroups_mixed hrun (by omega)
      unfold readV6
      rw [hr]
      simp only [hl, if_true]
      rw [show ofSegments gs = a from BitVec.eq_of_toNat_eq (by rw [ofSegments_toNat hl hrun.lt, ha])]
    · obtain ⟨b, us, rfl, hrun⟩ := mixedGroups_iff.1 hm
      have h1 : readGroups 8 0 (joinS [':'] ts ++ c%"::" ++ chain 0 us) = (gl, false, ':' :: ':' :: chain 0 us) := by
        rw [List.append_assoc]
        exact readGroups_hex (left := 8) (i := 0) hlr (by omega) (.inr ⟨_, rfl⟩)
      have h2 : readGroups (8 - (gl.length + 1)) 0 (chain 0 us) = (gr, b, []) := by
        cases b with
        | false =>
          have := readGroups_hex (left := 8 - (gl.length + 1)) (i := 0) hrun (by omega) (rest := []) (.inl rfl)
          rwa [List.append_nil] at this
        | true => exact readGroups_mixed hrun (by omega)
      unfold readV6
      rw [h1]
      simp only []
      rw [if_neg (by omega), if_neg (by simp), h2]
      have : ofSegments (gl ++ List.replicate (8 - gl.length - gr.length) 0 ++ gr) = a := by
        apply BitVec.eq_of_toNat_eq
        rw [ha, ofSegments_toNat]
        · simp; omega
        · intro g hg
          simp only [List.mem_append] at hg
          rcases hg with (hg | hg) | hg
          · exact Run.lt (b := false) hlr g hg
          · rw [List.eq_of_mem_replicate hg]; decide
          · exact hrun.lt g hg
      rw [this]

/-- An IPv6 address does not begin with a dotted quad, and has a colon in it. -/
theorem V6Text.facts {s : Str} {a : BitVec 128} (h : V6Text s a) : readV4 s = none ∧ ':' ∈ s := by
  have hex {ts : List Str} {gs : List Nat} (he : Each HexGroup ts gs) {rest : Str}
      (hr : ∀ c, rest.head? = some c → c = ':') (hne : ts = [] → rest ≠ []) :
      readV4 (joinS [':'] ts ++ rest) = none := by
    cases ts with
    | nil =>
      cases rest with
      | nil => exact absurd rfl (hne rfl)
      | cons c r => rw [hr c rfl]; exact readV4_colon _
    | cons t ts =>
      cases gs with
      | nil => exact absurd he (by simp [Each])
      | cons g gs =>
        rw [joinS_colons, List.append_assoc]
        refine hexGroup_no_v4 he.1 fun c hc => ?_
        cases ts with
        | nil => exact hr c hc
        | cons u us => simp [colons] at hc; exact hc.symm
  have two {t u : Str} {ts : List Str} : ':' ∈ joinS [':'] (t :: u :: ts) := by simp [joinS]
  rcases h with ⟨gs, hm, hl, -⟩ | ⟨l, r, gl, gr, rfl, ⟨ts, rfl, hlr⟩, -, -, -⟩
  · rcases hm with ⟨ts, rfl, h⟩ | ⟨ts, q, hs, a, rfl, h1, h2, rfl⟩
    · have hlen := (each_iff.1 h).length_eq
      rcases ts with _ | ⟨t, _ | ⟨u, ts⟩⟩
      · simp at hlen; omega
      · simp at hlen; omega
      · refine ⟨?_, two⟩
        have := hex h (rest := []) (by simp) (by simp)
        rwa [List.append_nil] at this
    · have hlen := (each_iff.1 h1).length_eq
      simp at hl
      rcases ts with _ | ⟨t, ts⟩
      · simp at hlen; omega
      · cases hs with
        | nil => exact absurd h1 (by simp [Each])
        | cons g gs =>
          constructor
          · rw [List.cons_append, joinS_colons]
            refine hexGroup_no_v4 h1.1 fun c hc => ?_
            cases ts <;> simp [colons] at hc <;> exact hc.symm
          · cases ts <;> exact two
  · refine ⟨?_, by simp⟩
    rw [List.append_assoc]
    exact hex hlr (by simp) (by simp)

theorem ipFromStr_iff {s : Str} {ip : IpAddr} : ipFromStr s = some ip ↔ IpText s ip := by
  constructor
  · intro h
    unfold ipFromStr at h
    split at h
    · rename_i a ha
      cases h
      obtain ⟨q, rfl, hq, -⟩ := readV4_iff.1 ha
      simpa [IpText] using hq
    · cases h
    · split at h
      · rename_i a ha
        cases h
        exact readV6_iff.1 ha
      · cases h
  · intro h
    cases ip with
    | v4 a =>
      have : readV4 s = some (a, []) := readV4_iff.2 ⟨s, by simp, h, Stops.nil _⟩
      simp [ipFromStr, this]
    | v6 a =>
      have h1 := V6Text.facts h
      have h2 : readV6 s = some (a, []) := readV6_iff.2 h
      simp [ipFromStr, h1.1, h2]

theorem parseAddress_iff [Env] {s : Str} {a : Address} : parseAddress s = .ok a ↔ AddressText s a := by
  have hcol : ':' ∈ s → parseV4Strict s = none := by
    intro hc
    rcases h : parseV4Strict s with _ | x
    · rfl
    · rcases (parseV4Strict_iff.1 h).chars.2 ':' hc with h | h <;> exact absurd h (by decide)
  unfold parseAddress AddressText
  simp only []
  by_cases hip : ∃ ip, IpText s ip
  · obtain ⟨ip, hip⟩ := hip
    have huniq : ∀ jp, IpText s jp ↔ ip = jp := by
      intro jp
      rw [← ipFromStr_iff, ipFromStr_iff.2 hip]; simp
    have hno : ¬ ∀ jp, ¬ IpText s jp := fun h => h ip hip
    simp only [huniq, exists_eq_left', hno, false_and, or_false]
    split
    · rw [ipFromStr_iff.2 hip]; simp [eq_comm]
    · rename_i hc
      cases ip with
      | v6 x => exact absurd (V6Text.facts hip).2 hc
      | v4 x =>
        have : hostParse s = .ipv4 x := by unfold hostParse; rw [parseV4Strict_iff.2 hip]
        rw [this]; simp [eq_comm]
  · have hno : ∀ jp, ¬ IpText s jp := fun jp h => hip ⟨jp, h⟩
    have hn : ipFromStr s = none := by
      rcases h : ipFromStr s with _ | x
      · rfl
      · exact absurd (ipFromStr_iff.1 h) (hno x)
    have hv : parseV4Strict s = none := by
      rcases h : parseV4Strict s with _ | x
      · rfl
      · exact absurd (parseV4Strict_iff.1 h) (hno (.v4 x))
    have hh : hostParse s = Env.hostNA s := by unfold hostParse; rw [hv]
    simp only [hno, false_and, exists_false, false_or, not_false_eq_true, implies_true, true_and]
    rw [hn, hh]
    cases Env.hostNA s <;> simp [eq_comm]
    split <;> simp

theorem typedTryFrom_iff [Env] {t : AddressType} {s : Str} {a : TypedAddress} :
    typedTryFrom t s = .ok a ↔ TypedText t s a := by
  have hf (x : IpAddr) : ipAddressType x = ipFamily x := by cases x <;> rfl
  unfold typedTryFrom
  rw [bind_eq_ok]
  constructor
  · rintro ⟨x, hx, h⟩
    rw [parseAddress_iff] at hx
    cases x with
    | fqdn d => simp at h; subst h; exact ⟨hx, rfl⟩
    | ip i =>
      simp only [hf] at h
      rcases ite_cases h with ⟨-, h⟩ | ⟨h1, h⟩
      · cases h
      · cases h; exact ⟨hx, by simpa using h1⟩
  · intro h
    cases a with
    | fqdn u d => obtain ⟨h1, rfl⟩ := h; exact ⟨_, parseAddress_iff.2 h1, rfl⟩
    | ip i =>
      obtain ⟨h1, rfl⟩ := h
      refine ⟨_, parseAddress_iff.2 h1, ?_⟩
      simp [hf]

end Sdp
