import Verif.Lemmas.Num
/-!
# IP addresses as text
-/

namespace Sdp

theorem takeWhile_append_stop {p : Char → Bool} {a b : Str} (ha : ∀ c ∈ a, p c = true)
    (hb : ∀ c, b.head? = some c → p c = false) :
    (a ++ b).takeWhile p = a ∧ (a ++ b).dropWhile p = b := by
  induction a with
  | nil =>
    cases b with
    | nil => simp
    | cons c cs => have := hb c rfl; simp [this]
  | cons x xs ih =>
    have hx := ha x (by simp)
    obtain ⟨h1, h2⟩ := ih fun c hc => ha c (by simp [hc])
    simp [hx, h1, h2]

/-- The head of `s`, if any, is not a digit of the radix. -/
def Stops (radix : Nat) (s : Str) : Prop := ∀ c, s.head? = some c → toDigit radix c = none

theorem Stops.nil (radix : Nat) : Stops radix [] := by simp [Stops]
theorem Stops.cons {radix : Nat} {c : Char} {s : Str} (h : toDigit radix c = none) : Stops radix (c :: s) := by
  simp [Stops, h]

theorem readNumber_append {radix maxDigits lim : Nat} {allow : Bool} {ds rest : Str}
    (hd : ∀ c ∈ ds, (toDigit radix c).isSome = true) (hr : Stops radix rest) (hne : ds ≠ [])
    (hlen : ds.length ≤ maxDigits) (hz : allow = true ∨ ds.head? ≠ some '0' ∨ ds.length ≤ 1)
    (hlim : radixFold radix 0 ds < lim) :
    readNumber radix maxDigits allow lim (ds ++ rest) = some (radixFold radix 0 ds, rest) := by
  obtain ⟨h1, h2⟩ := takeWhile_append_stop (p := fun c => (toDigit radix c).isSome) hd
    (fun c hc => by rw [hr c hc]; rfl)
  unfold readNumber
  simp only [h1, h2]
  rw [if_neg (by omega), if_neg (by simpa using hne), if_neg]
  · exact if_pos hlim
  · rcases hz with rfl | hz | hz
    · simp
    · simp [hz]
    · have : ¬ ds.length > 1 := by omega
      simp [this]

theorem radixFold_ten {ds : Str} (h : ∀ c ∈ ds, c.isDigit = true) : radixFold 10 0 ds = decValue ds := by
  unfold radixFold decValue
  refine foldl_congr_mem (fun a b hb => ?_) 0
  simp [toDigit_ten, h b hb]

theorem radixFold_sixteen {ds : Str} (h : ∀ c ∈ ds, IsHexDigit c) : radixFold 16 0 ds = hexValue ds := by
  classical
  unfold radixFold hexValue
  refine foldl_congr_mem (fun a b hb => ?_) 0
  simp [toDigit_sixteen, h b hb]

theorem toDigit_ten_isSome {c : Char} : (toDigit 10 c).isSome = true ↔ c.isDigit = true := by
  rw [toDigit_ten]; split <;> simp_all
theorem toDigit_sixteen_isSome {c : Char} : (toDigit 16 c).isSome = true ↔ IsHexDigit c := by
  classical
  rw [toDigit_sixteen]; split <;> simp_all

theorem showNat_byte {n : Nat} (h : n < 256) :
    (showNat n).length ≤ 3 ∧ ((showNat n).head? ≠ some '0' ∨ (showNat n).length ≤ 1) := by
  have : ∀ n : Fin 256, (showNat n.val).length ≤ 3 ∧
      ((showNat n.val).head? ≠ some '0' ∨ (showNat n.val).length ≤ 1) := by decide +kernel
  exact this ⟨n, h⟩

theorem readNumber_byte {n : Nat} (h : n < 256) {rest : Str} (hr : Stops 10 rest) :
    readNumber 10 3 false 256 (showNat n ++ rest) = some (n, rest) := by
  have hf : radixFold 10 0 (showNat n) = n := by
    rw [radixFold_ten fun c hc => showNat_digits hc, decValue_showNat]
  have := readNumber_append (radix := 10) (maxDigits := 3) (lim := 256) (allow := false) (ds := showNat n)
    (rest := rest) (fun c hc => toDigit_ten_isSome.2 (showNat_digits hc)) hr (showNat_ne_nil n)
    (showNat_byte h).1 (.inr (showNat_byte h).2) (by omega)
  rw [this, hf]

theorem stops_dot (s : Str) : Stops 10 ('.' :: s) := Stops.cons (by decide)

theorem showV4_eq (a : UInt32) : showV4 a = showNat (a.toNat / 2^24) ++ '.' :: (showNat (a.toNat / 2^16 % 2^8) ++
    '.' :: (showNat (a.toNat / 2^8 % 2^8) ++ '.' :: showNat (a.toNat % 2^8))) := by
  simp [showV4, octets, joinS]

theorem readV4_show (a : UInt32) {rest : Str} (hr : Stops 10 rest) :
    readV4 (showV4 a ++ rest) = some (a, rest) := by
  have ha := a.toNat_lt
  rw [showV4_eq]
  unfold readV4
  simp only [List.append_assoc, List.cons_append, readSep, if_true]
  rw [readNumber_byte (by omega) (stops_dot _)]
  simp only [Option.bind_eq_bind, Option.bind_some]
  simp only [Nat.succ_ne_zero, if_false, BEq.rfl, if_true, show (1 : Nat) ≠ 0 from by decide,
    show (2 : Nat) ≠ 0 from by decide, show (3 : Nat) ≠ 0 from by decide]
  rw [readNumber_byte (by omega) (stops_dot _)]
  simp only [Option.bind_some]
  rw [readNumber_byte (by omega) (stops_dot _)]
  simp only [BEq.rfl, if_true, Option.bind_some]
  rw [readNumber_byte (by omega) hr]
  simp only [Option.bind_some, Option.pure_def, Option.some.injEq, Prod.mk.injEq, and_true]
  apply UInt32.toNat_inj.1
  unfold ofOctets
  rw [UInt32.toNat_ofNat']
  omega

theorem parseV4Strict_show (a : UInt32) : parseV4Strict (showV4 a) = some a := by
  have := readV4_show a (Stops.nil 10)
  rw [List.append_nil] at this
  rw [parseV4Strict, this]

/-! ## IPv6 -/

theorem readNumber_some {radix m lim : Nat} {al : Bool} {s rest : Str} {n : Nat}
    (h : readNumber radix m al lim s = some (n, rest)) :
    rest = s.dropWhile (fun c => (toDigit radix c).isSome) := by
  unfold readNumber at h
  simp only [] at h
  repeat' split at h
  all_goals first | (cases h; rfl) | cases h

theorem dropWhile_split {p : Char → Bool} (s : Str) :
    ∃ ds, s = ds ++ s.dropWhile p ∧ ∀ c ∈ ds, p c = true := by
  induction s with
  | nil => exact ⟨[], by simp⟩
  | cons x xs ih =>
    by_cases h : p x = true
    · obtain ⟨ds, h1, h2⟩ := ih
      refine ⟨x :: ds, ?_, ?_⟩
      · rw [List.dropWhile_cons_of_pos h]
        exact congrArg (x :: ·) h1
      · intro c hc; rcases List.mem_cons.1 hc with rfl | hc; exacts [h, h2 c hc]
    · exact ⟨[], by simp [h], by simp⟩

/-- A text of hexadecimal digits followed by nothing or a colon does not start with a dotted quad. -/
theorem readV4_none {hs rest : Str} (hh : ∀ c ∈ hs, IsHexDigit c) (hr : ∀ c, rest.head? = some c → c = ':') :
    readV4 (hs ++ rest) = none := by
  cases h : readV4 (hs ++ rest) with
  | none => rfl
  | some p =>
    exfalso
    simp only [readV4, readSep, if_true, Option.bind_eq_bind, Option.bind_eq_some_iff] at h
    obtain ⟨⟨a, s1⟩, h1, ⟨b, s2⟩, h2, -⟩ := h
    have e1 := readNumber_some h1
    have hdot : ∃ t, s1 = '.' :: t := by
      simp only [show (1 : Nat) ≠ 0 from by decide, if_false] at h2
      split at h2
      · rename_i c cs
        split at h2
        · rename_i hc; simp at hc; subst hc; exact ⟨cs, rfl⟩
        · cases h2
      · cases h2
    obtain ⟨t, rfl⟩ := hdot
    obtain ⟨ds, g1, g2⟩ := dropWhile_split (p := fun c => (toDigit 10 c).isSome) (hs ++ rest)
    rw [← e1] at g1
    have k1 := (takeWhile_append_stop (p := fun c => (toDigit 16 c).isSome) (a := hs) (b := rest)
      (fun c hc => toDigit_sixteen_isSome.2 (hh c hc)) (fun c hc => by rw [hr c hc]; decide)).2
    have k2 := (takeWhile_append_stop (p := fun c => (toDigit 16 c).isSome) (a := ds) (b := '.' :: t)
      (fun c hc => toDigit_sixteen_isSome.2 (.inl (toDigit_ten_isSome.1 (g2 c hc))))
      (fun c hc => by simp at hc; subst hc; decide)).2
    rw [← g1, k1] at k2
    have := hr '.' (by rw [k2]; rfl)
    exact absurd this (by decide)

theorem length_toDigits_sixteen {n : Nat} (h : n < 65536) : (Nat.toDigits 16 n).length ≤ 4 := by
  have e {m : Nat} (hm : 16 ≤ m) : Nat.toDigits 16 m = Nat.toDigits 16 (m / 16) ++ [Nat.digitChar (m % 16)] := by
    have := Nat.toDigits_append_toDigits (b := 16) (n := m / 16) (d := m % 16) (by decide) (by omega) (by omega)
    rw [Nat.toDigits_of_lt_base (by omega : m % 16 < 16)] at this
    rw [this]; congr 1; omega
  have b0 {m : Nat} (hm : m < 16) : (Nat.toDigits 16 m).length ≤ 1 := by
    rw [Nat.toDigits_of_lt_base hm]; simp
  have st {m k : Nat} (hk : (Nat.toDigits 16 (m / 16)).length ≤ k) (hk1 : 1 ≤ k) :
      (Nat.toDigits 16 m).length ≤ k + 1 := by
    by_cases hm : m < 16
    · have := b0 hm; omega
    · rw [e (by omega)]; simp; omega
  exact st (st (st (b0 (by omega)) (by omega)) (by omega)) (by omega)

theorem readNumber_group {g : Nat} (h : g < 65536) {rest : Str} (hr : Stops 16 rest) :
    readNumber 16 4 true 65536 (Nat.toDigits 16 g ++ rest) = some (g, rest) := by
  obtain ⟨h1, h2, h3⟩ := toDigits_sixteen g
  have hf : radixFold 16 0 (Nat.toDigits 16 g) = g := by rw [radixFold_sixteen h2, h3]
  have := readNumber_append (radix := 16) (maxDigits := 4) (lim := 65536) (allow := true)
    (ds := Nat.toDigits 16 g) (rest := rest) (fun c hc => toDigit_sixteen_isSome.2 (h2 c hc)) hr h1
    (length_toDigits_sixteen h) (.inl rfl) (by omega)
  rw [this, hf]

/-- The groups with a colon before each. -/
def colonSegs (gs : List Nat) : Str := gs.flatMap fun g => ':' :: Nat.toDigits 16 g

theorem showSegs_cons (g : Nat) (gs : List Nat) : showSegs (g :: gs) = Nat.toDigits 16 g ++ colonSegs gs := by
  unfold showSegs colonSegs
  induction gs generalizing g with
  | nil => simp [joinS]
  | cons x xs ih =>
    have := ih x
    simp only [List.map_cons, joinS, List.flatMap_cons] at this ⊢
    rw [this]; simp

/-- What may follow the groups: nothing, or a double colon. -/
def GroupEnd (rest : Str) : Prop := rest = [] ∨ ∃ t, rest = ':' :: ':' :: t

theorem readV4_colon (t : Str) : readV4 (':' :: t) = none :=
  readV4_none (hs := []) (by simp) (by simp)

theorem readNumber_stop {radix m lim : Nat} {al : Bool} {s : Str} (h : Stops radix s) :
    readNumber radix m al lim s = none := by
  unfold readNumber
  have : s.takeWhile (fun c => (toDigit radix c).isSome) = [] := by
    cases s with
    | nil => rfl
    | cons c cs => simp [h c rfl]
  simp [this]

theorem readGroups_end (left i : Nat) {rest : Str} (hr : GroupEnd rest) : readGroups left i rest = ([], false, rest) := by
  cases left with
  | zero => rfl
  | succ left =>
    have hstop (t : Str) : Stops 16 (':' :: t) := Stops.cons (by decide)
    have h4 : readSep ':' i readV4 rest = none := by
      unfold readSep
      split
      · rcases hr with rfl | ⟨t, rfl⟩
        · exact readV4_none (hs := []) (rest := []) (by simp) (by simp)
        · exact readV4_colon _
      · rcases hr with rfl | ⟨t, rfl⟩
        · rfl
        · simp [readV4_colon]
    have h6 : readSep ':' i (readNumber 16 4 true 65536) rest = none := by
      unfold readSep
      split
      · rcases hr with rfl | ⟨t, rfl⟩
        · exact readNumber_stop (Stops.nil _)
        · exact readNumber_stop (hstop _)
      · rcases hr with rfl | ⟨t, rfl⟩
        · rfl
        · simp [readNumber_stop (hstop _)]
    simp [readGroups, h4, h6]

theorem head_colonSegs {gs : List Nat} {rest : Str} (hr : GroupEnd rest) :
    ∀ c, (colonSegs gs ++ rest).head? = some c → c = ':' := by
  intro c hc
  cases gs with
  | nil =>
    rcases hr with rfl | ⟨t, rfl⟩ <;> simp [colonSegs] at hc
    exact hc.symm
  | cons g gs => simp [colonSegs] at hc; exact hc.symm

theorem stops_colonSegs {gs : List Nat} {rest : Str} (hr : GroupEnd rest) : Stops 16 (colonSegs gs ++ rest) := by
  intro c hc; rw [head_colonSegs hr c hc]; decide

theorem readGroups_colon {left i : Nat} (hi : i ≠ 0) {gs : List Nat} (hg : ∀ g ∈ gs, g < 65536)
    (hl : gs.length ≤ left) {rest : Str} (hr : GroupEnd rest) :
    readGroups left i (colonSegs gs ++ rest) = (gs, false, rest) := by
  induction gs generalizing left i with
  | nil => exact readGroups_end left i hr
  | cons g gs ih =>
    cases left with
    | zero => simp at hl
    | succ left =>
      have hgs := hg g (by simp)
      have e : colonSegs (g :: gs) ++ rest = ':' :: (Nat.toDigits 16 g ++ (colonSegs gs ++ rest)) := by
        simp [colonSegs]
      have h4 : readSep ':' i readV4 (colonSegs (g :: gs) ++ rest) = none := by
        rw [e]; simp only [readSep, hi, if_false, BEq.rfl, if_true]
        exact readV4_none (toDigits_sixteen g).2.1 (head_colonSegs hr)
      have h6 : readSep ':' i (readNumber 16 4 true 65536) (colonSegs (g :: gs) ++ rest) =
          some (g, colonSegs gs ++ rest) := by
        rw [e]; simp only [readSep, hi, if_false, BEq.rfl, if_true]
        exact readNumber_group hgs (stops_colonSegs hr)
      have := ih (left := left) (i := i + 1) (by omega) (fun g hg' => hg g (by simp [hg'])) (by simpa using hl)
      simp [readGroups, h4, h6, this]

theorem readGroups_show {left : Nat} {gs : List Nat} (hg : ∀ g ∈ gs, g < 65536)
    (hl : gs.length ≤ left) {rest : Str} (hr : GroupEnd rest) :
    readGroups left 0 (showSegs gs ++ rest) = (gs, false, rest) := by
  cases gs with
  | nil => exact readGroups_end left 0 hr
  | cons g gs =>
    cases left with
    | zero => simp at hl
    | succ left =>
      rw [showSegs_cons, List.append_assoc]
      have h4 : readSep ':' 0 readV4 (Nat.toDigits 16 g ++ (colonSegs gs ++ rest)) = none :=
        readV4_none (toDigits_sixteen g).2.1 (head_colonSegs hr)
      have h6 : readSep ':' 0 (readNumber 16 4 true 65536) (Nat.toDigits 16 g ++ (colonSegs gs ++ rest)) =
          some (g, colonSegs gs ++ rest) := readNumber_group (hg g (by simp)) (stops_colonSegs hr)
      have := readGroups_colon (left := left) (i := 1) (gs := gs) (by omega) (fun g hg' => hg g (by simp [hg']))
        (by simpa using hl) hr
      simp [readGroups, h4, h6, this]

/-! ### The zero run -/

/-- What the scan knows after `i` segments. -/
structure ZInv (segs : List Nat) (i : Nat) (z : ZeroScan) : Prop where
  cur : z.curLen ≠ 0 → z.curStart + z.curLen = i
  curZero : ∀ k, z.curStart ≤ k → k < z.curStart + z.curLen → segs[k]? = some 0
  best : z.bestStart + z.bestLen ≤ i
  bestZero : ∀ k, z.bestStart ≤ k → k < z.bestStart + z.bestLen → segs[k]? = some 0

theorem ZInv.step {segs : List Nat} {i g : Nat} {z : ZeroScan} (h : ZInv segs i z) (hg : segs[i]? = some g) :
    ZInv segs (i + 1) (z.step i g) := by
  obtain ⟨h1, h2, h3, h4⟩ := h
  unfold ZeroScan.step
  by_cases g0 : g = 0
  · subst g0
    simp only [if_true]
    have hs : (if z.curLen = 0 then i else z.curStart) + z.curLen = i := by
      split
      · omega
      · exact h1 ‹_›
    have hz : ∀ k, (if z.curLen = 0 then i else z.curStart) ≤ k →
        k < (if z.curLen = 0 then i else z.curStart) + (z.curLen + 1) → segs[k]? = some 0 := by
      intro k hk1 hk2
      by_cases hki : k = i
      · rw [hki]; exact hg
      · split at hk1
        · omega
        · refine h2 k hk1 ?_
          split at hk2 <;> omega
    split
    · exact ⟨fun _ => by dsimp only; omega, hz, by dsimp only; omega, hz⟩
    · exact ⟨fun _ => by dsimp only; omega, hz, by dsimp only; omega, h4⟩
  · simp only [g0, if_false]
    exact ⟨fun h => absurd rfl h, fun k _ hk => by simp at hk, by dsimp only; omega, h4⟩

theorem ZInv.scan {segs l : List Nat} {i : Nat} {z : ZeroScan} (h : ZInv segs i z) (hl : segs.drop i = l) :
    ZInv segs segs.length (zeroScan i l z) ∨ i > segs.length := by
  induction l generalizing i z with
  | nil =>
    by_cases hi : i > segs.length
    · exact .inr hi
    · left
      have : segs.length ≤ i := List.drop_eq_nil_iff.1 hl
      have : i = segs.length := by omega
      subst this; exact h
  | cons g gs ih =>
    have hi : i < segs.length := by
      by_contra hc
      rw [List.drop_eq_nil_of_le (by omega)] at hl; cases hl
    have hg : segs[i]? = some g := by
      rw [← List.head?_drop, hl]; rfl
    have hd : segs.drop (i + 1) = gs := by
      rw [← List.drop_drop, hl]; rfl
    rcases ih (h.step hg) hd with h' | h'
    · exact .inl h'
    · omega

theorem zeroRun (segs : List Nat) :
    let z := zeroScan 0 segs ⟨0, 0, 0, 0⟩
    z.bestStart + z.bestLen ≤ segs.length ∧
    segs = segs.take z.bestStart ++ List.replicate z.bestLen 0 ++ segs.drop (z.bestStart + z.bestLen) := by
  intro z
  have h0 : ZInv segs 0 ⟨0, 0, 0, 0⟩ := ⟨by simp, by intro k _ h; simp at h, by simp, by intro k _ h; simp at h⟩
  have hz : ZInv segs segs.length z := by
    rcases h0.scan (l := segs) (by simp) with h | h
    · exact h
    · omega
  refine ⟨hz.best, ?_⟩
  have hm : (segs.drop z.bestStart).take z.bestLen = List.replicate z.bestLen 0 := by
    have hlen : ((segs.drop z.bestStart).take z.bestLen).length = z.bestLen := by
      have := hz.best; simp; omega
    apply List.ext_getElem?
    intro k
    by_cases hk : k < z.bestLen
    · rw [List.getElem?_take_of_lt hk, List.getElem?_drop, List.getElem?_replicate, if_pos hk]
      exact hz.bestZero _ (by omega) (by omega)
    · rw [List.getElem?_eq_none (by omega), List.getElem?_eq_none (by simpa using hk)]
  rw [← hm, List.append_assoc, ← List.drop_drop, List.take_append_drop, List.take_append_drop]

theorem ofSegments_segments (a : BitVec 128) : ofSegments (segments a) = a := by
  have ha := a.isLt
  apply BitVec.eq_of_toNat_eq
  simp only [ofSegments, segments, List.foldl_cons, List.foldl_nil, BitVec.toNat_ofNat]
  omega

theorem segments_lt (a : BitVec 128) : ∀ g ∈ segments a, g < 65536 := by
  have ha := a.isLt
  intro g hg
  simp only [segments, List.mem_cons, List.not_mem_nil, or_false] at hg
  rcases hg with rfl | rfl | rfl | rfl | rfl | rfl | rfl | rfl <;> omega

theorem segments_length (a : BitVec 128) : (segments a).length = 8 := rfl

theorem readV6_mapped (m : UInt32) :
    readV6 (c%"::ffff:" ++ showV4 m) =
      some (ofSegments [0, 0, 0, 0, 0, 0xffff, m.toNat / 2^16, m.toNat % 2^16], []) := by
  have h1 : readGroups 8 0 (c%"::ffff:" ++ showV4 m) = ([], false, c%"::ffff:" ++ showV4 m) :=
    readGroups_end _ _ (.inr ⟨_, rfl⟩)
  have h2 : readGroups 7 0 (c%"ffff:" ++ showV4 m) = ([0xffff, m.toNat / 2^16, m.toNat % 2^16], true, []) := by
    have e : c%"ffff:" ++ showV4 m = Nat.toDigits 16 0xffff ++ ':' :: showV4 m := rfl
    have h4 : readSep ':' 0 readV4 (c%"ffff:" ++ showV4 m) = none := by
      rw [e]; exact readV4_none (toDigits_sixteen _).2.1 (by simp)
    have h6 : readSep ':' 0 (readNumber 16 4 true 65536) (c%"ffff:" ++ showV4 m) = some (0xffff, ':' :: showV4 m) := by
      rw [e]; exact readNumber_group (g := 0xffff) (by decide) (Stops.cons (c := ':') (by decide))
    have h5 : readSep ':' 1 readV4 (':' :: showV4 m) = some (m, []) := by
      have := readV4_show m (Stops.nil 10)
      rw [List.append_nil] at this
      simp [readSep, this]
    have g2 : readGroups 6 1 (':' :: showV4 m) = ([m.toNat / 2^16, m.toNat % 2^16], true, []) := by
      rw [readGroups, if_pos (by decide), h5]
    rw [readGroups, if_pos (by decide), h4]
    simp only [h6, g2]
  unfold readV6
  rw [h1]
  show some (ofSegments ([] ++ List.replicate (8 - 0 - (readGroups 7 0 (c%"ffff:" ++ showV4 m)).1.length) 0 ++
    (readGroups 7 0 (c%"ffff:" ++ showV4 m)).1), (readGroups 7 0 (c%"ffff:" ++ showV4 m)).2.2) = _
  rw [h2]
  rfl

theorem readV6_show (a : BitVec 128) : readV6 (showV6 a) = some (a, []) := by
  have ha := a.isLt
  unfold showV6
  simp only []
  split
  · rename_i h
    rw [readV6_mapped]
    have : (UInt32.ofNat (a.toNat % 2^32)).toNat = a.toNat % 2^32 := by
      rw [UInt32.toNat_ofNat']; omega
    rw [this]
    congr 2
    apply BitVec.eq_of_toNat_eq
    simp only [ofSegments, List.foldl_cons, List.foldl_nil, BitVec.toNat_ofNat]
    omega
  · have hz := zeroRun (segments a)
    simp only [] at hz
    generalize zeroScan 0 (segments a) ⟨0, 0, 0, 0⟩ = z at hz ⊢
    obtain ⟨hz1, hz2⟩ := hz
    rw [segments_length] at hz1
    split
    · rename_i h1
      have hh : ((segments a).take z.bestStart).length = z.bestStart := by
        rw [List.length_take, segments_length]; omega
      have ht : ((segments a).drop (z.bestStart + z.bestLen)).length = 8 - (z.bestStart + z.bestLen) := by
        rw [List.length_drop, segments_length]
      have r1 : readGroups 8 0 (showSegs ((segments a).take z.bestStart) ++ c%"::" ++
          showSegs ((segments a).drop (z.bestStart + z.bestLen))) =
          ((segments a).take z.bestStart, false,
            ':' :: ':' :: showSegs ((segments a).drop (z.bestStart + z.bestLen))) := by
        rw [List.append_assoc]
        exact readGroups_show (fun g hg => segments_lt a g (List.mem_of_mem_take hg)) (by omega) (.inr ⟨_, rfl⟩)
      have r2 : readGroups (8 - (z.bestStart + 1)) 0 (showSegs ((segments a).drop (z.bestStart + z.bestLen))) =
          ((segments a).drop (z.bestStart + z.bestLen), false, []) := by
        have := readGroups_show (left := 8 - (z.bestStart + 1)) (rest := [])
          (fun g hg => segments_lt a g (List.mem_of_mem_drop (i := z.bestStart + z.bestLen) hg)) (by omega) (.inl rfl)
        rwa [List.append_nil] at this
      unfold readV6
      rw [r1]
      simp only [hh]
      rw [if_neg (by omega), if_neg (by simp), r2]
      simp only [ht]
      have : 8 - z.bestStart - (8 - (z.bestStart + z.bestLen)) = z.bestLen := by omega
      rw [this, ← hz2, ofSegments_segments]
    · have r1 : readGroups 8 0 (showSegs (segments a)) = (segments a, false, []) := by
        have := readGroups_show (left := 8) (segments_lt a) (by rw [segments_length]; omega) (rest := []) (.inl rfl)
        rwa [List.append_nil] at this
      unfold readV6
      rw [r1]
      simp only [segments_length, if_true]
      rw [ofSegments_segments]

/-- A printed IPv6 address does not start with a dotted quad. -/
theorem readV4_showV6 (a : BitVec 128) : readV4 (showV6 a) = none := by
  unfold showV6
  simp only []
  have seg (gs : List Nat) (rest : Str) (hr : GroupEnd rest) : readV4 (showSegs gs ++ rest) = none := by
    cases gs with
    | nil =>
      rcases hr with rfl | ⟨t, rfl⟩
      · exact readV4_none (hs := []) (rest := []) (by simp) (by simp)
      · exact readV4_colon _
    | cons g gs =>
      rw [showSegs_cons, List.append_assoc]
      exact readV4_none (toDigits_sixteen g).2.1 (head_colonSegs hr)
  split
  · exact readV4_colon _
  · split
    · rw [List.append_assoc]; exact seg _ _ (.inr ⟨_, rfl⟩)
    · have := seg (segments a) [] (.inl rfl)
      rwa [List.append_nil] at this

theorem ipFromStr_show (a : IpAddr) : ipFromStr (showIp a) = some a := by
  cases a with
  | v4 a =>
    have := readV4_show a (Stops.nil 10)
    rw [List.append_nil] at this
    simp [ipFromStr, showIp, this]
  | v6 a => simp [ipFromStr, showIp, readV4_showV6, readV6_show]

/-! ### The characters of a printed address -/

/-- Characters of printed addresses. -/
def IpChar (c : Char) : Prop := IsHexDigit c ∨ c = '.' ∨ c = ':'

theorem showV4_chars {a : UInt32} {c : Char} (h : c ∈ showV4 a) : c.isDigit = true ∨ c = '.' := by
  rw [showV4_eq] at h
  simp only [List.mem_append, List.mem_cons] at h
  rcases h with h | rfl | h | rfl | h | rfl | h
  all_goals first | exact .inr rfl | exact .inl (showNat_digits h)

theorem showSegs_chars {gs : List Nat} {c : Char} (h : c ∈ showSegs gs) : IpChar c := by
  cases gs with
  | nil => cases h
  | cons g gs =>
    rw [showSegs_cons] at h
    rcases List.mem_append.1 h with h | h
    · exact .inl ((toDigits_sixteen g).2.1 c h)
    · obtain ⟨x, -, h⟩ := List.mem_flatMap.1 h
      rcases List.mem_cons.1 h with rfl | h
      · exact .inr (.inr rfl)
      · exact .inl ((toDigits_sixteen x).2.1 c h)

theorem showV6_chars {a : BitVec 128} {c : Char} (h : c ∈ showV6 a) : IpChar c := by
  unfold showV6 at h
  simp only [] at h
  split at h
  · rcases List.mem_append.1 h with h | h
    · simp only [List.mem_cons, List.not_mem_nil, or_false] at h
      rcases h with rfl | rfl | rfl | rfl | rfl | rfl | rfl
      all_goals first | exact .inr (.inr rfl) | exact .inl (.inr (.inl (by decide)))
    · rcases showV4_chars h with h | h
      · exact .inl (.inl h)
      · exact .inr (.inl h)
  · split at h
    · simp only [List.mem_append] at h
      rcases h with (h | h) | h
      · exact showSegs_chars h
      · simp at h; exact .inr (.inr h)
      · exact showSegs_chars h
    · exact showSegs_chars h

theorem showIp_chars {a : IpAddr} {c : Char} (h : c ∈ showIp a) : IpChar c := by
  cases a with
  | v4 a =>
    rcases showV4_chars h with h | h
    · exact .inl (.inl h)
    · exact .inr (.inl h)
  | v6 a => exact showV6_chars h

theorem colon_mem_showV6 (a : BitVec 128) : ':' ∈ showV6 a := by
  unfold showV6
  simp only []
  split
  · simp
  · split
    · simp
    · have : segments a = (a.toNat / 2^112) :: (segments a).tail := rfl
      rw [this, showSegs_cons]
      simp [colonSegs, segments]

theorem colon_not_mem_showV4 (a : UInt32) : ':' ∉ showV4 a := by
  intro h
  rcases showV4_chars h with h | h <;> simp at h

theorem showIp_ne_nil (a : IpAddr) : showIp a ≠ [] := by
  cases a with
  | v4 a => rw [showIp, showV4_eq]; simp
  | v6 a => intro h; have := colon_mem_showV6 a; simp only [showIp] at h; rw [h] at this; cases this

theorem parseAddress_showIp [Env] (a : IpAddr) : parseAddress (showIp a) = .ok (.ip a) := by
  unfold parseAddress
  simp only []
  cases a with
  | v4 a =>
    rw [if_neg (show ':' ∉ showIp (.v4 a) from colon_not_mem_showV4 a)]
    simp [hostParse, showIp, parseV4Strict_show]
  | v6 a =>
    rw [if_pos (show ':' ∈ showIp (.v6 a) from colon_mem_showV6 a), ipFromStr_show]

end Sdp
