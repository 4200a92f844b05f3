import Verif.Spec.RfcIp
import Verif.Props.RfcLines
/-!
# C113: the IP addresses that are read are those of RFC 3986
-/

namespace Sdp

open Abnf

/-! ## Digits -/

private theorem digit_iff {s : Str} : Rfc3986.DIGIT s ↔ ∃ c, s = [c] ∧ c.isDigit = true := by
  refine exists_congr fun c => and_congr_right fun _ => ?_
  rw [isDigit_iff]
  simp

private theorem char_eq {c : Char} {n : Nat} (h : c.toNat = n) : c = Char.ofNat n := by rw [← h, Char.ofNat_toNat]

private theorem letter {s : Str} {u l : Char} (hu : u.toNat + 32 = l.toNat) (hr : 65 ≤ u.toNat ∧ u.toNat ≤ 70) :
    word [u] s ↔ s = [u] ∨ s = [l] := by
  have key {c : Char} : c.toLower = u.toLower ↔ c = u ∨ c = l := by
    have inj {a b : Char} (h : a.toNat = b.toNat) : a = b := by rw [char_eq h, Char.ofNat_toNat]
    have low (c : Char) : c.toLower.toNat = if 65 ≤ c.toNat ∧ c.toNat ≤ 90 then c.toNat + 32 else c.toNat := by
      by_cases h : c.toNat < 128
      · have key : ∀ n < 128, (Char.ofNat n).toLower.toNat = if 65 ≤ n ∧ n ≤ 90 then n + 32 else n := by decide +kernel
        have := key c.toNat h
        rwa [Char.ofNat_toNat] at this
      · have hv (a : Char) : a.val.toNat = a.toNat := rfl
        have h1 : 'Z'.toNat = 90 := rfl
        rw [if_neg (by omega), Char.toLower, dif_neg (by simp only [ge_iff_le, UInt32.le_iff_toNat_le, hv]; omega)]
    have lowu : u.toLower.toNat = l.toNat := by rw [low, if_pos (by omega)]; exact hu
    have lowc := low c
    constructor
    · intro h
      rw [h, lowu] at lowc
      split at lowc
      · exact .inl (inj (by omega))
      · exact .inr (inj lowc.symm)
    · intro h
      refine inj ?_
      rw [lowu, lowc]
      rcases h with rfl | rfl
      · rw [if_pos (by omega)]; exact hu
      · rw [if_neg (by omega)]
  cases s with
  | nil => simp [word]
  | cons c t =>
    cases t with
    | nil => simpa [word] using key
    | cons d t => simp [word]

private theorem hexdig_iff {s : Str} : Rfc3986.HEXDIG s ↔ ∃ c, s = [c] ∧ IsHexDigit c := by
  have hl : ∀ s, Rfc3986.HEXDIG s ↔ Rfc3986.DIGIT s ∨ ∃ k : Fin 6, s = [Char.ofNat (65 + k.val)] ∨ s = [Char.ofNat (97 + k.val)] := by
    intro s
    have A := @letter s 'A' 'a' (by decide) (by decide)
    have B := @letter s 'B' 'b' (by decide) (by decide)
    have C := @letter s 'C' 'c' (by decide) (by decide)
    have D := @letter s 'D' 'd' (by decide) (by decide)
    have E := @letter s 'E' 'e' (by decide) (by decide)
    have F := @letter s 'F' 'f' (by decide) (by decide)
    simp only [Rfc3986.HEXDIG, alt, List.mem_cons, List.not_mem_nil, or_false, exists_eq_or_imp, exists_eq_left, A, B, C, D, E, F]
    refine or_congr Iff.rfl ?_
    constructor
    · rintro (h | h | h | h | h | h)
      · exact ⟨0, h⟩
      · exact ⟨1, h⟩
      · exact ⟨2, h⟩
      · exact ⟨3, h⟩
      · exact ⟨4, h⟩
      · exact ⟨5, h⟩
    · rintro ⟨k, h⟩
      match k with
      | 0 => exact .inl h
      | 1 => exact .inr (.inl h)
      | 2 => exact .inr (.inr (.inl h))
      | 3 => exact .inr (.inr (.inr (.inl h)))
      | 4 => exact .inr (.inr (.inr (.inr (.inl h))))
      | 5 => exact .inr (.inr (.inr (.inr (.inr h))))
  rw [hl, digit_iff]
  constructor
  · rintro (⟨c, rfl, h⟩ | ⟨k, rfl | rfl⟩)
    · exact ⟨c, rfl, .inl h⟩
    · exact ⟨_, rfl, .inr (.inr (by revert k; decide))⟩
    · exact ⟨_, rfl, .inr (.inl (by revert k; decide))⟩
  · rintro ⟨c, rfl, h | ⟨h1, h2⟩ | ⟨h1, h2⟩⟩
    · exact .inl ⟨c, rfl, h⟩
    · have h1 : 97 ≤ c.toNat := h1
      have h2 : c.toNat ≤ 102 := h2
      exact .inr ⟨⟨c.toNat - 97, by omega⟩, .inr (by simp only [List.cons.injEq, and_true]; exact char_eq (by omega))⟩
    · have h1 : 65 ≤ c.toNat := h1
      have h2 : c.toNat ≤ 70 := h2
      exact .inr ⟨⟨c.toNat - 65, by omega⟩, .inl (by simp only [List.cons.injEq, and_true]; exact char_eq (by omega))⟩

private theorem singles {R : Rule} {p : Char → Prop} (h : ∀ s, R s ↔ ∃ c, s = [c] ∧ p c) {lo hi : Nat} {s : Str} :
    reps lo hi R s ↔ lo ≤ s.length ∧ s.length ≤ hi ∧ ∀ c ∈ s, p c := by
  constructor
  · rintro ⟨ts, rfl, h1, h2, h3⟩
    have key : ts.flatten.length = ts.length ∧ ∀ c ∈ ts.flatten, p c := by
      clear h1 h2
      induction ts with
      | nil => simp
      | cons t ts ih =>
        obtain ⟨c, rfl, hc⟩ := (h t).1 (h3 t (by simp))
        obtain ⟨i1, i2⟩ := ih fun t ht => h3 t (by simp [ht])
        refine ⟨by simp at i1 ⊢; omega, ?_⟩
        intro d hd
        rcases List.mem_cons.1 hd with rfl | hd
        · exact hc
        · exact i2 d hd
    rw [key.1]
    exact ⟨h1, h2, key.2⟩
  · rintro ⟨h1, h2, h3⟩
    refine ⟨s.map ([·]), by simp [← List.flatMap_def], by simpa using h1, by simpa using h2, fun t ht => ?_⟩
    obtain ⟨c, hc, rfl⟩ := List.mem_map.1 ht
    exact (h _).2 ⟨c, rfl, h3 c hc⟩

/-! ## IPv4 -/

/-- `dec-octet` for a text in hand. -/
private def octet (s : Str) : Bool :=
  let d (c : Char) : Bool := decide (0x30 ≤ c.toNat ∧ c.toNat ≤ 0x39)
  match s with
  | [a] => d a
  | [a, b] => d a && decide (a.toNat ≠ 0x30) && d b
  | [a, b, c] => d b && d c && (decide (a = '1') || decide (a = '2' ∧ b.toNat ≤ 0x34) || decide (a = '2' ∧ b = '5' ∧ c.toNat ≤ 0x35))
  | _ => false

private theorem decOctet_iff {s : Str} : Rfc3986.decOctet s ↔ ∃ n < 256, s = showNat n := by
  constructor
  · rintro ⟨r, hr, h⟩
    have val {t : Str} (h1 : t ≠ []) (h2 : ∀ c ∈ t, c.isDigit = true) (h3 : t.head? ≠ some '0' ∨ t.length ≤ 1) (h4 : decValue t < 256) :
        ∃ n < 256, t = showNat n := ⟨_, h4, (showNat_decValue h1 h2 h3).symm⟩
    simp only [List.mem_cons, List.not_mem_nil, or_false] at hr
    rcases hr with rfl | rfl | rfl | rfl | rfl
    · obtain ⟨c, rfl, hc⟩ := digit_iff.1 h
      have := isDigit_iff.1 hc
      exact val (by simp) (by simpa using hc) (.inr (by simp)) (by simp [decValue]; omega)
    · obtain ⟨_, _, rfl, ⟨a, rfl, ha⟩, _, _, rfl, hb, rfl⟩ := h
      obtain ⟨b, rfl, hd⟩ := digit_iff.1 hb
      have hb' := isDigit_iff.1 hd
      simp at ha
      refine val (by simp) ?_ (.inl ?_) (by simp [decValue]; omega)
      · simpa [hd] using isDigit_iff.2 ⟨by omega, by omega⟩
      · simp; rintro rfl; simp at ha
    · obtain ⟨_, _, rfl, rfl, _, _, rfl, hb, rfl⟩ := h
      obtain ⟨h1, h2, h3⟩ := (singles @digit_iff).1 hb
      rename_i t
      match t, h1, h2, h3 with
      | [b, c], _, _, h3 =>
        have hb := isDigit_iff.1 (h3 b (by simp))
        have hc := isDigit_iff.1 (h3 c (by simp))
        refine val (by simp) ?_ (.inl (by simp)) (by simp [decValue]; omega)
        simpa using ⟨h3 b (by simp), h3 c (by simp)⟩
    · obtain ⟨_, _, rfl, rfl, _, _, rfl, ⟨b, rfl, hb⟩, _, _, rfl, hc, rfl⟩ := h
      obtain ⟨c, rfl, hd⟩ := digit_iff.1 hc
      have hc' := isDigit_iff.1 hd
      simp at hb
      refine val (by simp) ?_ (.inl (by simp)) (by simp [decValue]; omega)
      simpa [hd] using isDigit_iff.2 ⟨by omega, by omega⟩
    · obtain ⟨_, _, rfl, rfl, _, _, rfl, ⟨c, rfl, hc⟩, rfl⟩ := h
      simp at hc
      refine val (by simp) ?_ (.inl (by simp)) (by simp [decValue]; omega)
      simpa using isDigit_iff.2 ⟨by omega, by omega⟩
  · rintro ⟨n, hn, rfl⟩
    have key : ∀ n < 256, octet (showNat n) = true := by decide +kernel
    have ok {s : Str} (h : octet s = true) : Rfc3986.decOctet s := by
      have dg {c : Char} (h1 : 48 ≤ c.toNat) (h2 : c.toNat ≤ 57) : Rfc3986.DIGIT [c] := digit_iff.2 ⟨c, rfl, isDigit_iff.2 ⟨h1, h2⟩⟩
      match s, h with
      | [a], h =>
        simp [octet] at h
        exact rfc_alt_here (dg h.1 h.2)
      | [a, b], h =>
        simp [octet] at h
        exact rfc_alt_there (rfc_alt_here (rfc_seq_cons (u := [a]) (v := [b]) ⟨a, rfl, by simp; omega⟩ (rfc_seq_one (dg h.2.1 h.2.2))))
      | [a, b, c], h =>
        simp [octet] at h
        obtain ⟨⟨hb, hc⟩, (h | h) | h⟩ := h
        · subst h
          refine rfc_alt_there (rfc_alt_there (rfc_alt_here (rfc_seq_cons (u := c%"1") (v := [b, c]) rfl (rfc_seq_one
            ((singles @digit_iff).2 ⟨by simp, by simp, fun x hx => ?_⟩)))))
          simp at hx
          rcases hx with rfl | rfl
          · exact isDigit_iff.2 hb
          · exact isDigit_iff.2 hc
        · obtain ⟨rfl, h⟩ := h
          exact rfc_alt_there (rfc_alt_there (rfc_alt_there (rfc_alt_here (rfc_seq_cons (u := c%"2") (v := [b, c]) rfl
            (rfc_seq_cons (u := [b]) (v := [c]) ⟨b, rfl, by simp; omega⟩ (rfc_seq_one (dg hc.1 hc.2)))))))
        · obtain ⟨rfl, rfl, h⟩ := h
          exact rfc_alt_there (rfc_alt_there (rfc_alt_there (rfc_alt_there (rfc_alt_here (rfc_seq_cons (u := c%"25") (v := [c]) rfl
            (rfc_seq_one ⟨c, rfl, by simp; omega⟩))))))
    exact ok (key n hn)


private theorem v4_iff {s : Str} : Rfc3986.ipv4Address s ↔ ∃ a, V4Text s a := by
  constructor
  · rintro ⟨t1, _, rfl, h1, _, _, rfl, rfl, t2, _, rfl, h2, _, _, rfl, rfl, t3, _, rfl, h3, _, _, rfl, rfl, t4, _, rfl, h4, rfl⟩
    obtain ⟨w, hw, rfl⟩ := decOctet_iff.1 h1
    obtain ⟨x, hx, rfl⟩ := decOctet_iff.1 h2
    obtain ⟨y, hy, rfl⟩ := decOctet_iff.1 h3
    obtain ⟨z, hz, rfl⟩ := decOctet_iff.1 h4
    refine ⟨UInt32.ofNat (w * 2^24 + x * 2^16 + y * 2^8 + z), w, x, y, z, hw, hx, hy, hz, by simp [joinS], ?_⟩
    rw [UInt32.toNat_ofNat']
    omega
  · rintro ⟨a, w, x, y, z, hw, hx, hy, hz, rfl, -⟩
    have d {n : Nat} (h : n < 256) := decOctet_iff.2 ⟨n, h, rfl⟩
    have := rfc_seq_cons (d hw) (rfc_seq_cons (a := exactly c%".") rfl (rfc_seq_cons (d hx) (rfc_seq_cons (a := exactly c%".") rfl
      (rfc_seq_cons (d hy) (rfc_seq_cons (a := exactly c%".") rfl (rfc_seq_one (d hz)))))))
    simpa [joinS, Rfc3986.ipv4Address] using this

/-! ## IPv6 -/

private theorem h16_iff {s : Str} : Rfc3986.h16 s ↔ ∃ g, HexGroup s g := by
  rw [Rfc3986.h16, singles @hexdig_iff]
  constructor
  · rintro ⟨h1, h2, h3⟩
    exact ⟨_, by rintro rfl; simp at h1, h2, h3, rfl⟩
  · rintro ⟨g, h1, h2, h3, -⟩
    exact ⟨List.length_pos_of_ne_nil h1, h2, h3⟩

private theorem each_length {α β : Type} {R : α → β → Prop} {l : List α} {m : List β} (h : Each R l m) : l.length = m.length := by
  induction l generalizing m with
  | nil => cases m with
    | nil => rfl
    | cons => exact h.elim
  | cons a l ih => cases m with
    | nil => exact h.elim
    | cons b m => simp [ih h.2]

private theorem groups_of {ts : List Str} (h : ∀ t ∈ ts, Rfc3986.h16 t) : ∃ gs, Each HexGroup ts gs ∧ gs.length = ts.length := by
  obtain ⟨gs, hg⟩ := rfc_each_of fun t ht => h16_iff.1 (h t ht)
  exact ⟨gs, hg, (each_length hg).symm⟩

private theorem of_groups {ts : List Str} {gs : List Nat} (h : Each HexGroup ts gs) : ∀ t ∈ ts, Rfc3986.h16 t := fun t ht =>
  let ⟨g, _, hg⟩ := rfc_each_mem h ht
  h16_iff.2 ⟨g, hg⟩

private theorem colon_reps {lo hi : Nat} {s : Str} : reps lo hi Rfc3986.h16c s ↔
    ∃ ts : List Str, s = (ts.map (· ++ c%":")).flatten ∧ lo ≤ ts.length ∧ ts.length ≤ hi ∧ ∀ t ∈ ts, Rfc3986.h16 t := by
  constructor
  · rintro ⟨us, rfl, h1, h2, h3⟩
    have : ∃ ts : List Str, us = ts.map (· ++ c%":") ∧ ∀ t ∈ ts, Rfc3986.h16 t := by
      clear h1 h2
      induction us with
      | nil => exact ⟨[], rfl, by simp⟩
      | cons u us ih =>
        obtain ⟨t, _, rfl, ht, _, _, rfl, rfl, rfl⟩ := h3 u (by simp)
        obtain ⟨ts, rfl, h⟩ := ih fun u hu => h3 u (by simp [hu])
        exact ⟨t :: ts, by simp, by simpa [ht] using h⟩
    obtain ⟨ts, rfl, h⟩ := this
    exact ⟨ts, rfl, by simpa using h1, by simpa using h2, h⟩
  · rintro ⟨ts, rfl, h1, h2, h3⟩
    refine ⟨_, rfl, by simpa using h1, by simpa using h2, fun u hu => ?_⟩
    obtain ⟨t, ht, rfl⟩ := List.mem_map.1 hu
    exact rfc_seq_cons (h3 t ht) (rfc_seq_one rfl)

private theorem join_last (ts : List Str) (t : Str) : joinS [':'] (ts ++ [t]) = (ts.map (· ++ c%":")).flatten ++ t := by
  induction ts with
  | nil => simp [joinS]
  | cons u ts ih =>
    cases ts with
    | nil => simp [joinS]
    | cons v ts => simp [joinS] at ih ⊢; exact ih

private theorem left_iff {n : Nat} {l : Str} : opt (seq [reps 0 n Rfc3986.h16c, Rfc3986.h16]) l ↔ ∃ gs, HexGroups l gs ∧ gs.length ≤ n + 1 := by
  constructor
  · rintro (rfl | ⟨u, _, rfl, hu, t, _, rfl, ht, rfl⟩)
    · exact ⟨[], ⟨[], rfl, trivial⟩, by simp⟩
    · obtain ⟨ts, rfl, -, h2, h3⟩ := colon_reps.1 hu
      obtain ⟨gs, hg, hl⟩ := groups_of (ts := ts ++ [t]) (by
        intro x hx
        rcases List.mem_append.1 hx with h | h
        · exact h3 x h
        · rw [List.mem_singleton.1 h]; exact ht)
      exact ⟨gs, ⟨_, by rw [join_last]; simp, hg⟩, by simp at hl; omega⟩
  · rintro ⟨gs, ⟨ts, rfl, hg⟩, hl⟩
    have hlen := each_length hg
    have hh := of_groups hg
    rcases List.eq_nil_or_concat ts with rfl | ⟨us, t, rfl⟩
    · exact .inl rfl
    · rw [List.concat_eq_append] at *
      rw [join_last]
      simp at hlen
      exact .inr (rfc_seq_cons (colon_reps.2 ⟨us, rfl, by simp, by omega, fun x hx => hh x (by simp [hx])⟩)
        (rfc_seq_one (hh t (by simp))))

private theorem right_iff {k : Nat} {r : Str} : seq [Rfc3986.times k Rfc3986.h16c, Rfc3986.ls32] r ↔ ∃ gs, MixedGroups r gs ∧ gs.length = k + 2 := by
  constructor
  · rintro ⟨u, _, rfl, hu, x, _, rfl, ⟨q, hq, hx⟩, rfl⟩
    obtain ⟨ts, rfl, h1, h2, h3⟩ := colon_reps.1 hu
    simp only [List.mem_cons, List.not_mem_nil, or_false] at hq
    rcases hq with rfl | rfl
    · obtain ⟨a, _, rfl, ha, _, _, rfl, rfl, b, _, rfl, hb, rfl⟩ := hx
      obtain ⟨gs, hg, hl⟩ := groups_of (ts := ts ++ [a] ++ [b]) (by
        intro x hx
        simp at hx
        rcases hx with h | rfl | rfl
        · exact h3 x h
        · exact ha
        · exact hb)
      exact ⟨gs, .inl ⟨_, by rw [join_last]; simp, hg⟩, by simp at hl; omega⟩
    · obtain ⟨a, ha⟩ := v4_iff.1 hx
      obtain ⟨gs, hg, hl⟩ := groups_of h3
      exact ⟨_, .inr ⟨ts, x, gs, a, by rw [join_last]; simp, hg, ha, rfl⟩, by simp; omega⟩
  · rintro ⟨gs, ⟨ts, rfl, hg⟩ | ⟨ts, q, hs, a, rfl, hg, ha, rfl⟩, hl⟩
    · have hlen := each_length hg
      have hh := of_groups hg
      rcases List.eq_nil_or_concat ts with rfl | ⟨us, b, rfl⟩
      · simp at hlen; omega
      rcases List.eq_nil_or_concat us with rfl | ⟨us, a, rfl⟩
      · simp at hlen; omega
      simp only [List.concat_eq_append] at *
      rw [join_last]
      simp at hlen
      have := rfc_seq_cons (a := Rfc3986.times k Rfc3986.h16c) (colon_reps.2 ⟨us, rfl, by omega, by omega, fun x hx => hh x (by simp [hx])⟩)
        (rfc_seq_one (a := Rfc3986.ls32) (rfc_alt_here (rfc_seq_cons (hh a (by simp)) (rfc_seq_cons (a := exactly c%":") rfl
          (rfc_seq_one (hh b (by simp)))))))
      simpa using this
    · have hlen := each_length hg
      simp at hl
      rw [join_last]
      exact rfc_seq_cons (colon_reps.2 ⟨ts, rfl, by omega, by omega, of_groups hg⟩) (rfc_seq_one (rfc_alt_there (rfc_alt_here (v4_iff.2 ⟨a, ha⟩))))

private theorem none_iff {r : Str} : r = [] ↔ ∃ gs, MixedGroups r gs ∧ gs.length = 0 := by
  constructor
  · rintro rfl; exact ⟨[], .inl ⟨[], rfl, trivial⟩, rfl⟩
  · rintro ⟨gs, ⟨ts, rfl, hg⟩ | ⟨ts, q, hs, a, rfl, hg, ha, rfl⟩, hl⟩
    · obtain rfl : ts = [] := List.length_eq_zero_iff.1 ((each_length hg).trans hl)
      rfl
    · simp at hl

private theorem one_iff {r : Str} : Rfc3986.h16 r ↔ ∃ gs, MixedGroups r gs ∧ gs.length = 1 := by
  constructor
  · intro h
    obtain ⟨gs, hg, hl⟩ := groups_of (ts := [r]) (by simpa using h)
    exact ⟨gs, .inl ⟨[r], rfl, hg⟩, hl⟩
  · rintro ⟨gs, ⟨ts, rfl, hg⟩ | ⟨ts, q, hs, a, rfl, hg, ha, rfl⟩, hl⟩
    · obtain ⟨t, rfl⟩ := List.length_eq_one_iff.1 ((each_length hg).trans hl)
      exact of_groups hg t (by simp)
    · simp at hl

private theorem v6_value {s : Str} : (∃ a, V6Text s a) ↔ (∃ gs, MixedGroups s gs ∧ gs.length = 8) ∨
    ∃ l r gl gr, s = l ++ c%"::" ++ r ∧ HexGroups l gl ∧ MixedGroups r gr ∧ gl.length + gr.length ≤ 7 := by
  constructor
  · rintro ⟨a, ⟨gs, h1, h2, -⟩ | ⟨l, r, gl, gr, h1, h2, h3, h4, -⟩⟩
    · exact .inl ⟨gs, h1, h2⟩
    · exact .inr ⟨l, r, gl, gr, h1, h2, h3, h4⟩
  · have lt {s : Str} {gs : List Nat} (h : MixedGroups s gs) : ∀ g ∈ gs, g < 65536 := by
      obtain ⟨b, ts, -, h⟩ := mixedGroups_iff.1 h
      exact h.lt
    have val {gs : List Nat} (h : ∀ g ∈ gs, g < 65536) (hl : gs.length = 8) : (BitVec.ofNat 128 (groupsValue gs)).toNat = groupsValue gs := by
      have := groupsValue_lt h
      rw [hl] at this
      rw [BitVec.toNat_ofNat, Nat.mod_eq_of_lt (by simpa using this)]
    rintro (⟨gs, h1, h2⟩ | ⟨l, r, gl, gr, h1, h2, h3, h4⟩)
    · exact ⟨_, .inl ⟨gs, h1, h2, val (lt h1) h2⟩⟩
    · refine ⟨_, .inr ⟨l, r, gl, gr, h1, h2, h3, h4, val ?_ ?_⟩⟩
      · intro g hg
        simp only [List.mem_append, List.mem_replicate] at hg
        rcases hg with (h | h) | h
        · exact lt (.inl h2) g h
        · omega
        · exact lt h3 g h
      · simp; omega

private theorem v6_iff {s : Str} : Rfc3986.ipv6Address s ↔ ∃ a, V6Text s a := by
  have left0 {l : Str} (h : ∃ gs, HexGroups l gs ∧ gs.length ≤ 0) : l = [] := by
    obtain ⟨gs, ⟨ts, rfl, hg⟩, hl⟩ := h
    obtain rfl : ts = [] := List.length_eq_zero_iff.1 ((each_length hg).trans (by omega))
    rfl
  have left1 {l : Str} : opt Rfc3986.h16 l ↔ ∃ gs, HexGroups l gs ∧ gs.length ≤ 1 := by
    constructor
    · rintro (rfl | h)
      · exact ⟨[], ⟨[], rfl, trivial⟩, by simp⟩
      · obtain ⟨gs, hg, hl⟩ := groups_of (ts := [l]) (by simpa using h)
        exact ⟨gs, ⟨[l], rfl, hg⟩, by simp at hl; omega⟩
    · rintro ⟨gs, ⟨ts, rfl, hg⟩, hl⟩
      have := each_length hg
      match ts, hg with
      | [], _ => exact .inl rfl
      | [t], hg => exact .inr (of_groups hg t (by simp))
      | _ :: _ :: _, _ => simp at this; omega
  rw [v6_value]
  constructor
  · have mk {l r : Str} {m k : Nat} (hl : ∃ gs, HexGroups l gs ∧ gs.length ≤ m) (hr : ∃ gs, MixedGroups r gs ∧ gs.length = k) (h : m + k = 7) :
        ∃ l' r' gl gr, l ++ (c%"::" ++ r) = l' ++ c%"::" ++ r' ∧ HexGroups l' gl ∧ MixedGroups r' gr ∧ gl.length + gr.length ≤ 7 := by
      obtain ⟨gl, h1, h2⟩ := hl
      obtain ⟨gr, h3, h4⟩ := hr
      exact ⟨l, r, gl, gr, by simp, h1, h3, by omega⟩
    rintro ⟨q, hq, h⟩
    simp only [List.mem_cons, List.not_mem_nil, or_false] at hq
    rcases hq with rfl | rfl | rfl | rfl | rfl | rfl | rfl | rfl | rfl
    · exact .inl (right_iff.1 h)
    · obtain ⟨_, r, rfl, rfl, h⟩ := h
      exact .inr (mk (l := []) (m := 0) ⟨[], ⟨[], rfl, trivial⟩, by simp⟩ (right_iff.1 h) rfl)
    · obtain ⟨l, _, rfl, hl, _, r, rfl, rfl, h⟩ := h
      exact .inr (mk (left1.1 hl) (right_iff.1 h) rfl)
    · obtain ⟨l, _, rfl, hl, _, r, rfl, rfl, h⟩ := h
      exact .inr (mk (left_iff.1 hl) (right_iff.1 h) rfl)
    · obtain ⟨l, _, rfl, hl, _, r, rfl, rfl, h⟩ := h
      exact .inr (mk (left_iff.1 hl) (right_iff.1 h) rfl)
    · obtain ⟨l, _, rfl, hl, _, r, rfl, rfl, t, _, rfl, ht, _, x, rfl, rfl, h⟩ := h
      refine .inr (mk (left_iff.1 hl) (right_iff (k := 1).1 ?_) rfl)
      rw [← List.append_assoc]
      exact rfc_seq_cons ⟨[t ++ c%":"], by simp, by simp, by simp, by
        intro u hu; rw [List.mem_singleton.1 hu]; exact rfc_seq_cons ht (rfc_seq_one rfl)⟩ h
    · obtain ⟨l, _, rfl, hl, _, r, rfl, rfl, x, _, rfl, h, rfl⟩ := h
      refine .inr (mk (left_iff.1 hl) (right_iff (k := 0).1 ?_) rfl)
      exact rfc_seq_cons (u := []) ⟨[], rfl, by simp, by simp, by simp⟩ (rfc_seq_cons h rfl)
    · obtain ⟨l, _, rfl, hl, _, r, rfl, rfl, x, _, rfl, h, rfl⟩ := h
      rw [List.append_nil]
      exact .inr (mk (left_iff.1 hl) (one_iff.1 h) rfl)
    · obtain ⟨l, _, rfl, hl, _, r, rfl, rfl, rfl⟩ := h
      exact .inr (mk (left_iff.1 hl) (none_iff.1 rfl) rfl)
  · rintro (h | ⟨l, r, gl, gr, rfl, hl, hr, h⟩)
    · exact rfc_alt_here (right_iff.2 h)
    · rw [List.append_assoc]
      have r' {k : Nat} (e : gr.length = k) : ∃ gs, MixedGroups r gs ∧ gs.length = k := ⟨gr, hr, e⟩
      have l' {k : Nat} (e : gl.length ≤ k) : ∃ gs, HexGroups l gs ∧ gs.length ≤ k := ⟨gl, hl, e⟩
      have hk : gr.length ≤ 7 := by omega
      obtain e | e | e | e | e | e | e | e : gr.length = 0 ∨ gr.length = 1 ∨ gr.length = 2 ∨ gr.length = 3 ∨ gr.length = 4 ∨
        gr.length = 5 ∨ gr.length = 6 ∨ gr.length = 7 := by omega
      · rw [none_iff.2 (r' e)]
        exact ⟨_, .tail _ (.tail _ (.tail _ (.tail _ (.tail _ (.tail _ (.tail _ (.tail _ (.head _)))))))),
          rfc_seq_cons (left_iff.2 (l' (by omega))) (rfc_seq_cons rfl rfl)⟩
      · exact ⟨_, .tail _ (.tail _ (.tail _ (.tail _ (.tail _ (.tail _ (.tail _ (.head _))))))),
          rfc_seq_cons (left_iff.2 (l' (by omega))) (rfc_seq_cons rfl (rfc_seq_one (one_iff.2 (r' e))))⟩
      · refine ⟨_, .tail _ (.tail _ (.tail _ (.tail _ (.tail _ (.tail _ (.head _)))))),
          rfc_seq_cons (left_iff.2 (l' (by omega))) (rfc_seq_cons rfl ?_)⟩
        obtain ⟨u, v, rfl, ⟨ts, rfl, -, h2, -⟩, h⟩ := right_iff (k := 0).2 (r' e)
        obtain rfl : ts = [] := List.length_eq_zero_iff.1 (by omega)
        exact h
      · refine ⟨_, .tail _ (.tail _ (.tail _ (.tail _ (.tail _ (.head _))))),
          rfc_seq_cons (left_iff.2 (l' (by omega))) (rfc_seq_cons rfl ?_)⟩
        obtain ⟨u, v, rfl, ⟨ts, rfl, h1, h2, h3⟩, h⟩ := right_iff (k := 1).2 (r' e)
        obtain ⟨t, rfl⟩ := List.length_eq_one_iff.1 (by omega : ts.length = 1)
        obtain ⟨t, _, rfl, ht, _, _, rfl, rfl, rfl⟩ := h3 t (by simp)
        simpa using rfc_seq_cons ht (rfc_seq_cons (a := exactly c%":") (u := c%":") rfl h)
      · exact ⟨_, .tail _ (.tail _ (.tail _ (.tail _ (.head _)))),
          rfc_seq_cons (left_iff.2 (l' (by omega))) (rfc_seq_cons rfl (right_iff.2 (r' e)))⟩
      · exact ⟨_, .tail _ (.tail _ (.tail _ (.head _))),
          rfc_seq_cons (left_iff.2 (l' (by omega))) (rfc_seq_cons rfl (right_iff.2 (r' e)))⟩
      · exact ⟨_, .tail _ (.tail _ (.head _)),
          rfc_seq_cons (left1.2 (l' (by omega))) (rfc_seq_cons rfl (right_iff.2 (r' e)))⟩
      · rw [left0 (l' (by omega))]
        exact ⟨_, .tail _ (.head _), rfc_seq_cons (u := c%"::") rfl (right_iff.2 (r' e))⟩

/-! ## The theorems -/

/-- **C113.** The rules for IPv4 and IPv6 addresses that the statements about the other RFCs use are those of RFC 3986. -/
theorem C113_rules : Rfc.ip4 = Rfc3986.ipv4Address ∧ Rfc.ip6 = Rfc3986.ipv6Address :=
  ⟨funext fun _ => propext v4_iff.symm, funext fun _ => propext v6_iff.symm⟩

/-- **C113.** An address is written as the RFC says. -/
theorem C113_written (a : IpAddr) : match a with
    | .v4 _ => Rfc3986.ipv4Address (showIp a)
    | .v6 _ => Rfc3986.ipv6Address (showIp a) := by
  have := ipFromStr_iff.1 (ipFromStr_show a)
  cases a with
  | v4 a => exact v4_iff.2 ⟨a, this⟩
  | v6 a => exact v6_iff.2 ⟨a, this⟩

section
variable [Env]

/-- **C113.** Every IPv4 address of the RFC is read, as the address it stands for, and where a type is declared only as `IP4`. -/
theorem C113_ipv4 {s : Str} (h : Rfc3986.ipv4Address s) :
    ∃ a, V4Text s a ∧ parseAddress s = .ok (.ip (.v4 a)) ∧ typedTryFrom .ipV4 s = .ok (.ip (.v4 a)) ∧
      typedTryFrom .ipV6 s = .err (.addressTypeMismatch .ipV4 .ipV6) := by
  obtain ⟨a, ha⟩ := v4_iff.1 h
  have hp : parseAddress s = .ok (.ip (.v4 a)) := C71_address.2 (.inl ⟨.v4 a, ha, rfl⟩)
  refine ⟨a, ha, hp, ?_, ?_⟩ <;> simp [typedTryFrom, hp, ipAddressType] <;> rfl

/-- **C113.** Every IPv6 address of the RFC is read, as the address it stands for, and where a type is declared only as `IP6`. -/
theorem C113_ipv6 {s : Str} (h : Rfc3986.ipv6Address s) :
    ∃ a, V6Text s a ∧ parseAddress s = .ok (.ip (.v6 a)) ∧ typedTryFrom .ipV6 s = .ok (.ip (.v6 a)) ∧
      typedTryFrom .ipV4 s = .err (.addressTypeMismatch .ipV6 .ipV4) := by
  obtain ⟨a, ha⟩ := v6_iff.1 h
  have hp : parseAddress s = .ok (.ip (.v6 a)) := C71_address.2 (.inl ⟨.v6 a, ha, rfl⟩)
  refine ⟨a, ha, hp, ?_, ?_⟩ <;> simp [typedTryFrom, hp, ipAddressType] <;> rfl

/-- **C113.** No text is both. -/
theorem C113_apart {s : Str} (h4 : Rfc3986.ipv4Address s) (h6 : Rfc3986.ipv6Address s) : False := by
  obtain ⟨a, -, h, -⟩ := C113_ipv4 h4
  obtain ⟨b, -, h', -⟩ := C113_ipv6 h6
  rw [h] at h'
  cases h'

/-- **C113.** A text that is neither is not read as an IP address by the crate: what becomes of it the host parser alone says,
and where that refuses it, it is refused. -/
theorem C113_neither {s : Str} (h4 : ¬ Rfc3986.ipv4Address s) (h6 : ¬ Rfc3986.ipv6Address s) : ipFromStr s = none ∧
    match Env.hostNA s with
      | .domain d => parseAddress s = .ok (.fqdn d)
      | .ipv4 a => parseAddress s = .ok (.ip (.v4 a))
      | .ipv6 a => parseAddress s = .ok (.ip (.v6 a))
      | .error _ => ∀ a, parseAddress s ≠ .ok a := by
  have hn (a : IpAddr) : ¬ IpText s a := by
    cases a with
    | v4 a => exact fun h => h4 (v4_iff.2 ⟨a, h⟩)
    | v6 a => exact fun h => h6 (v6_iff.2 ⟨a, h⟩)
  refine ⟨?_, ?_⟩
  · cases h : ipFromStr s with
    | none => rfl
    | some a => exact absurd (ipFromStr_iff.1 h) (hn a)
  · have key {a : Address} := C71_address (s := s) (a := a)
    cases hh : Env.hostNA s with
    | domain d => exact key.2 (.inr ⟨hn, by simp [hh]⟩)
    | ipv4 d => exact key.2 (.inr ⟨hn, by simp [hh]⟩)
    | ipv6 d => exact key.2 (.inr ⟨hn, by simp [hh]⟩)
    | error m =>
      intro a ha
      rcases key.1 ha with ⟨ip, h, -⟩ | ⟨-, h⟩
      · exact hn ip h
      · simp [hh] at h

/-- **C113.** On a c= line: an address of either rule is taken behind its own type. -/
theorem C113_connection {s : Str} (n : Nat) :
    (Rfc3986.ipv4Address s → ∃ c, parseSdpLine (c%"c=IN IP4 " ++ s) n = .ok ⟨n, .connection c, c%"c=IN IP4 " ++ s⟩) ∧
    (Rfc3986.ipv6Address s → ∃ c, parseSdpLine (c%"c=IN IP6 " ++ s) n = .ok ⟨n, .connection c, c%"c=IN IP6 " ++ s⟩) := by
  obtain ⟨e4, e6⟩ := C113_rules
  rw [← e4, ← e6]
  constructor
  · intro h
    refine C107_connection (v := c%"IN IP4 " ++ s) (rfc_seq_cons (u := c%"IN") (v := c%" IP4 " ++ s) rfl
      (rfc_seq_cons (u := c%" ") (v := c%"IP4 " ++ s) rfl (rfc_seq_one (rfc_alt_here ?_)))) n
    exact rfc_seq_cons (u := c%"IP4") (v := c%" " ++ s) rfl (rfc_seq_cons (u := c%" ") (v := s) rfl
      ⟨s, [], by simp, h, [], [], rfl, .inl rfl, rfl⟩)
  · intro h
    refine C107_connection (v := c%"IN IP6 " ++ s) (rfc_seq_cons (u := c%"IN") (v := c%" IP6 " ++ s) rfl
      (rfc_seq_cons (u := c%" ") (v := c%"IP6 " ++ s) rfl (rfc_seq_one (rfc_alt_there (rfc_alt_here ?_))))) n
    exact rfc_seq_cons (u := c%"IP6") (v := c%" " ++ s) rfl (rfc_seq_cons (u := c%" ") (v := s) rfl
      ⟨s, [], by simp, h, [], [], rfl, .inl rfl, rfl⟩)

end

/-! ## Concrete cases -/

section
attribute [local instance] sampleEnv

private theorem h16_of (t : Str) (h : t ≠ [] ∧ t.length ≤ 4 ∧ ∀ c ∈ t, IsHexDigit c) : Rfc3986.h16 t :=
  h16_iff.2 ⟨_, h.1, h.2.1, h.2.2, rfl⟩

/-- The loopback address of IPv6, by the eighth alternative of the rule. -/
example : Rfc3986.ipv6Address c%"::1" :=
  ⟨_, .tail _ (.tail _ (.tail _ (.tail _ (.tail _ (.tail _ (.tail _ (.head _))))))),
    rfc_seq_cons (u := []) (v := c%"::1") (.inl rfl) (rfc_seq_cons (u := c%"::") (v := c%"1") rfl
      (rfc_seq_one (h16_of _ (by decide +kernel))))⟩
example : Rfc3986.ipv6Address (showIp (.v6 0x20010db8000000000000ff0000428329)) := C113_written (.v6 _)
example : showIp (.v6 0x20010db8000000000000ff0000428329) = c%"2001:db8::ff00:42:8329" := by decide +kernel
example : Rfc3986.ipv4Address c%"203.0.113.255" := by
  have := C113_written (.v4 0xcb0071ff)
  rwa [show showIp (.v4 0xcb0071ff) = c%"203.0.113.255" by decide +kernel] at this
/-- Leading zeros, numbers over 255 and a second gap are against the rules. -/
example : ¬ Rfc3986.ipv4Address c%"203.0.113.07" ∧ ¬ Rfc3986.ipv4Address c%"203.0.113.256" ∧ ¬ Rfc3986.ipv6Address c%"1::2::3" := by
  refine ⟨fun h => ?_, fun h => ?_, fun h => ?_⟩
  · obtain ⟨a, h, -⟩ := C113_ipv4 h
    have := ipFromStr_iff.2 (show IpText _ (.v4 a) from h)
    rw [show ipFromStr c%"203.0.113.07" = none by decide +kernel] at this
    cases this
  · obtain ⟨a, h, -⟩ := C113_ipv4 h
    have := ipFromStr_iff.2 (show IpText _ (.v4 a) from h)
    rw [show ipFromStr c%"203.0.113.256" = none by decide +kernel] at this
    cases this
  · obtain ⟨a, h, -⟩ := C113_ipv6 h
    have := ipFromStr_iff.2 (show IpText _ (.v6 a) from h)
    rw [show ipFromStr c%"1::2::3" = none by decide +kernel] at this
    cases this

end

end Sdp
