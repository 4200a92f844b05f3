import Verif.Spec.Rfc
import Verif.Lemmas.Grammar
import Verif.Props.Bytes
/-!
# What the rules of the RFCs give the parser
-/

namespace Sdp

open Abnf

theorem rep_char {lo : Nat} {p : Char → Bool} {s : Str} :
    rep lo (char p) s ↔ lo ≤ s.length ∧ ∀ c ∈ s, p c = true := by
  constructor
  · rintro ⟨ts, rfl, hlo, h⟩
    have hl : ts.flatten.length = ts.length := by
      clear hlo
      induction ts with
      | nil => rfl
      | cons t ts ih =>
        obtain ⟨c, rfl, -⟩ := h t (by simp)
        simp [ih fun t ht => h t (by simp [ht])]
    refine ⟨by omega, fun c hc => ?_⟩
    obtain ⟨t, ht, hc⟩ := List.mem_flatten.1 hc
    obtain ⟨d, rfl, hd⟩ := h t ht
    simp at hc; subst hc; exact hd
  · rintro ⟨hlo, h⟩
    refine ⟨s.map fun c => [c], ?_, by simpa using hlo, ?_⟩
    · simp [← List.flatMap_def]
    · intro t ht
      obtain ⟨c, hc, rfl⟩ := List.mem_map.1 ht
      exact ⟨c, rfl, h c hc⟩

theorem reps_rep {lo hi : Nat} {a : Rule} {s : Str} (h : reps lo hi a s) : rep lo a s := by
  obtain ⟨ts, h1, h2, -, h4⟩ := h; exact ⟨ts, h1, h2, h4⟩

theorem reps_char {lo hi : Nat} {p : Char → Bool} {s : Str} (h : reps lo hi (char p) s) :
    lo ≤ s.length ∧ s.length ≤ hi ∧ ∀ c ∈ s, p c = true := by
  obtain ⟨h1, h2⟩ := rep_char.1 (reps_rep h)
  refine ⟨h1, ?_, h2⟩
  obtain ⟨ts, rfl, -, h3, h4⟩ := h
  have : ∀ l : List Str, (∀ t ∈ l, char p t) → l.flatten.length = l.length := by
    intro l hl
    induction l with
    | nil => rfl
    | cons t l ih =>
      obtain ⟨c, rfl, -⟩ := hl t (by simp)
      simp [ih fun t ht => hl t (by simp [ht])]
  rw [this ts h4]; exact h3

theorem token_of_chars {lo : Nat} {p : Char → Bool} {s : Str} (h : rep lo (char p) s) (hlo : 0 < lo)
    (hp : ∀ c, p c = true → isWs c = false) : Token s := by
  obtain ⟨h1, h2⟩ := rep_char.1 h
  refine ⟨?_, fun c hc => hp c (h2 c hc)⟩
  rintro rfl; simp at h1; omega

theorem vchar_ws {c : Char} (h : 0x21 ≤ c.toNat ∧ c.toNat ≤ 0x7e) : isWs c = false := by
  simp only [isWs, Bool.or_eq_false_iff, Bool.and_eq_false_iff, decide_eq_false_iff_not, beq_eq_false_iff_ne]
  omega

theorem tokenChar {c : Char} (h : Rfc.isTokenChar c = true) :
    (0x21 ≤ c.toNat ∧ c.toNat ≤ 0x7e) ∧ c ∉ [':', ';', '/', ',', '='] := by
  simp only [Rfc.isTokenChar, Bool.or_eq_true, Bool.and_eq_true, decide_eq_true_eq, beq_iff_eq] at h
  refine ⟨by omega, ?_⟩
  simp only [List.mem_cons, List.not_mem_nil, or_false]
  rintro (rfl | rfl | rfl | rfl | rfl) <;> simp at h

theorem token_token {s : Str} (h : Rfc.token s) : Token s :=
  token_of_chars h (by omega) fun _ hc => vchar_ws (tokenChar hc).1

theorem token_not_mem {s : Str} (h : Rfc.token s) {c : Char} (hc : c ∈ [':', ';', '/', ',', '=']) : c ∉ s :=
  fun hm => (tokenChar ((rep_char.1 h).2 c hm)).2 hc

theorem alphaNumeric {c : Char} (h : Rfc.isAlphaNumeric c = true) : (0x30 ≤ c.toNat ∧ c.toNat ≤ 0x7a) ∧
    c ∉ [':', ';', '/', ',', '=', '~'] := by
  simp only [Rfc.isAlphaNumeric, Bool.or_eq_true, Bool.and_eq_true, decide_eq_true_eq] at h
  refine ⟨by omega, ?_⟩
  simp only [List.mem_cons, List.not_mem_nil, or_false]
  rintro (rfl | rfl | rfl | rfl | rfl | rfl) <;> simp at h

theorem iceChar {c : Char} (h : Rfc.isIceChar c = true) : isWs c = false := by
  simp only [Rfc.isIceChar, Bool.or_eq_true, beq_iff_eq] at h
  rcases h with (h | rfl) | rfl
  · have := (alphaNumeric h).1; exact vchar_ws (by omega)
  · rfl
  · rfl

theorem number_dec {max : Nat} {s : Str} (h : number max s) : DecText s (decValue s) ∧ decValue s ≤ max :=
  ⟨⟨s, .inl rfl, h.1, h.2.1, rfl⟩, h.2.2⟩

theorem digit_nat {c : Char} (h : c.isDigit = true) : 0x30 ≤ c.toNat ∧ c.toNat ≤ 0x39 := by
  simp only [Char.isDigit, Bool.and_eq_true, decide_eq_true_eq, ge_iff_le, UInt32.le_iff_toNat_le] at h
  exact h

theorem number_token {max : Nat} {s : Str} (h : number max s) : Token s :=
  ⟨h.1, fun c hc => vchar_ws (by have := digit_nat (h.2.1 c hc); omega)⟩

theorem number_not_mem {max : Nat} {s : Str} (h : number max s) {c : Char} (hc : c.isDigit = false) : c ∉ s :=
  fun hm => by rw [h.2.1 c hm] at hc; cases hc

theorem ascii_of_word {t s : Str} (ht : ∀ c ∈ t, c.toNat < 128) (h : word t s) : isAscii s = true := by
  simp only [isAscii, List.all_eq_true, decide_eq_true_eq]
  intro c hc
  by_contra hn
  have h1 : c.toLower = c := by
    rw [← (C104_case c).1]
    unfold asciiLower
    have h2 : 'Z'.toNat = 90 := rfl
    rw [if_neg (by simp; omega)]
  have h3 : c ∈ t.map Char.toLower := by
    rw [← h, ← h1]; exact List.mem_map_of_mem hc
  obtain ⟨d, hd, e⟩ := List.mem_map.1 h3
  have h4 := ht d hd
  have key : ∀ n < 128, (Char.ofNat n).toLower.toNat < 128 := by decide +kernel
  have := key d.toNat h4
  rw [Char.ofNat_toNat, e] at this
  exact hn this

theorem lower_word [Env] {t s : Str} (ht : ∀ c ∈ t, c.toNat < 128) (h : word t s) : lower s = t.map Char.toLower := by
  unfold lower
  rw [if_pos (ascii_of_word ht h), ← h]
  exact List.map_congr_left fun c _ => (C104_case c).1

theorem upper_word [Env] {t s : Str} (ht : ∀ c ∈ t, c.toNat < 128) (h : word t s) : upper s = t.map Char.toUpper := by
  unfold upper
  rw [if_pos (ascii_of_word ht h)]
  have e : ∀ c : Char, c.toNat < 128 → asciiUpper c = c.toLower.toUpper := by
    have key : ∀ n < 128, asciiUpper (Char.ofNat n) = (Char.ofNat n).toLower.toUpper := by decide +kernel
    intro c hc
    have := key c.toNat hc
    rwa [Char.ofNat_toNat] at this
  have hs := ascii_of_word ht h
  simp only [isAscii, List.all_eq_true, decide_eq_true_eq] at hs
  have h1 : s.map asciiUpper = (s.map Char.toLower).map Char.toUpper := by
    rw [List.map_map]; exact List.map_congr_left fun c hc => e c (hs c hc)
  have h2 : t.map Char.toUpper = (t.map Char.toLower).map Char.toUpper := by
    rw [List.map_map]
    exact List.map_congr_left fun c hc => by rw [← (C104_case c).2]; exact e c (ht c hc)
  rw [h1, h2, h]

theorem word_token {t s : Str} (ht : ∀ c ∈ t, 0x21 ≤ c.toNat ∧ c.toNat ≤ 0x7e) (hne : t ≠ []) (h : word t s) : Token s := by
  constructor
  · rintro rfl; unfold word at h; simp at h; exact hne h
  · intro c hc
    have h3 : c.toLower ∈ t.map Char.toLower := by rw [← h]; exact List.mem_map_of_mem hc
    obtain ⟨d, hd, e⟩ := List.mem_map.1 h3
    have h4 := ht d hd
    have hc : c.toNat < 128 := by
      have := ascii_of_word (fun c hc => by have := ht c hc; omega) h
      simp only [isAscii, List.all_eq_true, decide_eq_true_eq] at this
      exact this c hc
    have key : ∀ n < 128, ∀ m < 128, 0x21 ≤ m → (Char.ofNat m).toLower = (Char.ofNat n).toLower → isWs (Char.ofNat n) = false := by
      decide +kernel
    have := key c.toNat hc d.toNat (by omega) h4.1
    rw [Char.ofNat_toNat, Char.ofNat_toNat] at this
    exact this e

theorem splitWs_token {a b : Str} (ha : Token a) : splitWs (a ++ ' ' :: b) = a :: splitWs b := splitWs_space ha.2 ha.1

theorem splitWs_last {a : Str} (ha : Token a) : splitWs a = [a] := splitWs_single ha.2 ha.1

/-- A repetition of parts that begin with the same character. -/
theorem rep_sep {c : Char} {P : Rule} {lo : Nat} {s : Str} (h : rep lo (seq [exactly [c], P]) s) :
    ∃ ws : List Str, lo ≤ ws.length ∧ (∀ w ∈ ws, P w) ∧ s = (ws.map (c :: ·)).flatten := by
  obtain ⟨ts, rfl, hlo, ht⟩ := h
  have : ∃ ws : List Str, ts = ws.map (c :: ·) ∧ ∀ w ∈ ws, P w := by
    clear hlo
    induction ts with
    | nil => exact ⟨[], rfl, by simp⟩
    | cons t ts ih =>
      obtain ⟨ws, rfl, h⟩ := ih fun t h => ht t (by simp [h])
      obtain ⟨u, v, rfl, hu, w, x, rfl, hw, hx⟩ := ht t (by simp)
      cases hu; cases hx
      refine ⟨w :: ws, by simp, ?_⟩
      simpa using ⟨hw, h⟩
  obtain ⟨ws, rfl, h⟩ := this
  exact ⟨ws, by simpa using hlo, h, rfl⟩

theorem reps_sep {c : Char} {P : Rule} {lo hi : Nat} {s : Str} (h : reps lo hi (seq [exactly [c], P]) s) :
    ∃ ws : List Str, lo ≤ ws.length ∧ ws.length ≤ hi ∧ (∀ w ∈ ws, P w) ∧ s = (ws.map (c :: ·)).flatten := by
  obtain ⟨ts, rfl, hlo, hhi, ht⟩ := h
  have : ∃ ws : List Str, ts = ws.map (c :: ·) ∧ ∀ w ∈ ws, P w := by
    clear hlo hhi
    induction ts with
    | nil => exact ⟨[], rfl, by simp⟩
    | cons t ts ih =>
      obtain ⟨ws, rfl, hw⟩ := ih fun t h => ht t (by simp [h])
      obtain ⟨_, _, rfl, rfl, w, _, rfl, h, rfl⟩ := ht t (by simp)
      exact ⟨w :: ws, by simp, by simpa using ⟨h, hw⟩⟩
  obtain ⟨ws, rfl, hw⟩ := this
  exact ⟨ws, by simpa using hlo, by simpa using hhi, hw, rfl⟩

theorem splitWs_words {a : Str} {ws : List Str} (ha : Token a) (h : ∀ w ∈ ws, Token w) :
    splitWs (a ++ (ws.map (' ' :: ·)).flatten) = a :: ws := by
  induction ws generalizing a with
  | nil => simpa using splitWs_last ha
  | cons w ws ih =>
    simp only [List.map_cons, List.flatten_cons, List.cons_append]
    rw [splitWs_token ha, ih (h w (by simp)) fun w hw => h w (by simp [hw])]

theorem joinS_words (c : Char) (a : Str) (ws : List Str) : a ++ (ws.map (c :: ·)).flatten = joinS [c] (a :: ws) := by
  induction ws generalizing a with
  | nil => simp [joinS]
  | cons w ws ih =>
    have : joinS [c] (a :: w :: ws) = a ++ [c] ++ joinS [c] (w :: ws) := rfl
    rw [this, ← ih w]
    simp

theorem splitC_words {c : Char} {a : Str} {ws : List Str} (ha : c ∉ a) (h : ∀ w ∈ ws, c ∉ w) :
    splitC c (a ++ (ws.map (c :: ·)).flatten) = a :: ws := by
  rw [joinS_words]
  exact splitC_joinS (by simp) (by simpa using ⟨ha, h⟩)

theorem number_u8 {max : Nat} {s : Str} (h : number max s) (hm : max < 2 ^ 8) : ∃ x : UInt8, DecText s x.toNat ∧ x.toNat ≤ max := by
  obtain ⟨h1, h2⟩ := number_dec h
  have e : (UInt8.ofNat (decValue s)).toNat = decValue s := UInt8.toNat_ofNat_of_lt' (by show _ < 2 ^ 8; omega)
  exact ⟨.ofNat (decValue s), by rwa [e], by rwa [e]⟩

theorem number_u16 {max : Nat} {s : Str} (h : number max s) (hm : max < 2 ^ 16) : ∃ x : UInt16, DecText s x.toNat ∧ x.toNat ≤ max := by
  obtain ⟨h1, h2⟩ := number_dec h
  have e : (UInt16.ofNat (decValue s)).toNat = decValue s := UInt16.toNat_ofNat_of_lt' (by show _ < 2 ^ 16; omega)
  exact ⟨.ofNat (decValue s), by rwa [e], by rwa [e]⟩

theorem number_u32 {max : Nat} {s : Str} (h : number max s) (hm : max < 2 ^ 32) : ∃ x : UInt32, DecText s x.toNat ∧ x.toNat ≤ max := by
  obtain ⟨h1, h2⟩ := number_dec h
  have e : (UInt32.ofNat (decValue s)).toNat = decValue s := UInt32.toNat_ofNat_of_lt' (by show _ < 2 ^ 32; omega)
  exact ⟨.ofNat (decValue s), by rwa [e], by rwa [e]⟩

theorem number_u64 {max : Nat} {s : Str} (h : number max s) (hm : max < 2 ^ 64) : ∃ x : UInt64, DecText s x.toNat ∧ x.toNat ≤ max := by
  obtain ⟨h1, h2⟩ := number_dec h
  have e : (UInt64.ofNat (decValue s)).toNat = decValue s := UInt64.toNat_ofNat_of_lt' (by show _ < 2 ^ 64; omega)
  exact ⟨.ofNat (decValue s), by rwa [e], by rwa [e]⟩

section
variable [Env]

theorem attr_open {name : Str} (h1 : ':' ∉ name) (h2 : lower name = name) (v : Str) :
    AttrText (name ++ ':' :: v) name (trim v) :=
  ⟨name, v, rfl, h1, h2, stripped_iff.2 rfl⟩

end

end Sdp
