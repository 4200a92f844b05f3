import Verif.Spec.Sample
import Verif.Lemmas.Sections
/-!
# C01, C02: panic freedom
-/

namespace Sdp

/-- **C01.** `parse_sdp` returns `Ok` or `Err` for every text of fewer than 2^31 bytes, whatever the
outside world does. -/
theorem C01_parse_sdp_never_panics [Env] (s : Str) (failOnWarning : Bool) (h : byteLen s < 2^31) :
    (∃ r, parseSdp s failOnWarning = .ok r) ∨ ∃ e, parseSdp s failOnWarning = .err e := by
  have := np_parseSdp h failOnWarning
  cases hp : parseSdp s failOnWarning with
  | ok r => exact .inl ⟨r, rfl⟩
  | err e => exact .inr ⟨e, rfl⟩
  | panic => exact absurd hp this

example : byteLen sampleText < 2^31 := by decide +kernel

/-- Helper: `k` opening braces drive the counter from `n` over the limit. -/
theorem imageTokensLoop_overflow (sep : Char) (n : Int) (cur : List Str) (k : Nat)
    (hn : 0 ≤ n) (hk : 2^31 ≤ n + k) (hlt : n < 2^31) :
    imageTokensLoop sep n cur (List.replicate k c%"[") = .panic := by
  induction k generalizing n cur with
  | zero => exfalso; simp at hk; omega
  | succ k ih =>
    rw [List.replicate_succ, imageTokensLoop]
    rw [show (if '[' ∈ (c%"[" : Str) then n + 1 else n) = n + 1 from if_pos (by decide)]
    simp only []
    by_cases h : n + 1 ≥ 2^31
    · rw [if_pos h]
    · rw [if_neg h, show (if ']' ∈ (c%"[" : Str) then n + 1 - 1 else n + 1) = n + 1 from if_neg (by decide),
        if_neg (by omega), if_neg (by omega)]
      exact ih (n + 1) _ (by omega) (by push_cast at hk; omega) (by omega)

theorem trim_of_ends {s : Str} (hne : s ≠ []) (h1 : isWs (s.head hne) = false)
    (h2 : isWs (s.getLast hne) = false) : trim s = s := by
  have hs : trimStart s = s := by
    cases s with
    | nil => rfl
    | cons a l => simp [trimStart, List.dropWhile_cons] at h1 ⊢; simp [h1]
  unfold trim
  rw [hs]
  unfold trimEnd
  have : s.reverse.dropWhile isWs = s.reverse := by
    cases hr : s.reverse with
    | nil => simp
    | cons a l =>
      have ha : a = s.getLast hne := by
        have := List.head_reverse (l := s) (by simpa using hne)
        rw [← this]; simp [hr]
      rw [List.dropWhile_cons_of_neg]
      rw [ha]; simp [h2]
  rw [this, List.reverse_reverse]

theorem byteLen_append (a b : Str) : byteLen (a ++ b) = byteLen a + byteLen b := by
  simp [byteLen]

theorem joinS_replicate_props (k : Nat) :
    let s := joinS [' '] (List.replicate (k + 1) c%"[")
    ∃ t, s = '[' :: t ∧ s.getLast? = some '[' ∧ '\n' ∉ s ∧ ':' ∉ s ∧ k + 1 ≤ s.length := by
  induction k with
  | zero => exact ⟨[], by decide⟩
  | succ k ih =>
    obtain ⟨t, h1, h2, h3, h4, h5⟩ := ih
    have : joinS [' '] (List.replicate (k + 1 + 1) c%"[") =
        '[' :: ' ' :: joinS [' '] (List.replicate (k + 1) c%"[") := by
      rw [List.replicate_succ, List.replicate_succ, joinS]; rfl
    refine ⟨' ' :: joinS [' '] (List.replicate (k + 1) c%"["), this, ?_⟩
    simp only [this]
    refine ⟨?_, by simp [h3], by simp [h4], by simp; omega⟩
    rw [h1] at h2 ⊢
    simpa using h2

/-- **C01, the bound is needed.** A text of 2^31 opening braces in an imageattr overflows the `i32`
brace counter: the hypothesis of `C01_parse_sdp_never_panics` cannot be dropped. -/
theorem C01_bound_needed [Env] (k : Nat) (hk : 2^31 ≤ k) (failOnWarning : Bool) :
    parseSdp (c%"a=imageattr:" ++ joinS [' '] (List.replicate k c%"[")) failOnWarning = .panic := by
  obtain ⟨k, rfl⟩ : ∃ j, k = j + 1 := ⟨k - 1, by omega⟩
  have hsplit : splitC ' ' (joinS [' '] (List.replicate (k + 1) c%"[")) = List.replicate (k + 1) c%"[" :=
    splitC_joinS (by simp) (by intro t ht; simp at ht; subst ht; decide)
  obtain ⟨t, h1, h2, h3, h4, h5⟩ := joinS_replicate_props k
  have hpanic : imageTokens (joinS [' '] (List.replicate (k + 1) c%"[")) ' ' = .panic := by
    unfold imageTokens
    rw [hsplit]
    exact imageTokensLoop_overflow ' ' 0 [] (k + 1) (by omega) (by push_cast; omega) (by omega)
  generalize joinS [' '] (List.replicate (k + 1) c%"[") = s at *
  have hne : s ≠ [] := by rw [h1]; simp
  have hlast : s.getLast hne = '[' := by
    rw [List.getLast?_eq_getLast_of_ne_nil hne] at h2; simpa using h2
  have hhead : s.head hne = '[' := by subst h1; rfl
  have ht0 : trim s = s := trim_of_ends hne (by rw [hhead]; decide) (by rw [hlast]; decide)
  have ht1 : trim (c%"imageattr:" ++ s) = c%"imageattr:" ++ s :=
    trim_of_ends (by simp) (by simp; decide)
      (by rw [List.getLast_append_of_right_ne_nil _ _ hne, hlast]; decide)
  have hattr : attrFromStr (c%"imageattr:" ++ s) = .panic := by
    unfold attrFromStr
    rw [show c%"imageattr:" ++ s = c%"imageattr" ++ ':' :: s from rfl, splitn_two_append (by decide)]
    have hl : lower c%"imageattr" = c%"imageattr" := by
      unfold lower; rw [if_pos (by decide)]; decide
    simp only [idx, List.getElem?_cons_zero, ok_bind, List.getElem?_cons_succ, hl, ht0]
    rw [if_neg (by rintro ⟨_, h⟩; revert h; decide)]
    rw [show attrTypeOfName c%"imageattr" = some .imageAttr by decide]
    simp only [parseAttrValue, parseImageAttr, hpanic, panic_bind]
  have hl : parseSdpLine (c%"a=imageattr:" ++ s) 0 = .panic := by
    unfold parseSdpLine
    simp only []
    rw [if_neg (by simp)]
    rw [show c%"a=imageattr:" ++ s = c%"a" ++ '=' :: (c%"imageattr:" ++ s) from rfl,
      splitn_two_append (by decide)]
    have hty : lower (trim c%"a") = c%"a" := by
      unfold lower; rw [if_pos (by decide)]; decide
    simp only [ht1, hty]
    rw [if_neg (by decide), if_neg (by decide), if_neg (by simp)]
    have : parseLineValue c%"a" (c%"imageattr:" ++ s) (c%"imageattr:" ++ s) = .panic := by
      unfold parseLineValue
      rw [if_pos rfl]
      unfold parseAttribute
      rw [ht1, hattr]; rfl
    rw [this]
  have hlines : lines (c%"a=imageattr:" ++ s) = [c%"a=imageattr:" ++ s] := by
    unfold lines
    rw [splitC_of_not_mem (by simp [h3])]
    simp [linesGo]
  unfold parseSdp
  rw [if_neg (by simp), if_neg, hlines]
  · have : scanLines 0 [c%"a=imageattr:" ++ s] ⟨[], [], []⟩ = .panic := by
      rw [scanLines_panic]
      refine ⟨(c%"a=imageattr:" ++ s, 0), ?_, hl⟩
      rw [contentFrom_cons, if_neg]
      · simp
      · intro hb; exact absurd (hb 'a' (by simp)) (by decide)
    rw [this]; rfl
  · have := length_le_byteLen s
    rw [byteLen_append]; omega

/-- **C02.** The other parsing entry points do not panic (texts below 2^31 bytes where the text is
unbounded in the size of the counter). -/
theorem C02_entry_points_never_panic [Env] :
    (∀ l n, byteLen l < 2^31 → parseSdpLine l n ≠ .panic) ∧
    (∀ l, byteLen l < 2^31 → attrFromStr l ≠ .panic) ∧
    (∀ s, parseAddress s ≠ .panic) ∧
    (∀ t s, typedTryFrom t s ≠ .panic) ∧
    (∀ s, parseAddrType s ≠ .panic) ∧
    (∀ s, parseMedia s ≠ .panic) ∧
    (∀ h b, fingerprintTryFrom h b ≠ .panic) ∧
    (∀ h s, parseOctets h s ≠ .panic) ∧
    (∀ (s : Session) ls, (s.parseVector ls).2 ≠ .panic) ∧
    (∀ ls, parseSdpVector ls ≠ .panic) ∧
    (∀ s : Session, sanityCheck s ≠ .panic) := by
  refine ⟨fun l n h => np_parseSdpLine n ?_, fun l h => np_attrFromStr ?_, np_parseAddress, np_typedTryFrom,
    np_parseAddrType, np_parseMedia, np_fingerprintTryFrom, np_parseOctets, np_parseVector,
    np_parseSdpVector, np_sanityCheck⟩
  all_goals exact Nat.lt_of_le_of_lt (length_le_byteLen l) h

/-- **C02.** `parse_media_vector` panics exactly when it is given no lines. -/
theorem C02_parse_media_vector_panics_iff [Env] (ls : List SdpLine) :
    parseMediaVector ls = .panic ↔ ls = [] := by
  constructor
  · intro h
    cases ls with
    | nil => rfl
    | cons l ls =>
      unfold parseMediaVector at h
      simp only [] at h
      split at h
      · exact absurd h (np_mediaLoop _ _ _)
      · simp at h
  · rintro rfl; rfl

/-- **C02.** The mutators do not panic. -/
theorem C02_mutators_never_panic [Env] (s : Session) (m : Media) :
    (∀ a, (m.addAttribute a).2 ≠ .panic) ∧ (∀ a, (m.setAttribute a).2 ≠ .panic) ∧
    (∀ r, (m.addCodec r).2 ≠ .panic) ∧
    (∀ n p st sz, (m.addDatachannel n p st sz).2 ≠ .panic) ∧
    (∀ a, (s.addAttribute a).2 ≠ .panic) ∧
    (∀ t d p pr ad, (s.addMedia t d p pr ad).2 ≠ .panic) := by
  have hadd : ∀ (m : Media) a, (m.addAttribute a).2 ≠ .panic := by
    intro m a; unfold Media.addAttribute; split <;> simp [egeneric]
  have hset : ∀ (m : Media) a, (m.setAttribute a).2 ≠ .panic := fun m a => hadd _ a
  have hthen : ∀ x k, x.2 ≠ .panic → (∀ m : Media, (k m).2 ≠ .panic) → (Media.andThen x k).2 ≠ .panic := by
    rintro ⟨m, r⟩ k h1 h2
    cases r with
    | ok u => exact h2 m
    | err e => simp [Media.andThen]
    | panic => exact absurd rfl h1
  refine ⟨hadd m, hset m, fun r => ?_, fun n p st sz => ?_, fun a => ?_, fun t d p pr ad => ?_⟩
  · unfold Media.addCodec; exact hadd _ _
  · unfold Media.addDatachannel
    refine hthen _ _ ?_ fun m => hthen _ _ ?_ fun m => by simp
    · split <;> exact hset _ _
    · split
      · exact hset _ _
      · simp
  · unfold Session.addAttribute; split <;> simp [egeneric]
  · unfold Session.addMedia
    simp only []
    have := hadd (Media.new ⟨t, p, 1, pr, .integers []⟩) d
    split
    · simp
    · simp
    · rename_i h; rw [h] at this; exact absurd rfl this

end Sdp
