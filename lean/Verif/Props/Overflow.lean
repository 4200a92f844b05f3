import Verif.Spec.Sample
import Verif.Spec.Lines
import Verif.Lemmas.Overflow
import Verif.Lemmas.Erase
import Verif.Props.Grammar4
import Verif.Props.Panic
/-!
# C01: the only way to panic
-/

namespace Sdp

section
variable [Env]

theorem mem_lines_of_content {s : Str} {p : Str × Nat} (h : p ∈ contentLines s) : p.1 ∈ lines s := by
  have := List.mem_map_of_mem (f := Prod.fst) h
  rw [map_fst_contentLines] at this
  exact (List.mem_filter.1 this).1

theorem np_lineValue_other {ty : Str} (h : ty ≠ c%"a") (v raw : Str) : NP (parseLineValue ty v raw) := by
  unfold parseLineValue
  rw [if_neg h]
  have h1 := np_parseBandwidth v
  have h2 := np_parseConnection v
  have h3 := np_parseMedia v
  have h4 := np_parseOrigin v
  have h5 := np_parseTiming v
  have h6 := np_parseVersion v
  have h7 : NP (parseSessionName raw) := NP.ok _
  np

theorem parseSdpLine_panic {l : Str} {n : Nat} (h : parseSdpLine l n = .panic) :
    ∃ raw w v, LineForm l 'a' raw ∧ Stripped raw w ∧ AttrText w c%"imageattr" v ∧ ¬ FewBrackets v := by
  unfold parseSdpLine at h
  simp only [] at h
  split at h
  · simp at h
  · rename_i hm
    simp only [not_not] at hm
    obtain ⟨a, b, h1, rfl, ha⟩ := splitn_two_of_mem hm
    rw [h1] at h
    simp only [] at h
    split at h
    · simp at h
    · split at h
      · simp at h
      · split at h
        · simp at h
        · rename_i hlen hne _
          obtain ⟨c, hc, hlt⟩ := byteLen_one.1 ⟨hlen, by simpa using hne⟩
          have hd : lower (trim a) = [asciiLower c] := by rw [hc]; simp [lower, isAscii, hlt]
          split at h
          · simp at h
          · simp at h
          · rename_i hp
            rw [hd] at hp
            by_cases hA : asciiLower c = 'a'
            · rw [hA] at hp
              have hp : parseAttribute (trim b) = .panic := hp
              cases hx : attrFromStr (trim b) with
              | ok x => simp [parseAttribute, trim_trim, hx] at hp
              | err x => simp [parseAttribute, trim_trim, hx] at hp
              | panic =>
                obtain ⟨v, h2, h3⟩ := attrFromStr_panic hx
                refine ⟨b, trim b, v, ⟨a, c, rfl, ha, stripped_iff.2 hc.symm, ?_, hlt⟩, stripped_iff.2 rfl, h2, h3⟩
                rw [← hc, hd, hA]
            · exfalso
              exact np_lineValue_other (by simpa using hA) _ _ hp

/-- **C01, the only way to panic.** If `parse_sdp` panics, then one of the lines of the text is an
imageattr attribute with at least 2^31 opening brackets, or more than 2^31 closing ones. -/
theorem C01_only_imageattr {s : Str} {failOnWarning : Bool} (h : parseSdp s failOnWarning = .panic) :
    ∃ l ∈ lines s, ∃ raw w v, LineForm l 'a' raw ∧ Stripped raw w ∧ AttrText w c%"imageattr" v ∧
      (2^31 ≤ v.count '[' ∨ 2^31 < v.count ']') := by
  by_cases hs : 51 ≤ byteLen s
  · rw [parseSdp_eq hs] at h
    split at h
    · rename_i hp
      obtain ⟨⟨l, n⟩, hm, hp⟩ := hp
      obtain ⟨raw, w, v, h1, h2, h3, h4⟩ := parseSdpLine_panic hp
      refine ⟨l, mem_lines_of_content hm, raw, w, v, h1, h2, h3, ?_⟩
      unfold FewBrackets at h4
      omega
    · exact absurd h (np_finishScan _ _)
  · unfold parseSdp at h
    split at h
    · simp at h
    · rw [if_pos (by omega)] at h
      simp at h

/-- **C01, lines are independent.** `parse_sdp` panics exactly when the text is long enough to be looked at
and one of its lines that are not blank panics on its own, whatever the others say and whatever is decided
about warnings. -/
theorem C01_panics_iff {s : Str} {failOnWarning : Bool} : parseSdp s failOnWarning = .panic ↔
    51 ≤ byteLen s ∧ ∃ l ∈ lines s, ¬ Blank l ∧ ∀ n, parseSdpLine l n = .panic := by
  constructor
  · intro h
    by_cases hs : 51 ≤ byteLen s
    · refine ⟨hs, ?_⟩
      rw [parseSdp_eq hs] at h
      split at h
      · rename_i hp
        obtain ⟨⟨l, n⟩, hm, hp⟩ := hp
        have := List.mem_map_of_mem (f := Prod.fst) hm
        rw [map_fst_contentLines] at this
        simp only [List.mem_filter, decide_eq_true_eq] at this
        refine ⟨l, this.1, this.2, fun m => ?_⟩
        have key := parseSdpLine_number l n m
        simp only [] at hp
        rw [hp] at key
        exact key
      · exact absurd h (np_finishScan _ _)
    · unfold parseSdp at h
      split at h
      · simp at h
      · rw [if_pos (by omega)] at h
        simp at h
  · rintro ⟨hs, l, hl, hb, hp⟩
    have : l ∈ (contentLines s).map Prod.fst := by
      rw [map_fst_contentLines]
      simp [hl, hb]
    obtain ⟨⟨l', n⟩, hm, rfl⟩ := List.mem_map.1 this
    rw [parseSdp_eq hs, if_pos ⟨_, hm, hp n⟩]

end

/-! The hypothesis of the two theorems can be met: `C01_bound_needed` gives such texts. -/
section
attribute [local instance] sampleEnv

example : parseSdp (c%"a=imageattr:" ++ joinS [' '] (List.replicate (2^31) c%"[")) true = .panic :=
  C01_bound_needed _ (Nat.le_refl _) _

end

end Sdp
