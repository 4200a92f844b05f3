import Verif.Lemmas.Parts
/-!
# Dispatch on the attribute name
-/

namespace Sdp

theorem attrTypeOfName_name (t : AttributeType) : attrTypeOfName t.name = some t := by
  cases t <;> rfl

theorem attrTypeOfName_some {n : Str} {t : AttributeType} (h : attrTypeOfName n = some t) :
    n = t.name := by
  unfold attrTypeOfName at h
  iterate 43
    rcases ite_cases h with ⟨hn, ht⟩ | ⟨-, h⟩
    · cases ht; exact hn
  simp at h

theorem attrTypeOfName_iff {n : Str} {t : AttributeType} : attrTypeOfName n = some t ↔ n = t.name :=
  ⟨attrTypeOfName_some, fun h => h ▸ attrTypeOfName_name t⟩

theorem attrTypeOfName_none {n : Str} : attrTypeOfName n = none ↔ ∀ t : AttributeType, t.name ≠ n := by
  constructor
  · rintro h t rfl; rw [attrTypeOfName_name] at h; cases h
  · intro h
    cases ht : attrTypeOfName n with
    | none => rfl
    | some t => exact absurd (attrTypeOfName_some ht).symm (h t)

section
variable [Env]

/-- `from_str` on a text with a colon. -/
theorem attrFromStr_colon {n v : Str} (hn : ':' ∉ n) : attrFromStr (n ++ ':' :: v) =
    if isFlagName (lower n) = true then egeneric (lower n ++ c%" attribute is not allowed to have a value")
    else match attrTypeOfName (lower n) with
      | some t => parseAttrValue t (trim v)
      | none => eunsupported (c%"Unknown attribute type " ++ lower n) := by
  unfold attrFromStr
  rw [splitn_two_append hn]
  by_cases h : isFlagName (lower n) = true
  · simp [idx, h]
  · cases ht : attrTypeOfName (lower n) <;> simp [idx, h, ht]

/-- `from_str` on a text without a colon. -/
theorem attrFromStr_plain {n : Str} (hn : ':' ∉ n) : attrFromStr n =
    match attrTypeOfName (lower n) with
      | some t => parseAttrValue t []
      | none => eunsupported (c%"Unknown attribute type " ++ lower n) := by
  unfold attrFromStr
  rw [splitn_two_of_not_mem hn]
  cases ht : attrTypeOfName (lower n) <;> simp [idx, ht]

/-- Every text is one or the other. -/
theorem colon_cases (l : Str) : ':' ∉ l ∨ ∃ n v, l = n ++ ':' :: v ∧ ':' ∉ n := by
  rcases splitn_two_cases ':' l with ⟨-, h⟩ | ⟨a, b, -, h1, h2⟩
  · exact .inl h
  · exact .inr ⟨a, b, h1, h2⟩

theorem takeWhile_colon {n v : Str} (hn : ':' ∉ n) :
    (n ++ ':' :: v).takeWhile (fun c => decide (c ≠ ':')) = n := by
  rw [List.takeWhile_append_of_pos]
  · simp
  · intro a ha; simp; rintro rfl; exact hn ha

theorem takeWhile_plain {n : Str} (hn : ':' ∉ n) : n.takeWhile (fun c => decide (c ≠ ':')) = n := by
  have := List.takeWhile_append_of_pos (p := fun c => decide (c ≠ ':')) (l₁ := n) (l₂ := [])
    (fun a ha => by simp; rintro rfl; exact hn ha)
  simpa using this

theorem isFlagName_iff {n : Str} : isFlagName n = true ↔
    ∃ t ∈ [AttributeType.bundleOnly, .endOfCandidates, .extmapAllowMixed, .iceLite, .iceMismatch,
      .inactive, .recvonly, .rtcpMux, .rtcpMuxOnly, .rtcpRsize, .sendonly, .sendrecv], n = t.name := by
  simp [isFlagName, AttributeType.name, or_assoc]

end

end Sdp
