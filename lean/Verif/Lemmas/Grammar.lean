import Verif.Spec.Grammar
import Verif.Lemmas.ParsedWF
/-!
# Words, fields and the shape of an attribute
-/

namespace Sdp

theorem stripped_iff {w v : Str} : Stripped w v ↔ v = trim w := by
  constructor
  · rintro ⟨⟨w1, w2, h1, h2, rfl⟩, h⟩
    rw [trim_pad h1 h2]
    rcases h with rfl | h
    · rfl
    · exact h.trim.symm
  · rintro rfl
    obtain ⟨w1, w2, h1, h2, e⟩ := trim_spec w
    refine ⟨⟨w1, w2, h1, h2, e⟩, ?_⟩
    by_cases h : trim w = []
    · exact .inl h
    · exact .inr (trimmed_of_trim (trim_trim w) h)

theorem blanks_splitWs {w : Str} (h : Blank w) : splitWs w = [] := by
  have := splitWs_ws_append (s := []) h
  simpa using this

theorem words_splitWs {s : Str} {ts : List Str} (h : Words s ts) : splitWs s = ts := by
  induction h with
  | nil h => exact blanks_splitWs h
  | @cons w t rest ts hw ht hr _ ih =>
    rw [List.append_assoc, splitWs_ws_append hw]
    rcases hr with rfl | ⟨c, r, rfl, hc⟩
    · rw [List.append_nil, splitWs_single ht.2 ht.1]; simp at ih; simp [ih]
    · rw [splitWs_append ht.2 ht.1 hc, ← ih, splitWs_cons_ws hc]

theorem words_exists (n : Nat) (s : Str) (hn : s.length ≤ n) : ∃ ts, Words s ts := by
  induction n generalizing s with
  | zero =>
    have : s = [] := List.length_eq_zero_iff.1 (by omega)
    subst this; exact ⟨[], .nil (by simp [Blank])⟩
  | succ n ih =>
    obtain ⟨w, hw, e⟩ := trimStart_spec s
    rcases hs : trimStart s with _ | ⟨c, r⟩
    · rw [hs, List.append_nil] at e; exact ⟨[], .nil (e ▸ hw)⟩
    · have hc : isWs c = false := by
        have := List.head?_dropWhile_not isWs s
        unfold trimStart at hs
        rw [hs] at this; simpa using this
      have e2 : c :: r = (c :: r).takeWhile (fun c => !isWs c) ++ (c :: r).dropWhile (fun c => !isWs c) :=
        (List.takeWhile_append_dropWhile).symm
      have htok : Token ((c :: r).takeWhile (fun c => !isWs c)) := by
        refine ⟨by simp [hc], fun x hx => ?_⟩
        have := mem_takeWhile_true hx; simpa using this
      obtain ⟨ts, hts⟩ := ih ((c :: r).dropWhile (fun c => !isWs c)) (by
        have h1 : s.length = w.length + (c :: r).length := by rw [hs] at e; rw [e]; simp
        have h2 : (c :: r).length = _ := congrArg List.length e2
        have h3 := List.length_pos_of_ne_nil htok.1
        rw [List.length_append] at h2
        omega)
      refine ⟨(c :: r).takeWhile (fun c => !isWs c) :: ts, ?_⟩
      rw [e, hs]
      conv => arg 1; rw [e2, ← List.append_assoc]
      refine .cons hw htok ?_ hts
      rcases hd : (c :: r).dropWhile (fun c => !isWs c) with _ | ⟨x, y⟩
      · exact .inl rfl
      · refine .inr ⟨x, y, rfl, ?_⟩
        have := List.head?_dropWhile_not (fun c => !isWs c) (c :: r)
        rw [hd] at this; simpa using this

theorem words_iff {s : Str} {ts : List Str} : Words s ts ↔ splitWs s = ts := by
  constructor
  · exact words_splitWs
  · rintro rfl
    obtain ⟨ts, h⟩ := words_exists _ s (Nat.le_refl _)
    rwa [words_splitWs h]

theorem fields_iff {c : Char} {s : Str} {fs : List Str} : Fields c s fs ↔ splitC c s = fs := by
  constructor
  · rintro ⟨h1, h2, rfl⟩; exact splitC_joinS h1 h2
  · rintro rfl
    exact ⟨splitC_ne_nil _ _, fun f hf => splitC_not_mem hf, joinS_splitC.symm⟩

theorem each_iff {α β : Type} {R : α → β → Prop} {as : List α} {bs : List β} :
    Each R as bs ↔ List.Forall₂ R as bs := by
  induction as generalizing bs with
  | nil => cases bs <;> simp [Each]
  | cons a as ih => cases bs <;> simp [Each, ih]

theorem collect_each {ε α β : Type} {f : α → Outcome ε β} {R : α → β → Prop} {as : List α} {bs : List β}
    (h : ∀ a ∈ as, ∀ b, f a = .ok b ↔ R a b) : collect f as = .ok bs ↔ Each R as bs := by
  induction as generalizing bs with
  | nil => cases bs <;> simp [collect, Each]
  | cons a as ih =>
    have ih := ih (bs := bs.tail) fun x hx => h x (by simp [hx])
    cases bs with
    | nil => simp [collect, Each, bind_eq_ok]
    | cons b bs =>
      simp only [List.tail_cons] at ih
      simp only [collect, bind_eq_ok, pure_eq_ok, Each, ← ih, ← h a (by simp) b]
      constructor
      · rintro ⟨x, hx, y, hy, h⟩; simp at h; obtain ⟨rfl, rfl⟩ := h; exact ⟨hx, hy⟩
      · rintro ⟨h1, h2⟩; exact ⟨b, h1, bs, h2, rfl⟩

theorem map_each {α β : Type} {f : α → β} {R : α → β → Prop} {as : List α} {bs : List β}
    (h : ∀ a b, f a = b ↔ R a b) : as.map f = bs ↔ Each R as bs := by
  induction as generalizing bs with
  | nil => cases bs <;> simp [Each]
  | cons a as ih => cases bs <;> simp [Each, ih, h]

section
variable [Env]

theorem value_nil {t : AttributeType} (h : isFlagName t.name = false) (a : Attribute) :
    parseAttrValue t [] ≠ .ok a := by
  obtain ⟨e, he⟩ := parseAttrValue_nil (t := t) (fun hm => by rw [mem_flagNames.1 hm] at h; cases h)
  rw [he]; simp

theorem attr_iff {t : AttributeType} (hf : isFlagName t.name = false) {l : Str} {a : Attribute}
    (ha : a.type = t) : attrFromStr l = .ok a ↔ ∃ v, AttrText l t.name v ∧ parseAttrValue t v = .ok a := by
  constructor
  · intro h
    rcases colon_cases l with hc | ⟨n, w, rfl, hn⟩
    · rw [attrFromStr_plain hc] at h
      cases ht : attrTypeOfName (lower l) with
      | none => rw [ht] at h; simp at h
      | some u =>
        rw [ht] at h
        have hu := (parseAttrValue_range u _ a h).1
        rw [← hu, ha] at h
        exact absurd h (value_nil hf a)
    · rw [attrFromStr_colon hn] at h
      rcases ite_cases h with ⟨-, h⟩ | ⟨-, h⟩
      · simp at h
      · cases ht : attrTypeOfName (lower n) with
        | none => rw [ht] at h; simp at h
        | some u =>
          rw [ht] at h
          have hu := (parseAttrValue_range u _ a h).1
          rw [ha] at hu; subst hu
          exact ⟨_, ⟨n, w, rfl, hn, attrTypeOfName_some ht, stripped_iff.2 rfl⟩, h⟩
  · rintro ⟨v, ⟨n, w, rfl, hn, hnm, hv⟩, h⟩
    rw [stripped_iff] at hv; subst hv
    rw [attrFromStr_colon hn, hnm, attrTypeOfName_name, if_neg (by simp [hf])]
    exact h

end

end Sdp
