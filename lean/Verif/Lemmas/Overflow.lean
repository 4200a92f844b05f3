import Verif.Lemmas.Meaning
import Verif.Lemmas.Dispatch
import Verif.Lemmas.Grammar
import Verif.Spec.Grammar
/-!
# The only place where a parser can panic: the brace counter of imageattr
-/

namespace Sdp

/-- So few brackets that the counter cannot leave the range of an `i32`. -/
def FewBrackets (s : Str) : Prop := s.count '[' < 2^31 ∧ s.count ']' ≤ 2^31

theorem FewBrackets.sublist {s t : Str} (h : FewBrackets s) (ht : t.Sublist s) : FewBrackets t :=
  ⟨Nat.lt_of_le_of_lt (ht.count_le _) h.1, Nat.le_trans (ht.count_le _) h.2⟩

theorem FewBrackets.of_length {s : Str} (h : s.length < 2^31) : FewBrackets s :=
  ⟨Nat.lt_of_le_of_lt List.count_le_length h, Nat.le_trans List.count_le_length (by omega)⟩

/-- How often a character occurs in some texts. -/
def countIn (c : Char) (l : List Str) : Nat := (l.map fun t => t.count c).sum

theorem countIn_cons (c : Char) (t : Str) (l : List Str) : countIn c (t :: l) = t.count c + countIn c l := rfl

theorem countIn_append (c : Char) (l m : List Str) : countIn c (l ++ m) = countIn c l + countIn c m := by
  simp [countIn]

theorem count_joinS {c sep : Char} (h : sep ≠ c) (l : List Str) : (joinS [sep] l).count c = countIn c l := by
  induction l with
  | nil => rfl
  | cons x xs ih =>
    cases xs with
    | nil => simp [joinS, countIn]
    | cons y ys =>
      rw [joinS, List.count_append, List.count_append, ih, countIn_cons c x]
      simp [h]

theorem count_splitC {c sep : Char} (s : Str) : countIn c (splitC sep s) ≤ s.count c := by
  unfold splitC
  induction s with
  | nil => simp [splitP, countIn]
  | cons x xs ih =>
    cases hc : (x == sep) with
    | true =>
      rw [splitP_cons_true (p := (· == sep)) hc, countIn_cons, List.count_cons]
      simp only [List.count_nil]
      omega
    | false =>
      obtain ⟨y, ys, h1, h2⟩ := splitP_cons_false (p := (· == sep)) (s := xs) hc
      rw [h2]; rw [h1] at ih
      rw [countIn_cons] at ih ⊢
      rw [List.count_cons, List.count_cons]
      omega

theorem count_pos_of {c : Char} {t : Str} (h : c ∈ t) : 1 ≤ t.count c := List.one_le_count_iff.2 h

theorem np_tokensLoop (sep : Char) (n : Int) (cur l : List Str) (a b : Nat) (hn : -(b : Int) ≤ n ∧ n ≤ a)
    (ha : a + countIn '[' l < 2^31) (hb : b + countIn ']' l ≤ 2^31) : NP (imageTokensLoop sep n cur l) := by
  induction l generalizing n cur a b with
  | nil => simp only [imageTokensLoop]; np
  | cons t ts ih =>
    simp only [imageTokensLoop]
    rw [countIn_cons] at ha hb
    by_cases h1 : '[' ∈ t <;> by_cases h2 : ']' ∈ t
    all_goals
      simp only [h1, h2, if_true, if_false]
      try have := count_pos_of h1
      try have := count_pos_of h2
      rw [if_neg (by omega), if_neg (by omega)]
      split
      · exact NP.bind (ih _ [] (a + t.count '[') (b + t.count ']') (by push_cast; omega) (by omega) (by omega)) fun _ _ => NP.pure _
      · exact ih _ _ (a + t.count '[') (b + t.count ']') (by push_cast; omega) (by omega) (by omega)

theorem np_tokens {s : Str} (h : FewBrackets s) (sep : Char) : NP (imageTokens s sep) := by
  unfold imageTokens
  refine np_tokensLoop sep 0 [] _ 0 0 (by simp) ?_ ?_
  · have := count_splitC (c := '[') (sep := sep) s
    have := h.1
    omega
  · have := count_splitC (c := ']') (sep := sep) s
    have := h.2
    omega

theorem tokensLoop_count {c sep : Char} (hs : sep ≠ c) {n : Int} {cur l r : List Str}
    (h : imageTokensLoop sep n cur l = .ok r) : ∀ t ∈ r, t.count c ≤ countIn c cur + countIn c l := by
  induction l generalizing n cur r with
  | nil => simp only [imageTokensLoop, Outcome.ok.injEq] at h; subst h; simp
  | cons x xs ih =>
    simp only [imageTokensLoop] at h
    generalize (if '[' ∈ x then n + 1 else n) = n1 at h
    generalize (if ']' ∈ x then n1 - 1 else n1) = n2 at h
    rw [countIn_cons]
    split at h
    · simp at h
    · split at h
      · simp at h
      · split at h
        · simp only [bind_eq_ok, pure_eq_ok] at h
          obtain ⟨a, ha, hr⟩ := h
          simp at hr; subst hr
          intro t ht
          simp only [List.mem_cons] at ht
          rcases ht with rfl | ht
          · rw [count_joinS hs, countIn_append, countIn_cons]
            simp [countIn]
          · have := ih ha t ht
            simp only [countIn, List.map_nil, List.sum_nil] at this ⊢
            omega
        · intro t ht
          have := ih h t ht
          rw [countIn_append, countIn_cons] at this
          simp only [countIn, List.map_nil, List.sum_nil] at this ⊢
          omega

theorem tokens_few {sep : Char} (h1 : sep ≠ '[') (h2 : sep ≠ ']') {s : Str} (h : FewBrackets s) {r : List Str}
    (hr : imageTokens s sep = .ok r) : ∀ t ∈ r, FewBrackets t := by
  intro t ht
  have a := tokensLoop_count h1 hr t ht
  have b := tokensLoop_count h2 hr t ht
  have c := count_splitC (c := '[') (sep := sep) s
  have d := count_splitC (c := ']') (sep := sep) s
  simp only [countIn, List.map_nil, List.sum_nil] at a b c d
  have := h.1; have := h.2
  constructor <;> omega

section
variable [Env]

theorem few_parseImageSet {s : Str} (h : FewBrackets s) : NP (parseImageSet s) := by
  unfold parseImageSet
  refine NP.bind (np_tokens h _) fun l _ => ?_
  have h1 := np_parseXyRange; have h2 := np_imageKeys
  np
  · rename_i hx; simp at hx; exact NP.sliceFrom (startsWith_length hx)
  · apply h1
  · rename_i hx; simp at hx; exact NP.sliceFrom (startsWith_length hx)
  · apply h1
  · apply h2

theorem few_parseBracedSet {s : Str} (h : FewBrackets s) : NP (parseBracedSet s) := by
  unfold parseBracedSet
  refine NP.bind NP.okOr fun a ha => few_parseImageSet ?_
  rw [okOr_eq_ok] at ha
  unfold bracedToken at ha
  split at ha
  · simp at ha
  · split at ha
    · simp at ha
    · simp at ha; rw [← ha]
      exact h.sublist ((List.dropLast_sublist _).trans (List.tail_sublist _))

theorem few_moreSets {l : List Str} (h : ∀ t ∈ l, FewBrackets t) : NP (moreSets l) := by
  induction l with
  | nil => simp only [moreSets]; np
  | cons t ts ih =>
    simp only [moreSets]
    split
    · exact NP.bind (few_parseBracedSet (h t (by simp))) fun _ _ =>
        NP.bind (ih fun x hx => h x (by simp [hx])) fun _ _ => NP.pure _
    · np

theorem few_parseSetList {l : List Str} (h : ∀ t ∈ l, FewBrackets t) : NP (parseSetList l) := by
  unfold parseSetList
  split
  · np
  · rename_i t ts
    split
    · np
    · exact NP.bind (few_parseBracedSet (h t (by simp))) fun _ _ =>
        NP.bind (few_moreSets fun x hx => h x (by simp [hx])) fun _ _ => NP.pure _

theorem few_parseSecondSetList {l : List Str} (h : ∀ t ∈ l, FewBrackets t) (d) : NP (parseSecondSetList d l) := by
  unfold parseSecondSetList
  split
  · np
  · refine NP.bind (np_parseSingleDirection _) fun _ _ => ?_
    split
    · np
    · exact few_parseSetList fun x hx => h x (by simp [hx])

theorem few_parseImageAttr {s : Str} (h : FewBrackets s) : NP (parseImageAttr s) := by
  unfold parseImageAttr
  refine NP.bind (np_tokens h _) fun l hl => ?_
  have hm := tokens_few (by decide) (by decide) h hl
  split
  · np
  · refine NP.bind (np_parsePayloadType _) fun _ _ => ?_
    split
    · np
    · rename_i ts _ _ t1 ts'
      refine NP.bind (np_parseSingleDirection _) fun _ _ => ?_
      have hb : ∀ t ∈ ts', FewBrackets t := fun t ht => hm t (by simp [ht])
      refine NP.bind (few_parseSetList hb) fun r hr => ?_
      refine NP.bind (few_parseSecondSetList (fun t ht => hb t (parseSetList_rest hr t ht)) _) fun _ _ => ?_
      np

/-- Only imageattr can panic. -/
theorem parseAttrValue_panic {t : AttributeType} {v : Str} (h : parseAttrValue t v = .panic) :
    t = .imageAttr ∧ ¬ FewBrackets v := by
  by_cases ht : t = .imageAttr
  · subst ht
    exact ⟨rfl, fun hf => few_parseImageAttr hf h⟩
  · have : NP (parseAttrValue t v) := by
      cases t <;> simp only [parseAttrValue] <;>
        first
        | exact absurd rfl ht
        | exact NP.ok _
        | exact np_parseDtlsMessage _ | exact np_parseMsidSemantic _
        | exact np_parseIcePacing _ | exact np_parseRid _ | exact np_parseSsrcGroup _
        | exact np_parseSctpPort _ | exact np_parseCandidate _ | exact np_parseExtmap _
        | exact np_parseFingerprint _ | exact np_parseFmtp _ | exact np_parseFramerate _
        | exact np_parseGroup _ | exact np_parseIceOptions _ | exact np_parseMsid _
        | exact np_parseRemoteCandidates _ | exact np_parseRtpmap _ | exact np_parseRtcp _
        | exact np_parseRtcpFb _ | exact np_parseSctpmap _ | exact np_parseSetup _
        | exact np_parseSimulcast _
        | exact NP.bind (np_parseSsrc _) fun _ _ => NP.pure _
        | exact NP.bind (np_stringOrEmpty _) fun _ _ => NP.pure _
        | exact NP.bind (np_parseU64 _) fun _ _ => NP.pure _
    exact absurd h this

theorem attrFromStr_panic {l : Str} (h : attrFromStr l = .panic) :
    ∃ v, AttrText l c%"imageattr" v ∧ ¬ FewBrackets v := by
  rcases colon_cases l with hc | ⟨n, w, rfl, hn⟩
  · rw [attrFromStr_plain hc] at h
    cases hu : attrTypeOfName (lower l) with
    | none => rw [hu] at h; simp [eunsupported] at h
    | some u =>
      rw [hu] at h
      have := (parseAttrValue_panic h).2
      exact absurd (.of_length (by simp)) this
  · rw [attrFromStr_colon hn] at h
    split at h
    · simp [egeneric] at h
    · cases hu : attrTypeOfName (lower n) with
      | none => rw [hu] at h; simp [eunsupported] at h
      | some u =>
        rw [hu] at h
        obtain ⟨rfl, hf⟩ := parseAttrValue_panic h
        exact ⟨_, ⟨n, w, rfl, hn, attrTypeOfName_some hu, stripped_iff.2 rfl⟩, hf⟩

end

end Sdp
