import Verif.Spec.Sample
import Verif.Lemmas.Print4
/-!
# C48: the order of the two directions of simulcast and imageattr
-/

namespace Sdp

section
variable [Env]

/-- A word of an imageattr value: no white space, and a bracket is closed in the word in which it was
opened. -/
def ImageWord (w : Str) : Prop := Token w ∧ ('[' ∈ w ↔ ']' ∈ w)

/-- The value made of a payload type, a direction with its words and another direction with its words. -/
def imageValue (p d : Str) (A : List Str) (d' : Str) (B : List Str) : Str :=
  joinS c%" " (p :: d :: (A ++ d' :: B))

theorem attr_simulcast (v : Str) : attrFromStr (c%"simulcast:" ++ v) = parseSimulcast (trim v) :=
  attrFromStr_colon (n := c%"simulcast") (by decide)

theorem attr_imageattr (v : Str) : attrFromStr (c%"imageattr:" ++ v) = parseImageAttr (trim v) :=
  attrFromStr_colon (n := c%"imageattr") (by decide)

/-- When a simulcast value with both directions is accepted, and what it is then. -/
theorem simulcast_ok {v a b : Str} {r : List Str} {x : Attribute} :
    (splitWs v = c%"send" :: a :: c%"recv" :: b :: r → (attrFromStr (c%"simulcast:" ++ v) = .ok x ↔
      ∃ l1 l2, parseVersionList a = .ok l1 ∧ parseVersionList b = .ok l2 ∧ x = .simulcast ⟨l1, l2⟩)) ∧
    (splitWs v = c%"recv" :: b :: c%"send" :: a :: r → (attrFromStr (c%"simulcast:" ++ v) = .ok x ↔
      ∃ l1 l2, parseVersionList a = .ok l1 ∧ parseVersionList b = .ok l2 ∧ x = .simulcast ⟨l1, l2⟩)) := by
  constructor
  · intro h
    rw [attr_simulcast]
    unfold parseSimulcast
    rw [splitWs_trim, h]
    simp only [show parseSingleDirection c%"send" = .ok .send from rfl, ok_bind, parseSecondVersionList,
      show parseSingleDirection c%"recv" = .ok .recv from rfl, bind_eq_ok, pure_eq_ok, Outcome.ok.injEq,
      show ¬ (SingleDirection.recv = .send) by decide, if_false]
    constructor
    · rintro ⟨l1, h1, l2, h2, rfl⟩; exact ⟨l1, l2, h1, h2, rfl⟩
    · rintro ⟨l1, l2, h1, h2, rfl⟩; exact ⟨l1, h1, l2, h2, rfl⟩
  · intro h
    rw [attr_simulcast]
    unfold parseSimulcast
    rw [splitWs_trim, h]
    simp only [show parseSingleDirection c%"send" = .ok .send from rfl, ok_bind, parseSecondVersionList,
      show parseSingleDirection c%"recv" = .ok .recv from rfl, bind_eq_ok, pure_eq_ok, Outcome.ok.injEq,
      show ¬ (SingleDirection.send = .recv) by decide, if_false]
    constructor
    · rintro ⟨l1, h1, l2, h2, rfl⟩; exact ⟨l2, l1, h2, h1, rfl⟩
    · rintro ⟨l1, l2, h1, h2, rfl⟩; exact ⟨l2, h2, l1, h1, rfl⟩

/-- **C48.** The order of the two directions of a simulcast attribute does not matter. -/
theorem C48_simulcast_order {v v' a b : Str} {r r' : List Str}
    (h : splitWs v = c%"send" :: a :: c%"recv" :: b :: r)
    (h' : splitWs v' = c%"recv" :: b :: c%"send" :: a :: r') (x : Attribute) :
    attrFromStr (c%"simulcast:" ++ v) = .ok x ↔ attrFromStr (c%"simulcast:" ++ v') = .ok x := by
  rw [simulcast_ok.1 h, simulcast_ok.2 h']

/-- **C48.** A list after send is the send list, and a list after recv the receive list. -/
theorem C48_simulcast_sides {v a b : Str} {r : List Str} {x : Attribute}
    (h : splitWs v = c%"send" :: a :: c%"recv" :: b :: r)
    (hx : attrFromStr (c%"simulcast:" ++ v) = .ok x) :
    ∃ l1 l2, x = .simulcast ⟨l1, l2⟩ ∧ attrFromStr (c%"simulcast:send " ++ a) = .ok (.simulcast ⟨l1, []⟩) ∧
      attrFromStr (c%"simulcast:recv " ++ b) = .ok (.simulcast ⟨[], l2⟩) := by
  obtain ⟨l1, l2, h1, h2, rfl⟩ := (simulcast_ok.1 h).1 hx
  have words : ∀ t ∈ splitWs v, Token t := fun t ht => ⟨(splitWs_mem ht).2, (splitWs_mem ht).1⟩
  have ha : Token a := words a (by rw [h]; simp)
  have hb : Token b := words b (by rw [h]; simp)
  refine ⟨l1, l2, rfl, ?_, ?_⟩
  · have : splitWs (c%"send " ++ a) = [c%"send", a] := by
      have := splitWs_joinS (l := [c%"send", a]) (by simp only [List.mem_cons, List.not_mem_nil, or_false, forall_eq_or_imp, forall_eq]; exact ⟨⟨by unfold NoWs; decide, by decide⟩, ha.both⟩)
      simpa [joinS] using this
    rw [show c%"simulcast:send " ++ a = c%"simulcast:" ++ (c%"send " ++ a) by simp, attr_simulcast]
    unfold parseSimulcast
    rw [splitWs_trim, this]
    simp only [show parseSingleDirection c%"send" = .ok .send from rfl, ok_bind, h1, parseSecondVersionList]
    rfl
  · have : splitWs (c%"recv " ++ b) = [c%"recv", b] := by
      have := splitWs_joinS (l := [c%"recv", b]) (by simp only [List.mem_cons, List.not_mem_nil, or_false, forall_eq_or_imp, forall_eq]; exact ⟨⟨by unfold NoWs; decide, by decide⟩, hb.both⟩)
      simpa [joinS] using this
    rw [show c%"simulcast:recv " ++ b = c%"simulcast:" ++ (c%"recv " ++ b) by simp, attr_simulcast]
    unfold parseSimulcast
    rw [splitWs_trim, this]
    simp only [show parseSingleDirection c%"recv" = .ok .recv from rfl, ok_bind, h2, parseSecondVersionList]
    rfl

/-- **C48.** Two simulcast lists of the same direction are rejected. -/
theorem C48_simulcast_same_direction {v d a : Str} {r : List Str} (h : splitWs v = d :: a :: d :: r)
    (x : Attribute) : attrFromStr (c%"simulcast:" ++ v) ≠ .ok x := by
  intro hx
  rw [attr_simulcast] at hx
  unfold parseSimulcast at hx
  rw [splitWs_trim, h] at hx
  simp only [bind_eq_ok] at hx
  obtain ⟨dir, hd, l1, -, l2, h2, -⟩ := hx
  simp only [parseSecondVersionList, bind_eq_ok, hd, Outcome.ok.injEq] at h2
  obtain ⟨d', rfl, h2⟩ := h2
  simp at h2

/-! ## imageattr -/

theorem moreSets_append {A B : List Str} {d : Str} (hd : startsWithC '[' d = false)
    {l : List ImageAttrSet} {r : List Str} :
    moreSets (A ++ d :: B) = .ok (l, r) ↔ ∃ r0, moreSets A = .ok (l, r0) ∧ r = r0 ++ d :: B := by
  induction A generalizing l r with
  | nil =>
    simp only [List.nil_append, moreSets, hd, Bool.false_eq_true, if_false, Outcome.ok.injEq, Prod.mk.injEq]
    constructor
    · rintro ⟨rfl, rfl⟩; exact ⟨[], ⟨rfl, rfl⟩, rfl⟩
    · rintro ⟨r0, ⟨rfl, rfl⟩, rfl⟩; exact ⟨rfl, rfl⟩
  | cons t A ih =>
    simp only [List.cons_append, moreSets]
    split
    · simp only [bind_eq_ok, Prod.exists, pure_eq_ok, Outcome.ok.injEq, Prod.mk.injEq]
      constructor
      · rintro ⟨s, hs, more, rest, hm, rfl, rfl⟩
        obtain ⟨r0, h1, rfl⟩ := ih.1 hm
        exact ⟨r0, ⟨s, hs, more, r0, h1, rfl, rfl⟩, rfl⟩
      · rintro ⟨_, ⟨s, hs, more, r0, h1, rfl, rfl⟩, rfl⟩
        exact ⟨s, hs, more, r0 ++ d :: B, ih.2 ⟨r0, h1, rfl⟩, rfl, rfl⟩
    · simp only [Outcome.ok.injEq, Prod.mk.injEq]
      constructor
      · rintro ⟨rfl, rfl⟩; exact ⟨t :: A, ⟨rfl, rfl⟩, rfl⟩
      · rintro ⟨r0, ⟨rfl, rfl⟩, rfl⟩; exact ⟨rfl, rfl⟩

theorem parseSetList_append {A B : List Str} {d : Str} (hd : d = c%"send" ∨ d = c%"recv")
    {l : ImageAttrSetList} {r : List Str} :
    parseSetList (A ++ d :: B) = .ok (l, r) ↔ ∃ r0, parseSetList A = .ok (l, r0) ∧ r = r0 ++ d :: B := by
  have hd' : startsWithC '[' d = false ∧ d ≠ c%"*" ∧ bracedToken d = none := by
    rcases hd with rfl | rfl <;> decide
  cases A with
  | nil =>
    simp [parseSetList, hd'.2.1, parseBracedSet, hd'.2.2, Outcome.okOr]
  | cons t A =>
    simp only [List.cons_append, parseSetList]
    split
    · simp only [Outcome.ok.injEq, Prod.mk.injEq]
      constructor
      · rintro ⟨rfl, rfl⟩; exact ⟨A, ⟨rfl, rfl⟩, rfl⟩
      · rintro ⟨r0, ⟨rfl, rfl⟩, rfl⟩; exact ⟨rfl, rfl⟩
    · simp only [bind_eq_ok, Prod.exists, pure_eq_ok, Outcome.ok.injEq, Prod.mk.injEq]
      constructor
      · rintro ⟨s, hs, more, rest, hm, rfl, rfl⟩
        obtain ⟨r0, h1, rfl⟩ := (moreSets_append hd'.1).1 hm
        exact ⟨r0, ⟨s, hs, more, r0, h1, rfl, rfl⟩, rfl⟩
      · rintro ⟨_, ⟨s, hs, more, r0, h1, rfl, rfl⟩, rfl⟩
        exact ⟨s, hs, more, r0 ++ d :: B, (moreSets_append hd'.1).2 ⟨r0, h1, rfl⟩, rfl, rfl⟩

theorem ImageWord.dir {d : Str} (hd : d = c%"send" ∨ d = c%"recv") : ImageWord d := by
  rcases hd with rfl | rfl <;> exact ⟨⟨by decide, by decide⟩, by decide⟩

theorem dir_ok {d : Str} {x : SingleDirection} : parseSingleDirection d = .ok x ↔
    (d = c%"send" ∧ x = .send) ∨ (d = c%"recv" ∧ x = .recv) := by
  unfold parseSingleDirection
  split_ifs with h1 h2
  · subst h1; simp [eq_comm]
  · subst h2; simp [eq_comm]
  · simp [h1, h2]

/-- Which values with two directions are accepted. -/
theorem imageValue_ok {p d d' : Str} {A B : List Str} (hp : ImageWord p) (hd : d = c%"send" ∨ d = c%"recv")
    (hd' : d' = c%"send" ∨ d' = c%"recv") (hA : ∀ w ∈ A, ImageWord w) (hB : ∀ w ∈ B, ImageWord w)
    {x : Attribute} :
    attrFromStr (c%"imageattr:" ++ imageValue p d A d' B) = .ok x ↔
      ∃ pt l1 l2, parsePayloadType p = .ok pt ∧ d ≠ d' ∧ parseSetList A = .ok (l1, []) ∧
        parseSetList B = .ok (l2, []) ∧
        x = .imageAttr (if d = c%"send" then ⟨pt, l1, l2⟩ else ⟨pt, l2, l1⟩) := by
  have hall : ∀ w ∈ p :: d :: (A ++ d' :: B), ImageWord w := by
    intro w hw
    simp only [List.mem_cons, List.mem_append] at hw
    rcases hw with rfl | rfl | hw | rfl | hw
    · exact hp
    · exact ImageWord.dir hd
    · exact hA w hw
    · exact ImageWord.dir hd'
    · exact hB w hw
  unfold imageValue
  rw [attr_imageattr, (tokens_trimmed (by simp) fun t ht => (hall t ht).1).trim]
  unfold parseImageAttr
  rw [imageTokens_join (by simp) fun t ht => .inl ⟨(hall t ht).1.not_space, (hall t ht).2⟩, ok_bind]
  simp only [bind_eq_ok, Prod.exists, parseSetList_append hd']
  have hne : ∀ (r : List Str), (r ++ d' :: B) ≠ [] := by simp
  constructor
  · rintro ⟨pt, h1, dir, h2, l1, _, ⟨r0, h3, rfl⟩, l2, r, h4, h5⟩
    cases r with
    | cons _ _ => simp at h5
    | nil =>
      have fin : d ≠ d' ∧ r0 = [] ∧ parseSetList B = .ok (l2, []) := by
        cases r0 with
        | nil =>
          simp only [List.nil_append, parseSecondSetList, bind_eq_ok] at h4
          obtain ⟨e, h6, h7⟩ := h4
          rcases ite_cases h7 with ⟨-, h7⟩ | ⟨hn, h7⟩
          · simp at h7
          · refine ⟨?_, rfl, h7⟩
            rintro rfl
            rw [h2] at h6
            exact hn (Outcome.ok.inj h6).symm
        | cons t r0 =>
          simp only [List.cons_append, parseSecondSetList, bind_eq_ok] at h4
          obtain ⟨e, h6, h7⟩ := h4
          rcases ite_cases h7 with ⟨-, h7⟩ | ⟨hn, h7⟩
          · simp at h7
          · obtain ⟨r1, -, h8⟩ := (parseSetList_append hd').1 h7
            exact absurd h8.symm (by simp)
      obtain ⟨f1, rfl, f3⟩ := fin
      refine ⟨pt, l1, l2, h1, f1, h3, f3, ?_⟩
      rcases dir_ok.1 h2 with ⟨rfl, rfl⟩ | ⟨rfl, rfl⟩
      · simpa using h5.symm
      · simpa using h5.symm
  · rintro ⟨pt, l1, l2, h1, h2, h3, h4, rfl⟩
    rcases hd with rfl | rfl <;> rcases hd' with rfl | rfl
    · exact absurd rfl h2
    · refine ⟨pt, h1, .send, rfl, l1, _, ⟨[], h3, rfl⟩, l2, [], ?_, ?_⟩
      · simp only [List.nil_append, parseSecondSetList, show parseSingleDirection c%"recv" = .ok .recv from rfl,
          ok_bind, h4]
        rfl
      · simp
    · refine ⟨pt, h1, .recv, rfl, l1, _, ⟨[], h3, rfl⟩, l2, [], ?_, ?_⟩
      · simp only [List.nil_append, parseSecondSetList, show parseSingleDirection c%"send" = .ok .send from rfl,
          ok_bind, h4]
        rfl
      · simp
    · exact absurd rfl h2

/-- **C48.** The order of the two directions of an imageattr attribute does not matter. -/
theorem C48_imageattr_order {p : Str} {A B : List Str} (hp : ImageWord p) (hA : ∀ w ∈ A, ImageWord w)
    (hB : ∀ w ∈ B, ImageWord w) (x : Attribute) :
    attrFromStr (c%"imageattr:" ++ imageValue p c%"send" A c%"recv" B) = .ok x ↔
      attrFromStr (c%"imageattr:" ++ imageValue p c%"recv" B c%"send" A) = .ok x := by
  rw [imageValue_ok hp (.inl rfl) (.inr rfl) hA hB, imageValue_ok hp (.inr rfl) (.inl rfl) hB hA]
  constructor
  · rintro ⟨pt, l1, l2, h1, h2, h3, h4, rfl⟩; exact ⟨pt, l2, l1, h1, h2.symm, h4, h3, rfl⟩
  · rintro ⟨pt, l1, l2, h1, h2, h3, h4, rfl⟩; exact ⟨pt, l2, l1, h1, h2.symm, h4, h3, rfl⟩

/-- **C48.** Two imageattr lists of the same direction are rejected. -/
theorem C48_imageattr_same_direction {p d : Str} {A B : List Str} (hp : ImageWord p)
    (hd : d = c%"send" ∨ d = c%"recv") (hA : ∀ w ∈ A, ImageWord w) (hB : ∀ w ∈ B, ImageWord w) (x : Attribute) :
    attrFromStr (c%"imageattr:" ++ imageValue p d A d B) ≠ .ok x := by
  rw [Ne, imageValue_ok hp hd hd hA hB]
  rintro ⟨_, _, _, _, h, _⟩
  exact h rfl

end

/-! ## The restriction to whole words, and non-vacuity -/

section
attribute [local instance] sampleEnv

/-- The restriction to `ImageWord`s is needed: an open bracket swallows the second direction. Here one
order is accepted, with the text of the second direction inside an ignored key, and the other is not. -/
theorem C48_open_bracket_swallows_direction :
    attrFromStr c%"imageattr:97 send [x=1,y=2,k= recv ]" = .ok (.imageAttr ⟨.pt 97, .sets
      [⟨.discrete [1], .discrete [2], none, none, none⟩], .sets []⟩) ∧
    (attrFromStr c%"imageattr:97 recv ] send [x=1,y=2,k=").isOk = false := by decide +kernel

example : splitWs c%"send 1,~2;3 recv 4" = [c%"send", c%"1,~2;3", c%"recv", c%"4"] ∧
    (attrFromStr (c%"simulcast:" ++ c%"send 1,~2;3 recv 4")).isOk = true := by decide +kernel
example : imageValue c%"97" c%"send" [c%"[x=800,y=640]", c%"[x=480,y=320]"] c%"recv" [c%"*"] =
    c%"97 send [x=800,y=640] [x=480,y=320] recv *" := by decide
example : ImageWord c%"[x=800,y=640]" := ⟨⟨by decide, by decide⟩, by decide⟩
example : (attrFromStr c%"imageattr:97 send [x=800,y=640] [x=480,y=320] recv *").isOk = true := by decide +kernel
example : attrFromStr c%"imageattr:97 recv * send [x=800,y=640] [x=480,y=320]" =
    attrFromStr c%"imageattr:97 send [x=800,y=640] [x=480,y=320] recv *" := by decide +kernel
end

end Sdp
