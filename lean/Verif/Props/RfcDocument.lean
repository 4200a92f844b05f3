import Verif.Spec.RfcDocument
import Verif.Props.RfcLines
import Verif.Lemmas.Compose
import Verif.Props.Fault
/-!
# C108: descriptions that follow RFC 8866 are accepted

Lines of C107 in any order give a session or a sequence error. In the order of the RFC, and with the lines in their places, they give
a session.
-/

namespace Sdp

open Abnf

section
variable [Env]

theorem reading_append {n : Nat} {ls ls' : List Str} {vs vs' : List SdpLine} {us us' ws ws' : List (Str × Nat)}
    (h : Reading n ls vs us ws) (h' : Reading (n + ls.length) ls' vs' us' ws') :
    Reading n (ls ++ ls') (vs ++ vs') (us ++ us') (ws ++ ws') := by
  induction h with
  | nil => simpa using h'
  | blank hb _ ih => exact .blank hb (ih (by simpa [Nat.add_assoc, Nat.add_comm 1] using h'))
  | value hv _ ih => exact .value hv (ih (by simpa [Nat.add_assoc, Nat.add_comm 1] using h'))
  | unsupported hu _ ih => exact .unsupported hu (ih (by simpa [Nat.add_assoc, Nat.add_comm 1] using h'))
  | wrong h1 h2 h3 _ ih => exact .wrong h1 h2 h3 (ih (by simpa [Nat.add_assoc, Nat.add_comm 1] using h'))

theorem read_list {K : Str → SdpType → Prop} {U : Str → Prop} {ls : List Str}
    (h : ∀ l ∈ ls, (¬ U l → ∃ t, LineDenotes l t ∧ K l t) ∧ (U l → UnsupportedText l)) (n : Nat) :
    ∃ vs us, Reading n ls vs us [] ∧ (∀ v ∈ vs, K v.text v.sdpType) ∧ (vs.map (·.text)).Sublist ls ∧
      (∀ u ∈ us, U u.1 ∧ u.1 ∈ ls) ∧ ∀ l ∈ ls, (U l → ∃ u ∈ us, u.1 = l) ∧ (¬ U l → ∃ v ∈ vs, v.text = l) := by
  induction ls generalizing n with
  | nil => exact ⟨[], [], .nil, by simp⟩
  | cons l ls ih =>
    obtain ⟨vs, us, h1, h2, h3, h4, h5⟩ := ih (fun x hx => h x (by simp [hx])) (n + 1)
    by_cases hu : U l
    · refine ⟨vs, (l, n) :: us, .unsupported ((h l (by simp)).2 hu) h1, h2, h3.cons _, ?_, ?_⟩
      · intro u hu'
        rcases List.mem_cons.1 hu' with rfl | hu'
        · exact ⟨hu, by simp⟩
        · exact ⟨(h4 u hu').1, List.mem_cons_of_mem _ (h4 u hu').2⟩
      · intro x hx
        rcases List.mem_cons.1 hx with rfl | hx
        · exact ⟨fun _ => ⟨_, List.mem_cons_self, rfl⟩, fun h => absurd hu h⟩
        · exact ⟨fun h => let ⟨u, a, b⟩ := (h5 x hx).1 h; ⟨u, List.mem_cons_of_mem _ a, b⟩, (h5 x hx).2⟩
    · obtain ⟨t, ht, hk⟩ := (h l (by simp)).1 hu
      refine ⟨⟨n, t, l⟩ :: vs, us, .value ht h1, ?_, ?_, ?_, ?_⟩
      · intro v hv
        rcases List.mem_cons.1 hv with rfl | hv
        · exact hk
        · exact h2 v hv
      · simpa using h3.cons_cons l
      · exact fun u hu => ⟨(h4 u hu).1, List.mem_cons_of_mem _ (h4 u hu).2⟩
      · intro x hx
        rcases List.mem_cons.1 hx with rfl | hx
        · exact ⟨fun h => absurd h hu, fun _ => ⟨_, List.mem_cons_self, rfl⟩⟩
        · exact ⟨(h5 x hx).1, fun h => let ⟨u, a, b⟩ := (h5 x hx).2 h; ⟨u, List.mem_cons_of_mem _ a, b⟩⟩

private theorem denotes {l : Str} {t : SdpType} (hl : l.length < 2 ^ 31) (h : parseSdpLine l 0 = .ok ⟨0, t, l⟩) : LineDenotes l t :=
  ((C77_line hl).1 h).1

/-- The line of an attribute the library does not know. -/
private def Other (l : Str) : Prop := ∃ v, l = c%"a=" ++ v ∧ Rfc.otherAttribute v

private theorem other_unsupported {l : Str} (h : Other l) : UnsupportedText l := by
  obtain ⟨v, rfl, h⟩ := h
  obtain ⟨m, hm⟩ := C107_other_attribute h 0
  exact C77_unsupported.1 ⟨_, hm, rfl⟩

private theorem not_other {x : Char} (hx : x ≠ 'a') (r : Str) : ¬ Other (x :: r) := by
  rintro ⟨v, h, -⟩
  simp at h
  exact hx h.1

/-- What the lines with these values denote. -/
private def LineOf (cs bs ts as : List Str) (l : Str) (t : SdpType) : Prop :=
  (∃ v ∈ cs, l = c%"c=" ++ v ∧ ∃ c, t = .connection c) ∨ (∃ v ∈ bs, l = c%"b=" ++ v ∧ ∃ b, t = .bandwidth b) ∨
  (∃ v ∈ ts, l = c%"t=" ++ v ∧ ∃ x, t = .timing x) ∨
  ∃ v ∈ as, l = c%"a=" ++ v ∧ ∃ a, t = .attr a ∧ Rfc.HasName a.type.name v ∧ Rfc.knownAttribute v ∧
    parseSdpLine (c%"a=" ++ v) 0 = .ok ⟨0, .attr a, c%"a=" ++ v⟩

/-- The lines with these values. -/
private def partLines (cs bs ts as : List Str) : List Str :=
  cs.map (c%"c=" ++ ·) ++ bs.map (c%"b=" ++ ·) ++ ts.map (c%"t=" ++ ·) ++ as.map (c%"a=" ++ ·)

private theorem read_part {cs bs ts as : List Str} (hc : ∀ c ∈ cs, Rfc.connection c) (hb : ∀ b ∈ bs, Rfc.bandwidth b)
    (ht : ∀ t ∈ ts, Rfc.timing t) (ha : ∀ a ∈ as, Rfc.anyAttribute a) (hlen : ∀ l ∈ partLines cs bs ts as, l.length < 2 ^ 31) (n : Nat) :
    ∃ vs us, Reading n (partLines cs bs ts as) vs us [] ∧ (∀ v ∈ vs, LineOf cs bs ts as v.text v.sdpType) ∧
      (vs.map (·.text)).Sublist (partLines cs bs ts as) ∧ (∀ u ∈ us, Other u.1 ∧ u.1 ∈ partLines cs bs ts as) ∧
      ∀ l ∈ partLines cs bs ts as, (Other l → ∃ u ∈ us, u.1 = l) ∧ (¬ Other l → ∃ v ∈ vs, v.text = l) := by
  refine read_list (fun l hl => ⟨fun hu => ?_, other_unsupported⟩) n
  have hlen := hlen l hl
  simp only [partLines, List.mem_append, List.mem_map] at hl
  rcases hl with ((⟨v, hv, rfl⟩ | ⟨v, hv, rfl⟩) | ⟨v, hv, rfl⟩) | ⟨v, hv, rfl⟩
  · obtain ⟨c, h⟩ := C107_connection (hc v hv) 0
    exact ⟨_, denotes hlen h, .inl ⟨v, hv, rfl, c, rfl⟩⟩
  · obtain ⟨c, h⟩ := C107_bandwidth (hb v hv) 0
    exact ⟨_, denotes hlen h, .inr (.inl ⟨v, hv, rfl, c, rfl⟩)⟩
  · obtain ⟨c, h⟩ := C107_timing (ht v hv) 0
    exact ⟨_, denotes hlen h, .inr (.inr (.inl ⟨v, hv, rfl, c, rfl⟩))⟩
  · obtain ⟨r, hr, h⟩ := ha v hv
    simp only [List.mem_cons, List.not_mem_nil, or_false] at hr
    rcases hr with rfl | rfl
    · obtain ⟨a, h', hn⟩ := C107_attribute h 0
      exact ⟨_, denotes hlen h', .inr (.inr (.inr ⟨v, hv, rfl, a, rfl, hn, h, h'⟩))⟩
    · exact absurd ⟨v, rfl, h⟩ hu

private theorem attr_lineOf {cs bs ts as : List Str} {vs : List SdpLine} (h : ∀ v ∈ vs, LineOf cs bs ts as v.text v.sdpType)
    {a : Attribute} (ha : a ∈ attrsOf vs) : Rfc.Names as a.type.name := by
  simp only [attrsOf, List.mem_filterMap] at ha
  obtain ⟨v, hv, e⟩ := ha
  have hk := h v hv
  cases ht : v.sdpType <;> rw [ht] at e hk <;> simp at e
  subst e
  rcases hk with ⟨_, _, _, _, h⟩ | ⟨_, _, _, _, h⟩ | ⟨_, _, _, _, h⟩ | ⟨w, hw, -, a, h, hn, -⟩
  · cases h
  · cases h
  · cases h
  · cases h
    exact ⟨w, hw, hn⟩

/-- The value of a known attribute follows the rule of its name. -/
private theorem known_colon {name w : Str} (hn : ':' ∉ name) (hf : name ∉ Rfc.flags) (h : Rfc.knownAttribute w) (hw : Rfc.HasName name w) :
    ∃ x, w = name ++ ':' :: x := by
  rcases hw with rfl | hw
  · obtain ⟨r, hr, h⟩ := h
    simp only [List.mem_cons, List.not_mem_nil, or_false] at hr
    rcases hr with rfl | hr
    · exact absurd h hf
    · exfalso
      rcases hr with rfl | rfl | rfl | rfl | rfl | rfl | rfl | rfl | rfl | rfl | rfl | rfl | rfl | rfl | rfl | rfl | rfl | rfl | rfl |
        rfl | rfl | rfl | rfl | rfl | rfl | rfl | rfl | rfl | rfl | rfl | rfl <;>
        (obtain ⟨_, _, e, rfl, _, _, rfl, rfl, -⟩ := h; exact hn (by rw [e]; simp))
  · exact hw

private theorem known_rid {x : Str} (h : Rfc.knownAttribute (c%"rid:" ++ x)) : Rfc.rid x := by
  obtain ⟨r, hr, h⟩ := h
  simp only [List.mem_cons, List.not_mem_nil, or_false] at hr
  rcases hr with rfl | hr
  · have : ∀ f ∈ Rfc.flags, ':' ∉ f := by decide
    exact absurd (by simp) (this _ h)
  · rcases hr with rfl | rfl | rfl | rfl | rfl | rfl | rfl | rfl | rfl | rfl | rfl | rfl | rfl | rfl | rfl | rfl | rfl | rfl | rfl |
      rfl | rfl | rfl | rfl | rfl | rfl | rfl | rfl | rfl | rfl | rfl | rfl <;>
      obtain ⟨_, _, e, rfl, _, _, rfl, rfl, y, _, rfl, hy, rfl⟩ := h <;> simp at e
    subst e
    exact hy

private theorem known_simulcast {x : Str} (h : Rfc.knownAttribute (c%"simulcast:" ++ x)) : Rfc.simulcast x := by
  obtain ⟨r, hr, h⟩ := h
  simp only [List.mem_cons, List.not_mem_nil, or_false] at hr
  rcases hr with rfl | hr
  · have : ∀ f ∈ Rfc.flags, ':' ∉ f := by decide
    exact absurd (by simp) (this _ h)
  · rcases hr with rfl | rfl | rfl | rfl | rfl | rfl | rfl | rfl | rfl | rfl | rfl | rfl | rfl | rfl | rfl | rfl | rfl | rfl | rfl |
      rfl | rfl | rfl | rfl | rfl | rfl | rfl | rfl | rfl | rfl | rfl | rfl <;>
      obtain ⟨_, _, e, rfl, _, _, rfl, rfl, y, _, rfl, hy, rfl⟩ := h <;> simp at e
    subst e
    exact hy

omit [Env] in
private theorem other_colon {name x : Str} (hn : name ∈ attributeNames) : ¬ Rfc.otherAttribute (name ++ ':' :: x) := by
  rintro ⟨nm, _, e, ⟨ht, hno⟩, o, _, rfl, ho, rfl⟩
  have h1 : ':' ∉ nm := token_not_mem ht (by decide)
  have h2 : ':' ∉ name := (by decide : ∀ n ∈ attributeNames, ':' ∉ n) name hn
  rcases ho with rfl | ⟨_, _, rfl, rfl, y, _, rfl, -, rfl⟩
  · exact h1 (by simp at e; rw [← e]; simp)
  · have e1 := congrArg (List.takeWhile (· ≠ ':')) e
    have tw {a : Str} (h : ':' ∉ a) (b : Str) : (a ++ ':' :: b).takeWhile (· ≠ ':') = a := by
      rw [List.takeWhile_append_of_pos (fun c hc => by simpa using fun hcc : c = ':' => h (hcc ▸ hc))]
      simp
    have e2 : nm ++ ([':'] ++ (y ++ []) ++ []) = nm ++ ':' :: y := by simp
    rw [e2, tw h1, tw h2] at e1
    subst e1
    exact hno _ hn rfl

private theorem each_right {α β : Type} {R : α → β → Prop} {l : List α} {m : List β} (h : Each R l m) :
    (∀ b ∈ m, ∃ a ∈ l, R a b) ∧ ∀ a ∈ l, ∃ b ∈ m, R a b := by
  induction l generalizing m with
  | nil =>
    cases m with
    | nil => simp
    | cons => exact h.elim
  | cons x l ih =>
    cases m with
    | nil => exact h.elim
    | cons y m =>
      obtain ⟨h1, h2⟩ := h
      obtain ⟨i1, i2⟩ := ih h2
      refine ⟨fun b hb => ?_, fun a ha => ?_⟩
      · rcases List.mem_cons.1 hb with rfl | hb
        · exact ⟨x, by simp, h1⟩
        · obtain ⟨a, ha, h⟩ := i1 b hb; exact ⟨a, by simp [ha], h⟩
      · rcases List.mem_cons.1 ha with rfl | ha
        · exact ⟨y, by simp, h1⟩
        · obtain ⟨b, hb, h⟩ := i2 a ha; exact ⟨b, by simp [hb], h⟩

/-- The rids among the values. -/
private theorem rid_lineOf {cs bs ts as : List Str} {vs : List SdpLine} (h : ∀ v ∈ vs, LineOf cs bs ts as v.text v.sdpType)
    {r : Rid} (ha : Attribute.rid r ∈ attrsOf vs) : ∃ x fs, c%"rid:" ++ x ∈ as ∧
      Rfc.RidHas x r.id (singleDirectionText r.direction) fs ∧ Each (fun f (n : UInt16) => DecText f n.toNat) fs r.formats := by
  simp only [attrsOf, List.mem_filterMap] at ha
  obtain ⟨v, hv, e⟩ := ha
  have hk := h v hv
  cases ht : v.sdpType <;> rw [ht] at e hk <;> simp at e
  subst e
  rcases hk with ⟨_, _, _, _, h⟩ | ⟨_, _, _, _, h⟩ | ⟨_, _, _, _, h⟩ | ⟨w, hw, -, a, h, hn, hkn, hp⟩
  · cases h
  · cases h
  · cases h
  · cases h
    obtain ⟨x, rfl⟩ := known_colon (name := c%"rid") (by decide) (by decide) hkn hn
    obtain ⟨r', h1, fs, h2, h3⟩ := C106_rid (known_rid hkn)
    have h4 := rfc_attribute_line (l := c%"rid:" ++ x) ⟨'r', _, rfl, rfl⟩ (fun h => absurd (by simp) h) h1 0
    have : r = r' := by
      have := hp.symm.trans h4
      simpa using this
    subst this
    exact ⟨x, fs, hw, h2, h3⟩

/-- The streams among the values. -/
private theorem simulcast_lineOf {cs bs ts as : List Str} {vs : List SdpLine} (h : ∀ v ∈ vs, LineOf cs bs ts as v.text v.sdpType)
    {sc : Simulcast} (ha : Attribute.simulcast sc ∈ attrsOf vs) : ∃ x, c%"simulcast:" ++ x ∈ as ∧
      ∀ d, ∀ y ∈ sc.of d, ∀ i ∈ y.ids, Rfc.SimulcastHas x (singleDirectionText d) i.id := by
  simp only [attrsOf, List.mem_filterMap] at ha
  obtain ⟨v, hv, e⟩ := ha
  have hk := h v hv
  cases ht : v.sdpType <;> rw [ht] at e hk <;> simp at e
  subst e
  rcases hk with ⟨_, _, _, _, h⟩ | ⟨_, _, _, _, h⟩ | ⟨_, _, _, _, h⟩ | ⟨w, hw, -, a, h, hn, hkn, hp⟩
  · cases h
  · cases h
  · cases h
  · cases h
    obtain ⟨x, rfl⟩ := known_colon (name := c%"simulcast") (by decide) (by decide) hkn hn
    obtain ⟨r', h1, h2⟩ := C106_simulcast (known_simulcast hkn)
    have h4 := rfc_attribute_line (l := c%"simulcast:" ++ x) ⟨'s', _, rfl, rfl⟩ (fun h => absurd (by simp) h) h1 0
    have : sc = r' := by
      have := hp.symm.trans h4
      simpa using this
    subst this
    exact ⟨x, hw, h2⟩

omit [Env] in
theorem ridHas_unique {v id dir id' dir' : Str} {fs fs' : List Str} (h : Rfc.RidHas v id dir fs) (h' : Rfc.RidHas v id' dir' fs') :
    id = id' ∧ dir = dir' ∧ fs = fs' := by
  have tw {a b : Str} (h : ' ' ∉ a) (hb : b = [] ∨ ∃ r, b = ' ' :: r) : (a ++ b).takeWhile (· ≠ ' ') = a ∧ (a ++ b).dropWhile (· ≠ ' ') = b := by
    have hp : ∀ c ∈ a, decide (c ≠ ' ') = true := fun c hc => by simpa using fun hcc : c = ' ' => h (hcc ▸ hc)
    rw [List.takeWhile_append_of_pos hp, List.dropWhile_append_of_pos hp]
    rcases hb with rfl | ⟨r, rfl⟩ <;> simp
  have key {v id dir : Str} {fs : List Str} (h : Rfc.RidHas v id dir fs) : ∃ rest, v = id ++ ' ' :: (dir ++ rest) ∧ ' ' ∉ id ∧ ' ' ∉ dir ∧
      (rest = [] ∨ ∃ r, rest = ' ' :: r) ∧ ((¬ c%" pt=" <+: rest ∧ fs = []) ∨
        ∃ more, rest = c%" pt=" ++ joinS c%"," fs ++ more ∧ (more = [] ∨ ∃ r, more = ';' :: r) ∧ fs ≠ [] ∧
          ∀ f ∈ fs, f ≠ [] ∧ ∀ c ∈ f, c.isDigit = true) := by
    obtain ⟨rest, rfl, h1, h2, ⟨h3, h4⟩ | ⟨more, rfl, h4⟩⟩ := h
    · exact ⟨rest, by simp, h1, h2, h3, .inl h4⟩
    · exact ⟨c%" pt=" ++ joinS c%"," fs ++ more, by simp, h1, h2, .inr ⟨c%"pt=" ++ joinS c%"," fs ++ more, by simp⟩,
        .inr ⟨more, rfl, h4⟩⟩
  obtain ⟨r, rfl, h1, h2, h3, h4⟩ := key h
  obtain ⟨r', e, h1', h2', h3', h4'⟩ := key h'
  have a1 := tw h1 (.inr ⟨dir ++ r, rfl⟩)
  have a2 := tw h1' (.inr ⟨dir' ++ r', rfl⟩)
  rw [← e, a1.1, a1.2] at a2
  have e2 : dir ++ r = dir' ++ r' := by simpa using a2.2
  have b1 := tw h2 h3
  have b2 := tw h2' h3'
  rw [← e2, b1.1, b1.2] at b2
  refine ⟨a2.1, b2.1, ?_⟩
  obtain rfl := b2.2
  rcases h4 with ⟨h4, rfl⟩ | ⟨m, rfl, h5, h6, h7⟩ <;> rcases h4' with ⟨h4', rfl⟩ | ⟨m', e', h5', h6', h7'⟩
  · rfl
  · exact absurd ⟨joinS c%"," fs' ++ m', by rw [e']; simp⟩ h4
  · exact absurd ⟨joinS c%"," fs ++ m, by simp⟩ h4'
  · have tw {fs : List Str} {m : Str} (h7 : ∀ f ∈ fs, f ≠ [] ∧ ∀ c ∈ f, c.isDigit = true) (h5 : m = [] ∨ ∃ r, m = ';' :: r) :
        (joinS c%"," fs ++ m).takeWhile (· ≠ ';') = joinS c%"," fs := by
      rw [List.takeWhile_append_of_pos]
      · rcases h5 with rfl | ⟨r, rfl⟩ <;> simp
      · intro c hc
        rcases mem_joinS hc with h | ⟨t, ht, h⟩
        · simp at h; subst h; decide
        · have := (h7 t ht).2 c h
          simp only [ne_eq, decide_not, Bool.not_eq_true', decide_eq_false_iff_not]
          rintro rfl
          exact absurd this (by decide)
    have e3 : joinS c%"," fs ++ m = joinS c%"," fs' ++ m' := by simpa using e'
    have e4 : joinS c%"," fs = joinS c%"," fs' := by rw [← tw h7 h5, ← tw h7' h5', e3]
    have no {fs : List Str} (h7 : ∀ f ∈ fs, f ≠ [] ∧ ∀ c ∈ f, c.isDigit = true) : ∀ f ∈ fs, ',' ∉ f := fun f hf h =>
      absurd ((h7 f hf).2 _ h) (by decide)
    rw [← splitC_joinS h6 (no h7), ← splitC_joinS h6' (no h7')]
    exact congrArg _ e4

/-- A rid among the lines is among the values. -/
private theorem rid_exists {cs bs ts as : List Str} {vs : List SdpLine} (h : ∀ v ∈ vs, LineOf cs bs ts as v.text v.sdpType)
    (h' : ∀ l ∈ partLines cs bs ts as, ¬ Other l → ∃ v ∈ vs, v.text = l) {w id : Str} {d : SingleDirection} {fs : List Str}
    (hw : c%"rid:" ++ w ∈ as) (hr : Rfc.RidHas w id (singleDirectionText d) fs) :
    ∃ r, Attribute.rid r ∈ attrsOf vs ∧ r.direction = d ∧ r.id = id := by
  obtain ⟨v, hv, e⟩ := h' (c%"a=" ++ (c%"rid:" ++ w)) (by simp only [partLines, List.mem_append, List.mem_map]; exact .inr ⟨_, hw, rfl⟩) (by
    rintro ⟨v, hv, ho⟩
    have : v = c%"rid" ++ ':' :: w := by simpa using hv.symm
    subst this
    exact other_colon (by decide) ho)
  have hk := h v hv
  rw [e] at hk
  rcases hk with ⟨_, _, h, _⟩ | ⟨_, _, h, _⟩ | ⟨_, _, h, _⟩ | ⟨u, _, h, a, hva, hn, hkn, hp⟩
  · simp at h
  · simp at h
  · simp at h
  · have hu : u = c%"rid:" ++ w := by simpa using h.symm
    subst hu
    obtain ⟨r, h1, fs', h2, -⟩ := C106_rid (known_rid hkn)
    have h4 := rfc_attribute_line (l := c%"rid:" ++ w) ⟨'r', _, rfl, rfl⟩ (fun h => absurd (by simp) h) h1 0
    have : a = .rid r := by
      have := hp.symm.trans h4
      simpa using this
    subst this
    obtain ⟨h5, h6, -⟩ := ridHas_unique h2 hr
    refine ⟨r, List.mem_filterMap.2 ⟨v, hv, by rw [hva]⟩, ?_, h5⟩
    revert h6
    cases r.direction <;> cases d <;> decide

private theorem lists_format {l : Str} {v : Str} {m : MediaLine} (hl : l = c%"m=" ++ v) (h : parseSdpLine l 0 = .ok ⟨0, .media m, l⟩)
    (hlen : l.length < 2 ^ 31) {f : Str} {n : Nat} (hf : DecText f n) (hd : ∀ c ∈ f, c.isDigit = true)
    (hz : f = c%"0" ∨ f.head? ≠ some '0') {k p q : Str} {fs : List Str} (hw : Words v (k :: p :: q :: fs)) (hm : f ∈ fs) :
    ListsFormat m.formats n := by
  obtain ⟨u, ⟨raw, ⟨t, c, e, ht, -⟩, hs, -⟩, k', p', q', fs', hw', -, -, -, -, -, hfs⟩ := denotes hlen h
  have hraw : raw = v := by
    have h1 := pair_iff.1 (⟨e, ht⟩ : PairText l (t, raw))
    have h2 := pair_iff.1 (⟨hl, show '=' ∉ c%"m" by decide⟩ : PairText l (c%"m", v))
    rw [h1] at h2
    simp at h2
    exact h2.2
  subst hraw
  rw [stripped_iff.1 hs, words_iff, splitWs_trim] at hw'
  rw [words_iff] at hw
  rw [hw] at hw'
  simp only [List.cons.injEq] at hw'
  obtain ⟨-, -, -, rfl⟩ := hw'
  have hn : n = decValue f := hf.unique ⟨f, .inl rfl, by rintro rfl; obtain ⟨ds, h1 | h1, h2, -⟩ := hf <;> simp_all, hd, rfl⟩
  have hint (ns : List UInt32) (he : Each (fun t (n : UInt32) => DecText t n.toNat ∧ FormatNumber n.toNat) fs ns) :
      ∃ x ∈ ns, x.toNat = n := by
    obtain ⟨x, hx, h, -⟩ := (each_right he).2 f hm
    exact ⟨x, hx, h.unique hf⟩
  unfold FormatsText at hfs
  split at hfs
  · next ss _ hfm =>
    rw [hfm]
    subst hfs
    show decimal n ∈ _
    have : decimal n = f := by
      rw [hn]
      refine showNat_decValue ?_ hd ?_
      · rintro rfl; obtain ⟨ds, h1 | h1, h2, -⟩ := hf <;> simp_all
      · rcases hz with rfl | hz
        · exact .inr (by decide)
        · exact .inl hz
    rw [this]; exact hm
  · next hfm => rw [hfm]; exact hint _ hfs
  · next hfm => rw [hfm]; exact hint _ hfs
  · exact hfs.elim

private theorem connection_lineOf {cs bs ts as : List Str} {vs : List SdpLine} (h : ∀ v ∈ vs, LineOf cs bs ts as v.text v.sdpType)
    {c : Str} (hc : c ∈ cs) (h' : ∀ l ∈ partLines cs bs ts as, ¬ Other l → ∃ v ∈ vs, v.text = l) : connectionsOf vs ≠ [] := by
  obtain ⟨v, hv, e⟩ := h' (c%"c=" ++ c) (by simp [partLines, hc]) (not_other (by decide) _)
  have hk := h v hv
  rw [e] at hk
  rcases hk with ⟨_, _, _, x, h⟩ | ⟨_, _, h, _⟩ | ⟨_, _, h, _⟩ | ⟨_, _, h, _⟩
  · intro hn
    have : x ∈ connectionsOf vs := List.mem_filterMap.2 ⟨v, hv, by rw [h]⟩
    rw [hn] at this; cases this
  all_goals simp at h

private theorem timing_lineOf {cs bs ts as : List Str} {vs : List SdpLine} (h : ∀ v ∈ vs, LineOf cs bs ts as v.text v.sdpType)
    {c : Str} (hc : c ∈ ts) (h' : ∀ l ∈ partLines cs bs ts as, ¬ Other l → ∃ v ∈ vs, v.text = l) : timingsOf vs ≠ [] := by
  obtain ⟨v, hv, e⟩ := h' (c%"t=" ++ c) (by simp [partLines, hc]) (not_other (by decide) _)
  have hk := h v hv
  rw [e] at hk
  rcases hk with ⟨_, _, h, _⟩ | ⟨_, _, h, _⟩ | ⟨_, _, _, x, h⟩ | ⟨_, _, h, _⟩
  · simp at h
  · simp at h
  · intro hn
    have : x ∈ timingsOf vs := List.mem_filterMap.2 ⟨v, hv, by rw [h]⟩
    rw [hn] at this; cases this
  · simp at h

private theorem connections_le {cs bs ts as : List Str} {vs : List SdpLine} (h : ∀ v ∈ vs, LineOf cs bs ts as v.text v.sdpType)
    (h' : (vs.map (·.text)).Sublist (partLines cs bs ts as)) : (connectionsOf vs).length ≤ cs.length := by
  have h1 : (connectionsOf vs).length ≤ ((vs.map (·.text)).filter fun l => decide (l.head? = some 'c')).length := by
    clear h'
    induction vs with
    | nil => simp [connectionsOf]
    | cons v vs ih =>
      have ih := ih fun x hx => h x (by simp [hx])
      have hk := h v (by simp)
      simp only [connectionsOf, List.filterMap_cons, List.map_cons, List.filter_cons] at ih ⊢
      rcases hk with ⟨_, _, e, _, h⟩ | ⟨_, _, e, _, h⟩ | ⟨_, _, e, _, h⟩ | ⟨_, _, e, _, h, _⟩ <;> rw [h, e] <;> simpa using ih
  have h2 := (h'.filter fun l => decide (l.head? = some 'c')).length_le
  have h3 : ((partLines cs bs ts as).filter fun l => decide (l.head? = some 'c')).length = cs.length := by
    simp only [partLines, List.filter_append, List.length_append]
    have e1 : (cs.map (c%"c=" ++ ·)).filter (fun l => decide (l.head? = some 'c')) = cs.map (c%"c=" ++ ·) :=
      List.filter_eq_self.2 (by simp)
    have e2 : (bs.map (c%"b=" ++ ·)).filter (fun l => decide (l.head? = some 'c')) = [] := List.filter_eq_nil_iff.2 (by simp)
    have e3 : (ts.map (c%"t=" ++ ·)).filter (fun l => decide (l.head? = some 'c')) = [] := List.filter_eq_nil_iff.2 (by simp)
    have e4 : (as.map (c%"a=" ++ ·)).filter (fun l => decide (l.head? = some 'c')) = [] := List.filter_eq_nil_iff.2 (by simp)
    rw [e1, e2, e3, e4]
    simp
  omega

private theorem connection_none {cs bs ts as : List Str} {vs : List SdpLine} (h : ∀ v ∈ vs, LineOf cs bs ts as v.text v.sdpType)
    (h' : ∀ l ∈ partLines cs bs ts as, ¬ Other l → ∃ v ∈ vs, v.text = l) : connectionsOf vs = [] ↔ cs = [] := by
  constructor
  · intro e
    cases hc : cs with
    | nil => rfl
    | cons c _ => exact absurd e (connection_lineOf h (c := c) (by simp [hc]) h')
  · rintro rfl
    refine List.filterMap_eq_nil_iff.2 fun v hv => ?_
    rcases h v hv with ⟨_, hn, _⟩ | ⟨_, _, _, _, e⟩ | ⟨_, _, _, _, e⟩ | ⟨_, _, _, _, e, _⟩
    · simp at hn
    all_goals rw [e]

private theorem bandwidth_none {cs bs ts as : List Str} {vs : List SdpLine} (h : ∀ v ∈ vs, LineOf cs bs ts as v.text v.sdpType)
    (h' : ∀ l ∈ partLines cs bs ts as, ¬ Other l → ∃ v ∈ vs, v.text = l) : bandwidthsOf vs = [] ↔ bs = [] := by
  constructor
  · intro e
    cases hb : bs with
    | nil => rfl
    | cons b _ =>
      obtain ⟨v, hv, e'⟩ := h' (c%"b=" ++ b) (by simp [partLines, hb]) (not_other (by decide) _)
      have hk := h v hv
      rw [e'] at hk
      rcases hk with ⟨_, _, h, _⟩ | ⟨_, _, _, x, h⟩ | ⟨_, _, h, _⟩ | ⟨_, _, h, _⟩
      · simp at h
      · have : x ∈ bandwidthsOf vs := List.mem_filterMap.2 ⟨v, hv, by rw [h]⟩
        rw [e] at this; cases this
      · simp at h
      · simp at h
  · rintro rfl
    refine List.filterMap_eq_nil_iff.2 fun v hv => ?_
    rcases h v hv with ⟨_, _, _, _, e⟩ | ⟨_, hn, _⟩ | ⟨_, _, _, _, e⟩ | ⟨_, _, _, _, e, _⟩
    · rw [e]
    · simp at hn
    all_goals rw [e]

/-! ## Any order -/

/-- **C108.** Lines that follow RFC 8866, in any order, give a session, or an error that says that their sequence is wrong. -/
theorem C108_any_order {ls : List Str} (h : ∀ l ∈ ls, Rfc.anyLine l) (h1 : 51 ≤ byteLen (crlf ls)) (h2 : byteLen (crlf ls) < 2 ^ 31) :
    (∃ r, parseSdp (crlf ls) false = .ok r) ∨ ∃ m n, parseSdp (crlf ls) false = .err (.sequence m n) := by
  have hl : ∀ l ∈ ls, '\n' ∉ l := fun l hl hn => by
    have := (rep_char.1 (h l hl).1).2 _ hn
    simp at this
  have ht : TextLines (crlf ls) ls := textLines_iff.2 (lines_crlf_any hl).symm
  have hlen : ∀ l ∈ ls, l.length < 2 ^ 31 := by
    intro l h
    rw [← lines_crlf_any hl] at h
    exact lines_short h2 l h
  have key : ∀ l ∈ ls, (¬ Other l → ∃ t, LineDenotes l t ∧ True) ∧ (Other l → UnsupportedText l) := by
    refine fun l hl' => ⟨fun hu => ?_, other_unsupported⟩
    have hs := hlen l hl'
    obtain ⟨-, q, hq, hl⟩ := h l hl'
    simp only [List.mem_cons, List.not_mem_nil, or_false] at hq
    rcases hq with rfl | rfl | rfl | rfl | rfl | rfl | rfl | rfl <;> obtain ⟨_, _, rfl, rfl, v, _, rfl, hv, rfl⟩ := hl <;>
      simp only [List.append_nil] at hs hu ⊢
    · exact ⟨_, denotes hs (C107_version hv 0), trivial⟩
    · obtain ⟨_, h⟩ := C107_origin hv 0; exact ⟨_, denotes hs h, trivial⟩
    · exact ⟨_, denotes hs (C107_session_name hv 0), trivial⟩
    · obtain ⟨_, h⟩ := C107_connection hv 0; exact ⟨_, denotes hs h, trivial⟩
    · obtain ⟨_, h⟩ := C107_bandwidth hv 0; exact ⟨_, denotes hs h, trivial⟩
    · obtain ⟨_, h⟩ := C107_timing hv 0; exact ⟨_, denotes hs h, trivial⟩
    · obtain ⟨_, h⟩ := C107_media hv 0; exact ⟨_, denotes hs h, trivial⟩
    · obtain ⟨r, hr, hv⟩ := hv
      simp only [List.mem_cons, List.not_mem_nil, or_false] at hr
      rcases hr with rfl | rfl
      · obtain ⟨_, h, -⟩ := C107_attribute hv 0; exact ⟨_, denotes hs h, trivial⟩
      · exact absurd ⟨v, rfl, hv⟩ hu
  obtain ⟨vs, us, hr, -⟩ := read_list (K := fun _ _ => True) (U := Other) (ls := ls) key 0
  rcases C78_fault_or_session vs with ⟨m, n, hf, -⟩ | ⟨r, hd, -⟩
  · exact .inr ⟨m, n, (C78_sequence_error h2).2 ⟨h1, ls, vs, us, ht, hr, by simp, hf⟩⟩
  · obtain ⟨es, he⟩ := (C79_accepts h2 (f := false)).2 ⟨h1, ls, vs, us, r, ht, hr, by simp, hd, rfl⟩
    exact .inl ⟨_, he⟩

/-! ## In order -/

private theorem name_inj {t u : AttributeType} (h : t.name = u.name) : t = u := by
  have := attrTypeOfName_name t
  rw [h, attrTypeOfName_name] at this
  exact (Option.some.inj this).symm

/-- A section has a connection if there is a c= line for it, and bandwidths if there are b= lines. -/
def HasLines (s : Rfc.Section) (m : Media) : Prop := (m.connection = none ↔ s.connection = none) ∧ (m.bandwidth = [] ↔ s.bandwidths = [])

/-- What a section is read as. -/
private structure BlockOf (s : Rfc.Section) (b : List SdpLine) : Prop where
  form : ∃ x rest m, b = x :: rest ∧ x.sdpType = .media m ∧ (∀ l ∈ rest, notMedia l = true) ∧ GoodSection rest ∧
    ConsistentMedia (sectionMedia (m, rest)) ∧ (s.connection ≠ none → ∃ c, (sectionMedia (m, rest)).connection = some c) ∧
    ((∃ e, Attribute.extmap e ∈ (sectionMedia (m, rest)).attrs) → Rfc.Names s.attributes c%"extmap") ∧ HasLines s (sectionMedia (m, rest))

private theorem read_section {s : Rfc.Section} (h : s.Follows) (hlen : ∀ l ∈ s.lines, l.length < 2 ^ 31)
    (hlev : ∀ n ∈ Rfc.sessionLevel, ¬ Rfc.Names s.attributes n)
    (hmux : Rfc.Names s.attributes c%"rtcp-mux-only" → c%"rtcp-mux" ∈ s.attributes)
    (hfmt : s.RidFormats) (hsim : s.SimulcastRids) (n : Nat) :
    ∃ b us, Reading n s.lines b us [] ∧ BlockOf s b ∧ (∀ u ∈ us, Other u.1) ∧ ∀ l ∈ s.lines, Other l → ∃ u ∈ us, u.1 = l := by
  have e : s.lines = (c%"m=" ++ s.media) :: partLines s.connection.toList s.bandwidths [] s.attributes := by
    simp [Rfc.Section.lines, partLines]
  rw [e] at hlen ⊢
  obtain ⟨m, hm⟩ := C107_media h.media 0
  obtain ⟨vs, us, h1, h2, h3, h4, h5⟩ := read_part (cs := s.connection.toList) (bs := s.bandwidths) (ts := []) (as := s.attributes)
    (by simpa using h.connection) h.bandwidths (by simp) h.attributes (fun l hl => hlen l (by simp [hl])) (n + 1)
  have hattr {a : Attribute} (ha : a ∈ (sectionMedia (m, vs)).attrs) : Rfc.Names s.attributes a.type.name :=
    attr_lineOf h2 (List.mem_of_mem_filter ha)
  refine ⟨⟨n, .media m, c%"m=" ++ s.media⟩ :: vs, us, .value (denotes (hlen _ (by simp)) hm) h1,
    ⟨_, vs, m, rfl, rfl, ?_, ⟨?_, ?_, ?_⟩, ⟨?_, ?_, ?_⟩, ?_, ?_, ⟨?_, ?_⟩⟩, fun u hu => (h4 u hu).1, ?_⟩
  · intro l hl
    rcases h2 l hl with ⟨_, _, _, _, h⟩ | ⟨_, _, _, _, h⟩ | ⟨_, _, _, _, h⟩ | ⟨_, _, _, _, h, _⟩ <;> simp [notMedia, h]
  · intro l hl
    rcases h2 l hl with ⟨_, _, _, _, h⟩ | ⟨_, _, _, _, h⟩ | ⟨_, hn, _, _, h⟩ | ⟨_, _, _, _, h, _⟩
    · simp [SectionLine, h]
    · simp [SectionLine, h]
    · simp at hn
    · simp [SectionLine, h]
  · refine Nat.le_trans (connections_le h2 h3) ?_
    cases s.connection <;> simp
  · intro a ha
    refine .inr fun hs => hlev a.type.name ?_ (attr_lineOf h2 ha)
    have : ∀ t ∈ sessionOnly, t.name ∈ Rfc.sessionLevel := by decide
    exact this _ hs
  · intro ha
    have hm := hmux (hattr ha)
    obtain ⟨v, hv, e⟩ := (h5 (c%"a=" ++ c%"rtcp-mux") (by simp [partLines, hm])).2 (by
      rintro ⟨v, hv, ho⟩
      have : v = c%"rtcp-mux" := by simpa using hv.symm
      subst this
      obtain ⟨m, hm⟩ := C107_other_attribute ho 0
      obtain ⟨a, ha, -⟩ := C107_attribute (v := c%"rtcp-mux") ⟨_, List.mem_cons_self, by decide⟩ 0
      rw [hm] at ha; cases ha)
    have hk := h2 v hv
    rw [e] at hk
    rcases hk with ⟨_, _, h, _⟩ | ⟨_, _, h, _⟩ | ⟨_, _, h, _⟩ | ⟨w, _, h, a, hva, hn, -⟩
    · simp at h
    · simp at h
    · simp at h
    · have hw : w = c%"rtcp-mux" := by simpa using h.symm
      subst hw
      have hn : a.type.name = AttributeType.rtcpMux.name := by
        rcases hn with hn | ⟨x, hn⟩
        · exact hn.symm
        · have : ':' ∈ c%"rtcp-mux" := by rw [hn]; simp
          exact absurd this (by decide)
      have hn := name_inj hn
      have : a = .rtcpMux := by cases a <;> first | rfl | cases hn
      subst this
      exact List.mem_filter.2 ⟨List.mem_filterMap.2 ⟨v, hv, by rw [hva]⟩, rfl⟩
  · intro r hr f hf
    obtain ⟨x, fs, h6, h7, h8⟩ := rid_lineOf h2 (List.mem_of_mem_filter hr)
    obtain ⟨t, ht, hd⟩ := (each_right h8).1 f hf
    obtain ⟨hz, k, p, q, gs, hw, hm'⟩ := hfmt x _ _ fs h6 h7 t ht
    refine lists_format rfl hm (hlen _ (by simp)) hd ?_ hz hw hm'
    obtain ⟨_, -, -, -, ⟨-, -, rfl⟩ | ⟨_, -, -, -, h⟩⟩ := h7
    · cases ht
    · exact (h t ht).2
  · rintro sc ⟨pre, post, hp, -⟩
    have hsc : Attribute.simulcast sc ∈ (sectionMedia (m, vs)).attrs := by rw [hp]; simp
    obtain ⟨x, h6, h7⟩ := simulcast_lineOf h2 (List.mem_of_mem_filter hsc)
    have key (d : SingleDirection) : ∀ y ∈ sc.of d, ∀ i ∈ y.ids, HasRid (sectionMedia (m, vs)) d i.id := by
      intro y hy i hi
      obtain ⟨w, fs, h8, h9⟩ := hsim x _ _ h6 (h7 d y hy i hi)
      obtain ⟨r, hr, h10, h11⟩ := rid_exists h2 (fun l hl => (h5 l hl).2) h8 h9
      exact ⟨r, List.mem_filter.2 ⟨hr, rfl⟩, h10, h11⟩
    exact ⟨key .send, key .recv⟩
  · intro hc
    cases hc' : s.connection with
    | none => exact absurd hc' hc
    | some c =>
      have := connection_lineOf h2 (c := c) (by simp [hc']) fun l hl => (h5 l hl).2
      cases hx : connectionsOf vs with
      | nil => exact absurd hx this
      | cons x _ => exact ⟨x, by simp [sectionMedia, hx]⟩
  · rintro ⟨e, he⟩
    exact hattr he
  · have := connection_none h2 fun l hl => (h5 l hl).2
    simp only [sectionMedia, List.head?_eq_none_iff, this]
    cases s.connection <;> simp
  · exact bandwidth_none h2 fun l hl => (h5 l hl).2
  · intro l hl ho
    rcases List.mem_cons.1 hl with rfl | hl
    · exact absurd ho (not_other (by decide) _)
    · exact (h5 l hl).1 ho

private theorem read_sections {ss : List Rfc.Section} (h : ∀ s ∈ ss, s.Follows) (hlen : ∀ l ∈ ss.flatMap Rfc.Section.lines, l.length < 2 ^ 31)
    (hlev : ∀ s ∈ ss, ∀ n ∈ Rfc.sessionLevel, ¬ Rfc.Names s.attributes n)
    (hmux : ∀ s ∈ ss, Rfc.Names s.attributes c%"rtcp-mux-only" → c%"rtcp-mux" ∈ s.attributes)
    (hfmt : ∀ s ∈ ss, s.RidFormats) (hsim : ∀ s ∈ ss, s.SimulcastRids) (n : Nat) :
    ∃ bs us, Reading n (ss.flatMap Rfc.Section.lines) bs.flatten us [] ∧ Each BlockOf ss bs ∧ (∀ u ∈ us, Other u.1) ∧
      ∀ l ∈ ss.flatMap Rfc.Section.lines, Other l → ∃ u ∈ us, u.1 = l := by
  induction ss generalizing n with
  | nil => exact ⟨[], [], .nil, trivial, by simp⟩
  | cons s ss ih =>
    simp only [List.flatMap_cons] at hlen ⊢
    obtain ⟨b, us, h1, h2, h3, h4⟩ := read_section (h s (by simp)) (fun l hl => hlen l (by simp [hl])) (hlev s (by simp))
      (hmux s (by simp)) (hfmt s (by simp)) (hsim s (by simp)) n
    obtain ⟨bs, us', h1', h2', h3', h4'⟩ := ih (fun x hx => h x (by simp [hx])) (fun l hl => hlen l (List.mem_append_right _ hl))
      (fun x hx => hlev x (by simp [hx])) (fun x hx => hmux x (by simp [hx])) (fun x hx => hfmt x (by simp [hx]))
      (fun x hx => hsim x (by simp [hx])) (n + s.lines.length)
    refine ⟨b :: bs, us ++ us', reading_append h1 h1', ⟨h2, h2'⟩, ?_, ?_⟩
    · intro u hu
      rcases List.mem_append.1 hu with hu | hu
      · exact h3 u hu
      · exact h3' u hu
    · intro l hl ho
      rcases List.mem_append.1 hl with hl | hl
      · obtain ⟨u, a, b⟩ := h4 l hl ho; exact ⟨u, by simp [a], b⟩
      · obtain ⟨u, a, b⟩ := h4' l hl ho; exact ⟨u, by simp [a], b⟩

private theorem sections_of_blocks {ss : List Rfc.Section} {bs : List (List SdpLine)} (h : Each BlockOf ss bs) :
    (∀ l ∈ bs.flatten.head?, notMedia l = false) ∧ Each (fun s p => HasLines s (sectionMedia p)) ss (sectionsOf bs.flatten) ∧
    ∀ p ∈ sectionsOf bs.flatten, ∃ s ∈ ss, GoodSection p.2 ∧ ConsistentMedia (sectionMedia p) ∧
      (s.connection ≠ none → ∃ c, (sectionMedia p).connection = some c) ∧
      ((∃ e, Attribute.extmap e ∈ (sectionMedia p).attrs) → Rfc.Names s.attributes c%"extmap") := by
  induction ss generalizing bs with
  | nil =>
    cases bs with
    | nil => simp [sectionsOf, Each]
    | cons => exact h.elim
  | cons s ss ih =>
    cases bs with
    | nil => exact h.elim
    | cons b bs =>
      obtain ⟨⟨x, rest, m, rfl, hx, hrest, h1, h2, h3, h4, h5⟩, h⟩ := h
      obtain ⟨g1, g2, g3⟩ := ih h
      have hb : sectionsOf (x :: rest) = [(m, rest)] := by
        have e := sectionsOf_head (x := []) hrest
        have t := takeWhile_notMedia (x := []) hrest (by simp)
        simp only [List.append_nil] at e t
        simp [sectionsOf, hx, e, t]
      have hs : sectionsOf ((x :: rest) :: bs).flatten = (m, rest) :: sectionsOf bs.flatten := by
        rw [List.flatten_cons, sectionsOf_append g1, hb]; rfl
      refine ⟨by simp [notMedia, hx], by rw [hs]; exact ⟨h5, g2⟩, ?_⟩
      intro p hp
      rw [hs] at hp
      rcases List.mem_cons.1 hp with rfl | hp
      · exact ⟨s, by simp, h1, h2, h3, h4⟩
      · obtain ⟨t, ht, g⟩ := g3 p hp
        exact ⟨t, by simp [ht], g⟩

private theorem each_map_right {α β γ : Type} {R : α → β → Prop} {f : γ → β} {l : List α} {m : List γ} (h : Each (fun a c => R a (f c)) l m) :
    Each R l (m.map f) := by
  induction l generalizing m with
  | nil =>
    cases m with
    | nil => trivial
    | cons => exact h.elim
  | cons x l ih =>
    cases m with
    | nil => exact h.elim
    | cons y m => exact ⟨h.1, ih h.2⟩


/-- **C108.** A description in the order of RFC 8866, whose lines follow their rules and are in their places, is accepted, if it is
long enough. It has the sections of the text, and a connection and bandwidths where the text has them. There is a warning for each attribute that is not known, and no other; with
`fail_on_warning` it is still accepted if there is none. -/
theorem C108_accepts {d : Rfc.Description} (h : d.Follows) (hp : d.Placed) (h1 : 51 ≤ byteLen d.text) (h2 : byteLen d.text < 2 ^ 31)
    {f : Bool} (hf : f = true → ∀ v, Rfc.otherAttribute v → c%"a=" ++ v ∉ d.lines) :
    ∃ r, parseSdp d.text f = .ok r ∧ (r.connection = none ↔ d.connection = none) ∧ (r.bandwidth = [] ↔ d.bandwidths = []) ∧
      r.timing ≠ none ∧ Each HasLines d.sections r.media ∧
      (∀ w ∈ r.warnings, ∃ v m n, Rfc.otherAttribute v ∧ c%"a=" ++ v ∈ d.lines ∧ w = .unsupported (.unsupported m) (c%"a=" ++ v) n) ∧
      ∀ v, Rfc.otherAttribute v → c%"a=" ++ v ∈ d.lines → ∃ m n, .unsupported (.unsupported m) (c%"a=" ++ v) n ∈ r.warnings := by
  have hnl : ∀ l ∈ d.lines, '\n' ∉ l := fun l hl hn => by
    have := (rep_char.1 (h.bytes l hl)).2 _ hn
    simp at this
  have ht : TextLines d.text d.lines := textLines_iff.2 (lines_crlf_any hnl).symm
  have hlen : ∀ l ∈ d.lines, l.length < 2 ^ 31 := by
    intro l hl
    rw [← lines_crlf_any hnl] at hl
    exact lines_short h2 l hl
  have e : d.lines = [c%"v=" ++ d.version, c%"o=" ++ d.origin, c%"s=" ++ d.name] ++
      (partLines d.connection.toList d.bandwidths d.times d.attributes ++ d.sections.flatMap Rfc.Section.lines) := rfl
  obtain ⟨o, ho⟩ := C107_origin h.origin 0
  have hv0 := denotes (hlen _ (by rw [e]; simp)) (C107_version h.version 0)
  have ho0 := denotes (hlen _ (by rw [e]; simp)) ho
  have hs0 := denotes (hlen _ (by rw [e]; simp)) (C107_session_name h.name 0)
  obtain ⟨vs, us, r1, r2, r3, r4, r5⟩ := read_part (cs := d.connection.toList) (bs := d.bandwidths) (ts := d.times) (as := d.attributes)
    (by simpa using h.connection) h.bandwidths h.times.2 h.attributes (fun l hl => hlen l (by rw [e]; simp [hl])) 3
  obtain ⟨bs, us', s1, s2, s3, s4⟩ := read_sections h.sections (fun l hl => hlen l (by rw [e]; simp only [List.mem_append]; exact .inr (.inr hl)))
    hp.media hp.mux hp.formats hp.simulcast (3 + (partLines d.connection.toList d.bandwidths d.times d.attributes).length)
  obtain ⟨g1, g2, g3⟩ := sections_of_blocks s2
  have hr : Reading 0 d.lines (⟨0, .version 0, c%"v=" ++ d.version⟩ :: ⟨1, .origin o, c%"o=" ++ d.origin⟩ ::
      ⟨2, .session d.name, c%"s=" ++ d.name⟩ :: (vs ++ bs.flatten)) (us ++ us') [] :=
    .value hv0 (.value ho0 (.value hs0 (reading_append r1 s1)))
  have hother : ∀ l ∈ d.lines, Other l → ∃ u ∈ us ++ us', u.1 = l := by
    intro l hl hol
    rw [e] at hl
    simp only [List.mem_append, List.mem_cons, List.not_mem_nil, or_false] at hl
    rcases hl with (rfl | rfl | rfl) | hl | hl
    · exact absurd hol (not_other (by decide) _)
    · exact absurd hol (not_other (by decide) _)
    · exact absurd hol (not_other (by decide) _)
    · obtain ⟨u, a, b⟩ := (r5 l hl).1 hol; exact ⟨u, by simp [a], b⟩
    · obtain ⟨u, a, b⟩ := s4 l hl hol; exact ⟨u, by simp [a], b⟩
  have hus : ∀ u ∈ us ++ us', Other u.1 ∧ u.1 ∈ d.lines := fun u hu =>
    ⟨(List.mem_append.1 hu).elim (fun h => (r4 u h).1) (s3 u), reading_mem hr u (.inl hu)⟩
  have hnot : ∀ l ∈ vs, notMedia l = true := by
    intro l hl
    rcases r2 l hl with ⟨_, _, _, _, h⟩ | ⟨_, _, _, _, h⟩ | ⟨_, _, _, _, h⟩ | ⟨_, _, _, _, h, _⟩ <;> simp [notMedia, h]
  have htw : (vs ++ bs.flatten).takeWhile notMedia = vs := takeWhile_notMedia hnot g1
  have hsec : sectionsOf (vs ++ bs.flatten) = sectionsOf bs.flatten := sectionsOf_head hnot
  obtain ⟨t0, ht0⟩ := List.exists_mem_of_ne_nil _ h.times.1
  have htim := timing_lineOf r2 ht0 fun l hl => (r5 l hl).2
  have hvs : vs ≠ [] := by rintro rfl; simp [timingsOf] at htim
  have hdesc : Describes (⟨0, .version 0, c%"v=" ++ d.version⟩ :: ⟨1, .origin o, c%"o=" ++ d.origin⟩ ::
      ⟨2, .session d.name, c%"s=" ++ d.name⟩ :: (vs ++ bs.flatten)) (assemble 0 o d.name (vs ++ bs.flatten) []) := by
    refine ⟨_, _, _, _, 0, o, d.name, rfl, by simp [hvs], rfl, rfl, rfl, ?_, ?_, rfl, ?_⟩
    · rw [htw]
      refine ⟨?_, ?_⟩
      · intro l hl
        rcases r2 l hl with ⟨_, _, _, _, h⟩ | ⟨_, _, _, _, h⟩ | ⟨_, _, _, _, h⟩ | ⟨_, _, _, _, h, _⟩ <;> simp [SessionLine, h]
      · intro a ha hm
        have : ∀ t ∈ mediaOnly, t.name ∈ Rfc.mediaLevel := by decide
        exact hp.session _ (this _ hm) (attr_lineOf r2 ha)
    · rw [hsec]
      intro p hp
      obtain ⟨_, _, h, _⟩ := g3 p hp
      exact h
    · have hm {m : Media} (hm : m ∈ (assemble 0 o d.name (vs ++ bs.flatten) []).media) : ∃ p ∈ sectionsOf bs.flatten, sectionMedia p = m := by
        simp only [assemble, hsec, List.mem_map] at hm
        exact hm
      refine ⟨?_, ?_, ?_, ?_⟩
      · simp only [assemble, htw]
        exact ⟨_, List.getLast?_eq_some_getLast htim⟩
      · rcases hp.connection with hc | hc
        · left
          cases hc' : d.connection with
          | none => exact absurd hc' hc
          | some c =>
            have := connection_lineOf r2 (c := c) (by simp [hc']) fun l hl => (r5 l hl).2
            simp only [assemble, htw]
            exact ⟨_, List.getLast?_eq_some_getLast this⟩
        · right
          intro m hm'
          obtain ⟨p, hp', rfl⟩ := hm hm'
          obtain ⟨s, hs, _, _, h3, _⟩ := g3 p hp'
          exact h3 (hc s hs)
      · rintro ⟨⟨e, he⟩, m, hm', e', he'⟩
        obtain ⟨p, hp', rfl⟩ := hm hm'
        obtain ⟨s, hs, _, _, _, h4⟩ := g3 p hp'
        have : Rfc.Names d.attributes c%"extmap" := by
          simp only [assemble, htw] at he
          exact attr_lineOf r2 he
        exact hp.extmap this s hs (h4 ⟨e', he'⟩)
      · intro m hm'
        obtain ⟨p, hp', rfl⟩ := hm hm'
        obtain ⟨s, hs, _, h2, _⟩ := g3 p hp'
        exact h2
  have hff : f = true → us ++ us' = [] := by
    intro hft
    rcases hu : us ++ us' with _ | ⟨u, rest⟩
    · rfl
    · obtain ⟨⟨v, hv, ho⟩, hl⟩ := hus u (by rw [hu]; simp)
      rw [hv] at hl
      exact absurd hl (hf hft v ho)
  obtain ⟨es, he⟩ := (C79_accepts h2).2 ⟨h1, _, _, _, _, ht, hr, hff, hdesc, rfl⟩
  have hc := C79_sound h2 f
  rw [he] at hc
  generalize hx : (Outcome.ok { (assemble 0 o d.name (vs ++ bs.flatten) []) with warnings := es } : Outcome ParserError Session) = x at hc
  cases hc with
  | short | unsupported | wrong | sequence => cases hx
  | @session ls' vs' us'' r' es' _ t rd _ _ hw =>
    have hes : es' = es := by
      have := Outcome.ok.inj hx
      simp only [Session.mk.injEq] at this
      simp [this]
    subst hes
    obtain ⟨-, rfl, -⟩ := reading_unique h2 ht t hr rd
    refine ⟨_, he, ?_, ?_, ?_, ?_, ?_, ?_⟩
    · have := connection_none r2 fun l hl => (r5 l hl).2
      simp only [assemble, htw, List.getLast?_eq_none_iff, this]
      cases d.connection <;> simp
    · simp only [assemble, htw]
      exact bandwidth_none r2 fun l hl => (r5 l hl).2
    · simp only [assemble, htw, ne_eq, List.getLast?_eq_none_iff]
      exact htim
    · simp only [assemble, hsec]
      exact each_map_right g2
    · intro w hw'
      obtain ⟨u, hu, m, rfl⟩ := (each_right hw).1 w hw'
      obtain ⟨⟨v, hv, ho⟩, hl⟩ := hus u hu
      exact ⟨v, m, u.2, ho, hv ▸ hl, by rw [hv]⟩
    · intro v hv hl
      obtain ⟨u, hu, e⟩ := hother _ hl ⟨v, rfl, hv⟩
      obtain ⟨w, hw', m, rfl⟩ := (each_right hw).2 u hu
      exact ⟨m, u.2, e ▸ hw'⟩

end

/-! ## What is needed -/

section
attribute [local instance] sampleEnv

/-- A short description, with what comes before and after the t= line. -/
def placedText (c rest : List Str) : Str :=
  crlf ([c%"v=0", c%"o=- 1 2 IN IP4 10.0.0.1", c%"s=-"] ++ c ++ [c%"t=0 0"] ++ rest)

/-- The error is one about the sequence of the lines. -/
def saysSequence (s : Str) : Bool := match parseSdp s false with | .err (.sequence _ _) => true | _ => false

/-- **C108.** The places of `Placed` are needed: without a c= line, with an attribute at the wrong level, with extmap at both levels,
with rtcp-mux-only alone, with simulcast streams that are not defined and with rid formats that are not listed, a description is
rejected. -/
theorem C108_places :
    saysSequence (placedText [] [c%"m=audio 9 RTP/AVP 0"]) = true ∧
    saysSequence (placedText [c%"c=IN IP4 10.0.0.1"] [c%"a=mid:x"]) = true ∧
    saysSequence (placedText [c%"c=IN IP4 10.0.0.1"] [c%"m=audio 9 RTP/AVP 0", c%"a=group:LS"]) = true ∧
    saysSequence (placedText [c%"c=IN IP4 10.0.0.1"] [c%"a=extmap:1 urn:x", c%"m=audio 9 RTP/AVP 0", c%"a=extmap:2 urn:y"]) = true ∧
    saysSequence (placedText [c%"c=IN IP4 10.0.0.1"] [c%"m=audio 9 RTP/AVP 0", c%"a=rtcp-mux-only"]) = true ∧
    saysSequence (placedText [c%"c=IN IP4 10.0.0.1"] [c%"m=audio 9 RTP/AVP 0", c%"a=simulcast:send 1"]) = true ∧
    saysSequence (placedText [c%"c=IN IP4 10.0.0.1"] [c%"m=audio 9 RTP/AVP 0", c%"a=rid:1 send pt=96"]) = true ∧
    saysSequence (placedText [c%"c=IN IP4 10.0.0.1"] [c%"m=audio 9 RTP/AVP 0", c%"c=IN IP4 10.0.0.1", c%"c=IN IP4 10.0.0.2"]) = true := by
  decide +kernel

/-- A description of 49 bytes. -/
def shortestDescription : Rfc.Description :=
  ⟨c%"0", c%"- 0 0 IN IP6 ::", c%"-", some c%"IN IP6 ::", [], [c%"0 0"], [], []⟩

private theorem number_of {max : Nat} {s : Str} (h : s ≠ [] ∧ (∀ c ∈ s, c.isDigit = true) ∧ decValue s ≤ max) : number max s := h

private theorem any6 : Rfc.ip6 c%"::" := ⟨0, ipFromStr_iff.1 (by decide +kernel)⟩

/-- **C108.** The length is needed: this description follows RFC 8866 and has all its lines in their places, but is too short. -/
theorem C108_too_short : shortestDescription.Follows ∧ shortestDescription.Placed ∧ (parseSdp shortestDescription.text false).isOk = false := by
  refine ⟨⟨rfl, ?_, rep_char.2 (by decide), ?_, by simp [shortestDescription], ⟨by simp [shortestDescription], ?_⟩, by simp [shortestDescription], by simp [shortestDescription], ?_⟩,
    ⟨.inl (by simp [shortestDescription]), by simp [shortestDescription, Rfc.Names], by simp [shortestDescription], by simp [shortestDescription], by simp [shortestDescription], by simp [shortestDescription], by simp [shortestDescription]⟩, by decide +kernel⟩
  · exact ⟨c%"-", _, rfl, rep_char.2 (by decide), [' '], _, rfl, rfl, c%"0", _, rfl, number_of (by decide), [' '], _, rfl, rfl,
      c%"0", _, rfl, number_of (by decide), [' '], _, rfl, rfl, c%"IN IP6 ::", [], rfl, ⟨c%"IN", _, rfl, rfl, [' '], _, rfl, rfl,
        c%"IP6 ::", _, rfl, ⟨_, List.mem_cons_of_mem _ List.mem_cons_self, c%"IP6", _, rfl, rfl, [' '], _, rfl, rfl, c%"::", [], rfl, any6, rfl⟩, rfl⟩, rfl⟩
  · intro c hc
    obtain rfl : c%"IN IP6 ::" = c := by simpa [shortestDescription] using hc
    exact ⟨c%"IN", _, rfl, rfl, [' '], _, rfl, rfl, c%"IP6 ::", _, rfl, ⟨_, List.mem_cons_of_mem _ List.mem_cons_self, c%"IP6", _, rfl,
      rfl, [' '], _, rfl, rfl, c%"::", [], rfl, any6, [], [], rfl, .inl rfl, rfl⟩, rfl⟩
  · intro t ht
    obtain rfl : t = c%"0 0" := by simpa [shortestDescription] using ht
    exact ⟨c%"0", _, rfl, number_of (by decide), [' '], _, rfl, rfl, c%"0", [], rfl, number_of (by decide), rfl⟩
  · intro l hl
    have : ∀ l ∈ shortestDescription.lines, 1 ≤ l.length ∧ ∀ c ∈ l, (c.toNat ≠ 0 && c.toNat ≠ 0x0a && c.toNat ≠ 0x0d) = true := by decide
    exact rep_char.2 (this l hl)

/-- **C108.** The example of RFC 8866, 5, is rejected, and is accepted without its i=, u=, e= and p= lines. -/
theorem C108_rfc_example :
    let top := [c%"v=0", c%"o=jdoe 3724394400 3724394405 IN IP4 198.51.100.1", c%"s=Call to John Smith"]
    let extra := [c%"i=SDP Offer #1", c%"u=http://www.jdoe.example.com/home.html", c%"e=Jane Doe <jane@jdoe.example.com>",
      c%"p=+1 617 555-6011"]
    let rest := [c%"c=IN IP4 198.51.100.1", c%"t=0 0", c%"m=audio 49170 RTP/AVP 0", c%"m=audio 49180 RTP/AVP 0",
      c%"m=video 51372 RTP/AVP 99", c%"c=IN IP6 2001:db8::2", c%"a=rtpmap:99 h263-1998/90000"]
    (parseSdp (crlf (top ++ extra ++ rest)) false).isOk = false ∧ (parseSdp (crlf (top ++ rest)) true).isOk = true := by
  decide +kernel

/-! ## A concrete case -/

def rfcExample : Rfc.Description :=
  ⟨c%"0", c%"jdoe 3724394400 3724394405 IN IP4 198.51.100.1", c%"Call to John Smith", some c%"IN IP4 198.51.100.1", [c%"X-YZ:128"],
    [c%"0 0"], [c%"tool:x y"],
    [⟨c%"audio 49170 RTP/AVP 0", none, [], [c%"mid:0", c%"rtcp-mux"]⟩,
     ⟨c%"video 51372 RTP/AVP 99", some c%"IN IP6 2001:db8::2", [], [c%"rtpmap:99 h263-1998/90000", c%"sendonly",
       c%"rid:hi send pt=99;max-width=1280", c%"simulcast:send ~hi"]⟩]⟩

theorem rfcExample_follows : rfcExample.Follows ∧ rfcExample.Placed ∧ 51 ≤ byteLen rfcExample.text ∧ byteLen rfcExample.text < 2 ^ 31 := by
  have port {s : Str} (h : s ≠ [] ∧ (∀ c ∈ s, c.isDigit = true) ∧ decValue s ≤ 65535) :
      seq [Rfc.port, opt (seq [exactly ['/'], number (2 ^ 32 - 1)])] s := ⟨s, [], by simp, h, [], [], rfl, .inl rfl, rfl⟩
  have one {s : Str} (h : Rfc.payloadType s) : rep 1 (seq [Rfc.SP, Rfc.payloadType]) (' ' :: s) :=
    ⟨[' ' :: s], by simp, by simp, by
      intro t ht; simp at ht; subst ht
      exact ⟨[' '], s, rfl, rfl, s, [], by simp, h, rfl⟩⟩
  refine ⟨⟨rfl, ?_, rep_char.2 (by decide), ?_, ?_, ⟨by simp [rfcExample], ?_⟩, ?_, ?_, ?_⟩, ⟨.inl (by simp [rfcExample]), ?_, ?_, ?_, ?_, ?fmt, ?sim⟩, by decide +kernel, by decide +kernel⟩
  · exact ⟨c%"jdoe", _, rfl, rep_char.2 (by decide), [' '], _, rfl, rfl, c%"3724394400", _, rfl, number_of (by decide), [' '], _, rfl, rfl,
      c%"3724394405", _, rfl, number_of (by decide), [' '], _, rfl, rfl, c%"IN IP4 198.51.100.1", [], rfl,
      ⟨c%"IN", _, rfl, rfl, [' '], _, rfl, rfl, c%"IP4 198.51.100.1", _, rfl, ⟨_, List.mem_cons_self, c%"IP4", _, rfl, rfl, [' '], _, rfl,
        rfl, c%"198.51.100.1", [], rfl, ⟨0xc6336401, ipFromStr_iff.1 (by decide +kernel)⟩, rfl⟩, rfl⟩, rfl⟩
  · intro c hc
    obtain rfl : c%"IN IP4 198.51.100.1" = c := by simpa [rfcExample] using hc
    exact ⟨c%"IN", _, rfl, rfl, [' '], _, rfl, rfl, c%"IP4 198.51.100.1", _, rfl, ⟨_, List.mem_cons_self, c%"IP4", _, rfl, rfl, [' '], _, rfl,
        rfl, c%"198.51.100.1", [], rfl, ⟨0xc6336401, ipFromStr_iff.1 (by decide +kernel)⟩, [], [], rfl, .inl rfl, rfl⟩, rfl⟩
  · intro b hb
    obtain rfl : b = c%"X-YZ:128" := by simpa [rfcExample] using hb
    exact ⟨c%"X-YZ", _, rfl, rep_char.2 (by decide), [':'], _, rfl, rfl, c%"128", [], rfl, number_of (by decide), rfl⟩
  · intro t ht
    obtain rfl : t = c%"0 0" := by simpa [rfcExample] using ht
    exact ⟨c%"0", _, rfl, number_of (by decide), [' '], _, rfl, rfl, c%"0", [], rfl, number_of (by decide), rfl⟩
  · intro a ha
    obtain rfl : a = c%"tool:x y" := by simpa [rfcExample] using ha
    exact ⟨_, List.mem_cons_of_mem _ List.mem_cons_self, c%"tool", _, rfl, ⟨rep_char.2 (by decide), by decide⟩, c%":x y", [], rfl,
      .inr ⟨[':'], _, rfl, rfl, c%"x y", [], rfl, rep_char.2 (by decide), rfl⟩, rfl⟩
  · intro s hs
    simp only [rfcExample, List.mem_cons, List.not_mem_nil, or_false] at hs
    rcases hs with rfl | rfl
    · refine ⟨⟨_, List.mem_cons_self, c%"audio", _, rfl, ⟨_, List.mem_cons_self, rfl⟩, [' '], _, rfl, rfl, c%"49170", _, rfl, port (by decide),
        [' '], _, rfl, rfl, c%"RTP/AVP", _, rfl, ⟨_, List.mem_cons_self, rfl⟩, c%" 0", [], rfl, one ⟨number_of (by decide), by unfold FormatNumber; decide +kernel⟩, rfl⟩,
        by simp, by simp, ?_⟩
      intro a ha
      simp only [List.mem_cons, List.not_mem_nil, or_false] at ha
      rcases ha with rfl | rfl
      · exact ⟨_, List.mem_cons_self, Rfc.named c%"mid" Rfc.mid, by simp, c%"mid", _, rfl, rfl, [':'], _, rfl, rfl, c%"0", [], rfl, rep_char.2 (by decide), rfl⟩
      · exact ⟨_, List.mem_cons_self, _, List.mem_cons_self, by decide⟩
    · refine ⟨⟨_, List.mem_cons_self, c%"video", _, rfl, ⟨_, List.mem_cons_of_mem _ List.mem_cons_self, rfl⟩, [' '], _, rfl, rfl, c%"51372", _, rfl, port (by decide),
        [' '], _, rfl, rfl, c%"RTP/AVP", _, rfl, ⟨_, List.mem_cons_self, rfl⟩, c%" 99", [], rfl, one ⟨number_of (by decide), by unfold FormatNumber; decide +kernel⟩, rfl⟩,
        ?_, by simp, ?_⟩
      · intro c hc
        obtain rfl : c%"IN IP6 2001:db8::2" = c := by simpa using hc
        exact ⟨c%"IN", _, rfl, rfl, [' '], _, rfl, rfl, c%"IP6 2001:db8::2", _, rfl, ⟨_, List.mem_cons_of_mem _ List.mem_cons_self, c%"IP6", _, rfl,
          rfl, [' '], _, rfl, rfl, c%"2001:db8::2", [], rfl, ⟨0x20010db8000000000000000000000002, ipFromStr_iff.1 (by decide +kernel)⟩, [], [], rfl, .inl rfl, rfl⟩, rfl⟩
      · intro a ha
        simp only [List.mem_cons, List.not_mem_nil, or_false] at ha
        rcases ha with rfl | rfl | rfl | rfl
        · exact ⟨_, List.mem_cons_self, Rfc.named c%"rtpmap" Rfc.rtpmap, by simp, c%"rtpmap", _, rfl, rfl, [':'], _, rfl, rfl, c%"99 h263-1998/90000", [], rfl,
            ⟨c%"99", _, rfl, number_of (by decide), [' '], _, rfl, rfl, c%"h263-1998", _, rfl, rep_char.2 (by decide), ['/'], _, rfl, rfl,
              c%"90000", _, rfl, number_of (by decide), [], _, rfl, .inl rfl, rfl⟩, rfl⟩
        · exact ⟨_, List.mem_cons_self, _, List.mem_cons_self, by decide⟩
        · exact ⟨_, List.mem_cons_self, Rfc.named c%"rid" Rfc.rid, by simp, c%"rid", _, rfl, rfl, [':'], _, rfl, rfl,
            c%"hi send pt=99;max-width=1280", [], rfl, ⟨c%"hi", _, rfl, rep_char.2 (by decide), [' '], _, rfl, rfl, c%"send", _, rfl,
              ⟨_, List.mem_cons_self, rfl⟩, c%" pt=99;max-width=1280", [], rfl, .inr ⟨_, List.mem_cons_self, [' '], _, rfl, rfl, c%"pt=", _, rfl,
                rfl, c%"99", _, rfl, number_of (by decide), [], _, rfl, ⟨[], rfl, by simp, by simp⟩, c%";max-width=1280", [], rfl,
                ⟨[c%";max-width=1280"], rfl, by simp, by
                  intro t ht; simp at ht; subst ht
                  exact ⟨[';'], _, rfl, rfl, c%"max-width=1280", [], rfl, ⟨_, List.mem_cons_self, c%"max-width", _, rfl,
                    ⟨_, List.mem_cons_self, rfl⟩, ['='], _, rfl, rfl, c%"1280", [], rfl, number_of (by decide), rfl⟩, rfl⟩⟩, rfl⟩, rfl⟩, rfl⟩
        · exact ⟨_, List.mem_cons_self, Rfc.named c%"simulcast" Rfc.simulcast, by simp, c%"simulcast", _, rfl, rfl, [':'], _, rfl, rfl,
            c%"send ~hi", [], rfl, ⟨_, List.mem_cons_self, c%"send ~hi", _, rfl, ⟨c%"send", _, rfl, rfl, [' '], _, rfl, rfl, c%"~hi", [], rfl,
              ⟨c%"~hi", _, rfl, ⟨c%"~hi", _, rfl, ⟨['~'], _, rfl, .inr rfl, c%"hi", [], rfl, rep_char.2 (by decide), rfl⟩, [], _, rfl,
                ⟨[], rfl, by simp, by simp⟩, rfl⟩, [], _, rfl, ⟨[], rfl, by simp, by simp⟩, rfl⟩, rfl⟩, [], [], rfl, .inl rfl, rfl⟩, rfl⟩
  · intro l hl
    have : ∀ l ∈ rfcExample.lines, 1 ≤ l.length ∧ ∀ c ∈ l, (c.toNat ≠ 0 && c.toNat ≠ 0x0a && c.toNat ≠ 0x0d) = true := by decide +kernel
    exact rep_char.2 (this l hl)
  case fmt =>
    intro s hs
    simp only [rfcExample, List.mem_cons, List.not_mem_nil, or_false] at hs
    rcases hs with rfl | rfl
    · intro v id dir fs hv
      simp at hv
    · intro v id dir fs hv hh f hf
      obtain rfl : v = c%"hi send pt=99;max-width=1280" := by simpa using hv
      have h1 : Rfc.RidHas c%"hi send pt=99;max-width=1280" c%"hi" c%"send" [c%"99"] :=
        ⟨c%" pt=99;max-width=1280", rfl, by decide, by decide, .inr ⟨c%";max-width=1280", rfl, .inr ⟨_, rfl⟩, by simp, by simp⟩⟩
      obtain ⟨-, -, rfl⟩ := ridHas_unique h1 hh
      obtain rfl : f = c%"99" := by simpa using hf
      exact ⟨.inr (by decide), c%"video", c%"51372", c%"RTP/AVP", [c%"99"], words_iff.2 (by decide +kernel), by simp⟩
  case sim =>
    intro s hs
    simp only [rfcExample, List.mem_cons, List.not_mem_nil, or_false] at hs
    rcases hs with rfl | rfl
    · intro v id dir hv
      simp at hv
    · intro v dir id hv hh
      obtain rfl : v = c%"send ~hi" := by simpa using hv
      refine ⟨c%"hi send pt=99;max-width=1280", [c%"99"], by simp, ?_⟩
      obtain ⟨ws, l, alts, a, ids, h1, h2, h3, h4, h5, h6⟩ := hh
      rw [fields_iff] at h1 h3 h5
      have e1 : ws = [c%"send", c%"~hi"] := by rw [← h1]; decide +kernel
      subst e1
      rcases h2 with ⟨r, h2⟩ | ⟨_, _, h2⟩
      · simp only [List.cons.injEq] at h2
        obtain ⟨rfl, rfl, -⟩ := h2
        have e2 : alts = [c%"~hi"] := by rw [← h3]; decide +kernel
        subst e2
        obtain rfl : a = c%"~hi" := by simpa using h4
        have e3 : ids = [c%"~hi"] := by rw [← h5]; decide +kernel
        subst e3
        rcases h6 with ⟨h6, h7⟩ | h6
        · obtain rfl : id = c%"~hi" := by simpa using h6
          exact absurd rfl h7
        · obtain rfl : id = c%"hi" := by simpa using h6
          exact ⟨c%" pt=99;max-width=1280", rfl, by decide, by decide, .inr ⟨c%";max-width=1280", rfl, .inr ⟨_, rfl⟩, by simp, by simp⟩⟩
      · simp at h2
  all_goals simp [rfcExample, Rfc.Names, Rfc.HasName, Rfc.mediaLevel, Rfc.sessionLevel]

end

end Sdp
