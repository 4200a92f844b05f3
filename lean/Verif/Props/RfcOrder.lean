import Verif.Spec.RfcOrder
import Verif.Props.RfcDocument
import Verif.Props.Strings
import Verif.Lemmas.ReadsBackSession
import Verif.Lemmas.Canonical2
import Verif.Props.Accepted
/-!
# C109: the order of the lines that are written

RFC 8866 prescribes the order of the lines. `Display` writes t= before b= and c= in the session part, and b= before c= in a
section.
-/

namespace Sdp

open Abnf

/-! ## Words over letters -/

private theorem rep_letter {lo : Nat} {x : Char} {s : Str} : rep lo (exactly [x]) s ↔ ∃ n, lo ≤ n ∧ s = List.replicate n x := by
  constructor
  · rintro ⟨ts, rfl, h, ht⟩
    refine ⟨ts.length, h, ?_⟩
    clear h
    induction ts with
    | nil => rfl
    | cons t ts ih =>
      have : t = [x] := ht t (by simp)
      subst this
      simp only [List.flatten_cons, ih fun t h => ht t (by simp [h]), List.length_cons]
      rfl
  · rintro ⟨n, h, rfl⟩
    refine ⟨List.replicate n [x], by simp, by simpa using h, ?_⟩
    intro t ht
    exact (List.mem_replicate.1 ht).2

private theorem rep_letters {lo : Nat} {x : Char} {s : Str} (h : rep lo (exactly [x]) s) : ∀ c ∈ s, c = x := by
  obtain ⟨n, -, rfl⟩ := rep_letter.1 h
  exact fun c hc => (List.mem_replicate.1 hc).2

private theorem opt_letters {x : Char} {s : Str} (h : opt (exactly [x]) s) : ∀ c ∈ s, c = x := by
  rcases h with rfl | h
  · simp
  · have : s = [x] := h
    subst this; simp

private theorem time_letters {s : Str} (h : Rfc.timeOrder s) : ∃ r, s = 't' :: r ∧ ∀ c ∈ r, c ∈ c%"rz" := by
  obtain ⟨_, _, rfl, rfl, u, _, rfl, hu, rfl⟩ := h
  refine ⟨u, by simp, ?_⟩
  rcases hu with rfl | ⟨a, _, rfl, ha, b, _, rfl, hb, rfl⟩
  · simp
  · intro c hc
    simp only [List.append_nil, List.mem_append] at hc
    rcases hc with hc | hc
    · rw [rep_letters ha c hc]; decide
    · rw [opt_letters hb c hc]; decide

private theorem times_letters {s : Str} (h : rep 1 Rfc.timeOrder s) : ∃ r, s = 't' :: r ∧ ∀ c ∈ r, c ∈ c%"trz" := by
  obtain ⟨ts, rfl, h1, ht⟩ := h
  cases ts with
  | nil => simp at h1
  | cons t ts =>
    obtain ⟨r, rfl, hr⟩ := time_letters (ht t (by simp))
    refine ⟨r ++ ts.flatten, by simp, ?_⟩
    intro c hc
    rcases List.mem_append.1 hc with hc | hc
    · have : ∀ c ∈ c%"rz", c ∈ c%"trz" := by decide
      exact this c (hr c hc)
    · obtain ⟨t, h, hc⟩ := List.mem_flatten.1 hc
      obtain ⟨r, rfl, hr⟩ := time_letters (ht t (by simp [h]))
      rcases List.mem_cons.1 hc with rfl | hc
      · decide
      · have : ∀ c ∈ c%"rz", c ∈ c%"trz" := by decide
        exact this c (hr c hc)

private theorem section_letters {s : Str} (h : Rfc.sectionOrder s) : ∃ u v, s = 'm' :: (u ++ v) ∧ (∀ c ∈ u, c ∈ c%"ic") ∧ ∀ c ∈ v, c ∈ c%"bka" := by
  obtain ⟨_, _, rfl, rfl, i, _, rfl, hi, c, _, rfl, hc, b, _, rfl, hb, k, _, rfl, hk, a, _, rfl, ha, rfl⟩ := h
  refine ⟨i ++ c, b ++ k ++ a, by simp, ?_, ?_⟩
  · intro x hx
    rcases List.mem_append.1 hx with hx | hx
    · rw [opt_letters hi x hx]; decide
    · rw [rep_letters hc x hx]; decide
  · intro x hx
    simp only [List.mem_append] at hx
    rcases hx with (hx | hx) | hx
    · rw [rep_letters hb x hx]; decide
    · rw [opt_letters hk x hx]; decide
    · rw [rep_letters ha x hx]; decide

private theorem order_letters {s : Str} (h : Rfc.lineOrder s) : ∃ u v secs, s = joinS ['m'] ((u ++ 't' :: v) :: secs) ∧
    (∀ c ∈ u, c ∈ c%"vosiuepcb") ∧ (∀ c ∈ v, c ∈ c%"trzka") ∧
    ∀ t ∈ secs, ∃ u v, t = u ++ v ∧ (∀ c ∈ u, c ∈ c%"ic") ∧ ∀ c ∈ v, c ∈ c%"bka" := by
  obtain ⟨_, _, rfl, rfl, _, _, rfl, rfl, _, _, rfl, rfl, i, _, rfl, hi, u, _, rfl, hu, e, _, rfl, he, p, _, rfl, hp, c, _, rfl, hc,
    b, _, rfl, hb, t, _, rfl, ht, k, _, rfl, hk, a, _, rfl, ha, m, _, rfl, hm, rfl⟩ := h
  obtain ⟨r, rfl, hr⟩ := times_letters ht
  obtain ⟨secs, rfl, -, hs⟩ := hm
  refine ⟨c%"vos" ++ i ++ u ++ e ++ p ++ c ++ b, r ++ k ++ a, secs.map (·.tail), ?_, ?_, ?_, ?_⟩
  · rw [joinS_cons_flat]
    have : (secs.map (·.tail)).flatMap (fun x => ['m'] ++ x) = secs.flatten := by
      clear ht hr
      induction secs with
      | nil => rfl
      | cons x xs ih =>
        obtain ⟨u, v, rfl, -⟩ := section_letters (hs x (by simp))
        simp only [List.map_cons, List.flatMap_cons, List.flatten_cons, ih fun x hx => hs x (by simp [hx])]
        rfl
    rw [this]
    simp
  · intro x hx
    simp only [List.mem_append] at hx
    rcases hx with (((((hx | hx) | hx) | hx) | hx) | hx) | hx
    · have : ∀ x ∈ c%"vos", x ∈ c%"vosiuepcb" := by decide
      exact this x hx
    · rw [opt_letters hi x hx]; decide
    · rw [opt_letters hu x hx]; decide
    · rw [rep_letters he x hx]; decide
    · rw [rep_letters hp x hx]; decide
    · rw [opt_letters hc x hx]; decide
    · rw [rep_letters hb x hx]; decide
  · intro x hx
    simp only [List.mem_append] at hx
    rcases hx with (hx | hx) | hx
    · have : ∀ x ∈ c%"trz", x ∈ c%"trzka" := by decide
      exact this x (hr x hx)
    · rw [opt_letters hk x hx]; decide
    · rw [rep_letters ha x hx]; decide
  · intro t ht
    obtain ⟨x, hx, rfl⟩ := List.mem_map.1 ht
    obtain ⟨u, v, rfl, h1, h2⟩ := section_letters (hs x hx)
    exact ⟨u, v, rfl, h1, h2⟩

/-! ## The letters of a printed session -/

private theorem letters_map (x : Char) (r : Str) (l : List Str) : Rfc.letters (l.map fun t => (x :: r) ++ t) = List.replicate l.length x := by
  induction l with
  | nil => rfl
  | cons t l ih =>
    simp only [Rfc.letters, List.map_cons, List.length_cons, List.replicate_succ] at ih ⊢
    rw [← ih]; rfl

private theorem letters_append (a b : List Str) : Rfc.letters (a ++ b) = Rfc.letters a ++ Rfc.letters b := by simp [Rfc.letters]

private theorem letters_text (x : Char) (r : Str) (l : List Str) : ∃ n, Rfc.letters (textLines (x :: r) l) = List.replicate n x ∧ (n = 0 ↔ l = []) := by
  unfold textLines
  split
  · next h => exact ⟨0, rfl, by simp [h]⟩
  · next h =>
    split
    · exact ⟨1, rfl, by simp [h]⟩
    · next h' =>
      refine ⟨_, letters_map _ _ _, ?_⟩
      simp only [List.length_eq_zero_iff, List.filter_eq_nil_iff, h, iff_false]
      simpa using h'

/-- The letters of b= lines, a c= line and a= lines. -/
private def bodyWord (n : Nat) (c : Option Connection) (k : Nat) : Str :=
  List.replicate n 'b' ++ (c.toList.map fun _ => 'c') ++ List.replicate k 'a'

private theorem letters_body (bs : List Bandwidth) (c : Option Connection) (as : List Attribute) :
    ∃ n k, Rfc.letters (bodyLines bs c as) = bodyWord n c k ∧ (n = 0 ↔ bs = []) := by
  obtain ⟨n, hn, hn'⟩ := letters_text 'b' ['='] (bs.map showBandwidth)
  obtain ⟨k, hk, -⟩ := letters_text 'a' ['='] (as.map showAttribute)
  refine ⟨n, k, ?_, by simpa using hn'⟩
  unfold bodyLines bodyWord
  rw [letters_append, letters_append, hn, hk]
  cases c <;> simp [Rfc.letters]

private theorem letters_session (s : Session) : ∃ n k secs,
    Rfc.letters s.lines = joinS ['m'] ((c%"vos" ++ (s.timing.toList.map fun _ => 't') ++ bodyWord n s.connection k) :: secs) ∧
    (n = 0 ↔ s.bandwidth = []) ∧ Each (fun (m : Media) w => ∃ n k, w = bodyWord n m.connection k ∧ (n = 0 ↔ m.bandwidth = [])) s.media secs := by
  obtain ⟨n, k, h1, h2⟩ := letters_body s.bandwidth s.connection s.attrs
  have key : ∀ ms : List Media, ∃ secs : List Str, Rfc.letters (ms.flatMap Media.lines) = secs.flatMap (fun x => ['m'] ++ x) ∧
      Each (fun (m : Media) w => ∃ n k, w = bodyWord n m.connection k ∧ (n = 0 ↔ m.bandwidth = [])) ms secs := by
    intro ms
    induction ms with
    | nil => exact ⟨[], rfl, trivial⟩
    | cons m ms ih =>
      obtain ⟨secs, i1, i2⟩ := ih
      obtain ⟨n, k, h1, h2⟩ := letters_body m.bandwidth m.connection m.attrs
      refine ⟨bodyWord n m.connection k :: secs, ?_, ⟨n, k, rfl, h2⟩, i2⟩
      rw [List.flatMap_cons, letters_append, i1, List.flatMap_cons, ← h1]
      rfl
  obtain ⟨secs, h3, h4⟩ := key s.media
  refine ⟨n, k, secs, ?_, h2, h4⟩
  unfold Session.lines
  rw [joinS_cons_flat, letters_append, letters_append, letters_append, h1, h3]
  have : Rfc.letters (s.timing.toList.map fun t => c%"t=" ++ showTiming t) = s.timing.toList.map fun _ => 't' := by
    cases s.timing <;> simp [Rfc.letters]
  rw [this]
  simp [Rfc.letters]

private theorem bodyWord_letters {n k : Nat} {c : Option Connection} : ∀ x ∈ bodyWord n c k, x ∈ c%"bca" := by
  intro x hx
  simp only [bodyWord, List.mem_append, List.mem_replicate, List.mem_map] at hx
  rcases hx with (⟨-, rfl⟩ | ⟨_, _, rfl⟩) | ⟨-, rfl⟩ <;> decide

private theorem each_both {α β : Type} {R : α → β → Prop} {P : β → Prop} {Q : α → Prop} {l : List α} {m : List β} (h : Each R l m)
    (hpq : ∀ a b, R a b → (P b ↔ Q a)) : (∀ b ∈ m, P b) ↔ ∀ a ∈ l, Q a := by
  induction l generalizing m with
  | nil =>
    cases m with
    | nil => simp
    | cons => exact h.elim
  | cons x l ih =>
    cases m with
    | nil => exact h.elim
    | cons y m =>
      simp only [List.forall_mem_cons]
      rw [hpq x y h.1, ih h.2]

private theorem body_order {n k : Nat} {c : Option Connection} :
    (∃ u v, bodyWord n c k = u ++ v ∧ (∀ c ∈ u, c ∈ c%"ic") ∧ ∀ c ∈ v, c ∈ c%"bka") ↔ n = 0 ∨ c = none := by
  constructor
  · rintro ⟨u, v, e, hu, hv⟩
    rcases n with _ | n
    · exact .inl rfl
    · right
      cases c with
      | none => rfl
      | some c =>
        cases u with
        | nil =>
          have : 'c' ∈ v := by
            have : 'c' ∈ bodyWord (n + 1) (some c) k := by simp [bodyWord]
            rw [e] at this; exact this
          exact absurd (hv 'c' this) (by decide)
        | cons x u =>
          have : x = 'b' := by simpa [bodyWord, List.replicate_succ] using congrArg List.head? e.symm
          subst this
          exact absurd (hu 'b' (by simp)) (by decide)
  · rintro (rfl | rfl)
    · refine ⟨c.toList.map fun _ => 'c', List.replicate k 'a', by simp [bodyWord], ?_, ?_⟩
      · intro x hx
        obtain ⟨_, _, rfl⟩ := List.mem_map.1 hx; decide
      · intro x hx
        rw [(List.mem_replicate.1 hx).2]; decide
    · refine ⟨[], bodyWord n none k, rfl, by simp, ?_⟩
      intro x hx
      simp only [bodyWord, List.mem_append, List.mem_replicate, Option.toList_none, List.map_nil, List.append_nil] at hx
      rcases hx with ⟨-, rfl⟩ | ⟨-, rfl⟩ <;> decide

private theorem section_order {n k : Nat} {c : Option Connection} (h : n = 0 ∨ c = none) : Rfc.sectionOrder ('m' :: bodyWord n c k) := by
  have hc : rep 0 (exactly ['c']) (c.toList.map fun _ => 'c') := by
    cases c with
    | none => exact rep_letter.2 ⟨0, by simp, rfl⟩
    | some c => exact rep_letter.2 ⟨1, by simp, rfl⟩
  have hb {n : Nat} {x : Char} : rep 0 (exactly [x]) (List.replicate n x) := rep_letter.2 ⟨n, by simp, rfl⟩
  rcases h with rfl | rfl
  · exact ⟨['m'], _, rfl, rfl, [], _, rfl, .inl rfl, _, List.replicate k 'a', by simp [bodyWord], hc, [], _, rfl, hb (n := 0), [], _, rfl, .inl rfl,
      List.replicate k 'a', [], by simp, hb, rfl⟩
  · exact ⟨['m'], _, rfl, rfl, [], _, rfl, .inl rfl, [], _, rfl, hb (n := 0), List.replicate n 'b', List.replicate k 'a', by simp [bodyWord], hb, [], _, rfl, .inl rfl,
      List.replicate k 'a', [], by simp, hb, rfl⟩

section
variable [Env]

omit [Env] in
theorem letters_order (s : Session) :
    Rfc.lineOrder (Rfc.letters s.lines) ↔
      s.timing ≠ none ∧ s.bandwidth = [] ∧ s.connection = none ∧ ∀ m ∈ s.media, m.bandwidth = [] ∨ m.connection = none := by
  obtain ⟨n, k, secs, h1, h2, h3⟩ := letters_session s
  rw [h1]
  have hmed : (∀ w ∈ secs, ∃ u v, w = u ++ v ∧ (∀ c ∈ u, c ∈ c%"ic") ∧ ∀ c ∈ v, c ∈ c%"bka") ↔
      ∀ m ∈ s.media, m.bandwidth = [] ∨ m.connection = none := by
    refine each_both h3 ?_
    rintro m _ ⟨n, k, rfl, hn⟩
    rw [body_order, hn]
  have hsm : ∀ w ∈ secs, 'm' ∉ w ∧ ∃ n k, ∃ m ∈ s.media, w = bodyWord n m.connection k ∧ (n = 0 ↔ m.bandwidth = []) := by
    clear h1 hmed
    revert h3
    generalize s.media = ms
    intro h3 w hw
    induction ms generalizing secs with
    | nil =>
      cases secs with
      | nil => simp at hw
      | cons => exact h3.elim
    | cons m ms ih =>
      cases secs with
      | nil => exact h3.elim
      | cons y secs =>
        rcases List.mem_cons.1 hw with rfl | hw
        · obtain ⟨⟨n, k, rfl, h⟩, -⟩ := h3
          exact ⟨fun hm => absurd (bodyWord_letters _ hm) (by decide), n, k, m, by simp, rfl, h⟩
        · obtain ⟨a, n, k, m, hm, h⟩ := ih secs h3.2 hw
          exact ⟨a, n, k, m, by simp [hm], h⟩
  have hhead : 'm' ∉ c%"vos" ++ (s.timing.toList.map fun _ => 't') ++ bodyWord n s.connection k := by
    intro hm
    simp only [List.mem_append, List.mem_map] at hm
    rcases hm with (hm | ⟨_, _, hm⟩) | hm
    · exact absurd hm (by decide)
    · exact absurd hm (by decide)
    · exact absurd (bodyWord_letters _ hm) (by decide)
  constructor
  · intro h
    obtain ⟨u, v, secs', e0, hu, hv, hsec⟩ := order_letters h
    have e := congrArg (splitC 'm') e0
    rw [splitC_joinS (by simp) (by
      intro t ht
      rcases List.mem_cons.1 ht with rfl | ht
      · exact hhead
      · exact (hsm t ht).1), splitC_joinS (by simp) (by
      intro t ht
      rcases List.mem_cons.1 ht with rfl | ht
      · intro hm
        simp only [List.mem_append, List.mem_cons] at hm
        rcases hm with hm | hm | hm
        · exact absurd (hu _ hm) (by decide)
        · exact absurd hm (by decide)
        · exact absurd (hv _ hm) (by decide)
      · obtain ⟨u, v, rfl, a, b⟩ := hsec t ht
        intro hm
        rcases List.mem_append.1 hm with hm | hm
        · exact absurd (a _ hm) (by decide)
        · exact absurd (b _ hm) (by decide))] at e
    simp only [List.cons.injEq] at e
    clear e0
    obtain ⟨e, rfl⟩ := e
    have ht : s.timing ≠ none := by
      intro ht
      rw [ht] at e
      have : 't' ∈ c%"vos" ++ ((none : Option Timing).toList.map fun _ => 't') ++ bodyWord n s.connection k := by rw [e]; simp
      simp only [List.mem_append, Option.toList_none, List.map_nil, List.not_mem_nil, or_false] at this
      rcases this with h | h
      · exact absurd h (by decide)
      · exact absurd (bodyWord_letters _ h) (by decide)
    obtain ⟨t, ht'⟩ := Option.ne_none_iff_exists'.1 ht
    rw [ht'] at e
    have e : c%"vos" ++ 't' :: bodyWord n s.connection k = u ++ 't' :: v := by simpa using e
    have hu' : 't' ∉ bodyWord n s.connection k := fun h => absurd (bodyWord_letters _ h) (by decide)
    have hv' : 't' ∉ c%"vos" := by decide
    obtain ⟨-, -, e⟩ := (List.append_cons_inj_of_notMem hv' hu').1 e
    refine ⟨ht, h2.1 ?_, ?_, hmed.1 hsec⟩
    · rcases n with _ | n
      · rfl
      · exact absurd (hv 'b' (by rw [← e]; simp [bodyWord])) (by decide)
    · cases hc : s.connection with
      | none => rfl
      | some c => exact absurd (hv 'c' (by rw [← e, hc]; simp [bodyWord])) (by decide)
  · rintro ⟨ht, hb, hc, hm⟩
    obtain ⟨t, ht'⟩ := Option.ne_none_iff_exists'.1 ht
    obtain rfl := h2.2 hb
    have hsec : ∀ w ∈ secs, Rfc.sectionOrder ('m' :: w) := by
      intro w hw
      obtain ⟨-, n, k, m, hm', rfl, h⟩ := hsm w hw
      exact section_order ((hm m hm').imp h.2 id)
    rw [joinS_cons_flat, hc, ht']
    have h0 {x : Char} : rep 0 (exactly [x]) [] := rep_letter.2 ⟨0, by simp, rfl⟩
    refine ⟨['v'], _, rfl, rfl, ['o'], _, rfl, rfl, ['s'], _, rfl, rfl, [], _, rfl, .inl rfl, [], _, rfl, .inl rfl, [], _, rfl, h0,
      [], _, rfl, h0, [], _, rfl, .inl rfl, [], _, rfl, h0, ['t'], List.replicate k 'a' ++ secs.flatMap (fun x => ['m'] ++ x), ?_, ?_,
      [], _, rfl, .inl rfl, List.replicate k 'a', _, rfl, rep_letter.2 ⟨k, by simp, rfl⟩, secs.flatMap (fun x => ['m'] ++ x), [], by simp, ?_, rfl⟩
    · simp [bodyWord]
    · exact ⟨[['t']], by simp, by simp, by
        intro x hx
        simp at hx; subst hx
        exact ⟨['t'], [], rfl, rfl, [], [], rfl, .inl rfl, rfl⟩⟩
    · refine ⟨secs.map (fun w => 'm' :: w), by simp [List.flatMap_def], by simp, ?_⟩
      intro t ht
      obtain ⟨w, hw, rfl⟩ := List.mem_map.1 ht
      exact hsec w hw

omit [Env] in
/-- **C109.** The lines that are written for a session, with no line feed in its strings, are in the order of RFC 8866 exactly if it
has a timing, the session has no bandwidths and no connection of its own, and no section has both. -/
theorem C109_order {s : Session} (hs : ∀ t ∈ s.strings, '\n' ∉ t) :
    Rfc.lineOrder (Rfc.letters (lines (showSession s))) ↔
      s.timing ≠ none ∧ s.bandwidth = [] ∧ s.connection = none ∧ ∀ m ∈ s.media, m.bandwidth = [] ∨ m.connection = none := by
  rw [showSession_lines, lines_crlf_any (fun l hl => Free.sessionLines (.inl rfl) hs l hl)]
  exact letters_order s

/-- **C109.** Likewise for what `parse_sdp` returns, which always has a timing. -/
theorem C109_parsed (hhost : ∀ h d, Env.hostNA h = .domain d → '\n' ∉ d) {t : Str} {f : Bool} {s : Session} (h : parseSdp t f = .ok s) :
    Rfc.lineOrder (Rfc.letters (lines (showSession s))) ↔
      s.bandwidth = [] ∧ s.connection = none ∧ ∀ m ∈ s.media, m.bandwidth = [] ∨ m.connection = none := by
  rw [C109_order (C52_no_line_feed hhost h)]
  obtain ⟨-, t, ht⟩ := C03_version_and_timing h
  simp [ht]

/-- **C109.** A description that follows RFC 8866 is accepted, and what is written for the session is in the order of RFC 8866
exactly if the description has no c= and b= lines for the session and no section with both. -/
theorem C109_description (hhost : ∀ h d, Env.hostNA h = .domain d → '\n' ∉ d) {d : Rfc.Description} (h : d.Follows) (hp : d.Placed)
    (h1 : 51 ≤ byteLen d.text) (h2 : byteLen d.text < 2 ^ 31) : ∃ r, parseSdp d.text false = .ok r ∧
      (Rfc.lineOrder (Rfc.letters (lines (showSession r))) ↔
        d.connection = none ∧ d.bandwidths = [] ∧ ∀ s ∈ d.sections, s.connection = none ∨ s.bandwidths = []) := by
  obtain ⟨r, hr, hc, hb, -, hm, -⟩ := C108_accepts h hp h1 h2 (f := false) (by simp)
  refine ⟨r, hr, ?_⟩
  rw [C109_parsed hhost hr, hc, hb, and_left_comm]
  refine and_congr_right' (and_congr_right' (each_both hm fun s m hl => ?_))
  rw [hl.1, hl.2, or_comm]

omit [Env] in
/-- **C109.** The lines of such a description are themselves in order. -/
theorem C109_description_order (d : Rfc.Description) (h : d.times ≠ []) : Rfc.lineOrder (Rfc.letters d.lines) := by
  have hb {n : Nat} {x : Char} : rep 0 (exactly [x]) (List.replicate n x) := rep_letter.2 ⟨n, by simp, rfl⟩
  have hsec : ∀ s : Rfc.Section, Rfc.sectionOrder (Rfc.letters s.lines) := by
    intro s
    refine ⟨['m'], _, rfl, rfl, [], _, rfl, .inl rfl, List.replicate s.connection.toList.length 'c',
      List.replicate s.bandwidths.length 'b' ++ List.replicate s.attributes.length 'a', ?_, hb, List.replicate s.bandwidths.length 'b',
      _, rfl, hb, [], _, rfl, .inl rfl, List.replicate s.attributes.length 'a', [], by simp, hb, rfl⟩
    change Rfc.letters _ = _
    rw [letters_append, letters_append, letters_map 'c' ['='], letters_map 'b' ['='], letters_map 'a' ['='], List.append_assoc]
  refine ⟨['v'], _, rfl, rfl, ['o'], _, rfl, rfl, ['s'], _, rfl, rfl, [], _, rfl, .inl rfl, [], _, rfl, .inl rfl, [], _, rfl, hb (n := 0),
    [], _, rfl, hb (n := 0), List.replicate d.connection.toList.length 'c',
    List.replicate d.bandwidths.length 'b' ++ (List.replicate d.times.length 't' ++ (List.replicate d.attributes.length 'a' ++
      Rfc.letters (d.sections.flatMap Rfc.Section.lines))), ?_, ?_, _, _, rfl, hb, List.replicate d.times.length 't', _, rfl, ?_, [], _, rfl, .inl rfl,
    _, _, rfl, hb, Rfc.letters (d.sections.flatMap Rfc.Section.lines), [], by simp, ?_, rfl⟩
  · change Rfc.letters (d.head ++ d.sections.flatMap Rfc.Section.lines) = _
    unfold Rfc.Description.head
    rw [letters_append, letters_append, letters_append, letters_append, letters_map 'c' ['='], letters_map 'b' ['='], letters_map 't' ['='],
      letters_map 'a' ['=']]
    simp
  · cases d.connection
    · exact .inl rfl
    · exact .inr rfl
  · refine ⟨List.replicate d.times.length ['t'], by simp, by simpa [Nat.one_le_iff_ne_zero] using h, ?_⟩
    intro t ht
    rw [(List.mem_replicate.1 ht).2]
    exact ⟨['t'], [], rfl, rfl, [], [], rfl, .inl rfl, rfl⟩
  · refine ⟨d.sections.map fun s => Rfc.letters s.lines, ?_, by simp, ?_⟩
    · generalize d.sections = ss
      induction ss with
      | nil => rfl
      | cons x xs ih => rw [List.flatMap_cons, letters_append, ih]; simp
    · intro t ht
      obtain ⟨x, _, rfl⟩ := List.mem_map.1 ht
      exact hsec x

end

/-! ## A concrete case -/

section
attribute [local instance] sampleEnv

/-- **C109.** The example of RFC 8866, 5, without the lines the library does not know, is in the order of the RFC, but what is
written for it is not: t= comes before c=. -/
theorem C109_rfc_example :
    let t := crlf [c%"v=0", c%"o=jdoe 3724394400 3724394405 IN IP4 198.51.100.1", c%"s=Call to John Smith", c%"c=IN IP4 198.51.100.1",
      c%"t=0 0", c%"m=audio 49170 RTP/AVP 0", c%"m=video 51372 RTP/AVP 99", c%"a=rtpmap:99 h263-1998/90000"]
    Rfc.letters (lines t) = c%"vosctmma" ∧
      (match parseSdp t false with
        | .ok r => Rfc.letters (lines (showSession r))
        | _ => []) = c%"vostcmma" := by decide +kernel

/-- A session that is written in order: its connections are in the sections. -/
example :
    let t := crlf [c%"v=0", c%"o=- 1 2 IN IP4 198.51.100.1", c%"s=-", c%"t=0 0", c%"a=group:BUNDLE 0 1",
      c%"m=audio 49170 RTP/AVP 0", c%"c=IN IP4 198.51.100.1", c%"a=mid:0", c%"m=video 51372 RTP/AVP 99", c%"c=IN IP4 198.51.100.1",
      c%"a=mid:1", c%"a=rtpmap:99 h263-1998/90000"]
    (match parseSdp t false with
    | .ok r => decide ((∀ t ∈ r.strings, '\n' ∉ t) ∧ r.timing.isSome ∧ r.bandwidth.isEmpty ∧ r.connection.isNone ∧ r.media.length = 2 ∧
        (∀ m ∈ r.media, m.bandwidth.isEmpty ∨ m.connection.isNone) ∧ Rfc.letters (lines (showSession r)) = c%"vostamcamcaa")
    | _ => false) = true := by decide +kernel

end

end Sdp
