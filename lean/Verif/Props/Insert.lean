import Verif.Lemmas.InsertText
import Verif.Props.Compose
import Verif.Spec.Sample
/-!
# C97: adding and removing one line
-/

namespace Sdp
open Insert

section
variable [Env]

/-- **C97.** An accepted text gets one more a= line between its s= line and its first m= line. It is accepted again
exactly if the attribute is allowed on the session level and, should it be an extmap, no section has one. The
session then has one more attribute, in that place, and is otherwise the same. -/
theorem C97_add_to_session {p q : List Str} {l s s' : Str} {a : Attribute} {f : Bool} {r : Session}
    (hp : NoMediaLine p) (hn : HasName p) (hl : lineMeaning l = .ok (.attr a)) (hs : lines s = p ++ q)
    (hs' : lines s' = p ++ l :: q) (hb : 51 ≤ byteLen s') (hr : parseSdp s f = .ok r) :
    ∃ B, r.attrs = attrsRead p ++ B ∧ ((∃ r', parseSdp s' f = .ok r') ↔ SessionTakes r a) ∧
      ∀ r', parseSdp s' f = .ok r' → r' = { r with attrs := attrsRead p ++ a :: B, warnings := r'.warnings } := by
  obtain ⟨hfine, hd⟩ := describes_of hs hr
  have h3 := first_three_name (by rw [bareLines_append] at hd; exact hd) (hasName_bare hn)
  obtain ⟨base, B, D, G, hw, k1, k2⟩ := at_session (q := q) hp hl (.inl ⟨a, rfl⟩) h3
  obtain ⟨hG, er, hc⟩ := (k1 _).1 hd
  rw [er] at hc
  obtain ⟨w, rfl⟩ := of_bare er
  have k2 := fun r => (k2 r).trans (and_congr_right fun _ => and_congr_left fun _ => goodPart_attr)
  have hcons : Consistent { base with attrs := attrsRead p ++ (attrsOf [⟨0, .attr a, []⟩] ++ B)
                                      bandwidth := bandwidthsRead p ++ (bandwidthsOf [⟨0, .attr a, []⟩] ++ D) } ↔
      ∀ e, a = .extmap e → ∀ m ∈ base.media, ∀ e', Attribute.extmap e' ∉ m.attrs := by
    constructor
    · rintro h e rfl m hm e' he'
      exact h.extmap ⟨⟨e, by simp [attrsOf]⟩, m, hm, e', he'⟩
    · intro h
      refine ⟨hc.timing, hc.connection, ?_, hc.media⟩
      rintro ⟨⟨e, he⟩, m, hm, e', he'⟩
      rcases mem_insert.1 he with he | he
      · exact h e he.symm m hm e' he'
      · exact hc.extmap ⟨⟨e, he⟩, m, hm, e', he'⟩
  refine ⟨B, rfl, ?_, fun r' h => ?_⟩
  · rw [accepts hs' hb ((fine_insert hl).2 hfine)]
    unfold SessionTakes
    rw [← hcons]
    constructor
    · rintro ⟨r', h⟩
      obtain ⟨-, h1, rfl, h2⟩ := (k2 r').1 h
      exact ⟨h1, h2⟩
    · rintro ⟨h, h'⟩
      exact ⟨_, (k2 _).2 ⟨hG, h, rfl, h'⟩⟩
  · obtain ⟨w', rfl⟩ := of_bare ((k2 _).1 (describes_of hs' h).2).2.2.1
    rfl

/-- **C97.** An accepted text loses an a= line between its s= line and its first m= line. It is always accepted again
(if it is long enough); the session then lacks that attribute, and is otherwise the same. -/
theorem C97_remove_from_session {p q : List Str} {l s s' : Str} {a : Attribute} {f : Bool} {r : Session}
    (hp : NoMediaLine p) (hl : lineMeaning l = .ok (.attr a)) (hs : lines s = p ++ l :: q)
    (hs' : lines s' = p ++ q) (hb : 51 ≤ byteLen s') (hr : parseSdp s f = .ok r) :
    ∃ B, r.attrs = attrsRead p ++ a :: B ∧
      ∃ w, parseSdp s' f = .ok { r with attrs := attrsRead p ++ B, warnings := w } := by
  obtain ⟨hfine, hd⟩ := describes_of hs hr
  have h3 := three_attr hl (.inl ⟨a, rfl⟩) hd
  obtain ⟨base, B, D, G, hw, k1, k2⟩ := at_session (q := q) hp hl (.inl ⟨a, rfl⟩) h3
  obtain ⟨hG, -, er, hc⟩ := (k2 _).1 hd
  rw [er] at hc
  obtain ⟨w, rfl⟩ := of_bare er
  refine ⟨B, rfl, ?_⟩
  obtain ⟨r', h⟩ := (accepts hs' hb ((fine_insert hl).1 hfine)).2 
    ⟨_, (k1 _).2 ⟨hG, rfl, hc.timing, hc.connection,
      fun ⟨⟨e, he⟩, x⟩ => hc.extmap ⟨⟨e, mem_insert.2 (.inr he)⟩, x⟩, hc.media⟩⟩
  obtain ⟨w', rfl⟩ := of_bare ((k1 _).1 (describes_of hs' h).2).2.1
  exact ⟨w', h⟩

/-- **C97.** A b= line between the s= line and the first m= line of an accepted text can be added or removed, with the
expected effect. -/
theorem C97_bandwidth_of_session {p q : List Str} {l s s' : Str} {b : Bandwidth} {f : Bool}
    (hp : NoMediaLine p) (hn : HasName p) (hl : lineMeaning l = .ok (.bandwidth b)) (hs : lines s = p ++ q)
    (hs' : lines s' = p ++ l :: q) (hb : 51 ≤ byteLen s) (hb' : 51 ≤ byteLen s') :
    (∀ r, parseSdp s f = .ok r → ∃ D, r.bandwidth = bandwidthsRead p ++ D ∧
      ∃ w, parseSdp s' f = .ok { r with bandwidth := bandwidthsRead p ++ b :: D, warnings := w }) ∧
    (∀ r, parseSdp s' f = .ok r → ∃ D, r.bandwidth = bandwidthsRead p ++ b :: D ∧
      ∃ w, parseSdp s f = .ok { r with bandwidth := bandwidthsRead p ++ D, warnings := w }) := by
  constructor
  · intro r hr
    obtain ⟨hfine, hd⟩ := describes_of hs hr
    have h3 := first_three_name (by rw [bareLines_append] at hd; exact hd) (hasName_bare hn)
    obtain ⟨base, B, D, G, hw, k1, k2⟩ := at_session (q := q) hp hl (.inr ⟨b, rfl⟩) h3
    obtain ⟨hG, er, hc⟩ := (k1 _).1 hd
    rw [er] at hc
    obtain ⟨w, rfl⟩ := of_bare er
    refine ⟨D, rfl, ?_⟩
    obtain ⟨r', h⟩ := (accepts hs' hb' ((fine_insert hl).2 hfine)).2
      ⟨_, (k2 _).2 ⟨hG, ⟨by simp [SessionLine], by simp [attrsOf]⟩, rfl, hc.timing, hc.connection, hc.extmap, hc.media⟩⟩
    obtain ⟨w', rfl⟩ := of_bare ((k2 _).1 (describes_of hs' h).2).2.2.1
    exact ⟨w', h⟩
  · intro r hr
    obtain ⟨hfine, hd⟩ := describes_of hs' hr
    have h3 := three_attr hl (.inr ⟨b, rfl⟩) hd
    obtain ⟨base, B, D, G, hw, k1, k2⟩ := at_session (q := q) hp hl (.inr ⟨b, rfl⟩) h3
    obtain ⟨hG, -, er, hc⟩ := (k2 _).1 hd
    rw [er] at hc
    obtain ⟨w, rfl⟩ := of_bare er
    refine ⟨D, rfl, ?_⟩
    obtain ⟨r', h⟩ := (accepts hs hb ((fine_insert hl).1 hfine)).2
      ⟨_, (k1 _).2 ⟨hG, rfl, hc.timing, hc.connection, hc.extmap, hc.media⟩⟩
    obtain ⟨w', rfl⟩ := of_bare ((k1 _).1 (describes_of hs h).2).2.1
    exact ⟨w', h⟩

/-! ## Sections -/

private theorem goodSection_attr {a : Attribute} :
    GoodSection [⟨0, .attr a, []⟩] ↔ isDtls a = true ∨ a.type ∉ sessionOnly :=
  ⟨fun h => h.levels a (by simp [attrsOf]), fun h => ⟨by simp [SectionLine], by simp [connectionsOf], by simpa [attrsOf] using h⟩⟩

private theorem three_media {p q : List Str} {m : Str} {ml : MediaLine} {r : Session} (hm : lineMeaning m = .ok (.media ml))
    (hd : Describes (bareLines (p ++ m :: q)) r) :
    ∃ l0 l1 l2 p' v o nm, bareLines p = l0 :: l1 :: l2 :: p' ∧ l0.sdpType = .version v ∧ l1.sdpType = .origin o ∧
      l2.sdpType = .session nm := by
  rw [bareLines_append, bare_cons hm] at hd
  exact first_three hd (by simp)

/-- Consistency of a session, of which one section is changed. -/
private theorem consistent_section {base : Session} {before after : List Media} {m m' : Media}
    (hc : Consistent { base with media := before ++ m :: after }) (hcon : m'.connection = m.connection) :
    Consistent { base with media := before ++ m' :: after } ↔
      ¬ ((∃ e, Attribute.extmap e ∈ base.attrs) ∧ ∃ e, Attribute.extmap e ∈ m'.attrs) ∧ ConsistentMedia m' := by
  constructor
  · intro h
    refine ⟨?_, h.media m' (by simp)⟩
    rintro ⟨h1, h2⟩
    exact h.extmap ⟨h1, m', by simp, h2⟩
  · rintro ⟨h1, h2⟩
    refine ⟨hc.timing, ?_, ?_, ?_⟩
    · rcases hc.connection with h | h
      · exact .inl h
      · refine .inr fun x hx => ?_
        simp only [List.mem_append, List.mem_cons] at hx h
        rcases hx with hx | rfl | hx
        · exact h x (.inl hx)
        · rw [hcon]; exact h m (.inr (.inl rfl))
        · exact h x (.inr (.inr hx))
    · rintro ⟨k1, x, hx, k2⟩
      simp only [List.mem_append, List.mem_cons] at hx
      have := hc.extmap
      simp only [List.mem_append, List.mem_cons] at this
      rcases hx with hx | rfl | hx
      · exact this ⟨k1, x, .inl hx, k2⟩
      · exact h1 ⟨k1, k2⟩
      · exact this ⟨k1, x, .inr (.inr hx), k2⟩
    · intro x hx
      have := hc.media
      simp only [List.mem_append, List.mem_cons] at hx this
      rcases hx with hx | rfl | hx
      · exact this x (.inl hx)
      · exact h2
      · exact this x (.inr (.inr hx))

private theorem consistent_bandwidth {base : Session} {before after : List Media} {m m' : Media}
    (hc : Consistent { base with media := before ++ m :: after }) (h1 : m'.connection = m.connection)
    (h2 : m'.media = m.media) (h3 : m'.attrs = m.attrs) :
    Consistent { base with media := before ++ m' :: after } := by
  have hcm := hc.media _ (List.mem_append_right _ List.mem_cons_self)
  refine (consistent_section hc h1).2 ⟨fun ⟨k1, k2⟩ => ?_, ?_⟩
  · exact hc.extmap ⟨k1, m, List.mem_append_right _ List.mem_cons_self, h3 ▸ k2⟩
  · cases m; cases m'; subst h1 h2 h3
    exact ⟨hcm.mux, hcm.ridFormats, hcm.simulcast⟩

private theorem sectionTakes_iff {r : Session} {m : Media} {A B P : List Attribute} {a : Attribute} (hm : m.attrs = A ++ B)
    (hA : A = P.filter (fun x => !isDtls x)) (hdt : ¬ isDtls a = true) (hc : ConsistentMedia m)
    (he : ¬ ((∃ e, Attribute.extmap e ∈ r.attrs) ∧ ∃ e, Attribute.extmap e ∈ m.attrs)) :
    ((isDtls a = true ∨ a.type ∉ sessionOnly) ∧
      (¬ ((∃ e, Attribute.extmap e ∈ r.attrs) ∧ ∃ e, Attribute.extmap e ∈ A ++ a :: B) ∧
        ConsistentMedia { m with attrs := A ++ a :: B })) ↔ SectionTakes r m P a := by
  have hx : (¬ ((∃ e, Attribute.extmap e ∈ r.attrs) ∧ ∃ e, Attribute.extmap e ∈ A ++ a :: B)) ↔
      ∀ e, a = .extmap e → ∀ e', Attribute.extmap e' ∉ r.attrs := by
    constructor
    · rintro h e rfl e' he'
      exact h ⟨⟨e', he'⟩, e, by simp⟩
    · rintro h ⟨⟨e, h1⟩, e', h2⟩
      rcases mem_insert.1 h2 with h2 | h2
      · exact h e' h2.symm e h1
      · exact he ⟨⟨e, h1⟩, e', hm ▸ h2⟩
  have hs : (∃ x, Attribute.simulcast x ∈ A) ↔ ∃ x, Attribute.simulcast x ∈ P := by
    subst hA
    simp only [List.mem_filter]
    exact ⟨fun ⟨x, h, _⟩ => ⟨x, h⟩, fun ⟨x, h⟩ => ⟨x, h, rfl⟩⟩
  rw [hx, consistent_insert hm hc, hs]
  cases a <;> simp_all [SectionTakes, sessionOnly, Attribute.type, isDtls]

/-- **C97.** An accepted text gets one more a= line after an m= line and some lines of its section. It is accepted
again exactly if the section takes the attribute: it is allowed on the media level; extmaps are not also on the session level;
rtcp-mux-only has its rtcp-mux; the formats of a rid are those of the m= line; the first simulcast is defined. The
section then has one more attribute, in that place (a dtls-message is dropped), and the rest of the session is the same. -/
theorem C97_add_to_section {p1 p2 q : List Str} {m l s s' : Str} {ml : MediaLine} {a : Attribute} {f : Bool} {r : Session}
    (hm : lineMeaning m = .ok (.media ml)) (hp : NoMediaLine p2) (hl : lineMeaning l = .ok (.attr a))
    (hs : lines s = p1 ++ m :: (p2 ++ q)) (hs' : lines s' = p1 ++ m :: (p2 ++ l :: q)) (hb : 51 ≤ byteLen s')
    (hr : parseSdp s f = .ok r) :
    ∃ before sec after B, r.media = before ++ sec :: after ∧ before.length = p1.countP isMediaLine ∧ sec.media = ml ∧
      sec.attrs = (attrsRead p2).filter (fun x => !isDtls x) ++ B ∧
      ((∃ r', parseSdp s' f = .ok r') ↔ SectionTakes r sec (attrsRead p2) a) ∧
      ∀ r', parseSdp s' f = .ok r' →
        r' = { r with media := before ++ { sec with attrs := if isDtls a then sec.attrs else
                                             (attrsRead p2).filter (fun x => !isDtls x) ++ a :: B } :: after
                      warnings := r'.warnings } := by
  obtain ⟨hfine, hd⟩ := describes_of hs hr
  obtain ⟨base, before, after, con, B, D, G, hw, hlen, k1, k2⟩ := at_section (q := q) hm hp hl (.inl ⟨a, rfl⟩) (three_media hm hd)
  obtain ⟨hG, er, hc⟩ := (k1 _).1 hd
  rw [er] at hc
  obtain ⟨w, rfl⟩ := of_bare er
  have hfine' : ∀ x ∈ p1 ++ m :: (p2 ++ l :: q), LineFine f x := by
    have := (fine_insert (f := f) (p := p1 ++ m :: p2) (q := q) hl).2
    simp only [List.append_assoc, List.cons_append] at this
    exact this hfine
  refine ⟨before, _, after, B, rfl, hlen, rfl, rfl, ?_, fun r' h => ?_⟩
  · rw [accepts hs' hb hfine']
    have k3 : (∃ r, Describes (bareLines (p1 ++ m :: (p2 ++ l :: q))) r) ↔ (isDtls a = true ∨ a.type ∉ sessionOnly) ∧ _ :=
      ⟨fun ⟨r, h⟩ => by
        obtain ⟨-, h1, rfl, h2⟩ := (k2 r).1 h
        exact ⟨goodSection_attr.1 h1, h2⟩, fun ⟨h1, h2⟩ => ⟨_, (k2 _).2 ⟨hG, goodSection_attr.2 h1, rfl, h2⟩⟩⟩
    rw [k3]
    by_cases hdt : isDtls a = true
    · have e : (attrsOf [⟨0, .attr a, []⟩]).filter (fun a => !isDtls a) = [] := by simp [attrsOf, hdt]
      rw [e]
      exact ⟨fun _ => .dtls hdt, fun _ => ⟨.inl hdt, hc⟩⟩
    · have e : (attrsOf [⟨0, .attr a, []⟩]).filter (fun a => !isDtls a) = [a] := by simp [attrsOf, hdt]
      rw [e]
      have hcm := hc.media _ (List.mem_append_right _ List.mem_cons_self)
      have := consistent_section (m' := ⟨ml, con, bandwidthsRead p2 ++ D,
        (attrsRead p2).filter (fun x => !isDtls x) ++ a :: B⟩) hc rfl
      refine Iff.trans (and_congr_right fun _ => this) ?_
      refine sectionTakes_iff (r := { base with media := _, warnings := _ }) (m := ⟨ml, con, bandwidthsRead p2 ++ D,
        (attrsRead p2).filter (fun x => !isDtls x) ++ B⟩) rfl rfl hdt hcm ?_
      rintro ⟨h1, h2⟩
      exact hc.extmap ⟨h1, _, List.mem_append_right _ List.mem_cons_self, h2⟩
  · obtain ⟨w', rfl⟩ := of_bare ((k2 _).1 (describes_of hs' h).2).2.2.1
    by_cases hdt : isDtls a = true
    · have e : (attrsOf [⟨0, .attr a, []⟩]).filter (fun a => !isDtls a) = [] := by simp [attrsOf, hdt]
      simp only [e, hdt, if_true]
      rfl
    · have e : (attrsOf [⟨0, .attr a, []⟩]).filter (fun a => !isDtls a) = [a] := by simp [attrsOf, hdt]
      simp only [e, hdt, Bool.false_eq_true, if_false]
      rfl

/-- **C97.** An accepted text loses an a= line of a section. It is accepted again exactly if the section that is left
needs the line neither as the rtcp-mux of an rtcp-mux-only nor as a rid of its first simulcast. The section then lacks
that attribute, and the rest of the session is the same. -/
theorem C97_remove_from_section {p1 p2 q : List Str} {m l s s' : Str} {ml : MediaLine} {a : Attribute} {f : Bool} {r : Session}
    (hm : lineMeaning m = .ok (.media ml)) (hp : NoMediaLine p2) (hl : lineMeaning l = .ok (.attr a))
    (hs : lines s = p1 ++ m :: (p2 ++ l :: q)) (hs' : lines s' = p1 ++ m :: (p2 ++ q)) (hb : 51 ≤ byteLen s')
    (hr : parseSdp s f = .ok r) :
    ∃ before sec after B, r.media = before ++ sec :: after ∧ before.length = p1.countP isMediaLine ∧ sec.media = ml ∧
      sec.attrs = (attrsRead p2).filter (fun x => !isDtls x) ++ (if isDtls a then B else a :: B) ∧
      ((∃ r', parseSdp s' f = .ok r') ↔
        SectionSpares { sec with attrs := (attrsRead p2).filter (fun x => !isDtls x) ++ B } a) ∧
      ∀ r', parseSdp s' f = .ok r' →
        r' = { r with media := before ++ { sec with attrs := (attrsRead p2).filter (fun x => !isDtls x) ++ B } :: after
                      warnings := r'.warnings } := by
  obtain ⟨hfine, hd⟩ := describes_of hs hr
  obtain ⟨base, before, after, con, B, D, G, hw, hlen, k1, k2⟩ := at_section (q := q) hm hp hl (.inl ⟨a, rfl⟩) (three_media hm hd)
  obtain ⟨hG, -, er, hc⟩ := (k2 _).1 hd
  rw [er] at hc
  obtain ⟨w, rfl⟩ := of_bare er
  have hfine' : ∀ x ∈ p1 ++ m :: (p2 ++ q), LineFine f x := by
    have := (fine_insert (f := f) (p := p1 ++ m :: p2) (q := q) hl).1
    simp only [List.append_assoc, List.cons_append] at this
    exact this hfine
  have eA : (attrsOf [⟨0, .attr a, []⟩]).filter (fun a => !isDtls a) ++ B = if isDtls a then B else a :: B := by
    by_cases hdt : isDtls a = true <;> simp [attrsOf, hdt]
  refine ⟨before, _, after, B, rfl, hlen, rfl, ?_, ?_, fun r' h => ?_⟩
  · exact congrArg _ eA
  · rw [accepts hs' hb hfine']
    have k3 : (∃ r, Describes (bareLines (p1 ++ m :: (p2 ++ q))) r) ↔ _ :=
      ⟨fun ⟨r, h⟩ => by
        obtain ⟨-, rfl, h2⟩ := (k1 r).1 h
        exact h2, fun h2 => ⟨_, (k1 _).2 ⟨hG, rfl, h2⟩⟩⟩
    rw [k3]
    have := consistent_section (m' := ⟨ml, con, bandwidthsRead p2 ++ D,
        (attrsRead p2).filter (fun x => !isDtls x) ++ B⟩) hc rfl
    rw [this]
    have hcm := hc.media _ (List.mem_append_right _ List.mem_cons_self)
    rw [eA] at hcm
    have hext : ¬ ((∃ e, Attribute.extmap e ∈ base.attrs) ∧
        ∃ e, Attribute.extmap e ∈ (attrsRead p2).filter (fun x => !isDtls x) ++ B) := by
      rintro ⟨h1, e, h2⟩
      refine hc.extmap ⟨h1, _, List.mem_append_right _ List.mem_cons_self, e, ?_⟩
      rcases List.mem_append.1 h2 with h2 | h2
      · exact List.mem_append_left _ h2
      · exact List.mem_append_right _ (List.mem_append_right _ h2)
    rw [and_iff_right hext]
    by_cases hdt : isDtls a = true
    · rw [if_pos hdt] at hcm
      refine ⟨fun _ => ?_, fun _ => hcm⟩
      cases a <;> first | trivial | simp [isDtls] at hdt
    · rw [if_neg hdt] at hcm
      exact consistent_remove (m := ⟨ml, con, bandwidthsRead p2 ++ D,
        (attrsRead p2).filter (fun x => !isDtls x) ++ B⟩) rfl hcm
  · obtain ⟨w', rfl⟩ := of_bare ((k1 _).1 (describes_of hs' h).2).2.1
    rfl

/-- **C97.** A b= line of a section of an accepted text can be added or removed, with the expected effect. -/
theorem C97_bandwidth_of_section {p1 p2 q : List Str} {m l s s' : Str} {ml : MediaLine} {b : Bandwidth} {f : Bool}
    (hm : lineMeaning m = .ok (.media ml)) (hp : NoMediaLine p2) (hl : lineMeaning l = .ok (.bandwidth b))
    (hs : lines s = p1 ++ m :: (p2 ++ q)) (hs' : lines s' = p1 ++ m :: (p2 ++ l :: q)) (hb : 51 ≤ byteLen s)
    (hb' : 51 ≤ byteLen s') :
    (∀ r, parseSdp s f = .ok r → ∃ before sec after D, r.media = before ++ sec :: after ∧
      before.length = p1.countP isMediaLine ∧ sec.bandwidth = bandwidthsRead p2 ++ D ∧
      ∃ w, parseSdp s' f = .ok { r with
        media := before ++ { sec with bandwidth := bandwidthsRead p2 ++ b :: D } :: after, warnings := w }) ∧
    (∀ r, parseSdp s' f = .ok r → ∃ before sec after D, r.media = before ++ sec :: after ∧
      before.length = p1.countP isMediaLine ∧ sec.bandwidth = bandwidthsRead p2 ++ b :: D ∧
      ∃ w, parseSdp s f = .ok { r with
        media := before ++ { sec with bandwidth := bandwidthsRead p2 ++ D } :: after, warnings := w }) := by
  have hf := fine_insert (p := p1 ++ m :: p2) (q := q) hl (f := f)
  simp only [List.append_assoc, List.cons_append] at hf
  constructor
  · intro r hr
    obtain ⟨hfine, hd⟩ := describes_of hs hr
    obtain ⟨base, before, after, con, B, D, G, hw, hlen, k1, k2⟩ := at_section (q := q) hm hp hl (.inr ⟨b, rfl⟩) (three_media hm hd)
    obtain ⟨hG, er, hc⟩ := (k1 _).1 hd
    rw [er] at hc
    obtain ⟨w, rfl⟩ := of_bare er
    refine ⟨before, _, after, D, rfl, hlen, rfl, ?_⟩
    obtain ⟨r', h⟩ := (accepts hs' hb' (hf.2 hfine)).2
      ⟨_, (k2 _).2 ⟨hG, ⟨by simp [SectionLine], by simp [connectionsOf], by simp [attrsOf]⟩, rfl,
        consistent_bandwidth hc rfl rfl rfl⟩⟩
    obtain ⟨w', rfl⟩ := of_bare ((k2 _).1 (describes_of hs' h).2).2.2.1
    exact ⟨w', h⟩
  · intro r hr
    obtain ⟨hfine, hd⟩ := describes_of hs' hr
    obtain ⟨base, before, after, con, B, D, G, hw, hlen, k1, k2⟩ := at_section (q := q) hm hp hl (.inr ⟨b, rfl⟩) (three_media hm hd)
    obtain ⟨hG, -, er, hc⟩ := (k2 _).1 hd
    rw [er] at hc
    obtain ⟨w, rfl⟩ := of_bare er
    refine ⟨before, _, after, D, rfl, hlen, rfl, ?_⟩
    obtain ⟨r', h⟩ := (accepts hs hb (hf.1 hfine)).2
      ⟨_, (k1 _).2 ⟨hG, rfl,
        consistent_bandwidth hc rfl rfl rfl⟩⟩
    obtain ⟨w', rfl⟩ := of_bare ((k1 _).1 (describes_of hs h).2).2.1
    exact ⟨w', h⟩

end

/-! ## The hypotheses are met -/

section
attribute [local instance] sampleEnv

def insertHead : List Str := composeHead ++ [c%"b=AS:5"]
def insertM : Str := c%"m=video 9 UDP/TLS/RTP/SAVPF 96"
def insertBody : List Str := [c%"a=rtcp-mux", c%"b=AS:5", c%"a=rid:1 send pt=96"]
def insertRest : List Str := [c%"a=simulcast:send 1", c%"m=audio 9 UDP/TLS/RTP/SAVPF 0", c%"a=mid:2"]
def insertOld : Str := crlf (insertHead ++ insertM :: (insertBody ++ insertRest))
def insertInSession (l : Str) : Str := crlf (insertHead ++ l :: (insertM :: (insertBody ++ insertRest)))
def insertInSection (l : Str) : Str := crlf (insertHead ++ insertM :: (insertBody ++ l :: insertRest))

private def ok {ε α : Type} : Outcome ε α → Bool
  | .ok _ => true
  | _ => false

example : NoMediaLine insertHead ∧ NoMediaLine insertBody ∧ HasName insertHead ∧
    (∃ ml, lineMeaning insertM = .ok (.media ml)) ∧ ok (parseSdp insertOld false) = true ∧
    lines insertOld = insertHead ++ insertM :: (insertBody ++ insertRest) ∧ 51 ≤ byteLen insertOld := by
  refine ⟨by unfold NoMediaLine; decide +kernel, by unfold NoMediaLine; decide +kernel,
    ⟨c%"s=-", by decide +kernel, c%"-", by decide +kernel⟩, ?_, by decide +kernel, by decide +kernel, by decide +kernel⟩
  have : (match lineMeaning insertM with | .ok (.media _) => true | _ => false) = true := by decide +kernel
  split at this
  · next ml h => exact ⟨ml, h⟩
  · cases this

/-- Lines that are attributes or bandwidths and can be added, or cannot. -/
example : (∀ l ∈ [c%"a=ice-lite", c%"a=group:BUNDLE 1", c%"a=extmap:1 x", c%"b=CT:7"],
      lines (insertInSession l) = insertHead ++ l :: (insertM :: (insertBody ++ insertRest)) ∧
        51 ≤ byteLen (insertInSession l) ∧ ok (parseSdp (insertInSession l) false) = true) ∧
    (∀ l ∈ [c%"a=mid:7", c%"a=rtcp-mux"],
      lines (insertInSession l) = insertHead ++ l :: (insertM :: (insertBody ++ insertRest)) ∧
        ok (lineMeaning l) = true ∧ ok (parseSdp (insertInSession l) false) = false) := by decide +kernel

example : (∀ l ∈ [c%"a=mid:7", c%"a=extmap:1 x", c%"a=rtcp-mux-only", c%"a=dtls-message:client 1", c%"b=CT:7",
        c%"a=rid:2 send pt=96"],
      lines (insertInSection l) = insertHead ++ insertM :: (insertBody ++ l :: insertRest) ∧
        51 ≤ byteLen (insertInSection l) ∧ ok (parseSdp (insertInSection l) false) = true) ∧
    (∀ l ∈ [c%"a=ice-lite", c%"a=rid:2 send pt=97", c%"a=simulcast:send 9"],
      lines (insertInSection l) = insertHead ++ insertM :: (insertBody ++ l :: insertRest) ∧
        ok (lineMeaning l) = true ∧ ok (parseSdp (insertInSection l) false) = false) := by decide +kernel

/-- Lines of a section that cannot be removed: the rtcp-mux of an rtcp-mux-only, and the rid of a simulcast. Removing
the first simulcast may uncover a second one that is not defined. -/
theorem C97_needed :
    (ok (parseSdp (crlf (composeHead ++ [insertM, c%"a=rtcp-mux", c%"a=rtcp-mux-only"])) false) = true ∧
      ok (parseSdp (crlf (composeHead ++ [insertM, c%"a=rtcp-mux-only"])) false) = false) ∧
    (ok (parseSdp (crlf (composeHead ++ [insertM, c%"a=rid:1 send pt=96", c%"a=simulcast:send 1"])) false) = true ∧
      ok (parseSdp (crlf (composeHead ++ [insertM, c%"a=simulcast:send 1"])) false) = false) ∧
    (ok (parseSdp (crlf (composeHead ++ [insertM, c%"a=rid:1 send pt=96", c%"a=simulcast:send 1", c%"a=simulcast:send 2"]))
        false) = true ∧
      ok (parseSdp (crlf (composeHead ++ [insertM, c%"a=rid:1 send pt=96", c%"a=simulcast:send 2"])) false) = false) := by
  decide +kernel

end

end Sdp
