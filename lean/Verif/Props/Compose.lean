import Verif.Lemmas.Reorder
/-!
# C91 and C92: how texts are put together

C91: the media sections of a text do not depend on each other: a text is accepted if and only if each of its sections
would be accepted alone, under the same session part, and what becomes of a section is the same either way. A program
that merges, drops or rearranges sections can rely on this.

C92: the order of the lines inside a section does not matter, but for c=, t= and simulcast.
-/

namespace Sdp

section
variable [Env]

private theorem bare_noMedia {h : List Str} (hh : NoMediaLine h) : ∀ l ∈ bareLines h, notMedia l = true := by
  intro l hl
  obtain ⟨t, ht, rfl⟩ := List.mem_map.1 hl
  obtain ⟨x, hx, hr⟩ := List.mem_filterMap.1 ht
  have := hh x hx
  rw [readType_some] at hr
  unfold isMediaLine at this
  rw [hr] at this
  cases t <;> first | rfl | exact absurd this (by simp)

private theorem bare_starts {b : List Str} (hb : StartsSection b) : ∃ l rest, bareLines b = l :: rest ∧ notMedia l = false := by
  obtain ⟨l, rest, m, rfl, h⟩ : ∃ l rest m, b = l :: rest ∧ lineMeaning l = .ok (.media m) := by
    unfold StartsSection at hb
    cases b with
    | nil => cases hb
    | cons l rest =>
      refine ⟨l, rest, ?_⟩
      simp only [List.head?_cons, Option.any_some] at hb
      unfold isMediaLine at hb
      split at hb
      · exact ⟨_, rfl, by assumption⟩
      · cases hb
  refine ⟨⟨0, .media m, []⟩, bareLines rest, ?_, rfl⟩
  unfold bareLines
  rw [List.filterMap_cons, readType_some.2 h]
  rfl

private theorem flat_starts {bs : List (List Str)} (hne : bs ≠ []) (hb : ∀ b ∈ bs, StartsSection b) :
    StartsSection bs.flatten := by
  cases bs with
  | nil => exact absurd rfl hne
  | cons b bs =>
    have := hb b (by simp)
    cases b with
    | nil => cases this
    | cons l rest => exact this

/-- The media sections of the lines. -/
private def sectionsIn (b : List Str) : List Media := (sectionsOf (bareLines b)).map sectionMedia

private theorem sectionsIn_flatten {bs : List (List Str)} (hb : ∀ b ∈ bs, StartsSection b) :
    sectionsOf (bareLines bs.flatten) = bs.flatMap fun b => sectionsOf (bareLines b) := by
  rw [bareLines_flatten, sectionsOf_flatten, List.flatMap_map]
  intro b h
  obtain ⟨x, hx, rfl⟩ := List.mem_map.1 h
  exact bare_starts (hb x hx)

private theorem parse_blocks {h : List Str} (hh : NoMediaLine h) {bs : List (List Str)} (hne : bs ≠ [])
    (hb : ∀ b ∈ bs, StartsSection b) {s : Str} (hs : lines s = h ++ bs.flatten) {f : Bool} {r : Session} :
    parseSdp s f = .ok r ↔ 51 ≤ byteLen s ∧ (∀ l ∈ h, LineFine f l) ∧ HeadFine (bareLines h) { r with warnings := [] } ∧
      (∀ b ∈ bs, (∀ l ∈ b, LineFine f l) ∧ (∀ p ∈ sectionsOf (bareLines b), GoodSection p.2) ∧
        ∀ m ∈ sectionsIn b, SectionFine { r with warnings := [] } m) ∧
      r.media = bs.flatMap sectionsIn ∧ r.warnings = unsupportedErrors (contentLines s) := by
  rw [parseSdp_lines, hs, bareLines_append, describes_head (bare_noMedia hh) (bare_starts (flat_starts hne hb)),
    sectionsIn_flatten hb]
  have e : (bs.flatMap fun b => sectionsOf (bareLines b)).map sectionMedia = bs.flatMap sectionsIn := by
    rw [List.map_flatMap]; rfl
  rw [e]
  constructor
  · rintro ⟨h1, h2, ⟨h3, h4, h5, h6⟩, h7⟩
    simp only at h5 h6
    refine ⟨h1, fun l hl => h2 l (by simp [hl]), h3, fun b hbm => ⟨fun l hl => h2 l ?_, fun p hp => h4 p ?_, fun m hm => h6 m ?_⟩,
      h5, h7⟩
    · exact List.mem_append_right _ (List.mem_flatten.2 ⟨b, hbm, hl⟩)
    · exact List.mem_flatMap.2 ⟨b, hbm, hp⟩
    · rw [h5]; exact List.mem_flatMap.2 ⟨b, hbm, hm⟩
  · rintro ⟨h1, h2, h3, h4, h5, h6⟩
    refine ⟨h1, fun l hl => ?_, ⟨h3, fun p hp => ?_, h5, fun m hm => ?_⟩, h6⟩
    · rcases List.mem_append.1 hl with hl | hl
      · exact h2 l hl
      · obtain ⟨b, hbm, hl⟩ := List.mem_flatten.1 hl
        exact (h4 b hbm).1 l hl
    · obtain ⟨b, hbm, hl⟩ := List.mem_flatMap.1 hp
      exact (h4 b hbm).2.1 p hl
    · simp only [h5] at hm
      obtain ⟨b, hbm, hl⟩ := List.mem_flatMap.1 hm
      exact (h4 b hbm).2.2 m hl

/-- **C91.** Let the lines of a text be a session part and some blocks that each begin with an m= line, and let there be
for each block a text that consists of the session part and that block only. The text is accepted if and only if all
of these are. -/
theorem C91_accepted_iff {h : List Str} (hh : NoMediaLine h) {bs : List (List Str × Str)} (hne : bs ≠ [])
    (hb : ∀ b ∈ bs, StartsSection b.1 ∧ lines b.2 = h ++ b.1 ∧ 51 ≤ byteLen b.2) {s : Str}
    (hs : lines s = h ++ (bs.map Prod.fst).flatten) (hl : 51 ≤ byteLen s) (f : Bool) :
    (∃ r, parseSdp s f = .ok r) ↔ ∀ b ∈ bs, ∃ r, parseSdp b.2 f = .ok r := by
  have hb' : ∀ b ∈ bs.map Prod.fst, StartsSection b := by
    intro b hm
    obtain ⟨x, hx, rfl⟩ := List.mem_map.1 hm
    exact (hb x hx).1
  have one {b : List Str × Str} (hm : b ∈ bs) {r : Session} := parse_blocks hh (bs := [b.1]) (by simp)
    (by simpa using (hb b hm).1) (s := b.2) (by simpa using (hb b hm).2.1) (f := f) (r := r)
  constructor
  · rintro ⟨r, hr⟩ b hm
    rw [parse_blocks hh (by simpa using hne) hb' hs] at hr
    obtain ⟨-, h2, h3, h4, -, -⟩ := hr
    have h4 := h4 b.1 (List.mem_map_of_mem hm)
    refine ⟨{ r with media := sectionsIn b.1, warnings := unsupportedErrors (contentLines b.2) }, (one hm).2
      ⟨(hb b hm).2.2, h2, h3, ?_, by simp, rfl⟩⟩
    intro x hx
    rw [List.mem_singleton.1 hx]
    exact h4
  · intro hall
    obtain ⟨b0, bs', rfl⟩ := List.exists_cons_of_ne_nil hne
    obtain ⟨r0, hr0⟩ := hall b0 (by simp)
    obtain ⟨-, k2, k3, -, -, -⟩ := (one (by simp)).1 hr0
    refine ⟨{ r0 with media := ((b0 :: bs').map Prod.fst).flatMap sectionsIn, warnings := unsupportedErrors (contentLines s) },
      (parse_blocks hh (by simp) hb' hs).2 ⟨hl, k2, k3, ?_, rfl, rfl⟩⟩
    intro b hm
    obtain ⟨x, hx, rfl⟩ := List.mem_map.1 hm
    obtain ⟨r, hr⟩ := hall x hx
    obtain ⟨-, -, m3, m4, -, -⟩ := (one hx).1 hr
    have e := k3.unique m3
    obtain ⟨m41, m42, m43⟩ := m4 x.1 (by simp)
    refine ⟨m41, m42, fun m hm => ?_⟩
    have := m43 m hm
    rw [e] at this
    exact this

/-- **C91.** The sections of the session are those of the blocks, one after the other, and the rest of the session is
the same in all cases. -/
theorem C91_sections {h : List Str} (hh : NoMediaLine h) {bs : List (List Str × Str)} (hne : bs ≠ [])
    (hb : ∀ b ∈ bs, StartsSection b.1 ∧ lines b.2 = h ++ b.1 ∧ 51 ≤ byteLen b.2) {s : Str}
    (hs : lines s = h ++ (bs.map Prod.fst).flatten) {f : Bool} {r : Session} (hr : parseSdp s f = .ok r) :
    ∃ ms, r.media = ms.flatten ∧
      List.Forall₂ (fun b m => ∃ w, parseSdp b.2 f = .ok { r with media := m, warnings := w }) bs ms := by
  have hb' : ∀ b ∈ bs.map Prod.fst, StartsSection b := by
    intro b hm
    obtain ⟨x, hx, rfl⟩ := List.mem_map.1 hm
    exact (hb x hx).1
  have one {b : List Str × Str} (hm : b ∈ bs) {r : Session} := parse_blocks hh (bs := [b.1]) (by simp)
    (by simpa using (hb b hm).1) (s := b.2) (by simpa using (hb b hm).2.1) (f := f) (r := r)
  rw [parse_blocks hh (by simpa using hne) hb' hs] at hr
  obtain ⟨-, h2, h3, h4, h5, -⟩ := hr
  refine ⟨bs.map fun b => sectionsIn b.1, ?_, ?_⟩
  · rw [h5, List.flatMap_map, List.flatMap_def]
  · rw [List.forall₂_map_right_iff, List.forall₂_same]
    intro b hm
    have h4 := h4 b.1 (List.mem_map_of_mem hm)
    refine ⟨unsupportedErrors (contentLines b.2), (one hm).2 ⟨(hb b hm).2.2, h2, h3, ?_, by simp, rfl⟩⟩
    intro x hx
    rw [List.mem_singleton.1 hx]
    exact h4

/-- **C91.** Rearranging the blocks rearranges the sections and changes nothing else. -/
theorem C91_rearranged {h : List Str} (hh : NoMediaLine h) {bs bs' : List (List Str)} (hp : bs.Perm bs')
    (hne : bs ≠ []) (hb : ∀ b ∈ bs, StartsSection b) {s s' : Str} (hs : lines s = h ++ bs.flatten)
    (hs' : lines s' = h ++ bs'.flatten) (hl : 51 ≤ byteLen s') {f : Bool} {r : Session} (hr : parseSdp s f = .ok r) :
    ∃ r', parseSdp s' f = .ok r' ∧ r.media.Perm r'.media ∧ r' = { r with media := r'.media, warnings := r'.warnings } := by
  rw [parse_blocks hh hne hb hs] at hr
  obtain ⟨-, h2, h3, h4, h5, -⟩ := hr
  have hne' : bs' ≠ [] := by
    rintro rfl
    exact hne (List.perm_nil.1 hp)
  refine ⟨{ r with media := bs'.flatMap sectionsIn, warnings := unsupportedErrors (contentLines s') },
    (parse_blocks hh hne' (fun b hm => hb b (hp.mem_iff.2 hm)) hs').2
      ⟨hl, h2, h3, fun b hm => h4 b (hp.mem_iff.2 hm), rfl, rfl⟩, ?_, rfl⟩
  rw [h5]
  exact hp.flatMap_right _

/-- **C91.** Leaving blocks out, but not all, leaves their sections out and changes nothing else. -/
theorem C91_left_out {h : List Str} (hh : NoMediaLine h) {bs bs' : List (List Str)} (hp : bs'.Sublist bs)
    (hne : bs' ≠ []) (hb : ∀ b ∈ bs, StartsSection b) {s s' : Str} (hs : lines s = h ++ bs.flatten)
    (hs' : lines s' = h ++ bs'.flatten) (hl : 51 ≤ byteLen s') {f : Bool} {r : Session} (hr : parseSdp s f = .ok r) :
    ∃ r', parseSdp s' f = .ok r' ∧ r'.media.Sublist r.media ∧ r' = { r with media := r'.media, warnings := r'.warnings } := by
  have hne0 : bs ≠ [] := by
    rintro rfl
    exact hne (List.sublist_nil.1 hp)
  rw [parse_blocks hh hne0 hb hs] at hr
  obtain ⟨-, h2, h3, h4, h5, -⟩ := hr
  refine ⟨{ r with media := bs'.flatMap sectionsIn, warnings := unsupportedErrors (contentLines s') },
    (parse_blocks hh hne (fun b hm => hb b (hp.subset hm)) hs').2
      ⟨hl, h2, h3, fun b hm => h4 b (hp.subset hm), rfl, rfl⟩, ?_, rfl⟩
  rw [h5]
  simp only [List.flatMap_def]
  exact (hp.map _).flatten

/-! ## The order of lines -/

/-- **C92.** If some lines, none of them a v=, o=, s= or m= line, are put into another order, but the c= and t= lines and
simulcast attributes among them keep theirs, then the text is accepted as before, and the session differs in nothing
but the order of bandwidths and attributes on the level where the lines are. -/
theorem C92_order {p x y q : List Str} (hp : x.Perm y) (hk : x.filter keepsPlace = y.filter keepsPlace)
    (hx : ∀ l ∈ x, movable l = true) {s s' : Str} (hs : lines s = p ++ (x ++ q)) (hs' : lines s' = p ++ (y ++ q))
    (hl : 51 ≤ byteLen s') {f : Bool} {r : Session} (hr : parseSdp s f = .ok r) :
    ∃ r', parseSdp s' f = .ok r' ∧ r.Reordered r' := by
  obtain ⟨-, h2, h3, -⟩ := parseSdp_lines.1 hr
  rw [hs] at h2 h3
  rw [bareLines_append, bareLines_append] at h3
  have hperm : (bareLines x).Perm (bareLines y) := (hp.filterMap _).map _
  have hkept : (bareLines x).filter SdpLine.keepsPlace = (bareLines y).filter SdpLine.keepsPlace := by
    have e (l : List Str) : (bareLines l).filter SdpLine.keepsPlace = bareLines (l.filter keepsPlace) := by
      induction l with
      | nil => rfl
      | cons a l ih =>
        unfold bareLines at ih ⊢
        rw [List.filterMap_cons, List.filter_cons]
        cases hm : lineMeaning a with
        | ok t =>
          rw [readType_some.2 hm, List.map_cons, List.filter_cons, ih]
          have e1 : keepsPlace a = SdpLine.keepsPlace ⟨0, t, []⟩ := by
            unfold keepsPlace SdpLine.keepsPlace
            rw [hm]
            cases t with
            | attr a => cases a <;> rfl
            | _ => rfl
          rw [e1]
          split
          · rw [List.filterMap_cons, readType_some.2 hm]; rfl
          · rfl
        | err e =>
          have hr : readType a = none := by unfold readType; rw [hm]
          have e1 : keepsPlace a = false := by unfold keepsPlace; rw [hm]
          rw [hr, e1]; exact ih
        | panic =>
          have hr : readType a = none := by unfold readType; rw [hm]
          have e1 : keepsPlace a = false := by unfold keepsPlace; rw [hm]
          rw [hr, e1]; exact ih
    rw [e, e, hk]
  have hmov : ∀ l ∈ bareLines x, l.Movable := by
    intro l hl
    obtain ⟨t, ht, rfl⟩ := List.mem_map.1 hl
    obtain ⟨z, hz, hr⟩ := List.mem_filterMap.1 ht
    have := hx z hz
    rw [readType_some] at hr
    unfold movable at this
    rw [hr] at this
    unfold SdpLine.Movable
    cases t <;> first | trivial | exact absurd this (by simp)
  obtain ⟨r', hd, hro⟩ := describes_shuffled ⟨hperm, hkept⟩ hmov h3
  have hw : r'.warnings = [] := by
    obtain ⟨_, _, _, _, _, _, _, _, _, _, _, _, _, _, h, _⟩ := hd
    rw [h]; rfl
  refine ⟨{ r' with warnings := unsupportedErrors (contentLines s') }, parseSdp_lines.2 ⟨hl, ?_, ?_, rfl⟩, ?_⟩
  · rw [hs']
    intro l hm
    refine h2 l ?_
    simp only [List.mem_append] at hm ⊢
    rcases hm with hm | hm | hm
    · exact .inl hm
    · exact .inr (.inl (hp.mem_iff.2 hm))
    · exact .inr (.inr hm)
  · rw [hs', bareLines_append, bareLines_append]
    have e : ({ r' with warnings := [] } : Session) = r' := by rw [← hw]
    exact e.symm ▸ hd
  · exact ⟨hro.version, hro.origin, hro.session, hro.connection, hro.timing, hro.bandwidth, hro.attrs, hro.media⟩

end

section
attribute [local instance] sampleEnv

/-- A session part and three blocks, with blank and unsupported lines. -/
def composeHead : List Str :=
  [c%"v=0", c%"o=- 1 1 IN IP4 127.0.0.1", c%"s=-", c%"t=0 0", c%"c=IN IP4 0.0.0.0", c%"a=x-unknown", c%"a=ice-lite"]

def composeBlocks : List (List Str) :=
  [[c%"m=audio 9 UDP/TLS/RTP/SAVPF 0", c%"a=mid:1", c%"", c%"a=rtcp-mux"],
   [c%"m=video 9 UDP/TLS/RTP/SAVPF 96", c%"a=simulcast:send 1", c%"b=AS:5", c%"a=rid:1 send pt=96", c%"a=mid:2"],
   [c%"m=application 9 DTLS/SCTP 5000", c%"c=IN IP4 127.0.0.1", c%"a=foo:1"]]

/-- The hypotheses of C91, and the text is accepted. -/
example : NoMediaLine composeHead ∧ (∀ b ∈ composeBlocks, StartsSection b) ∧
    lines (crlf (composeHead ++ composeBlocks.flatten)) = composeHead ++ composeBlocks.flatten ∧
    (∀ b ∈ composeBlocks, lines (crlf (composeHead ++ b)) = composeHead ++ b ∧ 51 ≤ byteLen (crlf (composeHead ++ b))) := by
  unfold NoMediaLine StartsSection
  decide +kernel

example : (match parseSdp (crlf (composeHead ++ composeBlocks.flatten)) false with
    | .ok r => decide (r.media.length = 3 ∧ r.warnings.length = 2)
    | _ => false) = true := by decide +kernel

/-- One block that is not accepted spoils the text. -/
example : (match parseSdp (crlf (composeHead ++ (composeBlocks ++ [[c%"m=audio 9 UDP/TLS/RTP/SAVPF 0", c%"a=rtcp-mux-only"]]).flatten)) false,
      parseSdp (crlf (composeHead ++ [c%"m=audio 9 UDP/TLS/RTP/SAVPF 0", c%"a=rtcp-mux-only"])) false with
    | .err _, .err _ => true
    | _, _ => false) = true := by decide +kernel

/-- Lines of the second block in another order: the hypotheses of C92. -/
def orderBefore : List Str := [c%"a=simulcast:send 1", c%"b=AS:5", c%"a=rid:1 send pt=96", c%"a=mid:2", c%"a=foo"]

def orderAfter : List Str := [c%"a=foo", c%"a=mid:2", c%"a=rid:1 send pt=96", c%"a=simulcast:send 1", c%"b=AS:5"]

example : orderBefore.Perm orderAfter ∧ orderBefore.filter keepsPlace = orderAfter.filter keepsPlace ∧
    ∀ l ∈ orderBefore, movable l = true := by decide +kernel

example : (match parseSdp (crlf (composeHead ++ c%"m=video 9 UDP/TLS/RTP/SAVPF 96" :: orderBefore)) false,
      parseSdp (crlf (composeHead ++ c%"m=video 9 UDP/TLS/RTP/SAVPF 96" :: orderAfter)) false with
    | .ok r, .ok r' => decide (r ≠ r' ∧ r.media.flatMap (fun m => m.bandwidth) ≠ [])
    | _, _ => false) = true := by decide +kernel

/-- The order of simulcast attributes matters: only the first one is checked. -/
theorem C92_simulcast_order :
    (match parseSdp (crlf (composeHead ++ [c%"m=video 9 UDP/TLS/RTP/SAVPF 96", c%"a=rid:1 send pt=96", c%"a=simulcast:send 1",
        c%"a=simulcast:send 2"])) false with
      | .ok _ => true
      | _ => false) = true ∧
    (match parseSdp (crlf (composeHead ++ [c%"m=video 9 UDP/TLS/RTP/SAVPF 96", c%"a=rid:1 send pt=96", c%"a=simulcast:send 2",
        c%"a=simulcast:send 1"])) false with
      | .err _ => true
      | _ => false) = true := by decide +kernel

/-- The order of c= and t= lines in the session part matters: the last ones count. -/
theorem C92_last_counts :
    (match parseSdp (crlf (composeHead ++ [c%"c=IN IP4 1.2.3.4", c%"t=1 2"])) false,
        parseSdp (crlf (composeHead.take 3 ++ [c%"c=IN IP4 1.2.3.4", c%"t=1 2"] ++ composeHead.drop 3)) false with
      | .ok r, .ok r' => decide (r.connection ≠ r'.connection ∧ r.timing ≠ r'.timing)
      | _, _ => false) = true := by decide +kernel

end

end Sdp
