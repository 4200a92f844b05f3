import Verif.Spec.Sample
import Verif.Lemmas.Consistent
/-!
# C03-C09, C12: what every accepted session satisfies
-/

namespace Sdp

/-- `sampleText` is accepted in `sampleEnv`: the hypotheses of this file are met by a text with two
media sections, rids, a simulcast, an extmap and rtcp-mux-only. -/
example : (letI := sampleEnv; parseSdp sampleText false).isOk = true := by decide +kernel

/-- ... and the result has two sections, the second with a simulcast of two ids. -/
example : (letI := sampleEnv; match parseSdp sampleText false with
    | .ok r => decide (r.media.length = 2 ∧ r.attrs.length = 1 ∧
        (r.media.map fun m => m.attrs.length) = [5, 5] ∧ r.warnings.length = 1)
    | _ => false) = true := by decide +kernel

/-- **C12 (with C03-C11).** `parse_sdp` returns a session exactly when: the text has at least 51
bytes; `parse_sdp_line` fails on no non-blank line except as unsupported (and not even that if
`fail_on_warning`); the lines it accepts are v=, o=, s= and at least one more; the lines up to the
first m= line are a=, b=, c=, t= lines with no media-level attribute; after each m= line come a=, b=
lines and at most one c= line with no session-level attribute; and the session made of these lines
is consistent. It returns that session, with the unsupported lines as warnings. -/
theorem C12_parse_sdp_iff [Env] {s : Str} {f : Bool} {r : Session} :
    parseSdp s f = .ok r ↔
      51 ≤ byteLen s ∧
      (∀ p ∈ contentLines s, parseSdpLine p.1 p.2 ≠ .panic) ∧
      hardErrors (contentLines s) = [] ∧
      (f = true → unsupportedErrors (contentLines s) = []) ∧
      ∃ l0 l1 l2 rest v o nm, acceptedLines (contentLines s) = l0 :: l1 :: l2 :: rest ∧ rest ≠ [] ∧
        l0.sdpType = .version v ∧ l1.sdpType = .origin o ∧ l2.sdpType = .session nm ∧
        GoodSessionPart (rest.takeWhile notMedia) ∧ (∀ p ∈ sectionsOf rest, GoodSection p.2) ∧
        r = assemble v o nm rest (unsupportedErrors (contentLines s)) ∧ Consistent r := parseSdp_spec

/-- **C12.** The mandatory first lines of an accepted text, and where they end up. -/
theorem C12_first_lines [Env] {s : Str} {f : Bool} {r : Session} (h : parseSdp s f = .ok r) :
    ∃ l0 l1 l2 l3 rest v o nm, acceptedLines (contentLines s) = l0 :: l1 :: l2 :: l3 :: rest ∧
      l0.sdpType = .version v ∧ l1.sdpType = .origin o ∧ l2.sdpType = .session nm ∧
      r.version = v ∧ r.origin = o ∧ (r.session = if Blank nm then none else some (trim nm)) := by
  obtain ⟨_, _, _, _, l0, l1, l2, rest, v, o, nm, h1, h2, h3, h4, h5, _, _, h6, _⟩ := parseSdp_spec.1 h
  cases rest with
  | nil => exact absurd rfl h2
  | cons l3 rest => exact ⟨l0, l1, l2, l3, rest, v, o, nm, h1, h3, h4, h5, by rw [h6]; rfl, by rw [h6]; rfl, by rw [h6]; rfl⟩

theorem accepted_consistent [Env] {s : Str} {f : Bool} {r : Session} (h : parseSdp s f = .ok r) :
    Consistent r := by
  obtain ⟨_, _, _, _, _, _, _, _, _, _, _, _, _, _, _, _, _, _, _, h⟩ := parseSdp_spec.1 h
  exact h

/-- **C03.** Every accepted text gives a session of version 0 that has a timing. -/
theorem C03_version_and_timing [Env] {s : Str} {f : Bool} {r : Session} (h : parseSdp s f = .ok r) :
    r.version = 0 ∧ ∃ t, r.timing = some t := by
  refine ⟨?_, (accepted_consistent h).timing⟩
  obtain ⟨l0, l1, l2, l3, rest, v, o, nm, h1, h2, _, _, h3, _⟩ := C12_first_lines h
  have : l0 ∈ acceptedLines (contentLines s) := by rw [h1]; simp
  obtain ⟨p, _, hp⟩ := mem_acceptedLines.1 this
  obtain ⟨a, b, _, _, _, _, _, hv, _⟩ := parseSdpLine_ok hp
  rw [h2] at hv
  rw [h3, parseLineValue_version hv]

/-- **C04.** In an accepted session there is a connection for every section: the session has one, or each section has
its own. -/
theorem C04_connection_coverage [Env] {s : Str} {f : Bool} {r : Session} (h : parseSdp s f = .ok r) :
    (∃ c, r.connection = some c) ∨ ∀ m ∈ r.media, ∃ c, m.connection = some c :=
  (accepted_consistent h).connection

/-- **C05.** In an accepted session header extensions are declared for the session or in sections, not both. -/
theorem C05_extmap_on_one_level [Env] {s : Str} {f : Bool} {r : Session} (h : parseSdp s f = .ok r) :
    ¬ ((∃ e, Attribute.extmap e ∈ r.attrs) ∧ ∃ m ∈ r.media, ∃ e, Attribute.extmap e ∈ m.attrs) :=
  (accepted_consistent h).extmap

/-- **C06.** In an accepted session a section with rtcp-mux-only also has rtcp-mux. -/
theorem C06_rtcp_mux_only [Env] {s : Str} {f : Bool} {r : Session} (h : parseSdp s f = .ok r)
    {m : Media} (hm : m ∈ r.media) (ho : Attribute.rtcpMuxOnly ∈ m.attrs) : Attribute.rtcpMux ∈ m.attrs :=
  ((accepted_consistent h).media m hm).mux ho

/-- **C07.** In an accepted session each format that a rid names is a format of the m= line of its section. -/
theorem C07_rid_formats_declared [Env] {s : Str} {f : Bool} {r : Session} (h : parseSdp s f = .ok r)
    {m : Media} (hm : m ∈ r.media) {rid : Rid} (hr : Attribute.rid rid ∈ m.attrs)
    {fmt : UInt16} (hf : fmt ∈ rid.formats) : ListsFormat m.media.formats fmt.toNat :=
  ((accepted_consistent h).media m hm).ridFormats rid hr fmt hf

/-- **C08.** The first a=simulcast of every section. -/
theorem C08_simulcast_ids_defined [Env] {s : Str} {f : Bool} {r : Session} (h : parseSdp s f = .ok r)
    {m : Media} (hm : m ∈ r.media) {sc : Simulcast} (hs : FirstSimulcast m sc) : SimulcastDefined m sc :=
  ((accepted_consistent h).media m hm).simulcast sc hs

/-- **C08.** If a section has a single a=simulcast, all its ids are defined. -/
theorem C08_single_simulcast [Env] {s : Str} {f : Bool} {r : Session} (h : parseSdp s f = .ok r)
    {m : Media} (hm : m ∈ r.media) {sc : Simulcast} (hs : Attribute.simulcast sc ∈ m.attrs)
    (hone : ∀ x, Attribute.simulcast x ∈ m.attrs → x = sc) : SimulcastDefined m sc := by
  refine C08_simulcast_ids_defined h hm ?_
  have : (m.getAttribute .simulcast).isSome = true := find_type_isSome.2 ⟨_, hs, rfl⟩
  obtain ⟨a, ha⟩ := Option.isSome_iff_exists.1 this
  obtain ⟨g1, g2⟩ := getAttribute_simulcast (m := m)
  obtain ⟨x, rfl⟩ := g2 a ha
  have := hone x (List.mem_of_find?_eq_some ha)
  subst this
  exact (g1 x).1 ha

/-- The text that shows that a second a=simulcast is not checked. -/
def twoSimulcasts : Str :=
  c%"v=0\r\no=- 42 7 IN IP4 10.0.0.1\r\ns=-\r\nt=0 0\r\nc=IN IP4 10.0.0.1\r\nm=video 9 UDP/TLS/RTP/SAVPF 120\r\na=rid:hi send\r\na=simulcast:send hi\r\na=simulcast:send undefined\r\n"

/-- **C08, the limit.** Of a second a=simulcast nothing is checked: an accepted session need not
define all simulcast ids. -/
theorem C08_second_simulcast_unchecked :
    letI := sampleEnv
    ∃ r, parseSdp twoSimulcasts true = .ok r ∧
      ∃ m ∈ r.media, ∃ sc, Attribute.simulcast sc ∈ m.attrs ∧ ¬ SimulcastDefined m sc := by
  letI := sampleEnv
  have h : parseSdp twoSimulcasts true = .ok
    { version := 0, origin := ⟨c%"-", 42, 7, .ip (.v4 0x0a000001)⟩, session := some c%"-",
      connection := some ⟨.ip (.v4 0x0a000001), none, none⟩, bandwidth := [], timing := some ⟨0, 0⟩,
      attrs := [],
      media := [⟨⟨.video, 9, 0, .udpTlsRtpSavpf, .integers [120]⟩, none, [],
        [.rid ⟨c%"hi", .send, [], ⟨0, 0, 0, 0, 0, 0, []⟩, []⟩,
         .simulcast ⟨[⟨[⟨c%"hi", false⟩]⟩], []⟩,
         .simulcast ⟨[⟨[⟨c%"undefined", false⟩]⟩], []⟩]⟩],
      warnings := [] } := by decide +kernel
  refine ⟨_, h, _, List.mem_singleton.2 rfl, _, List.mem_cons_of_mem _ (List.mem_cons_of_mem _ (List.mem_singleton.2 rfl)), ?_⟩
  rintro ⟨h1, -⟩
  obtain ⟨r, hr, _, hi⟩ := h1 _ (List.mem_singleton.2 rfl) ⟨c%"undefined", false⟩ (List.mem_singleton.2 rfl)
  simp at hr
  rw [hr] at hi
  exact absurd hi (by decide)

/-- **C09.** In an accepted session no media-level attribute is in the session part, and no session-level attribute in
a section. -/
theorem C09_levels [Env] {s : Str} {f : Bool} {r : Session} (h : parseSdp s f = .ok r) :
    (∀ a ∈ r.attrs, a.type ∉ mediaOnly) ∧ ∀ m ∈ r.media, ∀ a ∈ m.attrs, a.type ∉ sessionOnly := by
  obtain ⟨_, _, _, _, l0, l1, l2, rest, v, o, nm, h1, h2, h3, h4, h5, hg, hm, h6, _⟩ := parseSdp_spec.1 h
  subst h6
  refine ⟨hg.levels, fun m hmem a ha => ?_⟩
  obtain ⟨p, hp, rfl⟩ := List.mem_map.1 hmem
  obtain ⟨ha1, ha2⟩ := List.mem_filter.1 ha
  rcases (hm p hp).levels a ha1 with hd | hd
  · rw [hd] at ha2; simp at ha2
  · exact hd

/-- **C09.** The two level lists are what `allowed_at_session_level` and `allowed_at_media_level`
say: no attribute is banned from both levels. -/
theorem C09_level_predicates (a : Attribute) :
    (a.allowedAtSessionLevel = true ↔ a.type ∉ mediaOnly) ∧
    (a.allowedAtMediaLevel = true ↔ a.type ∉ sessionOnly) ∧
    (a.allowedAtSessionLevel = true ∨ a.allowedAtMediaLevel = true) :=
  ⟨allowedAtSessionLevel_iff a, allowedAtMediaLevel_iff a, by
    cases a <;> simp [Attribute.allowedAtSessionLevel, Attribute.allowedAtMediaLevel]⟩

end Sdp
