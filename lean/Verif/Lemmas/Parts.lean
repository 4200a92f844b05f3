import Verif.Lemmas.Post
import Verif.Lemmas.Ws
/-!
# Where the parts of an accepted session come from
-/

namespace Sdp

section
variable [Env]

/-- `v` consists of characters of one non-blank line of `s` and has no white space around it. -/
def OfLine (s v : Str) : Prop := (∃ p ∈ contentLines s, ∀ c ∈ v, c ∈ p.1) ∧ trim v = v

theorem dropWhile_sub {c : Char} {s : Str} {p : Char → Bool} (h : c ∈ s.dropWhile p) : c ∈ s :=
  (List.dropWhile_suffix p).subset h

theorem trim_sub {c : Char} {s : Str} (h : c ∈ trim s) : c ∈ s := by
  unfold trim trimEnd trimStart at h
  have h := dropWhile_sub (List.mem_reverse.1 h)
  exact dropWhile_sub (List.mem_reverse.1 h)

/-- The value of an accepted line is parsed from characters of that line. -/
theorem accepted_value {s : Str} {l : SdpLine} (h : l ∈ acceptedLines (contentLines s)) :
    ∃ v, OfLine s v ∧
      match l.sdpType with
      | .attr a => attrFromStr v = .ok a
      | .bandwidth b => parseBandwidth v = .ok (.bandwidth b)
      | .connection c => parseConnection v = .ok (.connection c)
      | .media m => parseMedia v = .ok (.media m)
      | .origin o => parseOrigin v = .ok (.origin o)
      | .session n => trim n = v
      | .timing t => parseTiming v = .ok (.timing t)
      | .version n => n = 0 := by
  obtain ⟨p, hp, hx⟩ := mem_acceptedLines.1 h
  obtain ⟨a, b, h1, h2, h3, h4, h5, h6, h7, h8⟩ := parseSdpLine_ok hx
  have hb : ∀ c ∈ b, c ∈ p.1 := by intro c hc; rw [h1]; simp [hc]
  have htb : ∀ c ∈ trim b, c ∈ p.1 := fun c hc => hb c (trim_sub hc)
  have httb : ∀ c ∈ trim (trim b), c ∈ p.1 := fun c hc => htb c (trim_sub hc)
  generalize l.sdpType = ty at h6
  have h6 := (parseLineValue_ok h6).2
  cases ty with
  | attr a =>
    refine ⟨trim (trim b), ⟨⟨p, hp, httb⟩, by simp only [trim_trim]⟩, ?_⟩
    simp only [parseAttribute] at h6
    obtain ⟨a', ha', h6⟩ := bind_eq_ok.1 h6
    simp at h6; subst h6; exact ha'
  | session n => exact ⟨trim b, ⟨⟨p, hp, htb⟩, trim_trim _⟩, congrArg trim h6⟩
  | version n => exact ⟨trim b, ⟨⟨p, hp, htb⟩, trim_trim _⟩, h6.2⟩
  | bandwidth _ => exact ⟨trim b, ⟨⟨p, hp, htb⟩, trim_trim _⟩, h6⟩
  | connection _ => exact ⟨trim b, ⟨⟨p, hp, htb⟩, trim_trim _⟩, h6⟩
  | media _ => exact ⟨trim b, ⟨⟨p, hp, htb⟩, trim_trim _⟩, h6⟩
  | origin _ => exact ⟨trim b, ⟨⟨p, hp, htb⟩, trim_trim _⟩, h6⟩
  | timing _ => exact ⟨trim b, ⟨⟨p, hp, htb⟩, trim_trim _⟩, h6⟩

theorem mem_attrsOf {ls : List SdpLine} {a : Attribute} :
    a ∈ attrsOf ls ↔ ∃ l ∈ ls, l.sdpType = .attr a := by
  unfold attrsOf; rw [List.mem_filterMap]
  constructor
  · rintro ⟨l, hl, h⟩; refine ⟨l, hl, ?_⟩; split at h <;> simp_all
  · rintro ⟨l, hl, h⟩; exact ⟨l, hl, by rw [h]⟩
theorem mem_bandwidthsOf {ls : List SdpLine} {a : Bandwidth} :
    a ∈ bandwidthsOf ls ↔ ∃ l ∈ ls, l.sdpType = .bandwidth a := by
  unfold bandwidthsOf; rw [List.mem_filterMap]
  constructor
  · rintro ⟨l, hl, h⟩; refine ⟨l, hl, ?_⟩; split at h <;> simp_all
  · rintro ⟨l, hl, h⟩; exact ⟨l, hl, by rw [h]⟩
theorem mem_connectionsOf {ls : List SdpLine} {a : Connection} :
    a ∈ connectionsOf ls ↔ ∃ l ∈ ls, l.sdpType = .connection a := by
  unfold connectionsOf; rw [List.mem_filterMap]
  constructor
  · rintro ⟨l, hl, h⟩; refine ⟨l, hl, ?_⟩; split at h <;> simp_all
  · rintro ⟨l, hl, h⟩; exact ⟨l, hl, by rw [h]⟩
theorem mem_timingsOf {ls : List SdpLine} {a : Timing} :
    a ∈ timingsOf ls ↔ ∃ l ∈ ls, l.sdpType = .timing a := by
  unfold timingsOf; rw [List.mem_filterMap]
  constructor
  · rintro ⟨l, hl, h⟩; refine ⟨l, hl, ?_⟩; split at h <;> simp_all
  · rintro ⟨l, hl, h⟩; exact ⟨l, hl, by rw [h]⟩

theorem mem_sectionsOf {ls : List SdpLine} {p : MediaLine × List SdpLine} (h : p ∈ sectionsOf ls) :
    (∃ l ∈ ls, l.sdpType = .media p.1) ∧ ∀ l ∈ p.2, l ∈ ls := by
  induction ls with
  | nil => simp [sectionsOf] at h
  | cons l ls ih =>
    simp only [sectionsOf] at h
    have hrec : p ∈ sectionsOf ls →
        (∃ l' ∈ l :: ls, l'.sdpType = .media p.1) ∧ ∀ l' ∈ p.2, l' ∈ l :: ls := by
      intro h
      obtain ⟨⟨l', h1, h2⟩, h3⟩ := ih h
      exact ⟨⟨l', by simp [h1], h2⟩, fun x hx => by simp [h3 x hx]⟩
    split at h
    · rename_i m hm
      rcases List.mem_cons.1 h with rfl | h
      · refine ⟨⟨l, by simp, hm⟩, fun x hx => ?_⟩
        have := (List.takeWhile_prefix (p := notMedia) (l := ls)).subset hx
        simp [this]
      · exact hrec h
    · exact hrec h

/-- Every part of an accepted session was parsed from characters of one of its lines. -/
structure Parts (s : Str) (r : Session) : Prop where
  origin : ∃ v, OfLine s v ∧ parseOrigin v = .ok (.origin r.origin)
  session : ∀ n, r.session = some n → OfLine s n ∧ n ≠ []
  connection : ∀ c, r.connection = some c → ∃ v, OfLine s v ∧ parseConnection v = .ok (.connection c)
  bandwidth : ∀ b ∈ r.bandwidth, ∃ v, OfLine s v ∧ parseBandwidth v = .ok (.bandwidth b)
  timing : ∀ t, r.timing = some t → ∃ v, OfLine s v ∧ parseTiming v = .ok (.timing t)
  attrs : ∀ a ∈ r.attrs, ∃ v, OfLine s v ∧ attrFromStr v = .ok a
  mline : ∀ m ∈ r.media, ∃ v, OfLine s v ∧ parseMedia v = .ok (.media m.media)
  mconnection : ∀ m ∈ r.media, ∀ c, m.connection = some c →
    ∃ v, OfLine s v ∧ parseConnection v = .ok (.connection c)
  mbandwidth : ∀ m ∈ r.media, ∀ b ∈ m.bandwidth,
    ∃ v, OfLine s v ∧ parseBandwidth v = .ok (.bandwidth b)
  mattrs : ∀ m ∈ r.media, ∀ a ∈ m.attrs, ∃ v, OfLine s v ∧ attrFromStr v = .ok a

theorem parseSdp_parts {s : Str} {f : Bool} {r : Session} (h : parseSdp s f = .ok r) : Parts s r := by
  obtain ⟨_, _, _, _, l0, l1, l2, rest, v, o, nm, h1, h2, h3, h4, h5, hg, hm, h6, _⟩ := parseSdp_spec.1 h
  subst h6
  have hrest : ∀ l ∈ rest, l ∈ acceptedLines (contentLines s) := by
    intro l hl; rw [h1]; simp [hl]
  have hpart : ∀ l ∈ rest.takeWhile notMedia, l ∈ acceptedLines (contentLines s) := fun l hl =>
    hrest l ((List.takeWhile_prefix (p := notMedia) (l := rest)).subset hl)
  have hsec : ∀ m ∈ (sectionsOf rest).map sectionMedia, ∃ p ∈ sectionsOf rest, sectionMedia p = m ∧
      (∃ l ∈ acceptedLines (contentLines s), l.sdpType = .media p.1) ∧
      ∀ l ∈ p.2, l ∈ acceptedLines (contentLines s) := by
    intro m hm
    obtain ⟨p, hp, rfl⟩ := List.mem_map.1 hm
    obtain ⟨⟨l, g1, g2⟩, g3⟩ := mem_sectionsOf hp
    exact ⟨p, hp, rfl, ⟨l, hrest l g1, g2⟩, fun l hl => hrest l (g3 l hl)⟩
  have get {l : SdpLine} {x : SdpType} (hl : l ∈ acceptedLines (contentLines s)) (hx : l.sdpType = x) :=
    hx ▸ accepted_value hl
  constructor
  · exact get (l := l1) (by rw [h1]; simp) h4
  · intro n hn
    obtain ⟨v, hv, hh⟩ := get (l := l2) (by rw [h1]; simp) h5
    have hn : (if Blank nm then none else some (trim nm)) = some n := hn
    split at hn
    · simp at hn
    · rename_i hb
      simp at hn; subst hn
      have hh : trim nm = v := hh
      subst hh
      refine ⟨hv, fun h0 => hb ?_⟩
      obtain ⟨w1, w2, b1, b2, e⟩ := trim_spec nm
      rw [e, h0]
      intro c hc
      simp only [List.append_nil, List.mem_append] at hc
      exact hc.elim (b1 c) (b2 c)
  · intro c hc
    obtain ⟨l, hl, hx⟩ := mem_connectionsOf.1 (List.mem_of_getLast? hc)
    exact get (hpart l hl) hx
  · intro c hc
    obtain ⟨l, hl, hx⟩ := mem_bandwidthsOf.1 hc
    exact get (hpart l hl) hx
  · intro c hc
    obtain ⟨l, hl, hx⟩ := mem_timingsOf.1 (List.mem_of_getLast? hc)
    exact get (hpart l hl) hx
  · intro c hc
    obtain ⟨l, hl, hx⟩ := mem_attrsOf.1 hc
    exact get (hpart l hl) hx
  · intro m hm
    obtain ⟨p, hp, rfl, ⟨l, hl, hx⟩, -⟩ := hsec m hm
    exact get hl hx
  · intro m hm c hc
    obtain ⟨p, hp, rfl, -, hls⟩ := hsec m hm
    obtain ⟨l, hl, hx⟩ := mem_connectionsOf.1 (List.mem_of_head? hc)
    exact get (hls l hl) hx
  · intro m hm c hc
    obtain ⟨p, hp, rfl, -, hls⟩ := hsec m hm
    obtain ⟨l, hl, hx⟩ := mem_bandwidthsOf.1 hc
    exact get (hls l hl) hx
  · intro m hm c hc
    obtain ⟨p, hp, rfl, -, hls⟩ := hsec m hm
    obtain ⟨l, hl, hx⟩ := mem_attrsOf.1 (List.mem_filter.1 hc).1
    exact get (hls l hl) hx

end

end Sdp
