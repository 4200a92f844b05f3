import Verif.Lemmas.Document
import Verif.Lemmas.Sequence
import Verif.Props.Scan
/-!
# C77 to C79: the grammar of whole session descriptions, and what comes of a text
-/

namespace Sdp

section
variable [Env]

/-! ## Attributes -/

theorem flag_iff {t : AttributeType} (hf : isFlagName t.name = true) {a : Attribute} (hv : parseAttrValue t [] = .ok a)
    {l : Str} (ht : a.type = t) : attrFromStr l = .ok a ↔ FlagText l t.name := by
  constructor
  · intro h
    rcases colon_cases l with hc | ⟨n, w, rfl, hn⟩
    · rw [attrFromStr_plain hc] at h
      cases hu : attrTypeOfName (lower l) with
      | none => rw [hu] at h; simp at h
      | some u =>
        rw [hu] at h
        have := (parseAttrValue_range u _ a h).1
        rw [ht] at this; subst this
        exact ⟨attrTypeOfName_some hu, hc⟩
    · rw [attrFromStr_colon hn] at h
      rcases ite_cases h with ⟨-, h⟩ | ⟨hb, h⟩
      · simp at h
      · cases hu : attrTypeOfName (lower n) with
        | none => rw [hu] at h; simp at h
        | some u =>
          rw [hu] at h
          have := (parseAttrValue_range u _ a h).1
          rw [ht] at this; subst this
          rw [attrTypeOfName_some hu, hf] at hb
          simp at hb
  · rintro ⟨h1, h2⟩
    rw [attrFromStr_plain h2, h1, attrTypeOfName_name]
    exact hv

/-- **C77.** Candidates. -/
theorem C77_candidate {l : Str} {c : Candidate} :
    attrFromStr l = .ok (.candidate c) ↔ ∃ v, AttrText l c%"candidate" v ∧ CandidateText v c := by
  rw [attr_iff (t := .candidate) rfl rfl]
  exact exists_congr fun v => and_congr_right fun _ => parseCandidate_iff

/-- **C77.** Format parameters. -/
theorem C77_fmtp {l : Str} {f : Fmtp} :
    attrFromStr l = .ok (.fmtp f) ↔ ∃ v, AttrText l c%"fmtp" v ∧ FmtpText v f := by
  rw [attr_iff (t := .fmtp) rfl rfl]
  exact exists_congr fun v => and_congr_right fun _ => parseFmtp_iff

/-- **C77.** Which texts are accepted as which attribute. -/
theorem C77_attribute {l : Str} {a : Attribute} (hl : l.length < 2^31) :
    attrFromStr l = .ok a ↔ AttributeText l a := by
  cases a with
  | candidate c => exact C77_candidate
  | dtlsMessage m => exact C64_dtls_message
  | extmap e => exact C60_extmap
  | fingerprint f => exact C61_fingerprint
  | fmtp f => exact C77_fmtp
  | frameRate x => exact C56_framerate
  | group g => exact C59_group
  | iceOptions ws => exact C56_ice_options
  | icePacing n => exact C56_numbers.2.2.2.1
  | icePwd s => exact C56_texts.1
  | iceUfrag s => exact C56_texts.2.1
  | identity s => exact C56_texts.2.2.1
  | imageAttr a => exact C67_imageattr hl
  | label s => exact C56_texts.2.2.2.1
  | maxMessageSize n => exact C56_numbers.1
  | maxPtime n => exact C56_numbers.2.1
  | mid s => exact C56_texts.2.2.2.2
  | msid m => exact C59_msid
  | msidSemantic m => exact C59_msid_semantic
  | ptime n => exact C56_numbers.2.2.1
  | rid r => exact C66_rid
  | remoteCandidate r => exact C62_remote_candidates
  | rtpmap r => exact C57_rtpmap
  | rtcp r => exact C62_rtcp
  | rtcpfb r => exact C63_rtcp_fb
  | sctpmap m => exact C64_sctpmap
  | sctpPort n => exact C56_numbers.2.2.2.2
  | setup x => exact C56_setup
  | simulcast s => exact C65_simulcast
  | ssrc s => exact C58_ssrc
  | ssrcGroup g ss => exact C58_ssrc_group
  | bundleOnly => exact flag_iff (t := .bundleOnly) rfl rfl rfl
  | endOfCandidates => exact flag_iff (t := .endOfCandidates) rfl rfl rfl
  | extmapAllowMixed => exact flag_iff (t := .extmapAllowMixed) rfl rfl rfl
  | iceLite => exact flag_iff (t := .iceLite) rfl rfl rfl
  | iceMismatch => exact flag_iff (t := .iceMismatch) rfl rfl rfl
  | inactive => exact flag_iff (t := .inactive) rfl rfl rfl
  | recvonly => exact flag_iff (t := .recvonly) rfl rfl rfl
  | rtcpMux => exact flag_iff (t := .rtcpMux) rfl rfl rfl
  | rtcpMuxOnly => exact flag_iff (t := .rtcpMuxOnly) rfl rfl rfl
  | rtcpRsize => exact flag_iff (t := .rtcpRsize) rfl rfl rfl
  | sendonly => exact flag_iff (t := .sendonly) rfl rfl rfl
  | sendrecv => exact flag_iff (t := .sendrecv) rfl rfl rfl

/-! ## Lines -/

/-- **C77.** Which lines are accepted, and what they denote. -/
theorem C77_line {l : Str} {n : Nat} {x : SdpLine} (hl : l.length < 2^31) :
    parseSdpLine l n = .ok x ↔ LineDenotes l x.sdpType ∧ x.lineNumber = n ∧ x.text = l := by
  have key {t : SdpType} : parseSdpLine l n = .ok ⟨n, t, l⟩ ↔ LineDenotes l t := by
    have flat {c : Char} {P : Str → Prop} : (∃ raw v, LineForm l c raw ∧ Stripped raw v ∧ v ≠ [] ∧ P v) ↔
        ∃ v, ValueText l c v ∧ P v := by
      constructor
      · rintro ⟨raw, v, h1, h2, h3, h4⟩; exact ⟨v, ⟨raw, h1, h2, h3⟩, h4⟩
      · rintro ⟨v, ⟨raw, h1, h2, h3⟩, h4⟩; exact ⟨raw, v, h1, h2, h3, h4⟩
    cases t with
    | attr a =>
      rw [C70_attribute, flat]
      refine exists_congr fun v => and_congr_right fun ⟨raw, ⟨t, c, e, _⟩, h, _⟩ => C77_attribute ?_
      rw [stripped_iff] at h
      have : v.length ≤ raw.length := h ▸ trim_length _
      have : raw.length < l.length := by rw [e]; simp; omega
      omega
    | bandwidth b =>
      rw [line_value (x := .bandwidth b) (P := fun v => BandwidthText v b) (by simp [kindOf] : kindOf (.bandwidth b) ≠ 's') fun v raw => bandwidth_iff]
      exact flat
    | connection b =>
      rw [line_value (x := .connection b) (P := fun v => ConnectionText v b) (by simp [kindOf] : kindOf (.connection b) ≠ 's') fun v raw => connection_iff]
      exact flat
    | media b =>
      rw [line_value (x := .media b) (P := fun v => MediaText v b) (by simp [kindOf] : kindOf (.media b) ≠ 's') fun v raw => media_iff]
      exact flat
    | origin b =>
      rw [line_value (x := .origin b) (P := fun v => OriginText v b) (by simp [kindOf] : kindOf (.origin b) ≠ 's') fun v raw => origin_iff]
      exact flat
    | session s => exact C68_session_name
    | timing b =>
      rw [line_value (x := .timing b) (P := fun v => TimingText v b) (by simp [kindOf] : kindOf (.timing b) ≠ 's') fun v raw => timing_iff]
      exact flat
    | version b =>
      rw [line_value (x := .version b) (P := fun v => DecText v 0 ∧ b = 0) (by simp [kindOf] : kindOf (.version b) ≠ 's') fun v raw => version_iff]
      exact flat
  constructor
  · intro h
    obtain ⟨_, _, -, -, h1, h2⟩ := C70_letters h
    obtain ⟨n', t, l'⟩ := x
    simp only at h1 h2; subst h1; subst h2
    exact ⟨key.1 h, rfl, rfl⟩
  · rintro ⟨h, h1, h2⟩
    obtain ⟨n', t, l'⟩ := x
    simp only at h1 h2; subst h1; subst h2
    exact key.2 h

/-- **C77.** Exactly the lines of `UnsupportedText` are called unsupported. -/
theorem C77_unsupported {l : Str} {n : Nat} :
    (∃ e, parseSdpLine l n = .err e ∧ e.saysUnsupported = true) ↔ UnsupportedText l := by
  rw [C44_unsupported_iff, unsupportedText_iff]

/-- The three kinds of lines. -/
theorem line_classes {l : Str} (hl : l.length < 2^31) (n : Nat) :
    (∃ t, parseSdpLine l n = .ok ⟨n, t, l⟩ ∧ LineDenotes l t ∧ ¬ UnsupportedText l) ∨
    (∃ m, parseSdpLine l n = .err (.unsupported (.unsupported m) l n) ∧ UnsupportedText l ∧ ∀ t, ¬ LineDenotes l t) ∨
    (∃ i, parseSdpLine l n = .err (.line i l n) ∧ (∀ m, i ≠ .unsupported m) ∧ ¬ UnsupportedText l ∧
      ∀ t, ¬ LineDenotes l t) := by
  have den {t : SdpType} : LineDenotes l t ↔ parseSdpLine l n = .ok ⟨n, t, l⟩ := by
    rw [C77_line hl]; simp
  cases h : parseSdpLine l n with
  | panic => exact absurd h (np_parseSdpLine n hl)
  | ok x =>
    obtain ⟨h1, h2, h3⟩ := (C77_line hl).1 h
    obtain ⟨n', t, l'⟩ := x
    simp only at h1 h2 h3; subst h2; subst h3
    refine .inl ⟨t, rfl, h1, fun hu => ?_⟩
    obtain ⟨e, he, -⟩ := C77_unsupported.2 hu
    rw [h] at he; simp at he
  | err e =>
    have no (t) : ¬ LineDenotes l t := fun ht => by
      rw [den, h] at ht; simp at ht
    by_cases hu : UnsupportedText l
    · obtain ⟨m, hm⟩ := C44_unsupported_error (n := n) (unsupportedText_iff.1 hu)
      rw [h] at hm
      exact .inr (.inl ⟨m, by rw [hm], hu, no⟩)
    · obtain ⟨i, rfl, hi⟩ := C44_line_error h (fun hc => hu (unsupportedText_iff.2 hc))
      exact .inr (.inr ⟨i, rfl, hi, hu, no⟩)

theorem blank_denotes {l : Str} (hb : Blank l) : (∀ t, ¬ LineDenotes l t) ∧ ¬ UnsupportedText l := by
  have form {c : Char} {raw : Str} : ¬ LineForm l c raw := by
    rintro ⟨t, x, rfl, -⟩
    exact absurd (hb '=' (by simp)) (by decide)
  have val {c : Char} {v : Str} : ¬ ValueText l c v := fun ⟨raw, h, _⟩ => form h
  constructor
  · rintro (_ | _ | _ | _ | _ | _ | _ | _) h
    case session => exact form h
    all_goals
      obtain ⟨v, h, -⟩ := h
      exact val h
  · rintro (⟨v, h, -⟩ | ⟨v, h, -⟩) <;> exact val h

/-- Where an error is. -/
def ParserError.place : ParserError → Str × Nat
  | .line _ l n => (l, n)
  | .unsupported _ l n => (l, n)
  | .sequence _ n => ([], n)

/-- A reading, in terms of the line parser. -/
theorem reading_parse {n : Nat} {ls : List Str} (hl : ∀ l ∈ ls, l.length < 2^31) {vs : List SdpLine}
    {us ws : List (Str × Nat)} : Reading n ls vs us ws ↔
      vs = acceptedLines (contentFrom n ls) ∧
      us = (unsupportedErrors (contentFrom n ls)).map ParserError.place ∧
      ws = (hardErrors (contentFrom n ls)).map ParserError.place := by
  induction ls generalizing n vs us ws with
  | nil =>
    constructor
    · intro h; cases h; exact ⟨rfl, rfl, rfl⟩
    · rintro ⟨rfl, rfl, rfl⟩; exact .nil
  | cons l ls ih =>
    have ih {vs us ws} := ih (n := n + 1) (vs := vs) (us := us) (ws := ws) fun x hx => hl x (by simp [hx])
    have hl := hl l (by simp)
    rw [contentFrom_cons]
    by_cases hb : Blank l
    · obtain ⟨b1, b2⟩ := blank_denotes hb
      rw [if_pos hb, ← ih]
      constructor
      · intro h
        cases h with
        | blank _ h => exact h
        | value h => exact absurd h (b1 _)
        | unsupported h => exact absurd h b2
        | wrong h => exact absurd hb h
      · exact .blank hb
    · rw [if_neg hb, acceptedLines_cons, unsupportedErrors_cons, hardErrors_cons]
      rcases line_classes hl n with ⟨t, h1, h2, h3⟩ | ⟨m, h1, h2, h3⟩ | ⟨i, h1, h2, h3, h4⟩
      · have uniq {t'} (h : LineDenotes l t') : t' = t := by
          have : parseSdpLine l n = .ok ⟨n, t', l⟩ := (C77_line hl).2 ⟨h, rfl, rfl⟩
          rw [h1] at this; simp at this; exact this.symm
        simp only [h1, List.nil_append, List.singleton_append]
        constructor
        · intro h
          cases h with
          | blank h => exact absurd h hb
          | value h h' =>
            obtain ⟨rfl, rfl, rfl⟩ := ih.1 h'
            rw [uniq h]; exact ⟨rfl, rfl, rfl⟩
          | unsupported h => exact absurd h h3
          | wrong _ h => exact absurd h2 (h _)
        · rintro ⟨rfl, rfl, rfl⟩
          exact .value h2 (ih.2 ⟨rfl, rfl, rfl⟩)
      · simp only [h1, List.nil_append, List.singleton_append, List.map_cons]
        constructor
        · intro h
          cases h with
          | blank h => exact absurd h hb
          | value h => exact absurd h (h3 _)
          | unsupported h h' =>
            obtain ⟨rfl, rfl, rfl⟩ := ih.1 h'
            exact ⟨rfl, rfl, rfl⟩
          | wrong _ _ h => exact absurd h2 h
        · rintro ⟨rfl, rfl, rfl⟩
          exact .unsupported h2 (ih.2 ⟨rfl, rfl, rfl⟩)
      · simp only [h1, List.nil_append, List.singleton_append, List.map_cons]
        constructor
        · intro h
          cases h with
          | blank h => exact absurd h hb
          | value h => exact absurd h (h4 _)
          | unsupported h => exact absurd h h3
          | wrong _ _ _ h' =>
            obtain ⟨rfl, rfl, rfl⟩ := ih.1 h'
            exact ⟨rfl, rfl, rfl⟩
        · rintro ⟨rfl, rfl, rfl⟩
          exact .wrong hb h4 h3 (ih.2 ⟨rfl, rfl, rfl⟩)

/-! ## C78: what is wrong with a sequence of lines -/

theorem vector_describes {vs : List SdpLine} {r : Session} : parseSdpVector vs = .ok r ↔ Describes vs r := by
  rw [parseSdpVector_ok]
  simp only [finishSession_iff]
  rfl

theorem vector_fault {vs : List SdpLine} {e : ParserError} : parseSdpVector vs = .err e ↔
    ∃ m n, SequenceFault vs m n ∧ e = .sequence m n := by
  unfold parseSdpVector
  by_cases h4 : vs.length < 4
  · rw [if_pos h4]
    constructor
    · intro h; cases h; exact ⟨_, _, .few h4, rfl⟩
    · rintro ⟨m, n, h, rfl⟩
      cases h <;> first | rfl | omega
  rw [if_neg h4]
  rcases vs with _ | ⟨l0, _ | ⟨l1, _ | ⟨l2, rest⟩⟩⟩
  · simp at h4
  · simp at h4
  · simp at h4
  have h4 : 4 ≤ (l0 :: l1 :: l2 :: rest).length := by omega
  simp only [removeFirst, ok_bind]
  by_cases k0 : ∃ v, l0.sdpType = .version v
  swap
  · have k0' : ∀ v, l0.sdpType ≠ .version v := fun v hv => k0 ⟨v, hv⟩
    split
    · rename_i h; exact absurd h (k0' _)
    constructor
    · intro h; cases h; exact ⟨_, _, .version h4 rfl k0', rfl⟩
    · rintro ⟨m, n, h, rfl⟩
      cases h with
      | few h => omega
      | version => rfl
      | origin _ e h | session _ e h | sessionPart _ e h | mediaSection _ e h | whole _ e h => cases e; exact absurd h (k0' _)
  obtain ⟨v, k0⟩ := k0
  rw [k0]
  simp only []
  by_cases k1 : ∃ o, l1.sdpType = .origin o
  swap
  · have k1' : ∀ v, l1.sdpType ≠ .origin v := fun v hv => k1 ⟨v, hv⟩
    split
    · rename_i h; exact absurd h (k1' _)
    constructor
    · intro h; cases h; exact ⟨_, _, .origin h4 rfl k0 k1', rfl⟩
    · rintro ⟨m, n, h, rfl⟩
      cases h with
      | few h => omega
      | version _ e h => cases e; exact absurd k0 (h _)
      | origin => rfl
      | session _ e _ h | sessionPart _ e _ h | mediaSection _ e _ h | whole _ e _ h => cases e; exact absurd h (k1' _)
  obtain ⟨o, k1⟩ := k1
  rw [k1]
  simp only []
  by_cases k2 : ∃ s, l2.sdpType = .session s
  swap
  · have k2' : ∀ v, l2.sdpType ≠ .session v := fun v hv => k2 ⟨v, hv⟩
    split
    · rename_i h; exact absurd h (k2' _)
    constructor
    · intro h; cases h; exact ⟨_, _, .session h4 rfl k0 k1 k2', rfl⟩
    · rintro ⟨m, n, h, rfl⟩
      cases h with
      | few h => omega
      | version _ e h => cases e; exact absurd k0 (h _)
      | origin _ e _ h => cases e; exact absurd k1 (h _)
      | session => rfl
      | sessionPart _ e _ _ h | mediaSection _ e _ _ h | whole _ e _ _ h => cases e; exact absurd h (k2' _)
  obtain ⟨name, k2⟩ := k2
  rw [k2]
  simp only []
  rw [finishSession_fault]
  constructor
  · rintro (⟨pre, l, post, g1, g2, m, g3, rfl⟩ | ⟨g1, before, ml, pre, l, post, after, g2, g3, g4, m, g5, rfl⟩ |
      ⟨g1, g2, m, g3, rfl⟩)
    · exact ⟨_, _, .sessionPart h4 rfl k0 k1 k2 g1 g2 g3, rfl⟩
    · exact ⟨_, _, .mediaSection h4 rfl k0 k1 k2 g1 g2 g3 g4 g5, rfl⟩
    · exact ⟨_, _, .whole h4 rfl k0 k1 k2 g1 g2 g3, rfl⟩
  · rintro ⟨m, n, h, rfl⟩
    cases h with
    | few h => omega
    | version _ e h => cases e; exact absurd k0 (h _)
    | origin _ e _ h => cases e; exact absurd k1 (h _)
    | session _ e _ _ h => cases e; exact absurd k2 (h _)
    | sessionPart _ e _ _ _ g1 g2 g3 => cases e; exact .inl ⟨_, _, _, g1, g2, _, g3, rfl⟩
    | mediaSection _ e _ _ _ g1 g2 g3 g4 g5 =>
      cases e; exact .inr (.inl ⟨g1, _, _, _, _, _, _, g2, g3, g4, _, g5, rfl⟩)
    | whole _ e e0 e1 e2 g1 g2 g3 =>
      cases e
      rw [k0] at e0; rw [k1] at e1; rw [k2] at e2
      cases e0; cases e1; cases e2
      exact .inr (.inr ⟨g1, g2, _, g3, rfl⟩)

/-! ## C78 and C79: what comes of a text -/

theorem lines_short {s : Str} (h : byteLen s < 2^31) : ∀ l ∈ lines s, l.length < 2^31 := fun _ hl =>
  Nat.lt_of_le_of_lt (Nat.le_trans (lines_mem_length hl) (length_le_byteLen s)) h

theorem mem_unsupportedErrors_place {a : List (Str × Nat)} (ha : ∀ p ∈ a, p.1.length < 2^31) {e : ParserError}
    (h : e ∈ unsupportedErrors a) : UnsupportedError e.place e := by
  induction a with
  | nil => simp [unsupportedErrors] at h
  | cons p a ih =>
    have ih := ih fun q hq => ha q (by simp [hq])
    rw [unsupportedErrors_cons] at h
    rcases line_classes (ha p (by simp)) p.2 with ⟨t, h1, -⟩ | ⟨m, h1, -⟩ | ⟨i, h1, -⟩ <;> simp [h1] at h
    · exact ih h
    · rcases h with rfl | h
      · exact ⟨m, rfl⟩
      · exact ih h
    · exact ih h

theorem mem_hardErrors_place {a : List (Str × Nat)} (ha : ∀ p ∈ a, p.1.length < 2^31) {e : ParserError}
    (h : e ∈ hardErrors a) : WrongError e.place e := by
  induction a with
  | nil => simp [hardErrors] at h
  | cons p a ih =>
    have ih := ih fun q hq => ha q (by simp [hq])
    rw [hardErrors_cons] at h
    rcases line_classes (ha p (by simp)) p.2 with ⟨t, h1, -⟩ | ⟨m, h1, -⟩ | ⟨i, h1, hi, -⟩ <;> simp [h1] at h
    · exact ih h
    · exact ih h
    · rcases h with rfl | h
      · exact ⟨i, rfl, hi⟩
      · exact ih h

omit [Env] in
theorem each_map_left {α β : Type} {R : α → β → Prop} {g : β → α} {l : List β} (h : ∀ x ∈ l, R (g x) x) :
    Each R (l.map g) l := by
  induction l with
  | nil => trivial
  | cons x l ih => exact ⟨h x (by simp), ih fun y hy => h y (by simp [hy])⟩

/-- **C79.** What `parse_sdp` gives is what comes of the text. -/
theorem C79_sound {s : Str} (h : byteLen s < 2^31) (f : Bool) : Comes s f (parseSdp s f) := by
  by_cases hs : byteLen s < 51
  · obtain ⟨m, hm⟩ := C15_short_text (f := f) hs
    rw [hm]; exact .short hs
  have hs : 51 ≤ byteLen s := by omega
  have ht : TextLines s (lines s) := textLines_iff.2 rfl
  have hr := (reading_parse (n := 0) (lines_short h)).2 ⟨rfl, rfl, rfl⟩
  have hnp := np_parseSdp h f
  rw [parseSdp_eq hs] at hnp ⊢
  by_cases hp : ∃ p ∈ contentLines s, parseSdpLine p.1 p.2 = .panic
  · rw [if_pos hp] at hnp; exact absurd rfl hnp
  rw [if_neg hp] at hnp ⊢
  have hlen : ∀ p ∈ contentLines s, p.1.length < 2^31 := fun p hp =>
    lines_short h _ (List.mem_of_getElem? (mem_contentLines.1 hp).1)
  change Reading 0 (lines s) (acceptedLines (contentLines s)) ((unsupportedErrors (contentLines s)).map ParserError.place)
    ((hardErrors (contentLines s)).map ParserError.place) at hr
  have hu := fun e => mem_unsupportedErrors_place (a := contentLines s) (e := e) hlen
  have hw := fun e => mem_hardErrors_place (a := contentLines s) (e := e) hlen
  generalize acceptedLines (contentLines s) = vs at *
  generalize unsupportedErrors (contentLines s) = us at *
  generalize hardErrors (contentLines s) = ws at *
  have tail (hf : f = true → us = []) : Comes s f (match ws.getLast? with
      | some e => .err e
      | none => do
        let s ← parseSdpVector vs
        return { s with warnings := us }) := by
    have hf' : f = true → us.map ParserError.place = [] := fun hf1 => by rw [hf hf1]; rfl
    rcases List.eq_nil_or_concat ws with rfl | ⟨ws', w, rfl⟩
    · simp only [List.getLast?_nil]
      cases hv : parseSdpVector vs with
      | panic => exact absurd hv (np_parseSdpVector _)
      | err e =>
        obtain ⟨m, n, h1, rfl⟩ := vector_fault.1 hv
        exact .sequence hs ht hr hf' h1
      | ok r => exact .session hs ht hr hf' (vector_describes.1 hv) (each_map_left hu)
    · simp only [List.concat_eq_append, List.getLast?_append, List.getLast?_singleton, Option.some_or]
      rw [List.concat_eq_append, List.map_append] at hr
      exact .wrong hs ht hr hf' (hw w (by simp))
  unfold finishScan
  cases f with
  | false => exact tail (by simp)
  | true =>
    cases us with
    | nil => exact tail (by simp)
    | cons w us => exact .unsupported hs ht hr rfl (hu w (by simp))

theorem sequenceFault_unique {vs : List SdpLine} {m m' : Str} {n n' : Nat} (h : SequenceFault vs m n)
    (h' : SequenceFault vs m' n') : m = m' ∧ n = n' := by
  have := (vector_fault.2 ⟨m, n, h, rfl⟩).symm.trans (vector_fault.2 ⟨m', n', h', rfl⟩)
  simpa using this

theorem not_fault_of_describes {vs : List SdpLine} {m : Str} {n : Nat} {r : Session} (h : SequenceFault vs m n)
    (h' : Describes vs r) : False := by
  have := (vector_fault.2 ⟨m, n, h, rfl⟩).symm.trans (vector_describes.2 h')
  simp at this

theorem describes_unique {vs : List SdpLine} {r r' : Session} (h : Describes vs r) (h' : Describes vs r') : r = r' :=
  Outcome.ok.inj ((vector_describes.2 h).symm.trans (vector_describes.2 h'))

theorem reading_unique {s : Str} (h : byteLen s < 2^31) {ls ls' : List Str} {vs vs' : List SdpLine}
    {us us' ws ws' : List (Str × Nat)} (t : TextLines s ls) (t' : TextLines s ls') (r : Reading 0 ls vs us ws)
    (r' : Reading 0 ls' vs' us' ws') : vs' = vs ∧ us' = us ∧ ws' = ws := by
  rw [textLines_iff] at t t'
  subst t; subst t'
  rw [reading_parse (lines_short h)] at r r'
  obtain ⟨rfl, rfl, rfl⟩ := r
  exact r'

omit [Env] in
theorem unsupported_alike {p : Str × Nat} {e e' : ParserError} (h : UnsupportedError p e) (h' : UnsupportedError p e') :
    e.Alike e' := by
  obtain ⟨m, rfl⟩ := h
  obtain ⟨m', rfl⟩ := h'
  exact ⟨rfl, rfl⟩

omit [Env] in
theorem wrong_alike {p : Str × Nat} {e e' : ParserError} (h : WrongError p e) (h' : WrongError p e') :
    e.Alike e' := by
  obtain ⟨i, rfl, -⟩ := h
  obtain ⟨i', rfl, -⟩ := h'
  exact ⟨rfl, rfl⟩

omit [Env] in
theorem each_alike {us : List (Str × Nat)} {a b : List ParserError} (h : Each UnsupportedError us a)
    (h' : Each UnsupportedError us b) : Each ParserError.Alike a b := by
  induction us generalizing a b with
  | nil =>
    cases a with
    | nil => cases b with
      | nil => trivial
      | cons => exact h'.elim
    | cons => exact h.elim
  | cons u us ih =>
    cases a with
    | nil => exact h.elim
    | cons x a => cases b with
      | nil => exact h'.elim
      | cons y b => exact ⟨unsupported_alike h.1 h'.1, ih h.2 h'.2⟩

/-- **C79.** Only one outcome comes of a text, up to the causes and messages of line errors. -/
theorem C79_unique {s : Str} (h : byteLen s < 2^31) {f : Bool} {x y : Outcome ParserError Session}
    (hx : Comes s f x) (hy : Comes s f y) : OutcomesAlike x y := by
  cases hx with
  | short h1 =>
    cases hy with
    | short => exact ⟨rfl, rfl⟩
    | unsupported h2 | wrong h2 | sequence h2 | session h2 => omega
  | unsupported h1 t r hf hu =>
    cases hy with
    | short h2 => omega
    | unsupported _ t' r' _ hu' =>
      obtain ⟨-, h2, -⟩ := reading_unique h t t' r r'
      cases h2
      exact unsupported_alike hu hu'
    | wrong _ t' r' hf' | sequence _ t' r' hf' | session _ t' r' hf' =>
      obtain ⟨-, h2, -⟩ := reading_unique h t t' r r'
      rw [hf' hf] at h2; simp at h2
  | wrong h1 t r hf hw =>
    cases hy with
    | short h2 => omega
    | unsupported _ t' r' hf' =>
      obtain ⟨-, h2, -⟩ := reading_unique h t t' r r'
      rw [hf hf'] at h2; simp at h2
    | wrong _ t' r' hf' hw' =>
      obtain ⟨-, -, h2⟩ := reading_unique h t t' r r'
      obtain ⟨-, h3⟩ := List.append_inj' h2 rfl
      cases h3
      exact wrong_alike hw hw'
    | sequence _ t' r' hf' | session _ t' r' hf' =>
      obtain ⟨-, -, h2⟩ := reading_unique h t t' r r'
      simp at h2
  | sequence h1 t r hf hq =>
    cases hy with
    | short h2 => omega
    | unsupported _ t' r' hf' =>
      obtain ⟨-, h2, -⟩ := reading_unique h t t' r r'
      rw [hf hf'] at h2; simp at h2
    | wrong _ t' r' hf' hw' =>
      obtain ⟨-, -, h2⟩ := reading_unique h t t' r r'
      simp at h2
    | sequence _ t' r' hf' hq' =>
      obtain ⟨rfl, -, -⟩ := reading_unique h t t' r r'
      exact sequenceFault_unique hq hq'
    | session _ t' r' hf' hd' =>
      obtain ⟨rfl, -, -⟩ := reading_unique h t t' r r'
      exact (not_fault_of_describes hq hd').elim
  | session h1 t r hf hd he =>
    cases hy with
    | short h2 => omega
    | unsupported _ t' r' hf' =>
      obtain ⟨-, h2, -⟩ := reading_unique h t t' r r'
      rw [hf hf'] at h2; simp at h2
    | wrong _ t' r' hf' hw' =>
      obtain ⟨-, -, h2⟩ := reading_unique h t t' r r'
      simp at h2
    | sequence _ t' r' hf' hq' =>
      obtain ⟨rfl, -, -⟩ := reading_unique h t t' r r'
      exact (not_fault_of_describes hq' hd).elim
    | session _ t' r' hf' hd' he' =>
      obtain ⟨rfl, rfl, -⟩ := reading_unique h t t' r r'
      cases describes_unique hd hd'
      exact ⟨rfl, each_alike he he'⟩

/-- **C79.** Whatever comes of a text is what `parse_sdp` gives, up to the causes and messages of line
errors and warnings. -/
theorem C79_complete {s : Str} (h : byteLen s < 2^31) {f : Bool} {x : Outcome ParserError Session}
    (hx : Comes s f x) : OutcomesAlike x (parseSdp s f) := C79_unique h hx (C79_sound h f)

/-- **C79.** The sessions `parse_sdp` accepts: exactly the texts whose lines all denote something or
are unsupported, and describe that session. -/
theorem C79_accepts {s : Str} (h : byteLen s < 2^31) {f : Bool} {r : Session} :
    (∃ es, parseSdp s f = .ok { r with warnings := es }) ↔
      51 ≤ byteLen s ∧ ∃ ls vs us r0, TextLines s ls ∧ Reading 0 ls vs us [] ∧ (f = true → us = []) ∧
        Describes vs r0 ∧ { r0 with warnings := [] } = { r with warnings := [] } := by
  constructor
  · rintro ⟨es, he⟩
    have hc := C79_sound h f
    rw [he] at hc
    generalize hx : (Outcome.ok { r with warnings := es } : Outcome ParserError Session) = x at hc
    cases hc with
    | short | unsupported | wrong | sequence => cases hx
    | session h1 t rd hf hd _ =>
      refine ⟨h1, _, _, _, _, t, rd, hf, hd, ?_⟩
      have := Outcome.ok.inj hx
      simp only [Session.mk.injEq] at this ⊢
      simp [this]
  · rintro ⟨h1, ls, vs, us, r0, t, rd, hf, hd, he⟩
    have hc := C79_complete h (.session h1 t rd hf hd (es := us.map fun u => .unsupported (.unsupported []) u.1 u.2) (by
      clear rd hf
      induction us with
      | nil => trivial
      | cons u us ih => exact ⟨⟨_, rfl⟩, ih⟩))
    cases hp : parseSdp s f with
    | panic => rw [hp] at hc; exact hc.elim
    | err e => rw [hp] at hc; exact hc.elim
    | ok r' =>
      rw [hp] at hc
      have h2 := hc.1.symm.trans he
      refine ⟨r'.warnings, ?_⟩
      congr 1
      simp only [Session.mk.injEq] at h2
      cases r'
      simp only [Session.mk.injEq] at h2 ⊢
      simp [h2]

/-- **C78.** A sequence error comes of exactly the texts whose lines are all right and whose sequence
has that fault; line errors come first. -/
theorem C78_sequence_error {s : Str} (h : byteLen s < 2^31) {f : Bool} {m : Str} {n : Nat} :
    parseSdp s f = .err (.sequence m n) ↔
      51 ≤ byteLen s ∧ ∃ ls vs us, TextLines s ls ∧ Reading 0 ls vs us [] ∧ (f = true → us = []) ∧
        SequenceFault vs m n := by
  constructor
  · intro he
    have hc := C79_sound h f
    rw [he] at hc
    generalize hx : (Outcome.err (.sequence m n) : Outcome ParserError Session) = x at hc
    cases hc with
    | short => cases hx
    | unsupported _ _ _ _ hu => obtain ⟨_, rfl⟩ := hu; cases hx
    | wrong _ _ _ _ hu => obtain ⟨_, rfl, _⟩ := hu; cases hx
    | session => cases hx
    | sequence h1 t rd hf hq => cases hx; exact ⟨h1, _, _, _, t, rd, hf, hq⟩
  · rintro ⟨h1, ls, vs, us, t, rd, hf, hq⟩
    have hc := C79_complete h (.sequence h1 t rd hf hq)
    cases hp : parseSdp s f with
    | panic => rw [hp] at hc; exact hc.elim
    | ok r => rw [hp] at hc; exact hc.elim
    | err e =>
      rw [hp] at hc
      cases e with
      | sequence m' n' => obtain ⟨rfl, rfl⟩ := hc; rfl
      | line => exact hc.elim
      | unsupported => exact hc.elim

/-- **C78.** At most one fault is reported for a sequence, and none if the lines describe a session;
every sequence has a fault or describes a session. -/
theorem C78_fault_or_session (vs : List SdpLine) :
    (∃ m n, SequenceFault vs m n ∧ (∀ m' n', SequenceFault vs m' n' → m' = m ∧ n' = n) ∧ ∀ r, ¬ Describes vs r) ∨
    (∃ r, Describes vs r ∧ (∀ r', Describes vs r' → r' = r) ∧ ∀ m n, ¬ SequenceFault vs m n) := by
  cases hv : parseSdpVector vs with
  | panic => exact absurd hv (np_parseSdpVector _)
  | err e =>
    obtain ⟨m, n, h1, rfl⟩ := vector_fault.1 hv
    exact .inl ⟨m, n, h1, fun _ _ h => sequenceFault_unique h h1, fun _ h => not_fault_of_describes h1 h⟩
  | ok r =>
    have h1 := vector_describes.1 hv
    exact .inr ⟨r, h1, fun _ h => describes_unique h h1, fun _ _ h => not_fault_of_describes h h1⟩

end

/-! ## Concrete cases -/

section
attribute [local instance] sampleEnv

/-- A text of ten lines, made from its ninth one. -/
def documentText (nine : Str) : Str :=
  c%"v=0\r\no=- 42 7 IN IP4 10.0.0.1\ns=-\r\nt=0 0\n\nc=IN IP4 10.0.0.1\r\na=foo\nm=audio 9 RTP/SAVPF 0\n" ++ nine ++ c%"\na=sendrecv"

example : AttributeText c%"CANDIDATE:1 1 UDP 5 10.0.0.1 9 typ host generation 2 x y"
    (.candidate ⟨c%"1", 1, .udp, 5, .ip (.v4 0x0a000001), 9, .host, none, none, none, some 2, none, none, [(c%"x", c%"y")]⟩) :=
  (C77_attribute (by decide)).1 (by decide +kernel)
example : LineDenotes c%" M=audio 9 rtp/savpf 0" (.media ⟨.audio, 9, 0, .rtpSavpf, .integers [0]⟩) :=
  ((C77_line (n := 3) (x := ⟨3, .media ⟨.audio, 9, 0, .rtpSavpf, .integers [0]⟩, c%" M=audio 9 rtp/savpf 0"⟩)
    (by decide)).1 (by decide +kernel)).1
example : UnsupportedText c%"a=foo" := .inl ⟨c%"foo", ⟨c%"foo", ⟨c%"a", 'a', rfl, by decide,
  ⟨⟨[], [], by decide, by decide, rfl⟩, .inr ⟨⟨'a', [], rfl, by decide⟩, ⟨[], 'a', rfl, by decide⟩⟩⟩, by decide, by decide⟩,
  ⟨⟨[], [], by decide, by decide, rfl⟩, .inr ⟨⟨'f', c%"oo", rfl, by decide⟩, ⟨c%"fo", 'o', rfl, by decide⟩⟩⟩, by decide⟩, .flag (by decide) (by decide +kernel)⟩
example : ∃ e, parseSdpLine c%"a=rtcp-fb:1 ack" 3 = .err e ∧ e.saysUnsupported = true :=
  ⟨_, rfl, by decide +kernel⟩

example : TextLines c%"a\r\n\nb\r\r\nc\r" [c%"a", [], c%"b\r", c%"c\r"] :=
  .crlf (l := c%"a") (by decide) (.lf (l := []) (by decide) (by decide) (.crlf (l := c%"b\r") (by decide)
    (.last (by decide) (by decide))))

/-- All right: a session comes of it, with a warning for line 6. -/
example : ∃ r, Comes (documentText c%"a=mid:x") false (.ok r) ∧ r.warnings.map ParserError.place = [(c%"a=foo", 6)] ∧
    r.media.length = 1 := by
  have h := C79_sound (s := documentText c%"a=mid:x") (by decide +kernel) false
  have hr : (match parseSdp (documentText c%"a=mid:x") false with
      | .ok r => decide (r.warnings.map ParserError.place = [(c%"a=foo", 6)] ∧ r.media.length = 1)
      | _ => false) = true := by decide +kernel
  generalize parseSdp (documentText c%"a=mid:x") false = x at h hr
  cases x with
  | ok r => exact ⟨r, h, of_decide_eq_true hr⟩
  | err | panic => simp at hr
/-- The unsupported line is an error if it is to be. -/
example : Comes (documentText c%"a=mid:x") true
    (.err (.unsupported (.unsupported c%"Unknown attribute type foo") c%"a=foo" 6)) := by
  have h := C79_sound (s := documentText c%"a=mid:x") (by decide +kernel) true
  rwa [show parseSdp (documentText c%"a=mid:x") true =
    .err (.unsupported (.unsupported c%"Unknown attribute type foo") c%"a=foo" 6) by decide +kernel] at h
/-- A wrong line. -/
example : Comes (documentText c%"a=ptime:x") false (.err (.line (.integer .invalidDigit) c%"a=ptime:x" 8)) := by
  have h := C79_sound (s := documentText c%"a=ptime:x") (by decide +kernel) false
  rwa [show parseSdp (documentText c%"a=ptime:x") false =
    .err (.line (.integer .invalidDigit) c%"a=ptime:x" 8) by decide +kernel] at h
/-- A misplaced line: its number, and the message. -/
example : ∃ ls vs us, TextLines (documentText c%"t=0 0") ls ∧ Reading 0 ls vs us [] ∧ (false = true → us = []) ∧
    SequenceFault vs c%"invalid type in media section" 8 :=
  ((C78_sequence_error (by decide +kernel)).1 (by decide +kernel :
    parseSdp (documentText c%"t=0 0") false = .err (.sequence c%"invalid type in media section" 8))).2
example : ∃ ls vs us, TextLines (documentText c%"a=rid:x send pt=7") ls ∧ Reading 0 ls vs us [] ∧ (false = true → us = []) ∧
    SequenceFault vs c%"Rid pts must be declared in the media section" 0 :=
  ((C78_sequence_error (by decide +kernel)).1 (by decide +kernel :
    parseSdp (documentText c%"a=rid:x send pt=7") false =
      .err (.sequence c%"Rid pts must be declared in the media section" 0))).2
/-- Made by hand: v=, o=, s= and a misplaced o= line. -/
example : SequenceFault [⟨0, .version 0, []⟩, ⟨1, .origin ⟨c%"-", 1, 2, .ip (.v4 1)⟩, []⟩, ⟨2, .session c%"-", []⟩,
    ⟨3, .timing ⟨0, 0⟩, []⟩, ⟨7, .origin ⟨c%"-", 1, 2, .ip (.v4 1)⟩, []⟩] c%"version, origin or session at wrong level" 7 :=
  .sessionPart (pre := [⟨3, .timing ⟨0, 0⟩, []⟩]) (l := ⟨7, .origin ⟨c%"-", 1, 2, .ip (.v4 1)⟩, []⟩) (post := [])
    (by decide) rfl rfl rfl rfl rfl ⟨by intro l hl; simp at hl; subst hl; trivial, by intro a ha; cases ha⟩ rfl

end

end Sdp
