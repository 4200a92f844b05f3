import Verif.Lemmas.ReadsBack
import Verif.Lemmas.PrintSession
import Verif.Lemmas.Document
/-!
# What a session that is read back must be
-/

namespace Sdp

/-- Every line is found again, also one that ends in a carriage return. -/
theorem lines_crlf_any {ls : List Str} (h : ∀ l ∈ ls, '\n' ∉ l) : Sdp.lines (crlf ls) = ls := by
  induction ls with
  | nil => rfl
  | cons l ls ih =>
    rw [crlf_cons]
    have e : l ++ c%"\r\n" ++ crlf ls = (l ++ ['\r']) ++ '\n' :: crlf ls := by simp
    rw [e, lines_lf, ih fun x hx => h x (by simp [hx])]
    · simp [stripCR, endsWithC]
    · have := h l (by simp)
      simp [this]

section
variable [Env]

/-- What a line is read as, if it is. -/
def readType (l : Str) : Option SdpType :=
  match lineMeaning l with
  | .ok t => some t
  | _ => none

theorem readType_some {l : Str} {t : SdpType} : readType l = some t ↔ lineMeaning l = .ok t := by
  unfold readType
  cases lineMeaning l <;> simp

theorem accepted_types (n : Nat) (ls : List Str) :
    (acceptedLines (contentFrom n ls)).map (fun l => l.sdpType) = ls.filterMap readType := by
  induction ls generalizing n with
  | nil => rfl
  | cons l ls ih =>
    rw [contentFrom_cons, List.filterMap_cons]
    by_cases hb : Blank l
    · have hr : readType l = none := by
        have he : '=' ∉ l := fun he => absurd (hb '=' he) (by decide)
        unfold readType lineMeaning
        rw [parseSdpLine_noEq he]
        rfl
      rw [if_pos hb, hr, ih]
    · rw [if_neg hb]
      unfold acceptedLines at ih ⊢
      rw [List.filterMap_cons]
      simp only [parseSdpLine_record l n]
      have ih := ih (n + 1)
      cases hm : lineMeaning l with
      | ok t =>
        have hr : readType l = some t := readType_some.2 hm
        simp only [recordLine, hr, List.map_cons, ih]
      | err e =>
        have hr : readType l = none := by unfold readType; rw [hm]
        simp only [recordLine, hr, ih]
      | panic =>
        have hr : readType l = none := by unfold readType; rw [hm]
        simp only [recordLine, hr, ih]

theorem LinePrints.readType {x : Char} {v : Str} {t : SdpType} (h : LinePrints x v t) (hx : x ∈ lineLetters) :
    readType (x :: '=' :: v) = some t := by
  rw [readType_some]
  unfold lineMeaning
  rw [h.line hx]

theorem filterMap_reads {α : Type} {f : α → Str} {g : α → SdpType} {l : List α}
    (h : ∀ x ∈ l, readType (f x) = some (g x)) : (l.map f).filterMap readType = l.map g := by
  induction l with
  | nil => rfl
  | cons x xs ih => simp [h x (by simp), ih fun y hy => h y (by simp [hy])]

/-- An a= line is read as the attribute its value denotes. -/
theorem readType_attr {v : Str} {t : SdpType} (h : readType (c%"a=" ++ v) = some t) :
    ∃ a, t = .attr a ∧ attrFromStr (trim v) = .ok a := by
  rw [readType_some] at h
  have h : lineMeaning ([('a' : Char)] ++ '=' :: v) = .ok t := h
  by_cases hv : trim v = []
  · exfalso
    rw [lineMeaning_split (by decide)] at h
    unfold lineOutcome at h
    rw [if_neg (by decide), if_neg (by decide), if_pos ⟨by simp [hv], fun hc => by
      rw [lower_letter (d := 'S') (by decide) (by decide) (by decide)] at hc
      exact absurd hc (by decide)⟩] at h
    cases h
  · rw [lineMeaning_letter (by decide) hv] at h
    have h : parseAttribute (trim v) = .ok t := h
    unfold parseAttribute at h
    obtain ⟨a, ha, h⟩ := bind_eq_ok.1 h
    cases h
    rw [trim_trim] at ha
    exact ⟨a, rfl, ha⟩

/-- The attributes read from the a= lines a list of attributes prints. -/
def readAttrs (as : List Attribute) : List Attribute :=
  ((textLines c%"a=" (as.map showAttribute)).filterMap readType).filterMap attrT

theorem readAttrs_types (as : List Attribute) :
    (textLines c%"a=" (as.map showAttribute)).filterMap readType = (readAttrs as).map .attr := by
  unfold readAttrs
  have key : ∀ ls : List Str, (∀ l ∈ ls, ∃ v, l = c%"a=" ++ v) →
      ls.filterMap readType = ((ls.filterMap readType).filterMap attrT).map .attr := by
    intro ls
    induction ls with
    | nil => intro; rfl
    | cons l ls ih =>
      intro h
      rw [List.filterMap_cons]
      have ih := ih fun x hx => h x (by simp [hx])
      cases hr : readType l with
      | none => exact ih
      | some t =>
        obtain ⟨v, rfl⟩ := h l (by simp)
        obtain ⟨a, rfl, -⟩ := readType_attr hr
        simp only [List.filterMap_cons, attrT, List.map_cons]
        rw [← ih]
  refine key _ ?_
  intro l hl
  unfold textLines at hl
  split at hl
  · cases hl
  · split at hl
    · simp at hl; exact ⟨[], by simp [hl]⟩
    · obtain ⟨t, -, rfl⟩ := List.mem_map.1 hl
      exact ⟨t, rfl⟩

theorem readAttrs_each {as : List Attribute} (h : as.length ≤ (readAttrs as).length) :
    List.Forall₂ (fun a b => attrFromStr (trim (showAttribute a)) = .ok b) as (readAttrs as) := by
  have hl : (readAttrs as).length = ((textLines c%"a=" (as.map showAttribute)).filterMap readType).length := by
    rw [readAttrs_types, List.length_map]
  have hle := List.length_filterMap_le readType (textLines c%"a=" (as.map showAttribute))
  have hne : ∀ a ∈ as, showAttribute a ≠ [] := by
    intro a ha hc
    by_cases hall : ∀ t ∈ as.map showAttribute, t = []
    · have e : textLines c%"a=" (as.map showAttribute) = [c%"a="] := by
        unfold textLines
        rw [if_neg, if_pos hall]
        simp only [List.map_eq_nil_iff]
        rintro rfl; cases ha
      have hr : readType c%"a=" = none := by
        cases hr : readType c%"a=" with
        | none => rfl
        | some t =>
          obtain ⟨a, -, h⟩ := readType_attr (v := []) hr
          cases h
      rw [e] at hl
      simp [hr] at hl
      rw [hl] at h
      simp at h
      subst h; cases ha
    · have e : textLines c%"a=" (as.map showAttribute) =
          ((as.map showAttribute).filter (fun t => decide (t ≠ []))).map (fun t => c%"a=" ++ t) := by
        unfold textLines
        rw [if_neg, if_neg hall]
        simp only [List.map_eq_nil_iff]
        rintro rfl; cases ha
      have : ((as.map showAttribute).filter (fun t => decide (t ≠ []))).length < (as.map showAttribute).length := by
        rw [List.length_filter_lt_length_iff_exists]
        exact ⟨[], List.mem_map.2 ⟨a, ha, hc⟩, by simp⟩
      rw [e, List.length_map] at hle
      rw [e] at hl
      rw [List.length_map] at this
      omega
  have e : textLines c%"a=" (as.map showAttribute) = as.map (fun a => c%"a=" ++ showAttribute a) := by
    rw [textLines_eq, List.map_map]
    · rfl
    · intro t ht
      obtain ⟨a, ha, rfl⟩ := List.mem_map.1 ht
      exact hne a ha
  unfold readAttrs at h ⊢
  rw [e] at h ⊢
  clear hl hle hne e
  induction as with
  | nil => exact .nil
  | cons a as ih =>
    simp only [List.map_cons, List.filterMap_cons] at h ⊢
    have hlen : (((as.map fun a => c%"a=" ++ showAttribute a).filterMap readType).filterMap attrT).length ≤ as.length := by
      refine Nat.le_trans (List.length_filterMap_le _ _) (Nat.le_trans (List.length_filterMap_le _ _) ?_)
      simp
    cases hr : readType (c%"a=" ++ showAttribute a) with
    | none =>
      rw [hr] at h
      simp only [List.length_cons] at h
      omega
    | some t =>
      rw [hr] at h
      obtain ⟨b, rfl, hb⟩ := readType_attr hr
      simp only [List.filterMap_cons, attrT, List.length_cons] at h ⊢
      exact .cons hb (ih (by omega))

/-- Every attribute of a list that comes back the same, but for some that were left out, is read back. -/
theorem readAttrs_same {as : List Attribute} {p : Attribute → Bool} (h : as = (readAttrs as).filter p) :
    ∀ a ∈ as, attrFromStr (trim (showAttribute a)) = .ok a := by
  have hl : as.length ≤ (readAttrs as).length := by
    conv_lhs => rw [h]
    exact List.length_filter_le _ _
  have hf := readAttrs_each hl
  have he : (readAttrs as).filter p = readAttrs as := by
    refine List.filter_sublist.eq_of_length_le ?_
    rw [← h, hf.length_eq]
  rw [he] at h
  rw [← h] at hf
  clear h he hl
  intro a ha
  obtain ⟨i, hi, rfl⟩ := List.getElem_of_mem ha
  exact hf.get hi hi

/-- Trimming does not matter to a printed attribute. -/
theorem attrFromStr_trim_show (a : Attribute) : attrFromStr (trim (showAttribute a)) = attrFromStr (showAttribute a) := by
  have colon (t : AttributeType) (v : Str) : attrFromStr (trim (t.name ++ ':' :: v)) = attrFromStr (t.name ++ ':' :: v) := by
    obtain ⟨h1, h2, h3, -⟩ := t.name_facts
    have e1 : trim (t.name ++ ':' :: v) = t.name ++ ':' :: trimEnd v := by
      unfold trim
      rw [trimStart_begins h3.append, trimEnd_append, trimEnd_cons (by decide)]
      intro hb
      exact absurd (hb ':' (by simp)) (by decide)
    have e2 : trim (trimEnd v) = trim v := by
      obtain ⟨w, hw, e⟩ := trimEnd_spec v
      conv_rhs => rw [e]
      rw [trim_append_ws hw]
    rw [e1, attrFromStr_colon h1, attrFromStr_colon h1, e2]
  have val (t : AttributeType) (v : Str) : attrFromStr (trim (attrToString t v)) = attrFromStr (attrToString t v) := by
    unfold attrToString
    split
    · rfl
    · have := colon t v
      simpa using this
  have flag (t : AttributeType) : attrFromStr (trim t.name) = attrFromStr t.name := by
    obtain ⟨-, -, -, h⟩ := t.name_facts
    rw [h.trimmed.trim]
  cases a
  case ssrcGroup sem l =>
   simp only [showAttribute]
   have := colon .ssrcGroup (showSsrcGroupSemantic sem ++ c%" " ++ joinS c%" " (l.map showSsrc))
   have e : attrToString .ssrcGroup (showSsrcGroupSemantic sem) ++ c%" " ++ joinS c%" " (l.map showSsrc) =
      AttributeType.ssrcGroup.name ++ ':' :: (showSsrcGroupSemantic sem ++ c%" " ++ joinS c%" " (l.map showSsrc)) := by
    unfold attrToString
    rw [if_neg (by cases sem <;> decide)]
    simp
   rw [e]; exact this
  all_goals
    rw [showAttribute]
    first
    | with_reducible exact val _ _
    | with_reducible exact flag _

/-! ## The session -/

/-- The session, with the attributes that would be read. -/
def Media.reread (m : Media) : Media := { m with attrs := readAttrs m.attrs }

def Session.reread (s : Session) : Session :=
  { s with attrs := readAttrs s.attrs, media := s.media.map Media.reread }

theorem bodyLines_types {bs : List Bandwidth} {c : Option Connection} {as : List Attribute}
    (hb : ∀ b ∈ bs, b.WF) (hc : ∀ x, c = some x → x.WF) :
    (bodyLines bs c as).filterMap readType = bodyTypes bs c (readAttrs as) := by
  unfold bodyLines bodyTypes
  rw [List.filterMap_append, List.filterMap_append, readAttrs_types, textLines_eq, List.map_map]
  · congr 1
    · exact filterMap_reads fun b h => (LinePrints.bandwidth (hb b h)).readType (by decide)
    · congr 1
      exact filterMap_reads fun x h => (LinePrints.connection (hc x (by simpa using h))).readType (by decide)
  · intro t ht
    obtain ⟨a, h, rfl⟩ := List.mem_map.1 ht
    exact (LinePrints.bandwidth (hb a h)).1.1.ne

/-- What holds of every parsed session, whatever its attributes lose. -/
structure Session.Frame (s : Session) : Prop where
  version : s.version = 0
  origin : s.origin.WF
  name : ∀ t, s.session = some t → Trimmed t
  bandwidth : ∀ b ∈ s.bandwidth, b.WF
  connection : ∀ c, s.connection = some c → c.WF
  media : ∀ m ∈ s.media, m.media.WF ∧ (∀ b ∈ m.bandwidth, b.WF) ∧ ∀ c, m.connection = some c → c.WF
  lineFeeds : ∀ t ∈ s.strings, '\n' ∉ t

theorem parsed_frame (L : Laws) {t : Str} {f : Bool} {s : Session} (h : parseSdp t f = .ok s) : s.Frame := by
  have P := parseSdp_parts h
  constructor
  · exact (C03_version_and_timing h).1
  · obtain ⟨v, -, ho⟩ := P.origin
    exact origin_wf L ho
  · intro n hn
    obtain ⟨⟨-, h1⟩, h2⟩ := P.session n hn
    exact trimmed_of_trim h1 h2
  · intro b hb
    obtain ⟨v, hv, hb⟩ := P.bandwidth b hb
    exact bandwidth_wf hv.2 hb
  · intro c hc
    obtain ⟨v, -, hc⟩ := P.connection c hc
    exact connection_wf L hc
  · intro m hm
    refine ⟨?_, ?_, ?_⟩
    · obtain ⟨v, -, hv⟩ := P.mline m hm
      exact mediaLine_wf hv
    · intro b hb
      obtain ⟨v, hv, hb⟩ := P.mbandwidth m hm b hb
      exact bandwidth_wf hv.2 hb
    · intro c hc
      obtain ⟨v, -, hc⟩ := P.mconnection m hm c hc
      exact connection_wf L hc
  · exact clean_session (fun h d hd hx => absurd ((L.host h d hd).1.2 _ hx) (by decide)) (by decide) contentLines_lf P

/-- The lines of a printed session are read as this. -/
theorem Session.Frame.types {s : Session} (h : s.Frame) : s.lines.filterMap readType =
    .version s.version :: .origin s.origin :: .session (s.session.getD c%" ") :: s.reread.restTypes := by
  unfold Session.lines
  have e1 : readType (c%"v=" ++ showU64 s.version) = some (.version s.version) :=
    (LinePrints.version h.version).readType (by decide)
  have e2 : readType (c%"o=" ++ showOrigin s.origin) = some (.origin s.origin) :=
    (LinePrints.origin h.origin).readType (by decide)
  have e3 : readType (c%"s=" ++ s.session.getD c%" ") = some (.session (s.session.getD c%" ")) := by
    rw [readType_some]; unfold lineMeaning; rw [(sessionName_reads _).2]
  rw [List.filterMap_append, List.filterMap_append, List.filterMap_append,
    filterMap_reads (f := fun t => c%"t=" ++ showTiming t) (g := .timing) fun t _ => (LinePrints.timing t).readType (by decide),
    bodyLines_types h.bandwidth h.connection]
  have e : [c%"v=" ++ showU64 s.version, c%"o=" ++ showOrigin s.origin, c%"s=" ++ s.session.getD c%" "].filterMap readType =
      [.version s.version, .origin s.origin, .session (s.session.getD c%" ")] := by
    rw [List.filterMap_cons, e1, List.filterMap_cons, e2, List.filterMap_cons, e3]; rfl
  rw [e]
  refine congrArg (fun l => SdpType.version s.version :: .origin s.origin :: .session (s.session.getD c%" ") :: l) ?_
  unfold Session.restTypes Session.reread
  refine congrArg (fun l => s.timing.toList.map SdpType.timing ++ (bodyTypes s.bandwidth s.connection (readAttrs s.attrs) ++ l)) ?_
  have hm := h.media
  generalize s.media = ms at hm
  induction ms with
  | nil => rfl
  | cons m ms ih =>
    rw [List.flatMap_cons, List.filterMap_append, ih fun m hm' => hm m (by simp [hm'])]
    simp only [List.map_cons, List.flatMap_cons]
    congr 1
    obtain ⟨g1, g2, g3⟩ := hm m (by simp)
    unfold Media.lines Media.types Media.reread
    have e4 : readType (c%"m=" ++ showMediaLine m.media) = some (.media m.media) :=
      (LinePrints.media g1).readType (by decide)
    rw [List.filterMap_cons, e4, bodyLines_types g2 g3]

/-- A session whose printed form is read as that session, up to the warnings, prints only attributes that
are read back. -/
theorem session_back (L : Laws) {s : Session} {f : Bool} {w : List ParserError}
    (h : parseSdp (showSession s) f = .ok { s with warnings := w }) :
    (∀ a ∈ s.attrs, attrFromStr (showAttribute a) = .ok a) ∧
    ∀ m ∈ s.media, ∀ a ∈ m.attrs, attrFromStr (showAttribute a) = .ok a := by
  have F := parsed_frame L h
  have hF : s.Frame := ⟨F.1, F.2, F.3, F.4, F.5, F.6, F.7⟩
  have hlines : Sdp.lines (showSession s) = s.lines := by
    rw [showSession_lines]
    exact lines_crlf_any (Free.sessionLines (.inl rfl) hF.lineFeeds)
  obtain ⟨-, -, -, -, l0, l1, l2, rest, v, o, nm, e1, -, -, -, -, -, -, hasm, -⟩ := parseSdp_spec.1 h
  have et : rest.map (fun l => l.sdpType) = s.reread.restTypes := by
    have := accepted_types 0 s.lines
    rw [show contentFrom 0 s.lines = contentLines (showSession s) by unfold contentLines; rw [hlines], e1, hF.types] at this
    simp only [List.map_cons, List.cons.injEq] at this
    exact this.2.2.2
  have hnm : ∀ t ∈ s.timing.toList.map SdpType.timing ++ bodyTypes s.bandwidth s.connection (readAttrs s.attrs),
      isMediaType t = false := by
    intro t ht
    rcases List.mem_append.1 ht with ht | ht
    · obtain ⟨_, _, rfl⟩ := List.mem_map.1 ht; rfl
    · exact body_noMedia _ _ _ t ht
  have et' : rest.map (fun l => l.sdpType) = (s.timing.toList.map SdpType.timing ++
      bodyTypes s.bandwidth s.connection (readAttrs s.attrs)) ++ (s.media.map Media.reread).flatMap Media.types := by
    rw [et, Session.restTypes, List.append_assoc]; rfl
  have epart : (rest.takeWhile notMedia).map (fun l => l.sdpType) =
      s.timing.toList.map SdpType.timing ++ bodyTypes s.bandwidth s.connection (readAttrs s.attrs) := by
    rw [takeWhile_types, et', takeWhile_part hnm]
  have ha : s.attrs = readAttrs s.attrs := by
    have := congrArg Session.attrs hasm
    simp only [assemble] at this
    rw [attrsOf_types, epart, List.filterMap_append, body_attrs] at this
    have ht : (s.timing.toList.map SdpType.timing).filterMap attrT = [] := by
      cases s.timing <;> rfl
    rw [ht] at this
    exact this
  have hm : s.media = (sectionsOf rest).map sectionMedia := by
    have := congrArg Session.media hasm
    simpa only [assemble] using this
  have esec := sectionsOf_part hnm et'
  have each : ∀ m ∈ s.media, m.attrs = (readAttrs m.attrs).filter (fun a => !isDtls a) := by
    have : ∀ (ps : List (MediaLine × List SdpLine)) (ms : List Media),
        List.Forall₂ (fun p m => p.1 = m.media ∧ p.2.map (fun l => l.sdpType) = bodyTypes m.bandwidth m.connection m.attrs)
          ps (ms.map Media.reread) → ms = ps.map sectionMedia →
        ∀ m ∈ ms, m.attrs = (readAttrs m.attrs).filter (fun a => !isDtls a) := by
      intro ps ms
      induction ms generalizing ps with
      | nil => intro _ _ m hm; cases hm
      | cons m ms ih =>
        intro hf he x hx
        cases ps with
        | nil => cases he
        | cons p ps =>
          rw [List.map_cons] at hf he
          cases hf with
          | cons h1 h2 =>
            obtain ⟨he1, he2⟩ := List.cons.inj he
            rcases List.mem_cons.1 hx with rfl | hx
            · have := congrArg Media.attrs he1
              simp only [sectionMedia] at this
              rw [attrsOf_types, h1.2, body_attrs] at this
              exact this
            · exact ih ps h2 he2 x hx
    exact this _ _ esec hm
  constructor
  · intro a hx
    rw [← attrFromStr_trim_show]
    exact readAttrs_same (p := fun _ => true) (by simpa using ha) a hx
  · intro m hmm a hx
    rw [← attrFromStr_trim_show]
    exact readAttrs_same (each m hmm) a hx

/-- Exactly the well-formed sessions whose text is long enough are read back. -/
theorem session_back_iff (L : Laws) {s : Session} {f : Bool} {w : List ParserError} :
    parseSdp (showSession s) f = .ok { s with warnings := w } ↔ s.WF ∧ 51 ≤ byteLen (showSession s) ∧ w = [] := by
  constructor
  · intro h
    obtain ⟨h1, h2⟩ := session_back L h
    have hp : Session.Plain { s with warnings := w } :=
      ⟨fun a ha => plain_of_back L (h1 a ha), fun m hm a ha => plain_of_back L (h2 m hm a ha)⟩
    have hw := parsed_wf L h hp
    have hw' : s.WF := ⟨hw.1, hw.2, hw.3, hw.4, hw.5, hw.6, hw.7, hw.8, hw.9, ⟨hw.10.1, hw.10.2, hw.10.3, hw.10.4⟩⟩
    have hl := (parseSdp_spec.1 h).1
    refine ⟨hw', hl, ?_⟩
    rw [session_round hw' hl f] at h
    exact (congrArg Session.warnings (Outcome.ok.inj h)).symm
  · rintro ⟨h1, h2, rfl⟩
    exact session_round h1 h2 f

end

end Sdp
