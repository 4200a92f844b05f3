import Verif.Lemmas.Fault5
import Verif.Spec.Sample
/-!
# C95: exactly which error a rejected line or text gives

C79 says which texts are rejected and at which line, but leaves the cause open. Here the cause is fixed as
well: for each kind of line and attribute `Verif/Spec/Fault.lean` lists the possible faults in the order in
which they are noticed, with the error each of them gives, and the error reported is that of the first fault
the line has.
-/

namespace Sdp

section
variable [Env]

/-- **C95.** The error for the value of an attribute. -/
theorem judges_value (t : AttributeType) (v : Str) (h : v.length + 1 < 2^31) :
    Judges (parseAttrValue t v) [ValueFault t v] := by
  have many {x : IRes Attribute} {cs : List Fault} {c : Fault} (hx : Judges x cs) (hc : ∀ e, c e ↔ FirstFault cs e) :
      Judges x [c] := hx.whole hc
  cases t <;> simp only [parseAttrValue]
  case bundleOnly => exact .skip (fun e h => h) (.ok _)
  case endOfCandidates => exact .skip (fun e h => h) (.ok _)
  case extmapAllowMixed => exact .skip (fun e h => h) (.ok _)
  case iceLite => exact .skip (fun e h => h) (.ok _)
  case iceMismatch => exact .skip (fun e h => h) (.ok _)
  case inactive => exact .skip (fun e h => h) (.ok _)
  case recvonly => exact .skip (fun e h => h) (.ok _)
  case rtcpMux => exact .skip (fun e h => h) (.ok _)
  case rtcpMuxOnly => exact .skip (fun e h => h) (.ok _)
  case rtcpRsize => exact .skip (fun e h => h) (.ok _)
  case sendonly => exact .skip (fun e h => h) (.ok _)
  case sendrecv => exact .skip (fun e h => h) (.ok _)
  case icePwd => exact .andThen (judges_stringOrEmpty v)
  case iceUfrag => exact .andThen (judges_stringOrEmpty v)
  case identity => exact .andThen (judges_stringOrEmpty v)
  case label => exact .andThen (judges_stringOrEmpty v)
  case mid => exact .andThen (judges_stringOrEmpty v)
  case iceOptions => exact judges_iceOptions v
  case maxMessageSize => exact .andThen (judges_u64 v)
  case maxPtime => exact .andThen (judges_u64 v)
  case ptime => exact .andThen (judges_u64 v)
  case icePacing => exact (judges_icePacing v).whole fun e => Iff.rfl
  case setup => exact judges_setup v
  case msid => exact (judges_msid v).congr fun e => by simp [ValueFault, wrongIf, words_iff]
  case msidSemantic => exact (judges_msidSemantic v).congr fun e => by simp [ValueFault, wrongIf, words_iff]
  case ssrc => exact .andThen (judges_ssrc v)
  case ssrcGroup => exact (judges_ssrcGroup v).whole fun e => by simp [ValueFault, words_iff]
  case candidate => exact (judges_candidate v).whole fun e => by simp [ValueFault, words_iff]
  case dtlsMessage => exact (judges_dtlsMessage v).whole fun e => by simp [ValueFault, fields_iff]
  case extmap => exact (judges_extmap v).whole fun e => by simp [ValueFault, words_iff]
  case fingerprint => exact (judges_fingerprint v).whole fun e => by simp [ValueFault, words_iff, fields_iff]
  case fmtp =>
    refine (judges_fmtp v).whole fun e => ?_
    have : (fun t : Str => decide (t ≠ [])) = fun t => !t.isEmpty := by funext t; cases t <;> rfl
    simp only [ValueFault, ParamsText, fields_iff, this]
    exact ⟨fun ⟨ps, fs, ⟨l, h1, h2⟩, h3, h⟩ => by subst h1 h2 h3; exact h, fun h => ⟨_, _, ⟨_, rfl, rfl⟩, rfl, h⟩⟩
  case frameRate => exact (judges_frameRate v).whole fun e => Iff.rfl
  case group => exact (judges_group v).whole fun e => by simp [ValueFault, words_iff]
  case imageAttr =>
    obtain ⟨ts, h1, h2⟩ := tokens_exist (sep := ' ') h
    exact (judges_imageAttr v h ts h1).whole fun e => by simp [ValueFault, h2]
  case remoteCandidate => exact (judges_remoteCandidate v).whole fun e => by simp [ValueFault, words_iff]
  case rid => exact (judges_rid v).whole fun e => by simp [ValueFault, fields_iff]
  case rtpmap => exact (judges_rtpmap v).whole fun e => by simp [ValueFault, words_iff, fields_iff]
  case rtcp => exact (judges_rtcp v).whole fun e => by simp [ValueFault, words_iff]
  case rtcpfb => exact (judges_rtcpFb v).whole fun e => by simp [ValueFault, fields_iff]
  case sctpmap => exact (judges_sctpmap v).whole fun e => by simp [ValueFault, words_iff]
  case sctpPort => exact (judges_sctpPort v).whole fun e => Iff.rfl
  case simulcast => exact (judges_simulcast v).whole fun e => by simp [ValueFault, words_iff]

omit [Env] in
theorem mem_valueless {n : Str} : n ∈ valuelessNames ↔ isFlagName n = true := by
  simp [valuelessNames, isFlagName, or_assoc]

theorem judges_attribute (l : Str) (h : l.length < 2^31) : Judges (attrFromStr l) [AttributeFault l] := by
  have hb : (trim (behind ':' l)).length + 1 < 2^31 := by
    have h1 := trim_length (behind ':' l)
    by_cases hm : ':' ∈ l
    · obtain ⟨a, b, -, rfl, ha⟩ := splitn_two_of_mem hm
      rw [behind_eq ha] at h1 ⊢
      simp only [List.length_append, List.length_cons] at h
      omega
    · rw [behind_of_not_mem hm]; decide
  have tail (n v : Str) (hv : v.length + 1 < 2^31) : Judges (match attrTypeOfName n with
      | some t => parseAttrValue t v
      | none => eunsupported (c%"Unknown attribute type " ++ n) : IRes Attribute)
      [unsupportedIf (n ∉ attributeNames) (c%"Unknown attribute type " ++ n),
       fun e => ∃ t : AttributeType, t.name = n ∧ ValueFault t v e] := by
    cases ht : attrTypeOfName n with
    | none =>
      refine .stop fun e => ?_
      have : n ∉ attributeNames := not_attributeNames.2 (attrTypeOfName_none.1 ht)
      simp only [unsupportedIf, this, not_false_eq_true, true_and]
    | some t =>
      rw [attrTypeOfName_iff] at ht
      refine .skip (fun e he => he.1 (mem_attributeNames.2 ⟨t, ht.symm⟩)) ((judges_value t v hv).congr fun e => ?_)
      constructor
      · exact fun he => ⟨t, ht.symm, he⟩
      · rintro ⟨t', ht', he⟩
        have : attrTypeOfName t'.name = some t := by rw [ht', ht, attrTypeOfName_name]
        rw [attrTypeOfName_name] at this
        cases this; exact he
  refine Judges.whole (cs := [_, _, _]) ?_ fun e => by
    simp only [AttributeFault, stripped_iff, exists_eq_left]
    exact Iff.rfl
  by_cases hm : ':' ∈ l
  · obtain ⟨n, v, -, rfl, hn⟩ := splitn_two_of_mem hm
    rw [attrFromStr_colon hn]
    rw [upTo_eq hn, behind_eq hn] at *
    refine .check ?_ fun _ => tail _ _ hb
    rw [mem_valueless]; simp
  · unfold attrFromStr
    rw [splitn_two_of_not_mem hm, upTo_of_not_mem hm, behind_of_not_mem hm] at *
    refine .skip (fun e he => hm he.1.1) ?_
    simp only [idx, List.getElem?_cons_zero, ok_bind, List.length_singleton, gt_iff_lt, Nat.lt_irrefl, false_and, if_false]
    exact tail (lower l) [] (by decide)

/-- **C95.** The error for an attribute is that of the first fault it has. -/
theorem C95_attribute {l : Str} (h : l.length < 2^31) {e : InternalError} :
    attrFromStr l = .err e ↔ AttributeFault l e := (judges_attribute l h).of_single.2 e

theorem judges_content (ty v raw : Str) (h : v.length < 2^31) (ht : trim v = v) :
    Judges (parseLineValue ty v raw) [ContentFault ty v] := by
  have msg (m : Str) : Judges (egeneric m : IRes SdpType) [fun e => e = .generic m] := .stop fun e => Iff.rfl
  have step {c : Char} {x y : IRes SdpType} (hx : ty = [c] → Judges x [ContentFault ty v])
      (hy : ty ≠ [c] → Judges y [ContentFault ty v]) : Judges (if ty = [c] then x else y) [ContentFault ty v] := by
    split
    · rename_i h; exact hx h
    · rename_i h; exact hy h
  unfold parseLineValue
  refine step (fun h1 => ?_) fun na => ?_
  · subst h1
    unfold parseAttribute
    rw [ht]
    exact .andThen (judges_attribute v h)
  refine step (fun h1 => ?_) fun nb => ?_
  · subst h1; exact (judges_bandwidth v).whole fun e => by simp [ContentFault, fields_iff]
  refine step (fun h1 => ?_) fun nc => ?_
  · subst h1; exact (judges_connection v).whole fun e => by simp [ContentFault, fields_iff, words_iff]
  refine step (fun h1 => ?_) fun ne => ?_
  · subst h1; exact msg _
  refine step (fun h1 => ?_) fun ni => ?_
  · subst h1; exact msg _
  refine step (fun h1 => ?_) fun nk => ?_
  · subst h1; exact msg _
  refine step (fun h1 => ?_) fun nm => ?_
  · subst h1; exact (judges_media v).whole fun e => by simp [ContentFault, fields_iff, words_iff]
  refine step (fun h1 => ?_) fun no => ?_
  · subst h1; exact (judges_origin v).whole fun e => by simp [ContentFault, words_iff]
  refine step (fun h1 => ?_) fun np => ?_
  · subst h1; exact msg _
  refine step (fun h1 => ?_) fun nr => ?_
  · subst h1; exact msg _
  refine step (fun h1 => ?_) fun ns => ?_
  · subst h1; exact .skip (fun e h => h) (.ok _)
  refine step (fun h1 => ?_) fun nt => ?_
  · subst h1; exact (judges_timing v).whole fun e => by simp [ContentFault, words_iff]
  refine step (fun h1 => ?_) fun nu => ?_
  · subst h1; exact msg _
  refine step (fun h1 => ?_) fun nv => ?_
  · subst h1; exact (judges_version v).whole fun e => Iff.rfl
  refine step (fun h1 => ?_) fun nz => ?_
  · subst h1; exact msg _
  refine (msg _).congr fun e => ?_
  unfold ContentFault
  split <;> first | rfl | contradiction

theorem classifyErr_eq (l : Str) (n : Nat) (e : InternalError) (err : ParserError) :
    classifyErr l n e = err ↔
      ((∃ m, e = .unsupported m) ∧ err = .unsupported e l n ∨ (∀ m, e ≠ .unsupported m) ∧ err = .line e l n) := by
  cases e <;> simp [classifyErr, eq_comm]

/-- The line parser before it says where the error is. -/
def lineValue (l : Str) : IRes SdpType :=
  if '=' ∉ l then egeneric c%"missing = character in line"
  else if byteLen (trim (upTo '=' l)) > 1 then egeneric c%"type too long"
  else if (trim (upTo '=' l)).isEmpty then egeneric c%"type is empty"
  else if (trim (behind '=' l)).isEmpty ∧ lower (trim (upTo '=' l)) ≠ c%"s" then egeneric c%"value is empty"
  else parseLineValue (lower (trim (upTo '=' l))) (trim (behind '=' l)) (behind '=' l)

theorem parseSdpLine_value (l : Str) (n : Nat) : parseSdpLine l n =
    match lineValue l with
    | .ok x => .ok ⟨n, x, l⟩
    | .err e => .err (classifyErr l n e)
    | .panic => .panic := by
  unfold parseSdpLine lineValue
  dsimp only
  by_cases h : '=' ∉ l
  · rw [if_pos h, if_pos h]; rfl
  rw [if_neg h, if_neg h, split_upTo (not_not.1 h)]
  dsimp only
  by_cases h1 : byteLen (trim (upTo '=' l)) > 1
  · rw [if_pos h1, if_pos h1]; rfl
  rw [if_neg h1, if_neg h1]
  by_cases h2 : (trim (upTo '=' l)).isEmpty
  · rw [if_pos h2, if_pos h2]; rfl
  rw [if_neg h2, if_neg h2]
  by_cases h3 : (trim (behind '=' l)).isEmpty ∧ lower (trim (upTo '=' l)) ≠ c%"s"
  · rw [if_pos h3, if_pos h3]; rfl
  rw [if_neg h3, if_neg h3]
  cases parseLineValue (lower (trim (upTo '=' l))) (trim (behind '=' l)) (behind '=' l) <;> rfl

omit [Env] in
theorem behind_length (c : Char) (l : Str) : (behind c l).length ≤ l.length := by
  unfold behind
  rw [List.length_drop]
  have := (List.dropWhile_suffix (fun x => decide (x ≠ c)) (l := l)).length_le
  omega

theorem judges_line (l : Str) (h : l.length < 2^31) : Judges (lineValue l) [LineFault l] := by
  refine Judges.whole (cs := [_, _, _, _, _]) ?_ fun e => by
    simp only [LineFault, stripped_iff]
    exact ⟨fun ⟨t, v, h1, h2, h⟩ => by subst h1 h2; exact h, fun h => ⟨_, _, rfl, rfl, h⟩⟩
  unfold lineValue
  refine .check Iff.rfl fun _ => .check Iff.rfl fun _ => .check (by simp) fun _ => .check (by simp) fun _ => ?_
  exact judges_content _ _ _ (Nat.lt_of_le_of_lt (Nat.le_trans (trim_length _) (behind_length _ _)) h) (trim_trim _)

/-- **C95.** The error for a line is that of the first fault it has, with the line and its number; it is
an error of the kind "unsupported" exactly if the fault is one that says so. -/
theorem C95_line {l : Str} {n : Nat} (h : l.length < 2^31) {err : ParserError} :
    parseSdpLine l n = .err err ↔ LineError l n err := by
  have hj := (judges_line l h).of_single
  rw [parseSdpLine_value]
  unfold LineError
  cases hx : lineValue l with
  | panic => exact absurd hx hj.1
  | ok x =>
    simp only [reduceCtorEq, false_iff]
    rintro ⟨e, he, -⟩
    have := (hj.2 e).2 he
    rw [hx] at this; cases this
  | err e =>
    simp only [Outcome.err.injEq, classifyErr_eq]
    constructor
    · exact fun h => ⟨e, (hj.2 e).1 hx, h⟩
    · rintro ⟨e', he', h⟩
      have := (hj.2 e').2 he'
      rw [hx] at this; cases this; exact h

/-! ## Texts -/

theorem mem_unsupportedErrors_line {a : List (Str × Nat)} (ha : ∀ p ∈ a, p.1.length < 2^31) {e : ParserError}
    (h : e ∈ unsupportedErrors a) : LineError e.place.1 e.place.2 e := by
  induction a with
  | nil => simp [unsupportedErrors] at h
  | cons p a ih =>
    have ih := ih fun q hq => ha q (by simp [hq])
    have hp := ha p (by simp)
    rw [unsupportedErrors_cons] at h
    rcases line_classes hp p.2 with ⟨t, h1, -⟩ | ⟨m, h1, -⟩ | ⟨i, h1, -⟩ <;> simp [h1] at h
    · exact ih h
    · rcases h with rfl | h
      · exact (C95_line hp).1 h1
      · exact ih h
    · exact ih h

theorem mem_hardErrors_line {a : List (Str × Nat)} (ha : ∀ p ∈ a, p.1.length < 2^31) {e : ParserError}
    (h : e ∈ hardErrors a) : LineError e.place.1 e.place.2 e := by
  induction a with
  | nil => simp [hardErrors] at h
  | cons p a ih =>
    have ih := ih fun q hq => ha q (by simp [hq])
    have hp := ha p (by simp)
    rw [hardErrors_cons] at h
    rcases line_classes hp p.2 with ⟨t, h1, -⟩ | ⟨m, h1, -⟩ | ⟨i, h1, hi, -⟩ <;> simp [h1] at h
    · exact ih h
    · exact ih h
    · rcases h with rfl | h
      · exact (C95_line hp).1 h1
      · exact ih h

theorem yields_parse {s : Str} (h : byteLen s < 2^31) (f : Bool) : Yields s f (parseSdp s f) := by
  by_cases he : s = []
  · have : parseSdp s f = .err (.line (.generic c%"empty SDP") s 0) := by
      unfold parseSdp; rw [if_pos (by simp [he])]
    rw [this]; exact .empty he
  by_cases hs : byteLen s < 51
  · have : parseSdp s f = .err (.line (.generic c%"string too short to be valid SDP") s 0) := by
      unfold parseSdp; rw [if_neg (by simp [he]), if_pos hs]
    rw [this]; exact .short he hs
  have hs : 51 ≤ byteLen s := by omega
  have ht : TextLines s (lines s) := textLines_iff.2 rfl
  have hr := (reading_parse (n := 0) (lines_short h)).2 ⟨rfl, rfl, rfl⟩
  have hnp := np_parseSdp h f
  rw [parseSdp_eq hs] at hnp ⊢
  by_cases hp : ∃ p ∈ contentLines s, parseSdpLine p.1 p.2 = .panic
  · rw [if_pos hp] at hnp; exact absurd rfl hnp
  rw [if_neg hp] at hnp ⊢
  have hlen : ∀ p ∈ contentLines s, p.1.length < 2^31 := fun p hp =>
    lines_short h _ (List.mem_of_getElem? (mem_contentLines.1 hp).1)
  change Reading 0 (lines s) (acceptedLines (contentLines s)) ((unsupportedErrors (contentLines s)).map ParserError.place)
    ((hardErrors (contentLines s)).map ParserError.place) at hr
  have hu := fun e => mem_unsupportedErrors_line (a := contentLines s) (e := e) hlen
  have hw := fun e => mem_hardErrors_line (a := contentLines s) (e := e) hlen
  generalize acceptedLines (contentLines s) = vs at *
  generalize unsupportedErrors (contentLines s) = us at *
  generalize hardErrors (contentLines s) = ws at *
  have tail (hf : f = true → us = []) : Yields s f (match ws.getLast? with
      | some e => .err e
      | none => do
        let s ← parseSdpVector vs
        return { s with warnings := us }) := by
    have hf' : f = true → us.map ParserError.place = [] := fun hf1 => by rw [hf hf1]; rfl
    rcases List.eq_nil_or_concat ws with rfl | ⟨ws', w, rfl⟩
    · simp only [List.getLast?_nil]
      cases hv : parseSdpVector vs with
      | panic => exact absurd hv (np_parseSdpVector _)
      | err e =>
        obtain ⟨m, n, h1, rfl⟩ := vector_fault.1 hv
        exact .sequence hs ht hr hf' h1
      | ok r => exact .session hs ht hr hf' (vector_describes.1 hv) (each_map_left hu)
    · simp only [List.concat_eq_append, List.getLast?_append, List.getLast?_singleton, Option.some_or]
      rw [List.concat_eq_append, List.map_append] at hr
      exact .wrong hs ht hr hf' (hw w (by simp))
  unfold finishScan
  cases f with
  | false => exact tail (by simp)
  | true =>
    cases us with
    | nil => exact tail (by simp)
    | cons w us => exact .unsupported hs ht hr rfl (hu w (by simp))

theorem reading_mem {n : Nat} {ls : List Str} {vs : List SdpLine} {us ws : List (Str × Nat)} (h : Reading n ls vs us ws) :
    ∀ p, p ∈ us ∨ p ∈ ws → p.1 ∈ ls := by
  induction h with
  | nil => simp
  | blank _ _ ih => exact fun p hp => by simp [ih p hp]
  | value _ _ ih => exact fun p hp => by simp [ih p hp]
  | unsupported _ _ ih =>
    rintro p (hp | hp)
    · rcases List.mem_cons.1 hp with rfl | hp
      · simp
      · simp [ih p (.inl hp)]
    · simp [ih p (.inr hp)]
  | wrong _ _ _ _ ih =>
    rintro p (hp | hp)
    · simp [ih p (.inl hp)]
    · rcases List.mem_cons.1 hp with rfl | hp
      · simp
      · simp [ih p (.inr hp)]

theorem lineError_unique {l : Str} {n : Nat} (h : l.length < 2^31) {e e' : ParserError} (he : LineError l n e)
    (he' : LineError l n e') : e = e' := by
  have := ((C95_line h).2 he).symm.trans ((C95_line h).2 he')
  simpa using this

theorem each_lineError_unique {us : List (Str × Nat)} {a b : List ParserError} (hl : ∀ p ∈ us, p.1.length < 2^31)
    (h : Each (fun u e => LineError u.1 u.2 e) us a) (h' : Each (fun u e => LineError u.1 u.2 e) us b) : a = b := by
  induction us generalizing a b with
  | nil =>
    cases a with
    | nil => cases b with
      | nil => rfl
      | cons => exact h'.elim
    | cons => exact h.elim
  | cons u us ih =>
    cases a with
    | nil => exact h.elim
    | cons x a => cases b with
      | nil => exact h'.elim
      | cons y b =>
        rw [lineError_unique (hl u (by simp)) h.1 h'.1, ih (fun p hp => hl p (by simp [hp])) h.2 h'.2]

theorem yields_unique {s : Str} (h : byteLen s < 2^31) {f : Bool} {x y : Outcome ParserError Session}
    (hx : Yields s f x) (hy : Yields s f y) : x = y := by
  have e0 (h : s = []) : byteLen s = 0 := by rw [h]; rfl
  have short {ls : List Str} {n : Nat} {vs : List SdpLine} {us ws : List (Str × Nat)} (t : TextLines s ls)
      (r : Reading n ls vs us ws) (p : Str × Nat) (hp : p ∈ us ∨ p ∈ ws) : p.1.length < 2^31 :=
    lines_short h _ (textLines_iff.1 t ▸ reading_mem r p hp)
  cases hx with
  | empty h1 =>
    cases hy with
    | empty => rfl
    | short h2 => exact absurd h1 h2
    | unsupported h2 | wrong h2 | sequence h2 | session h2 => have := e0 h1; omega
  | short h0 h1 =>
    cases hy with
    | empty h2 => exact absurd h2 h0
    | short => rfl
    | unsupported h2 | wrong h2 | sequence h2 | session h2 => omega
  | unsupported h1 t r hf hu =>
    cases hy with
    | empty h2 => have := e0 h2; omega
    | short _ h2 => omega
    | unsupported _ t' r' _ hu' =>
      obtain ⟨-, h2, -⟩ := reading_unique h t t' r r'
      cases h2
      rw [lineError_unique (short t r _ (by simp)) hu hu']
    | wrong _ t' r' hf' | sequence _ t' r' hf' | session _ t' r' hf' =>
      obtain ⟨-, h2, -⟩ := reading_unique h t t' r r'
      rw [hf' hf] at h2; simp at h2
  | wrong h1 t r hf hw =>
    cases hy with
    | empty h2 => have := e0 h2; omega
    | short _ h2 => omega
    | unsupported _ t' r' hf' =>
      obtain ⟨-, h2, -⟩ := reading_unique h t t' r r'
      rw [hf hf'] at h2; simp at h2
    | wrong _ t' r' hf' hw' =>
      obtain ⟨-, -, h2⟩ := reading_unique h t t' r r'
      obtain ⟨-, h3⟩ := List.append_inj' h2 rfl
      cases h3
      rw [lineError_unique (short t r _ (by simp)) hw hw']
    | sequence _ t' r' hf' | session _ t' r' hf' =>
      obtain ⟨-, -, h2⟩ := reading_unique h t t' r r'
      simp at h2
  | sequence h1 t r hf hq =>
    cases hy with
    | empty h2 => have := e0 h2; omega
    | short _ h2 => omega
    | unsupported _ t' r' hf' =>
      obtain ⟨-, h2, -⟩ := reading_unique h t t' r r'
      rw [hf hf'] at h2; simp at h2
    | wrong _ t' r' hf' hw' =>
      obtain ⟨-, -, h2⟩ := reading_unique h t t' r r'
      simp at h2
    | sequence _ t' r' hf' hq' =>
      obtain ⟨rfl, -, -⟩ := reading_unique h t t' r r'
      obtain ⟨rfl, rfl⟩ := sequenceFault_unique hq hq'
      rfl
    | session _ t' r' hf' hd' =>
      obtain ⟨rfl, -, -⟩ := reading_unique h t t' r r'
      exact (not_fault_of_describes hq hd').elim
  | session h1 t r hf hd he =>
    cases hy with
    | empty h2 => have := e0 h2; omega
    | short _ h2 => omega
    | unsupported _ t' r' hf' =>
      obtain ⟨-, h2, -⟩ := reading_unique h t t' r r'
      rw [hf hf'] at h2; simp at h2
    | wrong _ t' r' hf' hw' =>
      obtain ⟨-, -, h2⟩ := reading_unique h t t' r r'
      simp at h2
    | sequence _ t' r' hf' hq' =>
      obtain ⟨rfl, -, -⟩ := reading_unique h t t' r r'
      exact (not_fault_of_describes hq' hd).elim
    | session _ t' r' hf' hd' he' =>
      obtain ⟨rfl, rfl, -⟩ := reading_unique h t t' r r'
      cases describes_unique hd hd'
      rw [each_lineError_unique (fun p hp => short t r p (.inl hp)) he he']

/-- **C95.** `parse_sdp` gives exactly what the text yields: the session with its warnings, or the error,
down to the cause and the message. -/
theorem C95_document {s : Str} (h : byteLen s < 2^31) {f : Bool} {x : Outcome ParserError Session} :
    parseSdp s f = x ↔ Yields s f x :=
  ⟨fun e => e ▸ yields_parse h f, fun hx => yields_unique h (yields_parse h f) hx⟩

end

section Examples
attribute [local instance] sampleEnv

/-- A candidate with several faults gives the error of the first: the transport, not the port or the type. -/
example : AttributeFault c%"candidate:1 1 SCTP 2130706431 10.0.0.1 70000 typ alien"
    (.generic c%"Unknonw candidate transport value") :=
  (C95_attribute (by decide)).1 (by decide +kernel)

/-- The payload type of a feedback line is looked at last. -/
example : AttributeFault c%"rtcp-fb:x nack wrong" (.unsupported c%"Unknown rtcpfb nack parameter: \"wrong\"") :=
  (C95_attribute (by decide)).1 (by decide +kernel)

example : LineError c%"t=0" 3 (.line (.generic c%"timing attribute must have two tokens") c%"t=0" 3) :=
  (C95_line (by decide)).1 (by decide +kernel)

example : LineError c%"a=unheard-of:1" 7 (.unsupported (.unsupported c%"Unknown attribute type unheard-of") c%"a=unheard-of:1" 7) :=
  (C95_line (by decide)).1 (by decide +kernel)

/-- With unsupported lines allowed, the last wrong line is reported. -/
example : Yields c%"v=0\r\no=- 0 0 IN IP4 0.0.0.0\r\ns=-\r\nt=0\r\nb=AS\r\na=unheard-of\r\n" false
    (.err (.line (.generic c%"bandwidth attribute must have two tokens") c%"b=AS" 4)) :=
  (C95_document (by decide)).1 (by decide +kernel)

/-- With unsupported lines as errors, the unsupported line is. -/
example : Yields c%"v=0\r\no=- 0 0 IN IP4 0.0.0.0\r\ns=-\r\nt=0\r\nb=AS\r\na=unheard-of\r\n" true
    (.err (.unsupported (.unsupported c%"Unknown attribute type unheard-of") c%"a=unheard-of" 5)) :=
  (C95_document (by decide)).1 (by decide +kernel)

end Examples

end Sdp
