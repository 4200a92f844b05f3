import Verif.Spec.Sample
import Verif.Lemmas.Recase
import Verif.Props.Scan
/-!
# C18, C50, C53: keyword case, white space, and the text of errors
-/

namespace Sdp

section
variable [Env]

/-! ## C18 -/

/-- **C18.** Writing a keyword of a line in another case does not change what the line means: the value
is the same, and a line that fails still fails, as an unsupported line or not. -/
theorem C18_line {l l' : Str} (h : Recased l l') : (lineMeaning l).kind = (lineMeaning l').kind :=
  line_recased h

/-- ... for `parse_sdp_line`: the same value is returned. -/
theorem C18_same_value {l l' : Str} (h : Recased l l') (n : Nat) (v : SdpType) :
    parseSdpLine l n = .ok ⟨n, v, l⟩ ↔ parseSdpLine l' n = .ok ⟨n, v, l'⟩ := by
  have key (l : Str) : parseSdpLine l n = .ok ⟨n, v, l⟩ ↔ lineMeaning l = .ok v := by
    rw [parseSdpLine_record]
    cases lineMeaning l <;> simp [recordLine]
  rw [key, key]
  exact kind_ok (line_recased h)

omit [Env] in
theorem kind_lineKind [Env] {l l' : Str} (h : (lineMeaning l).kind = (lineMeaning l').kind) :
    lineKind l = lineKind l' := by
  unfold lineKind; rw [h]

theorem contentFrom_kind {R : Str → Str → Prop} (hR : ∀ l l', R l l' → lineKind l = lineKind l' ∧ (Blank l ↔ Blank l'))
    {a b : List Str} (h : List.Forall₂ R a b) (n m : Nat) :
    (contentFrom n a).map (fun p => lineKind p.1) = (contentFrom m b).map (fun p => lineKind p.1) := by
  induction h generalizing n m with
  | nil => rfl
  | cons h1 h2 ih =>
    obtain ⟨k1, k2⟩ := hR _ _ h1
    simp only [contentFrom_cons, k2]
    split
    · exact ih _ _
    · simp only [List.map_cons, k1]; rw [ih (n + 1) (m + 1)]

/-- **C18.** A text in which lines have keywords in another case is parsed to the same session; only the
recorded warnings may differ, in the text they quote. -/
theorem C18_whole_text {s s' : Str} (h' : 51 ≤ byteLen s')
    (hl : List.Forall₂ (fun l l' => l = l' ∨ Recased l l' ∨ Recased l' l) (lines s) (lines s'))
    {f : Bool} {r : Session} (hr : parseSdp s f = .ok r) :
    ∃ ws, parseSdp s' f = .ok { r with warnings := ws } ∧ ws.length = r.warnings.length := by
  refine parseSdp_kind h' (contentFrom_kind ?_ hl 0 0) hr
  have eqn {l l' : Str} (h : Recased l l') : '=' ∈ l ∧ '=' ∈ l' := by cases h <;> simp
  have nb {l : Str} (h : '=' ∈ l) : ¬ Blank l := fun hb => by
    have := hb _ h; revert this; decide
  rintro l l' (rfl | h | h)
  · exact ⟨rfl, Iff.rfl⟩
  · exact ⟨kind_lineKind (line_recased h), by simp [nb (eqn h).1, nb (eqn h).2]⟩
  · exact ⟨kind_lineKind (line_recased h).symm, by simp [nb (eqn h).1, nb (eqn h).2]⟩

/-! ## C50 -/

/-- **C50.** White space around the letter of a line does not matter. -/
theorem C50_type {a b w1 w2 : Str} (ha : '=' ∉ a) (h1 : Blank w1) (h2 : Blank w2) :
    lineMeaning (w1 ++ a ++ w2 ++ '=' :: b) = lineMeaning (a ++ '=' :: b) := by
  have hw {w : Str} (h : Blank w) : '=' ∉ w := fun hm => by have := h _ hm; revert this; decide
  rw [lineMeaning_split (a := w1 ++ a ++ w2) (by simp [hw h1, hw h2, ha]), lineMeaning_split ha]
  unfold lineOutcome
  rw [trim_pad h1 h2]

omit [Env] in
/-- The letter s in either case. -/
theorem lower_s [Env] {a : Str} (h : ¬ byteLen a > 1) : lower a = c%"s" ↔ a = c%"s" ∨ a = c%"S" := by
  have ha := isAscii_of_byteLen h
  unfold lower
  rw [if_pos ha]
  constructor
  · intro hm
    rcases a with _ | ⟨c, _ | ⟨d, a⟩⟩
    · simp at hm
    · simp only [List.map_cons, List.map_nil, List.cons.injEq, and_true] at hm ⊢
      have := asciiLower_toNat c
      rw [hm] at this
      simp only [show ('s' : Char).toNat = 115 from rfl] at this
      split_ifs at this with hc
      · right; exact char_ext (by change c.toNat = 83; omega)
      · left; exact char_ext (by change c.toNat = 115; omega)
    · simp at hm
  · rintro (rfl | rfl) <;> decide

/-- **C50.** White space around the value of a line does not matter, except in an s= line. -/
theorem C50_value {a b w1 w2 : Str} (ha : '=' ∉ a) (hs : trim a ≠ c%"s" ∧ trim a ≠ c%"S") (h1 : Blank w1)
    (h2 : Blank w2) : lineMeaning (a ++ '=' :: (w1 ++ b ++ w2)) = lineMeaning (a ++ '=' :: b) := by
  rw [lineMeaning_split ha, lineMeaning_split ha]
  unfold lineOutcome
  rw [trim_pad h1 h2]
  by_cases hb : byteLen (trim a) > 1
  · simp only [hb, if_true]
  · simp only [hb, if_false]
    have hl : lower (trim a) ≠ c%"s" := fun h => by rcases (lower_s hb).1 h with h | h <;> simp [h] at hs
    have : ∀ (x y : Str), parseLineValue (lower (trim a)) (trim b) x = parseLineValue (lower (trim a)) (trim b) y := by
      intro x y; unfold parseLineValue; simp only [hl, if_false]
    rw [this (w1 ++ b ++ w2) b]

/-- **C50.** An s= line keeps the white space of its value. -/
theorem C50_session_name_raw {a b : Str} (ha : '=' ∉ a) (hs : trim a = c%"s" ∨ trim a = c%"S") :
    lineMeaning (a ++ '=' :: b) = .ok (.session b) := by
  rw [lineMeaning_split ha]
  unfold lineOutcome
  rcases hs with hs | hs <;> rw [hs] <;>
    simp [lower, isAscii, byteLen, asciiLower, parseLineValue, List.isEmpty] <;> rfl

/-- **C50.** White space around the value of an attribute does not matter. -/
theorem C50_attribute {n v w1 w2 : Str} (hn : ':' ∉ n) (h1 : Blank w1) (h2 : Blank w2) :
    attrFromStr (n ++ ':' :: (w1 ++ v ++ w2)) = attrFromStr (n ++ ':' :: v) := by
  rw [attrFromStr_colon hn, attrFromStr_colon hn, trim_pad h1 h2]

/-- ... in an a= line. -/
theorem C50_attribute_line {n v w1 w2 : Str} (hn : ':' ∉ n) (h1 : Blank w1) (h2 : Blank w2) :
    lineMeaning (c%"a=" ++ n ++ ':' :: (w1 ++ v ++ w2)) = lineMeaning (c%"a=" ++ n ++ ':' :: v) := by
  have splitA (v : Str) : lineMeaning (c%"a=" ++ n ++ ':' :: v) = lineOutcome c%"a" (n ++ ':' :: v) := by
    rw [List.append_assoc]; exact lineMeaning_split (a := c%"a") (by decide)
  rw [splitA, splitA]
  have e (v : Str) := trim_around (a := n) (b := v) (c := ':') (by decide)
  have key (v : Str) : lineOutcome c%"a" (n ++ ':' :: v) = (do
      return .attr (← attrFromStr (trimStart n ++ ':' :: v))) := by
    have hl : lineOutcome c%"a" (n ++ ':' :: v) = parseAttribute (trim (n ++ ':' :: v)) := by
      unfold lineOutcome
      have : (trim (n ++ ':' :: v)).isEmpty = false := by rw [e]; simp
      rw [this]
      simp only [show trim c%"a" = c%"a" from by decide, show ¬ byteLen c%"a" > 1 from by decide, if_false]
      rfl
    rw [hl]
    unfold parseAttribute
    rw [trim_trim, e]
    have te : trim (trimEnd v) = trim v := by
      obtain ⟨w, hw, e⟩ := trimEnd_spec v
      conv_rhs => rw [e]
      rw [trim_append_ws hw]
    have hn' : ':' ∉ trimStart n := fun h => hn (mem_of_trimStart h)
    rw [attrFromStr_colon hn', attrFromStr_colon hn', te]
  rw [key, key, C50_attribute (fun h => hn (mem_of_trimStart h)) h1 h2]

/-- **C50.** The recorded line is the input, with the white space. -/
theorem C50_text_kept {l : Str} {n : Nat} {x : SdpLine} (h : parseSdpLine l n = .ok x) :
    x.text = l ∧ x.lineNumber = n := by
  obtain ⟨_, _, _, _, _, _, _, _, h1, h2⟩ := parseSdpLine_ok h
  exact ⟨h2, h1⟩

theorem lineKind_padded {l l' : Str} (h : Padded l l') : lineKind l = lineKind l' := by
  cases h with
  | type ha h1 h2 => unfold lineKind; rw [C50_type ha h1 h2]
  | value ha h1 h2 =>
    rename_i a b w1 w2
    by_cases hs : trim a ≠ c%"s" ∧ trim a ≠ c%"S"
    · unfold lineKind; rw [C50_value ha hs h1 h2]
    · have hs' : trim a = c%"s" ∨ trim a = c%"S" := by tauto
      unfold lineKind
      rw [C50_session_name_raw ha hs', C50_session_name_raw ha hs']
      simp only [Outcome.kind, SdpType.trimmed, trim_pad h1 h2]
  | attr hn h1 h2 => unfold lineKind; rw [C50_attribute_line hn h1 h2]

/-- **C50.** A text with such white space added to (or removed from) its lines, this time including
around the session name, is parsed to the same session; only the recorded warnings may differ, in the
text they quote. -/
theorem C50_whole_text {s s' : Str} (h' : 51 ≤ byteLen s')
    (hl : List.Forall₂ (fun l l' => l = l' ∨ Padded l l' ∨ Padded l' l) (lines s) (lines s'))
    {f : Bool} {r : Session} (hr : parseSdp s f = .ok r) :
    ∃ ws, parseSdp s' f = .ok { r with warnings := ws } ∧ ws.length = r.warnings.length := by
  refine parseSdp_kind h' (contentFrom_kind ?_ hl 0 0) hr
  have eqn {l l' : Str} (h : Padded l l') : '=' ∈ l ∧ '=' ∈ l' := by cases h <;> simp
  have nb {l : Str} (h : '=' ∈ l) : ¬ Blank l := fun hb => by
    have := hb _ h; revert this; decide
  rintro l l' (rfl | h | h)
  · exact ⟨rfl, Iff.rfl⟩
  · exact ⟨lineKind_padded h, by simp [nb (eqn h).1, nb (eqn h).2]⟩
  · exact ⟨(lineKind_padded h).symm, by simp [nb (eqn h).1, nb (eqn h).2]⟩

end

/-! ## C53 -/

/-- The line an error quotes. -/
def ParserError.quoted : ParserError → Option Str
  | .line _ t _ | .unsupported _ t _ => some t
  | .sequence _ _ => none

/-- What is wrong, in words. -/
def ParserError.reason : ParserError → Str
  | .line e _ _ | .unsupported e _ _ => showInternalError e
  | .sequence m _ => m

/-- The word an error begins with. -/
def ParserError.word : ParserError → Str
  | .line _ _ _ => c%"Line error"
  | .unsupported _ _ _ => c%"Unsupported"
  | .sequence _ _ => c%"Sequence error"

/-- **C53.** The text of an error begins with its kind, has the decimal number of the line between
parentheses, has the reason, and ends with the quoted line, if there is one. -/
theorem C53_error_text (e : ParserError) :
    e.word <+: showParserError e ∧
    (∃ d, (DecText d e.number ∧ '+' ∉ d) ∧ (c%"in line(" ++ d ++ c%"): ") <:+: showParserError e) ∧
    e.reason <:+: showParserError e ∧
    ∀ t, e.quoted = some t → (c%"): " ++ t) <:+ showParserError e := by
  have hd (n : Nat) : DecText (showNat n) n ∧ '+' ∉ showNat n :=
    ⟨DecText.show n, fun h => by have := showNat_digits h; revert this; decide⟩
  cases e with
  | line e t n =>
    refine ⟨⟨_, rfl⟩, ⟨showNat n, hd n, ⟨c%"Line error: " ++ showInternalError e ++ c%" ", t, ?_⟩⟩,
      ⟨c%"Line error: ", c%" in line(" ++ showNat n ++ c%"): " ++ t, ?_⟩, ?_⟩
    · simp [showParserError]
    · simp [showParserError, ParserError.reason]
    · rintro t' h; cases h
      exact ⟨c%"Line error: " ++ showInternalError e ++ c%" in line(" ++ showNat n, by simp [showParserError]⟩
  | unsupported e t n =>
    refine ⟨⟨_, rfl⟩, ⟨showNat n, hd n, ⟨c%"Unsupported: " ++ showInternalError e ++ c%" ", t, ?_⟩⟩,
      ⟨c%"Unsupported: ", c%" in line(" ++ showNat n ++ c%"): " ++ t, ?_⟩, ?_⟩
    · simp [showParserError]
    · simp [showParserError, ParserError.reason]
    · rintro t' h; cases h
      exact ⟨c%"Unsupported: " ++ showInternalError e ++ c%" in line(" ++ showNat n, by simp [showParserError]⟩
  | sequence m n =>
    refine ⟨⟨_, rfl⟩, ⟨showNat n, hd n, ⟨c%"Sequence error ", m, ?_⟩⟩,
      ⟨c%"Sequence error in line(" ++ showNat n ++ c%"): ", [], ?_⟩, ?_⟩
    · simp [showParserError]
    · simp [showParserError, ParserError.reason]
    · rintro t h; cases h

section
variable [Env]

/-- **C53.** The text of a warning ends with the line of the input it is about, and has the number of
that line. -/
theorem C53_warning_text {s : Str} {f : Bool} {r : Session} (h : parseSdp s f = .ok r) {w : ParserError}
    (hw : w ∈ r.warnings) :
    ∃ l n, (lines s)[n]? = some l ∧ (c%"): " ++ l) <:+ showParserError w ∧
      ∃ d, (DecText d n ∧ '+' ∉ d) ∧ (c%"in line(" ++ d ++ c%"): ") <:+: showParserError w := by
  obtain ⟨l, n, m, h1, -, rfl, -⟩ := ((C14_warnings h).1 w).1 hw
  obtain ⟨-, h2, -, h3⟩ := C53_error_text (.unsupported (.unsupported m) l n)
  exact ⟨l, n, h1, h3 l rfl, h2⟩

/-- **C53.** The same for the error `parse_sdp` returns about a line. -/
theorem C53_failure_text {s : Str} {f : Bool} {e : ParserError} (hs : 51 ≤ byteLen s)
    (h : parseSdp s f = .err e) {t : Str} (ht : e.quoted = some t) :
    (lines s)[e.number]? = some t ∧ (c%"): " ++ t) <:+ showParserError e ∧
      ∃ d, (DecText d e.number ∧ '+' ∉ d) ∧ (c%"in line(" ++ d ++ c%"): ") <:+: showParserError e := by
  obtain ⟨-, h2, -, h3⟩ := C53_error_text e
  refine ⟨?_, h3 t ht, h2⟩
  have := C15_error_location hs h
  cases e <;> cases ht <;> exact this.1

end

/-! ## Non-vacuity -/

section
attribute [local instance] sampleEnv

example : Recased c%"a=sEtUp:ActPass" c%"a=SETUP:ActPass" :=
  .name (n := c%"sEtUp") (n' := c%"SETUP") (v := c%"ActPass") (by decide) (by decide)
example : Recased c%"A=setup:active" c%"a=setup:active" :=
  .type (a := c%"A") (a' := c%"a") (b := c%"setup:active") (by decide) (by decide)
example : Recased c%"a=candidate:1 1 udp 1 1.2.3.4 9 typ host RADDR 1.2.3.5 tcptype ACTIVE"
    c%"a=candidate:1 1 UDP 1 1.2.3.4 9 TYP HOST raddr 1.2.3.5 TCPTYPE active" :=
  .value (t := .candidate) (v := c%"1 1 udp 1 1.2.3.4 9 typ host RADDR 1.2.3.5 tcptype ACTIVE")
    (v' := c%"1 1 UDP 1 1.2.3.4 9 TYP HOST raddr 1.2.3.5 TCPTYPE active")
    (.candidate (t := c%"udp") (t' := c%"UDP") (y := c%"typ") (y' := c%"TYP") (k := c%"host") (k' := c%"HOST")
      (f := c%"1") (c := c%"1") (p := c%"1") (a := c%"1.2.3.4") (q := c%"9")
      (e := [c%"RADDR", c%"1.2.3.5", c%"tcptype", c%"ACTIVE"])
      (e' := [c%"raddr", c%"1.2.3.5", c%"TCPTYPE", c%"active"])
      (by decide +kernel) (by decide +kernel) (by decide) (by decide) (by decide)
      (.known (by decide) (by decide) (.tcptype (by decide) (by decide) (by decide) .nil)))
example : (parseSdpLine c%"a=candidate:1 1 udp 1 1.2.3.4 9 typ host RADDR 1.2.3.5 tcptype ACTIVE" 0).isOk = true := by
  decide +kernel
example : Recased c%"m=audio 9 udp/tls/rtp/savpf 0" c%"m=AUDIO 9 UDP/TLS/RTP/SAVPF 0" :=
  .media (v := c%"audio 9 udp/tls/rtp/savpf 0") (v' := c%"AUDIO 9 UDP/TLS/RTP/SAVPF 0") (m := c%"audio")
    (m' := c%"AUDIO") (p := c%"9") (q := c%"udp/tls/rtp/savpf") (q' := c%"UDP/TLS/RTP/SAVPF") (r := [c%"0"])
    (by decide +kernel) (by decide +kernel) (by decide) (by decide)
example : (parseSdpLine c%"m=audio 9 udp/tls/rtp/savpf 0" 0).isOk = true := by decide +kernel
example : Recased c%"a=fmtp:97 profile-level-id=42e01f;x=1" c%"a=fmtp:97 Profile-Level-ID=42e01f;x=1" :=
  .value (t := .fmtp) (v := c%"97 profile-level-id=42e01f;x=1") (v' := c%"97 Profile-Level-ID=42e01f;x=1")
    (.fmtp (pt := c%"97") (ps := [c%"profile-level-id=42e01f", c%"x=1"])
    (ps' := [c%"Profile-Level-ID=42e01f", c%"x=1"]) (by decide) (by decide) (by decide) (by decide)
    (.cons (.name (n := c%"profile-level-id") (n' := c%"Profile-Level-ID") (v := c%"42e01f")
      (by decide) (by decide) (by decide) (by decide))
      (.cons (.same (by decide)) .nil)))
example : (parseSdpLine c%"a=fmtp:97 Profile-Level-ID=42e01f;x=1" 0).isOk = true := by decide +kernel

/-- A text with keywords in another case and white space added. -/
def sloppyText : Str :=
  c%"V=0\r\no=- 42 7 in ip4 10.0.0.1\r\n s =  -  \r\nt=0 0\r\nc=in Ip6 2001:db8::1\r\nb=as:64\r\na=GROUP:bundle 0 1\r\n"
example : (lines sloppyText).length = 7 ∧ 51 ≤ byteLen sloppyText := by decide +kernel
example : Padded c%"s=-" c%"s=  -  " := .value (a := c%"s") (b := c%"-") (w1 := c%"  ") (w2 := c%"  ")
  (by decide) (by decide) (by decide)
example : Padded c%"a=mid:x" c%"a=mid: x\t" := .attr (n := c%"mid") (v := c%"x") (w1 := c%" ") (w2 := c%"\t")
  (by decide) (by decide) (by decide)
example : withoutWarnings (parseSdp sloppyText false) = withoutWarnings (parseSdp
    c%"v=0\r\no=- 42 7 IN IP4 10.0.0.1\r\ns=-\r\nt=0 0\r\nc=IN IP6 2001:db8::1\r\nb=AS:64\r\na=group:BUNDLE 0 1\r\n"
    false) ∧ (parseSdp sloppyText false).isOk = true := by decide +kernel
end

end Sdp
