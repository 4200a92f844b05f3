import Verif.Spec.TextEdit
import Verif.Props.Build
import Verif.Props.History
import Verif.Props.RoundTrip
import Verif.Lemmas.PrintSession
import Verif.Spec.Sample
/-!
# C118: a call changes its own lines of the text only
-/

namespace Sdp

section
variable [Env]

omit [Env] in
private theorem textLines_all {letter : Str} {ts : List Str} (h : ∀ t ∈ ts, t ≠ []) :
    textLines letter ts = ts.map fun t => letter ++ t := by
  unfold textLines
  by_cases h0 : ts = []
  · simp [h0]
  · have h1 : ¬ ∀ t ∈ ts, t = [] := by
      intro h'
      obtain ⟨t, ht⟩ := List.exists_mem_of_ne_nil _ h0
      exact h t ht (h' t ht)
    rw [if_neg h0, if_neg h1, List.filter_eq_self.2 (by simpa using h)]

omit [Env] in
private theorem bandwidth_lines (bs : List Bandwidth) : textLines c%"b=" (bs.map showBandwidth) = bs.map bandwidthLine := by
  rw [textLines_all, List.map_map]
  · rfl
  · intro t ht
    obtain ⟨b, -, rfl⟩ := List.mem_map.1 ht
    cases b <;> simp [showBandwidth]

private theorem attribute_lines {as : List Attribute} (h : ∀ a ∈ as, a.Written) :
    textLines c%"a=" (as.map showAttribute) = as.map attributeLine := by
  rw [textLines_all, List.map_map]
  · rfl
  · intro t ht
    obtain ⟨a, ha, rfl⟩ := List.mem_map.1 ht
    exact h a ha

private theorem body_lines (bs : List Bandwidth) (c : Option Connection) {as : List Attribute} (h : ∀ a ∈ as, a.Written) :
    bodyLines bs c as = bs.map bandwidthLine ++ c.toList.map connectionLine ++ as.map attributeLine := by
  unfold bodyLines
  rw [bandwidth_lines, attribute_lines h, List.append_assoc]
  rfl

/-- **C118.** The text of a session is the text of its session part and then that of the sections, each for itself: a call on a section
leaves everything before and after the section as it is. -/
theorem C118_section_only {s : Session} {pre post : List Media} {m : Media} (h : s.media = pre ++ m :: post) :
    ∃ before after, showSession s = before ++ showMedia m ++ after ∧
      before = showSession { s with media := pre } ∧
      ∀ op, showSession (s.build (.inSection pre.length op)) = before ++ showMedia (m.apply op) ++ after := by
  refine ⟨_, (post.map showMedia).flatten, ?_, rfl, fun op => ?_⟩
  · unfold showSession
    simp [h, Session.getSessionText]
  · have : s.build (.inSection pre.length op) = { s with media := pre ++ m.apply op :: post } := by
      have : (pre ++ m :: post).modify pre.length (fun m => m.apply op) = pre ++ m.apply op :: post := by
        clear h
        induction pre with
        | nil => rfl
        | cons a pre ih => simp [ih]
      simp only [Session.build, h, this]
    rw [this]
    unfold showSession
    simp [Session.getSessionText]

/-- **C118.** The lines of a section after any call on it. The m= line changes only with the port, the type and the formats; a bandwidth goes after
the others; a connection replaces the one there was; the a= lines of the types that the call clears go, the others stay in their order,
and those it adds follow. -/
theorem C118_section {m : Media} (hm : ∀ a ∈ m.attrs, a.Written) (op : MediaOp) (ho : ∀ a ∈ op.adds (isSctp m.getProto), a.Written) :
    ∃ first first', showMedia m = crlf (first :: (m.bandwidth.map bandwidthLine ++ m.connection.toList.map connectionLine ++
        m.attrs.map attributeLine)) ∧
      showMedia (m.apply op) = crlf (first' :: ((m.bandwidth ++ op.bandwidths).map bandwidthLine ++
        (op.connectionAfter m.connection).toList.map connectionLine ++
        ((m.attrs.filter fun a => a.type ∉ op.clears (isSctp m.getProto)).map attributeLine ++
          (op.adds (isSctp m.getProto)).map attributeLine))) ∧
      (op.keepsMediaLine = true → first' = first) := by
  refine ⟨c%"m=" ++ showMediaLine m.media, c%"m=" ++ showMediaLine (m.apply op).media, ?_, ?_, ?_⟩
  · rw [showMedia_lines, Media.lines, body_lines _ _ hm]
  · have ha := apply_attrs m op
    obtain ⟨-, -, hc, hb, -⟩ := apply_fields m op
    have hf : (m.attrs.filter fun a => !(op.clears (isSctp m.media.proto)).contains a.type) =
        m.attrs.filter fun a => a.type ∉ op.clears (isSctp m.getProto) := by
      refine List.filter_congr fun a _ => ?_
      by_cases h : a.type ∈ op.clears (isSctp m.media.proto) <;> simp [Media.getProto, h]
    rw [hf] at ha
    replace hb : (m.apply op).bandwidth = m.bandwidth ++ op.bandwidths := hb.trans (by cases op <;> rfl)
    replace hc : (m.apply op).connection = op.connectionAfter m.connection := hc.trans (by cases op <;> rfl)
    rw [showMedia_lines, Media.lines, body_lines, ha, hb, hc, List.map_append (f := attributeLine)]
    · rfl
    · rw [ha]
      intro a h
      rcases List.mem_append.1 h with h | h
      · exact hm a (List.mem_filter.1 h).1
      · exact ho a h
  · intro hk
    have : (m.apply op).media = m.media := by
      cases op <;> simp only [MediaOp.keepsMediaLine, Bool.false_eq_true] at hk
      · rfl
      · rfl
      · rename_i a
        rcases addAttribute_eq m a with ⟨-, h⟩ | ⟨-, e, h⟩ <;> simp [Media.apply, h]
      · rfl
      · rename_i a
        rcases addAttribute_eq (m.removeAttribute a.type) a with ⟨-, h⟩ | ⟨-, e, h⟩ <;> (simp only [Media.apply, Media.setAttribute, h]; rfl)
    rw [this]

/-- **C118.** The lines of a session after any call on it: one line is new, in its place; a timing or a connection replaces the one there
was; an attribute that belongs to sections changes nothing; sections are appended. -/
theorem C118_session {s : Session} (hs : ∀ a ∈ s.attrs, a.Written) :
    let t := s.timing.toList.map timingLine
    let bs := s.bandwidth.map bandwidthLine
    let c := s.connection.toList.map connectionLine
    let as := s.attrs.map attributeLine
    ∃ v o n : Str, ∃ rest : List Str, crlf rest = (s.media.map showMedia).flatten ∧
      showSession s = crlf ([v, o, n] ++ t ++ bs ++ c ++ as ++ rest) ∧
      (∀ x, showSession (s.setTiming x) = crlf ([v, o, n] ++ [timingLine x] ++ bs ++ c ++ as ++ rest)) ∧
      (∀ x, showSession (s.addBandwidth x) = crlf ([v, o, n] ++ t ++ (bs ++ [bandwidthLine x]) ++ c ++ as ++ rest)) ∧
      (∀ x, showSession (s.setConnection x) = crlf ([v, o, n] ++ t ++ bs ++ [connectionLine x] ++ as ++ rest)) ∧
      (∀ x, x.Written → x.type ∉ mediaOnly →
        showSession (s.addAttribute x).1 = crlf ([v, o, n] ++ t ++ bs ++ c ++ (as ++ [attributeLine x]) ++ rest)) ∧
      (∀ x, x.type ∈ mediaOnly → showSession (s.addAttribute x).1 = showSession s) ∧
      (∀ l, showSession (s.extendMedia l) = showSession s ++ (l.map showMedia).flatten) ∧
      (∀ ty d p pr ad, d.Written → d.type ∉ sessionOnly → showSession (s.addMedia ty d p pr ad).1 =
        showSession s ++ crlf [c%"m=" ++ showMediaLine ⟨ty, p, 1, pr, .integers []⟩, connectionLine ⟨ad, none, none⟩, attributeLine d]) ∧
      ∀ ty d p pr ad, d.type ∈ sessionOnly → showSession (s.addMedia ty d p pr ad).1 = showSession s := by
  intro t bs c as
  have key (s : Session) (hs : ∀ a ∈ s.attrs, a.Written) : showSession s = crlf ([c%"v=" ++ showU64 s.version, c%"o=" ++ showOrigin s.origin,
      c%"s=" ++ s.session.getD c%" "] ++ s.timing.toList.map timingLine ++ s.bandwidth.map bandwidthLine ++
      s.connection.toList.map connectionLine ++ s.attrs.map attributeLine ++ s.media.flatMap Media.lines) := by
    rw [showSession_lines, Session.lines, body_lines _ _ hs]
    simp only [List.append_assoc]
    rfl
  have ext (l : List Media) : showSession (s.extendMedia l) = showSession s ++ (l.map showMedia).flatten := by
    unfold showSession Session.extendMedia
    simp [Session.getSessionText]
  refine ⟨c%"v=" ++ showU64 s.version, c%"o=" ++ showOrigin s.origin, c%"s=" ++ s.session.getD c%" ", s.media.flatMap Media.lines,
    ?_, key s hs, fun x => key (s.setTiming x) hs, ?_, fun x => key (s.setConnection x) hs, ?_, ?_, ext, ?_, ?_⟩
  · rw [crlf_flatMap, show showMedia = fun m => crlf m.lines from funext showMedia_lines]
  · intro x
    rw [key (s.addBandwidth x) hs]
    simp [Session.addBandwidth, bs, t, c, as]
  · intro x hx hm
    have := allowedAtSessionLevel_iff x
    have e : (s.addAttribute x).1 = { s with attrs := s.attrs ++ [x] } := by simp [Session.addAttribute, this.2 hm]
    rw [e, key]
    · simp [bs, t, c, as]
    · intro a ha
      rcases List.mem_append.1 ha with ha | ha
      · exact hs a ha
      · rw [List.mem_singleton.1 ha]; exact hx
  · intro x hm
    have := allowedAtSessionLevel_iff x
    have e : x.allowedAtSessionLevel = false := by
      by_contra h
      exact this.1 (by simpa using h) hm
    simp [Session.addAttribute, e]
  · intro ty d p pr ad hd hm
    have e : (s.addMedia ty d p pr ad).1 = s.extendMedia [⟨⟨ty, p, 1, pr, .integers []⟩, some ⟨ad, none, none⟩, [], [d]⟩] := by
      rw [(C34_add_media s ty d p pr ad).1 hm]; rfl
    rw [e, ext]
    simp only [List.map_cons, List.map_nil, List.flatten_cons, List.flatten_nil, List.append_nil]
    rw [showMedia_lines, Media.lines, body_lines _ _ (by simpa using hd)]
    rfl
  · intro ty d p pr ad hm
    obtain ⟨e, h⟩ := (C34_add_media s ty d p pr ad).2 hm
    rw [h]

/-- **C118.** Attributes that survive printing are written as something. -/
theorem C118_written {a : Attribute} (h : a.WF) : a.Written := by
  intro h0
  have := (C24_attribute_round_trip a h).1
  rw [h0] at this
  cases this

end

/-! ## The hypotheses are met, and needed -/

section
attribute [local instance] sampleEnv

def editMedia (as : List Attribute) : Media := ⟨⟨.audio, 9, 0, .rtpAvp, .integers [0]⟩, none, [.as 64], as⟩

example : (∀ a ∈ (editMedia [.mid c%"a", .sendrecv, .rtcpMux]).attrs, a.Written) ∧
    showMedia ((editMedia [.mid c%"a", .sendrecv, .rtcpMux]).apply (.setAttribute (.mid c%"b"))) =
      crlf [c%"m=audio 9 RTP/AVP 0", c%"b=AS:64", c%"a=sendrecv", c%"a=rtcp-mux", c%"a=mid:b"] ∧
    showMedia ((editMedia [.mid c%"a", .sendrecv, .rtcpMux]).apply (.setPort 7)) =
      crlf [c%"m=audio 7 RTP/AVP 0", c%"b=AS:64", c%"a=mid:a", c%"a=sendrecv", c%"a=rtcp-mux"] := by
  unfold Attribute.Written
  decide +kernel

/-- An attribute with an empty value, which can be given through the API, is written as nothing, and as a line a= without value if it is the
only one: the next attribute then changes this line. -/
theorem C118_empty_value :
    showMedia (editMedia [.mid []]) = crlf [c%"m=audio 9 RTP/AVP 0", c%"b=AS:64", c%"a="] ∧
    showMedia ((editMedia [.mid []]).apply (.addAttribute .sendrecv)) =
      crlf [c%"m=audio 9 RTP/AVP 0", c%"b=AS:64", c%"a=sendrecv"] := by
  decide +kernel

end

end Sdp
