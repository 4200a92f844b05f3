import Verif.Lemmas.PrintSession
import Verif.Spec.Sample
/-!
# C24, C25, C26, C27, C28, C51: printing and parsing back
-/

namespace Sdp

/-! ## C24 -/

/-- **C24.** The printed form of a well-formed attribute is parsed to that attribute; it has no white
space around it, so that it may stand in a line. -/
theorem C24_attribute_round_trip [Env] (a : Attribute) (h : a.WF) :
    attrFromStr (showAttribute a) = .ok a ∧ Trimmed (showAttribute a) := ⟨(attr_round h).2, (attr_round h).1⟩

/-- **C24.** The same for the whole a= line. -/
theorem C24_attribute_line [Env] (a : Attribute) (h : a.WF) (n : Nat) :
    parseSdpLine (c%"a=" ++ showAttribute a) n = .ok ⟨n, .attr a, c%"a=" ++ showAttribute a⟩ :=
  (LinePrints.attr h).line (by decide) n

/-- **C24.** So different well-formed attributes have different printed forms. -/
theorem C24_print_injective [Env] (a b : Attribute) (ha : a.WF) (hb : b.WF) (h : showAttribute a = showAttribute b) :
    a = b := by
  have h1 := (attr_round ha).2
  rw [h, (attr_round hb).2] at h1
  cases h1; rfl

section
attribute [local instance] sampleEnv

example : (Attribute.candidate ⟨c%"1", 1, .udp, 7, .ip (.v4 0x0a000001), 9, .srflx, some (.fqdn c%"h.example"), some 5,
    none, some 0, none, some 3, [(c%"x-cost", c%"999")]⟩).WF := by
  refine ⟨⟨by decide, by decide⟩, trivial, by decide, ?_, ?_, ?_, ?_⟩
  · rintro _ ⟨⟩
    exact ⟨⟨by decide, by decide⟩, by decide, by decide, by decide +kernel, by decide +kernel⟩
  · rintro _ ⟨⟩; decide
  · rintro _ ⟨⟩
  · simp only [List.mem_singleton, forall_eq]
    exact ⟨⟨by decide, by decide⟩, ⟨by decide, by decide⟩, by decide +kernel⟩

example : (Attribute.rid ⟨c%"hi", .send, [96, 97], { maxWidth := 1280, maxHeight := 0, maxFps := 30, maxFs := 0, maxBr := 0, maxPps := 0, unknown := [c%"foo=bar"] }, [c%"1", c%"lo"]⟩).WF := by
  refine ⟨⟨⟨_, _, rfl, by decide⟩, by decide⟩, ?_, .inr ?_, (fun h => nomatch h.1), (fun h => nomatch h), ?_⟩
  · simp only [List.mem_singleton, forall_eq]
    exact ⟨by decide, by decide, by decide +kernel⟩
  · intro d hd
    simp only [List.mem_cons, List.not_mem_nil, or_false] at hd
    rcases hd with rfl | rfl
    · exact ⟨by decide, by decide, by decide⟩
    · exact ⟨by decide, by decide, by decide⟩
  · rintro _ ⟨⟩
    exact .inr ⟨['l'], 'o', rfl, by decide⟩

example : (Attribute.ssrc ⟨7, some c%"cname", some c%"a b:c"⟩).WF := by
  refine ⟨?_, ?_⟩
  · rintro _ ⟨⟩; exact ⟨by decide, fun h => by cases h⟩
  · rintro _ ⟨⟩; exact ⟨by decide, .inr ⟨c%"a b:", 'c', rfl, by decide⟩⟩

end

/-! ## C25 -/

/-- **C25.** A printed version line is read back. -/
theorem C25_version_line [Env] (n : Nat) :
    parseSdpLine (c%"v=" ++ showU64 0) n = .ok ⟨n, .version 0, c%"v=" ++ showU64 0⟩ :=
  (LinePrints.version rfl).line (by decide) n

/-- **C25.** A printed origin line is read back, if the origin is well-formed. -/
theorem C25_origin_line [Env] (o : Origin) (h : o.WF) (n : Nat) :
    parseSdpLine (c%"o=" ++ showOrigin o) n = .ok ⟨n, .origin o, c%"o=" ++ showOrigin o⟩ :=
  (LinePrints.origin h).line (by decide) n

/-- **C25.** The session name is taken as it is, whatever it is. -/
theorem C25_session_line [Env] (t : Str) (n : Nat) :
    parseSdpLine (c%"s=" ++ t) n = .ok ⟨n, .session t, c%"s=" ++ t⟩ := (sessionName_reads t).2 n

/-- **C25.** A printed timing line is read back, whatever the timing. -/
theorem C25_timing_line [Env] (t : Timing) (n : Nat) :
    parseSdpLine (c%"t=" ++ showTiming t) n = .ok ⟨n, .timing t, c%"t=" ++ showTiming t⟩ :=
  (LinePrints.timing t).line (by decide) n

/-- **C25.** A printed connection line is read back, if the connection is well-formed. -/
theorem C25_connection_line [Env] (c : Connection) (h : c.WF) (n : Nat) :
    parseSdpLine (c%"c=" ++ showConnection c) n = .ok ⟨n, .connection c, c%"c=" ++ showConnection c⟩ :=
  (LinePrints.connection h).line (by decide) n

/-- **C25.** A printed bandwidth line is read back, if the bandwidth is well-formed. -/
theorem C25_bandwidth_line [Env] (b : Bandwidth) (h : b.WF) (n : Nat) :
    parseSdpLine (c%"b=" ++ showBandwidth b) n = .ok ⟨n, .bandwidth b, c%"b=" ++ showBandwidth b⟩ :=
  (LinePrints.bandwidth h).line (by decide) n

/-- **C25.** A printed media line is read back, if it is well-formed. -/
theorem C25_media_line [Env] (m : MediaLine) (h : m.WF) (n : Nat) :
    parseSdpLine (c%"m=" ++ showMediaLine m) n = .ok ⟨n, .media m, c%"m=" ++ showMediaLine m⟩ :=
  (LinePrints.media h).line (by decide) n

section
attribute [local instance] sampleEnv

def sampleOrigin : Origin := ⟨c%"-", 42, 7, .ip (.v4 0x0a000001)⟩
def sampleConnection : Connection := ⟨.fqdn .ipV6 c%"h.example", some 3, some 2⟩
def sampleVideo : MediaLine := ⟨.video, 9, 2, .udpTlsRtpSavpf, .integers [96, 97]⟩
def sampleData : MediaLine := ⟨.application, 9, 0, .udpDtlsSctp, .strings [c%"webrtc-datachannel"]⟩

theorem sampleOrigin_wf : sampleOrigin.WF := ⟨⟨by decide, by decide⟩, trivial⟩
theorem sampleConnection_wf : sampleConnection.WF :=
  ⟨⟨⟨by decide, by decide⟩, by decide, by decide, by decide +kernel, by decide +kernel⟩, by rintro ⟨⟩⟩
theorem sampleVideo_wf : sampleVideo.WF := ⟨by decide, by simp [sampleVideo, FormatsWF, RtpFormat]⟩
theorem sampleData_wf : sampleData.WF := ⟨by decide, by
  show _ ∧ _
  refine ⟨by simp [sampleData], ?_⟩
  simp only [List.mem_singleton, forall_eq]
  exact ⟨by decide, by decide⟩⟩

example : (Bandwidth.unknown c%"X-foo" 7).WF := ⟨by decide, .inr ⟨_, _, rfl, by decide⟩, by decide +kernel⟩

end

/-! ## C26 -/

/-- **C26.** The printed form of a well-formed session is parsed to that session, without warnings;
it must not be one of the texts that are too short for the parser. -/
theorem C26_session_round_trip [Env] (s : Session) (h : s.WF) (hl : 51 ≤ byteLen (showSession s)) (f : Bool) :
    parseSdp (showSession s) f = .ok { s with warnings := [] } := session_round h hl f

/-- **C26.** With a media section it is never too short. -/
theorem C26_with_media [Env] (s : Session) (h : s.WF) (hm : s.media ≠ []) (f : Bool) :
    parseSdp (showSession s) f = .ok { s with warnings := [] } := session_round h (h.length hm) f

/-- **C26.** Well-formed sessions with the same text are equal up to warnings. -/
theorem C26_print_injective [Env] (s t : Session) (hs : s.WF) (ht : t.WF) (hm : s.media ≠ [])
    (h : showSession s = showSession t) : { s with warnings := [] } = { t with warnings := [] } := by
  have h1 := session_round hs (hs.length hm) false
  have h2 := session_round ht (by rw [← h]; exact hs.length hm) false
  rw [h, h2] at h1
  exact (Outcome.ok.inj h1).symm

section
attribute [local instance] sampleEnv

/-- A well-formed session with two sections. -/
def sampleSession : Session where
  version := 0
  origin := sampleOrigin
  session := some c%"a name"
  connection := some sampleConnection
  bandwidth := [.as 64, .unknown c%"X" 1]
  timing := some ⟨0, 1⟩
  attrs := [.iceLite, .group ⟨.bundle, [c%"0", c%"1"]⟩]
  media := [⟨sampleVideo, none, [], [.mid c%"0", .rtpmap ⟨96, c%"VP8", 90000, none⟩, .rtcpMux]⟩,
    ⟨sampleData, some sampleConnection, [.tias 5], [.mid c%"1", .sctpPort 5000]⟩]
  warnings := []

theorem sampleSession_wf : sampleSession.WF where
  version := rfl
  origin := sampleOrigin_wf
  name := by rintro _ ⟨⟩; exact ⟨⟨_, _, rfl, by decide⟩, ⟨c%"a nam", 'e', rfl, by decide⟩⟩
  bandwidth := by
    intro b hb
    simp only [sampleSession, List.mem_cons, List.not_mem_nil, or_false] at hb
    rcases hb with rfl | rfl
    · trivial
    · exact ⟨by decide, .inr ⟨_, _, rfl, by decide⟩, by decide +kernel⟩
  connection := by rintro _ ⟨⟩; exact sampleConnection_wf
  attrs := by
    intro a ha
    simp only [sampleSession, List.mem_cons, List.not_mem_nil, or_false] at ha
    rcases ha with rfl | rfl
    · trivial
    · intro t ht
      simp only [List.mem_cons, List.not_mem_nil, or_false] at ht
      rcases ht with rfl | rfl <;> exact ⟨by decide, by decide⟩
  levels := by decide
  media := by
    have hmid : ∀ s, Token s → (Attribute.mid s).WF := fun s h => h.trimmed
    intro m hm
    simp only [sampleSession, List.mem_cons, List.not_mem_nil, or_false] at hm
    rcases hm with rfl | rfl
    · refine ⟨sampleVideo_wf, by simp, by simp, ?_, by decide⟩
      intro a ha
      simp only [List.mem_cons, List.not_mem_nil, or_false] at ha
      rcases ha with rfl | rfl | rfl
      · exact hmid _ ⟨by decide, by decide⟩
      · exact ⟨by decide, by decide, by decide⟩
      · trivial
    · refine ⟨sampleData_wf, ?_, ?_, ?_, by decide⟩
      · simp only [List.mem_singleton, forall_eq]; trivial
      · rintro _ ⟨⟩; exact sampleConnection_wf
      · intro a ha
        simp only [List.mem_cons, List.not_mem_nil, or_false] at ha
        rcases ha with rfl | rfl
        · exact hmid _ ⟨by decide, by decide⟩
        · show _ ≤ _; decide
  lineFeeds := by decide
  consistent := by
    have h : parseSdp (showSession sampleSession) true = .ok sampleSession := by decide +kernel
    exact accepted_consistent h

example : sampleSession.media ≠ [] := by decide

end

/-! ## C27 -/

/-- **C27.** The warnings are not printed. -/
theorem C27_warnings_not_printed [Env] (s : Session) (w : List ParserError) :
    showSession { s with warnings := w } = showSession s := rfl

/-- **C27.** Parsing and printing a printed text again gives the same text. -/
theorem C27_fixed_point [Env] (s : Session) (h : s.WF) (hl : 51 ≤ byteLen (showSession s)) (f : Bool) :
    ∃ r, parseSdp (showSession s) f = .ok r ∧ showSession r = showSession s :=
  ⟨_, session_round h hl f, rfl⟩

/-- **C27.** Parsing, printing and parsing again gives what the first parsing gave, whenever that is
well-formed; and the text does not change any more. -/
theorem C27_reparse [Env] {t : Str} {f : Bool} {s : Session} (_hp : parseSdp t f = .ok s) (h : s.WF)
    (hm : s.media ≠ []) (g : Bool) :
    parseSdp (showSession s) g = .ok { s with warnings := [] } ∧
      ∀ r, parseSdp (showSession s) g = .ok r → showSession r = showSession s := by
  have := session_round h (h.length hm) g
  refine ⟨this, fun r hr => ?_⟩
  rw [this] at hr; cases hr; rfl

section
attribute [local instance] sampleEnv
example : parseSdp (showSession sampleSession) false = .ok sampleSession :=
  C26_with_media _ sampleSession_wf (by decide) _
end

/-! ## C28 -/

section
variable [Env]

/-- **C28.** An fmtp whose parameters are all at their defaults prints nothing at all. -/
theorem C28_default_fmtp_lost : ∃ a, attrFromStr c%"fmtp:96 stereo=0" = .ok a ∧ showAttribute a = [] := ⟨_, rfl, rfl⟩

/-- **C28.** Two unknown fmtp parameters become one. -/
theorem C28_unknown_fmtp_merged : ∃ a b, attrFromStr c%"fmtp:96 x=1;y=2" = .ok a ∧
    attrFromStr (showAttribute a) = .ok b ∧ a ≠ b := by
  refine ⟨_, _, rfl, rfl, ?_⟩
  intro h
  simp only [Attribute.fmtp.injEq, Fmtp.mk.injEq, FmtpParams.mk.injEq] at h
  revert h; decide

/-- **C28.** A msid-semantic without ids comes back with the id `*`. -/
theorem C28_msid_semantic_gains : ∃ a b, attrFromStr c%"msid-semantic:WMS" = .ok a ∧
    attrFromStr (showAttribute a) = .ok b ∧ a = .msidSemantic ⟨c%"WMS", []⟩ ∧
    b = .msidSemantic ⟨c%"WMS", [c%"*"]⟩ := ⟨_, _, rfl, rfl, rfl, rfl⟩

/-- **C28.** A masked fingerprint is not accepted any more. -/
theorem C28_masked_fingerprint : ∃ a, attrFromStr
      c%"fingerprint:sha-1 00:01:02:03:04:05:06:07:08:09:0A:0B:0C:0D:0E:0F:10:11:12:13" = .ok a ∧
    ∀ b, attrFromStr (showAttribute (a.maskedClone Anon.new).1) ≠ .ok b := by
  refine ⟨_, rfl, fun b h => ?_⟩
  have : ∃ e, attrFromStr (showAttribute ((Attribute.fingerprint ⟨.sha1, [0,1,2,3,4,5,6,7,8,9,10,11,12,13,14,15,16,17,18,19]⟩).maskedClone Anon.new).1) = .err e :=
    ⟨_, rfl⟩
  obtain ⟨e, he⟩ := this
  have h2 := he.symm.trans h
  cases h2

end

section
attribute [local instance] sampleEnv

theorem not_ok {ε α : Type} {x : Outcome ε α} (h : x.isOk = false) : ∀ r, x ≠ .ok r := by
  rintro r rfl; cases h

/-- **C28.** An accepted text whose session prints a text that is too short to be accepted. -/
theorem C28_too_short : ∃ s t, parseSdp t false = .ok s ∧ (∀ r, parseSdp (showSession s) false ≠ .ok r) ∧
    byteLen (showSession s) < 51 :=
  ⟨⟨0, ⟨c%"-", 0, 0, .ip (.v4 0)⟩, some c%"-", none, [], some ⟨0, 0⟩, [], [], []⟩,
    c%"v=0\r\no=- 0 0 IN IP4 0.0.0.0\r\ns=-\r\nt=0 0\r\n          ", by decide +kernel,
    not_ok (by decide +kernel), by decide +kernel⟩

/-- **C28.** A section all of whose attributes print nothing leaves an a= line without a value, which
is not accepted. -/
theorem C28_empty_attribute_line : ∃ s t, parseSdp t false = .ok s ∧ s.media ≠ [] ∧
    ∀ r, parseSdp (showSession s) false ≠ .ok r :=
  ⟨⟨0, ⟨c%"-", 0, 0, .ip (.v4 0)⟩, some c%"-", none, [], some ⟨0, 0⟩, [],
      [⟨⟨.audio, 9, 0, .rtpAvp, .integers [96]⟩, some ⟨.ip (.v4 0), none, none⟩, [], [.fmtp ⟨96, FmtpParams.default⟩]⟩], []⟩,
    c%"v=0\r\no=- 0 0 IN IP4 0.0.0.0\r\ns=-\r\nt=0 0\r\nm=audio 9 RTP/AVP 96\r\nc=IN IP4 0.0.0.0\r\na=fmtp:96 stereo=0\r\n",
    by decide +kernel, by simp, not_ok (by decide +kernel)⟩

end

/-! ## C51 -/

/-- **C51.** A printed session consists of its lines, each ended by CR LF; the first three are the
v=, o= and s= lines. -/
theorem C51_layout (s : Session) :
    showSession s = crlf s.lines ∧
    ∃ rest, s.lines = (c%"v=" ++ showU64 s.version) :: (c%"o=" ++ showOrigin s.origin) ::
      (c%"s=" ++ s.session.getD c%" ") :: rest := ⟨showSession_lines s, _, rfl⟩

/-- **C51.** A line end inside a line comes from a string in the session. -/
theorem C51_no_inner_line_end {c : Char} (hc : c = '\n' ∨ c = '\r') (s : Session)
    (hs : ∀ t ∈ s.strings, c ∉ t) : ∀ l ∈ s.lines, c ∉ l :=
  Free.sessionLines hc hs

/-- **C51.** So without line ends in the strings, the lines of the printed text are exactly the lines
of the session. -/
theorem C51_lines (s : Session) (hs : ∀ t ∈ s.strings, '\n' ∉ t ∧ '\r' ∉ t) : lines (showSession s) = s.lines := by
  rw [showSession_lines]
  refine lines_crlf fun l hl => ⟨Free.sessionLines (.inl rfl) (fun t ht => (hs t ht).1) l hl, ?_⟩
  intro h
  exact Free.sessionLines (c := '\r') (.inr rfl) (fun t ht => (hs t ht).2) l hl
    (List.mem_of_getLast? h)

/-- The number of lines of a list of fields none of which prints as nothing. -/
theorem textLines_length {p : Str} {ts : List Str} (h : ∀ t ∈ ts, t ≠ []) : (textLines p ts).length = ts.length := by
  rw [textLines_eq h, List.length_map]

/-- **C51.** The number of lines is the number of fields that are present, if no attribute prints as
nothing. -/
theorem C51_line_count (s : Session) (ha : ∀ a ∈ s.attrs, showAttribute a ≠ [])
    (hm : ∀ m ∈ s.media, ∀ a ∈ m.attrs, showAttribute a ≠ []) :
    s.lines.length = 3 + s.timing.toList.length + s.bandwidth.length + s.connection.toList.length + s.attrs.length +
      (s.media.map fun m => 1 + m.bandwidth.length + m.connection.toList.length + m.attrs.length).sum := by
  have hb : ∀ bs : List Bandwidth, ∀ t ∈ bs.map showBandwidth, t ≠ [] := by
    intro bs t ht
    obtain ⟨b, -, rfl⟩ := List.mem_map.1 ht
    cases b <;> simp [showBandwidth]
  have hbody : ∀ (bs : List Bandwidth) (c : Option Connection) (as : List Attribute),
      (∀ a ∈ as, showAttribute a ≠ []) → (bodyLines bs c as).length = bs.length + c.toList.length + as.length := by
    intro bs c as h
    unfold bodyLines
    rw [List.length_append, List.length_append, textLines_length (hb bs), textLines_length (by simpa using h)]
    simp; omega
  unfold Session.lines
  rw [List.length_append, List.length_append, List.length_append, hbody _ _ _ ha, List.length_flatMap]
  have : s.media.map (fun m => m.lines.length) =
      s.media.map fun m => 1 + m.bandwidth.length + m.connection.toList.length + m.attrs.length := by
    refine List.map_congr_left fun m hm' => ?_
    simp only [Media.lines, List.length_cons, hbody _ _ _ (hm m hm')]; omega
  rw [this]
  simp; omega

section
attribute [local instance] sampleEnv
example : (∀ t ∈ sampleSession.strings, '\n' ∉ t ∧ '\r' ∉ t) ∧
    (∀ a ∈ sampleSession.attrs, showAttribute a ≠ []) ∧
    (∀ m ∈ sampleSession.media, ∀ a ∈ m.attrs, showAttribute a ≠ []) ∧ sampleSession.lines.length = 18 := by
  decide +kernel
end

end Sdp
