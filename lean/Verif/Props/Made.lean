import Verif.Props.History
/-!
# C93: what the getters give for a session or section made from scratch, and for one of any origin

`C93_session` and `C93_section_fields` compare what is held after a history with what was held before. Here nothing
is left to compare with: the session and the section are made by their constructors, and the getters are compared with
the text.
-/

namespace Sdp

section
variable [Env]

/-- **C93.** A session that was made and then changed by any history of calls: the getters give what the session was
made with, what was given last, and everything that was added. -/
theorem C93_made_session (v : UInt64) (o : Origin) (name : Str) (ops : List SessionOp) :
    let r := ops.foldl Session.apply (Session.new v o name)
    let xs := ops.flatMap SessionOp.given
    r.getVersion = v ∧ r.getOrigin = o ∧ r.getSession = (if trim name = [] then none else some (trim name)) ∧
    r.getConnection = (connectionsIn xs).getLast? ∧ r.timing = (timingsIn xs).getLast? ∧
    r.bandwidth = bandwidthsIn xs ∧ r.attrs = attributesIn xs ∧
    r.media = ops.flatMap SessionOp.sections ∧ r.warnings = [] ∧
    ∀ t, r.getAttribute t = ((attributesIn xs).filter fun a => a.type = t).head? := by
  obtain ⟨h1, h2, h3, h4, h5, h6, h7, h8, h9, h10⟩ := C93_session (Session.new v o name) ops
  refine ⟨h1, h2, h3.trans ?_, h5.trans ?_, h6.trans ?_, h7, h8, h9, h4, h10⟩
  · simp [Session.new, Session.getSession]
  · simp [Session.new, Session.getConnection]
  · simp [Session.new]

/-- **C93.** The same for a media section made from the value of an `m=` line. -/
theorem C93_made_section (l : MediaLine) (ops : List MediaOp) :
    let r := (Media.new l).applyAll ops
    r.getPort = ((ops.filterMap fun op => match op with | .setPort p => some p | _ => none).getLast?).getD l.port ∧
    r.getConnection = (ops.filterMap fun op => match op with | .setConnection c => some c | _ => none).getLast? ∧
    r.getBandwidth = (ops.filterMap fun op => match op with | .addBandwidth b => some b | _ => none) ∧
    r.getPortCount = l.portCount ∧ r.getProto = l.proto ∧
    (r.getType = if ops.any (fun op => match op with | .addDatachannel _ _ _ _ => true | _ => false) then .application
      else l.media) ∧
    r.getAttributes = addedAndKept (isSctp l.proto) ops ∧
    ((∀ op ∈ ops, op.replacesFormats = false) → r.getFormats = l.formats.more (codecsOf ops)) := by
  obtain ⟨h1, h2, h3, h4, h5, h6⟩ := C93_section_fields (Media.new l) ops
  refine ⟨h1, h2.trans ?_, h3, h4, h5, h6, ?_, fun h => (C93_section_formats (Media.new l) h).1⟩
  · exact Option.or_none
  · have := C93_section_attributes (Media.new l) ops
    simpa [Media.new, Media.getAttributes] using this

/-- **C93.** Of whatever origin a session is: its text has in the `v=`, `o=` and `s=` lines what the getters give, and
its `c=` line, if any, is after those, with what `get_connection` gives. -/
theorem C93_getters_session (s : Session) :
    ∃ tb rest, showSession s =
      c%"v=" ++ showNat s.getVersion.toNat ++ c%"\r\no=" ++ showOrigin s.getOrigin ++ c%"\r\ns=" ++
        s.getSession.getD c%" " ++ c%"\r\n" ++ tb ++
        (match s.getConnection with | some c => c%"c=" ++ showConnection c ++ c%"\r\n" | none => []) ++ rest ∧
      tb = (match s.timing with
        | some t => c%"t=" ++ showNat t.start.toNat ++ c%" " ++ showNat t.stop.toNat ++ c%"\r\n"
        | none => []) ++ maybeVec c%"b=" c%"\r\n" c%"\r\nb=" (s.bandwidth.map showBandwidth) ∧
      rest = maybeVec c%"a=" c%"\r\n" c%"\r\na=" (s.attrs.map showAttribute) ++ (s.media.map showMedia).flatten := by
  refine ⟨_, _, ?_, rfl, rfl⟩
  have h : s.getSessionText = s.getSession.getD c%" " := by
    unfold Session.getSessionText Session.getSession
    cases s.session <;> rfl
  unfold showSession
  rw [h]
  unfold Session.getVersion Session.getOrigin Session.getConnection showU64
  cases s.timing <;> cases s.connection <;> simp [showTiming, showU64, List.append_assoc]

/-- **C93.** The same for a section: all of its text is made of what the getters give. -/
theorem C93_getters_section (m : Media) :
    showMedia m =
      c%"m=" ++ showMediaValue m.getType ++ c%" " ++ showNat m.getPort.toNat ++
        (if m.getPortCount = 0 then [] else c%"/" ++ showNat m.getPortCount.toNat) ++ c%" " ++
        showProtocol m.getProto ++ c%" " ++ showFormatList m.getFormats ++ c%"\r\n" ++
        maybeVec c%"b=" c%"\r\n" c%"\r\nb=" (m.getBandwidth.map showBandwidth) ++
        (match m.getConnection with | some c => c%"c=" ++ showConnection c ++ c%"\r\n" | none => []) ++
        maybeVec c%"a=" c%"\r\n" c%"\r\na=" (m.getAttributes.map showAttribute) := by
  unfold showMedia showMediaLine Media.getType Media.getPort Media.getPortCount Media.getProto Media.getFormats
    Media.getBandwidth Media.getConnection Media.getAttributes maybeParam showU32
  cases m.connection <;> by_cases h : m.media.portCount = 0 <;> simp [h, List.append_assoc]

end

/-! ## A concrete session and section -/

section
attribute [local instance] sampleEnv

def madeSession : Session :=
  [SessionOp.addAttribute .iceLite, .addAttribute .rtcpMux, .setTiming ⟨1, 2⟩].foldl Session.apply
    (Session.new 7 ⟨c%"-", 1, 2, .ip (.v4 0)⟩ c%" talk ")

def madeSection : Media :=
  (Media.new ⟨.video, 0, 2, .udpTlsRtpSavpf, .integers [100]⟩).applyAll
    [.setPort 9, .addAttribute .rtcpMux, .addCodec ⟨96, c%"VP8", 90000, none⟩]

example : madeSession.getVersion = 7 ∧ madeSession.getSession = some c%"talk" ∧ madeSession.timing = some ⟨1, 2⟩ ∧
    madeSession.attrs = [.iceLite] ∧
    showSession madeSession = c%"v=7\r\no=- 1 2 IN IP4 0.0.0.0\r\ns=talk\r\nt=1 2\r\na=ice-lite\r\n" := by
  decide +kernel

example : madeSection.getPort = 9 ∧ madeSection.getPortCount = 2 ∧ madeSection.getType = .video ∧
    madeSection.getFormats = .integers [100, 96] ∧
    madeSection.getAttributes = [.rtcpMux, .rtpmap ⟨96, c%"VP8", 90000, none⟩] := by decide +kernel

end

end Sdp
