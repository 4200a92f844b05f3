import Verif.Spec.SerialShape
import Verif.Model.Session
import Verif.Props.RoundTrip
/-!
# C125: where things are in the JSON
-/

namespace Sdp

/-- Entries of the JSON of a list -/
theorem at_list {α : Type} [Ser α] (l : List α) (i : Nat) : (ser l).at [.index i] = l[i]?.map ser := by
  simp only [Json.at, ser, Json.step, List.getElem?_map]
  cases l[i]? <;> rfl

/-- **C125.** The members of the JSON of a session, and where its parts are. -/
theorem C125_session (s : Session) :
    (ser s).keys = [c%"version", c%"origin", c%"session", c%"connection", c%"bandwidth", c%"timing", c%"attribute",
      c%"media", c%"warnings"] ∧
    (ser s).at [.key c%"version"] = some (.nat s.version.toNat) ∧
    (ser s).at [.key c%"origin", .key c%"username"] = some (.str s.origin.username) ∧
    (ser s).at [.key c%"origin", .key c%"session_id"] = some (.nat s.origin.sessionId.toNat) ∧
    (ser s).at [.key c%"origin", .key c%"session_version"] = some (.nat s.origin.sessionVersion.toNat) ∧
    (ser s).at [.key c%"origin", .key c%"unicast_addr"] = some (ser s.origin.unicastAddr) ∧
    (ser s).at [.key c%"session"] = some ((s.session.map .str).getD .null) ∧
    (ser s).at [.key c%"connection"] = some ((s.connection.map ser).getD .null) ∧
    (ser s).at [.key c%"timing", .key c%"start"] = s.timing.map (.nat ·.start.toNat) ∧
    (ser s).at [.key c%"timing", .key c%"stop"] = s.timing.map (.nat ·.stop.toNat) ∧
    (∀ i, (ser s).at [.key c%"bandwidth", .index i] = s.bandwidth[i]?.map ser) ∧
    (∀ i, (ser s).at [.key c%"attribute", .index i] = s.attrs[i]?.map ser) ∧
    (∀ i, (ser s).at [.key c%"media", .index i] = s.media[i]?.map ser) ∧
    ∀ i, (ser s).at [.key c%"warnings", .index i] = s.warnings[i]?.map ser := by
  obtain ⟨v, o, t, c, b, w, a, m, e⟩ := s
  refine ⟨rfl, rfl, rfl, rfl, rfl, rfl, ?_, ?_, ?_, ?_, at_list b, at_list a, at_list m, at_list e⟩
  · cases t <;> rfl
  · cases c <;> rfl
  · cases w <;> rfl
  · cases w <;> rfl

/-- **C125.** The members of the JSON of a media section, and where its parts are. -/
theorem C125_section (m : Media) :
    (ser m).keys = [c%"media", c%"connection", c%"bandwidth", c%"attribute"] ∧
    (ser m).at [.key c%"media", .key c%"media"] = some (ser m.media.media) ∧
    (ser m).at [.key c%"media", .key c%"port"] = some (.nat m.media.port.toNat) ∧
    (ser m).at [.key c%"media", .key c%"port_count"] = some (.nat m.media.portCount.toNat) ∧
    (ser m).at [.key c%"media", .key c%"proto"] = some (ser m.media.proto) ∧
    (∀ l, m.media.formats = .integers l → ∀ i,
      (ser m).at [.key c%"media", .key c%"formats", .key c%"Integers", .index i] = l[i]?.map (.nat ·.toNat)) ∧
    (∀ l, m.media.formats = .strings l → ∀ i,
      (ser m).at [.key c%"media", .key c%"formats", .key c%"Strings", .index i] = l[i]?.map .str) ∧
    (ser m).at [.key c%"connection"] = some ((m.connection.map ser).getD .null) ∧
    (∀ i, (ser m).at [.key c%"bandwidth", .index i] = m.bandwidth[i]?.map ser) ∧
    ∀ i, (ser m).at [.key c%"attribute", .index i] = m.attrs[i]?.map ser := by
  obtain ⟨⟨v, p, n, t, f⟩, c, b, a⟩ := m
  refine ⟨rfl, rfl, rfl, rfl, rfl, ?_, ?_, ?_, at_list b, at_list a⟩
  · rintro l rfl
    exact at_list l
  · rintro l rfl
    exact at_list l
  · cases c <;> rfl

/-- **C125.** The JSON of a connection, of an address and of a host. -/
theorem C125_address (c : Connection) (t : AddressType) (a : IpAddr) (d : Str) :
    (ser c).keys = [c%"address", c%"ttl", c%"amount"] ∧
    (ser c).at [.key c%"address"] = some (ser c.address) ∧
    (ser c).at [.key c%"ttl"] = some ((c.ttl.map (.nat ·.toNat)).getD .null) ∧
    (ser c).at [.key c%"amount"] = some ((c.amount.map (.nat ·.toNat)).getD .null) ∧
    (ser (TypedAddress.ip a)).tag = some c%"Ip" ∧
    (ser (TypedAddress.ip a)).at [.key c%"Ip"] = some (.str (showIp a)) ∧
    (ser (TypedAddress.fqdn t d)).tag = some c%"Fqdn" ∧
    (ser (TypedAddress.fqdn t d)).at [.key c%"Fqdn", .key c%"domain"] = some (.str d) ∧
    (ser (TypedAddress.fqdn t d)).at [.key c%"Fqdn", .key c%"address_type"] =
      some (.str (match t with | .ipV4 => c%"IpV4" | .ipV6 => c%"IpV6")) ∧
    ser (Address.ip a) = .obj [(c%"Ip", .str (showIp a))] ∧ ser (Address.fqdn d) = .obj [(c%"Fqdn", .str d)] := by
  obtain ⟨x, l, n⟩ := c
  refine ⟨rfl, rfl, ?_, ?_, rfl, rfl, rfl, rfl, ?_, rfl, rfl⟩
  · cases l <;> rfl
  · cases n <;> rfl
  · cases t <;> rfl

theorem attrToString_ne (t : AttributeType) (s : Str) : attrToString t s ≠ t.name := by
  intro h
  have := congrArg List.length h
  unfold attrToString at this
  cases s with
  | nil => cases t <;> simp [AttributeType.name] at this
  | cons a s => simp at this

/-- **C125.** An attribute is tagged with its name in SDP, but for case and hyphens; only `remote-candidates` loses its
last letter. It is a bare tag exactly if what is written is the name alone. -/
theorem C125_attribute (a : Attribute) :
    (∃ t, (ser a).tag = some t ∧
      plainName a.type.name = plainName t ++ if a.type = .remoteCandidate then c%"s" else []) ∧
    ((∃ t, ser a = .str t) ↔ showAttribute a = a.type.name) := by
  constructor
  · cases a <;> exact ⟨_, rfl, by simp only [Attribute.type, reduceCtorEq, if_true, if_false]; decide +kernel⟩
  · cases a
    case ssrcGroup x l =>
      refine ⟨fun ⟨_, h⟩ => Json.noConfusion h, fun h => ?_⟩
      have := congrArg List.length h
      cases x <;> simp [showAttribute, attrToString, showSsrcGroupSemantic, Attribute.type] at this
    all_goals
      simp only [showAttribute, Attribute.type, ne_eq, attrToString_ne, iff_false, iff_true]
      first
        | exact ⟨_, rfl⟩
        | exact fun ⟨_, h⟩ => Json.noConfusion h

/-- **C125.** Kinds of media and protocols are tagged with their names in SDP, but for case and slashes; bandwidths with
their types, but for case. -/
theorem C125_names (v : MediaValue) (p : ProtocolValue) (n : UInt32) (t : Str) :
    (∃ t, ser v = .str t ∧ plainName t = plainName (showMediaValue v)) ∧
    (∃ t, ser p = .str t ∧ plainName t = plainName (showProtocol p)) ∧
    ser (Bandwidth.as n) = .obj [(c%"As", .nat n.toNat)] ∧ ser (Bandwidth.ct n) = .obj [(c%"Ct", .nat n.toNat)] ∧
    ser (Bandwidth.tias n) = .obj [(c%"Tias", .nat n.toNat)] ∧
    ser (Bandwidth.unknown t n) = .obj [(c%"Unknown", .arr [.str t, .nat n.toNat])] := by
  refine ⟨?_, ?_, rfl, rfl, rfl, rfl⟩
  · cases v <;> exact ⟨_, rfl, by decide +kernel⟩
  · cases p <;> exact ⟨_, rfl, by decide +kernel⟩

/-- **C125.** The values of attributes that are a text, a number, a finite float or a list of texts. -/
theorem C125_values (t : Str) (l : List Str) (n : UInt64) (x : F64) (fin : x.bits.toNat % 2 ^ 63 < 0x7ff0000000000000) :
    (∀ a ∈ [(c%"IcePwd", Attribute.icePwd t), (c%"IceUfrag", .iceUfrag t), (c%"Identity", .identity t),
      (c%"Label", .label t), (c%"Mid", .mid t)], (ser a.2).at [.key a.1] = some (.str t)) ∧
    (∀ a ∈ [(c%"IcePacing", Attribute.icePacing n), (c%"MaxMessageSize", .maxMessageSize n),
      (c%"MaxPtime", .maxPtime n), (c%"Ptime", .ptime n), (c%"SctpPort", .sctpPort n)], (ser a.2).at [.key a.1] = some (.nat n.toNat)) ∧
    (ser (Attribute.frameRate x)).at [.key c%"FrameRate"] = some (.f64 x.bits) ∧
    ∀ i, (ser (Attribute.iceOptions l)).at [.key c%"IceOptions", .index i] = l[i]?.map .str := by
  refine ⟨?_, ?_, ?_, at_list l⟩
  · intro a ha
    simp only [List.mem_cons, List.not_mem_nil, or_false] at ha
    rcases ha with rfl | rfl | rfl | rfl | rfl <;> rfl
  · intro a ha
    simp only [List.mem_cons, List.not_mem_nil, or_false] at ha
    rcases ha with rfl | rfl | rfl | rfl | rfl <;> rfl
  · show some (ser x) = _
    simp only [ser, fin, if_true]

theorem has_nil {P : Str × Json → Prop} : ∀ p ∈ ([] : List (Str × Json)), P p := fun _ h => nomatch h

theorem has_cons {x : Json} {k : Str} {j : Json} {l : List (Str × Json)} (h : x.at [.key k] = some j)
    (t : ∀ p ∈ l, x.at [.key p.1] = some p.2) : ∀ p ∈ (k, j) :: l, x.at [.key p.1] = some p.2 := by
  intro p hp
  rcases List.mem_cons.1 hp with rfl | hp
  · exact h
  · exact t p hp

/-- Each member is found under its name. -/
macro "ser_has" : tactic => `(tactic| (repeat' first | exact has_nil | refine has_cons rfl ?_))

/-- **C125.** The fields of candidates. -/
theorem C125_ice (a : Candidate) (b : RemoteCandidate) :
    (ser a).Has [(c%"foundation", ser a.foundation), (c%"component", ser a.component),
      (c%"transport", ser a.transport), (c%"priority", ser a.priority), (c%"address", ser a.address),
      (c%"port", ser a.port), (c%"c_type", ser a.cType), (c%"raddr", ser a.raddr), (c%"rport", ser a.rport),
      (c%"tcp_type", ser a.tcpType), (c%"generation", ser a.generation), (c%"ufrag", ser a.ufrag),
      (c%"networkcost", ser a.networkcost), (c%"unknown_extensions", ser a.unknownExtensions)] ∧
    (ser b).Has [(c%"component", ser b.component), (c%"address", ser b.address), (c%"port", ser b.port)] := by
  refine ⟨⟨rfl, ?_⟩, ⟨rfl, ?_⟩⟩ <;> ser_has

/-- **C125.** The fields of codecs and their parameters. -/
theorem C125_codec (a : Rtpmap) (b : Fmtp) (c : FmtpParams) (d : RtxParams) (e : RtcpFb) :
    (ser a).Has [(c%"payload_type", ser a.payloadType), (c%"codec_name", ser a.codecName),
      (c%"frequency", ser a.frequency), (c%"channels", ser a.channels)] ∧
    (ser b).Has [(c%"payload_type", ser b.payloadType), (c%"parameters", ser b.parameters)] ∧
    (ser c).Has [(c%"packetization_mode", ser c.packetizationMode),
      (c%"level_asymmetry_allowed", ser c.levelAsymmetryAllowed), (c%"profile_level_id", ser c.profileLevelId),
      (c%"max_fs", ser c.maxFs), (c%"max_cpb", ser c.maxCpb), (c%"max_dpb", ser c.maxDpb),
      (c%"max_br", ser c.maxBr), (c%"max_mbps", ser c.maxMbps), (c%"max_fr", ser c.maxFr),
      (c%"profile", ser c.profile), (c%"level_idx", ser c.levelIdx), (c%"tier", ser c.tier),
      (c%"maxplaybackrate", ser c.maxplaybackrate), (c%"maxaveragebitrate", ser c.maxaveragebitrate),
      (c%"usedtx", ser c.usedtx), (c%"stereo", ser c.stereo), (c%"useinbandfec", ser c.useinbandfec),
      (c%"cbr", ser c.cbr), (c%"ptime", ser c.ptime), (c%"minptime", ser c.minptime),
      (c%"maxptime", ser c.maxptime), (c%"encodings", ser c.encodings), (c%"dtmf_tones", ser c.dtmfTones),
      (c%"rtx", ser c.rtx), (c%"unknown_tokens", ser c.unknownTokens)] ∧
    (ser d).Has [(c%"apt", ser d.apt), (c%"rtx_time", ser d.rtxTime)] ∧
    (ser e).Has [(c%"payload_type", ser e.payloadType), (c%"feedback_type", ser e.feedbackType),
      (c%"parameter", ser e.parameter), (c%"extra", ser e.extra)] := by
  refine ⟨⟨rfl, ?_⟩, ⟨rfl, ?_⟩, ⟨rfl, ?_⟩, ⟨rfl, ?_⟩, ⟨rfl, ?_⟩⟩ <;> ser_has

/-- **C125.** The fields of simulcast, rids, image attributes, sources and media streams. -/
theorem C125_streams (a : Simulcast) (b : SimulcastVersion) (c : SimulcastId) (d : Rid) (e : RidParams)
    (f : ImageAttr) (g : ImageAttrSet) (h : PRange) (i : Ssrc) (j : Msid) (k : MsidSemantic) :
    (ser a).Has [(c%"send", ser a.send), (c%"receive", ser a.receive)] ∧
    (ser b).Has [(c%"ids", ser b.ids)] ∧
    (ser c).Has [(c%"id", ser c.id), (c%"paused", ser c.paused)] ∧
    (ser d).Has [(c%"id", ser d.id), (c%"direction", ser d.direction), (c%"formats", ser d.formats),
      (c%"params", ser d.params), (c%"depends", ser d.depends)] ∧
    (ser e).Has [(c%"max_width", ser e.maxWidth), (c%"max_height", ser e.maxHeight), (c%"max_fps", ser e.maxFps),
      (c%"max_fs", ser e.maxFs), (c%"max_br", ser e.maxBr), (c%"max_pps", ser e.maxPps),
      (c%"unknown", ser e.unknown)] ∧
    (ser f).Has [(c%"pt", ser f.pt), (c%"send", ser f.send), (c%"recv", ser f.recv)] ∧
    (ser g).Has [(c%"x", ser g.x), (c%"y", ser g.y), (c%"sar", ser g.sar), (c%"par", ser g.par),
      (c%"q", ser g.q)] ∧
    (ser h).Has [(c%"min", ser h.min), (c%"max", ser h.max)] ∧
    (ser i).Has [(c%"id", ser i.id), (c%"attribute", ser i.attr), (c%"value", ser i.value)] ∧
    (ser j).Has [(c%"id", ser j.id), (c%"appdata", ser j.appdata)] ∧
    (ser k).Has [(c%"semantic", ser k.semantic), (c%"msids", ser k.msids)] := by
  refine ⟨⟨rfl, ?_⟩, ⟨rfl, ?_⟩, ⟨rfl, ?_⟩, ⟨rfl, ?_⟩, ⟨rfl, ?_⟩, ⟨rfl, ?_⟩, ⟨rfl, ?_⟩, ⟨rfl, ?_⟩,
    ⟨rfl, ?_⟩, ⟨rfl, ?_⟩, ⟨rfl, ?_⟩⟩ <;> ser_has

/-- **C125.** The fields of extensions, fingerprints, groups, RTCP and SCTP. -/
theorem C125_transport (a : Extmap) (b : Fingerprint) (c : Group) (d : Rtcp) (e : Sctpmap) :
    (ser a).Has [(c%"id", ser a.id), (c%"direction", ser a.direction), (c%"url", ser a.url),
      (c%"extension_attributes", ser a.extensionAttributes)] ∧
    (ser b).Has [(c%"hash_algorithm", ser b.hashAlgorithm), (c%"fingerprint", ser b.fingerprint)] ∧
    (ser c).Has [(c%"semantics", ser c.semantics), (c%"tags", ser c.tags)] ∧
    (ser d).Has [(c%"port", ser d.port), (c%"unicast_addr", ser d.unicastAddr)] ∧
    (ser e).Has [(c%"port", ser e.port), (c%"channels", ser e.channels)] := by
  refine ⟨⟨rfl, ?_⟩, ⟨rfl, ?_⟩, ⟨rfl, ?_⟩, ⟨rfl, ?_⟩, ⟨rfl, ?_⟩⟩ <;> ser_has

/-- **C125.** What is named in attributes is tagged with its name in SDP, but for case and hyphens; where SDP
abbreviates or adds to a name the tag is given. -/
theorem C125_attribute_names (a : CandType) (b : CandTransport) (c : Setup) (d : HashType) (e : Direction)
    (f : SingleDirection) :
    (∃ t, ser a = .str t ∧ plainName t = plainName (showCandType a)) ∧
    (∃ t, ser b = .str t ∧ plainName t = plainName (showCandTransport b)) ∧
    (∃ t, ser c = .str t ∧ plainName t = plainName (showSetup c)) ∧
    (∃ t, ser d = .str t ∧ plainName t = plainName (showHashType d)) ∧
    (∃ t, ser e = .str t ∧ plainName t = plainName (showDirection e)) ∧
    (∃ t, ser f = .str t ∧ plainName t = plainName (showSingleDirection f)) ∧
    (∀ g : CandTcpType, ser g = .str c%"Simultaneous" ∧ showCandTcpType g = c%"so" ∨
      ∃ t, ser g = .str t ∧ plainName t = plainName (showCandTcpType g)) ∧
    (∀ g : RtcpFbType, ser g = .str c%"Remb" ∧ showRtcpFbType g = c%"goog-remb" ∨
      ser g = .str c%"TransCc" ∧ showRtcpFbType g = c%"transport-cc" ∨
      ∃ t, ser g = .str t ∧ plainName t = plainName (showRtcpFbType g)) ∧
    (∀ g : GroupSemantic, ∃ p ∈ [(c%"LS", c%"LipSynchronization"), (c%"FID", c%"FlowIdentification"),
      (c%"SRF", c%"SingleReservationFlow"), (c%"ANAT", c%"AlternateNetworkAddressType"),
      (c%"FEC", c%"ForwardErrorCorrection"), (c%"DDP", c%"DecodingDependency"), (c%"BUNDLE", c%"Bundle")],
      showGroupSemantic g = p.1 ∧ ser g = .str p.2) ∧
    ∀ g : SsrcGroupSemantic, ∃ p ∈ [(c%"DUP", c%"Duplication"), (c%"FID", c%"FlowIdentification"),
      (c%"FEC", c%"ForwardErrorCorrection"), (c%"FEC-FR", c%"ForwardErrorCorrectionFr"), (c%"SIM", c%"Sim")],
      showSsrcGroupSemantic g = p.1 ∧ ser g = .str p.2 := by
  refine ⟨?_, ?_, ?_, ?_, ?_, ?_, ?_, ?_, ?_, ?_⟩
  · cases a <;> exact ⟨_, rfl, by decide +kernel⟩
  · cases b <;> exact ⟨_, rfl, by decide +kernel⟩
  · cases c <;> exact ⟨_, rfl, by decide +kernel⟩
  · cases d <;> exact ⟨_, rfl, by decide +kernel⟩
  · cases e <;> exact ⟨_, rfl, by decide +kernel⟩
  · cases f <;> exact ⟨_, rfl, by decide +kernel⟩
  · intro g
    cases g <;> first | exact .inr ⟨_, rfl, by decide +kernel⟩ | exact .inl ⟨rfl, rfl⟩
  · intro g
    cases g <;> first
      | exact .inr (.inr ⟨_, rfl, by decide +kernel⟩)
      | exact .inl ⟨rfl, rfl⟩
      | exact .inr (.inl ⟨rfl, rfl⟩)
  · intro g
    cases g <;> exact ⟨(_, _), by decide +revert, rfl, rfl⟩
  · intro g
    cases g <;> exact ⟨(_, _), by decide +revert, rfl, rfl⟩

/-! ## Objects -/

class SerProper (α : Type) [Ser α] : Prop where
  proper : ∀ a : α, (ser a).Proper

theorem all_nil : ∀ p ∈ ([] : List (Str × Json)), p.2.Proper := fun _ h => nomatch h

theorem all_cons {k : Str} {j : Json} {l : List (Str × Json)} (h : j.Proper) (t : ∀ p ∈ l, p.2.Proper) :
    ∀ p ∈ (k, j) :: l, p.2.Proper := by
  intro p hp
  rcases List.mem_cons.1 hp with rfl | hp
  · exact h
  · exact t p hp

theorem arr_nil : ∀ x ∈ ([] : List Json), x.Proper := fun _ h => nomatch h

theorem arr_cons {j : Json} {l : List Json} (h : j.Proper) (t : ∀ x ∈ l, x.Proper) : ∀ x ∈ j :: l, x.Proper := by
  intro x hx
  rcases List.mem_cons.1 hx with rfl | hx
  · exact h
  · exact t x hx

instance : SerProper Bool := ⟨fun _ => .bool _⟩
instance : SerProper UInt8 := ⟨fun _ => .nat _⟩
instance : SerProper UInt16 := ⟨fun _ => .nat _⟩
instance : SerProper UInt32 := ⟨fun _ => .nat _⟩
instance : SerProper UInt64 := ⟨fun _ => .nat _⟩
instance : SerProper Nat := ⟨fun _ => .nat _⟩
instance : SerProper Str := ⟨fun _ => .str _⟩
instance : SerProper IpAddr := ⟨fun _ => .str _⟩
instance : SerProper F32 := ⟨fun x => by simp only [ser]; split <;> first | exact .null | exact .f32 _⟩
instance : SerProper F64 := ⟨fun x => by simp only [ser]; split <;> first | exact .null | exact .f64 _⟩
instance {α : Type} [Ser α] [SerProper α] : SerProper (Option α) := ⟨fun
  | none => .null
  | some x => SerProper.proper x⟩
instance {α : Type} [Ser α] [SerProper α] : SerProper (List α) := ⟨fun l => .arr _ fun x hx => by
  obtain ⟨a, _, rfl⟩ := List.mem_map.1 hx
  exact SerProper.proper a⟩
instance {α β : Type} [Ser α] [Ser β] [SerProper α] [SerProper β] : SerProper (α × β) :=
  ⟨fun p => .arr _ (arr_cons (SerProper.proper p.1) (arr_cons (SerProper.proper p.2) arr_nil))⟩

/-- A record, a bare name or a variant, by its members. -/
macro "ser_proper" : tactic => `(tactic| (
  constructor
  intro a
  cases a <;> first
    | exact .str _
    | exact .variant _ _ (by decide) (SerProper.proper _)
    | (refine .variant _ _ (by decide) (.arr _ ?_)
       repeat' first | exact arr_nil | refine arr_cons (SerProper.proper _) ?_)
    | (refine .record _ (by simp only [List.map_cons, List.map_nil]; decide)
         (by simp only [List.map_cons, List.map_nil]; decide) ?_
       repeat' first | exact all_nil | refine all_cons (SerProper.proper _) ?_)))

instance : SerProper AddressType := by ser_proper
instance : SerProper Address := by ser_proper
instance : SerProper TypedAddress := ⟨fun
  | .fqdn t d => .variant _ _ (by decide) (.record _ (by simp only [List.map_cons, List.map_nil]; decide)
      (by simp only [List.map_cons, List.map_nil]; decide)
      (all_cons (SerProper.proper t) (all_cons (SerProper.proper d) all_nil)))
  | .ip a => .variant _ _ (by decide) (SerProper.proper a)⟩
instance : SerProper SingleDirection := by ser_proper
instance : SerProper PayloadType := by ser_proper
instance : SerProper CandTransport := by ser_proper
instance : SerProper CandType := by ser_proper
instance : SerProper CandTcpType := by ser_proper
instance : SerProper Candidate := by ser_proper
instance : SerProper DtlsMessage := by ser_proper
instance : SerProper RemoteCandidate := by ser_proper
instance : SerProper SimulcastId := by ser_proper
instance : SerProper SimulcastVersion := by ser_proper
instance : SerProper Simulcast := by ser_proper
instance : SerProper Rtcp := by ser_proper
instance : SerProper RtcpFbType := by ser_proper
instance : SerProper RtcpFb := by ser_proper
instance : SerProper Direction := by ser_proper
instance : SerProper Extmap := by ser_proper
instance : SerProper RtxParams := by ser_proper
instance : SerProper FmtpParams := by ser_proper
instance : SerProper Fmtp := by ser_proper
instance : SerProper HashType := by ser_proper
instance : SerProper Fingerprint := by ser_proper
instance : SerProper XyRange := by ser_proper
instance : SerProper SRange := by ser_proper
instance : SerProper PRange := by ser_proper
instance : SerProper ImageAttrSet := by ser_proper
instance : SerProper ImageAttrSetList := by ser_proper
instance : SerProper ImageAttr := by ser_proper
instance : SerProper Sctpmap := by ser_proper
instance : SerProper GroupSemantic := by ser_proper
instance : SerProper Group := by ser_proper
instance : SerProper Msid := by ser_proper
instance : SerProper MsidSemantic := by ser_proper
instance : SerProper RidParams := by ser_proper
instance : SerProper Rid := by ser_proper
instance : SerProper Rtpmap := by ser_proper
instance : SerProper Setup := by ser_proper
instance : SerProper Ssrc := by ser_proper
instance : SerProper SsrcGroupSemantic := by ser_proper
instance : SerProper Attribute := by ser_proper
instance : SerProper Bandwidth := by ser_proper
instance : SerProper Connection := by ser_proper
instance : SerProper Origin := by ser_proper
instance : SerProper Timing := by ser_proper
instance : SerProper MediaValue := by ser_proper
instance : SerProper ProtocolValue := by ser_proper
instance : SerProper FormatList := by ser_proper
instance : SerProper MediaLine := by ser_proper
instance : SerProper SdpType := by ser_proper
instance : SerProper SdpLine := by ser_proper
instance : SerProper Media := by ser_proper
instance : SerProper ParserError := ⟨by
  intro a
  cases a <;>
    (simp only [ser, ParserError.serStruct, List.cons_append, List.nil_append]
     refine .record _ (by simp only [List.map_cons, List.map_nil]; decide)
       (by simp only [List.map_cons, List.map_nil]; decide) ?_
     repeat' first | exact all_nil | refine all_cons (.str _) ?_ | refine all_cons (.nat _) ?_)⟩
instance : SerProper Session := by ser_proper

/-- **C125.** In the JSON of a session no object, at any depth, has two members of the same name; records have names of
fields and variants have one member, with the name of the variant. The same is true of a section and of an attribute. -/
theorem C125_proper (s : Session) (m : Media) (a : Attribute) (e : ParserError) :
    (ser s).Proper ∧ (ser m).Proper ∧ (ser a).Proper ∧ (ser e).Proper :=
  ⟨SerProper.proper s, SerProper.proper m, SerProper.proper a, SerProper.proper e⟩

section Examples
example : (ser sampleSession).at [.key c%"media", .index 1, .key c%"attribute", .index 1, .key c%"SctpPort"] =
    some (.nat 5000) := rfl
example : (ser sampleSession).at [.key c%"media", .index 1, .key c%"bandwidth", .index 0, .key c%"Tias"] =
    some (.nat 5) := rfl
example : (ser sampleSession).at [.key c%"timing", .key c%"stop"] = some (.nat 1) := rfl

/-- An object that is not proper -/
example : ¬(Json.obj [(c%"a", .null), (c%"a", .null)]).Proper := by
  intro h
  cases h with
  | record _ _ d => exact absurd d (by decide)

example : ∃ a : Attribute, (ser a).tag = some c%"RemoteCandidate" ∧ a.type.name = c%"remote-candidates" :=
  ⟨.remoteCandidate ⟨1, .fqdn c%"x", 9⟩, rfl, rfl⟩

end Examples

end Sdp
