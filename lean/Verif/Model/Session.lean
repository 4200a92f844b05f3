import Verif.Model.Media
/-!
# Lines and sessions (src/lib.rs)
-/

namespace Sdp

/-- src/lib.rs:401-404 `parse_session` -/
def parseSessionName (v : Str) : IRes SdpType := .ok (.session v)

/-- src/lib.rs:406-415 `parse_version` -/
def parseVersion (v : Str) : IRes SdpType := do
  let n ← parseU64 v
  if n ≠ 0 then egeneric (c%"version type contains unsupported value " ++ showU64 n)
  else return .version n

/-- src/lib.rs:417-480 `parse_origin` -/
def parseOrigin [Env] (v : Str) : IRes SdpType :=
  match splitWs v with
  | [] => egeneric c%"Origin type is missing username token"
  | username :: ts =>
    match ts with
    | [] => egeneric c%"Origin type is missing session ID token"
    | t1 :: ts => do
      let sessionId ← parseU64 t1
      match ts with
      | [] => egeneric c%"Origin type is missing session version token"
      | t2 :: ts =>
        let sessionVersion ← parseU64 t2
        match ts with
        | [] => egeneric c%"Origin type is missing network type token"
        | t3 :: ts =>
          parseNetworkType t3
          match ts with
          | [] => egeneric c%"Origin type is missing address type token"
          | t4 :: ts =>
            let addrtype ← parseAddressType t4
            match ts with
            | [] => egeneric c%"Origin type is missing IP address token"
            | t5 :: _ =>
              let unicastAddr ← typedTryFrom addrtype t5
              if addrtype ≠ unicastAddr.addressType then
                egeneric c%"Origin addrtype does not match address."
              else return .origin ⟨username, sessionId, sessionVersion, unicastAddr⟩

/-- src/lib.rs:491-501: the `address[/ttl[/amount]]` token -/
def parseConnAddr (t : Str) : IRes (Str × Option UInt8 × Option UInt32) :=
  if '/' ∈ t then do
    let ts := splitC '/' t
    let amount ← (if ts.length ≥ 3 then do return some (← parseU32 (← idx ts 2))
      else return none : IRes (Option UInt32))
    let ttl ← parseU8 (← idx ts 1)
    return (← idx ts 0, some ttl, amount)
  else .ok (t, none, none)

/-- src/lib.rs:482-510 `parse_connection` -/
def parseConnection [Env] (v : Str) : IRes SdpType := do
  let cv := splitWs v
  if cv.length ≠ 3 then egeneric c%"connection attribute must have three tokens"
  else
    parseNetworkType (← idx cv 0)
    let addrtype ← parseAddressType (← idx cv 1)
    let (addr, ttl, amount) ← parseConnAddr (← idx cv 2)
    let address ← typedTryFrom addrtype addr
    return .connection ⟨address, ttl, amount⟩

/-- src/lib.rs:512-528 `parse_bandwidth` -/
def parseBandwidth [Env] (v : Str) : IRes SdpType := do
  let bv := splitC ':' v
  if bv.length ≠ 2 then egeneric c%"bandwidth attribute must have two tokens"
  else
    let n ← parseU32 (← idx bv 1)
    let t ← idx bv 0
    let u := upper t
    if u = c%"AS" then return .bandwidth (.as n)
    else if u = c%"CT" then return .bandwidth (.ct n)
    else if u = c%"TIAS" then return .bandwidth (.tias n)
    else return .bandwidth (.unknown t n)

/-- src/lib.rs:530-542 `parse_timing` -/
def parseTiming (v : Str) : IRes SdpType := do
  let tv := splitWs v
  if tv.length ≠ 2 then egeneric c%"timing attribute must have two tokens"
  else
    let start ← parseU64 (← idx tv 0)
    let stop ← parseU64 (← idx tv 1)
    return .timing ⟨start, stop⟩

/-- The match of src/lib.rs:601-634 on the lower-cased type; `value` is trimmed, `raw` is not. -/
def parseLineValue [Env] (ty value raw : Str) : IRes SdpType :=
  if ty = c%"a" then parseAttribute value
  else if ty = c%"b" then parseBandwidth value
  else if ty = c%"c" then parseConnection value
  else if ty = c%"e" then egeneric (c%"unsupported type email: " ++ value)
  else if ty = c%"i" then egeneric (c%"unsupported type information: " ++ value)
  else if ty = c%"k" then egeneric (c%"unsupported insecure key exchange: " ++ value)
  else if ty = c%"m" then parseMedia value
  else if ty = c%"o" then parseOrigin value
  else if ty = c%"p" then egeneric (c%"unsupported type phone: " ++ value)
  else if ty = c%"r" then egeneric (c%"unsupported type repeat: " ++ value)
  else if ty = c%"s" then parseSessionName raw
  else if ty = c%"t" then parseTiming value
  else if ty = c%"u" then egeneric (c%"unsupported type uri: " ++ value)
  else if ty = c%"v" then parseVersion value
  else if ty = c%"z" then egeneric (c%"unsupported type zone: " ++ value)
  else egeneric c%"unknown sdp type"

/-- The `map_err` of src/lib.rs:640-657 -/
def classifyErr (line : Str) (n : Nat) (e : InternalError) : ParserError :=
  match e with
  | .unsupported _ => .unsupported e line n
  | _ => .line e line n

/-- src/lib.rs:544-658 `parse_sdp_line` -/
def parseSdpLine [Env] (line : Str) (n : Nat) : Outcome ParserError SdpLine :=
  let bad (m : Str) : Outcome ParserError SdpLine := .err (.line (.generic m) line n)
  if '=' ∉ line then bad c%"missing = character in line"
  else
    match splitn 2 '=' line with
    | [] => bad c%"missing type"
    | t :: rest =>
      let trimmed := trim t
      if byteLen trimmed > 1 then bad c%"type too long"
      else if trimmed.isEmpty then bad c%"type is empty"
      else
        let ty := lower trimmed
        match rest with
        | [] => bad c%"missing value"
        | v :: _ =>
          let tv := trim v
          if tv.isEmpty ∧ ty ≠ c%"s" then bad c%"value is empty"
          else
            match parseLineValue ty tv v with
            | .ok x => .ok ⟨n, x, line⟩
            | .err e => .err (classifyErr line n e)
            | .panic => .panic

namespace Session

/-- src/lib.rs:239-255 `SdpSession::new` -/
def new (version : UInt64) (origin : Origin) (session : Str) : Session :=
  { version, origin
    session := if (trim session).isEmpty then none else some (trim session)
    connection := none, bandwidth := [], timing := none, attrs := [], media := [], warnings := [] }

/-- src/lib.rs:257-259 `get_version` -/
def getVersion (s : Session) : UInt64 := s.version
/-- src/lib.rs:261-263 `get_origin` -/
def getOrigin (s : Session) : Origin := s.origin
/-- src/lib.rs:265-267 `get_session` -/
def getSession (s : Session) : Option Str := s.session
/-- src/lib.rs:276-278 `get_connection` -/
def getConnection (s : Session) : Option Connection := s.connection

/-- src/lib.rs:280-282 `set_connection` -/
def setConnection (s : Session) (c : Connection) : Session := { s with connection := some c }

/-- src/lib.rs:284-286 `add_bandwidth` -/
def addBandwidth (s : Session) (b : Bandwidth) : Session := { s with bandwidth := s.bandwidth ++ [b] }

/-- src/lib.rs:288-290 `set_timing` -/
def setTiming (s : Session) (t : Timing) : Session := { s with timing := some t }

/-- src/lib.rs:292-300 `add_attribute` -/
def addAttribute (s : Session) (a : Attribute) : Session × IRes Unit :=
  if !a.allowedAtSessionLevel then
    (s, egeneric (showAttribute a ++ c%" not allowed at session level"))
  else ({ s with attrs := s.attrs ++ [a] }, .ok ())

/-- src/lib.rs:302-304 `extend_media` -/
def extendMedia (s : Session) (l : List Media) : Session := { s with media := s.media ++ l }

/-- src/lib.rs:306-338 `parse_session_vector`: the session as left behind, and the result. What is
left in the `lines` argument is `parseVectorLeft`. -/
def parseVector (s : Session) : List SdpLine → Session × Outcome ParserError Unit
  | [] => (s, .ok ())
  | l :: ls =>
    match l.sdpType with
    | .attr a =>
      match s.addAttribute a with
      | (s', .ok ()) => parseVector s' ls
      | (s', .err e) => (s', .err (.sequence (showInternalError e) l.lineNumber))
      | (s', .panic) => (s', .panic)
    | .bandwidth b => parseVector (s.addBandwidth b) ls
    | .timing t => parseVector (s.setTiming t) ls
    | .connection c => parseVector (s.setConnection c) ls
    | .origin _ | .session _ | .version _ =>
      (s, .err (.sequence c%"version, origin or session at wrong level" l.lineNumber))
    | .media _ =>
      (s, .err (.sequence c%"media line not allowed in session parser" l.lineNumber))

/-- src/lib.rs:306-338 `parse_session_vector`: what is left in `lines`, from which every line is removed
(line 308) before it is looked at. -/
def parseVectorLeft (s : Session) : List SdpLine → List SdpLine
  | [] => []
  | l :: ls =>
    match l.sdpType with
    | .attr a =>
      match s.addAttribute a with
      | (s', .ok ()) => parseVectorLeft s' ls
      | _ => ls
    | .bandwidth b => parseVectorLeft (s.addBandwidth b) ls
    | .timing t => parseVectorLeft (s.setTiming t) ls
    | .connection c => parseVectorLeft (s.setConnection c) ls
    | .origin _ | .session _ | .version _ | .media _ => ls

/-- src/lib.rs:340-344 `get_attribute` -/
def getAttribute (s : Session) (t : AttributeType) : Option Attribute :=
  s.attrs.find? (fun a => a.type == t)

/-- src/lib.rs:346-373 `add_media` -/
def addMedia (s : Session) (ty : MediaValue) (direction : Attribute) (port : UInt32)
    (proto : ProtocolValue) (addr : TypedAddress) : Session × IRes Unit :=
  let m := Media.new ⟨ty, port, 1, proto, .integers []⟩
  match m.addAttribute direction with
  | (m, .ok ()) => ({ s with media := s.media ++ [m.setConnection ⟨addr, none, none⟩] }, .ok ())
  | (_, .err e) => (s, .err e)
  | (_, .panic) => (s, .panic)

end Session

/-- The closure `make_seq_error` of src/lib.rs:661-664 -/
def seqError {α : Type} (m : Str) : Outcome ParserError α := .err (.sequence m 0)

/-- src/lib.rs:701-708 -/
def mediaRids (m : Media) : List Rid :=
  m.getAttributes.filterMap fun a => match a with
    | .rid r => some r
    | _ => none

/-- src/lib.rs:709-722 -/
def ridsOfDirection (d : SingleDirection) (rids : List Rid) : List Str :=
  rids.filterMap fun r => if r.direction = d then some r.id else none

/-- src/lib.rs:725-740: is a rid format listed in the m= line? -/
def formatDeclared (f : FormatList) (n : UInt16) : Bool :=
  match f with
  | .integers l => l.contains (UInt32.ofNat n.toNat)
  | .strings l => l.contains (showU16 n)

/-- The loop of src/lib.rs:724-741 -/
def checkRidFormats (f : FormatList) : List UInt16 → Outcome ParserError Unit
  | [] => .ok ()
  | n :: ns =>
    if formatDeclared f n then checkRidFormats f ns
    else seqError c%"Rid pts must be declared in the media section"

/-- The closure `check_defined_rids` of src/lib.rs:746-758 -/
def checkDefinedRids (ids : List Str) : List SimulcastId → Outcome ParserError Unit
  | [] => .ok ()
  | i :: is =>
    if ids.contains i.id then checkDefinedRids ids is
    else seqError c%"Simulcast RIDs must be defined in any rid attribute"

/-- The body of the loop of src/lib.rs:690-763 -/
def checkMedia (m : Media) : Outcome ParserError Unit :=
  if (m.getAttribute .rtcpMuxOnly).isSome ∧ (m.getAttribute .rtcpMux).isNone then
    seqError c%"rtcp-mux-only media sections must also contain the rtcp-mux attribute"
  else do
    let rids := mediaRids m
    let recvRids := ridsOfDirection .recv rids
    let sendRids := ridsOfDirection .send rids
    checkRidFormats m.getFormats (rids.flatMap (fun r => r.formats))
    match m.getAttribute .simulcast with
    | some (.simulcast sc) =>
      checkDefinedRids recvRids (sc.receive.flatMap (fun v => v.ids))
      checkDefinedRids sendRids (sc.send.flatMap (fun v => v.ids))
    | _ => return ()

/-- The loop of src/lib.rs:690-763 -/
def checkMediaList : List Media → Outcome ParserError Unit
  | [] => .ok ()
  | m :: ms => do
    checkMedia m
    checkMediaList ms

/-- src/lib.rs:660-766 `sanity_check_sdp_session` -/
def sanityCheck (s : Session) : Outcome ParserError Unit :=
  if s.timing.isNone then seqError c%"Missing timing type at session level"
  else if !(s.media.all (fun m => m.getConnection.isSome)) ∧ s.getConnection.isNone then
    seqError
      c%"Without connection type at session level all media sections must have connection types"
  else if (s.getAttribute .extmap).isSome ∧ s.media.any (fun m => (m.getAttribute .extmap).isSome) then
    seqError c%"Extmap can't be define at session and media level"
  else checkMediaList s.media

/-- `matches!(l.sdp_type, SdpType::Media(_))` -/
def SdpLine.isMedia (l : SdpLine) : Bool :=
  match l.sdpType with
  | .media _ => true
  | _ => false

/-- src/lib.rs:803-819: everything after the first three lines -/
def finishSession (s : Session) (lines : List SdpLine) : Outcome ParserError Session := do
  let s ← (match lines.findIdx? SdpLine.isMedia with
    | some p =>
      match s.parseVector (lines.take p) with
      | (s, .ok ()) => do
        let ms ← parseMediaVector (lines.drop p)
        return s.extendMedia ms
      | (_, .err e) => .err e
      | (_, .panic) => .panic
    | none =>
      match s.parseVector lines with
      | (s, .ok ()) => .ok s
      | (_, .err e) => .err e
      | (_, .panic) => .panic : Outcome ParserError Session)
  sanityCheck s
  return s

/-- `lines.remove(0)`: panics on an empty vector. -/
def removeFirst {ε α : Type} : List α → Outcome ε (α × List α)
  | [] => .panic
  | x :: xs => .ok (x, xs)

/-- src/lib.rs:768-820 `parse_sdp_vector` -/
def parseSdpVector (lines : List SdpLine) : Outcome ParserError Session := do
  if lines.length < 4 then .err (.sequence c%"SDP neeeds at least 4 lines" 0)
  else
    let (l0, lines) ← removeFirst lines
    match l0.sdpType with
    | .version version =>
      let (l1, lines) ← removeFirst lines
      match l1.sdpType with
      | .origin origin =>
        let (l2, lines) ← removeFirst lines
        match l2.sdpType with
        | .session session => finishSession (Session.new version origin session) lines
        | _ => .err (.sequence c%"third line needs to be session" 2)
      | _ => .err (.sequence c%"second line needs to be origin" 1)
    | _ => .err (.sequence c%"first line needs to be version number" 0)

/-- The three vectors filled by the loop of src/lib.rs:842-884 -/
structure Scan where
  errors : List ParserError
  warnings : List ParserError
  lines : List SdpLine
  deriving DecidableEq, Repr

/-- The loop of src/lib.rs:842-884; `n` is the number of the first line of the list. -/
def scanLines [Env] : Nat → List Str → Scan → Outcome ParserError Scan
  | _, [], sc => .ok sc
  | n, l :: ls, sc =>
    if (trim l).isEmpty then scanLines (n + 1) ls sc
    else
      match parseSdpLine l n with
      | .ok x => scanLines (n + 1) ls { sc with lines := sc.lines ++ [x] }
      | .err (.line e t k) =>
        scanLines (n + 1) ls { sc with errors := sc.errors ++ [.line e t k] }
      | .err (.unsupported e t k) =>
        scanLines (n + 1) ls { sc with warnings := sc.warnings ++ [.unsupported e t k] }
      | .err (.sequence m k) =>
        scanLines (n + 1) ls { sc with errors := sc.errors ++ [.sequence m k] }
      | .panic => .panic

/-- src/lib.rs:886-902 -/
def finishScan (sc : Scan) (failOnWarning : Bool) : Outcome ParserError Session :=
  match failOnWarning, sc.warnings with
  | true, w :: _ => .err w
  | _, _ =>
    match sc.errors.getLast? with
    | some e => .err e
    | none => do
      let s ← parseSdpVector sc.lines
      return { s with warnings := sc.warnings }

/-- src/lib.rs:822-903 `parse_sdp` -/
def parseSdp [Env] (sdp : Str) (failOnWarning : Bool) : Outcome ParserError Session :=
  if sdp.isEmpty then .err (.line (.generic c%"empty SDP") sdp 0)
  else if byteLen sdp < 51 then
    .err (.line (.generic c%"string too short to be valid SDP") sdp 0)
  else do
    let sc ← scanLines 0 (lines sdp) ⟨[], [], []⟩
    finishScan sc failOnWarning

end Sdp
