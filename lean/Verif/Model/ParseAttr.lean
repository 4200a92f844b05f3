import Verif.Model.Address
/-!
# Attribute parsing (src/attribute_type.rs:1738-3428, 1440-1511)

Token iterators are lists; `tokens.next()` is a pattern match on the list. `v[i]` is `idx v i`,
which panics out of bounds.
-/

namespace Sdp

def egeneric {α : Type} (m : Str) : IRes α := .err (.generic m)
def eunsupported {α : Type} (m : Str) : IRes α := .err (.unsupported m)

/-- src/attribute_type.rs:1738-1746 `string_or_empty` -/
def stringOrEmpty (s : Str) : IRes Str :=
  if s.isEmpty then egeneric c%"This attribute is required to have a value" else .ok s

/-- src/attribute_type.rs:1748-1753 `parse_payload_type` -/
def parsePayloadType (s : Str) : IRes PayloadType :=
  if s = c%"*" then .ok .wildcard else do return .pt (← parseU8 s)

/-- src/attribute_type.rs:1755-1763 `parse_single_direction` -/
def parseSingleDirection (s : Str) : IRes SingleDirection :=
  if s = c%"send" then .ok .send
  else if s = c%"recv" then .ok .recv
  else egeneric (c%"Unknown direction description found: '" ++ s ++ c%"'")

/-- src/attribute_type.rs:1232-1240 `SdpAttributeSsrc::set_attribute` -/
def Ssrc.setAttribute (x : Ssrc) (a : Str) : IRes Ssrc :=
  if ':' ∉ a then .ok { x with attr := some a }
  else do
    let v := splitn 2 ':' a
    let v0 ← idx v 0
    let v1 ← idx v 1
    return { x with attr := some v0, value := some v1 }

/-- src/attribute_type.rs:3408-3424 `parse_ssrc` (the `SdpAttribute::Ssrc` it returns is unwrapped
here and put back in `parseAttr`) -/
def parseSsrc (s : Str) : IRes Ssrc :=
  match splitn 2 ' ' s with
  | [] => egeneric c%"Ssrc attribute is missing ssrc-id value"
  | x :: rest => do
    let id ← parseU32 x
    let ssrc : Ssrc := ⟨id, none, none⟩
    match rest with
    | [] => return ssrc
    | a :: _ => ssrc.setAttribute a

/-- The semantics match of src/attribute_type.rs:1777-1788 -/
def parseSsrcGroupSemantic [Env] (x : Str) : IRes SsrcGroupSemantic :=
  let u := upper x
  if u = c%"DUP" then .ok .duplication
  else if u = c%"FID" then .ok .flowIdentification
  else if u = c%"FEC" then .ok .forwardErrorCorrection
  else if u = c%"FEC-FR" then .ok .forwardErrorCorrectionFr
  else if u = c%"SIM" then .ok .sim
  else eunsupported (c%"Unknown ssrc semantic '" ++ debugStr u ++ c%"' found")

/-- src/attribute_type.rs:1769-1811 `parse_ssrc_group`. The `unreachable!()` arm is gone because
`parseSsrc` has the narrower type. -/
def parseSsrcGroup [Env] (s : Str) : IRes Attribute :=
  match splitWs s with
  | [] => egeneric c%"Ssrc group attribute is missing semantics"
  | x :: tokens => do
    let semantics ← parseSsrcGroupSemantic x
    let ssrcs ← collect parseSsrc tokens
    if ssrcs.isEmpty then egeneric c%"Ssrc group must contain at least one ssrc"
    else return .ssrcGroup semantics ssrcs

/-- src/attribute_type.rs:1817-1825 `parse_sctp_port` -/
def parseSctpPort (s : Str) : IRes Attribute := do
  let port ← parseU64 s
  if port > 65535 then
    egeneric (c%"Sctpport port " ++ showU64 port ++ c%" can only be a bit 16bit number")
  else return .sctpPort port

/-- src/attribute_type.rs:1861-1869 -/
def parseCandTransport [Env] (s : Str) : IRes CandTransport :=
  let l := lower s
  if l = c%"udp" then .ok .udp
  else if l = c%"tcp" then .ok .tcp
  else egeneric c%"Unknonw candidate transport value"

/-- src/attribute_type.rs:1886-1896 -/
def parseCandType [Env] (s : Str) : IRes CandType :=
  let l := lower s
  if l = c%"host" then .ok .host
  else if l = c%"srflx" then .ok .srflx
  else if l = c%"prflx" then .ok .prflx
  else if l = c%"relay" then .ok .relay
  else egeneric c%"Unknow candidate type value"

/-- src/attribute_type.rs:1936-1945 -/
def parseCandTcpType [Env] (s : Str) : IRes CandTcpType :=
  let l := lower s
  if l = c%"active" then .ok .active
  else if l = c%"passive" then .ok .passive
  else if l = c%"so" then .ok .simultaneous
  else egeneric c%"Unknown tcptype value in candidate line"

/-- One turn of the loop of src/attribute_type.rs:1908-1960 for the tokens `name` and `value`. -/
def candExt [Env] (c : Candidate) (name value : Str) : IRes Candidate :=
  let l := lower name
  if l = c%"generation" then do
    let g ← parseU32 value
    return { c with generation := some g }
  else if l = c%"network-cost" then do
    let g ← parseU32 value
    return { c with networkcost := some g }
  else if l = c%"raddr" then do
    let a ← parseUnicastAddress value
    return { c with raddr := some a }
  else if l = c%"rport" then do
    let p ← parseU32 value
    if p > 65535 then egeneric c%"ICE candidate rport can only be a bit 16bit number"
    else return { c with rport := some p }
  else if l = c%"tcptype" then do
    let t ← parseCandTcpType value
    return { c with tcpType := some t }
  else if l = c%"ufrag" then
    .ok { c with ufrag := some value }
  else .ok { c with unknownExtensions := c.unknownExtensions ++ [(name, value)] }

/-- src/attribute_type.rs:1906-1966: the extension loop, as recursion on the tokens from index 8
on, two at a time. -/
def candExts [Env] : Candidate → List Str → IRes Candidate
  | c, name :: value :: rest => do
    let c ← candExt c name value
    candExts c rest
  | _, [_] => eunsupported c%"Ice candidate extension name without value"
  | c, [] => .ok c

/-- src/attribute_type.rs:1853-1968 `parse_candidate` -/
def parseCandidate [Env] (s : Str) : IRes Attribute := do
  let tokens := splitWs s
  if tokens.length < 8 then egeneric c%"Candidate needs to have minimum eigth tokens"
  else
    let component ← parseU32 (← idx tokens 1)
    let transport ← parseCandTransport (← idx tokens 2)
    let priority ← parseU64 (← idx tokens 3)
    let address ← parseAddress (← idx tokens 4)
    let port ← parseU32 (← idx tokens 5)
    if port > 65535 then egeneric c%"ICE candidate port can only be a bit 16bit number"
    else
      let typ ← idx tokens 6
      if lower typ ≠ c%"typ" then egeneric c%"Candidate attribute token must be 'typ'"
      else
        let cType ← parseCandType (← idx tokens 7)
        let foundation ← idx tokens 0
        let cand : Candidate :=
          { foundation, component, transport, priority, address, port, cType,
            raddr := none, rport := none, tcpType := none, generation := none, ufrag := none,
            networkcost := none, unknownExtensions := [] }
        let cand ← candExts cand (tokens.drop 8)
        return .candidate cand

/-- src/attribute_type.rs:1981-1999 `parse_dtls_message` -/
def parseDtlsMessage (s : Str) : IRes Attribute := do
  let tokens := splitC ' ' s
  if tokens.length ≠ 2 then
    egeneric c%"dtls-message must have a role token and a value token."
  else
    let role ← idx tokens 0
    let v ← idx tokens 1
    if role = c%"client" then return .dtlsMessage (.client v)
    else if role = c%"server" then return .dtlsMessage (.server v)
    else egeneric (c%"dtls-message has unknown role token '" ++ role ++ c%"'")

/-- src/attribute_type.rs:2003-2005 `valid_byte_string` -/
def validByteString (s : Str) : Bool :=
  !(s.contains '\x00' || s.contains '\n' || s.contains '\r')

/-- src/attribute_type.rs:2042-2051 -/
def parseExtmapDirection [Env] (s : Str) : IRes Direction :=
  let l := lower s
  if l = c%"recvonly" then .ok .recvonly
  else if l = c%"sendonly" then .ok .sendonly
  else if l = c%"sendrecv" then .ok .sendrecv
  else egeneric c%"Unsupported direction in extmap value"

/-- src/attribute_type.rs:2035-2052: the `id[/direction]` token -/
def parseExtmapId [Env] (t : Str) : IRes (UInt16 × Option Direction) :=
  if '/' ∉ t then do return (← parseU16 t, none)
  else do
    let idDir := splitn 2 '/' t
    let id ← parseU16 (← idx idDir 0)
    let dir ← parseExtmapDirection (← idx idDir 1)
    return (id, some dir)

/-- src/attribute_type.rs:2028-2071 `parse_extmap` -/
def parseExtmap [Env] (s : Str) : IRes Attribute := do
  let tokens := splitWs s
  if tokens.length < 2 then egeneric c%"Extmap needs to have at least two tokens"
  else
    let (id, direction) ← parseExtmapId (← idx tokens 0)
    if tokens.length = 2 then
      return .extmap ⟨id, direction, ← idx tokens 1, none⟩
    else
      let rest ← sliceFrom tokens 2
      let ext := joinS c%" " rest
      if !validByteString ext then
        egeneric c%"Illegal character in extmap extension attributes"
      else return .extmap ⟨id, direction, ← idx tokens 1, some ext⟩

/-- src/attribute_type.rs:745-756 `try_from_name` -/
def parseHashType (s : Str) : IRes HashType :=
  if s = c%"sha-1" then .ok .sha1
  else if s = c%"sha-224" then .ok .sha224
  else if s = c%"sha-256" then .ok .sha256
  else if s = c%"sha-384" then .ok .sha384
  else if s = c%"sha-512" then .ok .sha512
  else eunsupported (c%"fingerprint contains an unsupported hash algorithm '" ++ s ++ c%"'")

/-- src/attribute_type.rs:770-777: one byte token -/
def parseOctet (t : Str) : IRes UInt8 :=
  if byteLen t ≠ 2 then egeneric c%"fingerpint's byte tokens must have 2 hexdigits"
  else parseHexU8 t

/-- src/attribute_type.rs:767-789 `parse_octets` -/
def parseOctets (h : HashType) (s : Str) : IRes (List UInt8) := do
  let bytes ← collect parseOctet (splitC ':' s)
  if bytes.length ≠ octetCount h then
    egeneric (c%"fingerprint has " ++ showNat bytes.length ++ c%" bytes but should have "
      ++ showNat (octetCount h) ++ c%" bytes")
  else return bytes

/-- src/attribute_type.rs:813-829 `TryFrom<(HashType, Vec<u8>)> for SdpAttributeFingerprint` -/
def fingerprintTryFrom (h : HashType) (b : List UInt8) : IRes Fingerprint :=
  if octetCount h = b.length then .ok ⟨h, b⟩
  else egeneric (c%"Hash algoritm expects " ++ showNat (octetCount h) ++ c%" fingerprint bytes not "
    ++ showNat b.length)

/-- src/attribute_type.rs:2089-2101 `parse_fingerprint` -/
def parseFingerprint (s : Str) : IRes Attribute := do
  let tokens := splitWs s
  if tokens.length ≠ 2 then egeneric c%"Fingerprint needs to have two tokens"
  else
    let h ← parseHashType (← idx tokens 0)
    let bytes ← parseOctets h (← idx tokens 1)
    let f ← fingerprintTryFrom h bytes
    return .fingerprint f

/-- The default of src/attribute_type.rs:2120-2146 -/
def FmtpParams.default : FmtpParams where
  packetizationMode := 0
  levelAsymmetryAllowed := false
  profileLevelId := 0x0042000A
  maxFs := 0
  maxCpb := 0
  maxDpb := 0
  maxBr := 0
  maxMbps := 0
  maxFr := 0
  profile := none
  levelIdx := none
  tier := none
  maxplaybackrate := 48000
  maxaveragebitrate := 0
  usedtx := false
  stereo := false
  useinbandfec := false
  cbr := false
  ptime := 0
  minptime := 0
  maxptime := 0
  encodings := []
  dtmfTones := []
  rtx := none
  unknownTokens := []

/-- The closure `parse_bool` of src/attribute_type.rs:2164-2173 -/
def fmtpBool (v name : Str) : IRes Bool := do
  let n ← parseU8 v
  if n = 0 then return false
  else if n = 1 then return true
  else egeneric (c%"The fmtp parameter '" ++ name ++ c%"' must be 0 or 1")

/-- One `name=value` parameter: the loop body of src/attribute_type.rs:2155-2283 -/
def fmtpParam [Env] (p : FmtpParams) (tok : Str) : IRes FmtpParams :=
  let pair := splitn 2 '=' tok
  if pair.length ≠ 2 then
    egeneric c%"A fmtp parameter must be either a telephone event, a parameter list or a red codec list"
  else do
    let name ← idx pair 0
    let v ← idx pair 1
    let u := upper name
    if u = c%"PROFILE-LEVEL-ID" then do
      let x ← parseHexU32 v
      if x ≤ 0x00ffffff then return { p with profileLevelId := x }
      else egeneric c%"The fmtp parameter 'profile-level-id' must be in range [0,0xffffff]"
    else if u = c%"PACKETIZATION-MODE" then do
      let x ← parseU32 v
      if x ≤ 2 then return { p with packetizationMode := x }
      else egeneric c%"The fmtp parameter 'packetization-mode' must be 0,1 or 2"
    else if u = c%"LEVEL-ASYMMETRY-ALLOWED" then do
      return { p with levelAsymmetryAllowed := ← fmtpBool v c%"level-asymmetry-allowed" }
    else if u = c%"MAX-MBPS" then do return { p with maxMbps := ← parseU32 v }
    else if u = c%"MAX-FS" then do return { p with maxFs := ← parseU32 v }
    else if u = c%"MAX-CPB" then do return { p with maxCpb := ← parseU32 v }
    else if u = c%"MAX-DPB" then do return { p with maxDpb := ← parseU32 v }
    else if u = c%"MAX-BR" then do return { p with maxBr := ← parseU32 v }
    else if u = c%"MAX-FR" then do return { p with maxFr := ← parseU32 v }
    else if u = c%"PROFILE" then do
      let x ← parseU8 v
      if x ≤ 2 then return { p with profile := some x }
      else egeneric c%"The fmtp parameter 'profile' must be in the range [0,2]"
    else if u = c%"LEVEL-IDX" then do
      let x ← parseU8 v
      if x ≤ 31 then return { p with levelIdx := some x }
      else egeneric c%"The fmtp parameter 'level-idx' must be in the range [0,31]"
    else if u = c%"TIER" then do
      let x ← parseU8 v
      if x ≤ 1 then return { p with tier := some x }
      else egeneric c%"The fmtp parameter 'tier' must be in the range [0,1]"
    else if u = c%"MAXPLAYBACKRATE" then do return { p with maxplaybackrate := ← parseU32 v }
    else if u = c%"MAXAVERAGEBITRATE" then do return { p with maxaveragebitrate := ← parseU32 v }
    else if u = c%"PTIME" then do return { p with ptime := ← parseU32 v }
    else if u = c%"MAXPTIME" then do return { p with maxptime := ← parseU32 v }
    else if u = c%"MINPTIME" then do return { p with minptime := ← parseU32 v }
    else if u = c%"USEDTX" then do return { p with usedtx := ← fmtpBool v c%"usedtx" }
    else if u = c%"STEREO" then do return { p with stereo := ← fmtpBool v c%"stereo" }
    else if u = c%"USEINBANDFEC" then do
      return { p with useinbandfec := ← fmtpBool v c%"useinbandfec" }
    else if u = c%"CBR" then do return { p with cbr := ← fmtpBool v c%"cbr" }
    else if u = c%"APT" then do return { p with rtx := some ⟨← parseU8 v, none⟩ }
    else if u = c%"RTX-TIME" then
      match p.rtx with
      | some r => do return { p with rtx := some { r with rtxTime := some (← parseU32 v) } }
      | none => egeneric c%"RTX codec must have an APT field"
    else return { p with unknownTokens := p.unknownTokens ++ [tok] }

/-- The loop of src/attribute_type.rs:2155-2283 -/
def fmtpParamList [Env] : FmtpParams → List Str → IRes FmtpParams
  | p, [] => .ok p
  | p, t :: ts => do
    let p ← fmtpParam p t
    fmtpParamList p ts

/-- The loop of src/attribute_type.rs:2287-2296 -/
def fmtpRed : FmtpParams → List Str → IRes FmtpParams
  | p, [] => .ok p
  | p, t :: ts => do
    let x ← parseU8 t
    if x ≤ 128 then fmtpRed { p with encodings := p.encodings ++ [x] } ts
    else egeneric c%"Red codec must be in range [0,128]"

/-- `validate_digits(s.parse::<u8>().ok())` of src/attribute_type.rs:2303-2311 -/
def dtmfDigit (s : Str) : Option Nat :=
  match parseRadix 10 (2^8) s with
  | .ok n => if n ≤ 100 then some n else none
  | .error _ => none

/-- src/attribute_type.rs:2315-2335: is one comma-separated item fine? -/
def dtmfToneOk (t : Str) : Bool :=
  match splitn 2 '-' t with
  | [a, b] =>
    match dtmfDigit a with
    | some l =>
      match dtmfDigit b with
      | some u => decide (l < u)
      | none => false
    | none => false
  | [_] => (dtmfDigit t).isSome
  | _ => false

/-- The loop of src/attribute_type.rs:2314-2340 with its early `break`. -/
def dtmfAllOk : List Str → Bool
  | [] => true
  | t :: ts => if dtmfToneOk t then dtmfAllOk ts else false

/-- One parameter block: the body of the loop of src/attribute_type.rs:2148-2349 -/
def fmtpBlock [Env] (p : FmtpParams) (b : Str) : IRes FmtpParams :=
  if '=' ∈ b then
    fmtpParamList p ((splitC ';' b).filter (fun t => !t.isEmpty))
  else if '/' ∈ b then
    fmtpRed p (splitC '/' b)
  else if dtmfAllOk (splitC ',' b) then .ok { p with dtmfTones := b }
  else .ok { p with dtmfTones := c%"0-15" }

/-- The loop of src/attribute_type.rs:2148-2349 -/
def fmtpBlocks [Env] : FmtpParams → List Str → IRes FmtpParams
  | p, [] => .ok p
  | p, b :: bs => do
    let p ← fmtpBlock p b
    fmtpBlocks p bs

/-- src/attribute_type.rs:2107-2354 `parse_fmtp` -/
def parseFmtp [Env] (s : Str) : IRes Attribute := do
  let tokens := splitn 2 ' ' s
  if tokens.length ≠ 2 then
    eunsupported c%"Fmtp attributes require a payload type and a parameter block."
  else
    let payload ← idx tokens 0
    let blocks ← sliceFrom tokens 1
    let params ← fmtpBlocks FmtpParams.default blocks
    let pt ← parseU8 payload
    return .fmtp ⟨pt, params⟩

/-- src/attribute_type.rs:2360-2382 `parse_framerate` -/
def parseFramerate (s : Str) : IRes Attribute := do
  let x ← parseF64 s
  if x.isNan then egeneric c%"FrameRate attribute must be a number"
  else if x.isInf then egeneric c%"FrameRate attribute cannot be finite"
  else if x.isZero then egeneric c%"FrameRate attribute cannot be zero"
  else return .frameRate x

/-- src/attribute_type.rs:2400-2413 -/
def parseGroupSemantic [Env] (x : Str) : IRes GroupSemantic :=
  let u := upper x
  if u = c%"LS" then .ok .lipSynchronization
  else if u = c%"FID" then .ok .flowIdentification
  else if u = c%"SRF" then .ok .singleReservationFlow
  else if u = c%"ANAT" then .ok .alternateNetworkAddressType
  else if u = c%"FEC" then .ok .forwardErrorCorrection
  else if u = c%"DDP" then .ok .decodingDependency
  else if u = c%"BUNDLE" then .ok .bundle
  else eunsupported (c%"Unknown group semantic '" ++ debugStr u ++ c%"' found")

/-- src/attribute_type.rs:2392-2419 `parse_group` -/
def parseGroup [Env] (s : Str) : IRes Attribute :=
  match splitWs s with
  | [] => egeneric c%"Group attribute is missing semantics token"
  | x :: tokens => do
    let semantics ← parseGroupSemantic x
    return .group ⟨semantics, tokens⟩

/-- src/attribute_type.rs:2427-2439 `parse_ice_options` -/
def parseIceOptions (s : Str) : IRes Attribute :=
  if s.isEmpty then egeneric c%"ice-options is required to have a value"
  else .ok (.iceOptions (splitWs s))

/-- src/attribute_type.rs:2446-2454 `parse_ice_pacing` -/
def parseIcePacing (s : Str) : IRes Attribute := do
  let x ← parseU64 s
  if x ≥ 10000000000 then egeneric c%"ice-pacing value is not a 10 digit integer"
  else return .icePacing x

/-- The loop of src/attribute_type.rs:2461-2475. `open` is the `i32` counter (overflow panics, as
in a build with overflow checks), `cur` the pending pieces. -/
def imageTokensLoop (sep : Char) : (open_ : Int) → (cur : List Str) → List Str → IRes (List Str)
  | _, _, [] => .ok []
  | n, cur, t :: ts =>
    let n1 := if '[' ∈ t then n + 1 else n
    if n1 ≥ 2^31 then .panic
    else
      let n2 := if ']' ∈ t then n1 - 1 else n1
      if n2 < -(2^31) then .panic
      else
        let cur := cur ++ [t]
        if n2 = 0 then do
          let rest ← imageTokensLoop sep n2 [] ts
          return joinS [sep] cur :: rest
        else imageTokensLoop sep n2 cur ts

/-- src/attribute_type.rs:2456-2478 `parse_imageattr_tokens` -/
def imageTokens (s : Str) (sep : Char) : IRes (List Str) :=
  imageTokensLoop sep 0 [] (splitC sep s)

/-- src/attribute_type.rs:2480-2490 `parse_imagettr_braced_token`. The slice `[1..len-1]` cannot
fail: a string that starts with `[` and ends with `]` has at least two characters. -/
def bracedToken (s : Str) : Option Str :=
  if !startsWithC '[' s then none
  else if !endsWithC ']' s then none
  else some (s.drop 1).dropLast

/-- src/attribute_type.rs:2492-2543 `parse_image_attr_xyrange` -/
def parseXyRange (s : Str) : IRes XyRange :=
  if startsWithC '[' s then do
    let v ← Outcome.okOr (bracedToken s) (.generic c%"imageattr's xyrange has no closing tag ']'")
    if ':' ∈ s then
      let r := splitC ':' v
      if r.length = 3 then
        let mn ← parseU32 (← idx r 0)
        let mx ← parseU32 (← idx r 2)
        let st ← parseU32 (← idx r 1)
        return .range mn mx (some st)
      else if r.length = 2 then
        let mn ← parseU32 (← idx r 0)
        let mx ← parseU32 (← idx r 1)
        return .range mn mx none
      else egeneric c%"imageattr's xyrange must contain 2 or 3 fields"
    else
      let values ← collect parseU32 (splitC ',' v)
      if values.length < 2 then
        egeneric c%"imageattr's discrete value list must have at least two elements"
      else return .discrete values
  else do return .discrete [← parseU32 s]

/-- The closure `parse_ps_range` of src/attribute_type.rs:2574-2593 -/
def parsePsRange (s : Str) : IRes (F32 × F32) := do
  let pair := splitC '-' s
  if pair.length ≠ 2 then egeneric c%"imageattr's par and sar ranges must have two components"
  else
    let mn ← parseF32 (← idx pair 0)
    let mx ← parseF32 (← idx pair 1)
    if mn.ge mx then
      egeneric c%"In imageattr's par and sar ranges, first must be < than the second"
    else return (mn, mx)

/-- The ascending check of src/attribute_type.rs:2623-2632 -/
def sarAscending (last : F32) : List F32 → IRes Unit
  | [] => .ok ()
  | v :: vs =>
    if last.ge v then
      egeneric c%"imageattr's sar discrete value list must contain ascending values"
    else sarAscending v vs

/-- The three optional keys of a set. -/
structure ImgKeys where
  sar : Option SRange
  par : Option PRange
  q : Option F32

/-- One turn of the loop of src/attribute_type.rs:2595-2660 -/
def imageKey (k : ImgKeys) (t : Str) : IRes ImgKeys :=
  match stripPrefix c%"sar=" t with
  | some v =>
    if startsWithC '[' v then do
      let inner ← Outcome.okOr (bracedToken v)
        (.generic c%"imageattr's sar value is missing closing tag ']'")
      if '-' ∈ v then
        let r ← parsePsRange inner
        return { k with sar := some (.range r.1 r.2) }
      else if ',' ∈ v then
        let values ← collect parseF32 (splitC ',' inner)
        if values.length < 2 then
          egeneric c%"imageattr's sar discrete value list must have at least two values"
        else
          sarAscending ⟨0⟩ values
          return { k with sar := some (.discrete values) }
      else return k
    else do return { k with sar := some (.discrete [← parseF32 v]) }
  | none =>
    match stripPrefix c%"par=" t with
    | some v =>
      if !startsWithC '[' v then egeneric c%"imageattr's par value must start with '['"
      else do
        let inner ← Outcome.okOr (bracedToken v)
          (.generic c%"imageattr's par value must be enclosed with ']'")
        let r ← parsePsRange inner
        return { k with par := some ⟨r.1, r.2⟩ }
    | none =>
      match stripPrefix c%"q=" t with
      | some v => do return { k with q := some (← parseF32 v) }
      | none => .ok k

/-- The loop of src/attribute_type.rs:2595-2660 -/
def imageKeys : ImgKeys → List Str → IRes ImgKeys
  | k, [] => .ok k
  | k, t :: ts => do
    let k ← imageKey k t
    imageKeys k ts

/-- src/attribute_type.rs:2545-2663 `parse_image_attr_set` -/
def parseImageSet (s : Str) : IRes ImageAttrSet := do
  match ← imageTokens s ',' with
  | [] => egeneric c%"imageattr set is missing the 'x=' token"
  | xt :: rest =>
    if !startsWith c%"x=" xt then
      egeneric c%"The first token in an imageattr set must begin with 'x='"
    else
      let x ← parseXyRange (← sliceFrom xt 2)
      match rest with
      | [] => egeneric c%"imageattr set is missing the 'y=' token"
      | yt :: rest =>
        if !startsWith c%"y=" yt then
          egeneric c%"The second token in an imageattr set must begin with 'y='"
        else
          let y ← parseXyRange (← sliceFrom yt 2)
          let k ← imageKeys ⟨none, none, none⟩ rest
          return ⟨x, y, k.sar, k.par, k.q⟩

/-- The closure `parse_set` of src/attribute_type.rs:2671-2675 -/
def parseBracedSet (s : Str) : IRes ImageAttrSet := do
  let inner ← Outcome.okOr (bracedToken s) (.generic c%"imageattr sets must be enclosed by ']'")
  parseImageSet inner

/-- The `while let` of src/attribute_type.rs:2689-2695: the sets and the remaining tokens -/
def moreSets : List Str → IRes (List ImageAttrSet × List Str)
  | [] => .ok ([], [])
  | t :: ts =>
    if startsWithC '[' t then do
      let s ← parseBracedSet t
      let (more, rest) ← moreSets ts
      return (s :: more, rest)
    else .ok ([], t :: ts)

/-- src/attribute_type.rs:2665-2700 `parse_image_attr_set_list`, returning the rest of the tokens -/
def parseSetList (tokens : List Str) : IRes (ImageAttrSetList × List Str) :=
  match tokens with
  | [] => egeneric c%"imageattr must have a parameter set after a direction token"
  | t :: ts =>
    if t = c%"*" then .ok (.wildcard, ts)
    else do
      let s ← parseBracedSet t
      let (more, rest) ← moreSets ts
      return (.sets (s :: more), rest)

/-- src/attribute_type.rs:2796-2806: the optional second direction -/
def parseSecondSetList (first : SingleDirection) (tokens : List Str) :
    IRes (ImageAttrSetList × List Str) :=
  match tokens with
  | [] => .ok (.sets [], [])
  | t :: ts => do
    let d ← parseSingleDirection t
    if d = first then
      egeneric c%"imageattr's second direction token must be different from the first one"
    else parseSetList ts

/-- src/attribute_type.rs:2770-2826 `parse_image_attr` -/
def parseImageAttr (s : Str) : IRes Attribute := do
  match ← imageTokens s ' ' with
  | [] => egeneric c%"imageattr requires a payload token"
  | t0 :: ts =>
    let pt ← parsePayloadType t0
    match ts with
    | [] => egeneric c%"imageattr's second token must be a direction token"
    | t1 :: ts =>
      let dir ← parseSingleDirection t1
      let (l1, rest) ← parseSetList ts
      let (l2, rest) ← parseSecondSetList dir rest
      if !rest.isEmpty then
        egeneric c%"imageattr must not contain any token after the second set list"
      else
        match dir with
        | .send => return .imageAttr ⟨pt, l1, l2⟩
        | .recv => return .imageAttr ⟨pt, l2, l1⟩

/-- src/attribute_type.rs:2834-2846 `parse_msid` -/
def parseMsid (s : Str) : IRes Attribute :=
  match splitWs s with
  | [] => egeneric c%"Msid attribute is missing msid-id token"
  | x :: rest => .ok (.msid ⟨x, rest.head?⟩)

/-- src/attribute_type.rs:2854-2867 `parse_msid_semantic` -/
def parseMsidSemantic (s : Str) : IRes Attribute := do
  let tokens := splitWs s
  if tokens.isEmpty then egeneric c%"Msid-semantic attribute is missing msid-semantic token"
  else return .msidSemantic ⟨← idx tokens 0, ← sliceFrom tokens 1⟩

/-- The locals `params`, `depends` of `parse_rid` -/
structure RidState where
  params : RidParams
  depends : List Str

/-- The default of src/attribute_type.rs:2914-2924 -/
def RidState.default : RidState := ⟨⟨0, 0, 0, 0, 0, 0, []⟩, []⟩

/-- One turn of the loop of src/attribute_type.rs:2940-2961 -/
def ridParam (st : RidState) (param : Str) : IRes RidState :=
  let pair := splitn 2 '=' param
  if pair.length ≠ 2 then egeneric c%"A rid parameter needs to be of form 'param=value'"
  else do
    let name ← idx pair 0
    let v ← idx pair 1
    if name = c%"max-width" then
      return { st with params := { st.params with maxWidth := ← parseU32 v } }
    else if name = c%"max-height" then
      return { st with params := { st.params with maxHeight := ← parseU32 v } }
    else if name = c%"max-fps" then
      return { st with params := { st.params with maxFps := ← parseU32 v } }
    else if name = c%"max-fs" then
      return { st with params := { st.params with maxFs := ← parseU32 v } }
    else if name = c%"max-br" then
      return { st with params := { st.params with maxBr := ← parseU32 v } }
    else if name = c%"max-pps" then
      return { st with params := { st.params with maxPps := ← parseU32 v } }
    else if name = c%"depends" then
      return { st with depends := st.depends ++ splitC ',' v }
    else
      return { st with params := { st.params with unknown := st.params.unknown ++ [param] } }

/-- The loop of src/attribute_type.rs:2940-2961 -/
def ridParamList : RidState → List Str → IRes RidState
  | st, [] => .ok st
  | st, t :: ts => do
    let st ← ridParam st t
    ridParamList st ts

/-- src/attribute_type.rs:2931-2938: an optional leading `pt=` list, and the parameters left -/
def ridFormats (parameters : List Str) : IRes (List UInt16 × List Str) :=
  match parameters with
  | [] => .ok ([], [])
  | p :: ps =>
    match stripPrefix c%"pt=" p with
    | some l => do return (← collect (fun f => parseU16 (trim f)) (splitC ',' l), ps)
    | none => .ok ([], p :: ps)

/-- src/attribute_type.rs:2904-2971 `parse_rid` -/
def parseRid (s : Str) : IRes Attribute := do
  let tokens := splitn 3 ' ' s
  if tokens.length < 2 then
    egeneric c%"A rid attribute must at least have an id and a direction token."
  else
    let (formats, st) ← (match tokens[2]? with
      | none => .ok ([], RidState.default)
      | some t => do
        let (formats, ps) ← ridFormats (splitC ';' t)
        let st ← ridParamList RidState.default ps
        return (formats, st) : IRes (List UInt16 × RidState))
    let id ← idx tokens 0
    let direction ← parseSingleDirection (← idx tokens 1)
    return .rid ⟨id, direction, formats, st.params, st.depends⟩

/-- src/attribute_type.rs:2979-3015 `parse_remote_candidates` -/
def parseRemoteCandidates [Env] (s : Str) : IRes Attribute :=
  match splitWs s with
  | [] => egeneric c%"Remote-candidate attribute is missing component ID"
  | t0 :: ts => do
    let component ← parseU32 t0
    match ts with
    | [] => egeneric c%"Remote-candidate attribute is missing connection address"
    | t1 :: ts =>
      let address ← parseUnicastAddress t1
      match ts with
      | [] => egeneric c%"Remote-candidate attribute is missing port number"
      | t2 :: _ =>
        let port ← parseU32 t2
        if port > 65535 then egeneric c%"Remote-candidate port can only be a bit 16bit number"
        else return .remoteCandidate ⟨component, address, port⟩

/-- src/attribute_type.rs:3021-3068 `parse_rtpmap` -/
def parseRtpmap (s : Str) : IRes Attribute :=
  match splitWs s with
  | [] => egeneric c%"Rtpmap missing payload type"
  | t0 :: ts => do
    let pt ← parseU8 t0
    if pt > 127 then egeneric c%"Rtpmap payload type must be less then 127"
    else
      match ts with
      | [] => egeneric c%"Rtpmap missing payload type"
      | t1 :: _ =>
        match splitC '/' t1 with
        | [] => egeneric c%"Rtpmap missing codec name"
        | name :: ps =>
          match ps with
          | [] => egeneric c%"Rtpmap missing codec name"
          | f :: ps =>
            let frequency ← parseU32 f
            match ps with
            | [] => return .rtpmap ⟨pt, name, frequency, none⟩
            | c :: _ =>
              let channels ← parseU32 c
              return .rtpmap ⟨pt, name, frequency, some channels⟩

/-- src/attribute_type.rs:3075-3112 `parse_rtcp` -/
def parseRtcp [Env] (s : Str) : IRes Attribute :=
  match splitWs s with
  | [] => egeneric c%"Rtcp attribute is missing port number"
  | t0 :: ts => do
    let port ← parseU16 t0
    match ts with
    | [] => return .rtcp ⟨port, none⟩
    | t1 :: ts =>
      parseNetworkType t1
      match ts with
      | [] => egeneric c%"Rtcp attribute is missing address type token"
      | t2 :: ts =>
        let t ← parseAddrType t2
        match ts with
        | [] => egeneric c%"Rtcp attribute is missing ip address token"
        | t3 :: _ =>
          let a ← typedTryFrom t t3
          return .rtcp ⟨port, some a⟩

/-- src/attribute_type.rs:3148-3167 -/
def parseFbType [Env] (t : Option Str) : IRes RtcpFbType :=
  match t with
  | none => egeneric c%"Error parsing rtcpfb: no feedback type"
  | some x =>
    if x = c%"ack" then .ok .ack
    else if x = c%"ccm" then .ok .ccm
    else if x = c%"nack" then .ok .nack
    else if x = c%"trr-int" then .ok .trrInt
    else if x = c%"goog-remb" then .ok .remb
    else if x = c%"transport-cc" then .ok .transCc
    else eunsupported (c%"Unknown rtcpfb feedback type: " ++ debugStr x)

/-- src/attribute_type.rs:3170-3231 -/
def parseFbParam [Env] (ty : RtcpFbType) (t : Option Str) : IRes Str :=
  match ty with
  | .ack =>
    match t with
    | some x =>
      if x = c%"rpsi" ∨ x = c%"app" then .ok x
      else eunsupported (c%"Unknown rtcpfb ack parameter: " ++ debugStr x)
    | none => eunsupported c%"The rtcpfb ack feeback type needs a parameter:"
  | .ccm =>
    match t with
    | some x =>
      if x = c%"fir" ∨ x = c%"tmmbr" ∨ x = c%"tstr" ∨ x = c%"vbcm" then .ok x
      else eunsupported (c%"Unknown rtcpfb ccm parameter: " ++ debugStr x)
    | none => .ok []
  | .nack =>
    match t with
    | some x =>
      if x = c%"sli" ∨ x = c%"pli" ∨ x = c%"rpsi" ∨ x = c%"app" then .ok x
      else eunsupported (c%"Unknown rtcpfb nack parameter: " ++ debugStr x)
    | none => .ok []
  | .trrInt =>
    match t with
    | some x =>
      if (parseU32 x).isOk then .ok x
      else egeneric (c%"Unknown rtcpfb trr-int parameter: " ++ debugStr x)
    | none => egeneric c%"The rtcpfb trr-int feedback type needs a parameter"
  | .remb | .transCc =>
    match t with
    | some x =>
      eunsupported (c%"Unknown rtcpfb " ++ showRtcpFbType ty ++ c%" parameter: " ++ debugStr x)
    | none => .ok []

/-- src/attribute_type.rs:3144-3242 `parse_rtcp_fb` -/
def parseRtcpFb [Env] (s : Str) : IRes Attribute := do
  let tokens := splitn 4 ' ' s
  let ty ← parseFbType tokens[1]?
  let param ← parseFbParam ty tokens[2]?
  let pt ← parsePayloadType (← idx tokens 0)
  return .rtcpfb ⟨pt, ty, param, tokens[3]?.getD []⟩

/-- src/attribute_type.rs:3256-3273 `parse_sctpmap` -/
def parseSctpmap [Env] (s : Str) : IRes Attribute := do
  let tokens := splitWs s
  if tokens.length ≠ 3 then egeneric c%"Sctpmap needs to have three tokens"
  else
    let port ← parseU16 (← idx tokens 0)
    let t1 ← idx tokens 1
    if lower t1 ≠ c%"webrtc-datachannel" then egeneric c%"Unsupported sctpmap type token"
    else
      let channels ← parseU32 (← idx tokens 2)
      return .sctpmap ⟨port, channels⟩

/-- src/attribute_type.rs:3280-3294 `parse_setup` -/
def parseSetup [Env] (s : Str) : IRes Attribute :=
  let l := lower s
  if l = c%"active" then .ok (.setup .active)
  else if l = c%"actpass" then .ok (.setup .actpass)
  else if l = c%"holdconn" then .ok (.setup .holdconn)
  else if l = c%"passive" then .ok (.setup .passive)
  else egeneric c%"Unsupported setup value"

/-- src/attribute_type.rs:363-375 `SdpAttributeSimulcastId::new` -/
def SimulcastId.new (s : Str) : SimulcastId :=
  match stripPrefix c%"~" s with
  | some r => ⟨r, true⟩
  | none => ⟨s, false⟩

/-- src/attribute_type.rs:396-403 `SdpAttributeSimulcastVersion::new` -/
def SimulcastVersion.new (s : Str) : SimulcastVersion := ⟨(splitC ',' s).map SimulcastId.new⟩

/-- The closure `make_version_list` of src/attribute_type.rs:3299-3304 -/
def makeVersionList (s : Str) : List SimulcastVersion := (splitC ';' s).map SimulcastVersion.new

/-- src/attribute_type.rs:3296-3319 `parse_simulcast_version_list` -/
def parseVersionList [Env] (s : Str) : IRes (List SimulcastVersion) :=
  if '=' ∈ s then do
    let pair := splitn 2 '=' s
    let d ← Outcome.unwrap pair[0]?
    if d = c%"rid" then
      let l ← Outcome.unwrap pair[1]?
      return makeVersionList l
    else
      egeneric (c%"Simulcast attribute has unknown list descriptor '" ++ debugStr d ++ c%"'")
  else .ok (makeVersionList s)

/-- src/attribute_type.rs:3368-3386: the optional second direction -/
def parseSecondVersionList [Env] (first : SingleDirection) (ts : List Str) :
    IRes (List SimulcastVersion) :=
  match ts with
  | [] => .ok []
  | x :: ts => do
    let d ← parseSingleDirection x
    if d = first then
      egeneric c%"Simulcast attribute has defined two times the same direction"
    else
      match ts with
      | [] =>
        egeneric c%"\"Simulcast has defined a second direction but\"\"no second list of simulcast stream versions\""
      | y :: _ => parseVersionList y

/-- src/attribute_type.rs:3346-3398 `parse_simulcast` -/
def parseSimulcast [Env] (s : Str) : IRes Attribute :=
  match splitWs s with
  | [] => egeneric c%"Simulcast attribute is missing send/recv value"
  | t0 :: ts => do
    let dir ← parseSingleDirection t0
    match ts with
    | [] => egeneric c%"Simulcast attribute must have an alternatives list after the direction token"
    | t1 :: ts =>
      let l1 ← parseVersionList t1
      let l2 ← parseSecondVersionList dir ts
      match dir with
      | .send => return .simulcast ⟨l1, l2⟩
      | .recv => return .simulcast ⟨l2, l1⟩

/-- The attribute names of the match in src/attribute_type.rs:1462-1509. -/
def attrTypeOfName (n : Str) : Option AttributeType :=
  if n = c%"bundle-only" then some .bundleOnly
  else if n = c%"dtls-message" then some .dtlsMessage
  else if n = c%"end-of-candidates" then some .endOfCandidates
  else if n = c%"ice-lite" then some .iceLite
  else if n = c%"ice-mismatch" then some .iceMismatch
  else if n = c%"extmap-allow-mixed" then some .extmapAllowMixed
  else if n = c%"ice-pwd" then some .icePwd
  else if n = c%"ice-ufrag" then some .iceUfrag
  else if n = c%"identity" then some .identity
  else if n = c%"imageattr" then some .imageAttr
  else if n = c%"inactive" then some .inactive
  else if n = c%"label" then some .label
  else if n = c%"max-message-size" then some .maxMessageSize
  else if n = c%"maxptime" then some .maxPtime
  else if n = c%"mid" then some .mid
  else if n = c%"msid-semantic" then some .msidSemantic
  else if n = c%"ptime" then some .ptime
  else if n = c%"ice-pacing" then some .icePacing
  else if n = c%"rid" then some .rid
  else if n = c%"recvonly" then some .recvonly
  else if n = c%"rtcp-mux" then some .rtcpMux
  else if n = c%"rtcp-mux-only" then some .rtcpMuxOnly
  else if n = c%"rtcp-rsize" then some .rtcpRsize
  else if n = c%"sendonly" then some .sendonly
  else if n = c%"sendrecv" then some .sendrecv
  else if n = c%"ssrc-group" then some .ssrcGroup
  else if n = c%"sctp-port" then some .sctpPort
  else if n = c%"candidate" then some .candidate
  else if n = c%"extmap" then some .extmap
  else if n = c%"fingerprint" then some .fingerprint
  else if n = c%"fmtp" then some .fmtp
  else if n = c%"framerate" then some .frameRate
  else if n = c%"group" then some .group
  else if n = c%"ice-options" then some .iceOptions
  else if n = c%"msid" then some .msid
  else if n = c%"remote-candidates" then some .remoteCandidate
  else if n = c%"rtpmap" then some .rtpmap
  else if n = c%"rtcp" then some .rtcp
  else if n = c%"rtcp-fb" then some .rtcpfb
  else if n = c%"sctpmap" then some .sctpmap
  else if n = c%"setup" then some .setup
  else if n = c%"simulcast" then some .simulcast
  else if n = c%"ssrc" then some .ssrc
  else none

/-- src/attribute_type.rs:1452-1454: the names that must not have a value -/
def isFlagName (n : Str) : Bool :=
  n == c%"bundle-only" || n == c%"end-of-candidates" || n == c%"extmap-allow-mixed"
    || n == c%"ice-lite" || n == c%"ice-mismatch" || n == c%"inactive" || n == c%"recvonly"
    || n == c%"rtcp-mux" || n == c%"rtcp-mux-only" || n == c%"rtcp-rsize" || n == c%"sendonly"
    || n == c%"sendrecv"

/-- The right-hand sides of the match in src/attribute_type.rs:1462-1509. -/
def parseAttrValue [Env] (t : AttributeType) (val : Str) : IRes Attribute :=
  match t with
  | .bundleOnly => .ok .bundleOnly
  | .dtlsMessage => parseDtlsMessage val
  | .endOfCandidates => .ok .endOfCandidates
  | .iceLite => .ok .iceLite
  | .iceMismatch => .ok .iceMismatch
  | .extmapAllowMixed => .ok .extmapAllowMixed
  | .icePwd => do return .icePwd (← stringOrEmpty val)
  | .iceUfrag => do return .iceUfrag (← stringOrEmpty val)
  | .identity => do return .identity (← stringOrEmpty val)
  | .imageAttr => parseImageAttr val
  | .inactive => .ok .inactive
  | .label => do return .label (← stringOrEmpty val)
  | .maxMessageSize => do return .maxMessageSize (← parseU64 val)
  | .maxPtime => do return .maxPtime (← parseU64 val)
  | .mid => do return .mid (← stringOrEmpty val)
  | .msidSemantic => parseMsidSemantic val
  | .ptime => do return .ptime (← parseU64 val)
  | .icePacing => parseIcePacing val
  | .rid => parseRid val
  | .recvonly => .ok .recvonly
  | .rtcpMux => .ok .rtcpMux
  | .rtcpMuxOnly => .ok .rtcpMuxOnly
  | .rtcpRsize => .ok .rtcpRsize
  | .sendonly => .ok .sendonly
  | .sendrecv => .ok .sendrecv
  | .ssrcGroup => parseSsrcGroup val
  | .sctpPort => parseSctpPort val
  | .candidate => parseCandidate val
  | .extmap => parseExtmap val
  | .fingerprint => parseFingerprint val
  | .fmtp => parseFmtp val
  | .frameRate => parseFramerate val
  | .group => parseGroup val
  | .iceOptions => parseIceOptions val
  | .msid => parseMsid val
  | .remoteCandidate => parseRemoteCandidates val
  | .rtpmap => parseRtpmap val
  | .rtcp => parseRtcp val
  | .rtcpfb => parseRtcpFb val
  | .sctpmap => parseSctpmap val
  | .setup => parseSetup val
  | .simulcast => parseSimulcast val
  | .ssrc => do return .ssrc (← parseSsrc val)

/-- src/attribute_type.rs:1440-1511 `SdpAttribute::from_str` -/
def attrFromStr [Env] (line : Str) : IRes Attribute := do
  let tokens := splitn 2 ':' line
  let name := lower (← idx tokens 0)
  let val := match tokens[1]? with
    | some x => trim x
    | none => []
  if tokens.length > 1 ∧ isFlagName name then
    egeneric (name ++ c%" attribute is not allowed to have a value")
  else
    match attrTypeOfName name with
    | some t => parseAttrValue t val
    | none => eunsupported (c%"Unknown attribute type " ++ name)

/-- src/attribute_type.rs:3426-3428 `parse_attribute` -/
def parseAttribute [Env] (value : Str) : IRes SdpType := do
  return .attr (← attrFromStr (trim value))

end Sdp
