import Verif.Model.Session
/-!
# Anonymizer (src/anonymizer.rs) and `masked_clone`

A `HashMap` is an association list whose keys are unique by construction (an insert only happens
after a failed lookup). The `Wrapping` counters are `UInt32`/`UInt64`/`BitVec 128`, whose addition
wraps. A `&mut StatefulSdpAnonymizer` argument becomes a returned state.
-/

namespace Sdp

/-- The loop of src/anonymizer.rs:23-26, `k` turns: low byte first, then *shift left* by 8. -/
def byteVecLoop : Nat → UInt64 → List UInt8
  | 0, _ => []
  | k + 1, v => UInt8.ofNat v.toNat :: byteVecLoop k (v <<< 8)

/-- src/anonymizer.rs:19-30 `to_byte_vec` -/
def toByteVec (v : UInt64) : List UInt8 := (byteVecLoop 8 v).reverse

/-- src/anonymizer.rs:162-167 `AnonymizationStrMap` -/
structure StrMap where
  map : List (Str × Str)
  counter : UInt64
  pre : Str
  padding : Nat
  deriving DecidableEq, Repr

/-- src/anonymizer.rs:170-177 -/
def StrMap.new (pre : Str) (padding : Nat) : StrMap := ⟨[], 0, pre, padding⟩

/-- src/anonymizer.rs:179-193 `mask` -/
def StrMap.mask (m : StrMap) (v : Str) : Str × StrMap :=
  match m.map.lookup v with
  | some s => (s, m)
  | none =>
    let c := m.counter + 1
    let store := m.pre ++ padLeft m.padding (showNat c.toNat)
    (store, { m with map := m.map ++ [(v, store)], counter := c })

/-- src/anonymizer.rs:40-53 `StatefulSdpAnonymizer` -/
structure Anon where
  ips : List (IpAddr × IpAddr)
  ipV4Inc : UInt32
  ipV6Inc : BitVec 128
  hostNames : StrMap
  ports : List (UInt32 × UInt32)
  portInc : UInt32
  originUsers : StrMap
  icePasswords : StrMap
  iceUsers : StrMap
  certFingerPrints : List (List UInt8 × List UInt8)
  certFingerPrintInc : UInt64
  cnames : StrMap
  deriving DecidableEq, Repr

namespace Anon

/-- src/anonymizer.rs:62-77 `new` -/
def new : Anon where
  ips := []
  ipV4Inc := 0
  ipV6Inc := 0
  hostNames := StrMap.new c%"fqdn-" 8
  ports := []
  portInc := 0
  originUsers := StrMap.new c%"origin-user-" 8
  icePasswords := StrMap.new c%"ice-password-" 8
  iceUsers := StrMap.new c%"ice-user-" 8
  certFingerPrints := []
  certFingerPrintInc := 0
  cnames := StrMap.new c%"cname-" 8

/-- src/anonymizer.rs:79-81 `mask_host` -/
def maskHost (s : Anon) (h : Str) : Str × Anon :=
  let (r, m) := s.hostNames.mask h
  (r, { s with hostNames := m })

/-- src/anonymizer.rs:83-99 `mask_ip` -/
def maskIp (s : Anon) (a : IpAddr) : IpAddr × Anon :=
  match s.ips.lookup a with
  | some r => (r, s)
  | none =>
    match a with
    | .v4 _ =>
      let c := s.ipV4Inc + 1
      (.v4 c, { s with ipV4Inc := c, ips := s.ips ++ [(a, .v4 c)] })
    | .v6 _ =>
      let c := s.ipV6Inc + 1
      (.v6 c, { s with ipV6Inc := c, ips := s.ips ++ [(a, .v6 c)] })

/-- src/anonymizer.rs:101-106 `mask_address` -/
def maskAddress (s : Anon) (a : Address) : Address × Anon :=
  match a with
  | .fqdn h => let (r, s) := s.maskHost h; (.fqdn r, s)
  | .ip i => let (r, s) := s.maskIp i; (.ip r, s)

/-- src/anonymizer.rs:108-122 `mask_typed_address` -/
def maskTypedAddress (s : Anon) (a : TypedAddress) : TypedAddress × Anon :=
  match a with
  | .fqdn t d => let (r, s) := s.maskHost d; (.fqdn t r, s)
  | .ip i => let (r, s) := s.maskIp i; (.ip r, s)

/-- src/anonymizer.rs:124-131 `mask_port` -/
def maskPort (s : Anon) (p : UInt32) : UInt32 × Anon :=
  match s.ports.lookup p with
  | some r => (r, s)
  | none =>
    let c := s.portInc + 1
    (c, { s with portInc := c, ports := s.ports ++ [(p, c)] })

/-- src/anonymizer.rs:133-135 `mask_origin_user` -/
def maskOriginUser (s : Anon) (u : Str) : Str × Anon :=
  let (r, m) := s.originUsers.mask u
  (r, { s with originUsers := m })

/-- src/anonymizer.rs:137-139 `mask_ice_password` -/
def maskIcePassword (s : Anon) (u : Str) : Str × Anon :=
  let (r, m) := s.icePasswords.mask u
  (r, { s with icePasswords := m })

/-- src/anonymizer.rs:141-143 `mask_ice_user` -/
def maskIceUser (s : Anon) (u : Str) : Str × Anon :=
  let (r, m) := s.iceUsers.mask u
  (r, { s with iceUsers := m })

/-- src/anonymizer.rs:145-155 `mask_cert_finger_print` -/
def maskCertFingerPrint (s : Anon) (f : List UInt8) : List UInt8 × Anon :=
  match s.certFingerPrints.lookup f with
  | some r => (r, s)
  | none =>
    let c := s.certFingerPrintInc + 1
    (toByteVec c, { s with certFingerPrintInc := c
                           certFingerPrints := s.certFingerPrints ++ [(f, toByteVec c)] })

/-- src/anonymizer.rs:157-159 `mask_cname` -/
def maskCname (s : Anon) (u : Str) : Str × Anon :=
  let (r, m) := s.cnames.mask u
  (r, { s with cnames := m })

end Anon

/-- `opt.map(|x| anon.f(x))` with the state threaded through -/
def maskOpt {α : Type} (f : Anon → α → α × Anon) (s : Anon) : Option α → Option α × Anon
  | some x => let (r, s) := f s x; (some r, s)
  | none => (none, s)

/-- src/attribute_type.rs:291-303 -/
def Candidate.maskedClone (c : Candidate) (s : Anon) : Candidate × Anon :=
  let (address, s) := s.maskAddress c.address
  let (port, s) := s.maskPort c.port
  let (raddr, s) := maskOpt Anon.maskAddress s c.raddr
  let (rport, s) := maskOpt Anon.maskPort s c.rport
  ({ c with address, port, raddr, rport }, s)

/-- src/attribute_type.rs:344-352 -/
def RemoteCandidate.maskedClone (c : RemoteCandidate) (s : Anon) : RemoteCandidate × Anon :=
  let (address, s) := s.maskAddress c.address
  let (port, s) := s.maskPort c.port
  ({ c with address, port }, s)

/-- src/attribute_type.rs:847-854 -/
def Fingerprint.maskedClone (f : Fingerprint) (s : Anon) : Fingerprint × Anon :=
  let (b, s) := s.maskCertFingerPrint f.fingerprint
  ({ f with fingerprint := b }, s)

/-- src/attribute_type.rs:1251-1265 -/
def Ssrc.maskedClone [Env] (x : Ssrc) (s : Anon) : Ssrc × Anon :=
  match x.attr with
  | none => ({ x with value := none }, s)
  | some a =>
    match x.value with
    | some v =>
      if lower a = c%"cname" then
        let (r, s) := s.maskCname v
        ({ x with value := some r }, s)
      else (x, s)
    | none => (x, s)

/-- src/attribute_type.rs:1576-1588 -/
def Attribute.maskedClone [Env] (a : Attribute) (s : Anon) : Attribute × Anon :=
  match a with
  | .candidate i => let (r, s) := i.maskedClone s; (.candidate r, s)
  | .fingerprint i => let (r, s) := i.maskedClone s; (.fingerprint r, s)
  | .icePwd i => let (r, s) := s.maskIcePassword i; (.icePwd r, s)
  | .iceUfrag i => let (r, s) := s.maskIceUser i; (.iceUfrag r, s)
  | .remoteCandidate i => let (r, s) := i.maskedClone s; (.remoteCandidate r, s)
  | .ssrc i => let (r, s) := i.maskedClone s; (.ssrc r, s)
  | a => (a, s)

/-- The attribute loops of src/media_type.rs:306-308 and src/lib.rs:391-393 -/
def maskAttrs [Env] : List Attribute → Anon → List Attribute × Anon
  | [], s => ([], s)
  | a :: as, s =>
    let (a, s) := a.maskedClone s
    let (as, s) := maskAttrs as s
    (a :: as, s)

/-- src/media_type.rs:298-311 -/
def Media.maskedClone [Env] (m : Media) (s : Anon) : Media × Anon :=
  let (attrs, s) := maskAttrs m.attrs s
  ({ m with attrs := attrs }, s)

/-- src/lib.rs:123-130 -/
def Origin.maskedClone (o : Origin) (s : Anon) : Origin × Anon :=
  let (username, s) := s.maskOriginUser o.username
  let (unicastAddr, s) := s.maskTypedAddress o.unicastAddr
  ({ o with username, unicastAddr }, s)

/-- src/lib.rs:87-93 -/
def Connection.maskedClone (c : Connection) (s : Anon) : Connection × Anon :=
  let (address, s) := s.maskTypedAddress c.address
  ({ c with address }, s)

/-- src/lib.rs:376-396. The origin is masked twice (lines 381 and 389), media and warnings are
left empty. -/
def Session.maskedClone [Env] (x : Session) (s : Anon) : Session × Anon :=
  let (_, s) := x.origin.maskedClone s
  let (origin, s) := x.origin.maskedClone s
  let (connection, s) := maskOpt (fun s (c : Connection) => c.maskedClone s) s x.connection
  let (attrs, s) := maskAttrs x.attrs s
  ({ x with origin, connection, attrs := attrs, media := [], warnings := [] }, s)

end Sdp
