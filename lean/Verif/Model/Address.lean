import Verif.Model.Show
/-!
# Number and address parsing with the crate's error type
-/

namespace Sdp

/-- `s.parse::<u8>()?` (the error is converted by src/error.rs:168-172) -/
def parseU8 (s : Str) : IRes UInt8 :=
  match parseRadix 10 (2^8) s with
  | .ok n => .ok (UInt8.ofNat n)
  | .error e => .err (.integer e)

/-- `s.parse::<u16>()?` -/
def parseU16 (s : Str) : IRes UInt16 :=
  match parseRadix 10 (2^16) s with
  | .ok n => .ok (UInt16.ofNat n)
  | .error e => .err (.integer e)

/-- `s.parse::<u32>()?` -/
def parseU32 (s : Str) : IRes UInt32 :=
  match parseRadix 10 (2^32) s with
  | .ok n => .ok (UInt32.ofNat n)
  | .error e => .err (.integer e)

/-- `s.parse::<u64>()?` -/
def parseU64 (s : Str) : IRes UInt64 :=
  match parseRadix 10 (2^64) s with
  | .ok n => .ok (UInt64.ofNat n)
  | .error e => .err (.integer e)

/-- `u8::from_str_radix(s, 16)?` -/
def parseHexU8 (s : Str) : IRes UInt8 :=
  match parseRadix 16 (2^8) s with
  | .ok n => .ok (UInt8.ofNat n)
  | .error e => .err (.integer e)

/-- `u32::from_str_radix(s, 16)?` -/
def parseHexU32 (s : Str) : IRes UInt32 :=
  match parseRadix 16 (2^32) s with
  | .ok n => .ok (UInt32.ofNat n)
  | .error e => .err (.integer e)

/-- `s.parse::<f32>()?` (the error is converted by src/error.rs:186-190) -/
def parseF32 (s : Str) : IRes F32 :=
  match F32.ofText s with
  | .ok x => .ok x
  | .error e => .err (.float e)

/-- `s.parse::<f64>()?` -/
def parseF64 (s : Str) : IRes F64 :=
  match F64.ofText s with
  | .ok x => .ok x
  | .error e => .err (.float e)

/-- src/address.rs:29-47 `Address::from_str` -/
def parseAddress [Env] (s : Str) : IRes Address :=
  let viaHost (e : Option InternalError) : IRes Address :=
    match hostParse s with
    | .domain d => .ok (.fqdn d)
    | .ipv4 a => .ok (.ip (.v4 a))
    | .ipv6 a => .ok (.ip (.v6 a))
    | .error m => .err (e.getD (.domain m))
  if ':' ∈ s then
    match ipFromStr s with
    | some ip => .ok (.ip ip)
    | none => viaHost (some .ipAddress)
  else viaHost none

/-- src/address.rs:58-66 `PartialEq for Address` -/
def Address.eqv [Env] : Address → Address → Bool
  | .fqdn a, .fqdn b => lower a == lower b
  | .ip a, .ip b => a == b
  | _, _ => false

/-- src/address.rs:178-195 `PartialEq for ExplicitlyTypedAddress` -/
def TypedAddress.eqv [Env] : TypedAddress → TypedAddress → Bool
  | .fqdn a1 d1, .fqdn a2 d2 => a1 == a2 && lower d1 == lower d2
  | .ip a, .ip b => a == b
  | _, _ => false

/-- src/address.rs:85-94 `AddressType::from_str` -/
def parseAddrType [Env] (s : Str) : IRes AddressType :=
  let u := upper s
  if u = c%"IP4" then .ok .ipV4
  else if u = c%"IP6" then .ok .ipV6
  else .err (.unknownAddressType s)

/-- src/address.rs:156-176 `TryFrom<(AddressType, &str)> for ExplicitlyTypedAddress` -/
def typedTryFrom [Env] (t : AddressType) (s : Str) : IRes TypedAddress := do
  match ← parseAddress s with
  | .ip ip =>
    if ipAddressType ip ≠ t then .err (.addressTypeMismatch (ipAddressType ip) t)
    else .ok (.ip ip)
  | .fqdn d => .ok (.fqdn t d)

/-- src/address.rs:49-56 `From<ExplicitlyTypedAddress> for Address` -/
def TypedAddress.toAddress : TypedAddress → Address
  | .fqdn _ d => .fqdn d
  | .ip a => .ip a

/-- src/network.rs:17-24 `parse_network_type` -/
def parseNetworkType [Env] (s : Str) : IRes Unit :=
  if upper s ≠ c%"IN" then .err (.generic c%"nettype must be IN") else .ok ()

/-- src/network.rs:26-29 `parse_address_type` -/
def parseAddressType [Env] (s : Str) : IRes AddressType :=
  (parseAddrType (upper s)).mapErr (fun _ => .generic c%"address type must be IP4 or IP6")

/-- src/network.rs:31-33 `parse_unicast_address` -/
def parseUnicastAddress [Env] (s : Str) : IRes Address := parseAddress s

end Sdp
