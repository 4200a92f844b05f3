import Verif.Spec.Sections
/-!
# Operation histories of a media section and a session, and an abstract attribute store

The abstract store forgets the order between attributes of different types: it is a map from types
to lists. The concrete section is later shown to behave like it under every history.
-/

namespace Sdp

/-- The mutators of `SdpMedia`. -/
inductive MediaOp where
  | setPort (p : UInt32)
  | addBandwidth (b : Bandwidth)
  | setConnection (c : Connection)
  | addAttribute (a : Attribute)
  | removeAttribute (t : AttributeType)
  | setAttribute (a : Attribute)
  | removeCodecs
  | addCodec (r : Rtpmap)
  | addDatachannel (name : Str) (port streams : UInt16) (msgSize : UInt32)

/-- The attributes of each type, in order of insertion. -/
abbrev Store := AttributeType → List Attribute

namespace Store

def add (s : Store) (a : Attribute) : Store := fun t => if t = a.type then s t ++ [a] else s t
def clear (s : Store) (t0 : AttributeType) : Store := fun t => if t = t0 then [] else s t
def put (s : Store) (a : Attribute) : Store := fun t => if t = a.type then [a] else s t

/-- The types a codec is described with. -/
def codecTypes : List AttributeType := [.rtpmap, .fmtp, .rtcpfb, .sctpmap, .sctpPort]

/-- What each operation does to the store; `sctp` says whether the protocol of the section is
UDP/DTLS/SCTP or TCP/DTLS/SCTP. -/
def step (sctp : Bool) (s : Store) : MediaOp → Store
  | .setPort _ | .addBandwidth _ | .setConnection _ => s
  | .addAttribute a => if a.type ∈ sessionOnly then s else s.add a
  | .removeAttribute t => s.clear t
  | .setAttribute a => if a.type ∈ sessionOnly then s.clear a.type else s.put a
  | .removeCodecs => fun t => if t ∈ codecTypes then [] else s t
  | .addCodec r => s.add (.rtpmap r)
  | .addDatachannel _ port streams msgSize =>
    let s := if sctp then s.put (.sctpPort (UInt64.ofNat port.toNat))
      else s.put (.sctpmap ⟨port, UInt32.ofNat streams.toNat⟩)
    if msgSize > 0 then s.put (.maxMessageSize (UInt64.ofNat msgSize.toNat)) else s

def run (sctp : Bool) (s : Store) (ops : List MediaOp) : Store := ops.foldl (step sctp) s

end Store

/-- The protocols for which a data channel is described with sctp-port. -/
def isSctp : ProtocolValue → Bool
  | .udpDtlsSctp | .tcpDtlsSctp => true
  | _ => false

/-- The rtpmaps of a section, in order. -/
def rtpmapsOf (l : List Attribute) : List Rtpmap :=
  l.filterMap fun a => match a with | .rtpmap r => some r | _ => none

/-- The formats of the m= line are the payload types of the rtpmaps, one by one. -/
def CodecsMatch : FormatList → List Rtpmap → Prop
  | .integers l, rs => l.map (fun n => n.toNat) = rs.map (fun r => r.payloadType.toNat)
  | .strings l, rs => l = rs.map (fun r => Nat.toDigits 10 r.payloadType.toNat)

/-- The operations that do not touch single codecs. -/
def keepsCodecs : MediaOp → Bool
  | .addAttribute a | .setAttribute a => a.type != .rtpmap
  | .removeAttribute t => t != .rtpmap
  | .addDatachannel _ _ _ _ => false
  | _ => true

/-- The mutators of `SdpSession`. -/
inductive SessionOp where
  | setConnection (c : Connection)
  | addBandwidth (b : Bandwidth)
  | setTiming (t : Timing)
  | addAttribute (a : Attribute)
  | extendMedia (l : List Media)
  | addMedia (t : MediaValue) (direction : Attribute) (port : UInt32) (proto : ProtocolValue) (addr : TypedAddress)
  | parseSessionVector (ls : List SdpLine)

end Sdp
