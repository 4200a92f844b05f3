import Verif.Spec.Store
/-!
# What is left of a history of calls

A history is read as a whole: which of the attributes given to a section were neither rejected nor removed by a
later call, which connection was set last, and so on.
-/

namespace Sdp

/-- The attribute types of which a call removes what is already there. -/
def MediaOp.clears (sctp : Bool) : MediaOp → List AttributeType
  | .removeAttribute t => [t]
  | .setAttribute a => [a.type]
  | .removeCodecs => [.rtpmap, .fmtp, .rtcpfb, .sctpmap, .sctpPort]
  | .addDatachannel _ _ _ msgSize =>
    (if sctp then .sctpPort else .sctpmap) :: if msgSize.toNat = 0 then [] else [.maxMessageSize]
  | _ => []

/-- The attributes a call adds. -/
def MediaOp.adds (sctp : Bool) : MediaOp → List Attribute
  | .addAttribute a | .setAttribute a => if a.type ∈ sessionOnly then [] else [a]
  | .addCodec r => [.rtpmap r]
  | .addDatachannel _ port streams msgSize =>
    (if sctp then .sctpPort port.toNat.toUInt64 else .sctpmap ⟨port, streams.toNat.toUInt32⟩) ::
      if msgSize.toNat = 0 then [] else [.maxMessageSize msgSize.toNat.toUInt64]
  | _ => []

/-- No call of a history removes attributes of this type. -/
def untouched (sctp : Bool) (ops : List MediaOp) (t : AttributeType) : Bool :=
  ops.all fun op => !(op.clears sctp).contains t

/-- The attributes added during a history that no later call removes, in the order in which they were added. -/
def addedAndKept (sctp : Bool) : List MediaOp → List Attribute
  | [] => []
  | op :: later => (op.adds sctp).filter (fun a => untouched sctp later a.type) ++ addedAndKept sctp later

/-- The call replaces the formats of the section by others. -/
def MediaOp.replacesFormats : MediaOp → Bool
  | .removeCodecs | .addDatachannel _ _ _ _ => true
  | _ => false

/-- The formats after such a call. -/
def MediaOp.newFormats (sctp : Bool) (old : FormatList) : MediaOp → FormatList
  | .removeCodecs => match old with | .integers _ => .integers [] | .strings _ => .strings []
  | .addDatachannel name port _ _ => if sctp then .strings [name] else .integers [port.toNat.toUInt32]
  | _ => old

/-- The codecs added. -/
def codecsOf (ops : List MediaOp) : List Rtpmap :=
  ops.filterMap fun op => match op with | .addCodec r => some r | _ => none

/-- More payload types at the end of the formats. -/
def FormatList.more (f : FormatList) (rs : List Rtpmap) : FormatList :=
  match f with
  | .integers l => .integers (l ++ rs.map fun r => r.payloadType.toNat.toUInt32)
  | .strings l => .strings (l ++ rs.map fun r => Nat.toDigits 10 r.payloadType.toNat)

/-- A line a session can take over. -/
def sessionHolds (l : SdpLine) : Bool :=
  match l.sdpType with
  | .attr a => decide (a.type ∉ mediaOnly)
  | .bandwidth _ | .connection _ | .timing _ => true
  | _ => false

/-- What a call gives to the session part. -/
def SessionOp.given : SessionOp → List SdpType
  | .setConnection c => [.connection c]
  | .addBandwidth b => [.bandwidth b]
  | .setTiming t => [.timing t]
  | .addAttribute a => if a.type ∈ mediaOnly then [] else [.attr a]
  | .parseSessionVector ls => (ls.takeWhile sessionHolds).map (·.sdpType)
  | _ => []

/-- The values of one kind among some line values. -/
def connectionsIn (l : List SdpType) : List Connection := l.filterMap fun x => match x with | .connection c => some c | _ => none
def timingsIn (l : List SdpType) : List Timing := l.filterMap fun x => match x with | .timing t => some t | _ => none
def bandwidthsIn (l : List SdpType) : List Bandwidth := l.filterMap fun x => match x with | .bandwidth b => some b | _ => none
def attributesIn (l : List SdpType) : List Attribute := l.filterMap fun x => match x with | .attr a => some a | _ => none

/-- The sections a call adds. -/
def SessionOp.sections : SessionOp → List Media
  | .extendMedia l => l
  | .addMedia t direction port proto addr =>
    if direction.type ∈ sessionOnly then []
    else [{ media := ⟨t, port, 1, proto, .integers []⟩, connection := some ⟨addr, none, none⟩, bandwidth := [],
            attrs := [direction] }]
  | _ => []

end Sdp
