import Verif.Spec.Build
import Verif.Spec.History
/-!
# Histories, part by part

Which calls of a history are about the session, about one of its sections, about one thing of a section, and about attributes of one
type.
-/

namespace Sdp

/-- The calls on the session itself. -/
def sessionCalls (ops : List BuildOp) : List SessionOp :=
  ops.filterMap fun op => match op with | .session op => some op | _ => none

/-- The calls on one section. -/
def callsOn (i : Nat) (ops : List BuildOp) : List MediaOp :=
  ops.filterMap fun op => match op with | .inSection j op => if j = i then some op else none | _ => none

/-- The calls on sections are about the first `n` sections. -/
def Within (n : Nat) (ops : List BuildOp) : Prop := ∀ op ∈ ops, ∀ i x, op = .inSection i x → i < n

/-- What a call on a section is about. -/
inductive MediaPart where
  | port | connection | bandwidth | content
  deriving DecidableEq

/-- Codecs, data channels and attributes are the content. -/
def MediaOp.part : MediaOp → MediaPart
  | .setPort _ => .port
  | .setConnection _ => .connection
  | .addBandwidth _ => .bandwidth
  | _ => .content

/-- The call removes or adds attributes of this type. -/
def MediaOp.touches (sctp : Bool) (t : AttributeType) (op : MediaOp) : Bool :=
  (op.clears sctp).contains t || (op.adds sctp).any fun a => a.type = t

end Sdp
