import Verif.Spec.Num
import Verif.Model.Address
/-!
# What a candidate attribute means
-/

namespace Sdp

/-- The candidate extensions this parser knows. -/
inductive CandExt where
  | generation | networkCost | raddr | rport | tcptype | ufrag
  deriving DecidableEq

/-- Their names, lower case. -/
def CandExt.text : CandExt → Str
  | generation => c%"generation"
  | networkCost => c%"network-cost"
  | raddr => c%"raddr"
  | rport => c%"rport"
  | tcptype => c%"tcptype"
  | ufrag => c%"ufrag"

def candExtNames : List Str :=
  [c%"generation", c%"network-cost", c%"raddr", c%"rport", c%"tcptype", c%"ufrag"]

def tcpTypeText : CandTcpType → Str
  | .active => c%"active"
  | .passive => c%"passive"
  | .simultaneous => c%"so"

def candTypeText : CandType → Str
  | .host => c%"host"
  | .srflx => c%"srflx"
  | .prflx => c%"prflx"
  | .relay => c%"relay"

def transportText : CandTransport → Str
  | .udp => c%"udp"
  | .tcp => c%"tcp"

section
variable [Env]

/-- The candidate has the extension with the value the text `v` says. -/
def CandExt.Holds (k : CandExt) (c : Candidate) (v : Str) : Prop :=
  match k with
  | .generation => ∃ n, c.generation = some n ∧ DecText v n.toNat
  | .networkCost => ∃ n, c.networkcost = some n ∧ DecText v n.toNat
  | .raddr => ∃ a, c.raddr = some a ∧ parseAddress v = .ok a
  | .rport => ∃ n, c.rport = some n ∧ DecText v n.toNat
  | .tcptype => ∃ t, c.tcpType = some t ∧ lower v = tcpTypeText t
  | .ufrag => c.ufrag = some v

/-- The candidate does not have the extension. -/
def CandExt.Absent (k : CandExt) (c : Candidate) : Prop :=
  match k with
  | .generation => c.generation = none
  | .networkCost => c.networkcost = none
  | .raddr => c.raddr = none
  | .rport => c.rport = none
  | .tcptype => c.tcpType = none
  | .ufrag => c.ufrag = none

/-- `v` is a legal value of the extension. -/
def CandExt.Legal (k : CandExt) (v : Str) : Prop :=
  match k with
  | .generation | .networkCost => ∃ n < 2^32, DecText v n
  | .raddr => ∃ a, parseAddress v = .ok a
  | .rport => ∃ n ≤ 65535, DecText v n
  | .tcptype => ∃ t, lower v = tcpTypeText t
  | .ufrag => True

/-- The eight mandatory tokens are those of the candidate. -/
def CandBase (c : Candidate) (foundation component transport priority address port typ type : Str) : Prop :=
  c.foundation = foundation ∧ DecText component c.component.toNat ∧
  lower transport = transportText c.transport ∧ DecText priority c.priority.toNat ∧
  parseAddress address = .ok c.address ∧ DecText port c.port.toNat ∧ c.port.toNat ≤ 65535 ∧
  lower typ = c%"typ" ∧ lower type = candTypeText c.cType

/-- `toks` are the tokens of the value of the candidate attribute `l`. -/
def IsCandidate (l : Str) (toks : List Str) : Prop :=
  ∃ n v, l = n ++ ':' :: v ∧ ':' ∉ n ∧ lower n = c%"candidate" ∧ splitWs v = toks

end

/-- The tokens of a list of name-value pairs. -/
def pairTokens (ps : List (Str × Str)) : List Str := ps.flatMap (fun p => [p.1, p.2])

end Sdp
