import Verif.Spec.Fault
/-!
# What a description has to do with the world around the parser

Two worlds are two instances of `Env`: two sets of the functions the parser calls and the model does not define
(Unicode case tables, the host parser of the `url` crate, `Debug` output of strings outside ASCII).
-/

namespace Sdp

section
variable [Env]

/-- In the value `v` of the attribute `name`, the word `w` stands where an address is expected. -/
def AttributeAddress (name v w : Str) : Prop :=
  ∃ ts, Words v ts ∧
    (name = c%"candidate" ∧ (ts[4]? = some w ∨
        ∃ pre n post, ts = pre ++ n :: w :: post ∧ 8 ≤ pre.length ∧ lower n = c%"raddr") ∨
     name = c%"remote-candidates" ∧ ts[1]? = some w ∨
     name = c%"rtcp" ∧ ts[3]? = some w)

/-- In the line `l`, the word `w` stands where an address is expected. -/
def LineAddress (l w : Str) : Prop :=
  ∃ t v, Stripped (upTo '=' l) t ∧ Stripped (behind '=' l) v ∧
    (lower t = c%"o" ∧ (∃ ts, Words v ts ∧ ts[5]? = some w) ∨
     lower t = c%"c" ∧ (∃ ts x, Words v ts ∧ ts[2]? = some x ∧ w = upTo '/' x) ∨
     lower t = c%"a" ∧ ∃ u, Stripped (behind ':' v) u ∧ AttributeAddress (lower (upTo ':' v)) u w)

end

/-- The two worlds know the same letters and write strings the same way. -/
def SameTables (E F : Env) : Prop := E.lowerNA = F.lowerNA ∧ E.upperNA = F.upperNA ∧ E.debugNA = F.debugNA

/-- The two worlds say the same about a word that may be the name of a host. Whether it is an IP address they are
not asked. -/
def SameHost (E F : Env) (w : Str) : Prop := (∃ ip, IpText w ip) ∨ E.hostNA w = F.hostNA w

end Sdp
