import Verif.Spec.SessionWF
/-!
# When what was parsed survives printing

Two things stand between a parsed value and a value that is read back from its printed form: the
host parser, outside the model, must itself be stable, and a few attributes must not use the corners
of the syntax in which the printer loses something. Neither mentions the parser of this crate.
-/

namespace Sdp

/-- What is needed of the host parser, which is outside the model: a host name that came out of it is a fixed
point of it. -/
structure Laws [Env] : Prop where
  host : ∀ h d, Env.hostNA h = .domain d → HostName d

/-- The fmtp parameters do not lose anything: nothing stands beside retransmission parameters; in a
list there is at most one unknown parameter, without white space at its end, and not everything is at
its default. -/
structure FmtpParams.Plain (p : FmtpParams) : Prop where
  rtx : p.rtx ≠ none → AllDefault p ∧ p.unknownTokens = []
  one : p.unknownTokens.length ≤ 1
  unknown : ∀ t ∈ p.unknownTokens, EndsClean t
  some : p.rtx = none → p.encodings = [] → p.dtmfTones = [] → AllDefault p → p.unknownTokens ≠ []

/-- The first parameter is not taken for the format list and the last one does not lose white space at its
end; nothing the stream depends on is empty. -/
structure Rid.Plain (r : Rid) : Prop where
  depends : r.depends = [[]] ∨ ∀ d ∈ r.depends, d ≠ []
  first : r.Bare → ∀ u, r.params.unknown.head? = some u → u.takeWhile (fun c => decide (c ≠ '=')) ≠ c%"pt"
  lastUnknown : r.depends = [] → ∀ u, r.params.unknown.getLast? = some u → EndsClean u
  lastDepends : ∀ d, r.depends.getLast? = some d → d = [] ∨ EndsClean d

/-- No alternative is empty and no id has an equals sign. -/
def SimulcastVersion.Plain (v : SimulcastVersion) : Prop :=
  v.ids ≠ [⟨[], false⟩] ∧ ∀ i ∈ v.ids, '=' ∉ i.id

/-- No single float is a NaN with a minus sign (in a list or range a minus sign cannot occur). -/
structure ImageAttrSet.Plain (s : ImageAttrSet) : Prop where
  sar : ∀ x, s.sar = some (.discrete [x]) → x ≠ ⟨0xffc00000⟩
  q : ∀ x, s.q = some x → x ≠ ⟨0xffc00000⟩

def ImageAttrSetList.Plain : ImageAttrSetList → Prop
  | .sets l => ∀ s ∈ l, s.Plain
  | .wildcard => True

/-- The attributes of which a few need something to survive printing, and what. -/
def Attribute.Plain : Attribute → Prop
  | .fmtp f => f.parameters.Plain
  | .imageAttr i => i.send.Plain ∧ i.recv.Plain
  | .msidSemantic m => m.msids ≠ []
  | .rid r => r.Plain
  | .simulcast s => (∀ v ∈ s.send, v.Plain) ∧ ∀ v ∈ s.receive, v.Plain
  | _ => True

/-- All attributes of the session are such. -/
structure Session.Plain (s : Session) : Prop where
  attrs : ∀ a ∈ s.attrs, a.Plain
  media : ∀ m ∈ s.media, ∀ a ∈ m.attrs, a.Plain

end Sdp
