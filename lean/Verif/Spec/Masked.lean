import Verif.Spec.Mask
import Verif.Spec.SessionWF
/-!
# Anonymizing a whole session

`masked_clone` of a session leaves the media sections out, so its caller clones them one by one with the
same anonymizer and puts them into the clone, through the public field `media`.
-/

namespace Sdp

/-- The clones of all sections, one after the other. -/
def cloneSections [Env] : List Media → Anon → List Media × Anon
  | [], s => ([], s)
  | m :: ms, s =>
    let (m, s) := m.maskedClone s
    let (ms, s) := cloneSections ms s
    (m :: ms, s)

/-- The clone of a session, with the clones of its sections. -/
def Session.anonymize [Env] (x : Session) (s : Anon) : Session :=
  let (c, s) := x.maskedClone s
  { c with media := (cloneSections x.media s).1 }

/-- The secrets that are hidden on the way. -/
def Session.allSecrets [Env] (x : Session) : List Secret :=
  x.secrets ++ x.media.flatMap fun m => m.attrs.flatMap Attribute.secrets

/-- The host parser (outside the model) takes the masks of host names as they are. -/
def MaskHosts [Env] : Prop := ∀ n, Env.hostNA (numbered c%"fqdn-" n) = .domain (numbered c%"fqdn-" n)

/-- There are no more ports than numbers for them. -/
def PortsSuffice (xs : List Secret) : Prop := (distinct .port xs).length ≤ 65535

end Sdp
