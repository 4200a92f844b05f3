import Verif.Spec.RfcBuilt
import Verif.Spec.Masked
/-!
# Anonymized descriptions and the RFCs
-/

namespace Sdp

/-- The attributes whose masks do not follow their rules: user fragments and passwords of ICE, and fingerprints. -/
def credentialTypes : List AttributeType := [.iceUfrag, .icePwd, .fingerprint]

/-- Neither the session nor a section has such an attribute. -/
def Session.NoCredentials (x : Session) : Prop :=
  (∀ a ∈ x.attrs, a.type ∉ credentialTypes) ∧ ∀ m ∈ x.media, ∀ a ∈ m.attrs, a.type ∉ credentialTypes

end Sdp
