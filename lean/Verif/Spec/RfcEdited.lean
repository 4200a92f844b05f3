import Verif.Spec.RfcBuilt
import Verif.Spec.RfcRewritten
/-!
# Descriptions of the RFCs that are read and edited
-/

namespace Sdp.Rfc

open Abnf

/-- An attribute that is written back by the RFCs: it is neither a frame rate nor an image attribute (what is written for these may
leave the RFCs, C111), nor one of those of `Plain`, and something is written for it (nothing is for format parameters that are all at
their defaults). -/
def Lasting [Env] : Rule := fun a =>
  Plain a ∧ ¬ HasName c%"framerate" a ∧ ¬ HasName c%"imageattr" a ∧ ∀ x, attrFromStr a = .ok x → showAttribute x ≠ []

end Sdp.Rfc
