import Verif.Spec.Meaning
import Verif.Spec.Consistent
import Mathlib.Data.List.Forall2
/-!
# Specification: sections of a text, and sessions that differ in the order of attributes only
-/

namespace Sdp

section
variable [Env]

/-- An m= line that is read. -/
def isMediaLine (l : Str) : Bool :=
  match lineMeaning l with
  | .ok (.media _) => true
  | _ => false

/-- These lines begin with an m= line. -/
def StartsSection (b : List Str) : Prop := b.head?.any isMediaLine = true

/-- None of these lines is an m= line. -/
def NoMediaLine (h : List Str) : Prop := ∀ l ∈ h, isMediaLine l = false

/-- The line is not a v=, o=, s= or m= line. -/
def movable (l : Str) : Bool :=
  match lineMeaning l with
  | .ok (.version _) | .ok (.origin _) | .ok (.session _) | .ok (.media _) => false
  | _ => true

/-- A c= or t= line, or a simulcast attribute: of these, one counts more than the others. -/
def keepsPlace (l : Str) : Bool :=
  match lineMeaning l with
  | .ok (.connection _) | .ok (.timing _) | .ok (.attr (.simulcast _)) => true
  | _ => false

end

/-- The sections are the same but for the order of the bandwidths and attributes. -/
structure Media.Reordered (m m' : Media) : Prop where
  media : m'.media = m.media
  connection : m'.connection = m.connection
  bandwidth : m.bandwidth.Perm m'.bandwidth
  attrs : m.attrs.Perm m'.attrs

/-- The sessions are the same but for the order of the bandwidths and attributes on each level, and the warnings. -/
structure Session.Reordered (s s' : Session) : Prop where
  version : s'.version = s.version
  origin : s'.origin = s.origin
  session : s'.session = s.session
  connection : s'.connection = s.connection
  timing : s'.timing = s.timing
  bandwidth : s.bandwidth.Perm s'.bandwidth
  attrs : s.attrs.Perm s'.attrs
  media : List.Forall₂ Media.Reordered s.media s'.media

end Sdp
