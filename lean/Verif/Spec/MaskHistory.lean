import Verif.Spec.Mask
/-!
# One anonymizer for many things

Everything that can be given to an anonymizer: the calls of its own interface, and the values that have a
`masked_clone` method.
-/

namespace Sdp

/-- Something that is masked with an anonymizer. -/
inductive Thing where
  | call (c : MaskCall)
  | candidate (c : Candidate)
  | remoteCandidate (c : RemoteCandidate)
  | fingerprint (f : Fingerprint)
  | ssrc (x : Ssrc)
  | attr (a : Attribute)
  | connection (c : Connection)
  | origin (o : Origin)
  | media (m : Media)
  | session (x : Session)
  deriving DecidableEq

/-- The call with its secret replaced by its image. -/
def MaskCall.mapSecrets (σ : Secret → Secret) : MaskCall → MaskCall
  | .host h => .host (σ (.host h)).str
  | .ip a => .ip (σ (.ip a)).addr
  | .address a => .address (a.mapSecrets σ)
  | .typedAddress a => .typedAddress (a.mapSecrets σ)
  | .port p => .port (σ (.port p)).portNumber
  | .originUser u => .originUser (σ (.originUser u)).str
  | .icePassword p => .icePassword (σ (.icePassword p)).str
  | .iceUser u => .iceUser (σ (.iceUser u)).str
  | .fingerprint b => .fingerprint (σ (.fingerprint b)).bytes
  | .cname c => .cname (σ (.cname c)).str

section
variable [Env]

/-- The secrets of a thing, in the order they are masked: all that masking hides. The connection of a media section is not
among them, masking a section leaves it as it is; nor are the media sections of a session, which are dropped. -/
def Thing.secrets : Thing → List Secret
  | .call c => [c.secret]
  | .candidate c => c.secrets
  | .remoteCandidate c => c.address.secrets ++ [.port c.port]
  | .fingerprint f => [.fingerprint f.fingerprint]
  | .ssrc x => x.secrets
  | .attr a => a.secrets
  | .connection c => c.address.secrets
  | .origin o => o.secrets
  | .media m => m.attrs.flatMap Attribute.secrets
  | .session x => x.secrets

/-- The thing with each secret replaced by its image. -/
def Thing.mapSecrets (σ : Secret → Secret) : Thing → Thing
  | .call c => .call (c.mapSecrets σ)
  | .candidate c => .candidate (c.mapSecrets σ)
  | .remoteCandidate c =>
    .remoteCandidate { c with address := c.address.mapSecrets σ, port := (σ (.port c.port)).portNumber }
  | .fingerprint f => .fingerprint { f with fingerprint := (σ (.fingerprint f.fingerprint)).bytes }
  | .ssrc x => .ssrc (x.mapSecrets σ)
  | .attr a => .attr (a.mapSecrets σ)
  | .connection c => .connection { c with address := c.address.mapSecrets σ }
  | .origin o => .origin (o.mapSecrets σ)
  | .media m => .media { m with attrs := m.attrs.map (Attribute.mapSecrets σ) }
  | .session x => .session (x.mapSecrets σ)

end

/-- A value without attribute, which the parser never makes, is dropped from an ssrc. -/
def Ssrc.kept (x : Ssrc) : Ssrc := if x.attr = none then { x with value := none } else x

/-- Other attributes are kept in full. -/
def Attribute.kept : Attribute → Attribute
  | .ssrc x => .ssrc x.kept
  | a => a

/-- What masking leaves of a thing, apart from its secrets: the sections and warnings of a session are dropped. -/
def Thing.kept : Thing → Thing
  | .ssrc x => .ssrc x.kept
  | .attr a => .attr a.kept
  | .media m => .media { m with attrs := m.attrs.map Attribute.kept }
  | .session x => .session { x with attrs := x.attrs.map Attribute.kept, media := [], warnings := [] }
  | t => t

/-- The number of different masks of a kind. -/
def capacityOf : Kind → Nat
  | .ipV4 | .port => 2 ^ 32
  | .ipV6 => 2 ^ 128
  | .fingerprint => 2 ^ 8
  | _ => 2 ^ 64

end Sdp
