import Verif.Spec.Masked
import Verif.Spec.Layout
/-!
# Texts with secrets in them

A line is cut into pieces: text that anybody may see, and secrets. Anonymizing is replacing the secrets on the spot.
-/

namespace Sdp

/-- How a secret is written. -/
def Secret.text : Secret → Str
  | .host s | .originUser s | .icePassword s | .iceUser s | .cname s => s
  | .ip a => showIp a
  | .port p => showU32 p
  | .fingerprint b => joinS c%":" (b.map showByteHex)

inductive Piece where
  | open (t : Str)
  | secret (x : Secret)

def Piece.text (σ : Secret → Secret) : Piece → Str
  | .open t => t
  | .secret x => (σ x).text

/-- The text of a line, its secrets replaced by their images. -/
def written (σ : Secret → Secret) (l : List Piece) : Str := l.flatMap (Piece.text σ)

def Piece.secrets : Piece → List Secret
  | .open _ => []
  | .secret x => [x]

/-- An IP address or a host name. -/
def Secret.isAddress : Secret → Bool
  | .host _ | .ip _ => true
  | _ => false

/-- Where secrets are: in these places of these lines, nowhere else. -/
inductive SecretLine [Env] : List Piece → Prop where
  | none (t : Str) : SecretLine [.open t]
  | origin (user t : Str) (a : Secret) : a.isAddress →
      SecretLine [.open c%"o=", .secret (.originUser user), .open t, .secret a]
  | connection (t t' : Str) (a : Secret) : a.isAddress → SecretLine [.open (c%"c=IN " ++ t), .secret a, .open t']
  | icePwd (p : Str) : SecretLine [.open c%"a=ice-pwd:", .secret (.icePassword p)]
  | iceUfrag (u : Str) : SecretLine [.open c%"a=ice-ufrag:", .secret (.iceUser u)]
  | fingerprint (hash : Str) (b : List UInt8) :
      SecretLine [.open (c%"a=fingerprint:" ++ hash ++ c%" "), .secret (.fingerprint b)]
  | cname (id a v : Str) : lower a = c%"cname" → SecretLine [.open (c%"a=ssrc:" ++ id ++ c%" " ++ a ++ c%":"), .secret (.cname v)]
  | remoteCandidate (t : Str) (a : Secret) (port : UInt32) : a.isAddress →
      SecretLine [.open (c%"a=remote-candidates:" ++ t), .secret a, .open c%" ", .secret (.port port)]
  | candidate (t t' t'' : Str) (a : Secret) (port : UInt32) (raddr : Option Secret) (rport : Option UInt32) :
      a.isAddress → (∀ b, raddr = some b → b.isAddress) →
      SecretLine ([.open (c%"a=candidate:" ++ t), .secret a, .open c%" ", .secret (.port port), .open (c%" typ " ++ t')] ++
        (raddr.elim [] fun b => [.open c%" raddr ", .secret b]) ++
        (rport.elim [] fun p => [.open c%" rport ", .secret (.port p)]) ++ [.open t''])

/-- The lines `l'` are the lines `l` with their secrets, which are `S` in this order, replaced by their images. -/
def Redacts [Env] (σ : Secret → Secret) (S : List Secret) (l l' : List Str) : Prop :=
  ∃ ps : List (List Piece), (∀ p ∈ ps, SecretLine p) ∧ ps.flatMap (·.flatMap Piece.secrets) = S ∧
    l = ps.map (written id) ∧ l' = ps.map (written σ)

/-- What the parser never makes, but a program could: an empty password or user name, for which no line is written though its mask
has one, and a value in an ssrc without an attribute, which masking drops. -/
def Attribute.Odd : Attribute → Prop
  | .icePwd p => p = []
  | .iceUfrag u => u = []
  | .ssrc s => s.attr = none ∧ s.value ≠ none
  | _ => False

end Sdp
