import Verif.Model.Session
/-!
# What an anonymizer is allowed to return

A call masks one secret. The masks are numbered: the mask of a secret is determined by its kind and by
its rank, the position of its first occurrence among the different secrets of that kind.
-/

namespace Sdp

/-- Something an anonymizer hides. -/
inductive Secret where
  | host (h : Str)
  | ip (a : IpAddr)
  | port (p : UInt32)
  | originUser (u : Str)
  | icePassword (p : Str)
  | iceUser (u : Str)
  | fingerprint (b : List UInt8)
  | cname (c : Str)
  deriving DecidableEq, Repr

/-- Secrets of different kinds are numbered separately. -/
inductive Kind where
  | host | ipV4 | ipV6 | port | originUser | icePassword | iceUser | fingerprint | cname
  deriving DecidableEq, Repr

def Secret.kind : Secret → Kind
  | .host _ => .host
  | .ip (.v4 _) => .ipV4
  | .ip (.v6 _) => .ipV6
  | .port _ => .port
  | .originUser _ => .originUser
  | .icePassword _ => .icePassword
  | .iceUser _ => .iceUser
  | .fingerprint _ => .fingerprint
  | .cname _ => .cname

/-- The calls of the public interface of an anonymizer. -/
inductive MaskCall where
  | host (h : Str)
  | ip (a : IpAddr)
  | address (a : Address)
  | typedAddress (a : TypedAddress)
  | port (p : UInt32)
  | originUser (u : Str)
  | icePassword (p : Str)
  | iceUser (u : Str)
  | fingerprint (b : List UInt8)
  | cname (c : Str)
  deriving DecidableEq, Repr

/-- The secret in the argument (or in the result) of a call. -/
def MaskCall.secret : MaskCall → Secret
  | .host h | .address (.fqdn h) | .typedAddress (.fqdn _ h) => .host h
  | .ip a | .address (.ip a) | .typedAddress (.ip a) => .ip a
  | .port p => .port p
  | .originUser u => .originUser u
  | .icePassword p => .icePassword p
  | .iceUser u => .iceUser u
  | .fingerprint b => .fingerprint b
  | .cname c => .cname c

/-- The different secrets of a kind, in order of first occurrence. -/
def distinct (k : Kind) (xs : List Secret) : List Secret := (xs.filter (fun x => x.kind = k)).eraseDups

/-- 1 for the first secret of its kind, 2 for the next different one, ... -/
def rank (xs : List Secret) (x : Secret) : Nat := (distinct x.kind xs).idxOf x + 1

/-- A prefix and a decimal number of at least eight digits. -/
def numbered (pre : Str) (n : Nat) : Str :=
  pre ++ List.replicate (8 - (Nat.toDigits 10 n).length) '0' ++ Nat.toDigits 10 n

/-- The `n`-th mask of a kind. -/
def label (k : Kind) (n : Nat) : Secret :=
  match k with
  | .host => .host (numbered "fqdn-".toList (n % 2 ^ 64))
  | .ipV4 => .ip (.v4 (UInt32.ofNat n))
  | .ipV6 => .ip (.v6 (BitVec.ofNat 128 n))
  | .port => .port (UInt32.ofNat n)
  | .originUser => .originUser (numbered "origin-user-".toList (n % 2 ^ 64))
  | .icePassword => .icePassword (numbered "ice-password-".toList (n % 2 ^ 64))
  | .iceUser => .iceUser (numbered "ice-user-".toList (n % 2 ^ 64))
  | .fingerprint => .fingerprint [0, 0, 0, 0, 0, 0, 0, UInt8.ofNat n]
  | .cname => .cname (numbered "cname-".toList (n % 2 ^ 64))

end Sdp

/-!
## The secrets of a session

`secrets` lists them in the order they are masked, `mapSecrets σ` replaces each by its image.
-/

namespace Sdp

def Secret.str : Secret → Str
  | .host s | .originUser s | .icePassword s | .iceUser s | .cname s => s
  | _ => []

def Secret.addr : Secret → IpAddr
  | .ip a => a
  | _ => .v4 0

def Secret.portNumber : Secret → UInt32
  | .port p => p
  | _ => 0

def Secret.bytes : Secret → List UInt8
  | .fingerprint b => b
  | _ => []

def Address.secrets : Address → List Secret
  | .fqdn h => [.host h]
  | .ip a => [.ip a]

def Address.mapSecrets (σ : Secret → Secret) : Address → Address
  | .fqdn h => .fqdn (σ (.host h)).str
  | .ip a => .ip (σ (.ip a)).addr

def TypedAddress.secrets : TypedAddress → List Secret
  | .fqdn _ h => [.host h]
  | .ip a => [.ip a]

def TypedAddress.mapSecrets (σ : Secret → Secret) : TypedAddress → TypedAddress
  | .fqdn t h => .fqdn t (σ (.host h)).str
  | .ip a => .ip (σ (.ip a)).addr

/-- The address and port of a candidate and of its base, not its ufrag extension. -/
def Candidate.secrets (c : Candidate) : List Secret :=
  c.address.secrets ++ ([.port c.port] ++ ((c.raddr.map Address.secrets).getD [] ++
    (c.rport.map fun p => [Secret.port p]).getD []))

def Candidate.mapSecrets (σ : Secret → Secret) (c : Candidate) : Candidate :=
  { c with
    address := c.address.mapSecrets σ
    port := (σ (.port c.port)).portNumber
    raddr := c.raddr.map (Address.mapSecrets σ)
    rport := c.rport.map fun p => (σ (.port p)).portNumber }

/-- The value of a cname; an ssrc without attribute has no value worth keeping. -/
def Ssrc.secrets [Env] (x : Ssrc) : List Secret :=
  match x.attr, x.value with
  | some a, some v => if lower a = "cname".toList then [.cname v] else []
  | _, _ => []

def Ssrc.mapSecrets [Env] (σ : Secret → Secret) (x : Ssrc) : Ssrc :=
  match x.attr, x.value with
  | some a, some v => if lower a = "cname".toList then { x with value := some (σ (.cname v)).str } else x
  | none, _ => { x with value := none }
  | _, _ => x

def Attribute.secrets [Env] : Attribute → List Secret
  | .candidate c => c.secrets
  | .fingerprint f => [.fingerprint f.fingerprint]
  | .icePwd p => [.icePassword p]
  | .iceUfrag u => [.iceUser u]
  | .remoteCandidate c => c.address.secrets ++ [.port c.port]
  | .ssrc x => x.secrets
  | _ => []

def Attribute.mapSecrets [Env] (σ : Secret → Secret) : Attribute → Attribute
  | .candidate c => .candidate (c.mapSecrets σ)
  | .fingerprint f => .fingerprint { f with fingerprint := (σ (.fingerprint f.fingerprint)).bytes }
  | .icePwd p => .icePwd (σ (.icePassword p)).str
  | .iceUfrag u => .iceUfrag (σ (.iceUser u)).str
  | .remoteCandidate c =>
    .remoteCandidate { c with address := c.address.mapSecrets σ, port := (σ (.port c.port)).portNumber }
  | .ssrc x => .ssrc (x.mapSecrets σ)
  | a => a

end Sdp

namespace Sdp

def Origin.secrets (o : Origin) : List Secret := .originUser o.username :: o.unicastAddr.secrets

def Origin.mapSecrets (σ : Secret → Secret) (o : Origin) : Origin :=
  { o with username := (σ (.originUser o.username)).str, unicastAddr := o.unicastAddr.mapSecrets σ }

/-- The secrets of a session without those of its media sections. -/
def Session.secrets [Env] (x : Session) : List Secret :=
  x.origin.secrets ++ ((x.connection.map fun c => c.address.secrets).getD [] ++ x.attrs.flatMap Attribute.secrets)

def Session.mapSecrets [Env] (σ : Secret → Secret) (x : Session) : Session :=
  { x with
    origin := x.origin.mapSecrets σ
    connection := x.connection.map fun c => { c with address := c.address.mapSecrets σ }
    attrs := x.attrs.map (Attribute.mapSecrets σ) }

/-- The masks given to secrets that are masked in the order `xs`. -/
def maskOf (xs : List Secret) (x : Secret) : Secret := label x.kind (rank xs x)

end Sdp
