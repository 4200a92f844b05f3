import Verif.Spec.Sample
import Verif.Model.Anon
/-!
# An environment for the crate's own unit tests

Host names follow the rules of the
`url` crate as far as the tests go (a name whose last label is a number is a broken IPv4 address; no `%`,
white space, `:` and `/`).
-/

namespace Sdp.Conformance

/-- See the head of the file. -/
def testHost (s : Str) : HostRes :=
  if s.isEmpty then .error c%"empty host"
  else if ((splitC '.' s).getLast?.map fun l => !l.isEmpty && l.all fun c => '0' ≤ c && c ≤ '9') == some true then
    .error c%"invalid IPv4 address"
  else if s.all (fun c => !isWs c && c != ':' && c != '/' && c != '%') then .domain s
  else .error c%"invalid domain character"

def testEnv : Env where
  lowerNA := id
  upperNA := id
  hostNA := testHost
  debugNA := id

def accepts {ε α : Type} : Outcome ε α → Bool
  | .ok _ => true
  | _ => false

def rejects {ε α : Type} : Outcome ε α → Bool
  | .err _ => true
  | _ => false

def satisfies {ε α : Type} (x : Outcome ε α) (p : α → Bool) : Bool :=
  match x with
  | .ok a => p a
  | _ => false

def attributePrintsBack (s : Str) : Bool :=
  letI := testEnv
  satisfies (attrFromStr s) fun a => showAttribute a == s

def mediaPrintsBack (s : Str) : Bool :=
  letI := testEnv
  satisfies (parseMedia s) fun
    | .media m => showMediaLine m == s
    | _ => false

def hasAttribute (s : Session) (i : Nat) (t : AttributeType) : Bool :=
  match s.media[i]? with
  | some m => (m.getAttribute t).isSome
  | none => false

/-- There is `\r\n\r\n` in the text. -/
def hasEmptyLine : Str → Bool
  | '\r' :: '\n' :: '\r' :: '\n' :: _ => true
  | _ :: s => hasEmptyLine s
  | [] => false

end Sdp.Conformance
