import Verif.Model.Serial
/-!
# Finding one's way in JSON
-/

namespace Sdp

/-- A step into a JSON value: to a member of an object or to an entry of an array. -/
inductive JsonStep where
  | key (k : Str)
  | index (i : Nat)

/-- What is found one step in: the first member with this name. -/
def Json.step : Json → JsonStep → Option Json
  | .obj l, .key k => (l.find? fun p => p.1 = k).map (·.2)
  | .arr l, .index i => l[i]?
  | _, _ => none

/-- What is found at a path. -/
def Json.at (j : Json) : List JsonStep → Option Json
  | [] => some j
  | s :: p => (j.step s).bind fun x => x.at p

/-- The names of the members of an object. -/
def Json.keys : Json → List Str
  | .obj l => l.map (·.1)
  | _ => []

/-- The name of a variant: a bare name, or the name of the only member. -/
def Json.tag : Json → Option Str
  | .str s => some s
  | .obj [(k, _)] => some k
  | _ => none

/-- A name as it is compared here: its letters and digits, in small letters -/
def plainName (s : Str) : Str := (s.filter fun c => c.isAlphanum).map asciiLower

/-- The members of an object have these names, and these values are found there. -/
def Json.Has (j : Json) (l : List (Str × Json)) : Prop :=
  j.keys.length = l.length ∧ ∀ p ∈ l, j.at [.key p.1] = some p.2

/-- A name of a field: small letters and underscores -/
def fieldName (s : Str) : Bool := !s.isEmpty && s.all fun c => c.isLower || c == '_'

/-- A name of a variant: letters and digits, the first a capital letter -/
def variantName (s : Str) : Bool := (s.head?.any Char.isUpper) && s.all Char.isAlphanum

/-- JSON in which, at every depth, an object is either a record, of members with different names of fields, or a variant,
with one member that has a name of a variant. -/
inductive Json.Proper : Json → Prop
  | null : Proper .null
  | bool (b) : Proper (.bool b)
  | nat (n) : Proper (.nat n)
  | f32 (x) : Proper (.f32 x)
  | f64 (x) : Proper (.f64 x)
  | str (s) : Proper (.str s)
  | arr (l) (h : ∀ x ∈ l, Proper x) : Proper (.arr l)
  | record (l : List (Str × Json)) (names : (l.map (·.1)).all fieldName) (different : (l.map (·.1)).Nodup)
      (h : ∀ p ∈ l, Proper p.2) : Proper (.obj l)
  | variant (k j) (name : variantName k) (h : Proper j) : Proper (.obj [(k, j)])

end Sdp
