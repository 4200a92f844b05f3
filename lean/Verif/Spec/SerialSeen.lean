import Verif.Spec.Serial
/-!
# What JSON shows of floats

JSON has no infinities and no NaN. All of them look the same, and where a float may be missing they look as if it were.
-/

namespace Sdp

instance (x : F32) : Decidable x.Finite := inferInstanceAs (Decidable (_ < _))
instance (x : F64) : Decidable x.Finite := inferInstanceAs (Decidable (_ < _))

/-- One and the same NaN for all that are not finite. -/
def F32.seen (x : F32) : F32 := if x.Finite then x else ⟨0x7fc00000⟩
def F64.seen (x : F64) : F64 := if x.Finite then x else ⟨0x7ff8000000000000⟩

def SRange.seen : SRange → SRange
  | .range a b => .range a.seen b.seen
  | .discrete l => .discrete (l.map F32.seen)

/-- A `q` that is not finite is not there. -/
def ImageAttrSet.seen (s : ImageAttrSet) : ImageAttrSet :=
  { s with sar := s.sar.map SRange.seen, par := s.par.map fun r => ⟨r.min.seen, r.max.seen⟩, q := s.q.filter fun x => decide x.Finite }

def ImageAttrSetList.seen : ImageAttrSetList → ImageAttrSetList
  | .sets l => .sets (l.map ImageAttrSet.seen)
  | .wildcard => .wildcard

/-- What JSON shows of an attribute. -/
def Attribute.seen : Attribute → Attribute
  | .imageAttr a => .imageAttr { a with send := a.send.seen, recv := a.recv.seen }
  | .frameRate x => .frameRate x.seen
  | a => a

def Media.seen (m : Media) : Media := { m with attrs := m.attrs.map Attribute.seen }

/-- Everything but the warnings. -/
def Session.seen (s : Session) : Session :=
  { s with attrs := s.attrs.map Attribute.seen, media := s.media.map Media.seen, warnings := [] }

end Sdp
