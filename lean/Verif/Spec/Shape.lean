import Verif.Model.Aper

/-!
# The form of decoded values

What can be said of every value that comes out of the decoder, whatever the octets are: it is built the way its
type says.  Unlike `fits` (`Spec/Fits.lean`) this allows for what aligned PER does not check: a number may exceed
its upper bound within the width of its field.
-/

namespace Verif.Aper.Spec
open Verif.Aper

/-- How many numbers can be read from the field for a constrained whole number with this many values: fields of
`k` bits up to 255 values, one octet for 256, two octets up to 65536; above that, no limit is stated. -/
def codes (range n : Nat) : Bool :=
  if range = 1 then decide (n = 0)
  else if range ≤ 255 then decide (n < 2 ^ bitsFor range)
  else if range = 256 then decide (n < 256)
  else if range ≤ 65536 then decide (n < 65536)
  else true

/-- Number of octets of a string: exact if the size is fixed; not below the minimum. -/
def shapedLen (s : Option Size) (n : Nat) : Bool :=
  match s with
  | none => true
  | some s => s.ext || (decide (s.lb = s.ub → n = s.lb) && decide (s.ub < 65536 → s.lb ≤ n))

mutual
/-- The value has the form of the type. -/
def shaped : Ty → Val → Bool
  | .null, .null => true
  | .bool, .bool _ => true
  | .int r, .int n => r.ext || (decide (r.lb ≤ n) && codes ((r.ub - r.lb).toNat + 1) (n - r.lb).toNat)
  | .enum _ total _, .enum n => decide (n < total)
  | .bits s, .bits b => shapedLen s b.length
  | .octets s, .octets b => shapedLen s b.length
  | .any, .octets _ => true
  | .seq _ fs, .seq vs => shapedFields fs vs
  | .choice ext root adds, .choice i v =>
    if i < root.length then shapedAlt root i v
    else ext && shapedAlt adds (i - root.length) v
  | .seqOf s t, .list vs => shapedLen s vs.length && vs.all (shaped t)
  | _, _ => false
/-- Mandatory components are there, and all are of the form of their types. -/
def shapedFields : Fields → List (Option Val) → Bool
  | .nil, [] => true
  | .cons _ t fs, some v :: vs => shaped t v && shapedFields fs vs
  | .cons true _ fs, none :: vs => shapedFields fs vs
  | _, _ => false
/-- The alternative exists and the value is of the form of its type. -/
def shapedAlt : Fields → Nat → Val → Bool
  | .cons _ t _, 0, v => shaped t v
  | .cons _ _ fs, i + 1, v => shapedAlt fs i v
  | .nil, _, _ => false
end

end Verif.Aper.Spec
