import Verif.Model.Aper

/-!
# Values of a type

Which values the codec can represent, by type: integers within their range, enumeration values that
exist, strings and lists within their size constraint, the alternatives of a CHOICE, the mandatory
components of a SEQUENCE.  (Lists and bit strings without an upper bound are limited to 16383.)
-/

namespace Verif.Aper.Spec
open Verif.Aper

/-- Number of elements or bits allowed by a size constraint. -/
def fitsLen (s : Option Size) (n : Nat) : Bool :=
  match s with
  | none => decide (n < 16384)
  | some s =>
    if s.lb ≤ n ∧ n ≤ s.ub then decide (s.lb = s.ub ∨ s.ub < 65536 ∨ n < 16384)
    else s.ext && decide (n < 16384)

/-- Number of octets allowed by a size constraint. -/
def fitsOct (s : Option Size) (n : Nat) : Bool :=
  match s with
  | none => true
  | some s =>
    if s.lb ≤ n ∧ n ≤ s.ub then decide (s.lb = s.ub ∨ s.ub < 65536 ∨ n < 16384)
    else s.ext

mutual
/-- The value is one of the type. -/
def fits : Ty → Val → Bool
  | .null, .null => true
  | .bool, .bool _ => true
  | .int r, .int n => decide (r.lb ≤ n ∧ n ≤ r.ub)
  | .enum root total ext, .enum n => decide (n < root) || (ext && decide (n < total) && decide (n - root < 64))
  | .bits s, .bits b => fitsLen s b.length
  | .octets s, .octets b => fitsOct s b.length
  | .any, .octets _ => true
  | .seq _ fs, .seq vs => fitsFields fs vs
  | .choice ext root adds, .choice i v =>
    if i < root.length then fitsAlt root i v
    else ext && decide (i - root.length < 64) && fitsAlt adds (i - root.length) v
  | .seqOf s t, .list vs => fitsLen s vs.length && vs.all (fits t)
  | _, _ => false
/-- Mandatory components are there, and all are of their types. -/
def fitsFields : Fields → List (Option Val) → Bool
  | .nil, [] => true
  | .cons _ t fs, some v :: vs => fits t v && fitsFields fs vs
  | .cons true _ fs, none :: vs => fitsFields fs vs
  | _, _ => false
/-- The alternative exists and the value is of its type. -/
def fitsAlt : Fields → Nat → Val → Bool
  | .cons _ t _, 0, v => fits t v
  | .cons _ _ fs, i + 1, v => fitsAlt fs i v
  | .nil, _, _ => false
end

end Verif.Aper.Spec
