import Verif.Spec.Ie

/-!
# The size of a decoded value
-/

namespace Verif.Aper.Spec
open Verif.Aper

mutual
/-- The number of cells of a value: one for each number, choice, structure and list, one for each octet of a string (8 bits
of a bit string, rounded up), one for each member that is absent and one more (a pointer) for each element of a list. -/
def cells : Val → Nat
  | .null | .bool _ | .int _ | .enum _ => 1
  | .bits b => 1 + (b.length + 7) / 8
  | .octets b => 1 + b.length
  | .seq fs => 1 + cellsOpt fs
  | .choice _ v => 1 + cells v
  | .list vs => 1 + cellsAll vs
/-- Of the members of a structure. -/
def cellsOpt : List (Option Val) → Nat
  | [] => 0
  | none :: fs => 1 + cellsOpt fs
  | some v :: fs => cells v + cellsOpt fs
/-- Of the elements of a list. -/
def cellsAll : List Val → Nat
  | [] => 0
  | v :: vs => 1 + cells v + cellsAll vs
end

mutual
/-- The number of octets in octet strings (and open types) of a value. -/
def octetsIn : Val → Nat
  | .null | .bool _ | .int _ | .enum _ | .bits _ => 0
  | .octets b => b.length
  | .seq fs => octetsInOpt fs
  | .choice _ v => octetsIn v
  | .list vs => octetsInAll vs
/-- Of the members of a structure. -/
def octetsInOpt : List (Option Val) → Nat
  | [] => 0
  | none :: fs => octetsInOpt fs
  | some v :: fs => octetsIn v + octetsInOpt fs
/-- Of the elements of a list. -/
def octetsInAll : List Val → Nat
  | [] => 0
  | v :: vs => octetsIn v + octetsInAll vs
end

example : cells (.seq [some (.int 5), none, some (.list [.octets [1, 2], .bits [true]])]) = 11 := by decide

end Verif.Aper.Spec

namespace Verif.Ie.Spec
open Verif.Aper Verif.Aper.Spec Verif.Ie

/-- The size of what one element of a message is decoded to (nothing if the message has no such element or it is not
valid). -/
def elementCells (m : MsgDef) (ie : Ie) : Nat :=
  match m.ies.find? (·.id = ie.id) with
  | none => 0
  | some d => match decode d.ty ie.value with
    | none => 0
    | some v => cells v

/-- Of all elements, those included that are replaced by a later one with the same id. -/
def messageCells (m : MsgDef) (l : List Ie) : Nat := (l.map (elementCells m)).sum

end Verif.Ie.Spec
