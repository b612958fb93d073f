import Verif.Model.AsnToStruct
import Verif.Model.Ie

/-!
# From the rows of a text to the tables of the model
-/

namespace Verif.AsnToStruct.Spec
open Verif.Ie Verif.Aper

/-- What the names in a module stand for. -/
structure Names where
  /-- identifiers of elements: the numbers assigned to them in the module of constants -/
  number : List (Text × Nat)
  /-- types of elements -/
  type : List (Text × Ty)
  /-- object sets of messages: the type of the message -/
  container : List (Text × Ty)

/-- The number of a criticality. -/
def criticality (t : Text) : Option Nat :=
  if t = "reject".toList then some 0 else if t = "ignore".toList then some 1 else if t = "notify".toList then some 2 else none

/-- The element a row describes: everything that is not mandatory is an optional member of the structure. -/
def element (N : Names) (r : Row) : Option IeDef := do
  let id ← N.number.lookup r.id
  let crit ← criticality r.crit
  let ty ← N.type.lookup r.ty
  some { name := String.ofList r.id, id, crit, ty, opt := !decide (r.presence = "mandatory".toList) }

/-- The message a table describes. -/
def message (N : Names) (t : Text × List Row) : Option MsgDef := do
  let ty ← N.container.lookup t.1
  let ies ← t.2.mapM (element N)
  some { name := String.ofList t.1, ty, ies }

end Verif.AsnToStruct.Spec
