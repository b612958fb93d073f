import Verif.Gen.RanapIes
import Verif.Gen.RuaIes
import Verif.Gen.HnbapIes
import Verif.Gen.SabpIes

/-!
# What the information element functions are for

Vocabulary of the statements about message contents.  A message is carried as a list of elements
(id, criticality, encoded value); its table says which ids it may have, with which types, and which
of them are mandatory.
-/

namespace Verif.Ie.Spec
open Verif.Aper

/-- Every message of the four protocols. -/
def tables : List MsgDef := Gen.Ranap.all ++ Gen.Rua.all ++ Gen.Hnbap.all ++ Gen.Sabp.all

/-- Number of optional rows in front of row `k`: the position of its presence bit. -/
def bitOf (m : MsgDef) (k : Nat) : Nat := ((m.ies.take k).filter (·.opt)).length

/-- Row `k` of the table. -/
def Row (m : MsgDef) (k : Nat) (d : IeDef) : Prop := m.ies[k]? = some d

/-- The presence bit of row `k`. -/
def bit (m : MsgDef) (s : Struct) (k : Nat) : Bool := s.mask.getLsbD (bitOf m k)

/-- Row `k` is part of the message held in `s`: mandatory, or its presence bit is set. -/
def Included (m : MsgDef) (s : Struct) (k : Nat) (d : IeDef) : Prop := d.opt = false ∨ bit m s k = true

/-- The presence mask has no bits besides those of optional rows. -/
def NoOtherBits (m : MsgDef) (s : Struct) : Prop :=
  ∀ i, s.mask.getLsbD i = true → ∃ k d, Row m k d ∧ d.opt = true ∧ bitOf m k = i

/-- The value of member `k` (zeroed memory counts as the zero value of its type). -/
def valueOf (s : Struct) (k : Nat) (d : IeDef) : Option Val :=
  match s.vals[k]? with
  | some (some v) => some v
  | _ => zeroVal d.ty

/-- The last element with an id. -/
def lastWith (id : Nat) (l : List Ie) : Option Ie := (l.filter (·.id = id)).getLast?

/-- An element the table knows and whose contents are valid. -/
def Valid (m : MsgDef) (ie : Ie) : Prop :=
  ∃ d ∈ m.ies, d.id = ie.id ∧ (decode d.ty ie.value).isSome = true

/-- The octets carry this list of elements. -/
def Carries (m : MsgDef) (bs : Bytes) (l : List Ie) : Prop := decode m.ty bs = some (container l)

/-- Two structures hold the same message. -/
def SameMsg (s s' : Struct) : Prop := s.mask = s'.mask ∧ s.vals = s'.vals

/-- The structure holds what the list of elements says: each member the value of the last element
with its id, absent if there is none; the presence bit of an optional member says whether there is
one, and there are no other bits. -/
structure Holds (m : MsgDef) (l : List Ie) (s : Struct) : Prop where
  vals : ∀ k d, Row m k d → s.vals[k]? = some (match lastWith d.id l with
    | some ie => decode d.ty ie.value
    | none => none)
  bits : ∀ k d, Row m k d → d.opt = true → (bit m s k = true ↔ ∃ ie ∈ l, ie.id = d.id)
  rest : NoOtherBits m s

/-- The element, decoded by this table, owns heap memory. -/
def OwnsMemory (m : MsgDef) (ie : Ie) : Prop :=
  ∃ d v, d ∈ m.ies ∧ d.id = ie.id ∧ decode d.ty ie.value = some v ∧ owns d.ty v = true

/-- The heap blocks held by a structure. -/
def blocks (s : Struct) : List Nat := s.fields.filterMap fun f => f.bind Slot.block

/-! ## Traces -/

/-- Replays a trace on the list of live blocks.  `none`: something was freed that is not live, an
allocation returned a live block, or a free function was applied to the wrong structure. -/
def replay {α : Type} : List Nat → List (Ev α) → Option (List Nat)
  | live, [] => some live
  | live, .alloc b :: tr => if b ∈ live then none else replay (b :: live) tr
  | live, .free b :: tr => if b ∈ live then replay (live.erase b) tr else none
  | live, .call _ :: tr => replay live tr
  | _, .bad :: _ => none

/-- Nothing is freed twice, or without having been allocated. -/
def NoBadFree {α : Type} (tr : List (Ev α)) : Prop := replay [] tr ≠ none

/-- Moreover nothing is left in the end. -/
def Clean {α : Type} (tr : List (Ev α)) : Prop := replay [] tr = some []

/-- The calls of the handler in a trace. -/
def calls {α : Type} (tr : List (Ev α)) : List α := tr.filterMap fun e => match e with | .call a => some a | _ => none

end Verif.Ie.Spec
