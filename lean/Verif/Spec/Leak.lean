import Verif.Spec.Ie

/-!
# Memory that is left allocated
-/

namespace Verif.Ie.Spec
open Verif.Aper Verif.Ie

/-- The element, decoded by this table, owns heap memory (as a test; the same as `OwnsMemory`). -/
def isOwner (m : MsgDef) (ie : Ie) : Bool :=
  m.ies.any fun d => d.id == ie.id && match decode d.ty ie.value with
    | some v => owns d.ty v
    | none => false

/-- The number of elements that own heap memory. -/
def owners (m : MsgDef) (l : List Ie) : Nat := l.countP (isOwner m)

/-- The number of elements that own heap memory and are replaced by a later one with the same id. -/
def replaced (m : MsgDef) : List Ie → Nat
  | [] => 0
  | ie :: l => (if isOwner m ie && l.any (·.id == ie.id) then 1 else 0) + replaced m l

/-- `good` are the elements in front of the first one that the message does not have or that is not valid; `rest` are that
one and all after it. -/
def SplitAtBad (m : MsgDef) (l good rest : List Ie) : Prop :=
  l = good ++ rest ∧ (∀ ie ∈ good, Valid m ie) ∧ ∀ x, rest.head? = some x → ¬ Valid m x

end Verif.Ie.Spec
