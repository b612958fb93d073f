import Verif.Spec.Rab

/-!
# What is left of a value when something is taken away
-/

namespace Verif.Factory.Spec
open Verif.Aper Verif.Gen.Ranap

/-- `Part v v'`: `v` is `v'`, or comes from it by taking away optional components, elements of lists, or the contents of strings.
Nothing is added, exchanged or put in another order. -/
inductive Part : Val → Val → Prop where
  | same (v : Val) : Part v v
  | noBits (b : Bits) : Part (.bits []) (.bits b)
  | noOctets (b : Bytes) : Part (.octets []) (.octets b)
  | without (l r : List Val) (v : Val) : Part (.list (l ++ r)) (.list (l ++ v :: r))
  | element (l r : List Val) {v v' : Val} : Part v v' → Part (.list (l ++ v :: r)) (.list (l ++ v' :: r))
  | absent (l r : List (Option Val)) (v : Val) : Part (.seq (l ++ none :: r)) (.seq (l ++ some v :: r))
  | component (l r : List (Option Val)) {v v' : Val} : Part v v' → Part (.seq (l ++ some v :: r)) (.seq (l ++ some v' :: r))
  | trans {u v w : Val} : Part u v → Part v w → Part u w

/-- A RAB assignment request for a single RAB, whose item has two parts. -/
def Requests (bs : Bytes) (first second : Val) : Prop :=
  ∃ b1 b2, Says bs 1 0 [(54, .list [.list [.seq [some (.int 53), some (.enum 0), some (.octets b1), some (.enum 1),
      some (.octets b2)]]])] ∧
    decode RANAP_RAB_SetupOrModifyItemFirst b1 = some first ∧ decode RANAP_RAB_SetupOrModifyItemSecond b2 = some second

/-- A RAB assignment request for a single RAB with an id, user plane and transport layer information, and otherwise with a part of
what is said by `AsksFor`. -/
def AsksForPart (bs : Bytes) (rab : Byte) (nas : Option (BitVec 4)) (p : Rab) (up : Val) (transport : Val → Prop) (second : Val) : Prop :=
  ∃ nas' par whole t second',
    Requests bs (.seq [some (.bits (octetsBits [rab])), nas', some par, some up, some t, none, none]) second' ∧
    (nas' = none ∨ nas' = nas.map fun n => .bits ((List.range 4).map fun i => n.getMsbD i)) ∧
    IsRab whole p ∧ Part par whole ∧ transport t ∧ Part second' second

end Verif.Factory.Spec
