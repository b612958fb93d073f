import Verif.Spec.Factory
import Verif.Model.Rua

/-!
# What wrapping in RUA is for
-/

namespace Verif.Rua.Spec
open Verif.Aper Verif.Ie Verif.Ie.Spec Verif.Wire Verif.Gen.Rua
open Verif.Factory.Spec (Elements HoldsExactly)

/-- The messages of RUA by procedure code (RUA-PDU-Descriptions.asn:127-162). -/
def message : Nat → Option MsgDef
  | 1 => some connectIEs
  | 2 => some directTransferIEs
  | 3 => some disconnectIEs
  | 4 => some connectionlessTransferIEs
  | 5 => some errorIndicationIEs
  | _ => none

/-- The criticality of every procedure of RUA: ignore (RUA-PDU-Descriptions.asn:130-162). -/
def procedureCriticality : Nat := 1

/-- The octets are the complete initiating message of this procedure, with this criticality and exactly
the wanted elements, in the order, encoding and with the criticality the specification assigns to
them. -/
def IsMessage (bs : Bytes) (code crit : Nat) (want : List (Nat × Val)) : Prop :=
  ∃ m l, message code = some m ∧ bs = pduOctets 1 code crit (containerOctets l) ∧ Elements m l want

/-- What a receiver makes of it: it is an initiating message of this procedure, the decode function of
the message succeeds and yields exactly the wanted elements. -/
def Understood (bs : Bytes) (code : Nat) (want : List (Nat × Val)) : Prop :=
  ∃ m crit value, message code = some m ∧
    decode RUA_RUA_PDU bs = some (.choice 0 (.seq [some (.int code), some (.enum crit), some (.octets value)])) ∧
    ∀ μ : Mem Unit, (decodeIes m value μ).1.1 = 0 ∧ HoldsExactly m want (decodeIes m value μ).1.2

/-- The input message (block 0) is freed, once, and nothing else is freed that is not allocated. -/
def Consumed (tr : List (Ev Unit)) : Prop := ∃ live, replay [0] tr = some live ∧ 0 ∉ live

/-- ... and no memory is left behind. -/
def NothingLeft (tr : List (Ev Unit)) : Prop := replay [0] tr = some []

/-- The number in a context id element. -/
def contextOf (b : Bits) : Nat := b.foldl (fun n x => 2 * n + x.toNat) 0

end Verif.Rua.Spec
