import Verif.Spec.Ie
import Verif.Model.Dispatch
import Verif.Gen.RanapProcs

/-!
# What the receive functions are for

Which message TS 25.413 assigns to a direction and a procedure code, and which of them each receive
function supports.
-/

namespace Verif.Rx.Spec
open Verif.Aper Verif.Ie Verif.Ie.Spec Verif.Gen.Ranap

/-- The message of a direction (1 initiating message, 2 successful outcome, 3 unsuccessful outcome,
4 outcome) in an elementary procedure. -/
def ofKind : Nat → Proc → Option MsgDef
  | 1, p => p.initiating
  | 2, p => p.successful
  | 3, p => p.unsuccessful
  | 4, p => p.outcome
  | _, _ => none

/-- TS 25.413: the message for a direction and a procedure code. -/
def protocolMsg (direction code : Nat) : Option MsgDef :=
  (procs.find? (·.code == code)).bind (ofKind direction)

/-- Directions and procedure codes supported by `ranap_cn_rx_co`. -/
def cnCoSupports : List (Nat × Nat) :=
  [(1, 1), (1, 2), (1, 4), (1, 6), (1, 10), (1, 11), (1, 18), (1, 19), (1, 20), (1, 22), (1, 24), (1, 29),
   (2, 1), (2, 3), (2, 5), (2, 6), (2, 7), (2, 30),
   (3, 3), (3, 6), (3, 30),
   (4, 0)]

/-- ... by `ranap_ran_rx_co`. -/
def ranCoSupports : List (Nat × Nat) :=
  [(1, 0), (1, 1), (1, 3), (1, 5), (1, 6), (1, 7), (1, 15), (1, 16), (1, 17), (1, 20), (1, 22), (1, 23), (1, 24),
   (1, 26), (1, 30),
   (2, 2),
   (3, 2)]

/-- ... by `ranap_cn_rx_cl`, leaving out what it decodes as another message than TS 25.413 says. -/
def cnClSupports : List (Nat × Nat) :=
  [(1, 9), (1, 14), (1, 21), (1, 22), (1, 27), (1, 31), (1, 33), (1, 34),
   (2, 9), (2, 27), (2, 33)]

/-- The message `ranap_cn_rx_co` decodes for a direction and a code: that of TS 25.413 if supported;
besides, RAB Assignment Response is accepted as a successful outcome, too. -/
def cnCoMsg (direction code : Nat) : Option MsgDef :=
  if direction = 2 ∧ code = 0 then some rAB_AssignmentResponseIEs
  else if (direction, code) ∈ cnCoSupports then protocolMsg direction code
  else none

/-- The message `ranap_ran_rx_co` decodes. -/
def ranCoMsg (direction code : Nat) : Option MsgDef :=
  if (direction, code) ∈ ranCoSupports then protocolMsg direction code else none

/-- The message `ranap_cn_rx_cl` decodes: that of TS 25.413, with two exceptions (the successful
outcomes of Information Transfer, 31, and of Direct Information Transfer, 34). -/
def cnClMsg (direction code : Nat) : Option MsgDef :=
  if direction = 2 ∧ code = 31 then some resetResourceAcknowledgeIEs
  else if direction = 2 ∧ code = 34 then some informationTransferConfirmationIEs
  else if (direction, code) ∈ cnClSupports then protocolMsg direction code
  else none

/-- The octets are a RANAP PDU with this direction (1 initiating message, 2 successful outcome,
3 unsuccessful outcome, 4 outcome: the alternatives of the CHOICE, from 1), procedure code, criticality and value. -/
def IsPdu (data : Bytes) (direction code crit : Nat) (value : Bytes) : Prop :=
  1 ≤ direction ∧ ∃ pc : Int, pc.toNat = code ∧ decode RANAP_RANAP_PDU data =
    some (.choice (direction - 1) (.seq [some (.int pc), some (.enum crit), some (.octets value)]))

/-- The octets are a PDU with this direction, code and criticality, and the table knows the message
for it, whose elements are `l`. -/
def Pdu (msgs : Nat → Nat → Option MsgDef) (data : Bytes) (direction code crit : Nat) (m : MsgDef) (l : List Ie) :
    Prop :=
  ∃ value, IsPdu data direction code crit value ∧ msgs direction code = some m ∧ Carries m value l

/-- The octets are a message the table knows, with nothing but known and valid elements. -/
def Decodable (msgs : Nat → Nat → Option MsgDef) (data : Bytes) : Prop :=
  ∃ direction code crit m l, Pdu msgs data direction code crit m l ∧ ∀ ie ∈ l, Valid m ie

/-- The trace of a delivered message: the handler is called exactly once, with a message that holds
the elements `l`; before that, everything the message owns is allocated and nothing of it freed;
after that, exactly the blocks it owns are freed, each once. -/
def Delivered (tr : List (Ev Message)) (direction code crit : Nat) (m : MsgDef) (l : List Ie) : Prop :=
  ∃ s before live,
    tr = before ++ .call ⟨direction, code, crit, some (m.name, s)⟩ :: (blocks s).map .free ∧
    calls tr = [⟨direction, code, crit, some (m.name, s)⟩] ∧
    Holds m l s ∧
    (∀ k d x, Row m k d → s.fields[k]? = some (some x) → (x.block.isSome = true ↔ owns d.ty x.val = true)) ∧
    replay [] before = some live ∧ (blocks s).Nodup ∧ ∀ b ∈ blocks s, b ∈ live

/-- No element that owns memory is followed by another one with the same id. -/
def NoRepeatedOwner (m : MsgDef) (l : List Ie) : Prop := l.Pairwise fun a b => a.id = b.id → ¬ OwnsMemory m a

end Verif.Rx.Spec
