import Verif.Spec.Wire
import Verif.Spec.Fits
import Verif.Spec.Dispatch
import Verif.Spec.Bcd
import Verif.Spec.Addr
import Verif.Model.Factory

/-!
# What the message generators are for
-/

namespace Verif.Factory.Spec
open Verif.Aper Verif.Ie Verif.Ie.Spec Verif.Rx.Spec Verif.Wire Verif.Gen.Ranap

/-- The elements on the wire are those wanted (id and value), in this order, each with the
criticality and in the encoding TS 25.413 assigns to it in the message. -/
def Elements (m : MsgDef) : List Ie → List (Nat × Val) → Prop
  | [], [] => True
  | ie :: l, (id, v) :: want =>
    (∃ d ∈ m.ies, d.id = id ∧ ie.id = id ∧ ie.crit = d.crit ∧ decode d.ty ie.value = some v) ∧ Elements m l want
  | _, _ => False

/-- The octets are the complete message of this direction (1 initiating message, 2 successful outcome,
3 unsuccessful outcome, 4 outcome) and procedure, with the criticality of the procedure and exactly the
wanted elements. -/
def IsMessage (bs : Bytes) (direction code : Nat) (want : List (Nat × Val)) : Prop :=
  ∃ p m l, procs.find? (·.code == code) = some p ∧ ofKind direction p = some m ∧
    bs = pduOctets direction code p.crit (containerOctets l) ∧ Elements m l want

/-- ... in a message buffer of 1024 octets. -/
def Says (bs : Bytes) (direction code : Nat) (want : List (Nat × Val)) : Prop :=
  IsMessage bs direction code want ∧ bs.length ≤ 1024

/-- The decoded message holds exactly the wanted elements. -/
def HoldsExactly (m : MsgDef) (want : List (Nat × Val)) (s : Struct) : Prop :=
  ∀ k d, Row m k d → s.vals[k]? = some (want.lookup d.id) ∧
    (d.opt = true → (bit m s k = true ↔ (want.lookup d.id).isSome = true))

/-- What does not fit into the buffer leaves it empty. -/
def SaysOrEmpty (bs : Bytes) (direction code : Nat) (want : List (Nat × Val)) : Prop :=
  ∃ w, IsMessage w direction code want ∧ bs = if w.length ≤ 1024 then w else []

/-! ## Arguments: the valid ones, and what stands for them in a message -/

/-- TS 25.413 9.2.1.4: the cause groups and their values. -/
def ValidCause (c : Cause) : Prop :=
  (c.present = 1 ∧ 1 ≤ c.value ∧ c.value ≤ 64) ∨ (c.present = 2 ∧ 65 ≤ c.value ∧ c.value ≤ 80) ∨
  (c.present = 3 ∧ 81 ≤ c.value ∧ c.value ≤ 96) ∨ (c.present = 4 ∧ 97 ≤ c.value ∧ c.value ≤ 112) ∨
  (c.present = 5 ∧ 113 ≤ c.value ∧ c.value ≤ 128) ∨ (c.present = 6 ∧ 129 ≤ c.value ∧ c.value ≤ 256) ∨
  (c.present = 7 ∧ 257 ≤ c.value ∧ c.value ≤ 512)

instance (c : Cause) : Decidable (ValidCause c) := by unfold ValidCause; infer_instance

/-- The group is the number of the alternative. -/
def causeVal (c : Cause) : Val := .choice (c.present - 1) (.int c.value)

/-- TS 25.413 9.2.1.39: PLMN identity of three octets and RNC-ID. -/
def ValidRnc (r : RncId) : Prop := r.plmn.length = 3 ∧ 0 ≤ r.rncId ∧ r.rncId ≤ 4095

instance (r : RncId) : Decidable (ValidRnc r) := by unfold ValidRnc; infer_instance

def rncVal (r : RncId) : Val := .seq [some (.octets r.plmn), some (.int r.rncId)]

/-- 0 CS domain, 1 PS domain. -/
def ValidDomain (d : Nat) : Prop := d < 2

instance (d : Nat) : Decidable (ValidDomain d) := by unfold ValidDomain; infer_instance

def psOrCs (isPs : Bool) : Nat := if isPs then 1 else 0

/-- An optional element. -/
def opt {α : Type} (id : Nat) (f : α → Val) : Option α → List (Nat × Val)
  | some a => [(id, f a)]
  | none => []

/-- Algorithms selected by a mask: bit 1 stands for the first, bit 2 for the second. -/
def selected (mask : Byte) (alg1 alg2 : Int) : List Val :=
  (if mask.getLsbD 1 then [.int alg1] else []) ++ (if mask.getLsbD 2 then [.int alg2] else [])

/-- Some algorithm is selected, and none but the two. -/
def SelectsAlgorithms (mask : Byte) : Prop :=
  (mask.getLsbD 1 = true ∨ mask.getLsbD 2 = true) ∧ ∀ i, mask.getLsbD i = true → i = 1 ∨ i = 2

/-- The permanent identity for an IMSI. -/
def IsImsi (imsi : Bytes) (v : Val) : Prop := ∃ t, Verif.Spec.Bcd.Tbcd imsi t ∧ v = .choice 0 (.octets t)

/-- Transport layer information: the address and the transport association (0 GTP TEI, 1 binding
identity). -/
def IsTransport (v : Val) (addr : Addr.SockAddr) (x213 : Bool) (assoc : Nat) (octets : Bytes) : Prop :=
  ∃ a, Verif.Spec.Addr.Format a addr x213 ∧ (x213 = true → a.length = 20) ∧
    v = .seq [some (.bits (octetsBits a)), some (.choice assoc (.octets octets)), none]

/-- RAB assignment request with a single RAB to set up: RAB id and transport layer information. -/
def AssignsRab (bs : Bytes) (rab : Byte) (transport : Val → Prop) : Prop :=
  ∃ b1 b2 nas par up t second,
    Says bs 1 0 [(54, .list [.list [.seq [some (.int 53), some (.enum 0), some (.octets b1), some (.enum 1),
      some (.octets b2)]]])] ∧
    decode RANAP_RAB_SetupOrModifyItemFirst b1 =
      some (.seq [some (.bits (octetsBits [rab])), nas, some par, some up, some t, none, none]) ∧
    decode RANAP_RAB_SetupOrModifyItemSecond b2 = some second ∧ transport t

/-- An element list with one element, as a value. -/
def oneItem (id crit : Nat) (b : Bytes) : Val :=
  .seq [some (.list [.seq [some (.int id), some (.enum crit), some (.octets b)]])]

/-- The lower 24 bits of a number, as a bit string. -/
def low24 (n : BitVec 32) : Bits := octetsBits [n.extractLsb' 16 8, n.extractLsb' 8 8, n.extractLsb' 0 8]

/-- The four octets of a number, most significant first. -/
def msb (n : BitVec 32) : Vector Byte 4 :=
  #v[n.extractLsb' 24 8, n.extractLsb' 16 8, n.extractLsb' 8 8, n.extractLsb' 0 8]

/-- The four octets of a number as they lie in the memory of a little-endian host. -/
def inMemory (n : BitVec 32) : Vector Byte 4 :=
  #v[n.extractLsb' 0 8, n.extractLsb' 8 8, n.extractLsb' 16 8, n.extractLsb' 24 8]

end Verif.Factory.Spec
