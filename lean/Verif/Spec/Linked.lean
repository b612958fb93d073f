import Verif.Spec.Dispatch
import Verif.Spec.IuFlow

/-!
# What received octets mean to the client

A received message is read off its elements: the last one with the wanted id, decoded by the type that the message
table gives for that id.  Nothing here uses the structures of the library or the receive functions.
-/

namespace Verif.Linked.Spec
open Verif.Aper Verif.Ie Verif.Ie.Spec Verif.Rx.Spec Verif.Gen.Ranap

/-- There is an element with this id. -/
def Has (l : List Ie) (id : Nat) : Prop := ∃ ie ∈ l, ie.id = id
instance (l : List Ie) (id : Nat) : Decidable (Has l id) := by unfold Has; infer_instance

/-- The value of the element with an id. -/
def elem (m : MsgDef) (l : List Ie) (id : Nat) : Option Val :=
  match m.ies.find? (·.id = id), lastWith id l with
  | some d, some ie => decode d.ty ie.value
  | _, _ => none

/-- An OCTET STRING; none is like an empty one. -/
def octetsOf : Option Val → Bytes
  | some (.octets b) => b
  | _ => []

/-- PLMN identity and LAC of a Location Area Identification. -/
def laiOf : Option Val → Bytes × Bytes
  | some (.seq (some (.octets plmn) :: some (.octets lac) :: _)) => (plmn, lac)
  | _ => ([], [])

/-- SAC of a Service Area Identification. -/
def sacOf : Option Val → Bytes
  | some (.seq (_ :: _ :: some (.octets sac) :: _)) => sac
  | _ => []

/-- Global RNC-ID. -/
def rncOf : Option Val → Iu.GRncId
  | some (.seq [some (.octets plmn), some (.int id)]) => ⟨plmn, id.toNat⟩
  | _ => ⟨[], 0⟩

/-- The element for a cause (TS 25.413 9.2.1.4): every group has a range of values of its own. -/
def causeElem : Iu.Cause → Option Val
  | .nothing => none
  | .radioNetwork v => if 1 ≤ v ∧ v ≤ 64 then some (.choice 0 (.int v)) else none
  | .transmissionNetwork v => if 65 ≤ v ∧ v ≤ 80 then some (.choice 1 (.int v)) else none
  | .nAS v => if 81 ≤ v ∧ v ≤ 96 then some (.choice 2 (.int v)) else none
  | .protocol v => if 97 ≤ v ∧ v ≤ 112 then some (.choice 3 (.int v)) else none
  | .misc v => if 113 ≤ v ∧ v ≤ 128 then some (.choice 4 (.int v)) else none
  | .nonStandard v => if 129 ≤ v ∧ v ≤ 256 then some (.choice 5 (.int v)) else none
  | .radioNetworkExtension v => if 257 ≤ v ∧ v ≤ 512 then some (.choice 6 (.int v)) else none

/-- Cause: the group and the value. -/
def causeOf : Option Val → Iu.Cause
  | some (.choice 0 (.int v)) => .radioNetwork v
  | some (.choice 1 (.int v)) => .transmissionNetwork v
  | some (.choice 2 (.int v)) => .nAS v
  | some (.choice 3 (.int v)) => .protocol v
  | some (.choice 4 (.int v)) => .misc v
  | some (.choice 5 (.int v)) => .nonStandard v
  | some (.choice 6 (.int v)) => .radioNetworkExtension v
  | _ => .nothing

/-- Octets of the RAB items in a list, those that are valid RAB items. -/
def rabsOf : Option Val → List (Option Bytes)
  | some (.seq [some (.list vs)]) => vs.map fun v => match v with
    | .seq [_, _, some (.octets b)] => if (decode RANAP_RAB_SetupOrModifiedItem b).isSome then some b else none
    | _ => none
  | _ => []

/-- CN domain: 0 CS, 1 PS. -/
def domainOf : Option Val → Nat
  | some (.enum n) => n
  | _ => 0

/-- Elements of an Initial UE Message (15 LAI, 55 RAC, 58 SAI, 16 NAS-PDU, 86 Global RNC-ID). -/
def initialUeOf (l : List Ie) : Iu.InitialUeIes :=
  let e := elem initialUE_MessageIEs l
  { laiPlmn := (laiOf (e 15)).1, laiLac := (laiOf (e 15)).2,
    rac := if Has l 55 then some (octetsOf (e 55)) else none,
    saiSac := sacOf (e 58), nas := octetsOf (e 16), grnc := rncOf (e 86) }

/-- Elements of a Direct Transfer. -/
def dtOf (l : List Ie) : Iu.DtIes :=
  let e := elem directTransferIEs l
  { nas := octetsOf (e 16),
    lai := if Has l 15 then some (laiOf (e 15)) else none,
    rac := if Has l 55 then some (octetsOf (e 55)) else none,
    saiSac := if Has l 58 then some (sacOf (e 58)) else none }

/-- What a connection oriented message says, as far as the client is concerned. -/
def coBody (direction code : Nat) (l : List Ie) : Iu.Body :=
  if direction = 1 ∧ code = 19 then .initialUe (initialUeOf l)
  else if direction = 1 ∧ code = 20 then .directTransfer (dtOf l)
  else if direction = 1 ∧ code = 22 then .errorInd (if Has l 4 then some (causeOf (elem errorIndicationIEs l 4)) else none)
  else if direction = 1 ∧ code = 11 then .iuReleaseReq (causeOf (elem iu_ReleaseRequestIEs l 4))
  else if (direction = 2 ∨ direction = 4) ∧ code = 0 then
    .rabAssResp (if Has l 52 then some (rabsOf (elem rAB_AssignmentResponseIEs l 52)) else none)
  else .other

/-- What a connectionless message says. -/
def clBody (direction code : Nat) (l : List Ie) : Iu.Body :=
  if direction = 1 ∧ code = 9 then
    .reset (domainOf (elem resetIEs l 3)) (if Has l 86 then some (rncOf (elem resetIEs l 86)) else none)
  else if direction = 1 ∧ code = 22 then .errorInd (if Has l 4 then some (causeOf (elem errorIndicationIEs l 4)) else none)
  else .other

/-- What the user is to be told about an outcome: Security Mode Complete, Iu Release Complete, RAB Assignment Response (with
the octets of the first RAB set up or modified). -/
def eventOf (direction code : Nat) (l : List Ie) : Option Iu.Event :=
  if direction = 2 ∧ code = 6 then some .securityModeComplete
  else if direction = 2 ∧ code = 1 then some .iuRelease
  else if direction = 4 ∧ code = 0 then
    match rabsOf (elem rAB_AssignmentResponseIEs l 52) with
    | some rab :: _ => some (.rabAssign rab)
    | _ => none
  else none

/-- The octets are a connection oriented message with this direction and code, supported by the core network side,
with these elements, all of them known and valid. -/
def CoMsg (data : Bytes) (direction code : Nat) (l : List Ie) : Prop :=
  ∃ crit m, Pdu cnCoMsg data direction code crit m l ∧ ∀ ie ∈ l, Valid m ie

/-- ... a connectionless one. -/
def ClMsg (data : Bytes) (direction code : Nat) (l : List Ie) : Prop :=
  ∃ crit m, Pdu cnClMsg data direction code crit m l ∧ ∀ ie ∈ l, Valid m ie

/-- LAC 0 and 0xfffe are reserved (TS 24.008). -/
def ReservedLac (lac : Bytes) : Prop := lac = [0x00, 0x00] ∨ lac = [0xff, 0xfe]
instance (lac : Bytes) : Decidable (ReservedLac lac) := by unfold ReservedLac; infer_instance

/-- Messages on an established connection that kill the process: a Direct Transfer with more than 256 octets of NAS
PDU (unless it has a LAI with a reserved LAC), an Iu Release Request without a Cause, a RAB Assignment Response with
an empty list of RABs set up or modified. -/
def FatalCo (direction code : Nat) (l : List Ie) : Prop :=
  (direction = 1 ∧ code = 20 ∧ 256 < (octetsOf (elem directTransferIEs l 16)).length ∧
    ¬ (Has l 15 ∧ ReservedLac (laiOf (elem directTransferIEs l 15)).2)) ∨
  (direction = 1 ∧ code = 11 ∧ ¬ Has l 4) ∨
  (direction = 4 ∧ code = 0 ∧ Has l 52 ∧ rabsOf (elem rAB_AssignmentResponseIEs l 52) = [])

/-- First messages of a connection that kill the process: an Initial UE Message with LAI and Global RNC-ID, neither
reserved LAC nor RAC 0xff, which has no SAI or a NAS PDU of more than 256 octets. -/
def FatalFirst (direction code : Nat) (l : List Ie) : Prop :=
  direction = 1 ∧ code = 19 ∧ Has l 15 ∧ Has l 86 ∧
    ¬ ReservedLac (laiOf (elem initialUE_MessageIEs l 15)).2 ∧
    ¬ (Has l 55 ∧ octetsOf (elem initialUE_MessageIEs l 55) = [0xff]) ∧
    (¬ Has l 58 ∨ 256 < (octetsOf (elem initialUE_MessageIEs l 16)).length)

/-- What kills the process in a state: such a message on a connection which has a context or, as first message, on
one which has none. -/
def Kills (s : Iu.State) : Iu.Op → Prop
  | .connectInd _ _ data => ∃ direction code l, CoMsg data direction code l ∧ FatalFirst direction code l
  | .dataInd c data => ∃ direction code l, CoMsg data direction code l ∧
      ((Iu.Spec.HasCtx s c ∧ FatalCo direction code l) ∨
       (¬ Iu.Spec.HasCtx s c ∧ Iu.Spec.InUse s c ∧ FatalFirst direction code l))
  | .disconnectInd c data => ∃ direction code l, CoMsg data direction code l ∧
      Iu.Spec.HasCtx s c ∧ FatalCo direction code l
  | _ => False

end Verif.Linked.Spec
