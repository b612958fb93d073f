import Verif.Model.IuClient
import Verif.Spec.Iu

/-!
# Reading histories of the Iu client

What a received message says, and which messages of a history are Initial UE Messages.
Nothing here uses the client's own parsing, lookup or registry functions.
-/

namespace Verif.Iu.Spec

/-- The calls of user callbacks in a piece of history. -/
def callbacks (d : List Out) : List Out :=
  d.filter fun o => match o with | .sap _ _ => false | _ => true

/-- The primitives handed to SCCP in a piece of history. -/
def prims (d : List Out) : List Prim :=
  d.filterMap fun o => match o with | .sap p _ => some p | _ => none

/-- Deliveries of NAS PDUs in a piece of history: context, connection, octets. -/
def deliveries (d : List Out) : List (Ptr × ConnId × Bytes) :=
  d.filterMap fun o => match o with | .recv p c nas _ _ => some (p, c, nas) | _ => none

/-- MCC of a PLMN identity (TS 24.008 10.5.1.3): low digit, high digit, low digit. -/
def mcc (p0 p1 : Byte) : Nat := 100 * (p0.toNat % 16) + 10 * (p0.toNat / 16) + p1.toNat % 16

/-- MNC as read from an LAI: the high digit of octet 2 counts hundreds unless it is the
filler (see C13 for the difference to `rncMnc`). -/
def laiMnc (p1 p2 : Byte) : Nat :=
  if p1.toNat / 16 = 15 then 10 * (p2.toNat % 16) + p2.toNat / 16
  else 100 * (p1.toNat / 16) + 10 * (p2.toNat % 16) + p2.toNat / 16

/-- MNC as read from a Global-RNC-ID: the high digit of octet 2 is the last digit unless
it is the filler. -/
def rncMnc (p1 p2 : Byte) : Nat :=
  if p1.toNat / 16 = 15 then 10 * (p2.toNat % 16) + p2.toNat / 16
  else 100 * (p2.toNat % 16) + 10 * (p2.toNat / 16) + p1.toNat / 16

/-- What an Initial UE Message says: RNC, location, SAC; `none` if it is not acceptable:
sizes wrong, LAC 0 or 0xfffe, or RAC element with value 0xff.  An absent RAC is
recorded as 0xff. -/
def readInitialUe (ies : InitialUeIes) : Option (RncId × GprsRaId × BitVec 16) :=
  match ies.laiPlmn, ies.laiLac, ies.grnc.plmn, ies.saiSac with
  | [p0, p1, p2], [l0, l1], [q0, q1, q2], s0 :: s1 :: _ =>
    if l0 ++ l1 = (0 : BitVec 16) ∨ l0 ++ l1 = (0xfffe : BitVec 16) then none
    else
      let id : RncId := ⟨⟨mcc q0 q1, rncMnc q1 q2, q1.toNat / 16 ≠ 15⟩, BitVec.ofNat 16 ies.grnc.rncId⟩
      match ies.rac with
      | none => some (id, ⟨mcc p0 p1, laiMnc p1 p2, false, l0 ++ l1, 0xff⟩, s0 ++ s1)
      | some (r :: _) =>
        if r = 0xff then none else some (id, ⟨mcc p0 p1, laiMnc p1 p2, false, l0 ++ l1, r⟩, s0 ++ s1)
      | some [] => none
  | _, _, _, _ => none

/-- The location reported with a Direct Transfer; `none` if its LAI is not acceptable. -/
def readDt (ies : DtIes) : Option (Option GprsRaId × Option (BitVec 16)) :=
  match ies.lai with
  | none => some (none, none)
  | some ([p0, p1, p2], [l0, l1]) =>
    if l0 ++ l1 = (0 : BitVec 16) ∨ l0 ++ l1 = (0xfffe : BitVec 16) then none
    else
      let rac : BitVec 8 := match ies.rac with | some (r :: _) => r | _ => 0
      let sac : Option (BitVec 16) := match ies.saiSac with | some (s0 :: s1 :: _) => some (s0 ++ s1) | _ => none
      some (some ⟨mcc p0 p1, laiMnc p1 p2, false, l0 ++ l1, rac⟩, sac)
  | some _ => none

/-- Routing area of a location. -/
def areaOfRa (ra : GprsRaId) : Rai := ⟨⟨⟨ra.mcc, ra.mnc, ra.mnc3⟩, ra.lac⟩, ra.rac⟩

/-- How an area is named in an event: by LAI if no RAC was given. -/
def eventArea (ra : GprsRaId) (racGiven : Bool) : Area :=
  if racGiven then .rac (areaOfRa ra) else .lac (areaOfRa ra).lai

/-- A connection has a UE context. -/
def HasCtx (s : State) (c : ConnId) : Prop := ∃ u ∈ s.ues, u.conn = c
instance (s : State) (c : ConnId) : Decidable (HasCtx s c) := by unfold HasCtx; infer_instance

/-- A connection id is in use: it has a context or a cached connection request. -/
def InUse (s : State) (c : ConnId) : Prop := HasCtx s c ∨ ∃ e ∈ s.cache, e.1 = c
instance (s : State) (c : ConnId) : Decidable (InUse s c) := by unfold InUse; infer_instance

/-- The first payload on a connection and the calling address of the connection request:
payload of a connection request, or the data following an empty one. -/
def firstPayload (s : State) : Op → Option (ConnId × SccpAddr × Bytes)
  | .connectInd c a d => if d = [] then none else some (c, a, d)
  | .dataInd c d => if HasCtx s c then none else (s.cache.find? (·.1 = c)).map fun e => (c, e.2, d)
  | _ => none

/-- The operation brings an Initial UE Message as first message of a connection. -/
def initialUe (env : Env) (s : State) (op : Op) : Option (ConnId × SccpAddr × InitialUeIes) :=
  match firstPayload s op with
  | none => none
  | some (c, a, d) =>
    match env.decodeCo d with
    | some ⟨dir, proc, .initialUe ies⟩ =>
      if dir = PR_initiatingMessage ∧ proc = id_InitialUE_Message then some (c, a, ies) else none
    | _ => none

/-- What the operation registers. -/
def registration (env : Env) (s : State) (op : Op) : Option Registration :=
  match initialUe env s op with
  | none => none
  | some (_, a, ies) => (readInitialUe ies).map fun x => ⟨x.1, areaOfRa x.2.1, a⟩

/-- All registrations of a history, oldest first. -/
def registrations (env : Env) : State → List Op → List Registration
  | _, [] => []
  | s, op :: ops =>
    (registration env s op).toList ++
      match step env op s with
      | .ok (_, s') => registrations env s' ops
      | .fault _ => []

end Verif.Iu.Spec
