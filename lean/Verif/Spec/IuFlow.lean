import Verif.Spec.IuDisc

/-!
# Messages on connections
-/

namespace Verif.Iu.Spec

/-- Deliveries of NAS PDUs: context, connection, octets, location, SAC. -/
def recvs (d : List Out) : List (Ptr × ConnId × Bytes × Option GprsRaId × Option (BitVec 16)) :=
  d.filterMap fun o => match o with | .recv p c nas ra sai => some (p, c, nas, ra, sai) | _ => none

/-- The message an operation brings on a connection that has a context. -/
def coMsg (env : Env) (s : State) : Op → Option (ConnId × Msg)
  | .dataInd c d => if HasCtx s c then (env.decodeCo d).map fun m => (c, m) else none
  | .disconnectInd c d => if HasCtx s c ∧ d ≠ [] then (env.decodeCo d).map fun m => (c, m) else none
  | _ => none

/-- The operation brings a Direct Transfer on a connection that has a context. -/
def directTransfer (env : Env) (s : State) (op : Op) : Option (ConnId × DtIes) :=
  match coMsg env s op with
  | some (c, ⟨dir, proc, .directTransfer ies⟩) =>
    if dir = PR_initiatingMessage ∧ proc = id_DirectTransfer then some (c, ies) else none
  | _ => none

/-- The NAS PDU an operation brings: connection, octets, location, SAC. -/
def uplink (env : Env) (s : State) (op : Op) : Option (ConnId × Bytes × Option GprsRaId × Option (BitVec 16)) :=
  match initialUe env s op with
  | some (c, _, ies) => (readInitialUe ies).map fun x => (c, ies.nas, some x.2.1, some x.2.2)
  | none => match directTransfer env s op with
    | some (c, ies) => (readDt ies).map fun x => (c, ies.nas, x.1, x.2)
    | none => none

/-- The connection an SCCP primitive is about. -/
def opConn : Op → Option ConnId
  | .connectInd c _ _ => some c
  | .disconnectInd c _ => some c
  | .dataInd c _ => some c
  | _ => none

/-- The last thing about a connection in a history is N-DISCONNECT.req. -/
def Closed (c : ConnId) (t : List Out) : Prop :=
  ∃ a r b, t = a ++ .sap (.disconnectReq c) r :: b ∧ ∀ o ∈ b, outConn o ≠ some c

/-- A user that does nothing in callbacks. -/
def Inert (env : Env) : Prop := ∀ s o, env.cb s o = .done

end Verif.Iu.Spec
