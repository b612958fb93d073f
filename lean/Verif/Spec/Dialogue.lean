import Verif.Spec.IuFlow
import Verif.Spec.IuHist

/-!
# What SCCP and the client say to each other about one connection

The service primitives of a connection (ITU-T Q.711): a connection is indicated, confirmed, used, and ended by a disconnect
request of the client or a disconnect indication of SCCP.
-/

namespace Verif.Iu.Spec

/-- Primitives about a connection: two indications, three requests (indications of data leave the connection as it is). -/
inductive Say where
  | connectInd | disconnectInd | connectResp | dataReq | disconnectReq
  deriving DecidableEq, Repr

/-- What SCCP says about a connection in an operation. -/
def heard (c : ConnId) : Op → List Say
  | .connectInd c' _ _ => if c' = c then [.connectInd] else []
  | .disconnectInd c' _ => if c' = c then [.disconnectInd] else []
  | _ => []

/-- What a primitive of the client says about a connection. -/
def ask (c : ConnId) : Out → Option Say
  | .sap (.connectResp c') _ => if c' = c then some .connectResp else none
  | .sap (.dataReq c' _) _ => if c' = c then some .dataReq else none
  | .sap (.disconnectReq c') _ => if c' = c then some .disconnectReq else none
  | _ => none

/-- The requests of the client about a connection in a piece of history. -/
def asked (c : ConnId) (d : List Out) : List Say := d.filterMap (ask c)

/-- Everything said about a connection in a history, in order. -/
def dialogue (env : Env) (c : ConnId) : State → List Op → List Say
  | _, [] => []
  | s, op :: ops => heard c op ++
    match step env op s with
    | .ok (_, s') => asked c (s'.trace.drop s.trace.length) ++ dialogue env c s' ops
    | .fault _ => []

/-- How a connection stands: not there, indicated, confirmed, or ended by SCCP. -/
inductive Phase where
  | idle | pending | active | cleared
  deriving DecidableEq, Repr

/-- What becomes of a connection. -/
def Phase.next : Phase → Say → Phase
  | _, .connectInd => .pending
  | .idle, .disconnectInd => .idle
  | _, .disconnectInd => .cleared
  | _, .connectResp => .active
  | ph, .dataReq => ph
  | _, .disconnectReq => .idle

/-- ... after all that was said. -/
def Phase.after (ph : Phase) (l : List Say) : Phase := l.foldl Phase.next ph

/-- The rules of Q.711 for the requests: a connection is confirmed when it is indicated; data are sent and the connection is
ended when it is confirmed and has not ended. -/
def Phase.allows : Phase → Say → Prop
  | _, .connectInd => True
  | _, .disconnectInd => True
  | ph, .connectResp => ph = .pending
  | ph, .dataReq => ph = .active
  | ph, .disconnectReq => ph = .active

instance (ph : Phase) (x : Say) : Decidable (ph.allows x) := by cases x <;> unfold Phase.allows <;> infer_instance

/-- Every request is made when it is allowed. -/
def Phase.Proper : Phase → List Say → Prop
  | _, [] => True
  | ph, x :: l => ph.allows x ∧ (ph.next x).Proper l

instance Phase.decProper : (ph : Phase) → (l : List Say) → Decidable (ph.Proper l)
  | _, [] => .isTrue trivial
  | ph, x :: l => @instDecidableAnd _ _ inferInstance (Phase.decProper (ph.next x) l)

/-- A confirmed connection that nobody looks after: neither has it a context, nor is its first message awaited. -/
def Orphan (c : ConnId) (ph : Phase) (s : State) : Prop := ph = .active ∧ ¬ InUse s c

/-- The operation brings the first message on a connection, and nothing comes of it: it is not an Initial UE Message, or one
that is not understood. -/
def Refused (env : Env) (c : ConnId) (s : State) (op : Op) : Prop :=
  (firstPayload s op).map (·.1) = some c ∧ registration env s op = none

instance (env : Env) (c : ConnId) (s : State) (op : Op) : Decidable (Refused env c s op) := by unfold Refused; infer_instance

/-- No first message on a connection is refused in a history. -/
def NoneRefused (env : Env) (c : ConnId) : State → List Op → Prop
  | _, [] => True
  | s, op :: ops => ¬ Refused env c s op ∧
    match step env op s with
    | .ok (_, s') => NoneRefused env c s' ops
    | .fault _ => True

instance NoneRefused.dec (env : Env) (c : ConnId) : (s : State) → (ops : List Op) → Decidable (NoneRefused env c s ops)
  | _, [] => .isTrue trivial
  | s, op :: ops => @instDecidableAnd _ _ inferInstance <|
    match step env op s with
    | .ok (_, s') => NoneRefused.dec env c s' ops
    | .fault _ => .isTrue trivial

end Verif.Iu.Spec
