import Verif.Spec.IuHist

/-!
# What users of the client and the SCCP layer have to respect

The discipline under which the safety properties hold, and the message contents that
make the client fail nevertheless.
-/

namespace Verif.Iu.Spec

/-- Pointers to UE contexts passed to an API function. -/
def args : Api → List Ptr
  | .freeUe ue => ue.toList
  | .tx ue _ _ => ue.toList
  | .txRelease p _ => [p]
  | .txReleaseFree p _ _ => [p]
  | .txSecModeCmd p _ _ _ _ => [p]
  | .txCommonId p _ => [p]
  | .rabAct p _ => [p]
  | .rabDeact p _ => [p]
  | .pageCs _ _ _ => []
  | .pagePs _ _ _ _ => []
  | .pageCs2 _ _ _ => []
  | .pagePs2 _ _ _ => []

/-- The cause of an Iu Release Command: NAS normal release unless given. -/
def releaseCause : Option Cause → Cause
  | some c => c
  | none => .nAS 83

/-- The RANAP message an API function builds. -/
def builds : Api → Option TxMsg
  | .freeUe _ => none
  | .tx none _ _ => none
  | .tx (some _) nas sapi => some (.dt sapi nas)
  | .txRelease _ c => some (.iuRelCmd (releaseCause c))
  | .txReleaseFree _ c _ => some (.iuRelCmd (releaseCause c))
  | .txSecModeCmd _ ik ck sendCk newKey => some (.secModCmd ik (if sendCk then some ck else none) newKey)
  | .txCommonId _ imsi => some (.commonId imsi)
  | .rabAct _ _ => none
  | .rabDeact _ _ => none
  | .pageCs imsi t _ => some (.paging imsi t false 0)
  | .pagePs imsi t _ _ => some (.paging imsi t true 0)
  | .pageCs2 imsi t _ => some (.paging imsi t false 0)
  | .pagePs2 imsi t _ => some (.paging imsi t true 0)

/-- A message can be generated. -/
def Generable (env : Env) (m : TxMsg) : Prop := ∃ b, env.gen m = .ok (some b)

/-- An API call is proper: contexts passed are live, the message can be generated. -/
def ApiOk (env : Env) (s : State) (a : Api) : Prop :=
  (∀ p ∈ args a, Live s p) ∧ ∀ m, builds a = some m → Generable env m

/-- All API calls of a callback are proper at the time they are made. -/
def ScriptOk (env : Env) : Script → State → Prop
  | .done, _ => True
  | .call a k, s => ApiOk env s a ∧ ∀ rc s', runApi env a s = .ok (rc, s') → ScriptOk env (k rc) s'

/-- A context is live and belongs to a connection. -/
def LiveConn (s : State) (p : Ptr) (c : ConnId) : Prop := ∃ u ∈ s.ues, u.ptr = p ∧ u.conn = c

/-- The context passed to a callback, if any, is live and has the stated connection id. -/
def Given (s : State) : Out → Prop
  | .sap _ _ => False
  | .recv p c _ _ _ => LiveConn s p c
  | .event none _ => True
  | .event (some (p, c)) _ => LiveConn s p c

/-- User callbacks make proper API calls (when they are given a live context). -/
def CallbacksOk (env : Env) : Prop := ∀ s o, Given s o → ScriptOk env (env.cb s o) s

/-- No context other than `p` is freed. -/
def FreesOnly (p : Ptr) : Script → Prop
  | .done => True
  | .call a k => (∀ q, a = .freeUe (some q) → q = p) ∧ ∀ rc, FreesOnly p (k rc)

/-- A LINK_INVALIDATED handler frees at most the context it was called for. -/
def LinkOk (env : Env) : Prop := ∀ s p c, FreesOnly p (env.cb s (.event (some (p, c)) .linkInvalidated))

/-- The context a callback is about. -/
def target : Out → Option Ptr
  | .sap _ _ => none
  | .recv p _ _ _ _ => some p
  | .event none _ => none
  | .event (some (p, _)) _ => some p

/-- All contexts passed to API functions are `p`. -/
def OwnOnly (p : Option Ptr) : Script → Prop
  | .done => True
  | .call a k => (∀ q ∈ args a, some q = p) ∧ ∀ rc, OwnOnly p (k rc)

/-- Callbacks act only on the context they are given. -/
def OwnCallbacks (env : Env) : Prop := ∀ s o, OwnOnly (target o) (env.cb s o)

/-- The connection a primitive or callback is about. -/
def outConn : Out → Option ConnId
  | .sap (.connectResp c) _ => some c
  | .sap (.dataReq c _) _ => some c
  | .sap (.disconnectReq c) _ => some c
  | .sap (.unitdataReq _ _) _ => none
  | .recv _ c _ _ _ => some c
  | .event none _ => none
  | .event (some (_, c)) _ => some c

/-- An operation is proper: API calls are, and the SCCP layer does not indicate a new
connection with an id still in use. -/
def OpOk (env : Env) (s : State) : Op → Prop
  | .api a => ApiOk env s a
  | .connectInd c _ _ => ¬ InUse s c
  | _ => True

/-- Every operation of a history is proper when it happens. -/
def RunOk (env : Env) : State → List Op → Prop
  | _, [] => True
  | s, op :: ops => OpOk env s op ∧ ∀ rc s', step env op s = .ok (rc, s') → RunOk env s' ops

/-- New connections get ids that are not in use (nothing is required of API calls). -/
def FreshConns (env : Env) : State → List Op → Prop
  | _, [] => True
  | s, op :: ops => (∀ c a d, op = .connectInd c a d → ¬ InUse s c) ∧
      ∀ rc s', step env op s = .ok (rc, s') → FreshConns env s' ops

/-- The message an operation brings. -/
def opMsg (env : Env) : Op → Option Msg
  | .connectInd _ _ d => if d = [] then none else env.decodeCo d
  | .dataInd _ d => env.decodeCo d
  | .disconnectInd _ d => if d = [] then none else env.decodeCo d
  | .unitdataInd _ d => env.decodeCl d
  | _ => none

/-- Contents of a message that make the client fail in the given way. -/
inductive Hazard (env : Env) (m : Msg) : Fault → Prop where
  /-- the NAS PDU is longer than 256 octets -/
  | nasInitial (ies : InitialUeIes) : m.body = .initialUe ies → 256 < ies.nas.length → Hazard env m .abort
  | nasDt (ies : DtIes) : m.body = .directTransfer ies → 256 < ies.nas.length → Hazard env m .abort
  /-- the SAC or RAC element is too short -/
  | sacInitial (ies : InitialUeIes) : m.body = .initialUe ies → ies.saiSac.length < 2 → Hazard env m .abort
  | sacDt (ies : DtIes) (b : Bytes) : m.body = .directTransfer ies → ies.saiSac = some b → b.length < 2 →
      Hazard env m .abort
  | racInitial (ies : InitialUeIes) : m.body = .initialUe ies → ies.rac = some [] → Hazard env m .abort
  | racDt (ies : DtIes) : m.body = .directTransfer ies → ies.rac = some [] → Hazard env m .abort
  /-- an empty list of RABs -/
  | rab : m.body = .rabAssResp (some []) → Hazard env m .oobRead
  /-- an Iu Release Command with this cause cannot be generated -/
  | cause (c : Cause) : m.body = .iuReleaseReq c → env.gen (.iuRelCmd c) = .ok none → Hazard env m .nullDeref
  | causeFault (c : Cause) (e : Fault) : m.body = .iuReleaseReq c → env.gen (.iuRelCmd c) = .fault e → Hazard env m e
  /-- generating the Reset Acknowledge fails hard -/
  | reset (dom : Nat) (r : Option GRncId) (e : Fault) : m.body = .reset dom r →
      env.gen (.resetAck dom r) = .fault e → Hazard env m e
  /-- the decoder filled another member than the procedure code says -/
  | union : (m.dir = PR_initiatingMessage ∧ m.proc = id_InitialUE_Message ∧ ¬ ∃ x, m.body = .initialUe x) ∨
      (m.dir = PR_initiatingMessage ∧ m.proc = id_DirectTransfer ∧ ¬ ∃ x, m.body = .directTransfer x) ∨
      (m.dir = PR_initiatingMessage ∧ m.proc = id_ErrorIndication ∧ ¬ ∃ x, m.body = .errorInd x) ∨
      (m.dir = PR_initiatingMessage ∧ m.proc = id_Iu_ReleaseRequest ∧ ¬ ∃ x, m.body = .iuReleaseReq x) ∨
      (m.dir = PR_initiatingMessage ∧ m.proc = id_Reset ∧ ¬ ∃ x y, m.body = .reset x y) ∨
      (m.dir = PR_outcome ∧ m.proc = id_RAB_Assignment ∧ ¬ ∃ x, m.body = .rabAssResp x) →
      Hazard env m .wrongUnion

end Verif.Iu.Spec
