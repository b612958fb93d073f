import Verif.Model.Lai

/-!
# Types of the Iu client: `/repo/src/iu_client.c`, `/repo/include/osmocom/ranap/iu_client.h`
-/

namespace Verif.Iu

/-- Identity (address) of a heap object.  Handles are never reused in the model, so a
handle that is not in its list any more denotes a freed object (e.g. iu_client.c:154-168). -/
abbrev Ptr := Nat

/-- SCCP connection id (`uint32_t`). -/
abbrev ConnId := BitVec 32

/-- `struct osmo_sccp_addr` (libosmo-sigtran): routing indicator and the optional
parts.  IPv4/IPv6 parts are not modelled separately (part of `gt`). -/
structure SccpAddr where
  ri : Nat
  pc : Option (BitVec 32)
  ssn : Option (BitVec 32)
  gt : Option Bytes
  deriving DecidableEq, Repr

/-- `osmo_sccp_addr_cmp(a, b, OSMO_SCCP_ADDR_T_SSN | OSMO_SCCP_ADDR_T_PC) == 0`
(external): presence and values of PC and SSN agree. -/
def SccpAddr.samePcSsn (a b : SccpAddr) : Bool := a.pc = b.pc && a.ssn = b.ssn

/-- `OSMO_SCCP_RI_SSN_PC` (libosmo-sigtran, external; iu_client.c:1061) -/
def RI_SSN_PC : Nat := 2
/-- `OSMO_SCCP_SSN_RANAP` (libosmo-sigtran, external; iu_client.c:1061) -/
def SSN_RANAP : BitVec 32 := 142

/-- `osmo_sccp_make_addr_pc_ssn` (external). Called in iu_client.c:1061. -/
def makeAddrPcSsn (pc ssn : BitVec 32) : SccpAddr := ⟨RI_SSN_PC, some pc, some ssn, none⟩

/-- `RANAP_Cause_t`: `present` and the `long` of the chosen alternative (include/osmocom/ranap/RANAP_Cause.h:29-60). -/
inductive Cause where
  | nothing
  | radioNetwork (v : Int)
  | transmissionNetwork (v : Int)
  | nAS (v : Int)
  | protocol (v : Int)
  | misc (v : Int)
  | nonStandard (v : Int)
  | radioNetworkExtension (v : Int)
  deriving DecidableEq, Repr

/-- `RANAP_CauseNAS_normal_release` (include/osmocom/ranap/RANAP_CauseNAS.h:25) -/
def CauseNAS_normal_release : Int := 83

/-- `RANAP_GlobalRNC_ID_t` as received: PLMN octets and the RNC-ID integer (include/osmocom/ranap/RANAP_GlobalRNC-ID.h:24-30). -/
structure GRncId where
  plmn : Bytes
  rncId : Nat
  deriving DecidableEq, Repr

/-- `RANAP_InitialUE_MessageIEs_t`, the members used by the client.  `rac = none`: the
presence bit is not set.  A mandatory element that was not received is an
empty octet string (zeroed structure) (asn1tostruct.py:201-219; read in iu_client.c:451-504). -/
structure InitialUeIes where
  laiPlmn : Bytes
  laiLac : Bytes
  rac : Option Bytes
  saiSac : Bytes
  nas : Bytes
  grnc : GRncId
  deriving DecidableEq, Repr

/-- `RANAP_DirectTransferIEs_t`, the members used by the client (asn1tostruct.py:201-219; read in iu_client.c:506-537). -/
structure DtIes where
  nas : Bytes
  lai : Option (Bytes × Bytes)
  rac : Option Bytes
  saiSac : Option Bytes
  deriving DecidableEq, Repr

/-- The union `ranap_message.msg` (`/repo/include/osmocom/ranap/ranap_common.h`), with
the members the client reads; `other` stands for all other members, and for
contents that were not decoded (asn1tostruct.py:221-238; read in iu_client.c:647-823). -/
inductive Body where
  | initialUe (ies : InitialUeIes)
  | directTransfer (ies : DtIes)
  | errorInd (cause : Option Cause)
  | iuReleaseReq (cause : Cause)
  /-- `raB_SetupOrModifiedList`: absent, or the elements; each element either decodes
  (to an opaque item) or not -/
  | rabAssResp (items : Option (List (Option Bytes)))
  | reset (domain : Nat) (rnc : Option GRncId)
  | other
  deriving DecidableEq, Repr

/-- `ranap_message`: direction, procedure code and contents (asn1tostruct.py:221-238; read in iu_client.c:647-823). -/
structure Msg where
  dir : Nat
  proc : Nat
  body : Body
  deriving DecidableEq, Repr

/-- `RANAP_RANAP_PDU_PR`, order of the CHOICE in `/repo/asn1/ranap/RANAP-PDU-Descriptions.asn:189-195` -/
def PR_initiatingMessage : Nat := 1
/-- `RANAP_RANAP_PDU_PR_successfulOutcome` (include/osmocom/ranap/RANAP_RANAP-PDU.h:29) -/
def PR_successfulOutcome : Nat := 2
/-- `RANAP_RANAP_PDU_PR_unsuccessfulOutcome` (include/osmocom/ranap/RANAP_RANAP-PDU.h:30) -/
def PR_unsuccessfulOutcome : Nat := 3
/-- `RANAP_RANAP_PDU_PR_outcome` (include/osmocom/ranap/RANAP_RANAP-PDU.h:31) -/
def PR_outcome : Nat := 4

/-! Procedure codes, `/repo/asn1/ranap/RANAP-Constants.asn:27-73` -/
/-- `RANAP_ProcedureCode_id_RAB_Assignment` (include/osmocom/ranap/RANAP_ProcedureCode.h:23) -/
def id_RAB_Assignment : Nat := 0
/-- `RANAP_ProcedureCode_id_Iu_Release` (include/osmocom/ranap/RANAP_ProcedureCode.h:24) -/
def id_Iu_Release : Nat := 1
/-- `RANAP_ProcedureCode_id_SecurityModeControl` (include/osmocom/ranap/RANAP_ProcedureCode.h:29) -/
def id_SecurityModeControl : Nat := 6
/-- `RANAP_ProcedureCode_id_Reset` (include/osmocom/ranap/RANAP_ProcedureCode.h:31) -/
def id_Reset : Nat := 9
/-- `RANAP_ProcedureCode_id_Iu_ReleaseRequest` (include/osmocom/ranap/RANAP_ProcedureCode.h:33) -/
def id_Iu_ReleaseRequest : Nat := 11
/-- `RANAP_ProcedureCode_id_InitialUE_Message` (include/osmocom/ranap/RANAP_ProcedureCode.h:41) -/
def id_InitialUE_Message : Nat := 19
/-- `RANAP_ProcedureCode_id_DirectTransfer` (include/osmocom/ranap/RANAP_ProcedureCode.h:42) -/
def id_DirectTransfer : Nat := 20
/-- `RANAP_ProcedureCode_id_ErrorIndication` (include/osmocom/ranap/RANAP_ProcedureCode.h:44) -/
def id_ErrorIndication : Nat := 22

/-- RANAP messages built by the client, before encoding (arguments of
`ranap_new_msg_*`, see `Verif.Model.Factory`); `raw` is a message handed in by the
user (`ranap_iu_rab_act`) (iu_client.c:362, 390, 410, 564, 590, 763, 830). -/
inductive TxMsg where
  | dt (sapi : BitVec 8) (nas : Bytes)
  | iuRelCmd (cause : Cause)
  | secModCmd (ik : Bytes) (ck : Option Bytes) (newKey : Bool)
  | commonId (imsi : Option Bytes)
  | paging (imsi : Bytes) (tmsi : Option (BitVec 32)) (isPs : Bool) (cause : Nat)
  | resetAck (domain : Nat) (rnc : Option GRncId)
  | raw (data : Bytes)
  deriving DecidableEq, Repr

/-- Primitives handed to the SCCP layer (`osmo_sccp_user_sap_down`,
`osmo_sccp_tx_disconn`, `osmo_sccp_tx_unitdata_msg`) (iu_client.c:187, 374, 399, 417, 572, 597, 767, 832, 1179). -/
inductive Prim where
  | connectResp (conn : ConnId)
  | dataReq (conn : ConnId) (m : TxMsg)
  | disconnectReq (conn : ConnId)
  | unitdataReq (called : SccpAddr) (m : TxMsg)
  deriving DecidableEq, Repr

/-- `struct ranap_iu_event_new_area`: the area is an LAI or an RAI (include/osmocom/ranap/iu_client.h:35-47). -/
inductive Area where
  | lac (lai : Verif.Lai)
  | rac (rai : Rai)
  deriving DecidableEq, Repr

/-- `enum ranap_iu_event_type` with the event data (include/osmocom/ranap/iu_client.h:49-55). -/
inductive Event where
  | rabAssign (item : Bytes)
  | securityModeComplete
  | iuRelease
  | linkInvalidated
  | newArea (rnc : RncId) (area : Area)
  deriving DecidableEq, Repr

/-- Everything observable from outside, in order (include/osmocom/ranap/iu_client.h:64-68; iu_client.c:126, 499, 532). -/
inductive Out where
  /-- primitive handed to SCCP, and the return code of that call -/
  | sap (p : Prim) (rc : Int)
  /-- call of the user's `ranap_iu_recv_cb_t`: context (`msg->dst`) with its connection
  id, NAS octets, location, SAC -/
  | recv (ue : Ptr) (conn : ConnId) (nas : Bytes) (ra : Option GprsRaId) (sai : Option (BitVec 16))
  /-- call of the user's `ranap_iu_event_cb_t`, context (with its connection id) or NULL -/
  | event (ue : Option (Ptr × ConnId)) (e : Event)
  deriving DecidableEq, Repr

/-- `struct ranap_ue_conn_ctx` (`iu_client.h:20-33`); `integrity_active`,
`rab_assign_addr_enc` are not used by the client; the timer is in `State.timers`. -/
structure Ue where
  ptr : Ptr
  rnc : Ptr
  conn : ConnId
  raId : GprsRaId
  notification : Bool
  freeOnRelease : Bool
  deriving DecidableEq, Repr

/-- `struct ranap_iu_rnc` (`iu_client.c:72-80`); `areas` is `lac_rac_list`. -/
structure Rnc where
  ptr : Ptr
  rncId : RncId
  addr : SccpAddr
  areas : List Rai
  deriving DecidableEq, Repr

/-- The static variables of `iu_client.c` (l.94-96), pending timers, and the history. -/
structure State where
  /-- `ue_conn_ctx_list`, first element first -/
  ues : List Ue
  /-- `rnc_list` -/
  rncs : List Rnc
  /-- `ue_conn_sccp_addr_list` -/
  cache : List (ConnId × SccpAddr)
  /-- pending `release_timeout` timers: context and timeout in seconds -/
  timers : List (Ptr × Int)
  /-- next unused handle -/
  next : Ptr
  /-- NAS message buffers (`msgb_alloc(256, "RANAP->NAS")`) allocated and not freed -/
  nasBufs : Int
  /-- NAS message buffers handed to `ranap_iu_tx` and not freed -/
  txBufs : Int
  /-- blocks allocated under `talloc_iu_ctx` for records of the lists above (`iu_client.c:156, 194,
  226, 348`) and not freed (`l.189, 218`) -/
  blocks : Int
  /-- observable history, oldest first -/
  trace : List Out
  deriving DecidableEq, Repr

/-- After `ranap_iu_init` (`iu_client.c:1262-1276`). -/
def init : State := ⟨[], [], [], [], 0, 0, 0, 0, []⟩

/-- API calls a user may make, from the main loop or from within a callback (include/osmocom/ranap/iu_client.h:76-103). -/
inductive Api where
  | freeUe (ue : Option Ptr)
  | tx (ue : Option Ptr) (nas : Bytes) (sapi : BitVec 8)
  | txRelease (ue : Ptr) (cause : Option Cause)
  | txReleaseFree (ue : Ptr) (cause : Option Cause) (timeout : Int)
  | txSecModeCmd (ue : Ptr) (ik ck : Bytes) (sendCk newKey : Bool)
  | txCommonId (ue : Ptr) (imsi : Option Bytes)
  | rabAct (ue : Ptr) (msg : Bytes)
  | rabDeact (ue : Ptr) (rabId : BitVec 8)
  | pageCs (imsi : Bytes) (tmsi : Option (BitVec 32)) (lac : BitVec 16)
  | pagePs (imsi : Bytes) (ptmsi : Option (BitVec 32)) (lac : BitVec 16) (rac : BitVec 8)
  | pageCs2 (imsi : Bytes) (tmsi : Option (BitVec 32)) (lai : Verif.Lai)
  | pagePs2 (imsi : Bytes) (ptmsi : Option (BitVec 32)) (rai : Rai)
  deriving DecidableEq, Repr

/-- What a callback does: a finite tree of API calls, each choice depending on the
return values of the previous ones. (The user, external; called from iu_client.c:126, 499, 532.) -/
inductive Script where
  | done
  | call (a : Api) (k : Int → Script)

/-- Everything the client depends on.  Theorems quantify over it. (External: what iu_client.c calls, see the fields; `linked` in `Model/Linked.lean` fills in the library, ranap_common_cn.c:411-427.) -/
structure Env where
  /-- `ranap_cn_rx_co`: `none` is a decode error (return value -1) -/
  decodeCo : Bytes → Option Msg
  /-- `ranap_cn_rx_cl` -/
  decodeCl : Bytes → Option Msg
  /-- message generation; `ok none` is a NULL result -/
  gen : TxMsg → Res (Option Bytes)
  /-- return code of the SCCP layer -/
  sapRc : State → Prim → Int
  /-- an event callback is registered -/
  hasEventCb : Bool
  /-- behaviour of the user's callbacks -/
  cb : State → Out → Script
  /-- `osmo_sccp_addr_dump` -/
  dump : SccpAddr → Bytes
  /-- `osmo_sccp_addr_ri_cmp(a, b) == 0` -/
  riEq : SccpAddr → SccpAddr → Bool

/-- Computations of the client. (A function of iu_client.c reads and writes the static variables of l.94-100.) -/
@[reducible] def M (α : Type) := State → Res (α × State)

namespace M
/-- `return` (all functions of iu_client.c, l.114-1260). -/
def pure {α : Type} (a : α) : M α := fun s => .ok (a, s)
/-- One statement after the other (all functions of iu_client.c, l.114-1260); a fault is final. -/
def bind {α β : Type} (m : M α) (f : α → M β) : M β := fun s =>
  match m s with
  | .ok (a, s') => f a s'
  | .fault e => .fault e
instance : Monad M where
  pure := M.pure
  bind := M.bind
/-- the current state (iu_client.c:94-96) -/
def get : M State := fun s => .ok (s, s)
/-- change the state (iu_client.c:94-96) -/
def modify (f : State → State) : M Unit := fun s => .ok ((), f s)
/-- no defined continuation (e.g. iu_client.c:629 for a list without elements) -/
def fault {α : Type} (e : Fault) : M α := fun _ => .fault e
/-- lift a computation without state (e.g. iu_client.c:462) -/
def lift {α : Type} (r : Res α) : M α := fun s =>
  match r with
  | .ok a => .ok (a, s)
  | .fault e => .fault e
end M

end Verif.Iu
