import Verif.Model.IuClient

/-!
# Setting up the Iu client: `ranap_iu_init`, `/repo/src/iu_client.c:1262-1276`

Left out: the log category and the talloc contexts (l.1265-1267); `g_sccp` (l.1271), which only the VTY commands of
libosmo-sigtran could use.
-/

namespace Verif.IuInit
open Verif.Iu

/-- An SCCP instance of libosmo-sigtran (external): the subsystem numbers that have a user, and its point code, if it
has one. -/
structure Sccp where
  users : List (BitVec 32)
  pc : Option (BitVec 32)
  deriving DecidableEq, Repr

/-- What `ranap_iu_init` sets (iu_client.c:84-85, 98-100), and the SCCP instances of the program. -/
structure Setup where
  /-- `global_iu_recv_cb` is not NULL -/
  recvCb : Bool
  /-- `global_iu_event_cb` is not NULL -/
  eventCb : Bool
  /-- `g_scu`: the instance whose user it is; `none` is NULL -/
  scu : Option Nat
  /-- `g_local_sccp_addr` -/
  localAddr : SccpAddr
  insts : List Sccp
  deriving DecidableEq, Repr

/-- Static variables before `ranap_iu_init` (iu_client.c:84-85, 98-100). -/
def fresh (insts : List Sccp) : Setup := ⟨false, false, none, ⟨0, none, none, none⟩, insts⟩

/-- The arguments of `ranap_iu_init` that matter: the instance, and which callbacks are not NULL (iu_client.c:1262-1263). -/
structure Args where
  inst : Nat
  recvCb : Bool
  eventCb : Bool
  deriving DecidableEq, Repr

/-- `ranap_iu_init` (iu_client.c:1262-1276).  `osmo_sccp_local_addr_by_instance` (external) leaves the address alone if
the instance has no point code; `osmo_sccp_user_bind` (external) returns NULL if the subsystem number has a user
already.  An instance that does not exist stands for a NULL pointer. -/
def ranapIuInit (g : Setup) (a : Args) : Res (Int × Setup) :=
  let g := { g with recvCb := a.recvCb, eventCb := a.eventCb }                        -- l.1269-1270
  match g.insts[a.inst]? with
  | none => .fault .nullDeref                                                         -- l.1272-1273
  | some i =>
    let g := match i.pc with                                                          -- l.1272
      | some pc => { g with localAddr := makeAddrPcSsn pc SSN_RANAP }
      | none => g
    if i.users.contains SSN_RANAP then .ok (0, { g with scu := none })                -- l.1273-1275
    else .ok (0, { g with
      scu := some a.inst,
      insts := g.insts.set a.inst { i with users := SSN_RANAP :: i.users } })

/-- A primitive that is handed to `g_scu`; the connect response goes to the user that got the indication
(iu_client.c:1179; for the others 187, 374, 399, 417, 572, 597, 767, 832). -/
def viaGlobal : Out → Bool
  | .sap (.connectResp _) _ => false
  | .sap _ _ => true
  | _ => false

/-- A call of the receive callback, which is not tested for NULL (iu_client.c:499, 532). -/
def isRecv : Out → Bool
  | .recv .. => true
  | _ => false

/-- One operation of the client as it was set up: like `Iu.step`, but handing a primitive to a NULL user (dereferenced
in libosmo-sigtran, external) and calling a NULL callback are faults.  Both are detected when the operation is over, so
if it would have run into another fault afterwards, that one is reported (iu_client.c:1152-1260). -/
def step (env : Env) (g : Setup) (op : Op) (s : State) : Res (Int × State) :=
  match Iu.step { env with hasEventCb := g.eventCb } op s with
  | .fault f => .fault f
  | .ok (rc, s') =>
    if g.scu.isNone && (s'.trace.drop s.trace.length).any viaGlobal then .fault .nullDeref
    else if !g.recvCb && (s'.trace.drop s.trace.length).any isRecv then .fault .nullDeref
    else .ok (rc, s')

/-- What a program does: set up the client, or have it work (include/osmocom/ranap/iu_client.h:73-103). -/
inductive Call where
  | init (a : Args)
  | op (o : Op)
  deriving DecidableEq, Repr

/-- A history of a program, with the return values (iu_client.c:1152-1276). -/
def run (env : Env) : List Call → Setup → State → Res (List Int × Setup × State)
  | [], g, s => .ok ([], g, s)
  | .init a :: cs, g, s => match ranapIuInit g a with
    | .fault f => .fault f
    | .ok (rc, g) => match run env cs g s with
      | .fault f => .fault f
      | .ok (rcs, r) => .ok (rc :: rcs, r)
  | .op o :: cs, g, s => match step env g o s with
    | .fault f => .fault f
    | .ok (rc, s) => match run env cs g s with
      | .fault f => .fault f
      | .ok (rcs, r) => .ok (rc :: rcs, r)

end Verif.IuInit
