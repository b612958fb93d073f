import Verif.Model.IuClient

/-!
# The Iu client when memory for its own records is missing

iu_client.c allocates in six places: the answer to a connection request (l.987), the cached address of a connection (l.194), the
records of an RNC (l.226), of an area (l.348) and of a subscriber's connection (l.156), and the buffer for a received NAS message
(l.459, 510).  During one operation each of them is reached at most once (callbacks may only call the functions of the API, none of
which allocates here), so that six Booleans for each operation describe every way in which these allocations may fail.  Memory for
making and decoding messages is in the environment (for the former see `Model/ScarceIu.lean`).
-/

namespace Verif.ScarceRec
open Verif.Iu Verif.Lai

/-- Which allocations of iu_client.c succeed during one operation. -/
structure Supply where
  /-- `msgb_alloc(1024, "conn_resp")` (iu_client.c:987) -/
  resp : Bool
  /-- `struct iu_new_ctx_entry` (iu_client.c:194) -/
  cache : Bool
  /-- `msgb_alloc(256, "RANAP->NAS")` (iu_client.c:459, 510) -/
  nas : Bool
  /-- `struct ranap_iu_rnc` (iu_client.c:226) -/
  rnc : Bool
  /-- `struct iu_lac_rac_entry` (iu_client.c:348) -/
  area : Bool
  /-- `struct ranap_ue_conn_ctx` (iu_client.c:156) -/
  ue : Bool
  deriving DecidableEq, Repr

/-- What an allocation returned is used without a check (`.nullDeref`), or the process is ended by OSMO_ASSERT (`.abort`)
(iu_client.c:158, 196, 227, 349, 485, 527, 990). -/
def need (b : Bool) (e : Fault) : M Unit := if b then pure () else M.fault e

section
variable (env : Env) (w : Supply)

/-- `ue_conn_ctx_alloc`, `iu_client.c:154-168`: the result is written to before `OSMO_ASSERT(ue)` (l.494) is reached. -/
def ctxAllocR (rnc : Ptr) (conn : ConnId) : M Ptr := do
  need w.ue .nullDeref                                                -- l.158
  ctxAlloc rnc conn

/-- `ue_conn_sccp_addr_add`, `iu_client.c:192-200`. -/
def cacheAddR (conn : ConnId) (addr : SccpAddr) : M Unit := do
  need w.cache .nullDeref                                             -- l.196
  cacheAdd conn addr

/-- `iu_rnc_alloc`, `iu_client.c:224-238`. -/
def rncAllocR (id : RncId) (addr : SccpAddr) : M Ptr := do
  need w.rnc .abort                                                   -- l.227, OSMO_ASSERT
  rncAlloc id addr

/-- `iu_rnc_register`, `iu_client.c:311-356`. -/
def rncRegisterR (id : RncId) (rai : Rai) (addr : SccpAddr) : M Ptr := do
  let s ← M.get
  let rnc ← match rncIdFind s id with                                 -- l.320
    | some r => do
      if !sameSccpAddr env r.addr addr then                           -- l.323-327
        updRnc r.ptr fun r => { r with addr := addr }
      pure r.ptr
    | none => rncAllocR w id addr                                     -- l.329
  let s ← M.get
  match lacRacFind s rai with                                         -- l.332
  | some (old, e) =>
    if old.ptr ≠ rnc then                                             -- l.334
      updRnc old.ptr fun r => { r with areas := r.areas.eraseP fun x => raiEq x rai }
      updRnc rnc fun r => { r with areas := e :: r.areas }
      iuEventNewArea env id rai                                       -- l.344
    else pure ()                                                      -- l.353
  | none =>                                                           -- l.345
    need w.area .nullDeref                                            -- l.348-349
    M.modify fun s => { s with blocks := s.blocks + 1 }               -- l.348
    updRnc rnc fun r => { r with areas := rai :: r.areas }            -- l.349-350
    iuEventNewArea env id rai                                         -- l.351
  pure rnc

/-- `msgb_alloc(256, "RANAP->NAS")` (iu_client.c:459, 510): NULL is noticed by nobody yet. -/
def nasAllocR : M Unit := M.modify fun s => { s with nasBufs := s.nasBufs + if w.nas then 1 else 0 }

/-- `msgb_put(msg, size)` (iu_client.c:485, 527) with what was allocated. -/
def nasPutR (nas : Bytes) : M Unit := do
  need w.nas .nullDeref
  nasPut nas

/-- `ranap_handle_co_initial_ue`, `iu_client.c:451-504`. -/
def handleInitialUeR (ctx : NewCtx) (ies : InitialUeIes) : M Int := do
  nasAllocR w                                                         -- l.459
  let (rc, ra) ← M.lift (parseLai ies.laiPlmn ies.laiLac)             -- l.462
  if rc ≠ 0 then pure (-1)
  else do
    let rac ← match ies.rac with
      | some b => M.lift (asn1strToU8 b)                              -- l.468
      | none => pure RESERVED_RAC                                     -- l.475
    if ies.rac.isSome ∧ rac = RESERVED_RAC then pure (-1)             -- l.469-473
    else do
      let ra := { ra with rac := rac }
      match grncIdParse ies.grnc.plmn ies.grnc.rncId with             -- l.478
      | none => pure (-1)
      | some rncId => do
        let sai ← M.lift (asn1strToU16 ies.saiSac)                    -- l.484
        nasPutR w ies.nas                                             -- l.485-486
        let rnc ← rncRegisterR env w rncId (gprsRaiToOsmo ra) ctx.addr  -- l.488-491
        let ue ← ctxAllocR w rnc ctx.conn                             -- l.493
        M.modify fun s => { s with ues := s.ues.map fun u =>
          if u.ptr = ue then { u with raId := ra } else u }           -- l.495
        callback env (.recv ue ctx.conn ies.nas (some ra) (some sai)) -- l.498-499
        nasFree                                                       -- l.501
        pure 0

/-- `ranap_handle_co_dt`, `iu_client.c:506-537`. -/
def handleDtR (ue : Ptr) (ies : DtIes) : M Int := do
  nasAllocR w                                                         -- l.510
  let loc : Option (Option GprsRaId × Option (BitVec 16)) ← (match ies.lai with
    | none => pure (some (none, none))
    | some (plmn, lac) => do                                          -- l.512
      let (rc, ra) ← M.lift (parseLai plmn lac)                       -- l.513
      if rc ≠ 0 then pure none
      else do
        let ra ← match ies.rac with
          | some b => do let r ← M.lift (asn1strToU8 b); pure { ra with rac := r }   -- l.518-519
          | none => pure ra
        match ies.saiSac with
          | some b => do let v ← M.lift (asn1strToU16 b); pure (some (some ra, some v))  -- l.521-524
          | none => pure (some (some ra, none)) : M _)
  match loc with
  | none => pure (-1)                                                 -- l.515
  | some (ra, sai) => do
    nasPutR w ies.nas                                                 -- l.527-528
    let u ← deref ue
    callback env (.recv ue u.conn ies.nas ra sai)                     -- l.531-532
    nasFree                                                           -- l.534
    pure 0

/-- `cn_ranap_handle_co_initial`, `iu_client.c:647-667`. -/
def handleCoInitialR (ctx : NewCtx) (m : Msg) : M Unit := do
  if m.dir ≠ PR_initiatingMessage ∨ m.proc ≠ id_InitialUE_Message then pure ()   -- l.653-658
  else match m.body with
    | .initialUe ies => do let _ ← handleInitialUeR env w ctx ies; pure ()  -- l.660
    | _ => M.fault .wrongUnion

/-- `cn_ranap_handle_co`, `iu_client.c:670-746`: only a Direct Transfer (l.683-685) needs memory here. -/
def handleCoR (ue : Ptr) (m : Msg) : M Unit := do
  if m.dir = PR_initiatingMessage ∧ m.proc = id_DirectTransfer then
    match m.body with
    | .directTransfer ies => do let _ ← handleDtR env w ue ies; pure ()
    | _ => M.fault .wrongUnion
  else handleCo env ue m

/-- One operation: `sccp_sap_up`, `iu_client.c:1152-1260`; timer expiry; API call.  Operations without a line of their own allocate
nothing in iu_client.c. -/
def stepR (op : Op) : M Int := do
  match op with
  | .connectInd conn calling data =>
    need w.resp .nullDeref                                            -- l.1178, 987-990
    let _ ← sapDown env (.connectResp conn)                           -- l.1179
    if data.length = 0 then do                                        -- l.1182-1185
      cacheAddR w conn calling
      pure (-1)
    else rxCo env (handleCoInitialR env w ⟨calling, conn⟩) data       -- l.1187
  | .disconnectInd conn data =>
    cacheDel conn                                                     -- l.1195
    let s ← M.get
    match ctxFind s conn with                                         -- l.1196
    | none => pure (-1)
    | some u => do
      let rc ← if data.length > 0 then rxCo env (handleCoR env w u.ptr) data else pure 0   -- l.1200-1202
      let s ← M.get
      match ctxFind s conn with                                       -- l.1205
      | none => pure rc
      | some u => do linkInvalidatedFree env u.ptr; pure rc           -- l.1208
  | .dataInd conn data =>
    let s ← M.get
    match ctxFind s conn with                                         -- l.1217
    | none =>
      match cacheFind s conn with                                     -- l.1220
      | none => pure (-1)                                             -- l.1221-1225
      | some addr => do
        cacheDel conn                                                 -- l.1228
        rxCo env (handleCoInitialR env w ⟨addr, conn⟩) data           -- l.1229
    | some u => rxCo env (handleCoR env w u.ptr) data                 -- l.1233
  | op => step env op

end

/-- A history, each operation with the memory there is during it. (No counterpart in the code: iu_client.c:1152-1260.) -/
def runR (env : Env) : List (Supply × Op) → M Unit
  | [] => pure ()
  | (w, op) :: ops => do
    let _ ← stepR env w op
    runR env ops

end Verif.ScarceRec
