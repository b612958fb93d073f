import Verif.Model.IuTypes

/-!
# The Iu client state machine: `/repo/src/iu_client.c`
-/

namespace Verif.Iu
open Verif.Lai

/-- `OSMO_RESERVED_RAC`, `iu_client.c:103` -/
def RESERVED_RAC : BitVec 8 := 0xff
/-- `ENOMEM` (errno.h; iu_client.c:765) -/
def ENOMEM : Int := 12
/-- `ENOTCONN` (errno.h; iu_client.c:558) -/
def ENOTCONN : Int := 107

/-! ## Comparisons of libosmocore (external, DESIGN.md section 3) -/

/-- `osmo_mnc_cmp == 0` -/
def mncEq (m1 : Nat) (d1 : Bool) (m2 : Nat) (d2 : Bool) : Bool :=
  m1 = m2 && (!(m1 < 100) || d1 = d2)
/-- `osmo_plmn_cmp == 0` -/
def plmnEq (a b : Plmn) : Bool := a.mcc = b.mcc && mncEq a.mnc a.mnc3 b.mnc b.mnc3
/-- `osmo_lai_cmp == 0` -/
def laiEq (a b : Verif.Lai) : Bool := plmnEq a.plmn b.plmn && a.lac = b.lac
/-- `osmo_rai_cmp == 0` -/
def raiEq (a b : Rai) : Bool := laiEq a.lai b.lai && a.rac = b.rac
/-- `osmo_rnc_id_cmp == 0` -/
def rncIdEq (a b : RncId) : Bool := plmnEq a.plmn b.plmn && a.rncId = b.rncId
/-- `gprs_rai_to_osmo` (libosmocore, external; iu_client.c:488) -/
def gprsRaiToOsmo (r : GprsRaId) : Rai := ⟨⟨⟨r.mcc, r.mnc, r.mnc3⟩, r.lac⟩, r.rac⟩

section
variable (env : Env)

/-! ## Heap access -/

/-- Dereference a UE context pointer (e.g. iu_client.c:369, 1040). -/
def deref (p : Ptr) : M Ue := fun s =>
  match s.ues.find? (·.ptr = p) with
  | some u => .ok (u, s)
  | none => .fault .useAfterFree

/-- Record an observable action (calls of iu_client.c:126, 499, 532 and of the SCCP layer). -/
def emit (o : Out) : M Unit := M.modify fun s => { s with trace := s.trace ++ [o] }

/-- `osmo_sccp_user_sap_down` and friends: hand a primitive to the SCCP layer (e.g. iu_client.c:187, 374, 572, 767; external). -/
def sapDown (p : Prim) : M Int := do
  let s ← M.get
  let rc := env.sapRc s p
  emit (.sap p rc)
  pure rc

/-- A generated message is used without a NULL check (`msg->l2h = msg->data`). -/
def genMsg (m : TxMsg) : M Unit := do
  let r ← M.lift (env.gen m)
  match r with
  | some _ => pure ()
  | none => M.fault .nullDeref

/-- Wrap a message into N-DATA.req on a connection (iu_client.c:366-374, 392-399, 412-417, 566-572, 591-597). -/
def txData (conn : ConnId) (m : TxMsg) : M Int := sapDown env (.dataReq conn m)

/-! ## API functions acting on a UE context -/

/-- `ranap_iu_free_ue`, `iu_client.c:181-190`. -/
def freeUe (ue : Option Ptr) : M Unit := do
  match ue with
  | none => pure ()                                                   -- l.183
  | some p =>
    let u ← deref p                                                   -- l.186-187
    M.modify fun s => { s with timers := s.timers.filter (·.1 ≠ p) }  -- l.186
    let _ ← sapDown env (.disconnectReq u.conn)                       -- l.187
    M.modify fun s => { s with ues := s.ues.filter (·.ptr ≠ p),       -- l.188
                               blocks := s.blocks - 1 }               -- l.189

/-- The caller hands over a NAS message buffer (`+1`), or it is freed (`-1`). -/
def txBuf (d : Int) : M Unit := M.modify fun s => { s with txBufs := s.txBufs + d }

/-- `ranap_iu_tx`, `iu_client.c:550-573`.  (On `-ENOTCONN` the message is not freed.) -/
def iuTx (ue : Option Ptr) (nas : Bytes) (sapi : BitVec 8) : M Int := do
  txBuf 1                                                             -- l.550, `msg_nas`
  match ue with
  | none => pure (-ENOTCONN)                                          -- l.556-559
  | some p =>
    let u ← deref p                                                   -- l.562
    genMsg env (.dt sapi nas)                                         -- l.564
    txBuf (-1)                                                        -- l.565, `msgb_free(msg_nas)`
    txData env u.conn (.dt sapi nas)                                  -- l.567-572

/-- `ranap_iu_tx_release`, `iu_client.c:578-598`. -/
def iuTxRelease (p : Ptr) (cause : Option Cause) : M Int := do
  let c := cause.getD (.nAS CauseNAS_normal_release)                  -- l.582-588
  genMsg env (.iuRelCmd c)                                            -- l.590-591
  let u ← deref p                                                     -- l.593
  txData env u.conn (.iuRelCmd c)

/-- `ranap_iu_tx_release_free`, `iu_client.c:600-612`. -/
def iuTxReleaseFree (p : Ptr) (cause : Option Cause) (timeout : Int) : M Unit := do
  let _ ← deref p
  M.modify fun s => { s with ues := s.ues.map fun u =>
    if u.ptr = p then { u with notification := false, freeOnRelease := true } else u }  -- l.604-605
  let ret ← iuTxRelease env p cause                                   -- l.606
  let timeout := if ret ≠ 0 then 0 else timeout                       -- l.608-609
  M.modify fun s => { s with timers := (p, timeout) :: s.timers.filter (·.1 ≠ p) }  -- l.611

/-- `ranap_iu_tx_sec_mode_cmd`, `iu_client.c:383-400`. -/
def iuTxSecModeCmd (p : Ptr) (ik ck : Bytes) (sendCk newKey : Bool) : M Int := do
  let m := TxMsg.secModCmd ik (if sendCk then some ck else none) newKey   -- l.390-391
  genMsg env m                                                            -- l.392
  let u ← deref p                                                         -- l.395
  txData env u.conn m

/-- `ranap_iu_tx_common_id`, `iu_client.c:402-418`. -/
def iuTxCommonId (p : Ptr) (imsi : Option Bytes) : M Int := do
  let u ← deref p                                                     -- l.408
  genMsg env (.commonId imsi)                                         -- l.410-411
  txData env u.conn (.commonId imsi)

/-- `ranap_iu_rab_act`, `iu_client.c:362-375`. -/
def iuRabAct (p : Ptr) (msg : Bytes) : M Int := do
  let u ← deref p                                                     -- l.368
  txData env u.conn (.raw msg)

/-! ## Paging -/

/-- `iu_tx_paging_cmd`, `iu_client.c:825-833`. -/
def txPagingCmd (called : SccpAddr) (imsi : Bytes) (tmsi : Option (BitVec 32)) (isPs : Bool)
    (cause : Nat) : M Int := do
  genMsg env (.paging imsi tmsi isPs cause)                           -- l.830-831
  sapDown env (.unitdataReq called (.paging imsi tmsi isPs cause))    -- l.832

/-- `iu_rnc_lac_rac_find_legacy`, `iu_client.c:269-292`: first RNC with a matching area. -/
def lacRacFindLegacy (s : State) (lac : BitVec 16) (rac : BitVec 8) : Option Rnc :=
  s.rncs.find? fun r => r.areas.any fun e => e.lai.lac = lac && e.rac = rac

/-- `iu_page`, `iu_client.c:835-870`. -/
def iuPage (imsi : Bytes) (tmsi : Option (BitVec 32)) (lac : BitVec 16) (rac : BitVec 8)
    (isPs : Bool) : M Int := do
  let s ← M.get
  match lacRacFindLegacy s lac rac with                               -- l.843-844
  | some rnc =>
    let rc ← txPagingCmd env rnc.addr imsi tmsi isPs 0                -- l.845
    pure (if rc = 0 then 1 else 0)                                    -- l.845-852
  | none => pure 0                                                    -- l.853

/-- The loops of `ranap_iu_page_cs2` (`iu_client.c:900-914`) and `ranap_iu_page_ps2`
(`iu_client.c:946-960`): the inner loop finds the first matching entry, sends one
command, counts (l.911/957) and leaves (l.912/958).  The list of RNCs does not
change meanwhile. -/
def pageLoop (imsi : Bytes) (tmsi : Option (BitVec 32)) (isPs : Bool) (hit : Rai → Bool) :
    List Rnc → Int → M Int
  | [], paged => pure paged
  | rnc :: rest, paged =>
    if rnc.areas.any hit then do
      let _ ← txPagingCmd env rnc.addr imsi tmsi isPs 0
      pageLoop imsi tmsi isPs hit rest (paged + 1)
    else pageLoop imsi tmsi isPs hit rest paged

/-- `ranap_iu_page_cs2`, `iu_client.c:891-928`. -/
def iuPageCs2 (imsi : Bytes) (tmsi : Option (BitVec 32)) (lai : Verif.Lai) : M Int := do
  let s ← M.get
  pageLoop env imsi tmsi false (fun e => laiEq e.lai lai) s.rncs 0

/-- `ranap_iu_page_ps2`, `iu_client.c:937-973`. -/
def iuPagePs2 (imsi : Bytes) (ptmsi : Option (BitVec 32)) (rai : Rai) : M Int := do
  let s ← M.get
  pageLoop env imsi ptmsi true (fun e => raiEq e rai) s.rncs 0

/-! ## API dispatch and callbacks -/

/-- One API call; the result is its return value (0 for `void`). -/
def runApi (a : Api) : M Int := do
  match a with
  | .freeUe ue => freeUe env ue; pure 0
  | .tx ue nas sapi => iuTx env ue nas sapi
  | .txRelease ue cause => iuTxRelease env ue cause
  | .txReleaseFree ue cause t => iuTxReleaseFree env ue cause t; pure 0
  | .txSecModeCmd ue ik ck sendCk newKey => iuTxSecModeCmd env ue ik ck sendCk newKey
  | .txCommonId ue imsi => iuTxCommonId env ue imsi
  | .rabAct ue msg => iuRabAct env ue msg
  | .rabDeact _ _ => pure (-1)                                        -- l.377-381
  | .pageCs imsi tmsi lac => iuPage env imsi tmsi lac 0 false         -- l.873-876
  | .pagePs imsi ptmsi lac rac => iuPage env imsi ptmsi lac rac true  -- l.879-882
  | .pageCs2 imsi tmsi lai => iuPageCs2 env imsi tmsi lai
  | .pagePs2 imsi ptmsi rai => iuPagePs2 env imsi ptmsi rai

/-- Run the API calls of a callback (the user, external; called from iu_client.c:126, 499, 532). -/
def runScript : Script → M Unit
  | .done => pure ()
  | .call a k => do
    let rc ← runApi env a
    runScript (k rc)

/-- Call a user callback: record the call, then do what the user does (iu_client.c:126, 499, 532). -/
def callback (o : Out) : M Unit := do
  emit o
  let s ← M.get
  runScript env (env.cb s o)

/-- `global_iu_event`, `iu_client.c:114-127`.  The callback's return value only reaches
log output and is not modelled. -/
def iuEvent (ue : Option Ptr) (e : Event) : M Unit := do
  if env.hasEventCb then                                              -- l.118
    match ue with
    | none => callback env (.event none e)
    | some p =>
      let u ← deref p                                                 -- l.121
      if u.notification then callback env (.event (some (p, u.conn)) e)
      else pure ()
  else pure ()

/-- `global_iu_event_new_area`, `iu_client.c:129-145`. -/
def iuEventNewArea (rnc : RncId) (rai : Rai) : M Unit :=
  if rai.rac = RESERVED_RAC then iuEvent env none (.newArea rnc (.lac rai.lai))   -- l.136-138
  else iuEvent env none (.newArea rnc (.rac rai))                                 -- l.140-141

/-! ## Contexts, cached addresses, RNC registry -/

/-- `ue_conn_ctx_find`, `iu_client.c:170-179`. -/
def ctxFind (s : State) (conn : ConnId) : Option Ue := s.ues.find? (·.conn = conn)

/-- `ue_conn_ctx_alloc`, `iu_client.c:154-168`. -/
def ctxAlloc (rnc : Ptr) (conn : ConnId) : M Ptr := do
  let s ← M.get
  let p := s.next
  M.modify fun s => { s with
    ues := ⟨p, rnc, conn, ⟨0, 0, false, 0, 0⟩, true, false⟩ :: s.ues, next := p + 1,
    blocks := s.blocks + 1 }
  pure p

/-- `ue_conn_sccp_addr_add`, `iu_client.c:192-200`. -/
def cacheAdd (conn : ConnId) (addr : SccpAddr) : M Unit :=
  M.modify fun s => { s with cache := (conn, addr) :: s.cache, blocks := s.blocks + 1 }

/-- `ue_conn_sccp_addr_find`, `iu_client.c:202-210`. -/
def cacheFind (s : State) (conn : ConnId) : Option SccpAddr :=
  (s.cache.find? (·.1 = conn)).map (·.2)

/-- `ue_conn_sccp_addr_del`, `iu_client.c:212-222`: remove and free the first match,
if there is one. -/
def cacheDel (conn : ConnId) : M Unit :=
  M.modify fun s => { s with
    cache := s.cache.eraseP (·.1 = conn),                             -- l.217
    blocks := s.blocks - if s.cache.any (·.1 = conn) then 1 else 0 }  -- l.218

/-- `iu_rnc_alloc`, `iu_client.c:224-238`. -/
def rncAlloc (id : RncId) (addr : SccpAddr) : M Ptr := do
  let s ← M.get
  let p := s.next
  M.modify fun s => { s with rncs := ⟨p, id, addr, []⟩ :: s.rncs, next := p + 1,
                               blocks := s.blocks + 1 }
  pure p

/-- `iu_rnc_lac_rac_find`, `iu_client.c:243-266`: first RNC with the area, and the first
such entry. -/
def lacRacFind (s : State) (rai : Rai) : Option (Rnc × Rai) :=
  s.rncs.findSome? fun r => (r.areas.find? fun e => raiEq e rai).map fun e => (r, e)

/-- `iu_rnc_id_find`, `iu_client.c:294-302`. -/
def rncIdFind (s : State) (id : RncId) : Option Rnc := s.rncs.find? fun r => rncIdEq r.rncId id

/-- `same_sccp_addr`, `iu_client.c:304-309`: the first dump is cut to 255 characters. -/
def sameSccpAddr (a b : SccpAddr) : Bool := (env.dump a).take 255 = env.dump b

/-- Change one RNC record (iu_client.c:326, 342-343, 350). -/
def updRnc (p : Ptr) (f : Rnc → Rnc) : M Unit :=
  M.modify fun s => { s with rncs := s.rncs.map fun r => if r.ptr = p then f r else r }

/-- `iu_rnc_register`, `iu_client.c:311-356`. -/
def rncRegister (id : RncId) (rai : Rai) (addr : SccpAddr) : M Ptr := do
  let s ← M.get
  let rnc ← match rncIdFind s id with                                 -- l.320
    | some r => do
      if !sameSccpAddr env r.addr addr then                           -- l.323-327
        updRnc r.ptr fun r => { r with addr := addr }
      pure r.ptr
    | none => rncAlloc id addr                                        -- l.329
  let s ← M.get
  match lacRacFind s rai with                                         -- l.332
  | some (old, e) =>
    if old.ptr ≠ rnc then                                             -- l.334
      -- move the entry (l.342-343); `lre->rai` is kept
      updRnc old.ptr fun r => { r with areas := r.areas.eraseP fun x => raiEq x rai }
      updRnc rnc fun r => { r with areas := e :: r.areas }
      iuEventNewArea env id rai                                       -- l.344
    else pure ()                                                      -- l.353
  | none =>                                                           -- l.345
    M.modify fun s => { s with blocks := s.blocks + 1 }               -- l.348
    updRnc rnc fun r => { r with areas := rai :: r.areas }            -- l.349-350
    iuEventNewArea env id rai                                         -- l.351
  pure rnc

/-! ## Handling of connection oriented RANAP messages -/

/-- `msgb_alloc(256, "RANAP->NAS")` -/
def nasAlloc : M Unit := M.modify fun s => { s with nasBufs := s.nasBufs + 1 }
/-- `msgb_free` of it (iu_client.c:501, 534) -/
def nasFree : M Unit := M.modify fun s => { s with nasBufs := s.nasBufs - 1 }

/-- `msgb_put(msg, size)` on a 256 octet buffer -/
def nasPut (nas : Bytes) : M Unit :=
  if nas.length ≤ 256 then pure () else M.fault .abort

/-- `struct new_ue_conn_ctx`, `iu_client.c:446-449` -/
structure NewCtx where
  addr : SccpAddr
  conn : ConnId

/-- `ranap_handle_co_initial_ue`, `iu_client.c:451-504`. -/
def handleInitialUe (ctx : NewCtx) (ies : InitialUeIes) : M Int := do
  nasAlloc                                                            -- l.459
  let (rc, ra) ← M.lift (parseLai ies.laiPlmn ies.laiLac)             -- l.462
  if rc ≠ 0 then pure (-1)
  else do
    let rac ← match ies.rac with
      | some b => M.lift (asn1strToU8 b)                              -- l.468
      | none => pure RESERVED_RAC                                     -- l.475
    if ies.rac.isSome ∧ rac = RESERVED_RAC then pure (-1)             -- l.469-473
    else do
      let ra := { ra with rac := rac }
      match grncIdParse ies.grnc.plmn ies.grnc.rncId with             -- l.478
      | none => pure (-1)
      | some rncId => do
        let sai ← M.lift (asn1strToU16 ies.saiSac)                    -- l.484
        nasPut ies.nas                                                -- l.485-486
        let rnc ← rncRegister env rncId (gprsRaiToOsmo ra) ctx.addr   -- l.488-491
        let ue ← ctxAlloc rnc ctx.conn                                -- l.493
        M.modify fun s => { s with ues := s.ues.map fun u =>
          if u.ptr = ue then { u with raId := ra } else u }           -- l.495
        callback env (.recv ue ctx.conn ies.nas (some ra) (some sai)) -- l.498-499
        nasFree                                                       -- l.501
        pure 0

/-- `ranap_handle_co_dt`, `iu_client.c:506-537`. -/
def handleDt (ue : Ptr) (ies : DtIes) : M Int := do
  nasAlloc                                                            -- l.510
  let loc : Option (Option GprsRaId × Option (BitVec 16)) ← (match ies.lai with
    | none => pure (some (none, none))
    | some (plmn, lac) => do                                          -- l.512
      let (rc, ra) ← M.lift (parseLai plmn lac)                       -- l.513
      if rc ≠ 0 then pure none
      else do
        let ra ← match ies.rac with
          | some b => do let r ← M.lift (asn1strToU8 b); pure { ra with rac := r }   -- l.518-519
          | none => pure ra
        match ies.saiSac with
          | some b => do let v ← M.lift (asn1strToU16 b); pure (some (some ra, some v))  -- l.521-524
          | none => pure (some (some ra, none)) : M _)
  match loc with
  | none => pure (-1)                                                 -- l.515
  | some (ra, sai) => do
    nasPut ies.nas                                                    -- l.527-528
    -- `msg->dst = ctx`; the connection id recorded is what the user sees in it
    let u ← deref ue
    callback env (.recv ue u.conn ies.nas ra sai)                     -- l.531-532
    nasFree                                                           -- l.534
    pure 0

/-- `ranap_handle_co_rab_ass_resp`, `iu_client.c:621-645`. -/
def handleRabAssResp (ue : Ptr) (items : Option (List (Option Bytes))) : M Int := do
  let _ ← deref ue                                                    -- l.626
  match items with                                                    -- l.627
  | none => pure (-1)
  | some [] => M.fault .oobRead                                       -- l.629, array[0] of an empty list
  | some (none :: _) => pure (-1)                                     -- l.632-635
  | some (some it :: _) => do
    iuEvent env (some ue) (.rabAssign it)                             -- l.638
    pure 0

/-- `cn_ranap_handle_co_initial`, `iu_client.c:647-667`. -/
def handleCoInitial (ctx : NewCtx) (m : Msg) : M Unit := do
  if m.dir ≠ PR_initiatingMessage ∨ m.proc ≠ id_InitialUE_Message then pure ()   -- l.653-658
  else match m.body with
    | .initialUe ies => do let _ ← handleInitialUe env ctx ies; pure ()  -- l.660
    | _ => M.fault .wrongUnion

/-- `cn_ranap_handle_co`, `iu_client.c:670-746`. -/
def handleCo (ue : Ptr) (m : Msg) : M Unit := do
  if m.dir = PR_initiatingMessage then                                -- l.677
    if m.proc = id_InitialUE_Message then pure ()                     -- l.679-682
    else if m.proc = id_DirectTransfer then                           -- l.683-685
      match m.body with
      | .directTransfer ies => do let _ ← handleDt env ue ies; pure ()
      | _ => M.fault .wrongUnion
    else if m.proc = id_ErrorIndication then                          -- l.686-688, only logs
      match m.body with
      | .errorInd _ => pure ()
      | _ => M.fault .wrongUnion
    else if m.proc = id_Iu_ReleaseRequest then                        -- l.689-692
      match m.body with
      | .iuReleaseReq cause => do let _ ← iuTxRelease env ue (some cause); pure ()   -- l.614-619
      | _ => M.fault .wrongUnion
    else pure ()                                                      -- l.693-697
  else if m.dir = PR_successfulOutcome then                           -- l.700
    if m.proc = id_SecurityModeControl then
      iuEvent env (some ue) .securityModeComplete                     -- l.704
    else if m.proc = id_Iu_Release then
      iuEvent env (some ue) .iuRelease                                -- l.708
    else pure ()
  else if m.dir = PR_outcome then                                     -- l.721
    if m.proc = id_RAB_Assignment then
      match m.body with
      | .rabAssResp items => do let _ ← handleRabAssResp env ue items; pure ()  -- l.725
      | _ => M.fault .wrongUnion
    else pure ()
  else pure ()                                                        -- l.734-739

/-- `ranap_cn_rx_co` with a handler, `/repo/src/ranap_common_cn.c:411-427`. -/
def rxCo (h : Msg → M Unit) (data : Bytes) : M Int := do
  match env.decodeCo data with
  | none => pure (-1)
  | some m => do h m; pure 0

/-! ## Connectionless RANAP messages -/

/-- `ranap_handle_cl_reset_req`, `iu_client.c:748-768`. -/
def handleClReset (calling : SccpAddr) (domain : Nat) (rnc : Option GRncId) : M Int := do
  let r ← M.lift (env.gen (.resetAck domain rnc))                     -- l.763
  match r with
  | none => pure (-ENOMEM)                                            -- l.764-765
  | some _ => sapDown env (.unitdataReq calling (.resetAck domain rnc))  -- l.767

/-- `cn_ranap_handle_cl`, `iu_client.c:782-813`. -/
def handleCl (calling : SccpAddr) (m : Msg) : M Unit := do
  if m.dir = PR_initiatingMessage then
    if m.proc = id_Reset then
      match m.body with
      | .reset domain rnc => do let _ ← handleClReset env calling domain rnc; pure ()
      | _ => M.fault .wrongUnion
    else if m.proc = id_ErrorIndication then
      match m.body with
      | .errorInd _ => pure ()
      | _ => M.fault .wrongUnion
    else pure ()
  else pure ()

/-! ## Link supervision -/

/-- `ue_ctx_link_invalidated_free`, `iu_client.c:998-1009`. -/
def linkInvalidatedFree (p : Ptr) : M Unit := do
  let u ← deref p                                                     -- l.1000
  iuEvent env (some p) .linkInvalidated                               -- l.1001
  let s ← M.get
  match ctxFind s u.conn with                                         -- l.1004
  | none => pure ()                                                   -- l.1005-1006
  | some u' => if u'.freeOnRelease then freeUe env (some u'.ptr) else pure ()  -- l.1007-1008

/-- The element behind `p` in the context list (`llist_entry(pos->next)`); `none` is the
list head (iu_client.c:1039, 1128). -/
def ueNext (s : State) (p : Ptr) : Option Ptr :=
  match s.ues.dropWhile (·.ptr ≠ p) with
  | _ :: u :: _ => some u.ptr
  | _ => none

/-- `llist_for_each_entry_safe` over the contexts, `iu_client.c:1039-1043`, `1128-1132`.
At `pos`, the next element is saved before the body runs; afterwards it is
dereferenced.  `fuel` bounds the number of iterations. -/
def ueLoop (rnc : Ptr) : Nat → Ptr → M Unit
  | 0, _ => M.fault .diverge
  | fuel + 1, pos => do
    let u ← deref pos
    let s ← M.get
    let nxt := ueNext s pos
    if u.rnc = rnc then linkInvalidatedFree env pos                   -- l.1040-1042
    match nxt with
    | none => pure ()
    | some q => ueLoop rnc fuel q

/-- The loop from the list head (iu_client.c:1039, 1128). -/
def ueForEachSafe (rnc : Ptr) : M Unit := do
  let s ← M.get
  match s.ues with
  | [] => pure ()
  | u :: _ => ueLoop env rnc s.ues.length u.ptr

/-- The outer loop over the RNC list, `iu_client.c:1030-1046`, `1118-1135`.  The RNC list
does not change meanwhile (no API call changes it). -/
def rncLoop (hit : SccpAddr → Bool) : List Rnc → M Unit
  | [] => pure ()
  | r :: rest => do
    if hit r.addr then ueForEachSafe env r.ptr
    rncLoop hit rest

/-- `SCCP_RETURN_CAUSE_SUBSYSTEM_CONGESTION`, `SCCP_RETURN_CAUSE_NETWORK_CONGESTION`
(ITU-T Q.713 3.12) -/
def RETURN_CAUSE_SUBSYSTEM_CONGESTION : Nat := 2
/-- See above; iu_client.c:1022. -/
def RETURN_CAUSE_NETWORK_CONGESTION : Nat := 6

/-- `handle_notice_ind`, `iu_client.c:1011-1047`. -/
def handleNotice (calling : SccpAddr) (cause : Nat) : M Unit := do
  if cause = RETURN_CAUSE_SUBSYSTEM_CONGESTION ∨ cause = RETURN_CAUSE_NETWORK_CONGESTION then
    pure ()                                                           -- l.1021-1024
  else do
    let s ← M.get
    rncLoop env (fun a => env.riEq a calling) s.rncs

/-- `enum osmo_sccp_sp_status` (libosmo-sigtran, external; iu_client.c:1086-1096) -/
inductive SpStatus where
  | accessible | inaccessible | congested | unknown (v : Nat)
  deriving DecidableEq, Repr

/-- `enum osmo_sccp_rem_sccp_status` (libosmo-sigtran, external; iu_client.c:1099-1113) -/
inductive RemStatus where
  | available | unavailableUnknown | unequipped | inaccessible | congested | unknown (v : Nat)
  deriving DecidableEq, Repr

/-- The decision in `handle_pcstate_ind`, `iu_client.c:1083-1114`: (connected, disconnected). -/
def pcDecision (sp : SpStatus) (rem : RemStatus) : Bool × Bool :=
  let (connected, disconnected) := match sp with
    | .accessible => (true, false)                                    -- l.1087-1089
    | .inaccessible => (false, true)                                  -- l.1090-1092
    | _ => (false, false)                                             -- l.1093-1096
  match rem with
  | .available => (if !disconnected then true else connected, disconnected)  -- l.1100-1103
  | .unavailableUnknown | .unequipped | .inaccessible => (false, true)       -- l.1104-1109
  | _ => (connected, disconnected)                                    -- l.1110-1113

/-- `handle_pcstate_ind`, `iu_client.c:1049-1150`; the `connected` branch only logs. -/
def handlePcstate (pc : BitVec 32) (sp : SpStatus) (rem : RemStatus) : M Unit := do
  let remAddr := makeAddrPcSsn pc SSN_RANAP                           -- l.1061
  if (pcDecision sp rem).2 then do                                    -- l.1116
    let s ← M.get
    rncLoop env (fun a => a.samePcSsn remAddr) s.rncs
  else pure ()

/-! ## Operations -/

/-- What may happen to the client: a primitive from SCCP, a timer expiry, an API call
from the main loop.  `otherInd` is any primitive without a case in `sccp_sap_up` (iu_client.c:148-152, 1152-1260, include/osmocom/ranap/iu_client.h:76-103). -/
inductive Op where
  | connectInd (conn : ConnId) (calling : SccpAddr) (data : Bytes)
  | connectConf
  | disconnectInd (conn : ConnId) (data : Bytes)
  | dataInd (conn : ConnId) (data : Bytes)
  | unitdataInd (calling : SccpAddr) (data : Bytes)
  | noticeInd (calling : SccpAddr) (cause : Nat)
  | pcstateInd (pc : BitVec 32) (sp : SpStatus) (rem : RemStatus)
  | otherInd
  | timer (ue : Ptr)
  | api (a : Api)
  deriving DecidableEq, Repr

/-- One operation: `sccp_sap_up`, `iu_client.c:1152-1260`; timer expiry; API call.
A timer that is not pending does not expire. -/
def step (op : Op) : M Int := do
  match op with
  | .connectConf => pure (-1)                                         -- l.1166-1168
  | .connectInd conn calling data =>
    let _ ← sapDown env (.connectResp conn)                           -- l.1178-1179
    if data.length = 0 then do                                        -- l.1182-1185
      cacheAdd conn calling
      pure (-1)
    else rxCo env (handleCoInitial env ⟨calling, conn⟩) data          -- l.1187
  | .disconnectInd conn data =>
    cacheDel conn                                                     -- l.1195
    let s ← M.get
    match ctxFind s conn with                                         -- l.1196
    | none => pure (-1)
    | some u => do
      let rc ← if data.length > 0 then rxCo env (handleCo env u.ptr) data else pure 0   -- l.1200-1202
      let s ← M.get
      match ctxFind s conn with                                       -- l.1205
      | none => pure rc
      | some u => do linkInvalidatedFree env u.ptr; pure rc           -- l.1208
  | .dataInd conn data =>
    let s ← M.get
    match ctxFind s conn with                                         -- l.1217
    | none =>
      match cacheFind s conn with                                     -- l.1220
      | none => pure (-1)                                             -- l.1221-1225
      | some addr => do
        cacheDel conn                                                 -- l.1228
        rxCo env (handleCoInitial env ⟨addr, conn⟩) data              -- l.1229
    | some u => rxCo env (handleCo env u.ptr) data                    -- l.1233
  | .unitdataInd calling data =>
    match env.decodeCl data with                                      -- l.1239, ranap_cn_rx_cl
    | none => pure (-1)
    | some m => do handleCl env calling m; pure 0
  | .noticeInd calling cause => do handleNotice env calling cause; pure (-1)   -- l.1244
  | .pcstateInd pc sp rem => do handlePcstate env pc sp rem; pure (-1)         -- l.1247
  | .otherInd => pure (-1)                                            -- l.1249-1255
  | .timer p =>
    let s ← M.get
    if s.timers.any (·.1 = p) then do
      M.modify fun s => { s with timers := s.timers.filter (·.1 ≠ p) }
      iuEvent env (some p) .iuRelease                                 -- l.148-152
      pure 0
    else pure 0
  | .api a => runApi env a

/-- A history. (No counterpart in the code: operations one after the other, iu_client.c:1152-1260.) -/
def run : List Op → M Unit
  | [] => pure ()
  | op :: ops => do
    let _ ← step env op
    run ops

end

end Verif.Iu
