import Verif.Model.IuClient

/-!
# Primitives of SCCP without user data

`Model/IuClient.lean` takes the user data of an indication as octets.  In the code they are what
is between `l2h` and `tail` of the message buffer, and `l2h` may be NULL, as the check in
`iu_client.c:1182` expects.  Here the user data are `none` in this case.
-/

namespace Verif.Iu

/-- Indications with user data, `iu_client.c:1169-1240`. -/
inductive Ind where
  | connect (conn : ConnId) (calling : SccpAddr) (data : Option Bytes)
  | disconnect (conn : ConnId) (data : Option Bytes)
  | data (conn : ConnId) (data : Option Bytes)
  | unitdata (calling : SccpAddr) (data : Option Bytes)
  deriving DecidableEq, Repr

/-- `ranap_cn_rx_co` on `msgb_l2(msg)`, `msgb_l2len(msg)` (`iu_client.c:1187, 1202, 1229, 1233`).
If `l2h` is NULL, the length is the address in `tail` (`msgb_l2len` of libosmocore subtracts the
pointers), which is not 0, and the decoder reads from address 0. -/
def rxL2 (env : Env) (h : Msg → M Unit) : Option Bytes → M Int
  | none => M.fault .nullDeref
  | some d => rxCo env h d

/-- `msgb_l2len(msg) > 0` (`iu_client.c:1201`); for NULL see `rxL2`. -/
def l2lenPos : Option Bytes → Bool
  | none => true
  | some d => d.length > 0

/-- The four cases of `sccp_sap_up`, `iu_client.c:1169-1240`, with user data that may be missing. -/
def sapUp (env : Env) : Ind → M Int
  | .connect conn calling data => do
    let _ ← sapDown env (.connectResp conn)                           -- l.1178-1179
    match data with
    | none => do cacheAdd conn calling; pure (-1)                     -- l.1182, `!msgb_l2(oph->msg)`
    | some d =>
      if d.length = 0 then do cacheAdd conn calling; pure (-1)        -- l.1182-1185
      else rxL2 env (handleCoInitial env ⟨calling, conn⟩) data        -- l.1187
  | .disconnect conn data => do
    cacheDel conn                                                     -- l.1195
    let s ← M.get
    match ctxFind s conn with                                         -- l.1196
    | none => pure (-1)
    | some u => do
      let rc ← if l2lenPos data then rxL2 env (handleCo env u.ptr) data else pure 0   -- l.1201-1202
      let s ← M.get
      match ctxFind s conn with                                       -- l.1205
      | none => pure rc
      | some u => do linkInvalidatedFree env u.ptr; pure rc           -- l.1208
  | .data conn data => do
    let s ← M.get
    match ctxFind s conn with                                         -- l.1217
    | none =>
      match cacheFind s conn with                                     -- l.1220
      | none => pure (-1)
      | some addr => do
        cacheDel conn                                                 -- l.1228
        rxL2 env (handleCoInitial env ⟨addr, conn⟩) data              -- l.1229
    | some u => rxL2 env (handleCo env u.ptr) data                    -- l.1233
  | .unitdata calling data =>
    match data with
    | none => M.fault .nullDeref                                      -- l.1239, as in `rxL2`
    | some d =>
      match env.decodeCl d with
      | none => pure (-1)
      | some m => do handleCl env calling m; pure 0

end Verif.Iu
