import Verif.Model.ScarceIu
import Verif.Model.ScarceRec

/-!
# The Iu client when any memory may be missing

The client of `Model/ScarceRec.lean` (/repo/src/iu_client.c), whose records may find no memory, with the functions of
`Model/ScarceIu.lean` below it, whose messages may find none.  A received message for which the decoder finds no memory is one that
cannot be decoded (ranap_common_cn.c:411-427, 659-675 with the failures of ranap_decoder.c; see `Props/Scarce.lean`).  The first item of
a RAB Assignment Response is decoded on its own, and may find no memory on its own (iu_client.c:629).
-/

namespace Verif.ScarceAll
open Verif.Iu Verif.Scarce Verif.ScarceIu Verif.ScarceRec

/-- For what of a received message there is memory. -/
inductive Hears where
  /-- for all of it -/
  | all
  /-- not for an item of a RAB Assignment Response (iu_client.c:629) -/
  | noItem
  /-- for nothing (ranap_common_cn.c:411-427, 659-675) -/
  | nothing
  deriving DecidableEq, Repr

/-- A message whose items cannot be decoded (iu_client.c:624-633, of which only the first is decoded). -/
def blank (m : Msg) : Msg :=
  match m.body with
  | .rabAssResp (some l) => { m with body := .rabAssResp (some (l.map fun _ => none)) }
  | _ => m

/-- The memory that an operation finds. -/
structure Lack where
  /-- memory for records of the client and for NAS messages (iu_client.c:156, 194, 226, 348, 459, 510, 987) -/
  supply : Supply
  /-- memory for the parts of messages that are made (ranap_msg_factory.c, ranap_encoder.c), see `Model/Scarce.lean` -/
  world : World
  /-- see `Model/ScarceIu.lean` -/
  lax : Bool
  /-- debug output is on -/
  debug : Bool
  /-- the number of allocations so far -/
  count : Nat
  /-- memory for decoding what is received -/
  hears : Hears

/-- What the client hears of received messages (ranap_common_cn.c:411-427, 659-675, iu_client.c:624-633). -/
def hearing (h : Hears) (env : Env) : Env :=
  match h with
  | .all => env
  | .noItem => { env with decodeCo := fun d => (env.decodeCo d).map blank }
  | .nothing => { env with decodeCo := fun _ => none, decodeCl := fun _ => none }

/-- The library as an operation finds it (iu_client.c:362-1260, ranap_common_cn.c:411-427, 659-675). -/
def lacking (x : Lack) (env : Env) : Env := hearing x.hears (scarce x.world x.lax x.debug x.count env)

/-- An operation of the client (iu_client.c:362-1260). -/
def stepL (env : Env) (x : Lack) (op : Op) : M Int := stepR (lacking x env) x.supply op

/-- A history, in which every operation finds other memory (iu_client.c:362-1260). -/
def runL (env : Env) : List (Lack × Op) → M Unit
  | [] => pure ()
  | (x, op) :: ops => do
    let _ ← stepL env x op
    runL env ops

end Verif.ScarceAll
