import Verif.Model.Linked
import Verif.Model.ScarceRab

/-!
# The Iu client when memory runs out while it makes messages

The client of `Model/IuClient.lean` (/repo/src/iu_client.c) with the functions of `Model/ScarceRab.lean` below it, which may find no
memory.  Memory for the records of the client (iu_client.c:156, 194, 226, 348), for NAS messages (459, 510) and for decoding is
there (for the first two see `Model/ScarceRec.lean`, for all of them `Model/ScarceAll.lean`).  Every operation has its own world; a message that is made several times during one operation (only the commands of
iu_client.c:900-914, 946-960 are) fares the same every time.
-/

namespace Verif.ScarceIu
open Verif.Scarce Verif.Linked
open Verif.Factory (Call)

/-- The call of ranap_msg_factory.c by which the client makes a message (iu_client.c:390, 410, 564, 590, 763, 830; for the first of
them ranap_msg_factory.c:373-376).  `none`: the message comes from the user (iu_client.c:362). -/
def callOf : Iu.TxMsg → Option Call
  | .dt sapi nas => some (.dt sapi nas)
  | .iuRelCmd c => some (.iuRelCmd (some (toCause c)))
  | .secModCmd ik ck newKey => some (.secModCmd2 (some ik) ck (if newKey then 1 else 0) 6 6)
  | .commonId imsi => some (.commonId imsi)
  | .paging imsi tmsi isPs c => some (.pagingCmd (some imsi) tmsi isPs (BitVec.ofNat 32 c))
  | .resetAck domain rnc => some (.resetAck domain (rnc.map toRncId))
  | .raw _ => none

/-- Making a message in a world (iu_client.c:390, 410, 564, 590, 763, 830). -/
def genW (w : World) (lax debug : Bool) (n : Nat) (m : Iu.TxMsg) : Res (Option Bytes) :=
  match m, callOf m with
  | .raw data, _ => .ok (some data)
  | _, some c => (callW w lax debug c n).1
  | _, none => .ok none

/-- The client with the library below it in a world (iu_client.c:362-1260). -/
def scarce (w : World) (lax debug : Bool) (n : Nat) (env : Iu.Env) : Iu.Env :=
  { linked env with gen := genW w lax debug n }

end Verif.ScarceIu
