import Verif.Model.Factory
import Verif.Gen.RuaIes

/-!
# Wrapping RANAP messages in RUA

`/repo/src/rua_msg_factory.c` and `rua_generate_initiating_message` of `/repo/src/rua_common.c`.

The payload is a message buffer the functions take over: block 0 of the trace.  Block 1 is the copy
of its contents in the structure `ies`.  The temporary structure `out` and the returned message
buffer are not part of the trace.  Allocation does not fail; logging is not modelled.
-/

namespace Verif.Rua
open Verif.Aper Verif.Ie Verif.Gen.Rua
open Verif.Factory (genPdu pduVal put present orMask u24Bits)

/-- `rua_msgb_alloc` (rua_common.c:103-106), no headroom. -/
def tailroom : Nat := 1024

/-- `IUH_PPI_RUA` (rua_msg_factory.c:11). -/
def ppid : Nat := 19

/-- The message buffer returned: contents and SCTP payload protocol id (rua_msg_factory.c:13-41). -/
structure Msg where
  data : Bytes
  ppid : Nat
  deriving DecidableEq, Repr

/-- What a call does: the trace, and the message returned (`none` for NULL) (rua_msg_factory.c:13-156). -/
structure Run where
  trace : List (Ev Unit)
  msg : Option Msg

/-- `OCTET_STRING_fromBuf(&ies.ranaP_Message, ...)` and `msgb_free(inmsg)` (rua_msg_factory.c:21-22). -/
def consume : List (Ev Unit) := [.alloc 1, .free 0]

/-- The common end of the functions (e.g. rua_msg_factory.c:25-40): encode the structure, give up with
NULL if that fails; `rua_generate_initiating_message` (rua_common.c:130-155) with criticality reject;
if it returns NULL the assignment to `msgb_sctp_ppid(msg)` dereferences NULL. -/
def finish (code : Nat) (m : MsgDef) (s : Struct) (trace : List (Ev Unit)) : Res Run :=
  match encodeIes m s with
  | none => .ok ⟨trace, none⟩
  | some l =>
    match encode m.ty (container l) with
    | none => .fault .nullDeref
    | some any => .ok ⟨trace, some ⟨genPdu RUA_RUA_PDU tailroom (pduVal 1 code 0 any), ppid⟩⟩

/-! ### Protocol constants (RUA_ProtocolIE-ID.h, RUA_CN-DomainIndicator.h) -/

/-- `RUA_ProtocolIE_ID_id_Cause` (include/osmocom/rua/RUA_ProtocolIE-ID.h:23). -/
def idCause : Nat := 1
/-- `RUA_ProtocolIE_ID_id_Context_ID` (include/osmocom/rua/RUA_ProtocolIE-ID.h:25). -/
def idContext_ID : Nat := 3
/-- `RUA_ProtocolIE_ID_id_RANAP_Message` (include/osmocom/rua/RUA_ProtocolIE-ID.h:26). -/
def idRANAP_Message : Nat := 4
/-- `RUA_ProtocolIE_ID_id_Establishment_Cause` (include/osmocom/rua/RUA_ProtocolIE-ID.h:28). -/
def idEstablishment_Cause : Nat := 6
/-- `RUA_ProtocolIE_ID_id_CN_DomainIndicator` (include/osmocom/rua/RUA_ProtocolIE-ID.h:29). -/
def idCN_DomainIndicator : Nat := 7

/-- `RUA_CN_DomainIndicator_ps_domain`, `..._cs_domain` (include/osmocom/rua/RUA_CN-DomainIndicator.h:23-24). -/
def domain (isPs : Bool) : Val := .enum (if isPs then 1 else 0)

/-- `rua_new_udt` (rua_msg_factory.c:13-41). -/
def newUdt (inmsg : Option Bytes) : Res Run :=
  match inmsg with
  | none => .fault .nullDeref
  | some p =>
    let m := connectionlessTransferIEs
    let s := put m idRANAP_Message (.octets p) m.zero                            -- l.21
    finish 4 m s consume

/-- `rua_new_conn` (rua_msg_factory.c:43-78). -/
def newConn (isPs : Bool) (ctx : BitVec 32) (inmsg : Option Bytes) : Res Run :=
  match inmsg with
  | none => .fault .nullDeref
  | some p =>
    let m := connectIEs
    let s := put m idCN_DomainIndicator (domain isPs) m.zero                     -- l.52-55
    let s := put m idContext_ID (.bits (u24Bits ctx)) s                          -- l.56
    let s := put m idEstablishment_Cause (.enum 1) s                             -- l.57
    let s := put m idRANAP_Message (.octets p) s                                 -- l.58
    finish 1 m s consume

/-- `rua_new_dt` (rua_msg_factory.c:80-114). -/
def newDt (isPs : Bool) (ctx : BitVec 32) (inmsg : Option Bytes) : Res Run :=
  match inmsg with
  | none => .fault .nullDeref
  | some p =>
    let m := directTransferIEs
    let s := put m idCN_DomainIndicator (domain isPs) m.zero                     -- l.89-92
    let s := put m idContext_ID (.bits (u24Bits ctx)) s                          -- l.93
    let s := put m idRANAP_Message (.octets p) s                                 -- l.94
    finish 2 m s consume

/-- The structure of a Disconnect without payload (rua_msg_factory.c:124-132). -/
def discBase (isPs : Bool) (ctx : BitVec 32) : Struct :=
  let m := disconnectIEs
  let s := put m idCN_DomainIndicator (domain isPs) m.zero                       -- l.125-128
  let s := put m idContext_ID (.bits (u24Bits ctx)) s                            -- l.129
  put m idCause (.choice 0 (.enum 0)) s                                          -- l.131-132

/-- `rua_new_disc` (rua_msg_factory.c:116-156).  `msgb_free(NULL)` does nothing. -/
def newDisc (isPs : Bool) (ctx : BitVec 32) (inmsg : Option Bytes) : Res Run :=
  let m := disconnectIEs
  let s := discBase isPs ctx
  match inmsg with
  | none => finish 3 m s []
  | some p =>
    if p.length = 0 then finish 3 m s [.free 0]                                  -- l.133
    else finish 3 m (put m idRANAP_Message (.octets p) (orMask (present m idRANAP_Message) s)) consume

end Verif.Rua
