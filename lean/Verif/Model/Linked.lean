import Verif.Model.IuClient
import Verif.Model.Dispatch
import Verif.Model.Factory

/-!
# The Iu client linked with the RANAP library

`Model/IuClient.lean` leaves open how messages are decoded and encoded (`Env.decodeCo`, `Env.decodeCl`,
`Env.gen`).  Here these are the functions of the library: `ranap_cn_rx_co`, `ranap_cn_rx_cl` and
`ranap_new_msg_*`.  What stays open is the SCCP layer and the user.
-/

namespace Verif.Linked
open Verif.Aper Verif.Ie Verif.Rx Verif.Gen.Ranap Verif.Factory

/-! ## From the decoded structures to the members the client reads

The decoder yields values of the type of the element, so of the alternatives below only the first of each and
zeroed memory occur. -/

/-- `ies->member`; `none` is zeroed memory (e.g. iu_client.c:462). -/
def member (m : MsgDef) (s : Struct) (id : Nat) : Option Val := (s.vals[m.ies.findIdx (·.id == id)]?).join

/-- `ies->presenceMask & <message>_<element>_PRESENT` (iu_client.c:467, 512, 518, 521, 541, 627, 759, 772). -/
def isThere (m : MsgDef) (s : Struct) (id : Nat) : Bool := s.mask &&& present m id != 0

/-- An OCTET STRING: `buf` and `size` (libasn1c `OCTET_STRING_t`, external; e.g. iu_client.c:468). -/
def str : Option Val → Bytes
  | some (.octets b) => b
  | _ => []

/-- Component `i` of a SEQUENCE (e.g. iu_client.c:484, `sai.sAC`). -/
def comp (v : Option Val) (i : Nat) : Option Val :=
  match v with
  | some (.seq fs) => (fs[i]?).join
  | _ => none

/-- An INTEGER (non-negative here) or ENUMERATED (e.g. iu_client.c:763). -/
def num : Option Val → Nat
  | some (.int n) => n.toNat
  | some (.enum n) => n
  | _ => 0

/-- `RANAP_Cause_t` (include/osmocom/ranap/RANAP_Cause.h:29-60). -/
def cause : Option Val → Iu.Cause
  | some (.choice 0 (.int v)) => .radioNetwork v
  | some (.choice 1 (.int v)) => .transmissionNetwork v
  | some (.choice 2 (.int v)) => .nAS v
  | some (.choice 3 (.int v)) => .protocol v
  | some (.choice 4 (.int v)) => .misc v
  | some (.choice 5 (.int v)) => .nonStandard v
  | some (.choice 6 (.int v)) => .radioNetworkExtension v
  | _ => .nothing

/-- `RANAP_GlobalRNC_ID_t` (include/osmocom/ranap/RANAP_GlobalRNC-ID.h:24-30). -/
def grnc (v : Option Val) : Iu.GRncId := ⟨str (comp v 0), num (comp v 1)⟩

/-- `ranap_decode_rab_setupormodifieditemies_fromlist` (ranap_common.c:560-583) and its siblings
`..._rab_faileditemies_fromlist` (585-606), `..._rab_releaseitemies_fromlist` (608-629),
`..._rab_releaseditemies_fromlist` (631-652) and `ranap_decode_rab_setupormodifyitemfirst` (654-678), which
differ in the type: return code and the decoded structure, which is zeroed first (`none`). -/
def fromList (t : Ty) (any : Bytes) : Int × Option Val :=
  match decode t any with
  | none => (-1, none)
  | some v => (0, some v)

/-- One entry of `raB_SetupOrModifiedList_ies`, as far as `ranap_handle_co_rab_ass_resp` looks at it
(iu_client.c:629-635): the value of the element, if it decodes. -/
def rabItem (v : Val) : Option Bytes :=
  let any := str (comp (some v) 2)
  if (fromList RANAP_RAB_SetupOrModifiedItem any).1 ≠ 0 then none else some any

/-- The list of a structure that consists of one list (asn1tostruct.py:175-181). -/
def listOf (v : Option Val) : List Val :=
  match comp v 0 with
  | some (.list vs) => vs
  | _ => []

/-- The member of the union that was filled, as the client reads it. (The handlers are chosen in iu_client.c:647-823.) -/
def body : String × Struct → Iu.Body
  | (n, s) =>
    if n = initialUE_MessageIEs.name then                                         -- iu_client.c:451-504
      let m := initialUE_MessageIEs
      .initialUe {
        laiPlmn := str (comp (member m s idLAI) 0)
        laiLac := str (comp (member m s idLAI) 1)
        rac := if isThere m s 55 then some (str (member m s 55)) else none
        saiSac := str (comp (member m s idSAI) 2)
        nas := str (member m s idNAS_PDU)
        grnc := grnc (member m s idGlobalRNC_ID) }
    else if n = directTransferIEs.name then                                       -- iu_client.c:506-537
      let m := directTransferIEs
      .directTransfer {
        nas := str (member m s idNAS_PDU)
        lai := if isThere m s idLAI then some (str (comp (member m s idLAI) 0), str (comp (member m s idLAI) 1)) else none
        rac := if isThere m s 55 then some (str (member m s 55)) else none
        saiSac := if isThere m s idSAI then some (str (comp (member m s idSAI) 2)) else none }
    else if n = errorIndicationIEs.name then                                      -- iu_client.c:539-548, 770-779
      let m := errorIndicationIEs
      .errorInd (if isThere m s idCause then some (cause (member m s idCause)) else none)
    else if n = iu_ReleaseRequestIEs.name then                                    -- iu_client.c:614-619
      .iuReleaseReq (cause (member iu_ReleaseRequestIEs s idCause))
    else if n = rAB_AssignmentResponseIEs.name then                               -- iu_client.c:621-645
      let m := rAB_AssignmentResponseIEs
      .rabAssResp (if isThere m s 52 then some ((listOf (member m s 52)).map rabItem) else none)
    else if n = resetIEs.name then                                                -- iu_client.c:748-768
      let m := resetIEs
      .reset (num (member m s idCN_DomainIndicator))
        (if isThere m s idGlobalRNC_ID then some (grnc (member m s idGlobalRNC_ID)) else none)
    else .other

/-- `ranap_message`, as the client reads it (asn1tostruct.py:221-238). -/
def toMsg (m : Message) : Iu.Msg :=
  ⟨m.direction, m.procedureCode, match m.msg with | some x => body x | none => .other⟩

/-- The message handed to the handler by a receive function (ranap_common_cn.c:411-427, 659-675). -/
def handed (tr : List (Ev Message)) : Option Message :=
  tr.findSome? fun e => match e with | .call m => some m | _ => none

/-! ## From the arguments of the client to those of the generators -/

/-- `RANAP_Cause_t` (include/osmocom/ranap/RANAP_Cause.h:29-60). -/
def toCause : Iu.Cause → Factory.Cause
  | .nothing => ⟨0, 0⟩
  | .radioNetwork v => ⟨1, v⟩
  | .transmissionNetwork v => ⟨2, v⟩
  | .nAS v => ⟨3, v⟩
  | .protocol v => ⟨4, v⟩
  | .misc v => ⟨5, v⟩
  | .nonStandard v => ⟨6, v⟩
  | .radioNetworkExtension v => ⟨7, v⟩

/-- `RANAP_GlobalRNC_ID_t` (include/osmocom/ranap/RANAP_GlobalRNC-ID.h:24-30). -/
def toRncId (r : Iu.GRncId) : Factory.RncId := ⟨r.plmn, r.rncId⟩

/-- The generator the client calls for a message (iu_client.c:390, 410, 564, 590, 763, 830). -/
def gen : Iu.TxMsg → Res (Option Bytes)
  | .dt sapi nas => Factory.dt sapi nas
  | .iuRelCmd c => Factory.iuRelCmd (some (toCause c))
  | .secModCmd ik ck newKey => Factory.secModCmd (some ik) ck (if newKey then 1 else 0)
  | .commonId imsi => Factory.commonId imsi
  | .paging imsi tmsi isPs c => Factory.pagingCmd (some imsi) tmsi isPs (BitVec.ofNat 32 c)
  | .resetAck domain rnc => Factory.resetAck domain (rnc.map toRncId)
  | .raw data => .ok (some data)

/-- The client with the library below it: SCCP layer and user as given (ranap_common_cn.c:411-427, 659-675 called from iu_client.c:1152-1260). -/
def linked (env : Iu.Env) : Iu.Env :=
  { env with
    decodeCo := fun data => (handed (cnRxCo data Mem.init).2.trace).map toMsg
    decodeCl := fun data => (handed (cnRxCl data Mem.init).2.trace).map toMsg
    gen := gen }

end Verif.Linked
