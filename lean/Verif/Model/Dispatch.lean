import Verif.Model.Ie
import Verif.Gen.RanapIes

/-!
# Receiving RANAP messages

`ranap_cn_rx_co`, `ranap_cn_rx_cl` (`/repo/src/ranap_common_cn.c`) and `ranap_ran_rx_co`
(`/repo/src/ranap_common_ran.c`) with the functions they consist of.  The tables of the `switch`
statements were extracted by script; the decoding and the freeing functions have separate tables,
as in the code.
-/

namespace Verif.Rx
open Verif.Aper Verif.Ie Verif.Gen.Ranap

/-- The cases of `cn_ranap_rx_initiating_msg_co` (ranap_common_cn.c:34-98). -/
def cnCoRxInitiating : List (Nat × MsgDef) := [
  (19 /- id_InitialUE_Message -/, initialUE_MessageIEs),
  (20 /- id_DirectTransfer -/, directTransferIEs),
  (10 /- id_RAB_ReleaseRequest -/, rAB_ReleaseRequestIEs),
  (11 /- id_Iu_ReleaseRequest -/, iu_ReleaseRequestIEs),
  (22 /- id_ErrorIndication -/, errorIndicationIEs),
  (29 /- id_RAB_ModifyRequest -/, rAB_ModifyRequestIEs),
  (6 /- id_SecurityModeControl -/, securityModeCommandIEs),
  (1 /- id_Iu_Release -/, iu_ReleaseCommandIEs),
  (2 /- id_RelocationPreparation -/, relocationRequiredIEs),
  (4 /- id_RelocationCancel -/, relocationCancelIEs),
  (24 /- id_ForwardSRNS_Context -/, forwardSRNS_ContextIEs),
  (18 /- id_LocationReport -/, locationReportIEs)]

/-- The cases of `cn_ranap_free_initiating_msg_co` (ranap_common_cn.c:100-153). -/
def cnCoFreeInitiating : List (Nat × MsgDef) := [
  (19 /- id_InitialUE_Message -/, initialUE_MessageIEs),
  (20 /- id_DirectTransfer -/, directTransferIEs),
  (10 /- id_RAB_ReleaseRequest -/, rAB_ReleaseRequestIEs),
  (11 /- id_Iu_ReleaseRequest -/, iu_ReleaseRequestIEs),
  (22 /- id_ErrorIndication -/, errorIndicationIEs),
  (29 /- id_RAB_ModifyRequest -/, rAB_ModifyRequestIEs),
  (6 /- id_SecurityModeControl -/, securityModeCommandIEs),
  (1 /- id_Iu_Release -/, iu_ReleaseCommandIEs),
  (2 /- id_RelocationPreparation -/, relocationRequiredIEs),
  (4 /- id_RelocationCancel -/, relocationCancelIEs),
  (24 /- id_ForwardSRNS_Context -/, forwardSRNS_ContextIEs),
  (18 /- id_LocationReport -/, locationReportIEs)]

/-- The cases of `cn_ranap_rx_successful_msg_co` (ranap_common_cn.c:155-199). -/
def cnCoRxSuccessful : List (Nat × MsgDef) := [
  (0 /- id_RAB_Assignment -/, rAB_AssignmentResponseIEs),
  (1 /- id_Iu_Release -/, iu_ReleaseCompleteIEs),
  (3 /- id_RelocationResourceAllocation -/, relocationRequestAcknowledgeIEs),
  (5 /- id_SRNS_ContextTransfer -/, sRNS_ContextResponseIEs),
  (6 /- id_SecurityModeControl -/, securityModeCompleteIEs),
  (7 /- id_DataVolumeReport -/, dataVolumeReportIEs),
  (30 /- id_LocationRelatedData -/, locationRelatedDataResponseIEs)]

/-- The cases of `cn_ranap_free_successful_msg_co` (ranap_common_cn.c:201-234). -/
def cnCoFreeSuccessful : List (Nat × MsgDef) := [
  (0 /- id_RAB_Assignment -/, rAB_AssignmentResponseIEs),
  (1 /- id_Iu_Release -/, iu_ReleaseCompleteIEs),
  (3 /- id_RelocationResourceAllocation -/, relocationRequestAcknowledgeIEs),
  (5 /- id_SRNS_ContextTransfer -/, sRNS_ContextResponseIEs),
  (6 /- id_SecurityModeControl -/, securityModeCompleteIEs),
  (7 /- id_DataVolumeReport -/, dataVolumeReportIEs),
  (30 /- id_LocationRelatedData -/, locationRelatedDataResponseIEs)]

/-- The cases of `cn_ranap_rx_outcome_msg_co` (ranap_common_cn.c:236-260). -/
def cnCoRxOutcome : List (Nat × MsgDef) := [
  (0 /- id_RAB_Assignment -/, rAB_AssignmentResponseIEs)]

/-- The cases of `cn_ranap_free_outcome_msg_co` (ranap_common_cn.c:262-275). -/
def cnCoFreeOutcome : List (Nat × MsgDef) := [
  (0 /- id_RAB_Assignment -/, rAB_AssignmentResponseIEs)]

/-- The cases of `cn_ranap_rx_unsuccessful_msg_co` (ranap_common_cn.c:277-305). -/
def cnCoRxUnsuccessful : List (Nat × MsgDef) := [
  (3 /- id_RelocationResourceAllocation -/, relocationFailureIEs),
  (6 /- id_SecurityModeControl -/, securityModeRejectIEs),
  (30 /- id_LocationRelatedData -/, locationRelatedDataFailureIEs)]

/-- The cases of `cn_ranap_free_unsuccessful_msg_co` (ranap_common_cn.c:307-324). -/
def cnCoFreeUnsuccessful : List (Nat × MsgDef) := [
  (3 /- id_RelocationResourceAllocation -/, relocationFailureIEs),
  (6 /- id_SecurityModeControl -/, securityModeRejectIEs),
  (30 /- id_LocationRelatedData -/, locationRelatedDataFailureIEs)]

/-- The cases of `cn_ranap_rx_initiating_msg_cl` (ranap_common_cn.c:429-474). -/
def cnClRxInitiating : List (Nat × MsgDef) := [
  (9 /- id_Reset -/, resetIEs),
  (21 /- id_OverloadControl -/, overloadIEs),
  (22 /- id_ErrorIndication -/, errorIndicationIEs),
  (27 /- id_ResetResource -/, resetResourceIEs),
  (31 /- id_InformationTransfer -/, informationTransferIndicationIEs),
  (34 /- id_DirectInformationTransfer -/, directInformationTransferIEs),
  (33 /- id_UplinkInformationExchange -/, uplinkInformationExchangeRequestIEs),
  (14 /- id_Paging -/, pagingIEs)]

/-- The cases of `cn_ranap_free_initiating_msg_cl` (ranap_common_cn.c:476-512). -/
def cnClFreeInitiating : List (Nat × MsgDef) := [
  (9 /- id_Reset -/, resetIEs),
  (21 /- id_OverloadControl -/, overloadIEs),
  (22 /- id_ErrorIndication -/, errorIndicationIEs),
  (27 /- id_ResetResource -/, resetResourceIEs),
  (31 /- id_InformationTransfer -/, informationTransferIndicationIEs),
  (34 /- id_DirectInformationTransfer -/, directInformationTransferIEs),
  (33 /- id_UplinkInformationExchange -/, uplinkInformationExchangeRequestIEs),
  (14 /- id_Paging -/, pagingIEs)]

/-- The cases of `cn_ranap_rx_successful_msg_cl` (ranap_common_cn.c:514-548). -/
def cnClRxSuccessful : List (Nat × MsgDef) := [
  (9 /- id_Reset -/, resetAcknowledgeIEs),
  (27 /- id_ResetResource -/, resetResourceAcknowledgeIEs),
  (31 /- id_InformationTransfer -/, resetResourceAcknowledgeIEs),
  (34 /- id_DirectInformationTransfer -/, informationTransferConfirmationIEs),
  (33 /- id_UplinkInformationExchange -/, uplinkInformationExchangeResponseIEs)]

/-- The cases of `cn_ranap_free_successful_msg_cl` (ranap_common_cn.c:550-574). -/
def cnClFreeSuccessful : List (Nat × MsgDef) := [
  (9 /- id_Reset -/, resetAcknowledgeIEs),
  (27 /- id_ResetResource -/, resetResourceAcknowledgeIEs),
  (31 /- id_InformationTransfer -/, resetResourceAcknowledgeIEs),
  (34 /- id_DirectInformationTransfer -/, informationTransferConfirmationIEs),
  (33 /- id_UplinkInformationExchange -/, uplinkInformationExchangeResponseIEs)]

/-- The cases of `ran_ranap_rx_initiating_msg_co` (ranap_common_ran.c:36-100). -/
def ranCoRxInitiating : List (Nat × MsgDef) := [
  (0 /- id_RAB_Assignment -/, rAB_AssignmentRequestIEs),
  (20 /- id_DirectTransfer -/, directTransferIEs),
  (22 /- id_ErrorIndication -/, errorIndicationIEs),
  (1 /- id_Iu_Release -/, iu_ReleaseCommandIEs),
  (3 /- id_RelocationResourceAllocation -/, relocationRequestIEs),
  (5 /- id_SRNS_ContextTransfer -/, sRNS_ContextRequestIEs),
  (23 /- id_SRNS_DataForward -/, sRNS_DataForwardCommandIEs),
  (24 /- id_ForwardSRNS_Context -/, forwardSRNS_ContextIEs),
  (15 /- id_CommonID -/, commonID_IEs),
  (16 /- id_CN_InvokeTrace -/, cN_InvokeTraceIEs),
  (6 /- id_SecurityModeControl -/, securityModeCommandIEs),
  (17 /- id_LocationReportingControl -/, locationReportingControlIEs),
  (7 /- id_DataVolumeReport -/, dataVolumeReportRequestIEs),
  (26 /- id_CN_DeactivateTrace -/, cN_DeactivateTraceIEs),
  (30 /- id_LocationRelatedData -/, locationRelatedDataRequestIEs)]

/-- The cases of `ran_ranap_free_initiating_msg_co` (ranap_common_ran.c:102-156). -/
def ranCoFreeInitiating : List (Nat × MsgDef) := [
  (0 /- id_RAB_Assignment -/, rAB_AssignmentRequestIEs),
  (20 /- id_DirectTransfer -/, directTransferIEs),
  (22 /- id_ErrorIndication -/, errorIndicationIEs),
  (1 /- id_Iu_Release -/, iu_ReleaseCommandIEs),
  (3 /- id_RelocationResourceAllocation -/, relocationRequestIEs),
  (5 /- id_SRNS_ContextTransfer -/, sRNS_ContextRequestIEs),
  (23 /- id_SRNS_DataForward -/, sRNS_DataForwardCommandIEs),
  (24 /- id_ForwardSRNS_Context -/, forwardSRNS_ContextIEs),
  (15 /- id_CommonID -/, commonID_IEs),
  (16 /- id_CN_InvokeTrace -/, cN_InvokeTraceIEs),
  (6 /- id_SecurityModeControl -/, securityModeCommandIEs),
  (17 /- id_LocationReportingControl -/, locationReportingControlIEs),
  (7 /- id_DataVolumeReport -/, dataVolumeReportRequestIEs),
  (26 /- id_CN_DeactivateTrace -/, cN_DeactivateTraceIEs),
  (30 /- id_LocationRelatedData -/, locationRelatedDataRequestIEs)]

/-- The cases of `ran_ranap_rx_successful_msg_co` (ranap_common_ran.c:158-180). -/
def ranCoRxSuccessful : List (Nat × MsgDef) := [
  (2 /- id_RelocationPreparation -/, relocationCommandIEs)]

/-- The cases of `ran_ranap_free_successful_msg_co` (ranap_common_ran.c:182-194). -/
def ranCoFreeSuccessful : List (Nat × MsgDef) := [
  (2 /- id_RelocationPreparation -/, relocationCommandIEs)]

/-- The cases of `ran_ranap_rx_unsuccessful_msg_co` (ranap_common_ran.c:196-219). -/
def ranCoRxUnsuccessful : List (Nat × MsgDef) := [
  (2 /- id_RelocationPreparation -/, relocationPreparationFailureIEs)]

/-- The cases of `ran_ranap_free_unsuccessful_msg_co` (ranap_common_ran.c:221-233). -/
def ranCoFreeUnsuccessful : List (Nat × MsgDef) := [
  (2 /- id_RelocationPreparation -/, relocationPreparationFailureIEs)]


/-! ## The functions -/

/-- `ranap_message` (include/osmocom/ranap/ranap_ies_defs.h): of the union, which member was filled
and with what; `none` is zeroed memory. (Written by asn1tostruct.py:221-238.) -/
structure Message where
  direction : Nat
  procedureCode : Nat
  criticality : Nat
  msg : Option (String × Struct)

/-- `memset(message, 0, sizeof(*message))`. -/
def Message.zero : Message := ⟨0, 0, 0, none⟩

/-- What `aper_decode` of `RANAP_RANAP_PDU` yields: `present` (1 initiating message, 2 successful
outcome, 3 unsuccessful outcome, 4 outcome), procedure code, criticality and value
(src/ranap/RANAP_RANAP-PDU.c; the four alternatives have the same layout). -/
def decodePdu (data : Bytes) : Option (Nat × Nat × Nat × Bytes) :=
  match decode RANAP_RANAP_PDU data with
  | some (.choice i (.seq [some (.int pc), some (.enum crit), some (.octets value)])) =>
    some (i + 1, pc.toNat, crit, value)
  | _ => none

/-- A switch on `present` and, inside, on the procedure code.  `none`: the alternative is not looked
into. (E.g. ranap_common_cn.c:326-352.) -/
def Switch := Nat → Option (List (Nat × MsgDef))

/-- `_cn_ranap_rx_co` (ranap_common_cn.c:326-352). -/
def cnCoRx : Switch
  | 1 => some cnCoRxInitiating
  | 2 => some cnCoRxSuccessful
  | 3 => some cnCoRxUnsuccessful
  | 4 => some cnCoRxOutcome
  | _ => none

/-- `ranap_cn_rx_co_free` (ranap_common_cn.c:355-376). -/
def cnCoFree : Switch
  | 1 => some cnCoFreeInitiating
  | 2 => some cnCoFreeSuccessful
  | 3 => some cnCoFreeUnsuccessful
  | 4 => some cnCoFreeOutcome
  | _ => none

/-- `_cn_ranap_rx_cl` (ranap_common_cn.c:576-603). -/
def cnClRx : Switch
  | 1 => some cnClRxInitiating
  | 2 => some cnClRxSuccessful
  | _ => none

/-- `ranap_cn_rx_cl_free` (ranap_common_cn.c:606-624). -/
def cnClFree : Switch
  | 1 => some cnClFreeInitiating
  | 2 => some cnClFreeSuccessful
  | _ => none

/-- `_ran_ranap_rx_co` (ranap_common_ran.c:235-264). -/
def ranCoRx : Switch
  | 1 => some ranCoRxInitiating
  | 2 => some ranCoRxSuccessful
  | 3 => some ranCoRxUnsuccessful
  | _ => none

/-- `ranap_ran_rx_co_free` (ranap_common_ran.c:267-289). -/
def ranCoFree : Switch
  | 1 => some ranCoFreeInitiating
  | 2 => some ranCoFreeSuccessful
  | 3 => some ranCoFreeUnsuccessful
  | _ => none

/-- `*_rx_*_decode2` (ranap_common_cn.c:379-402, 627-650; ranap_common_ran.c:292-316): `dflt` is the
return code of the `default` cases.  What a failing `aper_decode` allocated is freed again in the
same call and not part of the trace. -/
def decode2 (sw : Switch) (dflt : Int) (data : Bytes) (μ : Mem Message) : (Int × Message) × Mem Message :=
  match decodePdu data with
  | none => ((-1, Message.zero), μ)
  | some (present, pc, crit, value) =>
    let (b, μ) := μ.alloc true
    let (r, μ) : (Int × Message) × Mem Message := match sw present with
      | none => ((dflt, { Message.zero with direction := present }), μ)
      | some cases => match cases.lookup pc with
        | none => ((dflt, ⟨present, pc, crit, none⟩), μ)
        | some m =>
          let ((rc, s), μ) := decodeIes m value μ
          ((rc, ⟨present, pc, crit, some (m.name, s)⟩), μ)
    (r, μ.free b)

/-- `*_rx_*_free`.  The free function of a message is applied to the union; if another member was
filled, that is `Ev.bad`.  On zeroed memory it does nothing (ranap_common_cn.c:355-376, 606-624; ranap_common_ran.c:267-289). -/
def freeMsg (sw : Switch) (msg : Message) (μ : Mem Message) : Mem Message :=
  match sw msg.direction with
  | none => μ
  | some cases => match cases.lookup msg.procedureCode with
    | none => μ
    | some m => match msg.msg with
      | none => μ
      | some (n, s) => if n = m.name then freeIes m s μ else μ.emit .bad

/-- `ranap_cn_rx_co` (ranap_common_cn.c:411-427); the handler is the event `call`.  It is assumed not
to change the message. -/
def cnRxCo (data : Bytes) (μ : Mem Message) : Int × Mem Message :=
  let ((rc, msg), μ) := decode2 cnCoRx (-1) data μ
  if rc ≠ 0 then (rc, μ)
  else (0, freeMsg cnCoFree msg (μ.emit (.call msg)))

/-- `ranap_cn_rx_cl` (ranap_common_cn.c:659-675). -/
def cnRxCl (data : Bytes) (μ : Mem Message) : Int × Mem Message :=
  let ((rc, msg), μ) := decode2 cnClRx 0 data μ
  let μ := if rc = 0 then μ.emit (.call msg) else μ
  (rc, freeMsg cnClFree msg μ)

/-- `ranap_ran_rx_co` (ranap_common_ran.c:324-340). -/
def ranRxCo (data : Bytes) (μ : Mem Message) : Int × Mem Message :=
  let ((rc, msg), μ) := decode2 ranCoRx (-1) data μ
  let μ := if rc = 0 then μ.emit (.call msg) else μ
  (rc, freeMsg ranCoFree msg μ)

end Verif.Rx
