import Verif.Model.Ie
import Verif.Gen.HnbapTypes

/-!
# Information elements of the HNBAP messages

The tables that `/repo/asn1/utils/asn1tostruct.py` (lines 135-160) extracts from
`/repo/asn1/hnbap/HNBAP-PDU-Contents.asn`, computed with the script's own regular expressions.  From each
table the script generates one structure and one encode, decode and free function.
-/

namespace Verif.Gen.Hnbap
open Verif.Ie

/-- `HNBRegisterRequestIEs`, asn1/hnbap/HNBAP-PDU-Contents.asn:135 -/
def hNBRegisterRequestIEs : MsgDef where
  name := "HNBRegisterRequestIEs"
  ty := HNBAP_HNBRegisterRequest
  ies := [
    ⟨"id-HNB-Identity", 3, 0, HNBAP_HNB_Identity, false⟩,
    ⟨"id-HNB-Location-Information", 8, 0, HNBAP_HNB_Location_Information, false⟩,
    ⟨"id-PLMNidentity", 9, 0, HNBAP_PLMNidentity, false⟩,
    ⟨"id-CellIdentity", 11, 0, HNBAP_CellIdentity, false⟩,
    ⟨"id-LAC", 6, 0, HNBAP_LAC, false⟩,
    ⟨"id-RAC", 7, 0, HNBAP_RAC, false⟩,
    ⟨"id-SAC", 10, 0, HNBAP_SAC, false⟩,
    ⟨"id-CSG-ID", 15, 0, HNBAP_CSG_ID, true⟩]

/-- `HNBRegisterAcceptIEs`, asn1/hnbap/HNBAP-PDU-Contents.asn:172 -/
def hNBRegisterAcceptIEs : MsgDef where
  name := "HNBRegisterAcceptIEs"
  ty := HNBAP_HNBRegisterAccept
  ies := [
    ⟨"id-RNC-ID", 14, 0, HNBAP_RNC_ID, false⟩]

/-- `HNBRegisterRejectIEs`, asn1/hnbap/HNBAP-PDU-Contents.asn:197 -/
def hNBRegisterRejectIEs : MsgDef where
  name := "HNBRegisterRejectIEs"
  ty := HNBAP_HNBRegisterReject
  ies := [
    ⟨"id-Cause", 1, 1, HNBAP_Cause, false⟩,
    ⟨"id-CriticalityDiagnostics", 2, 1, HNBAP_CriticalityDiagnostics, true⟩,
    ⟨"id-BackoffTimer", 16, 0, HNBAP_BackoffTimer, true⟩]

/-- `HNBDe-RegisterIEs`, asn1/hnbap/HNBAP-PDU-Contents.asn:223 -/
def hNBDe_RegisterIEs : MsgDef where
  name := "HNBDe-RegisterIEs"
  ty := HNBAP_HNBDe_Register
  ies := [
    ⟨"id-Cause", 1, 1, HNBAP_Cause, false⟩,
    ⟨"id-BackoffTimer", 16, 0, HNBAP_BackoffTimer, true⟩]

/-- `UERegisterRequestIEs`, asn1/hnbap/HNBAP-PDU-Contents.asn:247 -/
def uERegisterRequestIEs : MsgDef where
  name := "UERegisterRequestIEs"
  ty := HNBAP_UERegisterRequest
  ies := [
    ⟨"id-UE-Identity", 5, 0, HNBAP_UE_Identity, false⟩,
    ⟨"id-Registration-Cause", 12, 1, HNBAP_Registration_Cause, false⟩,
    ⟨"id-UE-Capabilities", 13, 0, HNBAP_UE_Capabilities, false⟩]

/-- `UERegisterAcceptIEs`, asn1/hnbap/HNBAP-PDU-Contents.asn:270 -/
def uERegisterAcceptIEs : MsgDef where
  name := "UERegisterAcceptIEs"
  ty := HNBAP_UERegisterAccept
  ies := [
    ⟨"id-UE-Identity", 5, 0, HNBAP_UE_Identity, false⟩,
    ⟨"id-Context-ID", 4, 0, HNBAP_Context_ID, false⟩]

/-- `UERegisterRejectIEs`, asn1/hnbap/HNBAP-PDU-Contents.asn:294 -/
def uERegisterRejectIEs : MsgDef where
  name := "UERegisterRejectIEs"
  ty := HNBAP_UERegisterReject
  ies := [
    ⟨"id-UE-Identity", 5, 0, HNBAP_UE_Identity, false⟩,
    ⟨"id-Cause", 1, 1, HNBAP_Cause, false⟩,
    ⟨"id-CriticalityDiagnostics", 2, 1, HNBAP_CriticalityDiagnostics, true⟩]

/-- `UEDe-RegisterIEs`, asn1/hnbap/HNBAP-PDU-Contents.asn:318 -/
def uEDe_RegisterIEs : MsgDef where
  name := "UEDe-RegisterIEs"
  ty := HNBAP_UEDe_Register
  ies := [
    ⟨"id-Context-ID", 4, 0, HNBAP_Context_ID, false⟩,
    ⟨"id-Cause", 1, 1, HNBAP_Cause, false⟩]

/-- `CSGMembershipUpdateIEs`, asn1/hnbap/HNBAP-PDU-Contents.asn:340 -/
def cSGMembershipUpdateIEs : MsgDef where
  name := "CSGMembershipUpdateIEs"
  ty := HNBAP_CSGMembershipUpdate
  ies := [
    ⟨"id-Context-ID", 4, 0, HNBAP_Context_ID, false⟩,
    ⟨"id-CSGMembershipStatus", 21, 0, HNBAP_CSGMembershipStatus, false⟩]

/-- `TNLUpdateRequestIEs`, asn1/hnbap/HNBAP-PDU-Contents.asn:362 -/
def tNLUpdateRequestIEs : MsgDef where
  name := "TNLUpdateRequestIEs"
  ty := HNBAP_TNLUpdateRequest
  ies := [
    ⟨"id-Context-ID", 4, 0, HNBAP_Context_ID, false⟩,
    ⟨"id-RABList", 22, 0, HNBAP_RABList, false⟩,
    ⟨"id-Update-cause", 26, 0, HNBAP_Update_cause, false⟩]

/-- `TNLUpdateResponseIEs`, asn1/hnbap/HNBAP-PDU-Contents.asn:385 -/
def tNLUpdateResponseIEs : MsgDef where
  name := "TNLUpdateResponseIEs"
  ty := HNBAP_TNLUpdateResponse
  ies := [
    ⟨"id-Context-ID", 4, 0, HNBAP_Context_ID, false⟩]

/-- `TNLUpdateFailureIEs`, asn1/hnbap/HNBAP-PDU-Contents.asn:406 -/
def tNLUpdateFailureIEs : MsgDef where
  name := "TNLUpdateFailureIEs"
  ty := HNBAP_TNLUpdateFailure
  ies := [
    ⟨"id-Context-ID", 4, 0, HNBAP_Context_ID, false⟩,
    ⟨"id-Cause", 1, 1, HNBAP_Cause, false⟩,
    ⟨"id-CriticalityDiagnostics", 2, 1, HNBAP_CriticalityDiagnostics, true⟩]

/-- `HNBConfigTransferRequestIEs`, asn1/hnbap/HNBAP-PDU-Contents.asn:429 -/
def hNBConfigTransferRequestIEs : MsgDef where
  name := "HNBConfigTransferRequestIEs"
  ty := HNBAP_HNBConfigTransferRequest
  ies := [
    ⟨"id-NeighbourInfoRequestList", 28, 0, HNBAP_NeighbourInfoRequestList, false⟩]

/-- `HNBConfigTransferResponseIEs`, asn1/hnbap/HNBAP-PDU-Contents.asn:450 -/
def hNBConfigTransferResponseIEs : MsgDef where
  name := "HNBConfigTransferResponseIEs"
  ty := HNBAP_HNBConfigTransferResponse
  ies := [
    ⟨"id-NeighbourInfoList", 27, 0, HNBAP_NeighbourInfoList, false⟩]

/-- `RelocationCompleteIEs`, asn1/hnbap/HNBAP-PDU-Contents.asn:472 -/
def relocationCompleteIEs : MsgDef where
  name := "RelocationCompleteIEs"
  ty := HNBAP_RelocationComplete
  ies := [
    ⟨"id-Context-ID", 4, 1, HNBAP_Context_ID, false⟩]

/-- `ErrorIndicationIEs`, asn1/hnbap/HNBAP-PDU-Contents.asn:494 -/
def errorIndicationIEs : MsgDef where
  name := "ErrorIndicationIEs"
  ty := HNBAP_ErrorIndication
  ies := [
    ⟨"id-Cause", 1, 1, HNBAP_Cause, false⟩,
    ⟨"id-CriticalityDiagnostics", 2, 1, HNBAP_CriticalityDiagnostics, true⟩]

/-- `U-RNTIQueryRequestIEs`, asn1/hnbap/HNBAP-PDU-Contents.asn:531 -/
def u_RNTIQueryRequestIEs : MsgDef where
  name := "U-RNTIQueryRequestIEs"
  ty := HNBAP_U_RNTIQueryRequest
  ies := [
    ⟨"id-U-RNTI", 49, 0, HNBAP_U_RNTI, false⟩]

/-- `U-RNTIQueryResponseIEs`, asn1/hnbap/HNBAP-PDU-Contents.asn:552 -/
def u_RNTIQueryResponseIEs : MsgDef where
  name := "U-RNTIQueryResponseIEs"
  ty := HNBAP_U_RNTIQueryResponse
  ies := [
    ⟨"id-HNB-GWResponse", 51, 0, HNBAP_HNB_GWResponse, false⟩]

/-- All tables. -/
def all : List MsgDef :=
  [hNBRegisterRequestIEs,
   hNBRegisterAcceptIEs,
   hNBRegisterRejectIEs,
   hNBDe_RegisterIEs,
   uERegisterRequestIEs,
   uERegisterAcceptIEs,
   uERegisterRejectIEs,
   uEDe_RegisterIEs,
   cSGMembershipUpdateIEs,
   tNLUpdateRequestIEs,
   tNLUpdateResponseIEs,
   tNLUpdateFailureIEs,
   hNBConfigTransferRequestIEs,
   hNBConfigTransferResponseIEs,
   relocationCompleteIEs,
   errorIndicationIEs,
   u_RNTIQueryRequestIEs,
   u_RNTIQueryResponseIEs]

end Verif.Gen.Hnbap
