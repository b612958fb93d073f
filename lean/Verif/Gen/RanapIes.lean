import Verif.Model.Ie
import Verif.Gen.RanapTypes

/-!
# Information elements of the RANAP messages

The tables that `/repo/asn1/utils/asn1tostruct.py` (lines 135-160) extracts from
`/repo/asn1/ranap/RANAP-PDU-Contents.asn`, computed with the script's own regular expressions.  From each
table the script generates one structure and one encode, decode and free function.
-/

namespace Verif.Gen.Ranap
open Verif.Ie

/-- `Iu-ReleaseCommandIEs`, asn1/ranap/RANAP-PDU-Contents.asn:452 -/
def iu_ReleaseCommandIEs : MsgDef where
  name := "Iu-ReleaseCommandIEs"
  ty := RANAP_Iu_ReleaseCommand
  ies := [
    ⟨"id-Cause", 4, 1, RANAP_Cause, false⟩]

/-- `Iu-ReleaseCompleteIEs`, asn1/ranap/RANAP-PDU-Contents.asn:476 -/
def iu_ReleaseCompleteIEs : MsgDef where
  name := "Iu-ReleaseCompleteIEs"
  ty := RANAP_Iu_ReleaseComplete
  ies := [
    ⟨"id-RAB-DataVolumeReportList", 31, 1, RANAP_RAB_DataVolumeReportList, true⟩,
    ⟨"id-RAB-ReleasedList-IuRelComp", 44, 1, RANAP_RAB_ReleasedList_IuRelComp, true⟩,
    ⟨"id-CriticalityDiagnostics", 9, 1, RANAP_CriticalityDiagnostics, true⟩]

/-- `RAB-DataVolumeReportItemIEs`, asn1/ranap/RANAP-PDU-Contents.asn:485 -/
def rAB_DataVolumeReportItemIEs : MsgDef where
  name := "RAB-DataVolumeReportItemIEs"
  ty := RANAP_RAB_DataVolumeReportList
  ies := [
    ⟨"id-RAB-DataVolumeReportItem", 30, 1, RANAP_RAB_DataVolumeReportItem, false⟩]

/-- `RAB-ReleasedItem-IuRelComp-IEs`, asn1/ranap/RANAP-PDU-Contents.asn:504 -/
def rAB_ReleasedItem_IuRelComp_IEs : MsgDef where
  name := "RAB-ReleasedItem-IuRelComp-IEs"
  ty := RANAP_RAB_ReleasedList_IuRelComp
  ies := [
    ⟨"id-RAB-ReleasedItem-IuRelComp", 87, 1, RANAP_RAB_ReleasedItem_IuRelComp, false⟩]

/-- `RelocationRequiredIEs`, asn1/ranap/RANAP-PDU-Contents.asn:544 -/
def relocationRequiredIEs : MsgDef where
  name := "RelocationRequiredIEs"
  ty := RANAP_RelocationRequired
  ies := [
    ⟨"id-RelocationType", 56, 0, RANAP_RelocationType, false⟩,
    ⟨"id-Cause", 4, 1, RANAP_Cause, false⟩,
    ⟨"id-SourceID", 60, 1, RANAP_SourceID, false⟩,
    ⟨"id-TargetID", 62, 0, RANAP_TargetID, false⟩,
    ⟨"id-OldBSS-ToNewBSS-Information", 20, 1, RANAP_OldBSS_ToNewBSS_Information, true⟩]

/-- `RelocationCommandIEs`, asn1/ranap/RANAP-PDU-Contents.asn:587 -/
def relocationCommandIEs : MsgDef where
  name := "RelocationCommandIEs"
  ty := RANAP_RelocationCommand
  ies := [
    ⟨"id-L3-Information", 14, 1, RANAP_L3_Information, true⟩,
    ⟨"id-RAB-RelocationReleaseList", 46, 1, RANAP_RAB_RelocationReleaseList, true⟩,
    ⟨"id-RAB-DataForwardingList", 28, 1, RANAP_RAB_DataForwardingList, true⟩,
    ⟨"id-CriticalityDiagnostics", 9, 1, RANAP_CriticalityDiagnostics, true⟩]

/-- `RAB-RelocationReleaseItemIEs`, asn1/ranap/RANAP-PDU-Contents.asn:599 -/
def rAB_RelocationReleaseItemIEs : MsgDef where
  name := "RAB-RelocationReleaseItemIEs"
  ty := RANAP_RAB_RelocationReleaseList
  ies := [
    ⟨"id-RAB-RelocationReleaseItem", 45, 1, RANAP_RAB_RelocationReleaseItem, false⟩]

/-- `RAB-DataForwardingItemIEs`, asn1/ranap/RANAP-PDU-Contents.asn:616 -/
def rAB_DataForwardingItemIEs : MsgDef where
  name := "RAB-DataForwardingItemIEs"
  ty := RANAP_RAB_DataForwardingList
  ies := [
    ⟨"id-RAB-DataForwardingItem", 26, 1, RANAP_RAB_DataForwardingItem, false⟩]

/-- `RelocationPreparationFailureIEs`, asn1/ranap/RANAP-PDU-Contents.asn:660 -/
def relocationPreparationFailureIEs : MsgDef where
  name := "RelocationPreparationFailureIEs"
  ty := RANAP_RelocationPreparationFailure
  ies := [
    ⟨"id-Cause", 4, 1, RANAP_Cause, false⟩,
    ⟨"id-CriticalityDiagnostics", 9, 1, RANAP_CriticalityDiagnostics, true⟩]

/-- `RelocationRequestIEs`, asn1/ranap/RANAP-PDU-Contents.asn:690 -/
def relocationRequestIEs : MsgDef where
  name := "RelocationRequestIEs"
  ty := RANAP_RelocationRequest
  ies := [
    ⟨"id-PermanentNAS-UE-ID", 23, 1, RANAP_PermanentNAS_UE_ID, true⟩,
    ⟨"id-Cause", 4, 1, RANAP_Cause, false⟩,
    ⟨"id-CN-DomainIndicator", 3, 0, RANAP_CN_DomainIndicator, false⟩,
    ⟨"id-Source-ToTarget-TransparentContainer", 61, 0, RANAP_SourceRNC_ToTargetRNC_TransparentContainer, false⟩,
    ⟨"id-RAB-SetupList-RelocReq", 49, 0, RANAP_RAB_SetupList_RelocReq, true⟩,
    ⟨"id-IntegrityProtectionInformation", 12, 1, RANAP_IntegrityProtectionInformation, true⟩,
    ⟨"id-EncryptionInformation", 11, 1, RANAP_EncryptionInformation, true⟩,
    ⟨"id-IuSigConId", 79, 1, RANAP_IuSignallingConnectionIdentifier, false⟩]

/-- `RAB-SetupItem-RelocReq-IEs`, asn1/ranap/RANAP-PDU-Contents.asn:704 -/
def rAB_SetupItem_RelocReq_IEs : MsgDef where
  name := "RAB-SetupItem-RelocReq-IEs"
  ty := RANAP_RAB_SetupList_RelocReq
  ies := [
    ⟨"id-RAB-SetupItem-RelocReq", 47, 0, RANAP_RAB_SetupItem_RelocReq, false⟩]

/-- `RelocationRequestAcknowledgeIEs`, asn1/ranap/RANAP-PDU-Contents.asn:808 -/
def relocationRequestAcknowledgeIEs : MsgDef where
  name := "RelocationRequestAcknowledgeIEs"
  ty := RANAP_RelocationRequestAcknowledge
  ies := [
    ⟨"id-Target-ToSource-TransparentContainer", 63, 1, RANAP_TargetRNC_ToSourceRNC_TransparentContainer, true⟩,
    ⟨"id-RAB-SetupList-RelocReqAck", 50, 1, RANAP_RAB_SetupList_RelocReqAck, true⟩,
    ⟨"id-RAB-FailedList", 35, 1, RANAP_RAB_FailedList, true⟩,
    ⟨"id-ChosenIntegrityProtectionAlgorithm", 6, 1, RANAP_ChosenIntegrityProtectionAlgorithm, true⟩,
    ⟨"id-ChosenEncryptionAlgorithm", 5, 1, RANAP_ChosenEncryptionAlgorithm, true⟩,
    ⟨"id-CriticalityDiagnostics", 9, 1, RANAP_CriticalityDiagnostics, true⟩]

/-- `RAB-SetupItem-RelocReqAck-IEs`, asn1/ranap/RANAP-PDU-Contents.asn:820 -/
def rAB_SetupItem_RelocReqAck_IEs : MsgDef where
  name := "RAB-SetupItem-RelocReqAck-IEs"
  ty := RANAP_RAB_SetupList_RelocReqAck
  ies := [
    ⟨"id-RAB-SetupItem-RelocReqAck", 48, 0, RANAP_RAB_SetupItem_RelocReqAck, false⟩]

/-- `RAB-FailedItemIEs`, asn1/ranap/RANAP-PDU-Contents.asn:844 -/
def rAB_FailedItemIEs : MsgDef where
  name := "RAB-FailedItemIEs"
  ty := RANAP_RAB_FailedList
  ies := [
    ⟨"id-RAB-FailedItem", 34, 1, RANAP_RAB_FailedItem, false⟩]

/-- `RelocationFailureIEs`, asn1/ranap/RANAP-PDU-Contents.asn:879 -/
def relocationFailureIEs : MsgDef where
  name := "RelocationFailureIEs"
  ty := RANAP_RelocationFailure
  ies := [
    ⟨"id-Cause", 4, 1, RANAP_Cause, false⟩,
    ⟨"id-CriticalityDiagnostics", 9, 1, RANAP_CriticalityDiagnostics, true⟩]

/-- `RelocationCancelIEs`, asn1/ranap/RANAP-PDU-Contents.asn:911 -/
def relocationCancelIEs : MsgDef where
  name := "RelocationCancelIEs"
  ty := RANAP_RelocationCancel
  ies := [
    ⟨"id-Cause", 4, 1, RANAP_Cause, false⟩]

/-- `RelocationCancelAcknowledgeIEs`, asn1/ranap/RANAP-PDU-Contents.asn:932 -/
def relocationCancelAcknowledgeIEs : MsgDef where
  name := "RelocationCancelAcknowledgeIEs"
  ty := RANAP_RelocationCancelAcknowledge
  ies := [
    ⟨"id-CriticalityDiagnostics", 9, 1, RANAP_CriticalityDiagnostics, true⟩]

/-- `SRNS-ContextRequestIEs`, asn1/ranap/RANAP-PDU-Contents.asn:959 -/
def sRNS_ContextRequestIEs : MsgDef where
  name := "SRNS-ContextRequestIEs"
  ty := RANAP_SRNS_ContextRequest
  ies := [
    ⟨"id-RAB-DataForwardingList-SRNS-CtxReq", 29, 1, RANAP_RAB_DataForwardingList_SRNS_CtxReq, false⟩]

/-- `RAB-DataForwardingItem-SRNS-CtxReq-IEs`, asn1/ranap/RANAP-PDU-Contents.asn:966 -/
def rAB_DataForwardingItem_SRNS_CtxReq_IEs : MsgDef where
  name := "RAB-DataForwardingItem-SRNS-CtxReq-IEs"
  ty := RANAP_RAB_DataForwardingList_SRNS_CtxReq
  ies := [
    ⟨"id-RAB-DataForwardingItem-SRNS-CtxReq", 27, 0, RANAP_RAB_DataForwardingItem_SRNS_CtxReq, false⟩]

/-- `SRNS-ContextResponseIEs`, asn1/ranap/RANAP-PDU-Contents.asn:999 -/
def sRNS_ContextResponseIEs : MsgDef where
  name := "SRNS-ContextResponseIEs"
  ty := RANAP_SRNS_ContextResponse
  ies := [
    ⟨"id-RAB-ContextList", 25, 1, RANAP_RAB_ContextList, true⟩,
    ⟨"id-RAB-ContextFailedtoTransferList", 85, 1, RANAP_RABs_ContextFailedtoTransferList, true⟩,
    ⟨"id-CriticalityDiagnostics", 9, 1, RANAP_CriticalityDiagnostics, true⟩]

/-- `RAB-ContextItemIEs`, asn1/ranap/RANAP-PDU-Contents.asn:1008 -/
def rAB_ContextItemIEs : MsgDef where
  name := "RAB-ContextItemIEs"
  ty := RANAP_RAB_ContextList
  ies := [
    ⟨"id-RAB-ContextItem", 24, 1, RANAP_RAB_ContextItem, false⟩]

/-- `RABs-ContextFailedtoTransferItemIEs`, asn1/ranap/RANAP-PDU-Contents.asn:1029 -/
def rABs_ContextFailedtoTransferItemIEs : MsgDef where
  name := "RABs-ContextFailedtoTransferItemIEs"
  ty := RANAP_RABs_ContextFailedtoTransferList
  ies := [
    ⟨"id-RAB-ContextFailedtoTransferItem", 84, 1, RANAP_RABs_ContextFailedtoTransferItem, false⟩]

/-- `SecurityModeCommandIEs`, asn1/ranap/RANAP-PDU-Contents.asn:1068 -/
def securityModeCommandIEs : MsgDef where
  name := "SecurityModeCommandIEs"
  ty := RANAP_SecurityModeCommand
  ies := [
    ⟨"id-IntegrityProtectionInformation", 12, 0, RANAP_IntegrityProtectionInformation, false⟩,
    ⟨"id-EncryptionInformation", 11, 1, RANAP_EncryptionInformation, true⟩,
    ⟨"id-KeyStatus", 75, 0, RANAP_KeyStatus, false⟩]

/-- `SecurityModeCompleteIEs`, asn1/ranap/RANAP-PDU-Contents.asn:1091 -/
def securityModeCompleteIEs : MsgDef where
  name := "SecurityModeCompleteIEs"
  ty := RANAP_SecurityModeComplete
  ies := [
    ⟨"id-ChosenIntegrityProtectionAlgorithm", 6, 0, RANAP_ChosenIntegrityProtectionAlgorithm, false⟩,
    ⟨"id-ChosenEncryptionAlgorithm", 5, 1, RANAP_ChosenEncryptionAlgorithm, true⟩,
    ⟨"id-CriticalityDiagnostics", 9, 1, RANAP_CriticalityDiagnostics, true⟩]

/-- `SecurityModeRejectIEs`, asn1/ranap/RANAP-PDU-Contents.asn:1114 -/
def securityModeRejectIEs : MsgDef where
  name := "SecurityModeRejectIEs"
  ty := RANAP_SecurityModeReject
  ies := [
    ⟨"id-Cause", 4, 1, RANAP_Cause, false⟩,
    ⟨"id-CriticalityDiagnostics", 9, 1, RANAP_CriticalityDiagnostics, true⟩]

/-- `DataVolumeReportRequestIEs`, asn1/ranap/RANAP-PDU-Contents.asn:1142 -/
def dataVolumeReportRequestIEs : MsgDef where
  name := "DataVolumeReportRequestIEs"
  ty := RANAP_DataVolumeReportRequest
  ies := [
    ⟨"id-RAB-DataVolumeReportRequestList", 33, 1, RANAP_RAB_DataVolumeReportRequestList, false⟩]

/-- `RAB-DataVolumeReportRequestItemIEs`, asn1/ranap/RANAP-PDU-Contents.asn:1149 -/
def rAB_DataVolumeReportRequestItemIEs : MsgDef where
  name := "RAB-DataVolumeReportRequestItemIEs"
  ty := RANAP_RAB_DataVolumeReportRequestList
  ies := [
    ⟨"id-RAB-DataVolumeReportRequestItem", 32, 0, RANAP_RAB_DataVolumeReportRequestItem, false⟩]

/-- `DataVolumeReportIEs`, asn1/ranap/RANAP-PDU-Contents.asn:1180 -/
def dataVolumeReportIEs : MsgDef where
  name := "DataVolumeReportIEs"
  ty := RANAP_DataVolumeReport
  ies := [
    ⟨"id-RAB-DataVolumeReportList", 31, 1, RANAP_RAB_DataVolumeReportList, true⟩,
    ⟨"id-RAB-FailedtoReportList", 72, 1, RANAP_RABs_failed_to_reportList, true⟩,
    ⟨"id-CriticalityDiagnostics", 9, 1, RANAP_CriticalityDiagnostics, true⟩]

/-- `RABs-failed-to-reportItemIEs`, asn1/ranap/RANAP-PDU-Contents.asn:1193 -/
def rABs_failed_to_reportItemIEs : MsgDef where
  name := "RABs-failed-to-reportItemIEs"
  ty := RANAP_RABs_failed_to_reportList
  ies := [
    ⟨"id-RAB-FailedtoReportItem", 71, 1, RANAP_RABs_failed_to_reportItem, false⟩]

/-- `ResetIEs`, asn1/ranap/RANAP-PDU-Contents.asn:1229 -/
def resetIEs : MsgDef where
  name := "ResetIEs"
  ty := RANAP_Reset
  ies := [
    ⟨"id-Cause", 4, 1, RANAP_Cause, false⟩,
    ⟨"id-CN-DomainIndicator", 3, 0, RANAP_CN_DomainIndicator, false⟩,
    ⟨"id-GlobalRNC-ID", 86, 1, RANAP_GlobalRNC_ID, true⟩]

/-- `ResetAcknowledgeIEs`, asn1/ranap/RANAP-PDU-Contents.asn:1256 -/
def resetAcknowledgeIEs : MsgDef where
  name := "ResetAcknowledgeIEs"
  ty := RANAP_ResetAcknowledge
  ies := [
    ⟨"id-CN-DomainIndicator", 3, 0, RANAP_CN_DomainIndicator, false⟩,
    ⟨"id-CriticalityDiagnostics", 9, 1, RANAP_CriticalityDiagnostics, true⟩,
    ⟨"id-GlobalRNC-ID", 86, 1, RANAP_GlobalRNC_ID, true⟩]

/-- `ResetResourceIEs`, asn1/ranap/RANAP-PDU-Contents.asn:1289 -/
def resetResourceIEs : MsgDef where
  name := "ResetResourceIEs"
  ty := RANAP_ResetResource
  ies := [
    ⟨"id-CN-DomainIndicator", 3, 0, RANAP_CN_DomainIndicator, false⟩,
    ⟨"id-Cause", 4, 1, RANAP_Cause, false⟩,
    ⟨"id-IuSigConIdList", 77, 1, RANAP_ResetResourceList, false⟩,
    ⟨"id-GlobalRNC-ID", 86, 1, RANAP_GlobalRNC_ID, true⟩]

/-- `ResetResourceItemIEs`, asn1/ranap/RANAP-PDU-Contents.asn:1299 -/
def resetResourceItemIEs : MsgDef where
  name := "ResetResourceItemIEs"
  ty := RANAP_ResetResourceList
  ies := [
    ⟨"id-IuSigConIdItem", 78, 0, RANAP_ResetResourceItem, false⟩]

/-- `ResetResourceAcknowledgeIEs`, asn1/ranap/RANAP-PDU-Contents.asn:1334 -/
def resetResourceAcknowledgeIEs : MsgDef where
  name := "ResetResourceAcknowledgeIEs"
  ty := RANAP_ResetResourceAcknowledge
  ies := [
    ⟨"id-CN-DomainIndicator", 3, 0, RANAP_CN_DomainIndicator, false⟩,
    ⟨"id-IuSigConIdList", 77, 1, RANAP_ResetResourceAckList, false⟩,
    ⟨"id-GlobalRNC-ID", 86, 1, RANAP_GlobalRNC_ID, true⟩,
    ⟨"id-CriticalityDiagnostics", 9, 1, RANAP_CriticalityDiagnostics, true⟩]

/-- `ResetResourceAckItemIEs`, asn1/ranap/RANAP-PDU-Contents.asn:1343 -/
def resetResourceAckItemIEs : MsgDef where
  name := "ResetResourceAckItemIEs"
  ty := RANAP_ResetResourceAckList
  ies := [
    ⟨"id-IuSigConIdItem", 78, 0, RANAP_ResetResourceAckItem, false⟩]

/-- `RAB-ReleaseRequestIEs`, asn1/ranap/RANAP-PDU-Contents.asn:1384 -/
def rAB_ReleaseRequestIEs : MsgDef where
  name := "RAB-ReleaseRequestIEs"
  ty := RANAP_RAB_ReleaseRequest
  ies := [
    ⟨"id-RAB-ReleaseList", 41, 1, RANAP_RAB_ReleaseList, false⟩]

/-- `RAB-ReleaseItemIEs`, asn1/ranap/RANAP-PDU-Contents.asn:1391 -/
def rAB_ReleaseItemIEs : MsgDef where
  name := "RAB-ReleaseItemIEs"
  ty := RANAP_RAB_ReleaseList
  ies := [
    ⟨"id-RAB-ReleaseItem", 40, 1, RANAP_RAB_ReleaseItem, false⟩]

/-- `Iu-ReleaseRequestIEs`, asn1/ranap/RANAP-PDU-Contents.asn:1429 -/
def iu_ReleaseRequestIEs : MsgDef where
  name := "Iu-ReleaseRequestIEs"
  ty := RANAP_Iu_ReleaseRequest
  ies := [
    ⟨"id-Cause", 4, 1, RANAP_Cause, false⟩]

/-- `EnhancedRelocationCompleteRequestIEs`, asn1/ranap/RANAP-PDU-Contents.asn:1514 -/
def enhancedRelocationCompleteRequestIEs : MsgDef where
  name := "EnhancedRelocationCompleteRequestIEs"
  ty := RANAP_EnhancedRelocationCompleteRequest
  ies := [
    ⟨"id-OldIuSigConId", 196, 0, RANAP_IuSignallingConnectionIdentifier, false⟩,
    ⟨"id-IuSigConId", 79, 0, RANAP_IuSignallingConnectionIdentifier, false⟩,
    ⟨"id-Relocation-SourceRNC-ID", 222, 1, RANAP_GlobalRNC_ID, false⟩,
    ⟨"id-Relocation-SourceExtendedRNC-ID", 223, 1, RANAP_ExtendedRNC_ID, true⟩,
    ⟨"id-Relocation-TargetRNC-ID", 212, 0, RANAP_GlobalRNC_ID, false⟩,
    ⟨"id-Relocation-TargetExtendedRNC-ID", 213, 0, RANAP_ExtendedRNC_ID, true⟩,
    ⟨"id-RAB-SetupList-EnhancedRelocCompleteReq", 188, 0, RANAP_RAB_SetupList_EnhancedRelocCompleteReq, true⟩]

/-- `RAB-SetupItem-EnhancedRelocCompleteReq-IEs`, asn1/ranap/RANAP-PDU-Contents.asn:1527 -/
def rAB_SetupItem_EnhancedRelocCompleteReq_IEs : MsgDef where
  name := "RAB-SetupItem-EnhancedRelocCompleteReq-IEs"
  ty := RANAP_RAB_SetupList_EnhancedRelocCompleteReq
  ies := [
    ⟨"id-RAB-SetupItem-EnhancedRelocCompleteReq", 189, 0, RANAP_RAB_SetupItem_EnhancedRelocCompleteReq, false⟩]

/-- `EnhancedRelocationCompleteResponseIEs`, asn1/ranap/RANAP-PDU-Contents.asn:1572 -/
def enhancedRelocationCompleteResponseIEs : MsgDef where
  name := "EnhancedRelocationCompleteResponseIEs"
  ty := RANAP_EnhancedRelocationCompleteResponse
  ies := [
    ⟨"id-RAB-SetupList-EnhancedRelocCompleteRes", 190, 1, RANAP_RAB_SetupList_EnhancedRelocCompleteRes, true⟩,
    ⟨"id-RAB-ToBeReleasedList-EnhancedRelocCompleteRes", 210, 1, RANAP_RAB_ToBeReleasedList_EnhancedRelocCompleteRes, true⟩,
    ⟨"id-CriticalityDiagnostics", 9, 1, RANAP_CriticalityDiagnostics, true⟩]

/-- `RAB-SetupItem-EnhancedRelocCompleteRes-IEs`, asn1/ranap/RANAP-PDU-Contents.asn:1581 -/
def rAB_SetupItem_EnhancedRelocCompleteRes_IEs : MsgDef where
  name := "RAB-SetupItem-EnhancedRelocCompleteRes-IEs"
  ty := RANAP_RAB_SetupList_EnhancedRelocCompleteRes
  ies := [
    ⟨"id-RAB-SetupItem-EnhancedRelocCompleteRes", 191, 0, RANAP_RAB_SetupItem_EnhancedRelocCompleteRes, false⟩]

/-- `RAB-ToBeReleasedItem-EnhancedRelocCompleteRes-IEs`, asn1/ranap/RANAP-PDU-Contents.asn:1605 -/
def rAB_ToBeReleasedItem_EnhancedRelocCompleteRes_IEs : MsgDef where
  name := "RAB-ToBeReleasedItem-EnhancedRelocCompleteRes-IEs"
  ty := RANAP_RAB_ToBeReleasedList_EnhancedRelocCompleteRes
  ies := [
    ⟨"id-RAB-ToBeReleasedItem-EnhancedRelocCompleteRes", 209, 1, RANAP_RAB_ToBeReleasedItem_EnhancedRelocCompleteRes, false⟩]

/-- `EnhancedRelocationCompleteFailureIEs`, asn1/ranap/RANAP-PDU-Contents.asn:1642 -/
def enhancedRelocationCompleteFailureIEs : MsgDef where
  name := "EnhancedRelocationCompleteFailureIEs"
  ty := RANAP_EnhancedRelocationCompleteFailure
  ies := [
    ⟨"id-Cause", 4, 1, RANAP_Cause, false⟩,
    ⟨"id-CriticalityDiagnostics", 9, 1, RANAP_CriticalityDiagnostics, true⟩]

/-- `EnhancedRelocationCompleteConfirmIEs`, asn1/ranap/RANAP-PDU-Contents.asn:1664 -/
def enhancedRelocationCompleteConfirmIEs : MsgDef where
  name := "EnhancedRelocationCompleteConfirmIEs"
  ty := RANAP_EnhancedRelocationCompleteConfirm
  ies := [
    ⟨"id-RAB-FailedList", 35, 1, RANAP_RAB_FailedList, true⟩]

/-- `PagingIEs`, asn1/ranap/RANAP-PDU-Contents.asn:1692 -/
def pagingIEs : MsgDef where
  name := "PagingIEs"
  ty := RANAP_Paging
  ies := [
    ⟨"id-CN-DomainIndicator", 3, 1, RANAP_CN_DomainIndicator, false⟩,
    ⟨"id-PermanentNAS-UE-ID", 23, 1, RANAP_PermanentNAS_UE_ID, false⟩,
    ⟨"id-TemporaryUE-ID", 64, 1, RANAP_TemporaryUE_ID, true⟩,
    ⟨"id-PagingAreaID", 21, 1, RANAP_PagingAreaID, true⟩,
    ⟨"id-PagingCause", 22, 1, RANAP_PagingCause, true⟩,
    ⟨"id-NonSearchingIndication", 17, 1, RANAP_NonSearchingIndication, true⟩,
    ⟨"id-DRX-CycleLengthCoefficient", 76, 1, RANAP_DRX_CycleLengthCoefficient, true⟩]

/-- `CommonID-IEs`, asn1/ranap/RANAP-PDU-Contents.asn:1729 -/
def commonID_IEs : MsgDef where
  name := "CommonID-IEs"
  ty := RANAP_CommonID
  ies := [
    ⟨"id-PermanentNAS-UE-ID", 23, 1, RANAP_PermanentNAS_UE_ID, false⟩]

/-- `CN-InvokeTraceIEs`, asn1/ranap/RANAP-PDU-Contents.asn:1776 -/
def cN_InvokeTraceIEs : MsgDef where
  name := "CN-InvokeTraceIEs"
  ty := RANAP_CN_InvokeTrace
  ies := [
    ⟨"id-TraceType", 66, 1, RANAP_TraceType, true⟩,
    ⟨"id-TraceReference", 65, 1, RANAP_TraceReference, false⟩,
    ⟨"id-TriggerID", 68, 1, RANAP_TriggerID, true⟩,
    ⟨"id-UE-ID", 69, 1, RANAP_UE_ID, true⟩,
    ⟨"id-OMC-ID", 19, 1, RANAP_OMC_ID, true⟩]

/-- `CN-DeactivateTraceIEs`, asn1/ranap/RANAP-PDU-Contents.asn:1817 -/
def cN_DeactivateTraceIEs : MsgDef where
  name := "CN-DeactivateTraceIEs"
  ty := RANAP_CN_DeactivateTrace
  ies := [
    ⟨"id-TraceReference", 65, 1, RANAP_TraceReference, false⟩,
    ⟨"id-TriggerID", 68, 1, RANAP_TriggerID, true⟩]

/-- `LocationReportingControlIEs`, asn1/ranap/RANAP-PDU-Contents.asn:1846 -/
def locationReportingControlIEs : MsgDef where
  name := "LocationReportingControlIEs"
  ty := RANAP_LocationReportingControl
  ies := [
    ⟨"id-RequestType", 57, 1, RANAP_RequestType, false⟩]

/-- `LocationReportIEs`, asn1/ranap/RANAP-PDU-Contents.asn:1885 -/
def locationReportIEs : MsgDef where
  name := "LocationReportIEs"
  ty := RANAP_LocationReport
  ies := [
    ⟨"id-AreaIdentity", 0, 1, RANAP_AreaIdentity, true⟩,
    ⟨"id-Cause", 4, 1, RANAP_Cause, true⟩,
    ⟨"id-RequestType", 57, 1, RANAP_RequestType, true⟩]

/-- `InitialUE-MessageIEs`, asn1/ranap/RANAP-PDU-Contents.asn:1925 -/
def initialUE_MessageIEs : MsgDef where
  name := "InitialUE-MessageIEs"
  ty := RANAP_InitialUE_Message
  ies := [
    ⟨"id-CN-DomainIndicator", 3, 1, RANAP_CN_DomainIndicator, false⟩,
    ⟨"id-LAI", 15, 1, RANAP_LAI, false⟩,
    ⟨"id-RAC", 55, 1, RANAP_RAC, true⟩,
    ⟨"id-SAI", 58, 1, RANAP_SAI, false⟩,
    ⟨"id-NAS-PDU", 16, 1, RANAP_NAS_PDU, false⟩,
    ⟨"id-IuSigConId", 79, 1, RANAP_IuSignallingConnectionIdentifier, false⟩,
    ⟨"id-GlobalRNC-ID", 86, 1, RANAP_GlobalRNC_ID, false⟩]

/-- `DirectTransferIEs`, asn1/ranap/RANAP-PDU-Contents.asn:1985 -/
def directTransferIEs : MsgDef where
  name := "DirectTransferIEs"
  ty := RANAP_DirectTransfer
  ies := [
    ⟨"id-NAS-PDU", 16, 1, RANAP_NAS_PDU, false⟩,
    ⟨"id-LAI", 15, 1, RANAP_LAI, true⟩,
    ⟨"id-RAC", 55, 1, RANAP_RAC, true⟩,
    ⟨"id-SAI", 58, 1, RANAP_SAI, true⟩,
    ⟨"id-SAPI", 59, 1, RANAP_SAPI, true⟩]

/-- `RedirectionIndication-IEs`, asn1/ranap/RANAP-PDU-Contents.asn:2012 -/
def redirectionIndication_IEs : MsgDef where
  name := "RedirectionIndication-IEs"
  ty := RANAP_RedirectionIndication
  ies := [
    ⟨"id-NAS-PDU", 16, 1, RANAP_NAS_PDU, false⟩,
    ⟨"id-RejectCauseValue", 131, 1, RANAP_RejectCauseValue, false⟩,
    ⟨"id-NAS-SequenceNumber", 130, 1, RANAP_NAS_SequenceNumber, true⟩,
    ⟨"id-PermanentNAS-UE-ID", 23, 1, RANAP_PermanentNAS_UE_ID, true⟩]

/-- `OverloadIEs`, asn1/ranap/RANAP-PDU-Contents.asn:2038 -/
def overloadIEs : MsgDef where
  name := "OverloadIEs"
  ty := RANAP_Overload
  ies := [
    ⟨"id-NumberOfSteps", 18, 1, RANAP_NumberOfSteps, true⟩,
    ⟨"id-GlobalRNC-ID", 86, 1, RANAP_GlobalRNC_ID, true⟩]

/-- `ErrorIndicationIEs`, asn1/ranap/RANAP-PDU-Contents.asn:2074 -/
def errorIndicationIEs : MsgDef where
  name := "ErrorIndicationIEs"
  ty := RANAP_ErrorIndication
  ies := [
    ⟨"id-Cause", 4, 1, RANAP_Cause, true⟩,
    ⟨"id-CriticalityDiagnostics", 9, 1, RANAP_CriticalityDiagnostics, true⟩,
    ⟨"id-CN-DomainIndicator", 3, 1, RANAP_CN_DomainIndicator, true⟩,
    ⟨"id-GlobalRNC-ID", 86, 1, RANAP_GlobalRNC_ID, true⟩]

/-- `SRNS-DataForwardCommandIEs`, asn1/ranap/RANAP-PDU-Contents.asn:2108 -/
def sRNS_DataForwardCommandIEs : MsgDef where
  name := "SRNS-DataForwardCommandIEs"
  ty := RANAP_SRNS_DataForwardCommand
  ies := [
    ⟨"id-RAB-DataForwardingList", 28, 1, RANAP_RAB_DataForwardingList, true⟩]

/-- `ForwardSRNS-ContextIEs`, asn1/ranap/RANAP-PDU-Contents.asn:2135 -/
def forwardSRNS_ContextIEs : MsgDef where
  name := "ForwardSRNS-ContextIEs"
  ty := RANAP_ForwardSRNS_Context
  ies := [
    ⟨"id-RAB-ContextList", 25, 1, RANAP_RAB_ContextList, false⟩]

/-- `RAB-AssignmentRequestIEs`, asn1/ranap/RANAP-PDU-Contents.asn:2164 -/
def rAB_AssignmentRequestIEs : MsgDef where
  name := "RAB-AssignmentRequestIEs"
  ty := RANAP_RAB_AssignmentRequest
  ies := [
    ⟨"id-RAB-SetupOrModifyList", 54, 1, RANAP_RAB_SetupOrModifyList, true⟩,
    ⟨"id-RAB-ReleaseList", 41, 1, RANAP_RAB_ReleaseList, true⟩]

/-- `RAB-AssignmentResponseIEs`, asn1/ranap/RANAP-PDU-Contents.asn:2253 -/
def rAB_AssignmentResponseIEs : MsgDef where
  name := "RAB-AssignmentResponseIEs"
  ty := RANAP_RAB_AssignmentResponse
  ies := [
    ⟨"id-RAB-SetupOrModifiedList", 52, 1, RANAP_RAB_SetupOrModifiedList, true⟩,
    ⟨"id-RAB-ReleasedList", 43, 1, RANAP_RAB_ReleasedList, true⟩,
    ⟨"id-RAB-QueuedList", 38, 1, RANAP_RAB_QueuedList, true⟩,
    ⟨"id-RAB-FailedList", 35, 1, RANAP_RAB_FailedList, true⟩,
    ⟨"id-RAB-ReleaseFailedList", 39, 1, RANAP_RAB_ReleaseFailedList, true⟩,
    ⟨"id-CriticalityDiagnostics", 9, 1, RANAP_CriticalityDiagnostics, true⟩]

/-- `RAB-SetupOrModifiedItemIEs`, asn1/ranap/RANAP-PDU-Contents.asn:2265 -/
def rAB_SetupOrModifiedItemIEs : MsgDef where
  name := "RAB-SetupOrModifiedItemIEs"
  ty := RANAP_RAB_SetupOrModifiedList
  ies := [
    ⟨"id-RAB-SetupOrModifiedItem", 51, 1, RANAP_RAB_SetupOrModifiedItem, false⟩]

/-- `RAB-ReleasedItemIEs`, asn1/ranap/RANAP-PDU-Contents.asn:2287 -/
def rAB_ReleasedItemIEs : MsgDef where
  name := "RAB-ReleasedItemIEs"
  ty := RANAP_RAB_ReleasedList
  ies := [
    ⟨"id-RAB-ReleasedItem", 42, 1, RANAP_RAB_ReleasedItem, false⟩]

/-- `RAB-QueuedItemIEs`, asn1/ranap/RANAP-PDU-Contents.asn:2320 -/
def rAB_QueuedItemIEs : MsgDef where
  name := "RAB-QueuedItemIEs"
  ty := RANAP_RAB_QueuedList
  ies := [
    ⟨"id-RAB-QueuedItem", 37, 1, RANAP_RAB_QueuedItem, false⟩]

/-- `GERAN-Iumode-RAB-Failed-RABAssgntResponse-ItemIEs`, asn1/ranap/RANAP-PDU-Contents.asn:2345 -/
def gERAN_Iumode_RAB_Failed_RABAssgntResponse_ItemIEs : MsgDef where
  name := "GERAN-Iumode-RAB-Failed-RABAssgntResponse-ItemIEs"
  ty := RANAP_GERAN_Iumode_RAB_Failed_RABAssgntResponse_List
  ies := [
    ⟨"id-GERAN-Iumode-RAB-Failed-RABAssgntResponse-Item", 109, 1, RANAP_GERAN_Iumode_RAB_Failed_RABAssgntResponse_Item, false⟩]

/-- `RANAP-RelocationInformationIEs`, asn1/ranap/RANAP-PDU-Contents.asn:2389 -/
def rANAP_RelocationInformationIEs : MsgDef where
  name := "RANAP-RelocationInformationIEs"
  ty := RANAP_RANAP_RelocationInformation
  ies := [
    ⟨"id-RAB-ContextList-RANAP-RelocInf", 83, 1, RANAP_RAB_ContextList_RANAP_RelocInf, true⟩]

/-- `RAB-ContextItemIEs-RANAP-RelocInf`, asn1/ranap/RANAP-PDU-Contents.asn:2420 -/
def rAB_ContextItemIEs_RANAP_RelocInf : MsgDef where
  name := "RAB-ContextItemIEs-RANAP-RelocInf"
  ty := RANAP_RAB_ContextList_RANAP_RelocInf
  ies := [
    ⟨"id-RAB-ContextItem-RANAP-RelocInf", 82, 1, RANAP_RAB_ContextItem_RANAP_RelocInf, false⟩]

/-- `RANAP-EnhancedRelocationInformationRequestIEs`, asn1/ranap/RANAP-PDU-Contents.asn:2465 -/
def rANAP_EnhancedRelocationInformationRequestIEs : MsgDef where
  name := "RANAP-EnhancedRelocationInformationRequestIEs"
  ty := RANAP_RANAP_EnhancedRelocationInformationRequest
  ies := [
    ⟨"id-Source-ToTarget-TransparentContainer", 61, 0, RANAP_SourceRNC_ToTargetRNC_TransparentContainer, false⟩,
    ⟨"id-OldIuSigConIdCS", 204, 1, RANAP_IuSignallingConnectionIdentifier, true⟩,
    ⟨"id-GlobalCN-IDCS", 206, 0, RANAP_GlobalCN_ID, true⟩,
    ⟨"id-OldIuSigConIdPS", 205, 1, RANAP_IuSignallingConnectionIdentifier, true⟩,
    ⟨"id-GlobalCN-IDPS", 207, 0, RANAP_GlobalCN_ID, true⟩,
    ⟨"id-RAB-SetupList-EnhRelocInfoReq", 192, 0, RANAP_RAB_SetupList_EnhRelocInfoReq, true⟩,
    ⟨"id-SNA-Access-Information", 105, 1, RANAP_SNA_Access_Information, true⟩,
    ⟨"id-UESBI-Iu", 118, 1, RANAP_UESBI_Iu, true⟩,
    ⟨"id-SelectedPLMN-ID", 127, 1, RANAP_PLMNidentity, true⟩,
    ⟨"id-CNMBMSLinkingInformation", 133, 1, RANAP_CNMBMSLinkingInformation, true⟩]

/-- `RAB-SetupItem-EnhRelocInfoReq-IEs`, asn1/ranap/RANAP-PDU-Contents.asn:2481 -/
def rAB_SetupItem_EnhRelocInfoReq_IEs : MsgDef where
  name := "RAB-SetupItem-EnhRelocInfoReq-IEs"
  ty := RANAP_RAB_SetupList_EnhRelocInfoReq
  ies := [
    ⟨"id-RAB-SetupItem-EnhRelocInfoReq", 193, 0, RANAP_RAB_SetupItem_EnhRelocInfoReq, false⟩]

/-- `RANAP-EnhancedRelocationInformationResponseIEs`, asn1/ranap/RANAP-PDU-Contents.asn:2549 -/
def rANAP_EnhancedRelocationInformationResponseIEs : MsgDef where
  name := "RANAP-EnhancedRelocationInformationResponseIEs"
  ty := RANAP_RANAP_EnhancedRelocationInformationResponse
  ies := [
    ⟨"id-Target-ToSource-TransparentContainer", 63, 1, RANAP_TargetRNC_ToSourceRNC_TransparentContainer, true⟩,
    ⟨"id-RAB-SetupList-EnhRelocInfoRes", 194, 1, RANAP_RAB_SetupList_EnhRelocInfoRes, true⟩,
    ⟨"id-RAB-FailedList-EnhRelocInfoRes", 197, 1, RANAP_RAB_FailedList_EnhRelocInfoRes, true⟩,
    ⟨"id-CriticalityDiagnostics", 9, 1, RANAP_CriticalityDiagnostics, true⟩]

/-- `RAB-SetupItem-EnhRelocInfoRes-IEs`, asn1/ranap/RANAP-PDU-Contents.asn:2559 -/
def rAB_SetupItem_EnhRelocInfoRes_IEs : MsgDef where
  name := "RAB-SetupItem-EnhRelocInfoRes-IEs"
  ty := RANAP_RAB_SetupList_EnhRelocInfoRes
  ies := [
    ⟨"id-RAB-SetupItem-EnhRelocInfoRes", 195, 0, RANAP_RAB_SetupItem_EnhRelocInfoRes, false⟩]

/-- `RAB-FailedItem-EnhRelocInfoRes-IEs`, asn1/ranap/RANAP-PDU-Contents.asn:2579 -/
def rAB_FailedItem_EnhRelocInfoRes_IEs : MsgDef where
  name := "RAB-FailedItem-EnhRelocInfoRes-IEs"
  ty := RANAP_RAB_FailedList_EnhRelocInfoRes
  ies := [
    ⟨"id-RAB-FailedItem-EnhRelocInfoRes", 198, 0, RANAP_RAB_FailedItem_EnhRelocInfoRes, false⟩]

/-- `RAB-ModifyRequestIEs`, asn1/ranap/RANAP-PDU-Contents.asn:2627 -/
def rAB_ModifyRequestIEs : MsgDef where
  name := "RAB-ModifyRequestIEs"
  ty := RANAP_RAB_ModifyRequest
  ies := [
    ⟨"id-RAB-ModifyList", 91, 1, RANAP_RAB_ModifyList, false⟩]

/-- `RAB-ModifyItemIEs`, asn1/ranap/RANAP-PDU-Contents.asn:2634 -/
def rAB_ModifyItemIEs : MsgDef where
  name := "RAB-ModifyItemIEs"
  ty := RANAP_RAB_ModifyList
  ies := [
    ⟨"id-RAB-ModifyItem", 92, 1, RANAP_RAB_ModifyItem, false⟩]

/-- `LocationRelatedDataRequestIEs`, asn1/ranap/RANAP-PDU-Contents.asn:2672 -/
def locationRelatedDataRequestIEs : MsgDef where
  name := "LocationRelatedDataRequestIEs"
  ty := RANAP_LocationRelatedDataRequest
  ies := [
    ⟨"id-LocationRelatedDataRequestType", 95, 0, RANAP_LocationRelatedDataRequestType, true⟩]

/-- `LocationRelatedDataResponseIEs`, asn1/ranap/RANAP-PDU-Contents.asn:2700 -/
def locationRelatedDataResponseIEs : MsgDef where
  name := "LocationRelatedDataResponseIEs"
  ty := RANAP_LocationRelatedDataResponse
  ies := [
    ⟨"id-BroadcastAssistanceDataDecipheringKeys", 94, 1, RANAP_BroadcastAssistanceDataDecipheringKeys, true⟩]

/-- `LocationRelatedDataFailureIEs`, asn1/ranap/RANAP-PDU-Contents.asn:2724 -/
def locationRelatedDataFailureIEs : MsgDef where
  name := "LocationRelatedDataFailureIEs"
  ty := RANAP_LocationRelatedDataFailure
  ies := [
    ⟨"id-Cause", 4, 1, RANAP_Cause, false⟩]

/-- `InformationTransferIndicationIEs`, asn1/ranap/RANAP-PDU-Contents.asn:2753 -/
def informationTransferIndicationIEs : MsgDef where
  name := "InformationTransferIndicationIEs"
  ty := RANAP_InformationTransferIndication
  ies := [
    ⟨"id-InformationTransferID", 104, 0, RANAP_InformationTransferID, false⟩,
    ⟨"id-ProvidedData", 106, 0, RANAP_ProvidedData, false⟩,
    ⟨"id-CN-DomainIndicator", 3, 0, RANAP_CN_DomainIndicator, false⟩,
    ⟨"id-GlobalCN-ID", 96, 1, RANAP_GlobalCN_ID, true⟩]

/-- `InformationTransferConfirmationIEs`, asn1/ranap/RANAP-PDU-Contents.asn:2777 -/
def informationTransferConfirmationIEs : MsgDef where
  name := "InformationTransferConfirmationIEs"
  ty := RANAP_InformationTransferConfirmation
  ies := [
    ⟨"id-InformationTransferID", 104, 1, RANAP_InformationTransferID, false⟩,
    ⟨"id-CN-DomainIndicator", 3, 1, RANAP_CN_DomainIndicator, false⟩,
    ⟨"id-CriticalityDiagnostics", 9, 1, RANAP_CriticalityDiagnostics, true⟩,
    ⟨"id-GlobalRNC-ID", 86, 1, RANAP_GlobalRNC_ID, false⟩]

/-- `InformationTransferFailureIEs`, asn1/ranap/RANAP-PDU-Contents.asn:2803 -/
def informationTransferFailureIEs : MsgDef where
  name := "InformationTransferFailureIEs"
  ty := RANAP_InformationTransferFailure
  ies := [
    ⟨"id-InformationTransferID", 104, 1, RANAP_InformationTransferID, false⟩,
    ⟨"id-CN-DomainIndicator", 3, 1, RANAP_CN_DomainIndicator, false⟩,
    ⟨"id-Cause", 4, 1, RANAP_Cause, false⟩,
    ⟨"id-CriticalityDiagnostics", 9, 1, RANAP_CriticalityDiagnostics, true⟩,
    ⟨"id-GlobalRNC-ID", 86, 1, RANAP_GlobalRNC_ID, false⟩]

/-- `UESpecificInformationIndicationIEs`, asn1/ranap/RANAP-PDU-Contents.asn:2836 -/
def uESpecificInformationIndicationIEs : MsgDef where
  name := "UESpecificInformationIndicationIEs"
  ty := RANAP_UESpecificInformationIndication
  ies := [
    ⟨"id-UESBI-Iu", 118, 1, RANAP_UESBI_Iu, true⟩]

/-- `DirectInformationTransferIEs`, asn1/ranap/RANAP-PDU-Contents.asn:2863 -/
def directInformationTransferIEs : MsgDef where
  name := "DirectInformationTransferIEs"
  ty := RANAP_DirectInformationTransfer
  ies := [
    ⟨"id-InterSystemInformationTransferType", 126, 1, RANAP_InterSystemInformationTransferType, true⟩,
    ⟨"id-CN-DomainIndicator", 3, 1, RANAP_CN_DomainIndicator, false⟩,
    ⟨"id-GlobalRNC-ID", 86, 1, RANAP_GlobalRNC_ID, true⟩,
    ⟨"id-GlobalCN-ID", 96, 1, RANAP_GlobalCN_ID, true⟩]

/-- `UplinkInformationExchangeRequestIEs`, asn1/ranap/RANAP-PDU-Contents.asn:2895 -/
def uplinkInformationExchangeRequestIEs : MsgDef where
  name := "UplinkInformationExchangeRequestIEs"
  ty := RANAP_UplinkInformationExchangeRequest
  ies := [
    ⟨"id-InformationExchangeID", 136, 0, RANAP_InformationExchangeID, false⟩,
    ⟨"id-InformationExchangeType", 137, 0, RANAP_InformationExchangeType, false⟩,
    ⟨"id-CN-DomainIndicator", 3, 0, RANAP_CN_DomainIndicator, false⟩,
    ⟨"id-GlobalRNC-ID", 86, 0, RANAP_GlobalRNC_ID, false⟩]

/-- `UplinkInformationExchangeResponseIEs`, asn1/ranap/RANAP-PDU-Contents.asn:2925 -/
def uplinkInformationExchangeResponseIEs : MsgDef where
  name := "UplinkInformationExchangeResponseIEs"
  ty := RANAP_UplinkInformationExchangeResponse
  ies := [
    ⟨"id-InformationExchangeID", 136, 1, RANAP_InformationExchangeID, false⟩,
    ⟨"id-InformationRequested", 138, 1, RANAP_InformationRequested, true⟩,
    ⟨"id-CN-DomainIndicator", 3, 1, RANAP_CN_DomainIndicator, false⟩,
    ⟨"id-GlobalCN-ID", 96, 1, RANAP_GlobalCN_ID, true⟩,
    ⟨"id-CriticalityDiagnostics", 9, 1, RANAP_CriticalityDiagnostics, true⟩]

/-- `UplinkInformationExchangeFailureIEs`, asn1/ranap/RANAP-PDU-Contents.asn:2950 -/
def uplinkInformationExchangeFailureIEs : MsgDef where
  name := "UplinkInformationExchangeFailureIEs"
  ty := RANAP_UplinkInformationExchangeFailure
  ies := [
    ⟨"id-InformationExchangeID", 136, 1, RANAP_InformationExchangeID, false⟩,
    ⟨"id-CN-DomainIndicator", 3, 1, RANAP_CN_DomainIndicator, false⟩,
    ⟨"id-GlobalCN-ID", 96, 1, RANAP_GlobalCN_ID, true⟩,
    ⟨"id-Cause", 4, 1, RANAP_Cause, false⟩,
    ⟨"id-CriticalityDiagnostics", 9, 1, RANAP_CriticalityDiagnostics, true⟩]

/-- `MBMSSessionStartIEs`, asn1/ranap/RANAP-PDU-Contents.asn:2981 -/
def mBMSSessionStartIEs : MsgDef where
  name := "MBMSSessionStartIEs"
  ty := RANAP_MBMSSessionStart
  ies := [
    ⟨"id-TMGI", 153, 0, RANAP_TMGI, false⟩,
    ⟨"id-MBMSSessionIdentity", 147, 1, RANAP_MBMSSessionIdentity, true⟩,
    ⟨"id-MBMSBearerServiceType", 143, 0, RANAP_MBMSBearerServiceType, false⟩,
    ⟨"id-IuSigConId", 79, 0, RANAP_IuSignallingConnectionIdentifier, false⟩,
    ⟨"id-RAB-Parameters", 149, 0, RANAP_RAB_Parameters, false⟩,
    ⟨"id-PDP-TypeInformation", 148, 1, RANAP_PDP_TypeInformation, true⟩,
    ⟨"id-MBMSSessionDuration", 146, 0, RANAP_MBMSSessionDuration, false⟩,
    ⟨"id-MBMSServiceArea", 145, 0, RANAP_MBMSServiceArea, false⟩,
    ⟨"id-FrequenceLayerConvergenceFlag", 135, 1, RANAP_FrequenceLayerConvergenceFlag, true⟩,
    ⟨"id-RAListofIdleModeUEs", 150, 1, RANAP_RAListofIdleModeUEs, true⟩,
    ⟨"id-GlobalCN-ID", 96, 0, RANAP_GlobalCN_ID, true⟩,
    ⟨"id-MBMSSessionRepetitionNumber", 157, 1, RANAP_MBMSSessionRepetitionNumber, true⟩,
    ⟨"id-TimeToMBMSDataTransfer", 163, 0, RANAP_TimeToMBMSDataTransfer, false⟩]

/-- `MBMSSessionStartResponseIEs`, asn1/ranap/RANAP-PDU-Contents.asn:3034 -/
def mBMSSessionStartResponseIEs : MsgDef where
  name := "MBMSSessionStartResponseIEs"
  ty := RANAP_MBMSSessionStartResponse
  ies := [
    ⟨"id-TransportLayerInformation", 154, 1, RANAP_TransportLayerInformation, true⟩,
    ⟨"id-Cause", 4, 1, RANAP_Cause, true⟩,
    ⟨"id-CriticalityDiagnostics", 9, 1, RANAP_CriticalityDiagnostics, true⟩]

/-- `MBMSSessionStartFailureIEs`, asn1/ranap/RANAP-PDU-Contents.asn:3057 -/
def mBMSSessionStartFailureIEs : MsgDef where
  name := "MBMSSessionStartFailureIEs"
  ty := RANAP_MBMSSessionStartFailure
  ies := [
    ⟨"id-Cause", 4, 1, RANAP_Cause, false⟩,
    ⟨"id-CriticalityDiagnostics", 9, 1, RANAP_CriticalityDiagnostics, true⟩]

/-- `MBMSSessionUpdateIEs`, asn1/ranap/RANAP-PDU-Contents.asn:3085 -/
def mBMSSessionUpdateIEs : MsgDef where
  name := "MBMSSessionUpdateIEs"
  ty := RANAP_MBMSSessionUpdate
  ies := [
    ⟨"id-SessionUpdateID", 152, 0, RANAP_SessionUpdateID, false⟩,
    ⟨"id-DeltaRAListofIdleModeUEs", 134, 0, RANAP_DeltaRAListofIdleModeUEs, false⟩]

/-- `MBMSSessionUpdateResponseIEs`, asn1/ranap/RANAP-PDU-Contents.asn:3107 -/
def mBMSSessionUpdateResponseIEs : MsgDef where
  name := "MBMSSessionUpdateResponseIEs"
  ty := RANAP_MBMSSessionUpdateResponse
  ies := [
    ⟨"id-SessionUpdateID", 152, 1, RANAP_SessionUpdateID, false⟩,
    ⟨"id-TransportLayerInformation", 154, 1, RANAP_TransportLayerInformation, true⟩,
    ⟨"id-Cause", 4, 1, RANAP_Cause, true⟩,
    ⟨"id-CriticalityDiagnostics", 9, 1, RANAP_CriticalityDiagnostics, true⟩]

/-- `MBMSSessionUpdateFailureIEs`, asn1/ranap/RANAP-PDU-Contents.asn:3131 -/
def mBMSSessionUpdateFailureIEs : MsgDef where
  name := "MBMSSessionUpdateFailureIEs"
  ty := RANAP_MBMSSessionUpdateFailure
  ies := [
    ⟨"id-SessionUpdateID", 152, 1, RANAP_SessionUpdateID, false⟩,
    ⟨"id-Cause", 4, 1, RANAP_Cause, false⟩,
    ⟨"id-CriticalityDiagnostics", 9, 1, RANAP_CriticalityDiagnostics, true⟩]

/-- `MBMSSessionStopIEs`, asn1/ranap/RANAP-PDU-Contents.asn:3160 -/
def mBMSSessionStopIEs : MsgDef where
  name := "MBMSSessionStopIEs"
  ty := RANAP_MBMSSessionStop
  ies := [
    ⟨"id-MBMSCNDe-Registration", 144, 0, RANAP_MBMSCNDe_Registration, false⟩]

/-- `MBMSSessionStopResponseIEs`, asn1/ranap/RANAP-PDU-Contents.asn:3181 -/
def mBMSSessionStopResponseIEs : MsgDef where
  name := "MBMSSessionStopResponseIEs"
  ty := RANAP_MBMSSessionStopResponse
  ies := [
    ⟨"id-Cause", 4, 1, RANAP_Cause, true⟩,
    ⟨"id-CriticalityDiagnostics", 9, 1, RANAP_CriticalityDiagnostics, true⟩]

/-- `MBMSUELinkingRequestIEs`, asn1/ranap/RANAP-PDU-Contents.asn:3209 -/
def mBMSUELinkingRequestIEs : MsgDef where
  name := "MBMSUELinkingRequestIEs"
  ty := RANAP_MBMSUELinkingRequest
  ies := [
    ⟨"id-JoinedMBMSBearerServicesList", 141, 0, RANAP_JoinedMBMSBearerService_IEs, true⟩,
    ⟨"id-LeftMBMSBearerServicesList", 142, 0, RANAP_LeftMBMSBearerService_IEs, true⟩]

/-- `MBMSUELinkingResponseIEs`, asn1/ranap/RANAP-PDU-Contents.asn:3243 -/
def mBMSUELinkingResponseIEs : MsgDef where
  name := "MBMSUELinkingResponseIEs"
  ty := RANAP_MBMSUELinkingResponse
  ies := [
    ⟨"id-UnsuccessfulLinkingList", 155, 1, RANAP_UnsuccessfulLinking_IEs, true⟩,
    ⟨"id-CriticalityDiagnostics", 9, 1, RANAP_CriticalityDiagnostics, true⟩]

/-- `MBMSRegistrationRequestIEs`, asn1/ranap/RANAP-PDU-Contents.asn:3284 -/
def mBMSRegistrationRequestIEs : MsgDef where
  name := "MBMSRegistrationRequestIEs"
  ty := RANAP_MBMSRegistrationRequest
  ies := [
    ⟨"id-MBMSRegistrationRequestType", 151, 0, RANAP_MBMSRegistrationRequestType, false⟩,
    ⟨"id-TMGI", 153, 0, RANAP_TMGI, false⟩,
    ⟨"id-GlobalRNC-ID", 86, 0, RANAP_GlobalRNC_ID, true⟩]

/-- `MBMSRegistrationResponseIEs`, asn1/ranap/RANAP-PDU-Contents.asn:3313 -/
def mBMSRegistrationResponseIEs : MsgDef where
  name := "MBMSRegistrationResponseIEs"
  ty := RANAP_MBMSRegistrationResponse
  ies := [
    ⟨"id-TMGI", 153, 1, RANAP_TMGI, true⟩,
    ⟨"id-GlobalCN-ID", 96, 1, RANAP_GlobalCN_ID, true⟩,
    ⟨"id-CriticalityDiagnostics", 9, 1, RANAP_CriticalityDiagnostics, true⟩]

/-- `MBMSRegistrationFailureIEs`, asn1/ranap/RANAP-PDU-Contents.asn:3336 -/
def mBMSRegistrationFailureIEs : MsgDef where
  name := "MBMSRegistrationFailureIEs"
  ty := RANAP_MBMSRegistrationFailure
  ies := [
    ⟨"id-TMGI", 153, 1, RANAP_TMGI, true⟩,
    ⟨"id-GlobalCN-ID", 96, 1, RANAP_GlobalCN_ID, true⟩,
    ⟨"id-Cause", 4, 1, RANAP_Cause, false⟩,
    ⟨"id-CriticalityDiagnostics", 9, 1, RANAP_CriticalityDiagnostics, true⟩]

/-- `MBMSCNDe-RegistrationRequestIEs`, asn1/ranap/RANAP-PDU-Contents.asn:3366 -/
def mBMSCNDe_RegistrationRequestIEs : MsgDef where
  name := "MBMSCNDe-RegistrationRequestIEs"
  ty := RANAP_MBMSCNDe_RegistrationRequest
  ies := [
    ⟨"id-TMGI", 153, 0, RANAP_TMGI, false⟩,
    ⟨"id-GlobalCN-ID", 96, 0, RANAP_GlobalCN_ID, true⟩]

/-- `MBMSCNDe-RegistrationResponseIEs`, asn1/ranap/RANAP-PDU-Contents.asn:3388 -/
def mBMSCNDe_RegistrationResponseIEs : MsgDef where
  name := "MBMSCNDe-RegistrationResponseIEs"
  ty := RANAP_MBMSCNDe_RegistrationResponse
  ies := [
    ⟨"id-TMGI", 153, 1, RANAP_TMGI, false⟩,
    ⟨"id-GlobalRNC-ID", 86, 1, RANAP_GlobalRNC_ID, false⟩,
    ⟨"id-Cause", 4, 1, RANAP_Cause, true⟩,
    ⟨"id-CriticalityDiagnostics", 9, 1, RANAP_CriticalityDiagnostics, true⟩]

/-- `MBMSRABEstablishmentIndicationIEs`, asn1/ranap/RANAP-PDU-Contents.asn:3420 -/
def mBMSRABEstablishmentIndicationIEs : MsgDef where
  name := "MBMSRABEstablishmentIndicationIEs"
  ty := RANAP_MBMSRABEstablishmentIndication
  ies := [
    ⟨"id-TransportLayerInformation", 154, 1, RANAP_TransportLayerInformation, false⟩]

/-- `MBMSRABReleaseRequestIEs`, asn1/ranap/RANAP-PDU-Contents.asn:3447 -/
def mBMSRABReleaseRequestIEs : MsgDef where
  name := "MBMSRABReleaseRequestIEs"
  ty := RANAP_MBMSRABReleaseRequest
  ies := [
    ⟨"id-Cause", 4, 1, RANAP_Cause, false⟩]

/-- `MBMSRABReleaseIEs`, asn1/ranap/RANAP-PDU-Contents.asn:3469 -/
def mBMSRABReleaseIEs : MsgDef where
  name := "MBMSRABReleaseIEs"
  ty := RANAP_MBMSRABRelease
  ies := [
    ⟨"id-Cause", 4, 1, RANAP_Cause, false⟩,
    ⟨"id-CriticalityDiagnostics", 9, 1, RANAP_CriticalityDiagnostics, true⟩]

/-- `MBMSRABReleaseFailureIEs`, asn1/ranap/RANAP-PDU-Contents.asn:3491 -/
def mBMSRABReleaseFailureIEs : MsgDef where
  name := "MBMSRABReleaseFailureIEs"
  ty := RANAP_MBMSRABReleaseFailure
  ies := [
    ⟨"id-Cause", 4, 1, RANAP_Cause, false⟩,
    ⟨"id-CriticalityDiagnostics", 9, 1, RANAP_CriticalityDiagnostics, true⟩]

/-- `SRVCC-CSKeysResponseIEs`, asn1/ranap/RANAP-PDU-Contents.asn:3539 -/
def sRVCC_CSKeysResponseIEs : MsgDef where
  name := "SRVCC-CSKeysResponseIEs"
  ty := RANAP_SRVCC_CSKeysResponse
  ies := [
    ⟨"id-IntegrityProtectionKey", 225, 0, RANAP_IntegrityProtectionKey, false⟩,
    ⟨"id-EncryptionKey", 224, 0, RANAP_EncryptionKey, false⟩,
    ⟨"id-SRVCC-Information", 227, 0, RANAP_SRVCC_Information, false⟩,
    ⟨"id-CriticalityDiagnostics", 9, 1, RANAP_CriticalityDiagnostics, true⟩]

/-- `UeRadioCapabilityMatchResponseIEs`, asn1/ranap/RANAP-PDU-Contents.asn:3590 -/
def ueRadioCapabilityMatchResponseIEs : MsgDef where
  name := "UeRadioCapabilityMatchResponseIEs"
  ty := RANAP_UeRadioCapabilityMatchResponse
  ies := [
    ⟨"id-VoiceSupportMatchIndicator", 258, 0, RANAP_VoiceSupportMatchIndicator, false⟩]

/-- All tables. -/
def all : List MsgDef :=
  [iu_ReleaseCommandIEs,
   iu_ReleaseCompleteIEs,
   rAB_DataVolumeReportItemIEs,
   rAB_ReleasedItem_IuRelComp_IEs,
   relocationRequiredIEs,
   relocationCommandIEs,
   rAB_RelocationReleaseItemIEs,
   rAB_DataForwardingItemIEs,
   relocationPreparationFailureIEs,
   relocationRequestIEs,
   rAB_SetupItem_RelocReq_IEs,
   relocationRequestAcknowledgeIEs,
   rAB_SetupItem_RelocReqAck_IEs,
   rAB_FailedItemIEs,
   relocationFailureIEs,
   relocationCancelIEs,
   relocationCancelAcknowledgeIEs,
   sRNS_ContextRequestIEs,
   rAB_DataForwardingItem_SRNS_CtxReq_IEs,
   sRNS_ContextResponseIEs,
   rAB_ContextItemIEs,
   rABs_ContextFailedtoTransferItemIEs,
   securityModeCommandIEs,
   securityModeCompleteIEs,
   securityModeRejectIEs,
   dataVolumeReportRequestIEs,
   rAB_DataVolumeReportRequestItemIEs,
   dataVolumeReportIEs,
   rABs_failed_to_reportItemIEs,
   resetIEs,
   resetAcknowledgeIEs,
   resetResourceIEs,
   resetResourceItemIEs,
   resetResourceAcknowledgeIEs,
   resetResourceAckItemIEs,
   rAB_ReleaseRequestIEs,
   rAB_ReleaseItemIEs,
   iu_ReleaseRequestIEs,
   enhancedRelocationCompleteRequestIEs,
   rAB_SetupItem_EnhancedRelocCompleteReq_IEs,
   enhancedRelocationCompleteResponseIEs,
   rAB_SetupItem_EnhancedRelocCompleteRes_IEs,
   rAB_ToBeReleasedItem_EnhancedRelocCompleteRes_IEs,
   enhancedRelocationCompleteFailureIEs,
   enhancedRelocationCompleteConfirmIEs,
   pagingIEs,
   commonID_IEs,
   cN_InvokeTraceIEs,
   cN_DeactivateTraceIEs,
   locationReportingControlIEs,
   locationReportIEs,
   initialUE_MessageIEs,
   directTransferIEs,
   redirectionIndication_IEs,
   overloadIEs,
   errorIndicationIEs,
   sRNS_DataForwardCommandIEs,
   forwardSRNS_ContextIEs,
   rAB_AssignmentRequestIEs,
   rAB_AssignmentResponseIEs,
   rAB_SetupOrModifiedItemIEs,
   rAB_ReleasedItemIEs,
   rAB_QueuedItemIEs,
   gERAN_Iumode_RAB_Failed_RABAssgntResponse_ItemIEs,
   rANAP_RelocationInformationIEs,
   rAB_ContextItemIEs_RANAP_RelocInf,
   rANAP_EnhancedRelocationInformationRequestIEs,
   rAB_SetupItem_EnhRelocInfoReq_IEs,
   rANAP_EnhancedRelocationInformationResponseIEs,
   rAB_SetupItem_EnhRelocInfoRes_IEs,
   rAB_FailedItem_EnhRelocInfoRes_IEs,
   rAB_ModifyRequestIEs,
   rAB_ModifyItemIEs,
   locationRelatedDataRequestIEs,
   locationRelatedDataResponseIEs,
   locationRelatedDataFailureIEs,
   informationTransferIndicationIEs,
   informationTransferConfirmationIEs,
   informationTransferFailureIEs,
   uESpecificInformationIndicationIEs,
   directInformationTransferIEs,
   uplinkInformationExchangeRequestIEs,
   uplinkInformationExchangeResponseIEs,
   uplinkInformationExchangeFailureIEs,
   mBMSSessionStartIEs,
   mBMSSessionStartResponseIEs,
   mBMSSessionStartFailureIEs,
   mBMSSessionUpdateIEs,
   mBMSSessionUpdateResponseIEs,
   mBMSSessionUpdateFailureIEs,
   mBMSSessionStopIEs,
   mBMSSessionStopResponseIEs,
   mBMSUELinkingRequestIEs,
   mBMSUELinkingResponseIEs,
   mBMSRegistrationRequestIEs,
   mBMSRegistrationResponseIEs,
   mBMSRegistrationFailureIEs,
   mBMSCNDe_RegistrationRequestIEs,
   mBMSCNDe_RegistrationResponseIEs,
   mBMSRABEstablishmentIndicationIEs,
   mBMSRABReleaseRequestIEs,
   mBMSRABReleaseIEs,
   mBMSRABReleaseFailureIEs,
   sRVCC_CSKeysResponseIEs,
   ueRadioCapabilityMatchResponseIEs]

end Verif.Gen.Ranap
