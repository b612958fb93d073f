import Verif.Spec.AsnIes

/-!
# The information elements the ASN.1 specifications list

All object sets of the classes `RANAP-PROTOCOL-IES`, `RUA-PROTOCOL-IES`, `HNBAP-PROTOCOL-IES` and
`SABP-PROTOCOL-IES` in `/repo/asn1/*/*-PDU-Contents.asn`, read by a script that splits the text into
ASN.1 tokens (comments and line breaks do not matter) and shares nothing with `asn1tostruct.py`.
A stray `} |` that follows a comment in `InitialUE-MessageIEs` (RANAP-PDU-Contents.asn) is skipped.
The ids are those of `/repo/asn1/*/*-Constants.asn`.
-/

namespace Verif.Gen.Asn
open Verif.Ie.Spec

/-- Object sets of asn1/ranap/RANAP-PDU-Contents.asn. -/
def ranap : List AsnSet := [
  ⟨"Iu-ReleaseCommandIEs", [   -- line 452
    ⟨"id-Cause", 4, 1, false⟩]⟩,
  ⟨"Iu-ReleaseCompleteIEs", [   -- line 476
    ⟨"id-RAB-DataVolumeReportList", 31, 1, true⟩,
    ⟨"id-RAB-ReleasedList-IuRelComp", 44, 1, true⟩,
    ⟨"id-CriticalityDiagnostics", 9, 1, true⟩]⟩,
  ⟨"RAB-DataVolumeReportItemIEs", [   -- line 485
    ⟨"id-RAB-DataVolumeReportItem", 30, 1, false⟩]⟩,
  ⟨"RAB-ReleasedItem-IuRelComp-IEs", [   -- line 504
    ⟨"id-RAB-ReleasedItem-IuRelComp", 87, 1, false⟩]⟩,
  ⟨"RelocationRequiredIEs", [   -- line 544
    ⟨"id-RelocationType", 56, 0, false⟩,
    ⟨"id-Cause", 4, 1, false⟩,
    ⟨"id-SourceID", 60, 1, false⟩,
    ⟨"id-TargetID", 62, 0, false⟩,
    ⟨"id-ClassmarkInformation2", 7, 0, true⟩,
    ⟨"id-ClassmarkInformation3", 8, 1, true⟩,
    ⟨"id-Source-ToTarget-TransparentContainer", 61, 0, true⟩,
    ⟨"id-OldBSS-ToNewBSS-Information", 20, 1, true⟩]⟩,
  ⟨"RelocationCommandIEs", [   -- line 587
    ⟨"id-Target-ToSource-TransparentContainer", 63, 0, true⟩,
    ⟨"id-L3-Information", 14, 1, true⟩,
    ⟨"id-RAB-RelocationReleaseList", 46, 1, true⟩,
    ⟨"id-RAB-DataForwardingList", 28, 1, true⟩,
    ⟨"id-CriticalityDiagnostics", 9, 1, true⟩]⟩,
  ⟨"RAB-RelocationReleaseItemIEs", [   -- line 599
    ⟨"id-RAB-RelocationReleaseItem", 45, 1, false⟩]⟩,
  ⟨"RAB-DataForwardingItemIEs", [   -- line 616
    ⟨"id-RAB-DataForwardingItem", 26, 1, false⟩]⟩,
  ⟨"RelocationPreparationFailureIEs", [   -- line 660
    ⟨"id-Cause", 4, 1, false⟩,
    ⟨"id-CriticalityDiagnostics", 9, 1, true⟩]⟩,
  ⟨"RelocationRequestIEs", [   -- line 690
    ⟨"id-PermanentNAS-UE-ID", 23, 1, true⟩,
    ⟨"id-Cause", 4, 1, false⟩,
    ⟨"id-CN-DomainIndicator", 3, 0, false⟩,
    ⟨"id-Source-ToTarget-TransparentContainer", 61, 0, false⟩,
    ⟨"id-RAB-SetupList-RelocReq", 49, 0, true⟩,
    ⟨"id-IntegrityProtectionInformation", 12, 1, true⟩,
    ⟨"id-EncryptionInformation", 11, 1, true⟩,
    ⟨"id-IuSigConId", 79, 1, false⟩]⟩,
  ⟨"RAB-SetupItem-RelocReq-IEs", [   -- line 704
    ⟨"id-RAB-SetupItem-RelocReq", 47, 0, false⟩]⟩,
  ⟨"RelocationRequestAcknowledgeIEs", [   -- line 808
    ⟨"id-Target-ToSource-TransparentContainer", 63, 1, true⟩,
    ⟨"id-RAB-SetupList-RelocReqAck", 50, 1, true⟩,
    ⟨"id-RAB-FailedList", 35, 1, true⟩,
    ⟨"id-ChosenIntegrityProtectionAlgorithm", 6, 1, true⟩,
    ⟨"id-ChosenEncryptionAlgorithm", 5, 1, true⟩,
    ⟨"id-CriticalityDiagnostics", 9, 1, true⟩]⟩,
  ⟨"RAB-SetupItem-RelocReqAck-IEs", [   -- line 820
    ⟨"id-RAB-SetupItem-RelocReqAck", 48, 0, false⟩]⟩,
  ⟨"RAB-FailedItemIEs", [   -- line 844
    ⟨"id-RAB-FailedItem", 34, 1, false⟩]⟩,
  ⟨"RelocationFailureIEs", [   -- line 879
    ⟨"id-Cause", 4, 1, false⟩,
    ⟨"id-CriticalityDiagnostics", 9, 1, true⟩]⟩,
  ⟨"RelocationCancelIEs", [   -- line 911
    ⟨"id-Cause", 4, 1, false⟩]⟩,
  ⟨"RelocationCancelAcknowledgeIEs", [   -- line 932
    ⟨"id-CriticalityDiagnostics", 9, 1, true⟩]⟩,
  ⟨"SRNS-ContextRequestIEs", [   -- line 959
    ⟨"id-RAB-DataForwardingList-SRNS-CtxReq", 29, 1, false⟩]⟩,
  ⟨"RAB-DataForwardingItem-SRNS-CtxReq-IEs", [   -- line 966
    ⟨"id-RAB-DataForwardingItem-SRNS-CtxReq", 27, 0, false⟩]⟩,
  ⟨"SRNS-ContextResponseIEs", [   -- line 999
    ⟨"id-RAB-ContextList", 25, 1, true⟩,
    ⟨"id-RAB-ContextFailedtoTransferList", 85, 1, true⟩,
    ⟨"id-CriticalityDiagnostics", 9, 1, true⟩]⟩,
  ⟨"RAB-ContextItemIEs", [   -- line 1008
    ⟨"id-RAB-ContextItem", 24, 1, false⟩]⟩,
  ⟨"RABs-ContextFailedtoTransferItemIEs", [   -- line 1029
    ⟨"id-RAB-ContextFailedtoTransferItem", 84, 1, false⟩]⟩,
  ⟨"SecurityModeCommandIEs", [   -- line 1068
    ⟨"id-IntegrityProtectionInformation", 12, 0, false⟩,
    ⟨"id-EncryptionInformation", 11, 1, true⟩,
    ⟨"id-KeyStatus", 75, 0, false⟩]⟩,
  ⟨"SecurityModeCompleteIEs", [   -- line 1091
    ⟨"id-ChosenIntegrityProtectionAlgorithm", 6, 0, false⟩,
    ⟨"id-ChosenEncryptionAlgorithm", 5, 1, true⟩,
    ⟨"id-CriticalityDiagnostics", 9, 1, true⟩]⟩,
  ⟨"SecurityModeRejectIEs", [   -- line 1114
    ⟨"id-Cause", 4, 1, false⟩,
    ⟨"id-CriticalityDiagnostics", 9, 1, true⟩]⟩,
  ⟨"DataVolumeReportRequestIEs", [   -- line 1142
    ⟨"id-RAB-DataVolumeReportRequestList", 33, 1, false⟩]⟩,
  ⟨"RAB-DataVolumeReportRequestItemIEs", [   -- line 1149
    ⟨"id-RAB-DataVolumeReportRequestItem", 32, 0, false⟩]⟩,
  ⟨"DataVolumeReportIEs", [   -- line 1180
    ⟨"id-RAB-DataVolumeReportList", 31, 1, true⟩,
    ⟨"id-RAB-FailedtoReportList", 72, 1, true⟩,
    ⟨"id-CriticalityDiagnostics", 9, 1, true⟩]⟩,
  ⟨"RABs-failed-to-reportItemIEs", [   -- line 1193
    ⟨"id-RAB-FailedtoReportItem", 71, 1, false⟩]⟩,
  ⟨"ResetIEs", [   -- line 1229
    ⟨"id-Cause", 4, 1, false⟩,
    ⟨"id-CN-DomainIndicator", 3, 0, false⟩,
    ⟨"id-GlobalRNC-ID", 86, 1, true⟩]⟩,
  ⟨"ResetAcknowledgeIEs", [   -- line 1256
    ⟨"id-CN-DomainIndicator", 3, 0, false⟩,
    ⟨"id-CriticalityDiagnostics", 9, 1, true⟩,
    ⟨"id-GlobalRNC-ID", 86, 1, true⟩]⟩,
  ⟨"ResetResourceIEs", [   -- line 1289
    ⟨"id-CN-DomainIndicator", 3, 0, false⟩,
    ⟨"id-Cause", 4, 1, false⟩,
    ⟨"id-IuSigConIdList", 77, 1, false⟩,
    ⟨"id-GlobalRNC-ID", 86, 1, true⟩]⟩,
  ⟨"ResetResourceItemIEs", [   -- line 1299
    ⟨"id-IuSigConIdItem", 78, 0, false⟩]⟩,
  ⟨"ResetResourceAcknowledgeIEs", [   -- line 1334
    ⟨"id-CN-DomainIndicator", 3, 0, false⟩,
    ⟨"id-IuSigConIdList", 77, 1, false⟩,
    ⟨"id-GlobalRNC-ID", 86, 1, true⟩,
    ⟨"id-CriticalityDiagnostics", 9, 1, true⟩]⟩,
  ⟨"ResetResourceAckItemIEs", [   -- line 1343
    ⟨"id-IuSigConIdItem", 78, 0, false⟩]⟩,
  ⟨"RAB-ReleaseRequestIEs", [   -- line 1384
    ⟨"id-RAB-ReleaseList", 41, 1, false⟩]⟩,
  ⟨"RAB-ReleaseItemIEs", [   -- line 1391
    ⟨"id-RAB-ReleaseItem", 40, 1, false⟩]⟩,
  ⟨"Iu-ReleaseRequestIEs", [   -- line 1429
    ⟨"id-Cause", 4, 1, false⟩]⟩,
  ⟨"EnhancedRelocationCompleteRequestIEs", [   -- line 1514
    ⟨"id-OldIuSigConId", 196, 0, false⟩,
    ⟨"id-IuSigConId", 79, 0, false⟩,
    ⟨"id-Relocation-SourceRNC-ID", 222, 1, false⟩,
    ⟨"id-Relocation-SourceExtendedRNC-ID", 223, 1, true⟩,
    ⟨"id-Relocation-TargetRNC-ID", 212, 0, false⟩,
    ⟨"id-Relocation-TargetExtendedRNC-ID", 213, 0, true⟩,
    ⟨"id-RAB-SetupList-EnhancedRelocCompleteReq", 188, 0, true⟩]⟩,
  ⟨"RAB-SetupItem-EnhancedRelocCompleteReq-IEs", [   -- line 1527
    ⟨"id-RAB-SetupItem-EnhancedRelocCompleteReq", 189, 0, false⟩]⟩,
  ⟨"EnhancedRelocationCompleteResponseIEs", [   -- line 1572
    ⟨"id-RAB-SetupList-EnhancedRelocCompleteRes", 190, 1, true⟩,
    ⟨"id-RAB-ToBeReleasedList-EnhancedRelocCompleteRes", 210, 1, true⟩,
    ⟨"id-CriticalityDiagnostics", 9, 1, true⟩]⟩,
  ⟨"RAB-SetupItem-EnhancedRelocCompleteRes-IEs", [   -- line 1581
    ⟨"id-RAB-SetupItem-EnhancedRelocCompleteRes", 191, 0, false⟩]⟩,
  ⟨"RAB-ToBeReleasedItem-EnhancedRelocCompleteRes-IEs", [   -- line 1605
    ⟨"id-RAB-ToBeReleasedItem-EnhancedRelocCompleteRes", 209, 1, false⟩]⟩,
  ⟨"EnhancedRelocationCompleteFailureIEs", [   -- line 1642
    ⟨"id-Cause", 4, 1, false⟩,
    ⟨"id-CriticalityDiagnostics", 9, 1, true⟩]⟩,
  ⟨"EnhancedRelocationCompleteConfirmIEs", [   -- line 1664
    ⟨"id-RAB-FailedList", 35, 1, true⟩]⟩,
  ⟨"PagingIEs", [   -- line 1692
    ⟨"id-CN-DomainIndicator", 3, 1, false⟩,
    ⟨"id-PermanentNAS-UE-ID", 23, 1, false⟩,
    ⟨"id-TemporaryUE-ID", 64, 1, true⟩,
    ⟨"id-PagingAreaID", 21, 1, true⟩,
    ⟨"id-PagingCause", 22, 1, true⟩,
    ⟨"id-NonSearchingIndication", 17, 1, true⟩,
    ⟨"id-DRX-CycleLengthCoefficient", 76, 1, true⟩]⟩,
  ⟨"CommonID-IEs", [   -- line 1729
    ⟨"id-PermanentNAS-UE-ID", 23, 1, false⟩]⟩,
  ⟨"CN-InvokeTraceIEs", [   -- line 1776
    ⟨"id-TraceType", 66, 1, true⟩,
    ⟨"id-TraceReference", 65, 1, false⟩,
    ⟨"id-TriggerID", 68, 1, true⟩,
    ⟨"id-UE-ID", 69, 1, true⟩,
    ⟨"id-OMC-ID", 19, 1, true⟩]⟩,
  ⟨"CN-DeactivateTraceIEs", [   -- line 1817
    ⟨"id-TraceReference", 65, 1, false⟩,
    ⟨"id-TriggerID", 68, 1, true⟩]⟩,
  ⟨"LocationReportingControlIEs", [   -- line 1846
    ⟨"id-RequestType", 57, 1, false⟩]⟩,
  ⟨"LocationReportIEs", [   -- line 1885
    ⟨"id-AreaIdentity", 0, 1, true⟩,
    ⟨"id-Cause", 4, 1, true⟩,
    ⟨"id-RequestType", 57, 1, true⟩]⟩,
  ⟨"InitialUE-MessageIEs", [   -- line 1925
    ⟨"id-CN-DomainIndicator", 3, 1, false⟩,
    ⟨"id-LAI", 15, 1, false⟩,
    ⟨"id-RAC", 55, 1, true⟩,
    ⟨"id-SAI", 58, 1, false⟩,
    ⟨"id-NAS-PDU", 16, 1, false⟩,
    ⟨"id-IuSigConId", 79, 1, false⟩,
    ⟨"id-GlobalRNC-ID", 86, 1, false⟩]⟩,
  ⟨"DirectTransferIEs", [   -- line 1985
    ⟨"id-NAS-PDU", 16, 1, false⟩,
    ⟨"id-LAI", 15, 1, true⟩,
    ⟨"id-RAC", 55, 1, true⟩,
    ⟨"id-SAI", 58, 1, true⟩,
    ⟨"id-SAPI", 59, 1, true⟩]⟩,
  ⟨"RedirectionIndication-IEs", [   -- line 2012
    ⟨"id-NAS-PDU", 16, 1, false⟩,
    ⟨"id-RejectCauseValue", 131, 1, false⟩,
    ⟨"id-NAS-SequenceNumber", 130, 1, true⟩,
    ⟨"id-PermanentNAS-UE-ID", 23, 1, true⟩]⟩,
  ⟨"OverloadIEs", [   -- line 2038
    ⟨"id-NumberOfSteps", 18, 1, true⟩,
    ⟨"id-GlobalRNC-ID", 86, 1, true⟩]⟩,
  ⟨"ErrorIndicationIEs", [   -- line 2074
    ⟨"id-Cause", 4, 1, true⟩,
    ⟨"id-CriticalityDiagnostics", 9, 1, true⟩,
    ⟨"id-CN-DomainIndicator", 3, 1, true⟩,
    ⟨"id-GlobalRNC-ID", 86, 1, true⟩]⟩,
  ⟨"SRNS-DataForwardCommandIEs", [   -- line 2108
    ⟨"id-RAB-DataForwardingList", 28, 1, true⟩]⟩,
  ⟨"ForwardSRNS-ContextIEs", [   -- line 2135
    ⟨"id-RAB-ContextList", 25, 1, false⟩]⟩,
  ⟨"RAB-AssignmentRequestIEs", [   -- line 2164
    ⟨"id-RAB-SetupOrModifyList", 54, 1, true⟩,
    ⟨"id-RAB-ReleaseList", 41, 1, true⟩]⟩,
  ⟨"RAB-AssignmentResponseIEs", [   -- line 2253
    ⟨"id-RAB-SetupOrModifiedList", 52, 1, true⟩,
    ⟨"id-RAB-ReleasedList", 43, 1, true⟩,
    ⟨"id-RAB-QueuedList", 38, 1, true⟩,
    ⟨"id-RAB-FailedList", 35, 1, true⟩,
    ⟨"id-RAB-ReleaseFailedList", 39, 1, true⟩,
    ⟨"id-CriticalityDiagnostics", 9, 1, true⟩]⟩,
  ⟨"RAB-SetupOrModifiedItemIEs", [   -- line 2265
    ⟨"id-RAB-SetupOrModifiedItem", 51, 1, false⟩]⟩,
  ⟨"RAB-ReleasedItemIEs", [   -- line 2287
    ⟨"id-RAB-ReleasedItem", 42, 1, false⟩]⟩,
  ⟨"RAB-QueuedItemIEs", [   -- line 2320
    ⟨"id-RAB-QueuedItem", 37, 1, false⟩]⟩,
  ⟨"GERAN-Iumode-RAB-Failed-RABAssgntResponse-ItemIEs", [   -- line 2345
    ⟨"id-GERAN-Iumode-RAB-Failed-RABAssgntResponse-Item", 109, 1, false⟩]⟩,
  ⟨"RANAP-RelocationInformationIEs", [   -- line 2389
    ⟨"id-DirectTransferInformationList-RANAP-RelocInf", 81, 1, true⟩,
    ⟨"id-RAB-ContextList-RANAP-RelocInf", 83, 1, true⟩]⟩,
  ⟨"DirectTransferInformationItemIEs-RANAP-RelocInf", [   -- line 2399
    ⟨"id-DirectTransferInformationItem-RANAP-RelocInf", 80, 1, false⟩]⟩,
  ⟨"RAB-ContextItemIEs-RANAP-RelocInf", [   -- line 2420
    ⟨"id-RAB-ContextItem-RANAP-RelocInf", 82, 1, false⟩]⟩,
  ⟨"RANAP-EnhancedRelocationInformationRequestIEs", [   -- line 2465
    ⟨"id-Source-ToTarget-TransparentContainer", 61, 0, false⟩,
    ⟨"id-OldIuSigConIdCS", 204, 1, true⟩,
    ⟨"id-GlobalCN-IDCS", 206, 0, true⟩,
    ⟨"id-OldIuSigConIdPS", 205, 1, true⟩,
    ⟨"id-GlobalCN-IDPS", 207, 0, true⟩,
    ⟨"id-RAB-SetupList-EnhRelocInfoReq", 192, 0, true⟩,
    ⟨"id-SNA-Access-Information", 105, 1, true⟩,
    ⟨"id-UESBI-Iu", 118, 1, true⟩,
    ⟨"id-SelectedPLMN-ID", 127, 1, true⟩,
    ⟨"id-CNMBMSLinkingInformation", 133, 1, true⟩]⟩,
  ⟨"RAB-SetupItem-EnhRelocInfoReq-IEs", [   -- line 2481
    ⟨"id-RAB-SetupItem-EnhRelocInfoReq", 193, 0, false⟩]⟩,
  ⟨"RANAP-EnhancedRelocationInformationResponseIEs", [   -- line 2549
    ⟨"id-Target-ToSource-TransparentContainer", 63, 1, true⟩,
    ⟨"id-RAB-SetupList-EnhRelocInfoRes", 194, 1, true⟩,
    ⟨"id-RAB-FailedList-EnhRelocInfoRes", 197, 1, true⟩,
    ⟨"id-CriticalityDiagnostics", 9, 1, true⟩]⟩,
  ⟨"RAB-SetupItem-EnhRelocInfoRes-IEs", [   -- line 2559
    ⟨"id-RAB-SetupItem-EnhRelocInfoRes", 195, 0, false⟩]⟩,
  ⟨"RAB-FailedItem-EnhRelocInfoRes-IEs", [   -- line 2579
    ⟨"id-RAB-FailedItem-EnhRelocInfoRes", 198, 0, false⟩]⟩,
  ⟨"RAB-ModifyRequestIEs", [   -- line 2627
    ⟨"id-RAB-ModifyList", 91, 1, false⟩]⟩,
  ⟨"RAB-ModifyItemIEs", [   -- line 2634
    ⟨"id-RAB-ModifyItem", 92, 1, false⟩]⟩,
  ⟨"LocationRelatedDataRequestIEs", [   -- line 2672
    ⟨"id-LocationRelatedDataRequestType", 95, 0, true⟩]⟩,
  ⟨"LocationRelatedDataResponseIEs", [   -- line 2700
    ⟨"id-BroadcastAssistanceDataDecipheringKeys", 94, 1, true⟩]⟩,
  ⟨"LocationRelatedDataFailureIEs", [   -- line 2724
    ⟨"id-Cause", 4, 1, false⟩]⟩,
  ⟨"InformationTransferIndicationIEs", [   -- line 2753
    ⟨"id-InformationTransferID", 104, 0, false⟩,
    ⟨"id-ProvidedData", 106, 0, false⟩,
    ⟨"id-CN-DomainIndicator", 3, 0, false⟩,
    ⟨"id-GlobalCN-ID", 96, 1, true⟩]⟩,
  ⟨"InformationTransferConfirmationIEs", [   -- line 2777
    ⟨"id-InformationTransferID", 104, 1, false⟩,
    ⟨"id-CN-DomainIndicator", 3, 1, false⟩,
    ⟨"id-CriticalityDiagnostics", 9, 1, true⟩,
    ⟨"id-GlobalRNC-ID", 86, 1, false⟩]⟩,
  ⟨"InformationTransferFailureIEs", [   -- line 2803
    ⟨"id-InformationTransferID", 104, 1, false⟩,
    ⟨"id-CN-DomainIndicator", 3, 1, false⟩,
    ⟨"id-Cause", 4, 1, false⟩,
    ⟨"id-CriticalityDiagnostics", 9, 1, true⟩,
    ⟨"id-GlobalRNC-ID", 86, 1, false⟩]⟩,
  ⟨"UESpecificInformationIndicationIEs", [   -- line 2836
    ⟨"id-UESBI-Iu", 118, 1, true⟩]⟩,
  ⟨"DirectInformationTransferIEs", [   -- line 2863
    ⟨"id-InterSystemInformationTransferType", 126, 1, true⟩,
    ⟨"id-CN-DomainIndicator", 3, 1, false⟩,
    ⟨"id-GlobalRNC-ID", 86, 1, true⟩,
    ⟨"id-GlobalCN-ID", 96, 1, true⟩]⟩,
  ⟨"UplinkInformationExchangeRequestIEs", [   -- line 2895
    ⟨"id-InformationExchangeID", 136, 0, false⟩,
    ⟨"id-InformationExchangeType", 137, 0, false⟩,
    ⟨"id-InformationTransferType", 123, 0, true⟩,
    ⟨"id-InformationRequestType", 139, 0, true⟩,
    ⟨"id-CN-DomainIndicator", 3, 0, false⟩,
    ⟨"id-GlobalRNC-ID", 86, 0, false⟩]⟩,
  ⟨"UplinkInformationExchangeResponseIEs", [   -- line 2925
    ⟨"id-InformationExchangeID", 136, 1, false⟩,
    ⟨"id-InformationRequested", 138, 1, true⟩,
    ⟨"id-CN-DomainIndicator", 3, 1, false⟩,
    ⟨"id-GlobalCN-ID", 96, 1, true⟩,
    ⟨"id-CriticalityDiagnostics", 9, 1, true⟩]⟩,
  ⟨"UplinkInformationExchangeFailureIEs", [   -- line 2950
    ⟨"id-InformationExchangeID", 136, 1, false⟩,
    ⟨"id-CN-DomainIndicator", 3, 1, false⟩,
    ⟨"id-GlobalCN-ID", 96, 1, true⟩,
    ⟨"id-Cause", 4, 1, false⟩,
    ⟨"id-CriticalityDiagnostics", 9, 1, true⟩]⟩,
  ⟨"MBMSSessionStartIEs", [   -- line 2981
    ⟨"id-TMGI", 153, 0, false⟩,
    ⟨"id-MBMSSessionIdentity", 147, 1, true⟩,
    ⟨"id-MBMSBearerServiceType", 143, 0, false⟩,
    ⟨"id-IuSigConId", 79, 0, false⟩,
    ⟨"id-RAB-Parameters", 149, 0, false⟩,
    ⟨"id-PDP-TypeInformation", 148, 1, true⟩,
    ⟨"id-MBMSSessionDuration", 146, 0, false⟩,
    ⟨"id-MBMSServiceArea", 145, 0, false⟩,
    ⟨"id-FrequenceLayerConvergenceFlag", 135, 1, true⟩,
    ⟨"id-RAListofIdleModeUEs", 150, 1, true⟩,
    ⟨"id-GlobalCN-ID", 96, 0, true⟩,
    ⟨"id-MBMSSessionRepetitionNumber", 157, 1, true⟩,
    ⟨"id-TimeToMBMSDataTransfer", 163, 0, false⟩]⟩,
  ⟨"MBMSSessionStartResponseIEs", [   -- line 3034
    ⟨"id-TransportLayerInformation", 154, 1, true⟩,
    ⟨"id-Cause", 4, 1, true⟩,
    ⟨"id-CriticalityDiagnostics", 9, 1, true⟩]⟩,
  ⟨"MBMSSessionStartFailureIEs", [   -- line 3057
    ⟨"id-Cause", 4, 1, false⟩,
    ⟨"id-CriticalityDiagnostics", 9, 1, true⟩]⟩,
  ⟨"MBMSSessionUpdateIEs", [   -- line 3085
    ⟨"id-SessionUpdateID", 152, 0, false⟩,
    ⟨"id-DeltaRAListofIdleModeUEs", 134, 0, false⟩]⟩,
  ⟨"MBMSSessionUpdateResponseIEs", [   -- line 3107
    ⟨"id-SessionUpdateID", 152, 1, false⟩,
    ⟨"id-TransportLayerInformation", 154, 1, true⟩,
    ⟨"id-Cause", 4, 1, true⟩,
    ⟨"id-CriticalityDiagnostics", 9, 1, true⟩]⟩,
  ⟨"MBMSSessionUpdateFailureIEs", [   -- line 3131
    ⟨"id-SessionUpdateID", 152, 1, false⟩,
    ⟨"id-Cause", 4, 1, false⟩,
    ⟨"id-CriticalityDiagnostics", 9, 1, true⟩]⟩,
  ⟨"MBMSSessionStopIEs", [   -- line 3160
    ⟨"id-MBMSCNDe-Registration", 144, 0, false⟩]⟩,
  ⟨"MBMSSessionStopResponseIEs", [   -- line 3181
    ⟨"id-Cause", 4, 1, true⟩,
    ⟨"id-CriticalityDiagnostics", 9, 1, true⟩]⟩,
  ⟨"MBMSUELinkingRequestIEs", [   -- line 3209
    ⟨"id-JoinedMBMSBearerServicesList", 141, 0, true⟩,
    ⟨"id-LeftMBMSBearerServicesList", 142, 0, true⟩]⟩,
  ⟨"MBMSUELinkingResponseIEs", [   -- line 3243
    ⟨"id-UnsuccessfulLinkingList", 155, 1, true⟩,
    ⟨"id-CriticalityDiagnostics", 9, 1, true⟩]⟩,
  ⟨"MBMSRegistrationRequestIEs", [   -- line 3284
    ⟨"id-MBMSRegistrationRequestType", 151, 0, false⟩,
    ⟨"id-TMGI", 153, 0, false⟩,
    ⟨"id-IPMulticastAddress", 140, 0, true⟩,
    ⟨"id-APN", 132, 0, true⟩,
    ⟨"id-GlobalRNC-ID", 86, 0, true⟩]⟩,
  ⟨"MBMSRegistrationResponseIEs", [   -- line 3313
    ⟨"id-TMGI", 153, 1, true⟩,
    ⟨"id-GlobalCN-ID", 96, 1, true⟩,
    ⟨"id-CriticalityDiagnostics", 9, 1, true⟩]⟩,
  ⟨"MBMSRegistrationFailureIEs", [   -- line 3336
    ⟨"id-TMGI", 153, 1, true⟩,
    ⟨"id-GlobalCN-ID", 96, 1, true⟩,
    ⟨"id-Cause", 4, 1, false⟩,
    ⟨"id-CriticalityDiagnostics", 9, 1, true⟩]⟩,
  ⟨"MBMSCNDe-RegistrationRequestIEs", [   -- line 3366
    ⟨"id-TMGI", 153, 0, false⟩,
    ⟨"id-GlobalCN-ID", 96, 0, true⟩]⟩,
  ⟨"MBMSCNDe-RegistrationResponseIEs", [   -- line 3388
    ⟨"id-TMGI", 153, 1, false⟩,
    ⟨"id-GlobalRNC-ID", 86, 1, false⟩,
    ⟨"id-Cause", 4, 1, true⟩,
    ⟨"id-CriticalityDiagnostics", 9, 1, true⟩]⟩,
  ⟨"MBMSRABEstablishmentIndicationIEs", [   -- line 3420
    ⟨"id-TransportLayerInformation", 154, 1, false⟩]⟩,
  ⟨"MBMSRABReleaseRequestIEs", [   -- line 3447
    ⟨"id-Cause", 4, 1, false⟩]⟩,
  ⟨"MBMSRABReleaseIEs", [   -- line 3469
    ⟨"id-Cause", 4, 1, false⟩,
    ⟨"id-CriticalityDiagnostics", 9, 1, true⟩]⟩,
  ⟨"MBMSRABReleaseFailureIEs", [   -- line 3491
    ⟨"id-Cause", 4, 1, false⟩,
    ⟨"id-CriticalityDiagnostics", 9, 1, true⟩]⟩,
  ⟨"SRVCC-CSKeysResponseIEs", [   -- line 3539
    ⟨"id-IntegrityProtectionKey", 225, 0, false⟩,
    ⟨"id-EncryptionKey", 224, 0, false⟩,
    ⟨"id-SRVCC-Information", 227, 0, false⟩,
    ⟨"id-CriticalityDiagnostics", 9, 1, true⟩]⟩,
  ⟨"UeRadioCapabilityMatchResponseIEs", [   -- line 3590
    ⟨"id-VoiceSupportMatchIndicator", 258, 0, false⟩]⟩]

/-- Object sets of asn1/rua/RUA-PDU-Contents.asn. -/
def rua : List AsnSet := [
  ⟨"ConnectIEs", [   -- line 68
    ⟨"id-CN-DomainIndicator", 7, 0, false⟩,
    ⟨"id-Context-ID", 3, 0, false⟩,
    ⟨"id-IntraDomainNasNodeSelector", 5, 1, true⟩,
    ⟨"id-Establishment-Cause", 6, 0, false⟩,
    ⟨"id-RANAP-Message", 4, 0, false⟩]⟩,
  ⟨"DirectTransferIEs", [   -- line 95
    ⟨"id-CN-DomainIndicator", 7, 0, false⟩,
    ⟨"id-Context-ID", 3, 0, false⟩,
    ⟨"id-RANAP-Message", 4, 0, false⟩]⟩,
  ⟨"DisconnectIEs", [   -- line 120
    ⟨"id-CN-DomainIndicator", 7, 0, false⟩,
    ⟨"id-Context-ID", 3, 0, false⟩,
    ⟨"id-Cause", 1, 0, false⟩,
    ⟨"id-RANAP-Message", 4, 0, true⟩]⟩,
  ⟨"ConnectionlessTransferIEs", [   -- line 145
    ⟨"id-RANAP-Message", 4, 0, false⟩]⟩,
  ⟨"ErrorIndicationIEs", [   -- line 169
    ⟨"id-Cause", 1, 1, false⟩,
    ⟨"id-CriticalityDiagnostics", 2, 1, true⟩]⟩]

/-- Object sets of asn1/hnbap/HNBAP-PDU-Contents.asn. -/
def hnbap : List AsnSet := [
  ⟨"HNBRegisterRequestIEs", [   -- line 135
    ⟨"id-HNB-Identity", 3, 0, false⟩,
    ⟨"id-HNB-Location-Information", 8, 0, false⟩,
    ⟨"id-PLMNidentity", 9, 0, false⟩,
    ⟨"id-CellIdentity", 11, 0, false⟩,
    ⟨"id-LAC", 6, 0, false⟩,
    ⟨"id-RAC", 7, 0, false⟩,
    ⟨"id-SAC", 10, 0, false⟩,
    ⟨"id-CSG-ID", 15, 0, true⟩]⟩,
  ⟨"HNBRegisterAcceptIEs", [   -- line 172
    ⟨"id-RNC-ID", 14, 0, false⟩]⟩,
  ⟨"HNBRegisterRejectIEs", [   -- line 197
    ⟨"id-Cause", 1, 1, false⟩,
    ⟨"id-CriticalityDiagnostics", 2, 1, true⟩,
    ⟨"id-BackoffTimer", 16, 0, true⟩]⟩,
  ⟨"HNBDe-RegisterIEs", [   -- line 223
    ⟨"id-Cause", 1, 1, false⟩,
    ⟨"id-BackoffTimer", 16, 0, true⟩]⟩,
  ⟨"UERegisterRequestIEs", [   -- line 247
    ⟨"id-UE-Identity", 5, 0, false⟩,
    ⟨"id-Registration-Cause", 12, 1, false⟩,
    ⟨"id-UE-Capabilities", 13, 0, false⟩]⟩,
  ⟨"UERegisterAcceptIEs", [   -- line 270
    ⟨"id-UE-Identity", 5, 0, false⟩,
    ⟨"id-Context-ID", 4, 0, false⟩]⟩,
  ⟨"UERegisterRejectIEs", [   -- line 294
    ⟨"id-UE-Identity", 5, 0, false⟩,
    ⟨"id-Cause", 1, 1, false⟩,
    ⟨"id-CriticalityDiagnostics", 2, 1, true⟩]⟩,
  ⟨"UEDe-RegisterIEs", [   -- line 318
    ⟨"id-Context-ID", 4, 0, false⟩,
    ⟨"id-Cause", 1, 1, false⟩]⟩,
  ⟨"CSGMembershipUpdateIEs", [   -- line 340
    ⟨"id-Context-ID", 4, 0, false⟩,
    ⟨"id-CSGMembershipStatus", 21, 0, false⟩]⟩,
  ⟨"TNLUpdateRequestIEs", [   -- line 362
    ⟨"id-Context-ID", 4, 0, false⟩,
    ⟨"id-RABList", 22, 0, false⟩,
    ⟨"id-Update-cause", 26, 0, false⟩]⟩,
  ⟨"TNLUpdateResponseIEs", [   -- line 385
    ⟨"id-Context-ID", 4, 0, false⟩]⟩,
  ⟨"TNLUpdateFailureIEs", [   -- line 406
    ⟨"id-Context-ID", 4, 0, false⟩,
    ⟨"id-Cause", 1, 1, false⟩,
    ⟨"id-CriticalityDiagnostics", 2, 1, true⟩]⟩,
  ⟨"HNBConfigTransferRequestIEs", [   -- line 429
    ⟨"id-NeighbourInfoRequestList", 28, 0, false⟩]⟩,
  ⟨"HNBConfigTransferResponseIEs", [   -- line 450
    ⟨"id-NeighbourInfoList", 27, 0, false⟩]⟩,
  ⟨"RelocationCompleteIEs", [   -- line 472
    ⟨"id-Context-ID", 4, 1, false⟩]⟩,
  ⟨"ErrorIndicationIEs", [   -- line 494
    ⟨"id-Cause", 1, 1, false⟩,
    ⟨"id-CriticalityDiagnostics", 2, 1, true⟩]⟩,
  ⟨"U-RNTIQueryRequestIEs", [   -- line 531
    ⟨"id-U-RNTI", 49, 0, false⟩]⟩,
  ⟨"U-RNTIQueryResponseIEs", [   -- line 552
    ⟨"id-HNB-GWResponse", 51, 0, false⟩]⟩]

/-- Object sets of asn1/sabp/SABP-PDU-Contents.asn. -/
def sabp : List AsnSet := [
  ⟨"Write-Replace-IEs", [   -- line 74
    ⟨"id-Message-Identifier", 6, 0, false⟩,
    ⟨"id-New-Serial-Number", 7, 0, false⟩,
    ⟨"id-Old-Serial-Number", 10, 1, true⟩,
    ⟨"id-Service-Areas-List", 15, 0, false⟩,
    ⟨"id-Category", 1, 1, true⟩,
    ⟨"id-Repetition-Period", 13, 0, false⟩,
    ⟨"id-Number-of-Broadcasts-Requested", 9, 0, false⟩,
    ⟨"id-Data-Coding-Scheme", 4, 0, false⟩,
    ⟨"id-Broadcast-Message-Content", 0, 0, false⟩]⟩,
  ⟨"Write-Replace-Complete-IEs", [   -- line 106
    ⟨"id-Message-Identifier", 6, 0, false⟩,
    ⟨"id-New-Serial-Number", 7, 0, false⟩,
    ⟨"id-Number-of-Broadcasts-Completed-List", 8, 0, false⟩,
    ⟨"id-Criticality-Diagnostics", 3, 1, true⟩]⟩,
  ⟨"Write-Replace-Failure-IEs", [   -- line 129
    ⟨"id-Message-Identifier", 6, 0, false⟩,
    ⟨"id-New-Serial-Number", 7, 0, false⟩,
    ⟨"id-Failure-List", 5, 0, false⟩,
    ⟨"id-Number-of-Broadcasts-Completed-List", 8, 1, true⟩,
    ⟨"id-Criticality-Diagnostics", 3, 1, true⟩]⟩,
  ⟨"Kill-IEs", [   -- line 153
    ⟨"id-Message-Identifier", 6, 0, false⟩,
    ⟨"id-Old-Serial-Number", 10, 0, false⟩,
    ⟨"id-Service-Areas-List", 15, 0, false⟩]⟩,
  ⟨"Kill-Complete-IEs", [   -- line 172
    ⟨"id-Message-Identifier", 6, 0, false⟩,
    ⟨"id-Old-Serial-Number", 10, 0, false⟩,
    ⟨"id-Number-of-Broadcasts-Completed-List", 8, 0, false⟩,
    ⟨"id-Criticality-Diagnostics", 3, 1, true⟩]⟩,
  ⟨"Kill-Failure-IEs", [   -- line 195
    ⟨"id-Message-Identifier", 6, 0, false⟩,
    ⟨"id-Old-Serial-Number", 10, 0, false⟩,
    ⟨"id-Failure-List", 5, 0, false⟩,
    ⟨"id-Number-of-Broadcasts-Completed-List", 8, 1, true⟩,
    ⟨"id-Criticality-Diagnostics", 3, 1, true⟩]⟩,
  ⟨"Load-Query-IEs", [   -- line 219
    ⟨"id-Service-Areas-List", 15, 0, false⟩]⟩,
  ⟨"Load-Query-Complete-IEs", [   -- line 236
    ⟨"id-Radio-Resource-Loading-List", 11, 0, false⟩,
    ⟨"id-Criticality-Diagnostics", 3, 1, true⟩]⟩,
  ⟨"Load-Query-Failure-IEs", [   -- line 257
    ⟨"id-Failure-List", 5, 0, false⟩,
    ⟨"id-Radio-Resource-Loading-List", 11, 1, true⟩,
    ⟨"id-Criticality-Diagnostics", 3, 1, true⟩]⟩,
  ⟨"Message-Status-Query-IEs", [   -- line 279
    ⟨"id-Message-Identifier", 6, 0, false⟩,
    ⟨"id-Old-Serial-Number", 10, 0, false⟩,
    ⟨"id-Service-Areas-List", 15, 0, false⟩]⟩,
  ⟨"Message-Status-Query-Complete-IEs", [   -- line 298
    ⟨"id-Message-Identifier", 6, 0, false⟩,
    ⟨"id-Old-Serial-Number", 10, 0, false⟩,
    ⟨"id-Number-of-Broadcasts-Completed-List", 8, 0, false⟩,
    ⟨"id-Criticality-Diagnostics", 3, 1, true⟩]⟩,
  ⟨"Message-Status-Query-Failure-IEs", [   -- line 321
    ⟨"id-Message-Identifier", 6, 0, false⟩,
    ⟨"id-Failure-List", 5, 0, false⟩,
    ⟨"id-Old-Serial-Number", 10, 0, false⟩,
    ⟨"id-Number-of-Broadcasts-Completed-List", 8, 1, true⟩,
    ⟨"id-Criticality-Diagnostics", 3, 1, true⟩]⟩,
  ⟨"Reset-IEs", [   -- line 345
    ⟨"id-Service-Areas-List", 15, 0, false⟩]⟩,
  ⟨"Reset-Complete-IEs", [   -- line 362
    ⟨"id-Service-Areas-List", 15, 0, false⟩,
    ⟨"id-Criticality-Diagnostics", 3, 1, true⟩]⟩,
  ⟨"Reset-Failure-IEs", [   -- line 381
    ⟨"id-Failure-List", 5, 0, false⟩,
    ⟨"id-Service-Areas-List", 15, 0, true⟩,
    ⟨"id-Criticality-Diagnostics", 3, 1, true⟩]⟩,
  ⟨"Restart-IEs", [   -- line 401
    ⟨"id-Service-Areas-List", 15, 1, false⟩,
    ⟨"id-Recovery-Indication", 12, 1, true⟩]⟩,
  ⟨"Failure-IEs", [   -- line 419
    ⟨"id-Service-Areas-List", 15, 1, false⟩]⟩,
  ⟨"Error-Indication-IEs", [   -- line 436
    ⟨"id-Message-Identifier", 6, 1, true⟩,
    ⟨"id-Serial-Number", 14, 1, true⟩,
    ⟨"id-Cause", 2, 1, true⟩,
    ⟨"id-Criticality-Diagnostics", 3, 1, true⟩]⟩]

end Verif.Gen.Asn
