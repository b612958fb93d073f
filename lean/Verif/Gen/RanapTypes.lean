import Verif.Model.Aper

/-!
# Type descriptors of RANAP

Transcribed by a script from the descriptors `asn_DEF_*` in `/repo/src/ranap/*.c` (per-descriptor
citation in front of each definition): the PDU, the message containers and the types of all
information elements in the tables of `Verif/Gen/RanapIes.lean`, with what they refer to.
-/

namespace Verif.Gen.Ranap
open Verif.Aper

/-- `asn_DEF_RANAP_Criticality`, src/ranap/RANAP_Criticality.c:143 -/
def RANAP_Criticality : Ty := .enum 3 3 false
/-- `asn_DEF_RANAP_ProcedureCode`, src/ranap/RANAP_ProcedureCode.c:141 -/
def RANAP_ProcedureCode : Ty := .int ⟨0, 255, false⟩
/-- `asn_DEF_RANAP_Outcome`, src/ranap/RANAP_Outcome.c:56 -/
def RANAP_Outcome : Ty := .seq false (.cons false RANAP_ProcedureCode (.cons false RANAP_Criticality (.cons false (.any) .nil)))
/-- `asn_DEF_RANAP_UnsuccessfulOutcome`, src/ranap/RANAP_UnsuccessfulOutcome.c:56 -/
def RANAP_UnsuccessfulOutcome : Ty := .seq false (.cons false RANAP_ProcedureCode (.cons false RANAP_Criticality (.cons false (.any) .nil)))
/-- `asn_DEF_RANAP_SuccessfulOutcome`, src/ranap/RANAP_SuccessfulOutcome.c:56 -/
def RANAP_SuccessfulOutcome : Ty := .seq false (.cons false RANAP_ProcedureCode (.cons false RANAP_Criticality (.cons false (.any) .nil)))
/-- `asn_DEF_RANAP_InitiatingMessage`, src/ranap/RANAP_InitiatingMessage.c:56 -/
def RANAP_InitiatingMessage : Ty := .seq false (.cons false RANAP_ProcedureCode (.cons false RANAP_Criticality (.cons false (.any) .nil)))
/-- `asn_DEF_RANAP_RANAP_PDU`, src/ranap/RANAP_RANAP-PDU.c:69 -/
def RANAP_RANAP_PDU : Ty := .choice true (.cons false RANAP_InitiatingMessage (.cons false RANAP_SuccessfulOutcome (.cons false RANAP_UnsuccessfulOutcome (.cons false RANAP_Outcome .nil)))) .nil
/-- `asn_DEF_RANAP_ProtocolIE_ID`, src/ranap/RANAP_ProtocolIE-ID.c:141 -/
def RANAP_ProtocolIE_ID : Ty := .int ⟨0, 65535, false⟩
/-- `asn_DEF_RANAP_IE`, src/ranap/RANAP_IE.c:56 -/
def RANAP_IE : Ty := .seq false (.cons false RANAP_ProtocolIE_ID (.cons false RANAP_Criticality (.cons false (.any) .nil)))
/-- `asn_DEF_iu_ReleaseCommand_ies_2`, src/ranap/RANAP_Iu-ReleaseCommand.c:67 -/
def RANAP_Iu_ReleaseCommand__iu_ReleaseCommand_ies_2 : Ty := .seqOf (some ⟨0, 65535, false⟩) RANAP_IE
/-- `asn_DEF_RANAP_Iu_ReleaseCommand`, src/ranap/RANAP_Iu-ReleaseCommand.c:120 -/
def RANAP_Iu_ReleaseCommand : Ty := .seq true (.cons false RANAP_Iu_ReleaseCommand__iu_ReleaseCommand_ies_2 .nil)
/-- `asn_DEF_RANAP_CauseNon_Standard`, src/ranap/RANAP_CauseNon-Standard.c:141 -/
def RANAP_CauseNon_Standard : Ty := .int ⟨129, 256, false⟩
/-- `asn_DEF_RANAP_CauseMisc`, src/ranap/RANAP_CauseMisc.c:141 -/
def RANAP_CauseMisc : Ty := .int ⟨113, 128, false⟩
/-- `asn_DEF_RANAP_CauseProtocol`, src/ranap/RANAP_CauseProtocol.c:141 -/
def RANAP_CauseProtocol : Ty := .int ⟨97, 112, false⟩
/-- `asn_DEF_RANAP_CauseNAS`, src/ranap/RANAP_CauseNAS.c:141 -/
def RANAP_CauseNAS : Ty := .int ⟨81, 96, false⟩
/-- `asn_DEF_RANAP_CauseTransmissionNetwork`, src/ranap/RANAP_CauseTransmissionNetwork.c:141 -/
def RANAP_CauseTransmissionNetwork : Ty := .int ⟨65, 80, false⟩
/-- `asn_DEF_RANAP_CauseRadioNetwork`, src/ranap/RANAP_CauseRadioNetwork.c:141 -/
def RANAP_CauseRadioNetwork : Ty := .int ⟨1, 64, false⟩
/-- `asn_DEF_RANAP_CauseRadioNetworkExtension`, src/ranap/RANAP_CauseRadioNetworkExtension.c:141 -/
def RANAP_CauseRadioNetworkExtension : Ty := .int ⟨257, 512, false⟩
/-- `asn_DEF_RANAP_Cause`, src/ranap/RANAP_Cause.c:99 -/
def RANAP_Cause : Ty := .choice true (.cons false RANAP_CauseRadioNetwork (.cons false RANAP_CauseTransmissionNetwork (.cons false RANAP_CauseNAS (.cons false RANAP_CauseProtocol (.cons false RANAP_CauseMisc (.cons false RANAP_CauseNon_Standard .nil)))))) (.cons false RANAP_CauseRadioNetworkExtension .nil)
/-- `asn_DEF_iu_ReleaseComplete_ies_2`, src/ranap/RANAP_Iu-ReleaseComplete.c:67 -/
def RANAP_Iu_ReleaseComplete__iu_ReleaseComplete_ies_2 : Ty := .seqOf (some ⟨0, 65535, false⟩) RANAP_IE
/-- `asn_DEF_RANAP_Iu_ReleaseComplete`, src/ranap/RANAP_Iu-ReleaseComplete.c:120 -/
def RANAP_Iu_ReleaseComplete : Ty := .seq true (.cons false RANAP_Iu_ReleaseComplete__iu_ReleaseComplete_ies_2 .nil)
/-- `asn_DEF_raB_DataVolumeReportList_ies_2`, src/ranap/RANAP_RAB-DataVolumeReportList.c:67 -/
def RANAP_RAB_DataVolumeReportList__raB_DataVolumeReportList_ies_2 : Ty := .seqOf (some ⟨0, 65535, false⟩) RANAP_IE
/-- `asn_DEF_RANAP_RAB_DataVolumeReportList`, src/ranap/RANAP_RAB-DataVolumeReportList.c:120 -/
def RANAP_RAB_DataVolumeReportList : Ty := .seq true (.cons false RANAP_RAB_DataVolumeReportList__raB_DataVolumeReportList_ies_2 .nil)
/-- `asn_DEF_raB_ReleasedList_IuRelComp_ies_2`, src/ranap/RANAP_RAB-ReleasedList-IuRelComp.c:67 -/
def RANAP_RAB_ReleasedList_IuRelComp__raB_ReleasedList_IuRelComp_ies_2 : Ty := .seqOf (some ⟨0, 65535, false⟩) RANAP_IE
/-- `asn_DEF_RANAP_RAB_ReleasedList_IuRelComp`, src/ranap/RANAP_RAB-ReleasedList-IuRelComp.c:120 -/
def RANAP_RAB_ReleasedList_IuRelComp : Ty := .seq true (.cons false RANAP_RAB_ReleasedList_IuRelComp__raB_ReleasedList_IuRelComp_ies_2 .nil)
/-- `asn_DEF_RANAP_IE_Extensions`, src/ranap/RANAP_IE-Extensions.c:34 -/
def RANAP_IE_Extensions : Ty := .seqOf (some ⟨1, 65535, false⟩) RANAP_IE
/-- `asn_DEF_RANAP_RepetitionNumber0`, src/ranap/RANAP_RepetitionNumber0.c:141 -/
def RANAP_RepetitionNumber0 : Ty := .int ⟨0, 255, false⟩
/-- `asn_DEF_RANAP_CriticalityDiagnostics_IE_List_Value`, src/ranap/RANAP_CriticalityDiagnostics-IE-List-Value.c:68 -/
def RANAP_CriticalityDiagnostics_IE_List_Value : Ty := .seq true (.cons false RANAP_Criticality (.cons false RANAP_ProtocolIE_ID (.cons true RANAP_RepetitionNumber0 (.cons true RANAP_IE_Extensions .nil))))
/-- `asn_DEF_RANAP_CriticalityDiagnostics_IE_List`, src/ranap/RANAP_CriticalityDiagnostics-IE-List.c:34 -/
def RANAP_CriticalityDiagnostics_IE_List : Ty := .seqOf (some ⟨1, 256, false⟩) RANAP_CriticalityDiagnostics_IE_List_Value
/-- `asn_DEF_RANAP_TriggeringMessage`, src/ranap/RANAP_TriggeringMessage.c:145 -/
def RANAP_TriggeringMessage : Ty := .enum 4 4 false
/-- `asn_DEF_RANAP_CriticalityDiagnostics`, src/ranap/RANAP_CriticalityDiagnostics.c:78 -/
def RANAP_CriticalityDiagnostics : Ty := .seq true (.cons true RANAP_ProcedureCode (.cons true RANAP_TriggeringMessage (.cons true RANAP_Criticality (.cons true RANAP_CriticalityDiagnostics_IE_List (.cons true RANAP_IE_Extensions .nil)))))
/-- `asn_DEF_RANAP_ProtocolExtensionField`, src/ranap/RANAP_ProtocolExtensionField.c:56 -/
def RANAP_ProtocolExtensionField : Ty := .seq false (.cons false RANAP_ProtocolIE_ID (.cons false RANAP_Criticality (.cons false (.any) .nil)))
/-- `asn_DEF_RANAP_ProtocolExtensionContainer`, src/ranap/RANAP_ProtocolExtensionContainer.c:34 -/
def RANAP_ProtocolExtensionContainer : Ty := .seqOf (some ⟨1, 65535, false⟩) RANAP_ProtocolExtensionField
/-- `asn_DEF_RANAP_DataVolumeReference`, src/ranap/RANAP_DataVolumeReference.c:141 -/
def RANAP_DataVolumeReference : Ty := .int ⟨0, 255, false⟩
/-- `asn_DEF_RANAP_UnsuccessfullyTransmittedDataVolume`, src/ranap/RANAP_UnsuccessfullyTransmittedDataVolume.c:137 -/
def RANAP_UnsuccessfullyTransmittedDataVolume : Ty := .int ⟨0, 4294967295, false⟩
/-- `asn_DEF_RANAP_DataVolumeList_Value`, src/ranap/RANAP_DataVolumeList-Value.c:58 -/
def RANAP_DataVolumeList_Value : Ty := .seq true (.cons false RANAP_UnsuccessfullyTransmittedDataVolume (.cons true RANAP_DataVolumeReference (.cons true RANAP_ProtocolExtensionContainer .nil)))
/-- `asn_DEF_RANAP_DataVolumeList`, src/ranap/RANAP_DataVolumeList.c:34 -/
def RANAP_DataVolumeList : Ty := .seqOf (some ⟨1, 2, false⟩) RANAP_DataVolumeList_Value
/-- `asn_DEF_RANAP_RAB_ID`, src/ranap/RANAP_RAB-ID.c:147 -/
def RANAP_RAB_ID : Ty := .bits (some ⟨8, 8, false⟩)
/-- `asn_DEF_RANAP_RAB_DataVolumeReportItem`, src/ranap/RANAP_RAB-DataVolumeReportItem.c:58 -/
def RANAP_RAB_DataVolumeReportItem : Ty := .seq true (.cons false RANAP_RAB_ID (.cons true RANAP_DataVolumeList (.cons true RANAP_ProtocolExtensionContainer .nil)))
/-- `asn_DEF_RANAP_UL_GTP_PDU_SequenceNumber`, src/ranap/RANAP_UL-GTP-PDU-SequenceNumber.c:141 -/
def RANAP_UL_GTP_PDU_SequenceNumber : Ty := .int ⟨0, 65535, false⟩
/-- `asn_DEF_RANAP_DL_GTP_PDU_SequenceNumber`, src/ranap/RANAP_DL-GTP-PDU-SequenceNumber.c:141 -/
def RANAP_DL_GTP_PDU_SequenceNumber : Ty := .int ⟨0, 65535, false⟩
/-- `asn_DEF_RANAP_RAB_ReleasedItem_IuRelComp`, src/ranap/RANAP_RAB-ReleasedItem-IuRelComp.c:68 -/
def RANAP_RAB_ReleasedItem_IuRelComp : Ty := .seq true (.cons false RANAP_RAB_ID (.cons true RANAP_DL_GTP_PDU_SequenceNumber (.cons true RANAP_UL_GTP_PDU_SequenceNumber (.cons true RANAP_ProtocolExtensionContainer .nil))))
/-- `asn_DEF_relocationRequired_ies_2`, src/ranap/RANAP_RelocationRequired.c:67 -/
def RANAP_RelocationRequired__relocationRequired_ies_2 : Ty := .seqOf (some ⟨0, 65535, false⟩) RANAP_IE
/-- `asn_DEF_RANAP_RelocationRequired`, src/ranap/RANAP_RelocationRequired.c:120 -/
def RANAP_RelocationRequired : Ty := .seq true (.cons false RANAP_RelocationRequired__relocationRequired_ies_2 .nil)
/-- `asn_DEF_RANAP_RelocationType`, src/ranap/RANAP_RelocationType.c:143 -/
def RANAP_RelocationType : Ty := .enum 2 2 true
/-- `asn_DEF_RANAP_SAC`, src/ranap/RANAP_SAC.c:142 -/
def RANAP_SAC : Ty := .octets (some ⟨2, 2, false⟩)
/-- `asn_DEF_RANAP_LAC`, src/ranap/RANAP_LAC.c:142 -/
def RANAP_LAC : Ty := .octets (some ⟨2, 2, false⟩)
/-- `asn_DEF_RANAP_PLMNidentity`, src/ranap/RANAP_PLMNidentity.c:142 -/
def RANAP_PLMNidentity : Ty := .octets (some ⟨3, 3, false⟩)
/-- `asn_DEF_RANAP_SAI`, src/ranap/RANAP_SAI.c:68 -/
def RANAP_SAI : Ty := .seq false (.cons false RANAP_PLMNidentity (.cons false RANAP_LAC (.cons false RANAP_SAC (.cons true RANAP_IE_Extensions .nil))))
/-- `asn_DEF_RANAP_RNC_ID`, src/ranap/RANAP_RNC-ID.c:141 -/
def RANAP_RNC_ID : Ty := .int ⟨0, 4095, false⟩
/-- `asn_DEF_RANAP_SourceRNC_ID`, src/ranap/RANAP_SourceRNC-ID.c:58 -/
def RANAP_SourceRNC_ID : Ty := .seq false (.cons false RANAP_PLMNidentity (.cons false RANAP_RNC_ID (.cons true RANAP_IE_Extensions .nil)))
/-- `asn_DEF_RANAP_SourceID`, src/ranap/RANAP_SourceID.c:49 -/
def RANAP_SourceID : Ty := .choice true (.cons false RANAP_SourceRNC_ID (.cons false RANAP_SAI .nil)) .nil
/-- `asn_DEF_RANAP_CI`, src/ranap/RANAP_CI.c:142 -/
def RANAP_CI : Ty := .octets (some ⟨2, 2, false⟩)
/-- `asn_DEF_RANAP_CGI`, src/ranap/RANAP_CGI.c:68 -/
def RANAP_CGI : Ty := .seq false (.cons false RANAP_PLMNidentity (.cons false RANAP_LAC (.cons false RANAP_CI (.cons true RANAP_IE_Extensions .nil))))
/-- `asn_DEF_RANAP_RAC`, src/ranap/RANAP_RAC.c:142 -/
def RANAP_RAC : Ty := .octets (some ⟨1, 1, false⟩)
/-- `asn_DEF_RANAP_LAI`, src/ranap/RANAP_LAI.c:58 -/
def RANAP_LAI : Ty := .seq false (.cons false RANAP_PLMNidentity (.cons false RANAP_LAC (.cons true RANAP_IE_Extensions .nil)))
/-- `asn_DEF_RANAP_TargetRNC_ID`, src/ranap/RANAP_TargetRNC-ID.c:68 -/
def RANAP_TargetRNC_ID : Ty := .seq false (.cons false RANAP_LAI (.cons true RANAP_RAC (.cons false RANAP_RNC_ID (.cons true RANAP_IE_Extensions .nil))))
/-- `asn_DEF_RANAP_TAC`, src/ranap/RANAP_TAC.c:142 -/
def RANAP_TAC : Ty := .octets (some ⟨2, 2, false⟩)
/-- `asn_DEF_RANAP_TAI`, src/ranap/RANAP_TAI.c:58 -/
def RANAP_TAI : Ty := .seq false (.cons false RANAP_PLMNidentity (.cons false RANAP_TAC (.cons true RANAP_IE_Extensions .nil)))
/-- `asn_DEF_RANAP_ENB_ID`, src/ranap/RANAP_ENB-ID.c:121 -/
def RANAP_ENB_ID : Ty := .choice true (.cons false (.bits (some ⟨20, 20, false⟩)) (.cons false (.bits (some ⟨28, 28, false⟩)) .nil)) .nil
/-- `asn_DEF_RANAP_TargetENB_ID`, src/ranap/RANAP_TargetENB-ID.c:68 -/
def RANAP_TargetENB_ID : Ty := .seq true (.cons false RANAP_PLMNidentity (.cons false RANAP_ENB_ID (.cons true RANAP_IE_Extensions (.cons false RANAP_TAI .nil))))
/-- `asn_DEF_RANAP_TargetID`, src/ranap/RANAP_TargetID.c:59 -/
def RANAP_TargetID : Ty := .choice true (.cons false RANAP_TargetRNC_ID (.cons false RANAP_CGI .nil)) (.cons false RANAP_TargetENB_ID .nil)
/-- `asn_DEF_RANAP_OldBSS_ToNewBSS_Information`, src/ranap/RANAP_OldBSS-ToNewBSS-Information.c:119 -/
def RANAP_OldBSS_ToNewBSS_Information : Ty := .octets none
/-- `asn_DEF_relocationCommand_ies_2`, src/ranap/RANAP_RelocationCommand.c:67 -/
def RANAP_RelocationCommand__relocationCommand_ies_2 : Ty := .seqOf (some ⟨0, 65535, false⟩) RANAP_IE
/-- `asn_DEF_RANAP_RelocationCommand`, src/ranap/RANAP_RelocationCommand.c:120 -/
def RANAP_RelocationCommand : Ty := .seq true (.cons false RANAP_RelocationCommand__relocationCommand_ies_2 .nil)
/-- `asn_DEF_RANAP_L3_Information`, src/ranap/RANAP_L3-Information.c:119 -/
def RANAP_L3_Information : Ty := .octets none
/-- `asn_DEF_raB_RelocationReleaseList_ies_2`, src/ranap/RANAP_RAB-RelocationReleaseList.c:67 -/
def RANAP_RAB_RelocationReleaseList__raB_RelocationReleaseList_ies_2 : Ty := .seqOf (some ⟨0, 65535, false⟩) RANAP_IE
/-- `asn_DEF_RANAP_RAB_RelocationReleaseList`, src/ranap/RANAP_RAB-RelocationReleaseList.c:120 -/
def RANAP_RAB_RelocationReleaseList : Ty := .seq true (.cons false RANAP_RAB_RelocationReleaseList__raB_RelocationReleaseList_ies_2 .nil)
/-- `asn_DEF_raB_DataForwardingList_ies_2`, src/ranap/RANAP_RAB-DataForwardingList.c:67 -/
def RANAP_RAB_DataForwardingList__raB_DataForwardingList_ies_2 : Ty := .seqOf (some ⟨0, 65535, false⟩) RANAP_IE
/-- `asn_DEF_RANAP_RAB_DataForwardingList`, src/ranap/RANAP_RAB-DataForwardingList.c:120 -/
def RANAP_RAB_DataForwardingList : Ty := .seq true (.cons false RANAP_RAB_DataForwardingList__raB_DataForwardingList_ies_2 .nil)
/-- `asn_DEF_RANAP_RAB_RelocationReleaseItem`, src/ranap/RANAP_RAB-RelocationReleaseItem.c:48 -/
def RANAP_RAB_RelocationReleaseItem : Ty := .seq true (.cons false RANAP_RAB_ID (.cons true RANAP_ProtocolExtensionContainer .nil))
/-- `asn_DEF_RANAP_BindingID`, src/ranap/RANAP_BindingID.c:142 -/
def RANAP_BindingID : Ty := .octets (some ⟨4, 4, false⟩)
/-- `asn_DEF_RANAP_GTP_TEI`, src/ranap/RANAP_GTP-TEI.c:142 -/
def RANAP_GTP_TEI : Ty := .octets (some ⟨4, 4, false⟩)
/-- `asn_DEF_RANAP_IuTransportAssociation`, src/ranap/RANAP_IuTransportAssociation.c:49 -/
def RANAP_IuTransportAssociation : Ty := .choice true (.cons false RANAP_GTP_TEI (.cons false RANAP_BindingID .nil)) .nil
/-- `asn_DEF_RANAP_TransportLayerAddress`, src/ranap/RANAP_TransportLayerAddress.c:147 -/
def RANAP_TransportLayerAddress : Ty := .bits (some ⟨1, 160, true⟩)
/-- `asn_DEF_RANAP_RAB_DataForwardingItem`, src/ranap/RANAP_RAB-DataForwardingItem.c:68 -/
def RANAP_RAB_DataForwardingItem : Ty := .seq true (.cons false RANAP_RAB_ID (.cons false RANAP_TransportLayerAddress (.cons false RANAP_IuTransportAssociation (.cons true RANAP_ProtocolExtensionContainer .nil))))
/-- `asn_DEF_relocationPreparationFailure_ies_2`, src/ranap/RANAP_RelocationPreparationFailure.c:67 -/
def RANAP_RelocationPreparationFailure__relocationPreparationFailure_ies_2 : Ty := .seqOf (some ⟨0, 65535, false⟩) RANAP_IE
/-- `asn_DEF_RANAP_RelocationPreparationFailure`, src/ranap/RANAP_RelocationPreparationFailure.c:120 -/
def RANAP_RelocationPreparationFailure : Ty := .seq true (.cons false RANAP_RelocationPreparationFailure__relocationPreparationFailure_ies_2 .nil)
/-- `asn_DEF_relocationRequest_ies_2`, src/ranap/RANAP_RelocationRequest.c:67 -/
def RANAP_RelocationRequest__relocationRequest_ies_2 : Ty := .seqOf (some ⟨0, 65535, false⟩) RANAP_IE
/-- `asn_DEF_RANAP_RelocationRequest`, src/ranap/RANAP_RelocationRequest.c:120 -/
def RANAP_RelocationRequest : Ty := .seq true (.cons false RANAP_RelocationRequest__relocationRequest_ies_2 .nil)
/-- `asn_DEF_RANAP_IMSI`, src/ranap/RANAP_IMSI.c:142 -/
def RANAP_IMSI : Ty := .octets (some ⟨3, 8, false⟩)
/-- `asn_DEF_RANAP_PermanentNAS_UE_ID`, src/ranap/RANAP_PermanentNAS-UE-ID.c:39 -/
def RANAP_PermanentNAS_UE_ID : Ty := .choice true (.cons false RANAP_IMSI .nil) .nil
/-- `asn_DEF_RANAP_CN_DomainIndicator`, src/ranap/RANAP_CN-DomainIndicator.c:141 -/
def RANAP_CN_DomainIndicator : Ty := .enum 2 2 false
/-- `asn_DEF_RANAP_USCH_ID`, src/ranap/RANAP_USCH-ID.c:141 -/
def RANAP_USCH_ID : Ty := .int ⟨0, 255, false⟩
/-- `asn_DEF_RANAP_DSCH_ID`, src/ranap/RANAP_DSCH-ID.c:141 -/
def RANAP_DSCH_ID : Ty := .int ⟨0, 255, false⟩
/-- `asn_DEF_RANAP_DCH_ID`, src/ranap/RANAP_DCH-ID.c:141 -/
def RANAP_DCH_ID : Ty := .int ⟨0, 255, false⟩
/-- `asn_DEF_RANAP_TrCH_ID`, src/ranap/RANAP_TrCH-ID.c:68 -/
def RANAP_TrCH_ID : Ty := .seq true (.cons true RANAP_DCH_ID (.cons true RANAP_DSCH_ID (.cons true RANAP_USCH_ID (.cons true RANAP_IE_Extensions .nil))))
/-- `asn_DEF_RANAP_TrCH_ID_List`, src/ranap/RANAP_TrCH-ID-List.c:34 -/
def RANAP_TrCH_ID_List : Ty := .seqOf (some ⟨1, 7, false⟩) RANAP_TrCH_ID
/-- `asn_DEF_RANAP_RAB_TrCH_MappingItem`, src/ranap/RANAP_RAB-TrCH-MappingItem.c:58 -/
def RANAP_RAB_TrCH_MappingItem : Ty := .seq true (.cons false RANAP_RAB_ID (.cons false RANAP_TrCH_ID_List (.cons true RANAP_IE_Extensions .nil)))
/-- `asn_DEF_RANAP_RAB_TrCH_Mapping`, src/ranap/RANAP_RAB-TrCH-Mapping.c:34 -/
def RANAP_RAB_TrCH_Mapping : Ty := .seqOf (some ⟨1, 256, false⟩) RANAP_RAB_TrCH_MappingItem
/-- `asn_DEF_RANAP_TargetCellId`, src/ranap/RANAP_TargetCellId.c:141 -/
def RANAP_TargetCellId : Ty := .int ⟨0, 268435455, false⟩
/-- `asn_DEF_RANAP_D_RNTI`, src/ranap/RANAP_D-RNTI.c:141 -/
def RANAP_D_RNTI : Ty := .int ⟨0, 1048575, false⟩
/-- `asn_DEF_RANAP_EncryptionAlgorithm`, src/ranap/RANAP_EncryptionAlgorithm.c:141 -/
def RANAP_EncryptionAlgorithm : Ty := .int ⟨0, 15, false⟩
/-- `asn_DEF_RANAP_ChosenEncryptionAlgorithm`, src/ranap/RANAP_ChosenEncryptionAlgorithm.c:135 -/
def RANAP_ChosenEncryptionAlgorithm : Ty := RANAP_EncryptionAlgorithm
/-- `asn_DEF_RANAP_EncryptionKey`, src/ranap/RANAP_EncryptionKey.c:147 -/
def RANAP_EncryptionKey : Ty := .bits (some ⟨128, 128, false⟩)
/-- `asn_DEF_RANAP_IntegrityProtectionKey`, src/ranap/RANAP_IntegrityProtectionKey.c:147 -/
def RANAP_IntegrityProtectionKey : Ty := .bits (some ⟨128, 128, false⟩)
/-- `asn_DEF_RANAP_IntegrityProtectionAlgorithm`, src/ranap/RANAP_IntegrityProtectionAlgorithm.c:141 -/
def RANAP_IntegrityProtectionAlgorithm : Ty := .int ⟨0, 15, false⟩
/-- `asn_DEF_RANAP_ChosenIntegrityProtectionAlgorithm`, src/ranap/RANAP_ChosenIntegrityProtectionAlgorithm.c:135 -/
def RANAP_ChosenIntegrityProtectionAlgorithm : Ty := RANAP_IntegrityProtectionAlgorithm
/-- `asn_DEF_RANAP_NumberOfIuInstances`, src/ranap/RANAP_NumberOfIuInstances.c:141 -/
def RANAP_NumberOfIuInstances : Ty := .int ⟨1, 2, false⟩
/-- `asn_DEF_RANAP_RRC_Container`, src/ranap/RANAP_RRC-Container.c:119 -/
def RANAP_RRC_Container : Ty := .octets none
/-- `asn_DEF_RANAP_SourceRNC_ToTargetRNC_TransparentContainer`, src/ranap/RANAP_SourceRNC-ToTargetRNC-TransparentContainer.c:158 -/
def RANAP_SourceRNC_ToTargetRNC_TransparentContainer : Ty := .seq true (.cons false RANAP_RRC_Container (.cons false RANAP_NumberOfIuInstances (.cons false RANAP_RelocationType (.cons true RANAP_ChosenIntegrityProtectionAlgorithm (.cons true RANAP_IntegrityProtectionKey (.cons true RANAP_ChosenEncryptionAlgorithm (.cons true RANAP_EncryptionKey (.cons true RANAP_ChosenEncryptionAlgorithm (.cons true RANAP_ChosenEncryptionAlgorithm (.cons true RANAP_D_RNTI (.cons true RANAP_TargetCellId (.cons true RANAP_RAB_TrCH_Mapping (.cons true RANAP_IE_Extensions .nil)))))))))))))
/-- `asn_DEF_raB_SetupList_RelocReq_ies_2`, src/ranap/RANAP_RAB-SetupList-RelocReq.c:67 -/
def RANAP_RAB_SetupList_RelocReq__raB_SetupList_RelocReq_ies_2 : Ty := .seqOf (some ⟨0, 65535, false⟩) RANAP_IE
/-- `asn_DEF_RANAP_RAB_SetupList_RelocReq`, src/ranap/RANAP_RAB-SetupList-RelocReq.c:120 -/
def RANAP_RAB_SetupList_RelocReq : Ty := .seq true (.cons false RANAP_RAB_SetupList_RelocReq__raB_SetupList_RelocReq_ies_2 .nil)
/-- `asn_DEF_RANAP_PermittedIntegrityProtectionAlgorithms`, src/ranap/RANAP_PermittedIntegrityProtectionAlgorithms.c:34 -/
def RANAP_PermittedIntegrityProtectionAlgorithms : Ty := .seqOf (some ⟨1, 16, false⟩) RANAP_IntegrityProtectionAlgorithm
/-- `asn_DEF_RANAP_IntegrityProtectionInformation`, src/ranap/RANAP_IntegrityProtectionInformation.c:58 -/
def RANAP_IntegrityProtectionInformation : Ty := .seq false (.cons false RANAP_PermittedIntegrityProtectionAlgorithms (.cons false RANAP_IntegrityProtectionKey (.cons true RANAP_IE_Extensions .nil)))
/-- `asn_DEF_RANAP_PermittedEncryptionAlgorithms`, src/ranap/RANAP_PermittedEncryptionAlgorithms.c:34 -/
def RANAP_PermittedEncryptionAlgorithms : Ty := .seqOf (some ⟨1, 16, false⟩) RANAP_EncryptionAlgorithm
/-- `asn_DEF_RANAP_EncryptionInformation`, src/ranap/RANAP_EncryptionInformation.c:58 -/
def RANAP_EncryptionInformation : Ty := .seq false (.cons false RANAP_PermittedEncryptionAlgorithms (.cons false RANAP_EncryptionKey (.cons true RANAP_IE_Extensions .nil)))
/-- `asn_DEF_RANAP_IuSignallingConnectionIdentifier`, src/ranap/RANAP_IuSignallingConnectionIdentifier.c:147 -/
def RANAP_IuSignallingConnectionIdentifier : Ty := .bits (some ⟨24, 24, false⟩)
/-- `asn_DEF_RANAP_Service_Handover`, src/ranap/RANAP_Service-Handover.c:145 -/
def RANAP_Service_Handover : Ty := .enum 3 3 true
/-- `asn_DEF_RANAP_UP_ModeVersions`, src/ranap/RANAP_UP-ModeVersions.c:147 -/
def RANAP_UP_ModeVersions : Ty := .bits (some ⟨16, 16, false⟩)
/-- `asn_DEF_RANAP_UserPlaneMode`, src/ranap/RANAP_UserPlaneMode.c:143 -/
def RANAP_UserPlaneMode : Ty := .enum 2 2 true
/-- `asn_DEF_RANAP_UserPlaneInformation`, src/ranap/RANAP_UserPlaneInformation.c:58 -/
def RANAP_UserPlaneInformation : Ty := .seq true (.cons false RANAP_UserPlaneMode (.cons false RANAP_UP_ModeVersions (.cons true RANAP_ProtocolExtensionContainer .nil)))
/-- `asn_DEF_RANAP_PDP_Type`, src/ranap/RANAP_PDP-Type.c:149 -/
def RANAP_PDP_Type : Ty := .enum 5 5 true
/-- `asn_DEF_RANAP_PDP_TypeInformation`, src/ranap/RANAP_PDP-TypeInformation.c:34 -/
def RANAP_PDP_TypeInformation : Ty := .seqOf (some ⟨1, 2, false⟩) RANAP_PDP_Type
/-- `asn_DEF_RANAP_DataVolumeReportingIndication`, src/ranap/RANAP_DataVolumeReportingIndication.c:141 -/
def RANAP_DataVolumeReportingIndication : Ty := .enum 2 2 false
/-- `asn_DEF_RANAP_RelocationRequirement`, src/ranap/RANAP_RelocationRequirement.c:145 -/
def RANAP_RelocationRequirement : Ty := .enum 2 3 true
/-- `asn_DEF_RANAP_SourceStatisticsDescriptor`, src/ranap/RANAP_SourceStatisticsDescriptor.c:143 -/
def RANAP_SourceStatisticsDescriptor : Ty := .enum 2 2 true
/-- `asn_DEF_RANAP_QueuingAllowed`, src/ranap/RANAP_QueuingAllowed.c:141 -/
def RANAP_QueuingAllowed : Ty := .enum 2 2 false
/-- `asn_DEF_RANAP_Pre_emptionVulnerability`, src/ranap/RANAP_Pre-emptionVulnerability.c:141 -/
def RANAP_Pre_emptionVulnerability : Ty := .enum 2 2 false
/-- `asn_DEF_RANAP_Pre_emptionCapability`, src/ranap/RANAP_Pre-emptionCapability.c:141 -/
def RANAP_Pre_emptionCapability : Ty := .enum 2 2 false
/-- `asn_DEF_RANAP_PriorityLevel`, src/ranap/RANAP_PriorityLevel.c:141 -/
def RANAP_PriorityLevel : Ty := .int ⟨0, 15, false⟩
/-- `asn_DEF_RANAP_AllocationOrRetentionPriority`, src/ranap/RANAP_AllocationOrRetentionPriority.c:78 -/
def RANAP_AllocationOrRetentionPriority : Ty := .seq true (.cons false RANAP_PriorityLevel (.cons false RANAP_Pre_emptionCapability (.cons false RANAP_Pre_emptionVulnerability (.cons false RANAP_QueuingAllowed (.cons true RANAP_IE_Extensions .nil)))))
/-- `asn_DEF_RANAP_TrafficHandlingPriority`, src/ranap/RANAP_TrafficHandlingPriority.c:141 -/
def RANAP_TrafficHandlingPriority : Ty := .int ⟨0, 15, false⟩
/-- `asn_DEF_RANAP_TransferDelay`, src/ranap/RANAP_TransferDelay.c:141 -/
def RANAP_TransferDelay : Ty := .int ⟨0, 65535, false⟩
/-- `asn_DEF_RANAP_RAB_SubflowCombinationBitRate`, src/ranap/RANAP_RAB-SubflowCombinationBitRate.c:141 -/
def RANAP_RAB_SubflowCombinationBitRate : Ty := .int ⟨0, 16000000, false⟩
/-- `asn_DEF_RANAP_SubflowSDU_Size`, src/ranap/RANAP_SubflowSDU-Size.c:141 -/
def RANAP_SubflowSDU_Size : Ty := .int ⟨0, 4095, false⟩
/-- `asn_DEF_RANAP_SDU_FormatInformationParameterItem`, src/ranap/RANAP_SDU-FormatInformationParameterItem.c:58 -/
def RANAP_SDU_FormatInformationParameterItem : Ty := .seq true (.cons true RANAP_SubflowSDU_Size (.cons true RANAP_RAB_SubflowCombinationBitRate (.cons true RANAP_IE_Extensions .nil)))
/-- `asn_DEF_RANAP_SDU_FormatInformationParameters`, src/ranap/RANAP_SDU-FormatInformationParameters.c:34 -/
def RANAP_SDU_FormatInformationParameters : Ty := .seqOf (some ⟨1, 64, false⟩) RANAP_SDU_FormatInformationParameterItem
/-- `asn_DEF_RANAP_DeliveryOfErroneousSDU`, src/ranap/RANAP_DeliveryOfErroneousSDU.c:143 -/
def RANAP_DeliveryOfErroneousSDU : Ty := .enum 3 3 false
/-- `asn_DEF_RANAP_ResidualBitErrorRatio`, src/ranap/RANAP_ResidualBitErrorRatio.c:118 -/
def RANAP_ResidualBitErrorRatio : Ty := .seq false (.cons false (.int ⟨1, 9, false⟩) (.cons false (.int ⟨1, 8, false⟩) (.cons true RANAP_IE_Extensions .nil)))
/-- `asn_DEF_RANAP_SDU_ErrorRatio`, src/ranap/RANAP_SDU-ErrorRatio.c:118 -/
def RANAP_SDU_ErrorRatio : Ty := .seq false (.cons false (.int ⟨1, 9, false⟩) (.cons false (.int ⟨1, 6, false⟩) (.cons true RANAP_IE_Extensions .nil)))
/-- `asn_DEF_RANAP_SDU_ParameterItem`, src/ranap/RANAP_SDU-ParameterItem.c:78 -/
def RANAP_SDU_ParameterItem : Ty := .seq true (.cons true RANAP_SDU_ErrorRatio (.cons false RANAP_ResidualBitErrorRatio (.cons false RANAP_DeliveryOfErroneousSDU (.cons true RANAP_SDU_FormatInformationParameters (.cons true RANAP_IE_Extensions .nil)))))
/-- `asn_DEF_RANAP_SDU_Parameters`, src/ranap/RANAP_SDU-Parameters.c:34 -/
def RANAP_SDU_Parameters : Ty := .seqOf (some ⟨1, 7, false⟩) RANAP_SDU_ParameterItem
/-- `asn_DEF_RANAP_MaxSDU_Size`, src/ranap/RANAP_MaxSDU-Size.c:141 -/
def RANAP_MaxSDU_Size : Ty := .int ⟨0, 32768, false⟩
/-- `asn_DEF_RANAP_DeliveryOrder`, src/ranap/RANAP_DeliveryOrder.c:141 -/
def RANAP_DeliveryOrder : Ty := .enum 2 2 false
/-- `asn_DEF_RANAP_GuaranteedBitrate`, src/ranap/RANAP_GuaranteedBitrate.c:141 -/
def RANAP_GuaranteedBitrate : Ty := .int ⟨0, 16000000, false⟩
/-- `asn_DEF_RANAP_RAB_Parameter_GuaranteedBitrateList`, src/ranap/RANAP_RAB-Parameter-GuaranteedBitrateList.c:34 -/
def RANAP_RAB_Parameter_GuaranteedBitrateList : Ty := .seqOf (some ⟨1, 2, false⟩) RANAP_GuaranteedBitrate
/-- `asn_DEF_RANAP_MaxBitrate`, src/ranap/RANAP_MaxBitrate.c:141 -/
def RANAP_MaxBitrate : Ty := .int ⟨1, 16000000, false⟩
/-- `asn_DEF_RANAP_RAB_Parameter_MaxBitrateList`, src/ranap/RANAP_RAB-Parameter-MaxBitrateList.c:34 -/
def RANAP_RAB_Parameter_MaxBitrateList : Ty := .seqOf (some ⟨1, 2, false⟩) RANAP_MaxBitrate
/-- `asn_DEF_RANAP_RAB_AsymmetryIndicator`, src/ranap/RANAP_RAB-AsymmetryIndicator.c:147 -/
def RANAP_RAB_AsymmetryIndicator : Ty := .enum 4 4 true
/-- `asn_DEF_RANAP_TrafficClass`, src/ranap/RANAP_TrafficClass.c:147 -/
def RANAP_TrafficClass : Ty := .enum 4 4 true
/-- `asn_DEF_RANAP_RAB_Parameters`, src/ranap/RANAP_RAB-Parameters.c:158 -/
def RANAP_RAB_Parameters : Ty := .seq true (.cons false RANAP_TrafficClass (.cons false RANAP_RAB_AsymmetryIndicator (.cons false RANAP_RAB_Parameter_MaxBitrateList (.cons true RANAP_RAB_Parameter_GuaranteedBitrateList (.cons false RANAP_DeliveryOrder (.cons false RANAP_MaxSDU_Size (.cons false RANAP_SDU_Parameters (.cons true RANAP_TransferDelay (.cons true RANAP_TrafficHandlingPriority (.cons true RANAP_AllocationOrRetentionPriority (.cons true RANAP_SourceStatisticsDescriptor (.cons true RANAP_RelocationRequirement (.cons true RANAP_IE_Extensions .nil)))))))))))))
/-- `asn_DEF_RANAP_NAS_SynchronisationIndicator`, src/ranap/RANAP_NAS-SynchronisationIndicator.c:147 -/
def RANAP_NAS_SynchronisationIndicator : Ty := .bits (some ⟨4, 4, false⟩)
/-- `asn_DEF_RANAP_RAB_SetupItem_RelocReq`, src/ranap/RANAP_RAB-SetupItem-RelocReq.c:128 -/
def RANAP_RAB_SetupItem_RelocReq : Ty := .seq true (.cons false RANAP_RAB_ID (.cons true RANAP_NAS_SynchronisationIndicator (.cons false RANAP_RAB_Parameters (.cons true RANAP_DataVolumeReportingIndication (.cons true RANAP_PDP_TypeInformation (.cons false RANAP_UserPlaneInformation (.cons false RANAP_TransportLayerAddress (.cons false RANAP_IuTransportAssociation (.cons true RANAP_Service_Handover (.cons true RANAP_ProtocolExtensionContainer .nil))))))))))
/-- `asn_DEF_relocationRequestAcknowledge_ies_2`, src/ranap/RANAP_RelocationRequestAcknowledge.c:67 -/
def RANAP_RelocationRequestAcknowledge__relocationRequestAcknowledge_ies_2 : Ty := .seqOf (some ⟨0, 65535, false⟩) RANAP_IE
/-- `asn_DEF_RANAP_RelocationRequestAcknowledge`, src/ranap/RANAP_RelocationRequestAcknowledge.c:120 -/
def RANAP_RelocationRequestAcknowledge : Ty := .seq true (.cons false RANAP_RelocationRequestAcknowledge__relocationRequestAcknowledge_ies_2 .nil)
/-- `asn_DEF_RANAP_TargetRNC_ToSourceRNC_TransparentContainer`, src/ranap/RANAP_TargetRNC-ToSourceRNC-TransparentContainer.c:58 -/
def RANAP_TargetRNC_ToSourceRNC_TransparentContainer : Ty := .seq true (.cons false RANAP_RRC_Container (.cons true RANAP_D_RNTI (.cons true RANAP_IE_Extensions .nil)))
/-- `asn_DEF_raB_SetupList_RelocReqAck_ies_2`, src/ranap/RANAP_RAB-SetupList-RelocReqAck.c:67 -/
def RANAP_RAB_SetupList_RelocReqAck__raB_SetupList_RelocReqAck_ies_2 : Ty := .seqOf (some ⟨0, 65535, false⟩) RANAP_IE
/-- `asn_DEF_RANAP_RAB_SetupList_RelocReqAck`, src/ranap/RANAP_RAB-SetupList-RelocReqAck.c:120 -/
def RANAP_RAB_SetupList_RelocReqAck : Ty := .seq true (.cons false RANAP_RAB_SetupList_RelocReqAck__raB_SetupList_RelocReqAck_ies_2 .nil)
/-- `asn_DEF_raB_FailedList_ies_2`, src/ranap/RANAP_RAB-FailedList.c:67 -/
def RANAP_RAB_FailedList__raB_FailedList_ies_2 : Ty := .seqOf (some ⟨0, 65535, false⟩) RANAP_IE
/-- `asn_DEF_RANAP_RAB_FailedList`, src/ranap/RANAP_RAB-FailedList.c:120 -/
def RANAP_RAB_FailedList : Ty := .seq true (.cons false RANAP_RAB_FailedList__raB_FailedList_ies_2 .nil)
/-- `asn_DEF_RANAP_RAB_SetupItem_RelocReqAck`, src/ranap/RANAP_RAB-SetupItem-RelocReqAck.c:68 -/
def RANAP_RAB_SetupItem_RelocReqAck : Ty := .seq true (.cons false RANAP_RAB_ID (.cons true RANAP_TransportLayerAddress (.cons true RANAP_IuTransportAssociation (.cons true RANAP_ProtocolExtensionContainer .nil))))
/-- `asn_DEF_RANAP_RAB_FailedItem`, src/ranap/RANAP_RAB-FailedItem.c:58 -/
def RANAP_RAB_FailedItem : Ty := .seq true (.cons false RANAP_RAB_ID (.cons false RANAP_Cause (.cons true RANAP_ProtocolExtensionContainer .nil)))
/-- `asn_DEF_relocationFailure_ies_2`, src/ranap/RANAP_RelocationFailure.c:67 -/
def RANAP_RelocationFailure__relocationFailure_ies_2 : Ty := .seqOf (some ⟨0, 65535, false⟩) RANAP_IE
/-- `asn_DEF_RANAP_RelocationFailure`, src/ranap/RANAP_RelocationFailure.c:120 -/
def RANAP_RelocationFailure : Ty := .seq true (.cons false RANAP_RelocationFailure__relocationFailure_ies_2 .nil)
/-- `asn_DEF_relocationCancel_ies_2`, src/ranap/RANAP_RelocationCancel.c:67 -/
def RANAP_RelocationCancel__relocationCancel_ies_2 : Ty := .seqOf (some ⟨0, 65535, false⟩) RANAP_IE
/-- `asn_DEF_RANAP_RelocationCancel`, src/ranap/RANAP_RelocationCancel.c:120 -/
def RANAP_RelocationCancel : Ty := .seq true (.cons false RANAP_RelocationCancel__relocationCancel_ies_2 .nil)
/-- `asn_DEF_relocationCancelAcknowledge_ies_2`, src/ranap/RANAP_RelocationCancelAcknowledge.c:67 -/
def RANAP_RelocationCancelAcknowledge__relocationCancelAcknowledge_ies_2 : Ty := .seqOf (some ⟨0, 65535, false⟩) RANAP_IE
/-- `asn_DEF_RANAP_RelocationCancelAcknowledge`, src/ranap/RANAP_RelocationCancelAcknowledge.c:120 -/
def RANAP_RelocationCancelAcknowledge : Ty := .seq true (.cons false RANAP_RelocationCancelAcknowledge__relocationCancelAcknowledge_ies_2 .nil)
/-- `asn_DEF_srnS_ContextRequest_ies_2`, src/ranap/RANAP_SRNS-ContextRequest.c:67 -/
def RANAP_SRNS_ContextRequest__srnS_ContextRequest_ies_2 : Ty := .seqOf (some ⟨0, 65535, false⟩) RANAP_IE
/-- `asn_DEF_RANAP_SRNS_ContextRequest`, src/ranap/RANAP_SRNS-ContextRequest.c:120 -/
def RANAP_SRNS_ContextRequest : Ty := .seq true (.cons false RANAP_SRNS_ContextRequest__srnS_ContextRequest_ies_2 .nil)
/-- `asn_DEF_raB_DataForwardingList_SRNS_CtxReq_ies_2`, src/ranap/RANAP_RAB-DataForwardingList-SRNS-CtxReq.c:67 -/
def RANAP_RAB_DataForwardingList_SRNS_CtxReq__raB_DataForwardingList_SRNS_CtxReq_ies_2 : Ty := .seqOf (some ⟨0, 65535, false⟩) RANAP_IE
/-- `asn_DEF_RANAP_RAB_DataForwardingList_SRNS_CtxReq`, src/ranap/RANAP_RAB-DataForwardingList-SRNS-CtxReq.c:120 -/
def RANAP_RAB_DataForwardingList_SRNS_CtxReq : Ty := .seq true (.cons false RANAP_RAB_DataForwardingList_SRNS_CtxReq__raB_DataForwardingList_SRNS_CtxReq_ies_2 .nil)
/-- `asn_DEF_RANAP_RAB_DataForwardingItem_SRNS_CtxReq`, src/ranap/RANAP_RAB-DataForwardingItem-SRNS-CtxReq.c:48 -/
def RANAP_RAB_DataForwardingItem_SRNS_CtxReq : Ty := .seq true (.cons false RANAP_RAB_ID (.cons true RANAP_ProtocolExtensionContainer .nil))
/-- `asn_DEF_srnS_ContextResponse_ies_2`, src/ranap/RANAP_SRNS-ContextResponse.c:67 -/
def RANAP_SRNS_ContextResponse__srnS_ContextResponse_ies_2 : Ty := .seqOf (some ⟨0, 65535, false⟩) RANAP_IE
/-- `asn_DEF_RANAP_SRNS_ContextResponse`, src/ranap/RANAP_SRNS-ContextResponse.c:120 -/
def RANAP_SRNS_ContextResponse : Ty := .seq true (.cons false RANAP_SRNS_ContextResponse__srnS_ContextResponse_ies_2 .nil)
/-- `asn_DEF_raB_ContextList_ies_2`, src/ranap/RANAP_RAB-ContextList.c:67 -/
def RANAP_RAB_ContextList__raB_ContextList_ies_2 : Ty := .seqOf (some ⟨0, 65535, false⟩) RANAP_IE
/-- `asn_DEF_RANAP_RAB_ContextList`, src/ranap/RANAP_RAB-ContextList.c:120 -/
def RANAP_RAB_ContextList : Ty := .seq true (.cons false RANAP_RAB_ContextList__raB_ContextList_ies_2 .nil)
/-- `asn_DEF_raBs_ContextFailedtoTransferList_ies_2`, src/ranap/RANAP_RABs-ContextFailedtoTransferList.c:67 -/
def RANAP_RABs_ContextFailedtoTransferList__raBs_ContextFailedtoTransferList_ies_2 : Ty := .seqOf (some ⟨0, 65535, false⟩) RANAP_IE
/-- `asn_DEF_RANAP_RABs_ContextFailedtoTransferList`, src/ranap/RANAP_RABs-ContextFailedtoTransferList.c:120 -/
def RANAP_RABs_ContextFailedtoTransferList : Ty := .seq true (.cons false RANAP_RABs_ContextFailedtoTransferList__raBs_ContextFailedtoTransferList_ies_2 .nil)
/-- `asn_DEF_RANAP_UL_N_PDU_SequenceNumber`, src/ranap/RANAP_UL-N-PDU-SequenceNumber.c:141 -/
def RANAP_UL_N_PDU_SequenceNumber : Ty := .int ⟨0, 65535, false⟩
/-- `asn_DEF_RANAP_DL_N_PDU_SequenceNumber`, src/ranap/RANAP_DL-N-PDU-SequenceNumber.c:141 -/
def RANAP_DL_N_PDU_SequenceNumber : Ty := .int ⟨0, 65535, false⟩
/-- `asn_DEF_RANAP_RAB_ContextItem`, src/ranap/RANAP_RAB-ContextItem.c:88 -/
def RANAP_RAB_ContextItem : Ty := .seq true (.cons false RANAP_RAB_ID (.cons true RANAP_DL_GTP_PDU_SequenceNumber (.cons true RANAP_UL_GTP_PDU_SequenceNumber (.cons true RANAP_DL_N_PDU_SequenceNumber (.cons true RANAP_UL_N_PDU_SequenceNumber (.cons true RANAP_ProtocolExtensionContainer .nil))))))
/-- `asn_DEF_RANAP_RABs_ContextFailedtoTransferItem`, src/ranap/RANAP_RABs-ContextFailedtoTransferItem.c:58 -/
def RANAP_RABs_ContextFailedtoTransferItem : Ty := .seq true (.cons false RANAP_RAB_ID (.cons false RANAP_Cause (.cons true RANAP_ProtocolExtensionContainer .nil)))
/-- `asn_DEF_securityModeCommand_ies_2`, src/ranap/RANAP_SecurityModeCommand.c:67 -/
def RANAP_SecurityModeCommand__securityModeCommand_ies_2 : Ty := .seqOf (some ⟨0, 65535, false⟩) RANAP_IE
/-- `asn_DEF_RANAP_SecurityModeCommand`, src/ranap/RANAP_SecurityModeCommand.c:120 -/
def RANAP_SecurityModeCommand : Ty := .seq true (.cons false RANAP_SecurityModeCommand__securityModeCommand_ies_2 .nil)
/-- `asn_DEF_RANAP_KeyStatus`, src/ranap/RANAP_KeyStatus.c:143 -/
def RANAP_KeyStatus : Ty := .enum 2 2 true
/-- `asn_DEF_securityModeComplete_ies_2`, src/ranap/RANAP_SecurityModeComplete.c:67 -/
def RANAP_SecurityModeComplete__securityModeComplete_ies_2 : Ty := .seqOf (some ⟨0, 65535, false⟩) RANAP_IE
/-- `asn_DEF_RANAP_SecurityModeComplete`, src/ranap/RANAP_SecurityModeComplete.c:120 -/
def RANAP_SecurityModeComplete : Ty := .seq true (.cons false RANAP_SecurityModeComplete__securityModeComplete_ies_2 .nil)
/-- `asn_DEF_securityModeReject_ies_2`, src/ranap/RANAP_SecurityModeReject.c:67 -/
def RANAP_SecurityModeReject__securityModeReject_ies_2 : Ty := .seqOf (some ⟨0, 65535, false⟩) RANAP_IE
/-- `asn_DEF_RANAP_SecurityModeReject`, src/ranap/RANAP_SecurityModeReject.c:120 -/
def RANAP_SecurityModeReject : Ty := .seq true (.cons false RANAP_SecurityModeReject__securityModeReject_ies_2 .nil)
/-- `asn_DEF_dataVolumeReportRequest_ies_2`, src/ranap/RANAP_DataVolumeReportRequest.c:67 -/
def RANAP_DataVolumeReportRequest__dataVolumeReportRequest_ies_2 : Ty := .seqOf (some ⟨0, 65535, false⟩) RANAP_IE
/-- `asn_DEF_RANAP_DataVolumeReportRequest`, src/ranap/RANAP_DataVolumeReportRequest.c:120 -/
def RANAP_DataVolumeReportRequest : Ty := .seq true (.cons false RANAP_DataVolumeReportRequest__dataVolumeReportRequest_ies_2 .nil)
/-- `asn_DEF_raB_DataVolumeReportRequestList_ies_2`, src/ranap/RANAP_RAB-DataVolumeReportRequestList.c:67 -/
def RANAP_RAB_DataVolumeReportRequestList__raB_DataVolumeReportRequestList_ies_2 : Ty := .seqOf (some ⟨0, 65535, false⟩) RANAP_IE
/-- `asn_DEF_RANAP_RAB_DataVolumeReportRequestList`, src/ranap/RANAP_RAB-DataVolumeReportRequestList.c:120 -/
def RANAP_RAB_DataVolumeReportRequestList : Ty := .seq true (.cons false RANAP_RAB_DataVolumeReportRequestList__raB_DataVolumeReportRequestList_ies_2 .nil)
/-- `asn_DEF_RANAP_RAB_DataVolumeReportRequestItem`, src/ranap/RANAP_RAB-DataVolumeReportRequestItem.c:48 -/
def RANAP_RAB_DataVolumeReportRequestItem : Ty := .seq true (.cons false RANAP_RAB_ID (.cons true RANAP_ProtocolExtensionContainer .nil))
/-- `asn_DEF_dataVolumeReport_ies_2`, src/ranap/RANAP_DataVolumeReport.c:67 -/
def RANAP_DataVolumeReport__dataVolumeReport_ies_2 : Ty := .seqOf (some ⟨0, 65535, false⟩) RANAP_IE
/-- `asn_DEF_RANAP_DataVolumeReport`, src/ranap/RANAP_DataVolumeReport.c:120 -/
def RANAP_DataVolumeReport : Ty := .seq true (.cons false RANAP_DataVolumeReport__dataVolumeReport_ies_2 .nil)
/-- `asn_DEF_raBs_failed_to_reportList_ies_2`, src/ranap/RANAP_RABs-failed-to-reportList.c:67 -/
def RANAP_RABs_failed_to_reportList__raBs_failed_to_reportList_ies_2 : Ty := .seqOf (some ⟨0, 65535, false⟩) RANAP_IE
/-- `asn_DEF_RANAP_RABs_failed_to_reportList`, src/ranap/RANAP_RABs-failed-to-reportList.c:120 -/
def RANAP_RABs_failed_to_reportList : Ty := .seq true (.cons false RANAP_RABs_failed_to_reportList__raBs_failed_to_reportList_ies_2 .nil)
/-- `asn_DEF_RANAP_RABs_failed_to_reportItem`, src/ranap/RANAP_RABs-failed-to-reportItem.c:58 -/
def RANAP_RABs_failed_to_reportItem : Ty := .seq true (.cons false RANAP_RAB_ID (.cons false RANAP_Cause (.cons true RANAP_ProtocolExtensionContainer .nil)))
/-- `asn_DEF_reset_ies_2`, src/ranap/RANAP_Reset.c:67 -/
def RANAP_Reset__reset_ies_2 : Ty := .seqOf (some ⟨0, 65535, false⟩) RANAP_IE
/-- `asn_DEF_RANAP_Reset`, src/ranap/RANAP_Reset.c:120 -/
def RANAP_Reset : Ty := .seq true (.cons false RANAP_Reset__reset_ies_2 .nil)
/-- `asn_DEF_RANAP_GlobalRNC_ID`, src/ranap/RANAP_GlobalRNC-ID.c:46 -/
def RANAP_GlobalRNC_ID : Ty := .seq false (.cons false RANAP_PLMNidentity (.cons false RANAP_RNC_ID .nil))
/-- `asn_DEF_resetAcknowledge_ies_2`, src/ranap/RANAP_ResetAcknowledge.c:67 -/
def RANAP_ResetAcknowledge__resetAcknowledge_ies_2 : Ty := .seqOf (some ⟨0, 65535, false⟩) RANAP_IE
/-- `asn_DEF_RANAP_ResetAcknowledge`, src/ranap/RANAP_ResetAcknowledge.c:120 -/
def RANAP_ResetAcknowledge : Ty := .seq true (.cons false RANAP_ResetAcknowledge__resetAcknowledge_ies_2 .nil)
/-- `asn_DEF_resetResource_ies_2`, src/ranap/RANAP_ResetResource.c:67 -/
def RANAP_ResetResource__resetResource_ies_2 : Ty := .seqOf (some ⟨0, 65535, false⟩) RANAP_IE
/-- `asn_DEF_RANAP_ResetResource`, src/ranap/RANAP_ResetResource.c:120 -/
def RANAP_ResetResource : Ty := .seq true (.cons false RANAP_ResetResource__resetResource_ies_2 .nil)
/-- `asn_DEF_resetResourceList_ies_2`, src/ranap/RANAP_ResetResourceList.c:68 -/
def RANAP_ResetResourceList__resetResourceList_ies_2 : Ty := .seqOf (some ⟨0, 65535, false⟩) RANAP_IE
/-- `asn_DEF_RANAP_ResetResourceList`, src/ranap/RANAP_ResetResourceList.c:121 -/
def RANAP_ResetResourceList : Ty := .seq true (.cons false RANAP_ResetResourceList__resetResourceList_ies_2 .nil)
/-- `asn_DEF_RANAP_ResetResourceItem`, src/ranap/RANAP_ResetResourceItem.c:48 -/
def RANAP_ResetResourceItem : Ty := .seq true (.cons false RANAP_IuSignallingConnectionIdentifier (.cons true RANAP_ProtocolExtensionContainer .nil))
/-- `asn_DEF_resetResourceAcknowledge_ies_2`, src/ranap/RANAP_ResetResourceAcknowledge.c:67 -/
def RANAP_ResetResourceAcknowledge__resetResourceAcknowledge_ies_2 : Ty := .seqOf (some ⟨0, 65535, false⟩) RANAP_IE
/-- `asn_DEF_RANAP_ResetResourceAcknowledge`, src/ranap/RANAP_ResetResourceAcknowledge.c:120 -/
def RANAP_ResetResourceAcknowledge : Ty := .seq true (.cons false RANAP_ResetResourceAcknowledge__resetResourceAcknowledge_ies_2 .nil)
/-- `asn_DEF_resetResourceAckList_ies_2`, src/ranap/RANAP_ResetResourceAckList.c:68 -/
def RANAP_ResetResourceAckList__resetResourceAckList_ies_2 : Ty := .seqOf (some ⟨0, 65535, false⟩) RANAP_IE
/-- `asn_DEF_RANAP_ResetResourceAckList`, src/ranap/RANAP_ResetResourceAckList.c:121 -/
def RANAP_ResetResourceAckList : Ty := .seq true (.cons false RANAP_ResetResourceAckList__resetResourceAckList_ies_2 .nil)
/-- `asn_DEF_RANAP_ResetResourceAckItem`, src/ranap/RANAP_ResetResourceAckItem.c:48 -/
def RANAP_ResetResourceAckItem : Ty := .seq true (.cons false RANAP_IuSignallingConnectionIdentifier (.cons true RANAP_ProtocolExtensionContainer .nil))
/-- `asn_DEF_raB_ReleaseRequest_ies_2`, src/ranap/RANAP_RAB-ReleaseRequest.c:67 -/
def RANAP_RAB_ReleaseRequest__raB_ReleaseRequest_ies_2 : Ty := .seqOf (some ⟨0, 65535, false⟩) RANAP_IE
/-- `asn_DEF_RANAP_RAB_ReleaseRequest`, src/ranap/RANAP_RAB-ReleaseRequest.c:120 -/
def RANAP_RAB_ReleaseRequest : Ty := .seq true (.cons false RANAP_RAB_ReleaseRequest__raB_ReleaseRequest_ies_2 .nil)
/-- `asn_DEF_raB_ReleaseList_ies_2`, src/ranap/RANAP_RAB-ReleaseList.c:68 -/
def RANAP_RAB_ReleaseList__raB_ReleaseList_ies_2 : Ty := .seqOf (some ⟨0, 65535, false⟩) RANAP_IE
/-- `asn_DEF_RANAP_RAB_ReleaseList`, src/ranap/RANAP_RAB-ReleaseList.c:121 -/
def RANAP_RAB_ReleaseList : Ty := .seq true (.cons false RANAP_RAB_ReleaseList__raB_ReleaseList_ies_2 .nil)
/-- `asn_DEF_RANAP_RAB_ReleaseItem`, src/ranap/RANAP_RAB-ReleaseItem.c:58 -/
def RANAP_RAB_ReleaseItem : Ty := .seq true (.cons false RANAP_RAB_ID (.cons false RANAP_Cause (.cons true RANAP_ProtocolExtensionContainer .nil)))
/-- `asn_DEF_iu_ReleaseRequest_ies_2`, src/ranap/RANAP_Iu-ReleaseRequest.c:67 -/
def RANAP_Iu_ReleaseRequest__iu_ReleaseRequest_ies_2 : Ty := .seqOf (some ⟨0, 65535, false⟩) RANAP_IE
/-- `asn_DEF_RANAP_Iu_ReleaseRequest`, src/ranap/RANAP_Iu-ReleaseRequest.c:120 -/
def RANAP_Iu_ReleaseRequest : Ty := .seq true (.cons false RANAP_Iu_ReleaseRequest__iu_ReleaseRequest_ies_2 .nil)
/-- `asn_DEF_enhancedRelocationCompleteRequest_ies_2`, src/ranap/RANAP_EnhancedRelocationCompleteRequest.c:67 -/
def RANAP_EnhancedRelocationCompleteRequest__enhancedRelocationCompleteRequest_ies_2 : Ty := .seqOf (some ⟨0, 65535, false⟩) RANAP_IE
/-- `asn_DEF_RANAP_EnhancedRelocationCompleteRequest`, src/ranap/RANAP_EnhancedRelocationCompleteRequest.c:120 -/
def RANAP_EnhancedRelocationCompleteRequest : Ty := .seq true (.cons false RANAP_EnhancedRelocationCompleteRequest__enhancedRelocationCompleteRequest_ies_2 .nil)
/-- `asn_DEF_RANAP_ExtendedRNC_ID`, src/ranap/RANAP_ExtendedRNC-ID.c:141 -/
def RANAP_ExtendedRNC_ID : Ty := .int ⟨4096, 65535, false⟩
/-- `asn_DEF_raB_SetupList_EnhancedRelocCompleteReq_ies_2`, src/ranap/RANAP_RAB-SetupList-EnhancedRelocCompleteReq.c:67 -/
def RANAP_RAB_SetupList_EnhancedRelocCompleteReq__raB_SetupList_EnhancedRelocCompleteReq_ies_2 : Ty := .seqOf (some ⟨0, 65535, false⟩) RANAP_IE
/-- `asn_DEF_RANAP_RAB_SetupList_EnhancedRelocCompleteReq`, src/ranap/RANAP_RAB-SetupList-EnhancedRelocCompleteReq.c:120 -/
def RANAP_RAB_SetupList_EnhancedRelocCompleteReq : Ty := .seq true (.cons false RANAP_RAB_SetupList_EnhancedRelocCompleteReq__raB_SetupList_EnhancedRelocCompleteReq_ies_2 .nil)
/-- `asn_DEF_RANAP_Ass_RAB_Parameter_GuaranteedBitrateList`, src/ranap/RANAP_Ass-RAB-Parameter-GuaranteedBitrateList.c:34 -/
def RANAP_Ass_RAB_Parameter_GuaranteedBitrateList : Ty := .seqOf (some ⟨1, 2, false⟩) RANAP_GuaranteedBitrate
/-- `asn_DEF_RANAP_Ass_RAB_Parameter_MaxBitrateList`, src/ranap/RANAP_Ass-RAB-Parameter-MaxBitrateList.c:34 -/
def RANAP_Ass_RAB_Parameter_MaxBitrateList : Ty := .seqOf (some ⟨1, 2, false⟩) RANAP_MaxBitrate
/-- `asn_DEF_RANAP_Ass_RAB_Parameters`, src/ranap/RANAP_Ass-RAB-Parameters.c:58 -/
def RANAP_Ass_RAB_Parameters : Ty := .seq true (.cons true RANAP_Ass_RAB_Parameter_MaxBitrateList (.cons true RANAP_Ass_RAB_Parameter_GuaranteedBitrateList (.cons true RANAP_IE_Extensions .nil)))
/-- `asn_DEF_RANAP_RAB_SetupItem_EnhancedRelocCompleteReq`, src/ranap/RANAP_RAB-SetupItem-EnhancedRelocCompleteReq.c:78 -/
def RANAP_RAB_SetupItem_EnhancedRelocCompleteReq : Ty := .seq true (.cons false RANAP_RAB_ID (.cons true RANAP_TransportLayerAddress (.cons true RANAP_IuTransportAssociation (.cons true RANAP_Ass_RAB_Parameters (.cons true RANAP_ProtocolExtensionContainer .nil)))))
/-- `asn_DEF_enhancedRelocationCompleteResponse_ies_2`, src/ranap/RANAP_EnhancedRelocationCompleteResponse.c:67 -/
def RANAP_EnhancedRelocationCompleteResponse__enhancedRelocationCompleteResponse_ies_2 : Ty := .seqOf (some ⟨0, 65535, false⟩) RANAP_IE
/-- `asn_DEF_RANAP_EnhancedRelocationCompleteResponse`, src/ranap/RANAP_EnhancedRelocationCompleteResponse.c:120 -/
def RANAP_EnhancedRelocationCompleteResponse : Ty := .seq true (.cons false RANAP_EnhancedRelocationCompleteResponse__enhancedRelocationCompleteResponse_ies_2 .nil)
/-- `asn_DEF_raB_SetupList_EnhancedRelocCompleteRes_ies_2`, src/ranap/RANAP_RAB-SetupList-EnhancedRelocCompleteRes.c:67 -/
def RANAP_RAB_SetupList_EnhancedRelocCompleteRes__raB_SetupList_EnhancedRelocCompleteRes_ies_2 : Ty := .seqOf (some ⟨0, 65535, false⟩) RANAP_IE
/-- `asn_DEF_RANAP_RAB_SetupList_EnhancedRelocCompleteRes`, src/ranap/RANAP_RAB-SetupList-EnhancedRelocCompleteRes.c:120 -/
def RANAP_RAB_SetupList_EnhancedRelocCompleteRes : Ty := .seq true (.cons false RANAP_RAB_SetupList_EnhancedRelocCompleteRes__raB_SetupList_EnhancedRelocCompleteRes_ies_2 .nil)
/-- `asn_DEF_raB_ToBeReleasedList_EnhancedRelocCompleteRes_ies_2`, src/ranap/RANAP_RAB-ToBeReleasedList-EnhancedRelocCompleteRes.c:67 -/
def RANAP_RAB_ToBeReleasedList_EnhancedRelocCompleteRes__raB_ToBeReleasedList_EnhancedRelocCompleteRes_ies_2 : Ty := .seqOf (some ⟨0, 65535, false⟩) RANAP_IE
/-- `asn_DEF_RANAP_RAB_ToBeReleasedList_EnhancedRelocCompleteRes`, src/ranap/RANAP_RAB-ToBeReleasedList-EnhancedRelocCompleteRes.c:120 -/
def RANAP_RAB_ToBeReleasedList_EnhancedRelocCompleteRes : Ty := .seq true (.cons false RANAP_RAB_ToBeReleasedList_EnhancedRelocCompleteRes__raB_ToBeReleasedList_EnhancedRelocCompleteRes_ies_2 .nil)
/-- `asn_DEF_RANAP_RAB_SetupItem_EnhancedRelocCompleteRes`, src/ranap/RANAP_RAB-SetupItem-EnhancedRelocCompleteRes.c:98 -/
def RANAP_RAB_SetupItem_EnhancedRelocCompleteRes : Ty := .seq true (.cons false RANAP_RAB_ID (.cons true RANAP_RAB_Parameters (.cons false RANAP_UserPlaneInformation (.cons true RANAP_TransportLayerAddress (.cons true RANAP_IuTransportAssociation (.cons true RANAP_RAB_ToBeReleasedList_EnhancedRelocCompleteRes (.cons true RANAP_ProtocolExtensionContainer .nil)))))))
/-- `asn_DEF_RANAP_RAB_ToBeReleasedItem_EnhancedRelocCompleteRes`, src/ranap/RANAP_RAB-ToBeReleasedItem-EnhancedRelocCompleteRes.c:58 -/
def RANAP_RAB_ToBeReleasedItem_EnhancedRelocCompleteRes : Ty := .seq true (.cons false RANAP_RAB_ID (.cons false RANAP_Cause (.cons true RANAP_ProtocolExtensionContainer .nil)))
/-- `asn_DEF_enhancedRelocationCompleteFailure_ies_2`, src/ranap/RANAP_EnhancedRelocationCompleteFailure.c:67 -/
def RANAP_EnhancedRelocationCompleteFailure__enhancedRelocationCompleteFailure_ies_2 : Ty := .seqOf (some ⟨0, 65535, false⟩) RANAP_IE
/-- `asn_DEF_RANAP_EnhancedRelocationCompleteFailure`, src/ranap/RANAP_EnhancedRelocationCompleteFailure.c:120 -/
def RANAP_EnhancedRelocationCompleteFailure : Ty := .seq true (.cons false RANAP_EnhancedRelocationCompleteFailure__enhancedRelocationCompleteFailure_ies_2 .nil)
/-- `asn_DEF_enhancedRelocationCompleteConfirm_ies_2`, src/ranap/RANAP_EnhancedRelocationCompleteConfirm.c:67 -/
def RANAP_EnhancedRelocationCompleteConfirm__enhancedRelocationCompleteConfirm_ies_2 : Ty := .seqOf (some ⟨0, 65535, false⟩) RANAP_IE
/-- `asn_DEF_RANAP_EnhancedRelocationCompleteConfirm`, src/ranap/RANAP_EnhancedRelocationCompleteConfirm.c:120 -/
def RANAP_EnhancedRelocationCompleteConfirm : Ty := .seq true (.cons false RANAP_EnhancedRelocationCompleteConfirm__enhancedRelocationCompleteConfirm_ies_2 .nil)
/-- `asn_DEF_paging_ies_2`, src/ranap/RANAP_Paging.c:67 -/
def RANAP_Paging__paging_ies_2 : Ty := .seqOf (some ⟨0, 65535, false⟩) RANAP_IE
/-- `asn_DEF_RANAP_Paging`, src/ranap/RANAP_Paging.c:120 -/
def RANAP_Paging : Ty := .seq true (.cons false RANAP_Paging__paging_ies_2 .nil)
/-- `asn_DEF_RANAP_P_TMSI`, src/ranap/RANAP_P-TMSI.c:142 -/
def RANAP_P_TMSI : Ty := .octets (some ⟨4, 4, false⟩)
/-- `asn_DEF_RANAP_TMSI`, src/ranap/RANAP_TMSI.c:142 -/
def RANAP_TMSI : Ty := .octets (some ⟨4, 4, false⟩)
/-- `asn_DEF_RANAP_TemporaryUE_ID`, src/ranap/RANAP_TemporaryUE-ID.c:49 -/
def RANAP_TemporaryUE_ID : Ty := .choice true (.cons false RANAP_TMSI (.cons false RANAP_P_TMSI .nil)) .nil
/-- `asn_DEF_RANAP_RAI`, src/ranap/RANAP_RAI.c:58 -/
def RANAP_RAI : Ty := .seq true (.cons false RANAP_LAI (.cons false RANAP_RAC (.cons true RANAP_IE_Extensions .nil)))
/-- `asn_DEF_RANAP_PagingAreaID`, src/ranap/RANAP_PagingAreaID.c:49 -/
def RANAP_PagingAreaID : Ty := .choice true (.cons false RANAP_LAI (.cons false RANAP_RAI .nil)) .nil
/-- `asn_DEF_RANAP_PagingCause`, src/ranap/RANAP_PagingCause.c:151 -/
def RANAP_PagingCause : Ty := .enum 5 6 true
/-- `asn_DEF_RANAP_NonSearchingIndication`, src/ranap/RANAP_NonSearchingIndication.c:141 -/
def RANAP_NonSearchingIndication : Ty := .enum 2 2 false
/-- `asn_DEF_RANAP_DRX_CycleLengthCoefficient`, src/ranap/RANAP_DRX-CycleLengthCoefficient.c:141 -/
def RANAP_DRX_CycleLengthCoefficient : Ty := .int ⟨6, 9, false⟩
/-- `asn_DEF_commonID_ies_2`, src/ranap/RANAP_CommonID.c:67 -/
def RANAP_CommonID__commonID_ies_2 : Ty := .seqOf (some ⟨0, 65535, false⟩) RANAP_IE
/-- `asn_DEF_RANAP_CommonID`, src/ranap/RANAP_CommonID.c:120 -/
def RANAP_CommonID : Ty := .seq true (.cons false RANAP_CommonID__commonID_ies_2 .nil)
/-- `asn_DEF_cN_InvokeTrace_ies_2`, src/ranap/RANAP_CN-InvokeTrace.c:67 -/
def RANAP_CN_InvokeTrace__cN_InvokeTrace_ies_2 : Ty := .seqOf (some ⟨0, 65535, false⟩) RANAP_IE
/-- `asn_DEF_RANAP_CN_InvokeTrace`, src/ranap/RANAP_CN-InvokeTrace.c:120 -/
def RANAP_CN_InvokeTrace : Ty := .seq true (.cons false RANAP_CN_InvokeTrace__cN_InvokeTrace_ies_2 .nil)
/-- `asn_DEF_RANAP_TraceType`, src/ranap/RANAP_TraceType.c:142 -/
def RANAP_TraceType : Ty := .octets (some ⟨1, 1, false⟩)
/-- `asn_DEF_RANAP_TraceReference`, src/ranap/RANAP_TraceReference.c:142 -/
def RANAP_TraceReference : Ty := .octets (some ⟨2, 3, false⟩)
/-- `asn_DEF_RANAP_TriggerID`, src/ranap/RANAP_TriggerID.c:142 -/
def RANAP_TriggerID : Ty := .octets (some ⟨3, 22, false⟩)
/-- `asn_DEF_RANAP_IMEI`, src/ranap/RANAP_IMEI.c:142 -/
def RANAP_IMEI : Ty := .octets (some ⟨8, 8, false⟩)
/-- `asn_DEF_RANAP_IMEISV`, src/ranap/RANAP_IMEISV.c:142 -/
def RANAP_IMEISV : Ty := .octets (some ⟨8, 8, false⟩)
/-- `asn_DEF_RANAP_UE_ID`, src/ranap/RANAP_UE-ID.c:59 -/
def RANAP_UE_ID : Ty := .choice true (.cons false RANAP_IMSI (.cons false RANAP_IMEI .nil)) (.cons false RANAP_IMEISV .nil)
/-- `asn_DEF_RANAP_OMC_ID`, src/ranap/RANAP_OMC-ID.c:142 -/
def RANAP_OMC_ID : Ty := .octets (some ⟨3, 22, false⟩)
/-- `asn_DEF_cN_DeactivateTrace_ies_2`, src/ranap/RANAP_CN-DeactivateTrace.c:67 -/
def RANAP_CN_DeactivateTrace__cN_DeactivateTrace_ies_2 : Ty := .seqOf (some ⟨0, 65535, false⟩) RANAP_IE
/-- `asn_DEF_RANAP_CN_DeactivateTrace`, src/ranap/RANAP_CN-DeactivateTrace.c:120 -/
def RANAP_CN_DeactivateTrace : Ty := .seq true (.cons false RANAP_CN_DeactivateTrace__cN_DeactivateTrace_ies_2 .nil)
/-- `asn_DEF_locationReportingControl_ies_2`, src/ranap/RANAP_LocationReportingControl.c:67 -/
def RANAP_LocationReportingControl__locationReportingControl_ies_2 : Ty := .seqOf (some ⟨0, 65535, false⟩) RANAP_IE
/-- `asn_DEF_RANAP_LocationReportingControl`, src/ranap/RANAP_LocationReportingControl.c:120 -/
def RANAP_LocationReportingControl : Ty := .seq true (.cons false RANAP_LocationReportingControl__locationReportingControl_ies_2 .nil)
/-- `asn_DEF_RANAP_ReportArea`, src/ranap/RANAP_ReportArea.c:143 -/
def RANAP_ReportArea : Ty := .enum 2 2 true
/-- `asn_DEF_RANAP_Event`, src/ranap/RANAP_Event.c:151 -/
def RANAP_Event : Ty := .enum 3 6 true
/-- `asn_DEF_RANAP_RequestType`, src/ranap/RANAP_RequestType.c:88 -/
def RANAP_RequestType : Ty := .seq true (.cons false RANAP_Event (.cons false RANAP_ReportArea (.cons true (.int ⟨0, 127, false⟩) .nil)))
/-- `asn_DEF_locationReport_ies_2`, src/ranap/RANAP_LocationReport.c:67 -/
def RANAP_LocationReport__locationReport_ies_2 : Ty := .seqOf (some ⟨0, 65535, false⟩) RANAP_IE
/-- `asn_DEF_RANAP_LocationReport`, src/ranap/RANAP_LocationReport.c:120 -/
def RANAP_LocationReport : Ty := .seq true (.cons false RANAP_LocationReport__locationReport_ies_2 .nil)
/-- `asn_DEF_latitudeSign_2`, src/ranap/RANAP_GeographicalCoordinates.c:203 -/
def RANAP_GeographicalCoordinates__latitudeSign_2 : Ty := .enum 2 2 false
/-- `asn_DEF_RANAP_GeographicalCoordinates`, src/ranap/RANAP_GeographicalCoordinates.c:287 -/
def RANAP_GeographicalCoordinates : Ty := .seq true (.cons false RANAP_GeographicalCoordinates__latitudeSign_2 (.cons false (.int ⟨0, 8388607, false⟩) (.cons false (.int ⟨-8388608, 8388607, false⟩) (.cons true RANAP_IE_Extensions .nil))))
/-- `asn_DEF_RANAP_GA_Polygon_Value`, src/ranap/RANAP_GA-Polygon-Value.c:48 -/
def RANAP_GA_Polygon_Value : Ty := .seq true (.cons false RANAP_GeographicalCoordinates (.cons true RANAP_IE_Extensions .nil))
/-- `asn_DEF_RANAP_GA_Polygon`, src/ranap/RANAP_GA-Polygon.c:34 -/
def RANAP_GA_Polygon : Ty := .seqOf (some ⟨1, 15, false⟩) RANAP_GA_Polygon_Value
/-- `asn_DEF_RANAP_GA_PointWithUnCertainty`, src/ranap/RANAP_GA-PointWithUnCertainty.c:88 -/
def RANAP_GA_PointWithUnCertainty : Ty := .seq false (.cons false RANAP_GeographicalCoordinates (.cons true RANAP_IE_Extensions (.cons false (.int ⟨0, 127, false⟩) .nil)))
/-- `asn_DEF_RANAP_GA_Point`, src/ranap/RANAP_GA-Point.c:48 -/
def RANAP_GA_Point : Ty := .seq true (.cons false RANAP_GeographicalCoordinates (.cons true RANAP_IE_Extensions .nil))
/-- `asn_DEF_RANAP_GA_EllipsoidArc`, src/ranap/RANAP_GA-EllipsoidArc.c:248 -/
def RANAP_GA_EllipsoidArc : Ty := .seq true (.cons false RANAP_GeographicalCoordinates (.cons false (.int ⟨0, 65535, false⟩) (.cons false (.int ⟨0, 127, false⟩) (.cons false (.int ⟨0, 179, false⟩) (.cons false (.int ⟨0, 179, false⟩) (.cons false (.int ⟨0, 127, false⟩) (.cons true RANAP_IE_Extensions .nil)))))))
/-- `asn_DEF_RANAP_GA_UncertaintyEllipse`, src/ranap/RANAP_GA-UncertaintyEllipse.c:146 -/
def RANAP_GA_UncertaintyEllipse : Ty := .seq true (.cons false (.int ⟨0, 127, false⟩) (.cons false (.int ⟨0, 127, false⟩) (.cons false (.int ⟨0, 179, false⟩) .nil)))
/-- `asn_DEF_directionOfAltitude_2`, src/ranap/RANAP_GA-AltitudeAndDirection.c:173 -/
def RANAP_GA_AltitudeAndDirection__directionOfAltitude_2 : Ty := .enum 2 2 false
/-- `asn_DEF_RANAP_GA_AltitudeAndDirection`, src/ranap/RANAP_GA-AltitudeAndDirection.c:235 -/
def RANAP_GA_AltitudeAndDirection : Ty := .seq true (.cons false RANAP_GA_AltitudeAndDirection__directionOfAltitude_2 (.cons false (.int ⟨0, 32767, false⟩) .nil))
/-- `asn_DEF_RANAP_GA_PointWithAltitudeAndUncertaintyEllipsoid`, src/ranap/RANAP_GA-PointWithAltitudeAndUncertaintyEllipsoid.c:148 -/
def RANAP_GA_PointWithAltitudeAndUncertaintyEllipsoid : Ty := .seq true (.cons false RANAP_GeographicalCoordinates (.cons false RANAP_GA_AltitudeAndDirection (.cons false RANAP_GA_UncertaintyEllipse (.cons false (.int ⟨0, 127, false⟩) (.cons false (.int ⟨0, 127, false⟩) (.cons true RANAP_IE_Extensions .nil))))))
/-- `asn_DEF_RANAP_GA_PointWithAltitude`, src/ranap/RANAP_GA-PointWithAltitude.c:58 -/
def RANAP_GA_PointWithAltitude : Ty := .seq true (.cons false RANAP_GeographicalCoordinates (.cons false RANAP_GA_AltitudeAndDirection (.cons true RANAP_IE_Extensions .nil)))
/-- `asn_DEF_RANAP_GA_PointWithUnCertaintyEllipse`, src/ranap/RANAP_GA-PointWithUnCertaintyEllipse.c:98 -/
def RANAP_GA_PointWithUnCertaintyEllipse : Ty := .seq true (.cons false RANAP_GeographicalCoordinates (.cons false RANAP_GA_UncertaintyEllipse (.cons false (.int ⟨0, 127, false⟩) (.cons true RANAP_IE_Extensions .nil))))
/-- `asn_DEF_RANAP_GeographicalArea`, src/ranap/RANAP_GeographicalArea.c:99 -/
def RANAP_GeographicalArea : Ty := .choice true (.cons false RANAP_GA_Point (.cons false RANAP_GA_PointWithUnCertainty (.cons false RANAP_GA_Polygon .nil))) (.cons false RANAP_GA_PointWithUnCertaintyEllipse (.cons false RANAP_GA_PointWithAltitude (.cons false RANAP_GA_PointWithAltitudeAndUncertaintyEllipsoid (.cons false RANAP_GA_EllipsoidArc .nil))))
/-- `asn_DEF_RANAP_AreaIdentity`, src/ranap/RANAP_AreaIdentity.c:49 -/
def RANAP_AreaIdentity : Ty := .choice true (.cons false RANAP_SAI (.cons false RANAP_GeographicalArea .nil)) .nil
/-- `asn_DEF_initialUE_Message_ies_2`, src/ranap/RANAP_InitialUE-Message.c:67 -/
def RANAP_InitialUE_Message__initialUE_Message_ies_2 : Ty := .seqOf (some ⟨0, 65535, false⟩) RANAP_IE
/-- `asn_DEF_RANAP_InitialUE_Message`, src/ranap/RANAP_InitialUE-Message.c:120 -/
def RANAP_InitialUE_Message : Ty := .seq true (.cons false RANAP_InitialUE_Message__initialUE_Message_ies_2 .nil)
/-- `asn_DEF_RANAP_NAS_PDU`, src/ranap/RANAP_NAS-PDU.c:119 -/
def RANAP_NAS_PDU : Ty := .octets none
/-- `asn_DEF_directTransfer_ies_2`, src/ranap/RANAP_DirectTransfer.c:67 -/
def RANAP_DirectTransfer__directTransfer_ies_2 : Ty := .seqOf (some ⟨0, 65535, false⟩) RANAP_IE
/-- `asn_DEF_RANAP_DirectTransfer`, src/ranap/RANAP_DirectTransfer.c:120 -/
def RANAP_DirectTransfer : Ty := .seq true (.cons false RANAP_DirectTransfer__directTransfer_ies_2 .nil)
/-- `asn_DEF_RANAP_SAPI`, src/ranap/RANAP_SAPI.c:143 -/
def RANAP_SAPI : Ty := .enum 2 2 true
/-- `asn_DEF_redirectionIndication_ies_2`, src/ranap/RANAP_RedirectionIndication.c:67 -/
def RANAP_RedirectionIndication__redirectionIndication_ies_2 : Ty := .seqOf (some ⟨0, 65535, false⟩) RANAP_IE
/-- `asn_DEF_RANAP_RedirectionIndication`, src/ranap/RANAP_RedirectionIndication.c:120 -/
def RANAP_RedirectionIndication : Ty := .seq true (.cons false RANAP_RedirectionIndication__redirectionIndication_ies_2 .nil)
/-- `asn_DEF_RANAP_RejectCauseValue`, src/ranap/RANAP_RejectCauseValue.c:155 -/
def RANAP_RejectCauseValue : Ty := .enum 6 8 true
/-- `asn_DEF_RANAP_NAS_SequenceNumber`, src/ranap/RANAP_NAS-SequenceNumber.c:147 -/
def RANAP_NAS_SequenceNumber : Ty := .bits (some ⟨2, 2, false⟩)
/-- `asn_DEF_overload_ies_2`, src/ranap/RANAP_Overload.c:67 -/
def RANAP_Overload__overload_ies_2 : Ty := .seqOf (some ⟨0, 65535, false⟩) RANAP_IE
/-- `asn_DEF_RANAP_Overload`, src/ranap/RANAP_Overload.c:120 -/
def RANAP_Overload : Ty := .seq true (.cons false RANAP_Overload__overload_ies_2 .nil)
/-- `asn_DEF_RANAP_NumberOfSteps`, src/ranap/RANAP_NumberOfSteps.c:141 -/
def RANAP_NumberOfSteps : Ty := .int ⟨1, 16, false⟩
/-- `asn_DEF_errorIndication_ies_2`, src/ranap/RANAP_ErrorIndication.c:67 -/
def RANAP_ErrorIndication__errorIndication_ies_2 : Ty := .seqOf (some ⟨0, 65535, false⟩) RANAP_IE
/-- `asn_DEF_RANAP_ErrorIndication`, src/ranap/RANAP_ErrorIndication.c:120 -/
def RANAP_ErrorIndication : Ty := .seq true (.cons false RANAP_ErrorIndication__errorIndication_ies_2 .nil)
/-- `asn_DEF_srnS_DataForwardCommand_ies_2`, src/ranap/RANAP_SRNS-DataForwardCommand.c:67 -/
def RANAP_SRNS_DataForwardCommand__srnS_DataForwardCommand_ies_2 : Ty := .seqOf (some ⟨0, 65535, false⟩) RANAP_IE
/-- `asn_DEF_RANAP_SRNS_DataForwardCommand`, src/ranap/RANAP_SRNS-DataForwardCommand.c:120 -/
def RANAP_SRNS_DataForwardCommand : Ty := .seq true (.cons false RANAP_SRNS_DataForwardCommand__srnS_DataForwardCommand_ies_2 .nil)
/-- `asn_DEF_forwardSRNS_Context_ies_2`, src/ranap/RANAP_ForwardSRNS-Context.c:67 -/
def RANAP_ForwardSRNS_Context__forwardSRNS_Context_ies_2 : Ty := .seqOf (some ⟨0, 65535, false⟩) RANAP_IE
/-- `asn_DEF_RANAP_ForwardSRNS_Context`, src/ranap/RANAP_ForwardSRNS-Context.c:120 -/
def RANAP_ForwardSRNS_Context : Ty := .seq true (.cons false RANAP_ForwardSRNS_Context__forwardSRNS_Context_ies_2 .nil)
/-- `asn_DEF_raB_AssignmentRequest_ies_2`, src/ranap/RANAP_RAB-AssignmentRequest.c:67 -/
def RANAP_RAB_AssignmentRequest__raB_AssignmentRequest_ies_2 : Ty := .seqOf (some ⟨0, 65535, false⟩) RANAP_IE
/-- `asn_DEF_RANAP_RAB_AssignmentRequest`, src/ranap/RANAP_RAB-AssignmentRequest.c:120 -/
def RANAP_RAB_AssignmentRequest : Ty := .seq true (.cons false RANAP_RAB_AssignmentRequest__raB_AssignmentRequest_ies_2 .nil)
/-- `asn_DEF_RANAP_ProtocolIE_FieldPair`, src/ranap/RANAP_ProtocolIE-FieldPair.c:76 -/
def RANAP_ProtocolIE_FieldPair : Ty := .seq false (.cons false RANAP_ProtocolIE_ID (.cons false RANAP_Criticality (.cons false (.any) (.cons false RANAP_Criticality (.cons false (.any) .nil)))))
/-- `asn_DEF_RANAP_ProtocolIE_ContainerPair`, src/ranap/RANAP_ProtocolIE-ContainerPair.c:34 -/
def RANAP_ProtocolIE_ContainerPair : Ty := .seqOf (some ⟨0, 65535, false⟩) RANAP_ProtocolIE_FieldPair
/-- `asn_DEF_RANAP_RAB_IE_ContainerPairList`, src/ranap/RANAP_RAB-IE-ContainerPairList.c:34 -/
def RANAP_RAB_IE_ContainerPairList : Ty := .seqOf (some ⟨1, 256, false⟩) RANAP_ProtocolIE_ContainerPair
/-- `asn_DEF_RANAP_RAB_SetupOrModifyList`, src/ranap/RANAP_RAB-SetupOrModifyList.c:136 -/
def RANAP_RAB_SetupOrModifyList : Ty := RANAP_RAB_IE_ContainerPairList
/-- `asn_DEF_raB_AssignmentResponse_ies_2`, src/ranap/RANAP_RAB-AssignmentResponse.c:67 -/
def RANAP_RAB_AssignmentResponse__raB_AssignmentResponse_ies_2 : Ty := .seqOf (some ⟨0, 65535, false⟩) RANAP_IE
/-- `asn_DEF_RANAP_RAB_AssignmentResponse`, src/ranap/RANAP_RAB-AssignmentResponse.c:120 -/
def RANAP_RAB_AssignmentResponse : Ty := .seq true (.cons false RANAP_RAB_AssignmentResponse__raB_AssignmentResponse_ies_2 .nil)
/-- `asn_DEF_raB_SetupOrModifiedList_ies_2`, src/ranap/RANAP_RAB-SetupOrModifiedList.c:67 -/
def RANAP_RAB_SetupOrModifiedList__raB_SetupOrModifiedList_ies_2 : Ty := .seqOf (some ⟨0, 65535, false⟩) RANAP_IE
/-- `asn_DEF_RANAP_RAB_SetupOrModifiedList`, src/ranap/RANAP_RAB-SetupOrModifiedList.c:120 -/
def RANAP_RAB_SetupOrModifiedList : Ty := .seq true (.cons false RANAP_RAB_SetupOrModifiedList__raB_SetupOrModifiedList_ies_2 .nil)
/-- `asn_DEF_raB_ReleasedList_ies_2`, src/ranap/RANAP_RAB-ReleasedList.c:67 -/
def RANAP_RAB_ReleasedList__raB_ReleasedList_ies_2 : Ty := .seqOf (some ⟨0, 65535, false⟩) RANAP_IE
/-- `asn_DEF_RANAP_RAB_ReleasedList`, src/ranap/RANAP_RAB-ReleasedList.c:120 -/
def RANAP_RAB_ReleasedList : Ty := .seq true (.cons false RANAP_RAB_ReleasedList__raB_ReleasedList_ies_2 .nil)
/-- `asn_DEF_raB_QueuedList_ies_2`, src/ranap/RANAP_RAB-QueuedList.c:67 -/
def RANAP_RAB_QueuedList__raB_QueuedList_ies_2 : Ty := .seqOf (some ⟨0, 65535, false⟩) RANAP_IE
/-- `asn_DEF_RANAP_RAB_QueuedList`, src/ranap/RANAP_RAB-QueuedList.c:120 -/
def RANAP_RAB_QueuedList : Ty := .seq true (.cons false RANAP_RAB_QueuedList__raB_QueuedList_ies_2 .nil)
/-- `asn_DEF_RANAP_RAB_ReleaseFailedList`, src/ranap/RANAP_RAB-ReleaseFailedList.c:123 -/
def RANAP_RAB_ReleaseFailedList : Ty := RANAP_RAB_FailedList
/-- `asn_DEF_RANAP_RAB_SetupOrModifiedItem`, src/ranap/RANAP_RAB-SetupOrModifiedItem.c:78 -/
def RANAP_RAB_SetupOrModifiedItem : Ty := .seq true (.cons false RANAP_RAB_ID (.cons true RANAP_TransportLayerAddress (.cons true RANAP_IuTransportAssociation (.cons true RANAP_DataVolumeList (.cons true RANAP_ProtocolExtensionContainer .nil)))))
/-- `asn_DEF_RANAP_RAB_ReleasedItem`, src/ranap/RANAP_RAB-ReleasedItem.c:78 -/
def RANAP_RAB_ReleasedItem : Ty := .seq true (.cons false RANAP_RAB_ID (.cons true RANAP_DataVolumeList (.cons true RANAP_DL_GTP_PDU_SequenceNumber (.cons true RANAP_UL_GTP_PDU_SequenceNumber (.cons true RANAP_ProtocolExtensionContainer .nil)))))
/-- `asn_DEF_RANAP_RAB_QueuedItem`, src/ranap/RANAP_RAB-QueuedItem.c:48 -/
def RANAP_RAB_QueuedItem : Ty := .seq true (.cons false RANAP_RAB_ID (.cons true RANAP_ProtocolExtensionContainer .nil))
/-- `asn_DEF_geraN_Iumode_RAB_Failed_RABAssgntResponse_List_ies_2`, src/ranap/RANAP_GERAN-Iumode-RAB-Failed-RABAssgntResponse-List.c:67 -/
def RANAP_GERAN_Iumode_RAB_Failed_RABAssgntResponse_List__geraN_Iumode_RAB_Failed_RABAssgntResponse_List_ies_2 : Ty := .seqOf (some ⟨0, 65535, false⟩) RANAP_IE
/-- `asn_DEF_RANAP_GERAN_Iumode_RAB_Failed_RABAssgntResponse_List`, src/ranap/RANAP_GERAN-Iumode-RAB-Failed-RABAssgntResponse-List.c:120 -/
def RANAP_GERAN_Iumode_RAB_Failed_RABAssgntResponse_List : Ty := .seq true (.cons false RANAP_GERAN_Iumode_RAB_Failed_RABAssgntResponse_List__geraN_Iumode_RAB_Failed_RABAssgntResponse_List_ies_2 .nil)
/-- `asn_DEF_RANAP_GERAN_Classmark`, src/ranap/RANAP_GERAN-Classmark.c:119 -/
def RANAP_GERAN_Classmark : Ty := .octets none
/-- `asn_DEF_RANAP_GERAN_Iumode_RAB_Failed_RABAssgntResponse_Item`, src/ranap/RANAP_GERAN-Iumode-RAB-Failed-RABAssgntResponse-Item.c:68 -/
def RANAP_GERAN_Iumode_RAB_Failed_RABAssgntResponse_Item : Ty := .seq true (.cons false RANAP_RAB_ID (.cons false RANAP_Cause (.cons true RANAP_GERAN_Classmark (.cons true RANAP_ProtocolExtensionContainer .nil))))
/-- `asn_DEF_ranaP_RelocationInformation_ies_2`, src/ranap/RANAP_RANAP-RelocationInformation.c:67 -/
def RANAP_RANAP_RelocationInformation__ranaP_RelocationInformation_ies_2 : Ty := .seqOf (some ⟨0, 65535, false⟩) RANAP_IE
/-- `asn_DEF_RANAP_RANAP_RelocationInformation`, src/ranap/RANAP_RANAP-RelocationInformation.c:120 -/
def RANAP_RANAP_RelocationInformation : Ty := .seq true (.cons false RANAP_RANAP_RelocationInformation__ranaP_RelocationInformation_ies_2 .nil)
/-- `asn_DEF_raB_ContextList_RANAP_RelocInf_ies_2`, src/ranap/RANAP_RAB-ContextList-RANAP-RelocInf.c:67 -/
def RANAP_RAB_ContextList_RANAP_RelocInf__raB_ContextList_RANAP_RelocInf_ies_2 : Ty := .seqOf (some ⟨0, 65535, false⟩) RANAP_IE
/-- `asn_DEF_RANAP_RAB_ContextList_RANAP_RelocInf`, src/ranap/RANAP_RAB-ContextList-RANAP-RelocInf.c:120 -/
def RANAP_RAB_ContextList_RANAP_RelocInf : Ty := .seq true (.cons false RANAP_RAB_ContextList_RANAP_RelocInf__raB_ContextList_RANAP_RelocInf_ies_2 .nil)
/-- `asn_DEF_RANAP_RAB_ContextItem_RANAP_RelocInf`, src/ranap/RANAP_RAB-ContextItem-RANAP-RelocInf.c:88 -/
def RANAP_RAB_ContextItem_RANAP_RelocInf : Ty := .seq true (.cons false RANAP_RAB_ID (.cons true RANAP_DL_GTP_PDU_SequenceNumber (.cons true RANAP_UL_GTP_PDU_SequenceNumber (.cons true RANAP_DL_N_PDU_SequenceNumber (.cons true RANAP_UL_N_PDU_SequenceNumber (.cons true RANAP_ProtocolExtensionContainer .nil))))))
/-- `asn_DEF_ranaP_EnhancedRelocationInformationRequest_ies_2`, src/ranap/RANAP_RANAP-EnhancedRelocationInformationRequest.c:67 -/
def RANAP_RANAP_EnhancedRelocationInformationRequest__ranaP_EnhancedRelocationInformationRequest_ies_2 : Ty := .seqOf (some ⟨0, 65535, false⟩) RANAP_IE
/-- `asn_DEF_RANAP_RANAP_EnhancedRelocationInformationRequest`, src/ranap/RANAP_RANAP-EnhancedRelocationInformationRequest.c:120 -/
def RANAP_RANAP_EnhancedRelocationInformationRequest : Ty := .seq true (.cons false RANAP_RANAP_EnhancedRelocationInformationRequest__ranaP_EnhancedRelocationInformationRequest_ies_2 .nil)
/-- `asn_DEF_RANAP_CN_ID`, src/ranap/RANAP_CN-ID.c:141 -/
def RANAP_CN_ID : Ty := .int ⟨0, 4095, false⟩
/-- `asn_DEF_RANAP_GlobalCN_ID`, src/ranap/RANAP_GlobalCN-ID.c:46 -/
def RANAP_GlobalCN_ID : Ty := .seq false (.cons false RANAP_PLMNidentity (.cons false RANAP_CN_ID .nil))
/-- `asn_DEF_raB_SetupList_EnhRelocInfoReq_ies_2`, src/ranap/RANAP_RAB-SetupList-EnhRelocInfoReq.c:67 -/
def RANAP_RAB_SetupList_EnhRelocInfoReq__raB_SetupList_EnhRelocInfoReq_ies_2 : Ty := .seqOf (some ⟨0, 65535, false⟩) RANAP_IE
/-- `asn_DEF_RANAP_RAB_SetupList_EnhRelocInfoReq`, src/ranap/RANAP_RAB-SetupList-EnhRelocInfoReq.c:120 -/
def RANAP_RAB_SetupList_EnhRelocInfoReq : Ty := .seq true (.cons false RANAP_RAB_SetupList_EnhRelocInfoReq__raB_SetupList_EnhRelocInfoReq_ies_2 .nil)
/-- `asn_DEF_RANAP_SNAC`, src/ranap/RANAP_SNAC.c:141 -/
def RANAP_SNAC : Ty := .int ⟨0, 65535, false⟩
/-- `asn_DEF_RANAP_AuthorisedSNAs`, src/ranap/RANAP_AuthorisedSNAs.c:34 -/
def RANAP_AuthorisedSNAs : Ty := .seqOf (some ⟨1, 65536, false⟩) RANAP_SNAC
/-- `asn_DEF_RANAP_AuthorisedPLMNs_Value`, src/ranap/RANAP_AuthorisedPLMNs-Value.c:58 -/
def RANAP_AuthorisedPLMNs_Value : Ty := .seq true (.cons false RANAP_PLMNidentity (.cons true RANAP_AuthorisedSNAs (.cons true RANAP_IE_Extensions .nil)))
/-- `asn_DEF_RANAP_AuthorisedPLMNs`, src/ranap/RANAP_AuthorisedPLMNs.c:34 -/
def RANAP_AuthorisedPLMNs : Ty := .seqOf (some ⟨1, 32, false⟩) RANAP_AuthorisedPLMNs_Value
/-- `asn_DEF_RANAP_SNA_Access_Information`, src/ranap/RANAP_SNA-Access-Information.c:48 -/
def RANAP_SNA_Access_Information : Ty := .seq true (.cons false RANAP_AuthorisedPLMNs (.cons true RANAP_IE_Extensions .nil))
/-- `asn_DEF_RANAP_UESBI_IuB`, src/ranap/RANAP_UESBI-IuB.c:147 -/
def RANAP_UESBI_IuB : Ty := .bits (some ⟨1, 128, false⟩)
/-- `asn_DEF_RANAP_UESBI_IuA`, src/ranap/RANAP_UESBI-IuA.c:147 -/
def RANAP_UESBI_IuA : Ty := .bits (some ⟨1, 128, false⟩)
/-- `asn_DEF_RANAP_UESBI_Iu`, src/ranap/RANAP_UESBI-Iu.c:58 -/
def RANAP_UESBI_Iu : Ty := .seq true (.cons true RANAP_UESBI_IuA (.cons true RANAP_UESBI_IuB (.cons true RANAP_IE_Extensions .nil)))
/-- `asn_DEF_RANAP_MBMS_PTP_RAB_ID`, src/ranap/RANAP_MBMS-PTP-RAB-ID.c:147 -/
def RANAP_MBMS_PTP_RAB_ID : Ty := .bits (some ⟨8, 8, false⟩)
/-- `asn_DEF_RANAP_TMGI`, src/ranap/RANAP_TMGI.c:89 -/
def RANAP_TMGI : Ty := .seq false (.cons false RANAP_PLMNidentity (.cons false (.octets (some ⟨3, 3, false⟩)) (.cons true RANAP_IE_Extensions .nil)))
/-- `asn_DEF_RANAP_JoinedMBMSBearerService_IEs_Value`, src/ranap/RANAP_JoinedMBMSBearerService-IEs-Value.c:58 -/
def RANAP_JoinedMBMSBearerService_IEs_Value : Ty := .seq true (.cons false RANAP_TMGI (.cons false RANAP_MBMS_PTP_RAB_ID (.cons true RANAP_ProtocolExtensionContainer .nil)))
/-- `asn_DEF_RANAP_JoinedMBMSBearerService_IEs`, src/ranap/RANAP_JoinedMBMSBearerService-IEs.c:34 -/
def RANAP_JoinedMBMSBearerService_IEs : Ty := .seqOf (some ⟨1, 128, false⟩) RANAP_JoinedMBMSBearerService_IEs_Value
/-- `asn_DEF_RANAP_CNMBMSLinkingInformation`, src/ranap/RANAP_CNMBMSLinkingInformation.c:48 -/
def RANAP_CNMBMSLinkingInformation : Ty := .seq true (.cons false RANAP_JoinedMBMSBearerService_IEs (.cons true RANAP_ProtocolExtensionContainer .nil))
/-- `asn_DEF_RANAP_Alt_RAB_Parameter_GuaranteedBitrateList`, src/ranap/RANAP_Alt-RAB-Parameter-GuaranteedBitrateList.c:34 -/
def RANAP_Alt_RAB_Parameter_GuaranteedBitrateList : Ty := .seqOf (some ⟨1, 2, false⟩) RANAP_GuaranteedBitrate
/-- `asn_DEF_RANAP_Alt_RAB_Parameter_GuaranteedBitrates`, src/ranap/RANAP_Alt-RAB-Parameter-GuaranteedBitrates.c:34 -/
def RANAP_Alt_RAB_Parameter_GuaranteedBitrates : Ty := .seqOf (some ⟨1, 16, false⟩) RANAP_Alt_RAB_Parameter_GuaranteedBitrateList
/-- `asn_DEF_RANAP_Alt_RAB_Parameter_GuaranteedBitrateType`, src/ranap/RANAP_Alt-RAB-Parameter-GuaranteedBitrateType.c:145 -/
def RANAP_Alt_RAB_Parameter_GuaranteedBitrateType : Ty := .enum 3 3 true
/-- `asn_DEF_RANAP_Alt_RAB_Parameter_GuaranteedBitrateInf`, src/ranap/RANAP_Alt-RAB-Parameter-GuaranteedBitrateInf.c:48 -/
def RANAP_Alt_RAB_Parameter_GuaranteedBitrateInf : Ty := .seq true (.cons false RANAP_Alt_RAB_Parameter_GuaranteedBitrateType (.cons true RANAP_Alt_RAB_Parameter_GuaranteedBitrates .nil))
/-- `asn_DEF_RANAP_Alt_RAB_Parameter_MaxBitrateList`, src/ranap/RANAP_Alt-RAB-Parameter-MaxBitrateList.c:34 -/
def RANAP_Alt_RAB_Parameter_MaxBitrateList : Ty := .seqOf (some ⟨1, 2, false⟩) RANAP_MaxBitrate
/-- `asn_DEF_RANAP_Alt_RAB_Parameter_MaxBitrates`, src/ranap/RANAP_Alt-RAB-Parameter-MaxBitrates.c:34 -/
def RANAP_Alt_RAB_Parameter_MaxBitrates : Ty := .seqOf (some ⟨1, 16, false⟩) RANAP_Alt_RAB_Parameter_MaxBitrateList
/-- `asn_DEF_RANAP_Alt_RAB_Parameter_MaxBitrateType`, src/ranap/RANAP_Alt-RAB-Parameter-MaxBitrateType.c:145 -/
def RANAP_Alt_RAB_Parameter_MaxBitrateType : Ty := .enum 3 3 true
/-- `asn_DEF_RANAP_Alt_RAB_Parameter_MaxBitrateInf`, src/ranap/RANAP_Alt-RAB-Parameter-MaxBitrateInf.c:48 -/
def RANAP_Alt_RAB_Parameter_MaxBitrateInf : Ty := .seq true (.cons false RANAP_Alt_RAB_Parameter_MaxBitrateType (.cons true RANAP_Alt_RAB_Parameter_MaxBitrates .nil))
/-- `asn_DEF_RANAP_Alt_RAB_Parameters`, src/ranap/RANAP_Alt-RAB-Parameters.c:58 -/
def RANAP_Alt_RAB_Parameters : Ty := .seq true (.cons true RANAP_Alt_RAB_Parameter_MaxBitrateInf (.cons true RANAP_Alt_RAB_Parameter_GuaranteedBitrateInf (.cons true RANAP_IE_Extensions .nil)))
/-- `asn_DEF_RANAP_TNLInformationEnhRelInfoReq`, src/ranap/RANAP_TNLInformationEnhRelInfoReq.c:58 -/
def RANAP_TNLInformationEnhRelInfoReq : Ty := .seq true (.cons false RANAP_TransportLayerAddress (.cons false RANAP_IuTransportAssociation (.cons true RANAP_ProtocolExtensionContainer .nil)))
/-- `asn_DEF_RANAP_RAB_SetupItem_EnhRelocInfoReq`, src/ranap/RANAP_RAB-SetupItem-EnhRelocInfoReq.c:138 -/
def RANAP_RAB_SetupItem_EnhRelocInfoReq : Ty := .seq true (.cons false RANAP_RAB_ID (.cons false RANAP_CN_DomainIndicator (.cons false RANAP_RAB_Parameters (.cons true RANAP_DataVolumeReportingIndication (.cons true RANAP_PDP_TypeInformation (.cons false RANAP_UserPlaneInformation (.cons true RANAP_TNLInformationEnhRelInfoReq (.cons true RANAP_TNLInformationEnhRelInfoReq (.cons true RANAP_Service_Handover (.cons true RANAP_Alt_RAB_Parameters (.cons true RANAP_ProtocolExtensionContainer .nil)))))))))))
/-- `asn_DEF_ranaP_EnhancedRelocationInformationResponse_ies_2`, src/ranap/RANAP_RANAP-EnhancedRelocationInformationResponse.c:67 -/
def RANAP_RANAP_EnhancedRelocationInformationResponse__ranaP_EnhancedRelocationInformationResponse_ies_2 : Ty := .seqOf (some ⟨0, 65535, false⟩) RANAP_IE
/-- `asn_DEF_RANAP_RANAP_EnhancedRelocationInformationResponse`, src/ranap/RANAP_RANAP-EnhancedRelocationInformationResponse.c:120 -/
def RANAP_RANAP_EnhancedRelocationInformationResponse : Ty := .seq true (.cons false RANAP_RANAP_EnhancedRelocationInformationResponse__ranaP_EnhancedRelocationInformationResponse_ies_2 .nil)
/-- `asn_DEF_raB_SetupList_EnhRelocInfoRes_ies_2`, src/ranap/RANAP_RAB-SetupList-EnhRelocInfoRes.c:67 -/
def RANAP_RAB_SetupList_EnhRelocInfoRes__raB_SetupList_EnhRelocInfoRes_ies_2 : Ty := .seqOf (some ⟨0, 65535, false⟩) RANAP_IE
/-- `asn_DEF_RANAP_RAB_SetupList_EnhRelocInfoRes`, src/ranap/RANAP_RAB-SetupList-EnhRelocInfoRes.c:120 -/
def RANAP_RAB_SetupList_EnhRelocInfoRes : Ty := .seq true (.cons false RANAP_RAB_SetupList_EnhRelocInfoRes__raB_SetupList_EnhRelocInfoRes_ies_2 .nil)
/-- `asn_DEF_raB_FailedList_EnhRelocInfoRes_ies_2`, src/ranap/RANAP_RAB-FailedList-EnhRelocInfoRes.c:67 -/
def RANAP_RAB_FailedList_EnhRelocInfoRes__raB_FailedList_EnhRelocInfoRes_ies_2 : Ty := .seqOf (some ⟨0, 65535, false⟩) RANAP_IE
/-- `asn_DEF_RANAP_RAB_FailedList_EnhRelocInfoRes`, src/ranap/RANAP_RAB-FailedList-EnhRelocInfoRes.c:120 -/
def RANAP_RAB_FailedList_EnhRelocInfoRes : Ty := .seq true (.cons false RANAP_RAB_FailedList_EnhRelocInfoRes__raB_FailedList_EnhRelocInfoRes_ies_2 .nil)
/-- `asn_DEF_RANAP_TNLInformationEnhRelInfoRes`, src/ranap/RANAP_TNLInformationEnhRelInfoRes.c:58 -/
def RANAP_TNLInformationEnhRelInfoRes : Ty := .seq true (.cons false RANAP_TransportLayerAddress (.cons false RANAP_IuTransportAssociation (.cons true RANAP_ProtocolExtensionContainer .nil)))
/-- `asn_DEF_RANAP_RAB_SetupItem_EnhRelocInfoRes`, src/ranap/RANAP_RAB-SetupItem-EnhRelocInfoRes.c:78 -/
def RANAP_RAB_SetupItem_EnhRelocInfoRes : Ty := .seq true (.cons false RANAP_CN_DomainIndicator (.cons false RANAP_RAB_ID (.cons true RANAP_TNLInformationEnhRelInfoRes (.cons true RANAP_Ass_RAB_Parameters (.cons true RANAP_ProtocolExtensionContainer .nil)))))
/-- `asn_DEF_RANAP_RAB_FailedItem_EnhRelocInfoRes`, src/ranap/RANAP_RAB-FailedItem-EnhRelocInfoRes.c:68 -/
def RANAP_RAB_FailedItem_EnhRelocInfoRes : Ty := .seq true (.cons false RANAP_CN_DomainIndicator (.cons false RANAP_RAB_ID (.cons false RANAP_Cause (.cons true RANAP_ProtocolExtensionContainer .nil))))
/-- `asn_DEF_raB_ModifyRequest_ies_2`, src/ranap/RANAP_RAB-ModifyRequest.c:67 -/
def RANAP_RAB_ModifyRequest__raB_ModifyRequest_ies_2 : Ty := .seqOf (some ⟨0, 65535, false⟩) RANAP_IE
/-- `asn_DEF_RANAP_RAB_ModifyRequest`, src/ranap/RANAP_RAB-ModifyRequest.c:120 -/
def RANAP_RAB_ModifyRequest : Ty := .seq true (.cons false RANAP_RAB_ModifyRequest__raB_ModifyRequest_ies_2 .nil)
/-- `asn_DEF_raB_ModifyList_ies_2`, src/ranap/RANAP_RAB-ModifyList.c:67 -/
def RANAP_RAB_ModifyList__raB_ModifyList_ies_2 : Ty := .seqOf (some ⟨0, 65535, false⟩) RANAP_IE
/-- `asn_DEF_RANAP_RAB_ModifyList`, src/ranap/RANAP_RAB-ModifyList.c:120 -/
def RANAP_RAB_ModifyList : Ty := .seq true (.cons false RANAP_RAB_ModifyList__raB_ModifyList_ies_2 .nil)
/-- `asn_DEF_RANAP_Requested_RAB_Parameter_GuaranteedBitrateList`, src/ranap/RANAP_Requested-RAB-Parameter-GuaranteedBitrateList.c:34 -/
def RANAP_Requested_RAB_Parameter_GuaranteedBitrateList : Ty := .seqOf (some ⟨1, 2, false⟩) RANAP_GuaranteedBitrate
/-- `asn_DEF_RANAP_Requested_RAB_Parameter_MaxBitrateList`, src/ranap/RANAP_Requested-RAB-Parameter-MaxBitrateList.c:34 -/
def RANAP_Requested_RAB_Parameter_MaxBitrateList : Ty := .seqOf (some ⟨1, 2, false⟩) RANAP_MaxBitrate
/-- `asn_DEF_RANAP_Requested_RAB_Parameter_Values`, src/ranap/RANAP_Requested-RAB-Parameter-Values.c:58 -/
def RANAP_Requested_RAB_Parameter_Values : Ty := .seq true (.cons true RANAP_Requested_RAB_Parameter_MaxBitrateList (.cons true RANAP_Requested_RAB_Parameter_GuaranteedBitrateList (.cons true RANAP_IE_Extensions .nil)))
/-- `asn_DEF_RANAP_RAB_ModifyItem`, src/ranap/RANAP_RAB-ModifyItem.c:58 -/
def RANAP_RAB_ModifyItem : Ty := .seq true (.cons false RANAP_RAB_ID (.cons false RANAP_Requested_RAB_Parameter_Values (.cons true RANAP_ProtocolExtensionContainer .nil)))
/-- `asn_DEF_locationRelatedDataRequest_ies_2`, src/ranap/RANAP_LocationRelatedDataRequest.c:67 -/
def RANAP_LocationRelatedDataRequest__locationRelatedDataRequest_ies_2 : Ty := .seqOf (some ⟨0, 65535, false⟩) RANAP_IE
/-- `asn_DEF_RANAP_LocationRelatedDataRequest`, src/ranap/RANAP_LocationRelatedDataRequest.c:120 -/
def RANAP_LocationRelatedDataRequest : Ty := .seq true (.cons false RANAP_LocationRelatedDataRequest__locationRelatedDataRequest_ies_2 .nil)
/-- `asn_DEF_RANAP_RequestedGPSAssistanceData`, src/ranap/RANAP_RequestedGPSAssistanceData.c:142 -/
def RANAP_RequestedGPSAssistanceData : Ty := .octets (some ⟨1, 38, false⟩)
/-- `asn_DEF_RANAP_RequestedLocationRelatedDataType`, src/ranap/RANAP_RequestedLocationRelatedDataType.c:155 -/
def RANAP_RequestedLocationRelatedDataType : Ty := .enum 4 8 true
/-- `asn_DEF_RANAP_LocationRelatedDataRequestType`, src/ranap/RANAP_LocationRelatedDataRequestType.c:48 -/
def RANAP_LocationRelatedDataRequestType : Ty := .seq true (.cons false RANAP_RequestedLocationRelatedDataType (.cons true RANAP_RequestedGPSAssistanceData .nil))
/-- `asn_DEF_locationRelatedDataResponse_ies_2`, src/ranap/RANAP_LocationRelatedDataResponse.c:67 -/
def RANAP_LocationRelatedDataResponse__locationRelatedDataResponse_ies_2 : Ty := .seqOf (some ⟨0, 65535, false⟩) RANAP_IE
/-- `asn_DEF_RANAP_LocationRelatedDataResponse`, src/ranap/RANAP_LocationRelatedDataResponse.c:120 -/
def RANAP_LocationRelatedDataResponse : Ty := .seq true (.cons false RANAP_LocationRelatedDataResponse__locationRelatedDataResponse_ies_2 .nil)
/-- `asn_DEF_RANAP_BroadcastAssistanceDataDecipheringKeys`, src/ranap/RANAP_BroadcastAssistanceDataDecipheringKeys.c:164 -/
def RANAP_BroadcastAssistanceDataDecipheringKeys : Ty := .seq true (.cons false (.bits (some ⟨1, 1, false⟩)) (.cons false (.bits (some ⟨56, 56, false⟩)) (.cons false (.bits (some ⟨56, 56, false⟩)) .nil)))
/-- `asn_DEF_locationRelatedDataFailure_ies_2`, src/ranap/RANAP_LocationRelatedDataFailure.c:67 -/
def RANAP_LocationRelatedDataFailure__locationRelatedDataFailure_ies_2 : Ty := .seqOf (some ⟨0, 65535, false⟩) RANAP_IE
/-- `asn_DEF_RANAP_LocationRelatedDataFailure`, src/ranap/RANAP_LocationRelatedDataFailure.c:120 -/
def RANAP_LocationRelatedDataFailure : Ty := .seq true (.cons false RANAP_LocationRelatedDataFailure__locationRelatedDataFailure_ies_2 .nil)
/-- `asn_DEF_informationTransferIndication_ies_2`, src/ranap/RANAP_InformationTransferIndication.c:67 -/
def RANAP_InformationTransferIndication__informationTransferIndication_ies_2 : Ty := .seqOf (some ⟨0, 65535, false⟩) RANAP_IE
/-- `asn_DEF_RANAP_InformationTransferIndication`, src/ranap/RANAP_InformationTransferIndication.c:120 -/
def RANAP_InformationTransferIndication : Ty := .seq true (.cons false RANAP_InformationTransferIndication__informationTransferIndication_ies_2 .nil)
/-- `asn_DEF_RANAP_InformationTransferID`, src/ranap/RANAP_InformationTransferID.c:141 -/
def RANAP_InformationTransferID : Ty := .int ⟨0, 1048575, false⟩
/-- `asn_DEF_RANAP_ListOF_SNAs`, src/ranap/RANAP_ListOF-SNAs.c:34 -/
def RANAP_ListOF_SNAs : Ty := .seqOf (some ⟨1, 65536, false⟩) RANAP_SNAC
/-- `asn_DEF_RANAP_LA_LIST_Value`, src/ranap/RANAP_LA-LIST-Value.c:58 -/
def RANAP_LA_LIST_Value : Ty := .seq true (.cons false RANAP_LAC (.cons false RANAP_ListOF_SNAs (.cons true RANAP_IE_Extensions .nil)))
/-- `asn_DEF_RANAP_LA_LIST`, src/ranap/RANAP_LA-LIST.c:34 -/
def RANAP_LA_LIST : Ty := .seqOf (some ⟨1, 65536, false⟩) RANAP_LA_LIST_Value
/-- `asn_DEF_RANAP_PLMNs_in_shared_network_Value`, src/ranap/RANAP_PLMNs-in-shared-network-Value.c:58 -/
def RANAP_PLMNs_in_shared_network_Value : Ty := .seq true (.cons false RANAP_PLMNidentity (.cons false RANAP_LA_LIST (.cons true RANAP_IE_Extensions .nil)))
/-- `asn_DEF_RANAP_PLMNs_in_shared_network`, src/ranap/RANAP_PLMNs-in-shared-network.c:34 -/
def RANAP_PLMNs_in_shared_network : Ty := .seqOf (some ⟨1, 32, false⟩) RANAP_PLMNs_in_shared_network_Value
/-- `asn_DEF_RANAP_Shared_Network_Information`, src/ranap/RANAP_Shared-Network-Information.c:48 -/
def RANAP_Shared_Network_Information : Ty := .seq true (.cons false RANAP_PLMNs_in_shared_network (.cons true RANAP_IE_Extensions .nil))
/-- `asn_DEF_RANAP_ProvidedData`, src/ranap/RANAP_ProvidedData.c:39 -/
def RANAP_ProvidedData : Ty := .choice true (.cons false RANAP_Shared_Network_Information .nil) .nil
/-- `asn_DEF_informationTransferConfirmation_ies_2`, src/ranap/RANAP_InformationTransferConfirmation.c:67 -/
def RANAP_InformationTransferConfirmation__informationTransferConfirmation_ies_2 : Ty := .seqOf (some ⟨0, 65535, false⟩) RANAP_IE
/-- `asn_DEF_RANAP_InformationTransferConfirmation`, src/ranap/RANAP_InformationTransferConfirmation.c:120 -/
def RANAP_InformationTransferConfirmation : Ty := .seq true (.cons false RANAP_InformationTransferConfirmation__informationTransferConfirmation_ies_2 .nil)
/-- `asn_DEF_informationTransferFailure_ies_2`, src/ranap/RANAP_InformationTransferFailure.c:67 -/
def RANAP_InformationTransferFailure__informationTransferFailure_ies_2 : Ty := .seqOf (some ⟨0, 65535, false⟩) RANAP_IE
/-- `asn_DEF_RANAP_InformationTransferFailure`, src/ranap/RANAP_InformationTransferFailure.c:120 -/
def RANAP_InformationTransferFailure : Ty := .seq true (.cons false RANAP_InformationTransferFailure__informationTransferFailure_ies_2 .nil)
/-- `asn_DEF_ueSpecificInformationIndication_ies_2`, src/ranap/RANAP_UESpecificInformationIndication.c:67 -/
def RANAP_UESpecificInformationIndication__ueSpecificInformationIndication_ies_2 : Ty := .seqOf (some ⟨0, 65535, false⟩) RANAP_IE
/-- `asn_DEF_RANAP_UESpecificInformationIndication`, src/ranap/RANAP_UESpecificInformationIndication.c:120 -/
def RANAP_UESpecificInformationIndication : Ty := .seq true (.cons false RANAP_UESpecificInformationIndication__ueSpecificInformationIndication_ies_2 .nil)
/-- `asn_DEF_directInformationTransfer_ies_2`, src/ranap/RANAP_DirectInformationTransfer.c:67 -/
def RANAP_DirectInformationTransfer__directInformationTransfer_ies_2 : Ty := .seqOf (some ⟨0, 65535, false⟩) RANAP_IE
/-- `asn_DEF_RANAP_DirectInformationTransfer`, src/ranap/RANAP_DirectInformationTransfer.c:120 -/
def RANAP_DirectInformationTransfer : Ty := .seq true (.cons false RANAP_DirectInformationTransfer__directInformationTransfer_ies_2 .nil)
/-- `asn_DEF_RANAP_GERAN_Cell_ID`, src/ranap/RANAP_GERAN-Cell-ID.c:68 -/
def RANAP_GERAN_Cell_ID : Ty := .seq false (.cons false RANAP_LAI (.cons false RANAP_RAC (.cons false RANAP_CI (.cons true RANAP_IE_Extensions .nil))))
/-- `asn_DEF_RANAP_RIMRoutingAddress`, src/ranap/RANAP_RIMRoutingAddress.c:59 -/
def RANAP_RIMRoutingAddress : Ty := .choice true (.cons false RANAP_TargetRNC_ID (.cons false RANAP_GERAN_Cell_ID .nil)) (.cons false RANAP_TargetENB_ID .nil)
/-- `asn_DEF_RANAP_RIMInformation`, src/ranap/RANAP_RIMInformation.c:119 -/
def RANAP_RIMInformation : Ty := .octets none
/-- `asn_DEF_RANAP_RIM_Transfer`, src/ranap/RANAP_RIM-Transfer.c:58 -/
def RANAP_RIM_Transfer : Ty := .seq false (.cons false RANAP_RIMInformation (.cons true RANAP_RIMRoutingAddress (.cons true RANAP_IE_Extensions .nil)))
/-- `asn_DEF_RANAP_InterSystemInformationTransferType`, src/ranap/RANAP_InterSystemInformationTransferType.c:39 -/
def RANAP_InterSystemInformationTransferType : Ty := .choice true (.cons false RANAP_RIM_Transfer .nil) .nil
/-- `asn_DEF_uplinkInformationExchangeRequest_ies_2`, src/ranap/RANAP_UplinkInformationExchangeRequest.c:67 -/
def RANAP_UplinkInformationExchangeRequest__uplinkInformationExchangeRequest_ies_2 : Ty := .seqOf (some ⟨0, 65535, false⟩) RANAP_IE
/-- `asn_DEF_RANAP_UplinkInformationExchangeRequest`, src/ranap/RANAP_UplinkInformationExchangeRequest.c:120 -/
def RANAP_UplinkInformationExchangeRequest : Ty := .seq true (.cons false RANAP_UplinkInformationExchangeRequest__uplinkInformationExchangeRequest_ies_2 .nil)
/-- `asn_DEF_RANAP_InformationExchangeID`, src/ranap/RANAP_InformationExchangeID.c:141 -/
def RANAP_InformationExchangeID : Ty := .int ⟨0, 1048575, false⟩
/-- `asn_DEF_RANAP_InformationExchangeType`, src/ranap/RANAP_InformationExchangeType.c:143 -/
def RANAP_InformationExchangeType : Ty := .enum 2 2 true
/-- `asn_DEF_uplinkInformationExchangeResponse_ies_2`, src/ranap/RANAP_UplinkInformationExchangeResponse.c:67 -/
def RANAP_UplinkInformationExchangeResponse__uplinkInformationExchangeResponse_ies_2 : Ty := .seqOf (some ⟨0, 65535, false⟩) RANAP_IE
/-- `asn_DEF_RANAP_UplinkInformationExchangeResponse`, src/ranap/RANAP_UplinkInformationExchangeResponse.c:120 -/
def RANAP_UplinkInformationExchangeResponse : Ty := .seq true (.cons false RANAP_UplinkInformationExchangeResponse__uplinkInformationExchangeResponse_ies_2 .nil)
/-- `asn_DEF_RANAP_RequestedMulticastServiceList`, src/ranap/RANAP_RequestedMulticastServiceList.c:34 -/
def RANAP_RequestedMulticastServiceList : Ty := .seqOf (some ⟨1, 128, false⟩) RANAP_TMGI
/-- `asn_DEF_RANAP_APN`, src/ranap/RANAP_APN.c:142 -/
def RANAP_APN : Ty := .octets (some ⟨1, 255, false⟩)
/-- `asn_DEF_RANAP_IPMulticastAddress`, src/ranap/RANAP_IPMulticastAddress.c:142 -/
def RANAP_IPMulticastAddress : Ty := .octets (some ⟨4, 16, false⟩)
/-- `asn_DEF_RANAP_MBMSIPMulticastAddressandAPNlist`, src/ranap/RANAP_MBMSIPMulticastAddressandAPNlist.c:68 -/
def RANAP_MBMSIPMulticastAddressandAPNlist : Ty := .seq true (.cons false RANAP_TMGI (.cons false RANAP_IPMulticastAddress (.cons false RANAP_APN (.cons true RANAP_IE_Extensions .nil))))
/-- `asn_DEF_RANAP_RequestedMBMSIPMulticastAddressandAPNRequest`, src/ranap/RANAP_RequestedMBMSIPMulticastAddressandAPNRequest.c:34 -/
def RANAP_RequestedMBMSIPMulticastAddressandAPNRequest : Ty := .seqOf (some ⟨1, 512, false⟩) RANAP_MBMSIPMulticastAddressandAPNlist
/-- `asn_DEF_RANAP_InformationRequested`, src/ranap/RANAP_InformationRequested.c:49 -/
def RANAP_InformationRequested : Ty := .choice true (.cons false RANAP_RequestedMBMSIPMulticastAddressandAPNRequest (.cons false RANAP_RequestedMulticastServiceList .nil)) .nil
/-- `asn_DEF_uplinkInformationExchangeFailure_ies_2`, src/ranap/RANAP_UplinkInformationExchangeFailure.c:67 -/
def RANAP_UplinkInformationExchangeFailure__uplinkInformationExchangeFailure_ies_2 : Ty := .seqOf (some ⟨0, 65535, false⟩) RANAP_IE
/-- `asn_DEF_RANAP_UplinkInformationExchangeFailure`, src/ranap/RANAP_UplinkInformationExchangeFailure.c:120 -/
def RANAP_UplinkInformationExchangeFailure : Ty := .seq true (.cons false RANAP_UplinkInformationExchangeFailure__uplinkInformationExchangeFailure_ies_2 .nil)
/-- `asn_DEF_mbmsSessionStart_ies_2`, src/ranap/RANAP_MBMSSessionStart.c:67 -/
def RANAP_MBMSSessionStart__mbmsSessionStart_ies_2 : Ty := .seqOf (some ⟨0, 65535, false⟩) RANAP_IE
/-- `asn_DEF_RANAP_MBMSSessionStart`, src/ranap/RANAP_MBMSSessionStart.c:120 -/
def RANAP_MBMSSessionStart : Ty := .seq true (.cons false RANAP_MBMSSessionStart__mbmsSessionStart_ies_2 .nil)
/-- `asn_DEF_RANAP_MBMSSessionIdentity`, src/ranap/RANAP_MBMSSessionIdentity.c:142 -/
def RANAP_MBMSSessionIdentity : Ty := .octets (some ⟨1, 1, false⟩)
/-- `asn_DEF_RANAP_MBMSBearerServiceType`, src/ranap/RANAP_MBMSBearerServiceType.c:143 -/
def RANAP_MBMSBearerServiceType : Ty := .enum 2 2 true
/-- `asn_DEF_RANAP_MBMSSessionDuration`, src/ranap/RANAP_MBMSSessionDuration.c:142 -/
def RANAP_MBMSSessionDuration : Ty := .octets (some ⟨3, 3, false⟩)
/-- `asn_DEF_RANAP_MBMSServiceArea`, src/ranap/RANAP_MBMSServiceArea.c:119 -/
def RANAP_MBMSServiceArea : Ty := .octets none
/-- `asn_DEF_RANAP_FrequenceLayerConvergenceFlag`, src/ranap/RANAP_FrequenceLayerConvergenceFlag.c:141 -/
def RANAP_FrequenceLayerConvergenceFlag : Ty := .enum 1 1 true
/-- `asn_DEF_emptyFullRAListofIdleModeUEs_3`, src/ranap/RANAP_RAListofIdleModeUEs.c:150 -/
def RANAP_RAListofIdleModeUEs__emptyFullRAListofIdleModeUEs_3 : Ty := .enum 2 2 true
/-- `asn_DEF_RANAP_RAofIdleModeUEs`, src/ranap/RANAP_RAofIdleModeUEs.c:34 -/
def RANAP_RAofIdleModeUEs : Ty := .seqOf (some ⟨1, 65536, false⟩) RANAP_RAC
/-- `asn_DEF_RANAP_NotEmptyRAListofIdleModeUEs`, src/ranap/RANAP_NotEmptyRAListofIdleModeUEs.c:48 -/
def RANAP_NotEmptyRAListofIdleModeUEs : Ty := .seq false (.cons false RANAP_RAofIdleModeUEs (.cons true RANAP_IE_Extensions .nil))
/-- `asn_DEF_RANAP_RAListofIdleModeUEs`, src/ranap/RANAP_RAListofIdleModeUEs.c:210 -/
def RANAP_RAListofIdleModeUEs : Ty := .choice true (.cons false RANAP_NotEmptyRAListofIdleModeUEs (.cons false RANAP_RAListofIdleModeUEs__emptyFullRAListofIdleModeUEs_3 .nil)) .nil
/-- `asn_DEF_RANAP_MBMSSessionRepetitionNumber`, src/ranap/RANAP_MBMSSessionRepetitionNumber.c:142 -/
def RANAP_MBMSSessionRepetitionNumber : Ty := .octets (some ⟨1, 1, false⟩)
/-- `asn_DEF_RANAP_TimeToMBMSDataTransfer`, src/ranap/RANAP_TimeToMBMSDataTransfer.c:142 -/
def RANAP_TimeToMBMSDataTransfer : Ty := .octets (some ⟨1, 1, false⟩)
/-- `asn_DEF_mbmsSessionStartResponse_ies_2`, src/ranap/RANAP_MBMSSessionStartResponse.c:67 -/
def RANAP_MBMSSessionStartResponse__mbmsSessionStartResponse_ies_2 : Ty := .seqOf (some ⟨0, 65535, false⟩) RANAP_IE
/-- `asn_DEF_RANAP_MBMSSessionStartResponse`, src/ranap/RANAP_MBMSSessionStartResponse.c:120 -/
def RANAP_MBMSSessionStartResponse : Ty := .seq true (.cons false RANAP_MBMSSessionStartResponse__mbmsSessionStartResponse_ies_2 .nil)
/-- `asn_DEF_RANAP_TransportLayerInformation`, src/ranap/RANAP_TransportLayerInformation.c:58 -/
def RANAP_TransportLayerInformation : Ty := .seq true (.cons false RANAP_TransportLayerAddress (.cons false RANAP_IuTransportAssociation (.cons true RANAP_ProtocolExtensionContainer .nil)))
/-- `asn_DEF_mbmsSessionStartFailure_ies_2`, src/ranap/RANAP_MBMSSessionStartFailure.c:67 -/
def RANAP_MBMSSessionStartFailure__mbmsSessionStartFailure_ies_2 : Ty := .seqOf (some ⟨0, 65535, false⟩) RANAP_IE
/-- `asn_DEF_RANAP_MBMSSessionStartFailure`, src/ranap/RANAP_MBMSSessionStartFailure.c:120 -/
def RANAP_MBMSSessionStartFailure : Ty := .seq true (.cons false RANAP_MBMSSessionStartFailure__mbmsSessionStartFailure_ies_2 .nil)
/-- `asn_DEF_mbmsSessionUpdate_ies_2`, src/ranap/RANAP_MBMSSessionUpdate.c:67 -/
def RANAP_MBMSSessionUpdate__mbmsSessionUpdate_ies_2 : Ty := .seqOf (some ⟨0, 65535, false⟩) RANAP_IE
/-- `asn_DEF_RANAP_MBMSSessionUpdate`, src/ranap/RANAP_MBMSSessionUpdate.c:120 -/
def RANAP_MBMSSessionUpdate : Ty := .seq true (.cons false RANAP_MBMSSessionUpdate__mbmsSessionUpdate_ies_2 .nil)
/-- `asn_DEF_RANAP_SessionUpdateID`, src/ranap/RANAP_SessionUpdateID.c:141 -/
def RANAP_SessionUpdateID : Ty := .int ⟨0, 1048575, false⟩
/-- `asn_DEF_RANAP_RAListwithNoIdleModeUEsAnyMore`, src/ranap/RANAP_RAListwithNoIdleModeUEsAnyMore.c:34 -/
def RANAP_RAListwithNoIdleModeUEsAnyMore : Ty := .seqOf (some ⟨1, 65536, false⟩) RANAP_RAC
/-- `asn_DEF_RANAP_NewRAListofIdleModeUEs`, src/ranap/RANAP_NewRAListofIdleModeUEs.c:34 -/
def RANAP_NewRAListofIdleModeUEs : Ty := .seqOf (some ⟨1, 65536, false⟩) RANAP_RAC
/-- `asn_DEF_RANAP_DeltaRAListofIdleModeUEs`, src/ranap/RANAP_DeltaRAListofIdleModeUEs.c:58 -/
def RANAP_DeltaRAListofIdleModeUEs : Ty := .seq false (.cons true RANAP_NewRAListofIdleModeUEs (.cons true RANAP_RAListwithNoIdleModeUEsAnyMore (.cons true RANAP_IE_Extensions .nil)))
/-- `asn_DEF_mbmsSessionUpdateResponse_ies_2`, src/ranap/RANAP_MBMSSessionUpdateResponse.c:67 -/
def RANAP_MBMSSessionUpdateResponse__mbmsSessionUpdateResponse_ies_2 : Ty := .seqOf (some ⟨0, 65535, false⟩) RANAP_IE
/-- `asn_DEF_RANAP_MBMSSessionUpdateResponse`, src/ranap/RANAP_MBMSSessionUpdateResponse.c:120 -/
def RANAP_MBMSSessionUpdateResponse : Ty := .seq true (.cons false RANAP_MBMSSessionUpdateResponse__mbmsSessionUpdateResponse_ies_2 .nil)
/-- `asn_DEF_mbmsSessionUpdateFailure_ies_2`, src/ranap/RANAP_MBMSSessionUpdateFailure.c:67 -/
def RANAP_MBMSSessionUpdateFailure__mbmsSessionUpdateFailure_ies_2 : Ty := .seqOf (some ⟨0, 65535, false⟩) RANAP_IE
/-- `asn_DEF_RANAP_MBMSSessionUpdateFailure`, src/ranap/RANAP_MBMSSessionUpdateFailure.c:120 -/
def RANAP_MBMSSessionUpdateFailure : Ty := .seq true (.cons false RANAP_MBMSSessionUpdateFailure__mbmsSessionUpdateFailure_ies_2 .nil)
/-- `asn_DEF_mbmsSessionStop_ies_2`, src/ranap/RANAP_MBMSSessionStop.c:67 -/
def RANAP_MBMSSessionStop__mbmsSessionStop_ies_2 : Ty := .seqOf (some ⟨0, 65535, false⟩) RANAP_IE
/-- `asn_DEF_RANAP_MBMSSessionStop`, src/ranap/RANAP_MBMSSessionStop.c:120 -/
def RANAP_MBMSSessionStop : Ty := .seq true (.cons false RANAP_MBMSSessionStop__mbmsSessionStop_ies_2 .nil)
/-- `asn_DEF_RANAP_MBMSCNDe_Registration`, src/ranap/RANAP_MBMSCNDe-Registration.c:143 -/
def RANAP_MBMSCNDe_Registration : Ty := .enum 2 2 true
/-- `asn_DEF_mbmsSessionStopResponse_ies_2`, src/ranap/RANAP_MBMSSessionStopResponse.c:67 -/
def RANAP_MBMSSessionStopResponse__mbmsSessionStopResponse_ies_2 : Ty := .seqOf (some ⟨0, 65535, false⟩) RANAP_IE
/-- `asn_DEF_RANAP_MBMSSessionStopResponse`, src/ranap/RANAP_MBMSSessionStopResponse.c:120 -/
def RANAP_MBMSSessionStopResponse : Ty := .seq true (.cons false RANAP_MBMSSessionStopResponse__mbmsSessionStopResponse_ies_2 .nil)
/-- `asn_DEF_mbmsueLinkingRequest_ies_2`, src/ranap/RANAP_MBMSUELinkingRequest.c:67 -/
def RANAP_MBMSUELinkingRequest__mbmsueLinkingRequest_ies_2 : Ty := .seqOf (some ⟨0, 65535, false⟩) RANAP_IE
/-- `asn_DEF_RANAP_MBMSUELinkingRequest`, src/ranap/RANAP_MBMSUELinkingRequest.c:120 -/
def RANAP_MBMSUELinkingRequest : Ty := .seq true (.cons false RANAP_MBMSUELinkingRequest__mbmsueLinkingRequest_ies_2 .nil)
/-- `asn_DEF_RANAP_LeftMBMSBearerService_IEs_Value`, src/ranap/RANAP_LeftMBMSBearerService-IEs-Value.c:48 -/
def RANAP_LeftMBMSBearerService_IEs_Value : Ty := .seq true (.cons false RANAP_TMGI (.cons true RANAP_ProtocolExtensionContainer .nil))
/-- `asn_DEF_RANAP_LeftMBMSBearerService_IEs`, src/ranap/RANAP_LeftMBMSBearerService-IEs.c:34 -/
def RANAP_LeftMBMSBearerService_IEs : Ty := .seqOf (some ⟨1, 128, false⟩) RANAP_LeftMBMSBearerService_IEs_Value
/-- `asn_DEF_mbmsueLinkingResponse_ies_2`, src/ranap/RANAP_MBMSUELinkingResponse.c:67 -/
def RANAP_MBMSUELinkingResponse__mbmsueLinkingResponse_ies_2 : Ty := .seqOf (some ⟨0, 65535, false⟩) RANAP_IE
/-- `asn_DEF_RANAP_MBMSUELinkingResponse`, src/ranap/RANAP_MBMSUELinkingResponse.c:120 -/
def RANAP_MBMSUELinkingResponse : Ty := .seq true (.cons false RANAP_MBMSUELinkingResponse__mbmsueLinkingResponse_ies_2 .nil)
/-- `asn_DEF_RANAP_UnsuccessfulLinking_IEs_Value`, src/ranap/RANAP_UnsuccessfulLinking-IEs-Value.c:58 -/
def RANAP_UnsuccessfulLinking_IEs_Value : Ty := .seq true (.cons false RANAP_TMGI (.cons false RANAP_Cause (.cons true RANAP_ProtocolExtensionContainer .nil)))
/-- `asn_DEF_RANAP_UnsuccessfulLinking_IEs`, src/ranap/RANAP_UnsuccessfulLinking-IEs.c:34 -/
def RANAP_UnsuccessfulLinking_IEs : Ty := .seqOf (some ⟨1, 128, false⟩) RANAP_UnsuccessfulLinking_IEs_Value
/-- `asn_DEF_mbmsRegistrationRequest_ies_2`, src/ranap/RANAP_MBMSRegistrationRequest.c:67 -/
def RANAP_MBMSRegistrationRequest__mbmsRegistrationRequest_ies_2 : Ty := .seqOf (some ⟨0, 65535, false⟩) RANAP_IE
/-- `asn_DEF_RANAP_MBMSRegistrationRequest`, src/ranap/RANAP_MBMSRegistrationRequest.c:120 -/
def RANAP_MBMSRegistrationRequest : Ty := .seq true (.cons false RANAP_MBMSRegistrationRequest__mbmsRegistrationRequest_ies_2 .nil)
/-- `asn_DEF_RANAP_MBMSRegistrationRequestType`, src/ranap/RANAP_MBMSRegistrationRequestType.c:143 -/
def RANAP_MBMSRegistrationRequestType : Ty := .enum 2 2 true
/-- `asn_DEF_mbmsRegistrationResponse_ies_2`, src/ranap/RANAP_MBMSRegistrationResponse.c:67 -/
def RANAP_MBMSRegistrationResponse__mbmsRegistrationResponse_ies_2 : Ty := .seqOf (some ⟨0, 65535, false⟩) RANAP_IE
/-- `asn_DEF_RANAP_MBMSRegistrationResponse`, src/ranap/RANAP_MBMSRegistrationResponse.c:120 -/
def RANAP_MBMSRegistrationResponse : Ty := .seq true (.cons false RANAP_MBMSRegistrationResponse__mbmsRegistrationResponse_ies_2 .nil)
/-- `asn_DEF_mbmsRegistrationFailure_ies_2`, src/ranap/RANAP_MBMSRegistrationFailure.c:67 -/
def RANAP_MBMSRegistrationFailure__mbmsRegistrationFailure_ies_2 : Ty := .seqOf (some ⟨0, 65535, false⟩) RANAP_IE
/-- `asn_DEF_RANAP_MBMSRegistrationFailure`, src/ranap/RANAP_MBMSRegistrationFailure.c:120 -/
def RANAP_MBMSRegistrationFailure : Ty := .seq true (.cons false RANAP_MBMSRegistrationFailure__mbmsRegistrationFailure_ies_2 .nil)
/-- `asn_DEF_mbmscnDe_RegistrationRequest_ies_2`, src/ranap/RANAP_MBMSCNDe-RegistrationRequest.c:67 -/
def RANAP_MBMSCNDe_RegistrationRequest__mbmscnDe_RegistrationRequest_ies_2 : Ty := .seqOf (some ⟨0, 65535, false⟩) RANAP_IE
/-- `asn_DEF_RANAP_MBMSCNDe_RegistrationRequest`, src/ranap/RANAP_MBMSCNDe-RegistrationRequest.c:120 -/
def RANAP_MBMSCNDe_RegistrationRequest : Ty := .seq true (.cons false RANAP_MBMSCNDe_RegistrationRequest__mbmscnDe_RegistrationRequest_ies_2 .nil)
/-- `asn_DEF_mbmscnDe_RegistrationResponse_ies_2`, src/ranap/RANAP_MBMSCNDe-RegistrationResponse.c:67 -/
def RANAP_MBMSCNDe_RegistrationResponse__mbmscnDe_RegistrationResponse_ies_2 : Ty := .seqOf (some ⟨0, 65535, false⟩) RANAP_IE
/-- `asn_DEF_RANAP_MBMSCNDe_RegistrationResponse`, src/ranap/RANAP_MBMSCNDe-RegistrationResponse.c:120 -/
def RANAP_MBMSCNDe_RegistrationResponse : Ty := .seq true (.cons false RANAP_MBMSCNDe_RegistrationResponse__mbmscnDe_RegistrationResponse_ies_2 .nil)
/-- `asn_DEF_mbmsrabEstablishmentIndication_ies_2`, src/ranap/RANAP_MBMSRABEstablishmentIndication.c:67 -/
def RANAP_MBMSRABEstablishmentIndication__mbmsrabEstablishmentIndication_ies_2 : Ty := .seqOf (some ⟨0, 65535, false⟩) RANAP_IE
/-- `asn_DEF_RANAP_MBMSRABEstablishmentIndication`, src/ranap/RANAP_MBMSRABEstablishmentIndication.c:120 -/
def RANAP_MBMSRABEstablishmentIndication : Ty := .seq true (.cons false RANAP_MBMSRABEstablishmentIndication__mbmsrabEstablishmentIndication_ies_2 .nil)
/-- `asn_DEF_mbmsrabReleaseRequest_ies_2`, src/ranap/RANAP_MBMSRABReleaseRequest.c:67 -/
def RANAP_MBMSRABReleaseRequest__mbmsrabReleaseRequest_ies_2 : Ty := .seqOf (some ⟨0, 65535, false⟩) RANAP_IE
/-- `asn_DEF_RANAP_MBMSRABReleaseRequest`, src/ranap/RANAP_MBMSRABReleaseRequest.c:120 -/
def RANAP_MBMSRABReleaseRequest : Ty := .seq true (.cons false RANAP_MBMSRABReleaseRequest__mbmsrabReleaseRequest_ies_2 .nil)
/-- `asn_DEF_mbmsrabRelease_ies_2`, src/ranap/RANAP_MBMSRABRelease.c:67 -/
def RANAP_MBMSRABRelease__mbmsrabRelease_ies_2 : Ty := .seqOf (some ⟨0, 65535, false⟩) RANAP_IE
/-- `asn_DEF_RANAP_MBMSRABRelease`, src/ranap/RANAP_MBMSRABRelease.c:120 -/
def RANAP_MBMSRABRelease : Ty := .seq true (.cons false RANAP_MBMSRABRelease__mbmsrabRelease_ies_2 .nil)
/-- `asn_DEF_mbmsrabReleaseFailure_ies_2`, src/ranap/RANAP_MBMSRABReleaseFailure.c:67 -/
def RANAP_MBMSRABReleaseFailure__mbmsrabReleaseFailure_ies_2 : Ty := .seqOf (some ⟨0, 65535, false⟩) RANAP_IE
/-- `asn_DEF_RANAP_MBMSRABReleaseFailure`, src/ranap/RANAP_MBMSRABReleaseFailure.c:120 -/
def RANAP_MBMSRABReleaseFailure : Ty := .seq true (.cons false RANAP_MBMSRABReleaseFailure__mbmsrabReleaseFailure_ies_2 .nil)
/-- `asn_DEF_srvcC_CSKeysResponse_ies_2`, src/ranap/RANAP_SRVCC-CSKeysResponse.c:67 -/
def RANAP_SRVCC_CSKeysResponse__srvcC_CSKeysResponse_ies_2 : Ty := .seqOf (some ⟨0, 65535, false⟩) RANAP_IE
/-- `asn_DEF_RANAP_SRVCC_CSKeysResponse`, src/ranap/RANAP_SRVCC-CSKeysResponse.c:120 -/
def RANAP_SRVCC_CSKeysResponse : Ty := .seq true (.cons false RANAP_SRVCC_CSKeysResponse__srvcC_CSKeysResponse_ies_2 .nil)
/-- `asn_DEF_RANAP_SRVCC_Information`, src/ranap/RANAP_SRVCC-Information.c:84 -/
def RANAP_SRVCC_Information : Ty := .seq true (.cons false (.bits (some ⟨128, 128, false⟩)) (.cons true RANAP_IE_Extensions .nil))
/-- `asn_DEF_ueRadioCapabilityMatchResponse_ies_2`, src/ranap/RANAP_UeRadioCapabilityMatchResponse.c:67 -/
def RANAP_UeRadioCapabilityMatchResponse__ueRadioCapabilityMatchResponse_ies_2 : Ty := .seqOf (some ⟨0, 65535, false⟩) RANAP_IE
/-- `asn_DEF_RANAP_UeRadioCapabilityMatchResponse`, src/ranap/RANAP_UeRadioCapabilityMatchResponse.c:120 -/
def RANAP_UeRadioCapabilityMatchResponse : Ty := .seq true (.cons false RANAP_UeRadioCapabilityMatchResponse__ueRadioCapabilityMatchResponse_ies_2 .nil)
/-- `asn_DEF_RANAP_VoiceSupportMatchIndicator`, src/ranap/RANAP_VoiceSupportMatchIndicator.c:143 -/
def RANAP_VoiceSupportMatchIndicator : Ty := .enum 2 2 true
/-- `asn_DEF_RANAP_RAB_SetupOrModifyItemFirst`, src/ranap/RANAP_RAB-SetupOrModifyItemFirst.c:98 -/
def RANAP_RAB_SetupOrModifyItemFirst : Ty := .seq true (.cons false RANAP_RAB_ID (.cons true RANAP_NAS_SynchronisationIndicator (.cons true RANAP_RAB_Parameters (.cons true RANAP_UserPlaneInformation (.cons true RANAP_TransportLayerInformation (.cons true RANAP_Service_Handover (.cons true RANAP_ProtocolExtensionContainer .nil)))))))
/-- `asn_DEF_RANAP_RAB_SetupOrModifyItemSecond`, src/ranap/RANAP_RAB-SetupOrModifyItemSecond.c:98 -/
def RANAP_RAB_SetupOrModifyItemSecond : Ty := .seq true (.cons true RANAP_PDP_TypeInformation (.cons true RANAP_DataVolumeReportingIndication (.cons true RANAP_DL_GTP_PDU_SequenceNumber (.cons true RANAP_UL_GTP_PDU_SequenceNumber (.cons true RANAP_DL_N_PDU_SequenceNumber (.cons true RANAP_UL_N_PDU_SequenceNumber (.cons true RANAP_ProtocolExtensionContainer .nil)))))))
/-- `asn_DEF_RANAP_ExtendedMaxBitrate`, src/ranap/RANAP_ExtendedMaxBitrate.c:141 -/
def RANAP_ExtendedMaxBitrate : Ty := .int ⟨16000001, 256000000, false⟩
/-- `asn_DEF_RANAP_RAB_Parameter_ExtendedMaxBitrateList`, src/ranap/RANAP_RAB-Parameter-ExtendedMaxBitrateList.c:34 -/
def RANAP_RAB_Parameter_ExtendedMaxBitrateList : Ty := .seqOf (some ⟨1, 2, false⟩) RANAP_ExtendedMaxBitrate

end Verif.Gen.Ranap
