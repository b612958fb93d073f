import Verif.Spec.AsnTables
import Verif.Gen.TextLit
import Verif.Gen.RuaIes
import Verif.Gen.HnbapIes
import Verif.Gen.SabpIes
import Verif.Gen.RanapIes

/-!
# What the names in the four modules stand for

The numbers are the assignments in `/repo/asn1/*/*-Constants.asn`; a type or message `T` of the text has the descriptor
`asn_DEF_<PROTOCOL>_T` (`-` is replaced by `_`), see the definition of each.  Types and messages that stand in a table.
-/

namespace Verif.Gen.Text
open Verif.AsnToStruct Verif.AsnToStruct.Spec

/-- asn1/rua/RUA-Constants.asn:45-52; types and messages: src/rua/*.c -/
noncomputable def ruaNames : Names where
  number := [
    (text% "id-Cause", 1),
    (text% "id-CriticalityDiagnostics", 2),
    (text% "id-Context-ID", 3),
    (text% "id-RANAP-Message", 4),
    (text% "id-IntraDomainNasNodeSelector", 5),
    (text% "id-Establishment-Cause", 6),
    (text% "id-CN-DomainIndicator", 7),
    (text% "id-CSGMembershipStatus", 9)]
  type := [
    (text% "CN-DomainIndicator", Rua.RUA_CN_DomainIndicator),
    (text% "Context-ID", Rua.RUA_Context_ID),
    (text% "IntraDomainNasNodeSelector", Rua.RUA_IntraDomainNasNodeSelector),
    (text% "Establishment-Cause", Rua.RUA_Establishment_Cause),
    (text% "RANAP-Message", Rua.RUA_RANAP_Message),
    (text% "Cause", Rua.RUA_Cause),
    (text% "CriticalityDiagnostics", Rua.RUA_CriticalityDiagnostics)]
  container := [
    (text% "ConnectIEs", Rua.RUA_Connect),
    (text% "DirectTransferIEs", Rua.RUA_DirectTransfer),
    (text% "DisconnectIEs", Rua.RUA_Disconnect),
    (text% "ConnectionlessTransferIEs", Rua.RUA_ConnectionlessTransfer),
    (text% "ErrorIndicationIEs", Rua.RUA_ErrorIndication)]

/-- asn1/hnbap/HNBAP-Constants.asn:55-96; types and messages: src/hnbap/*.c -/
noncomputable def hnbapNames : Names where
  number := [
    (text% "id-Cause", 1),
    (text% "id-CriticalityDiagnostics", 2),
    (text% "id-HNB-Identity", 3),
    (text% "id-Context-ID", 4),
    (text% "id-UE-Identity", 5),
    (text% "id-LAC", 6),
    (text% "id-RAC", 7),
    (text% "id-HNB-Location-Information", 8),
    (text% "id-PLMNidentity", 9),
    (text% "id-SAC", 10),
    (text% "id-CellIdentity", 11),
    (text% "id-Registration-Cause", 12),
    (text% "id-UE-Capabilities", 13),
    (text% "id-RNC-ID", 14),
    (text% "id-CSG-ID", 15),
    (text% "id-BackoffTimer", 16),
    (text% "id-HNB-Internet-Information", 17),
    (text% "id-HNB-Cell-Access-Mode", 18),
    (text% "id-MuxPortNumber", 19),
    (text% "id-Service-Area-For-Broadcast", 20),
    (text% "id-CSGMembershipStatus", 21),
    (text% "id-RABList", 22),
    (text% "id-HNBConfigInfo", 23),
    (text% "id-AccessResult", 25),
    (text% "id-Update-cause", 26),
    (text% "id-NeighbourInfoList", 27),
    (text% "id-NeighbourInfoRequestList", 28),
    (text% "id-Iurh-Signalling-TNL-Address", 29),
    (text% "id-PSC", 30),
    (text% "id-HNB-Cell-Identifier", 31),
    (text% "id-Tunnel-Information", 41),
    (text% "id-CELL-FACHMobilitySupport", 42),
    (text% "id-S-RNTIPrefix", 43),
    (text% "id-URAIdentity", 44),
    (text% "id-NeighbourIdentity", 45),
    (text% "id-HNBCapacity", 46),
    (text% "id-NeighbourCellIdentityList", 47),
    (text% "id-AdditionalNeighbourInfoList", 48),
    (text% "id-U-RNTI", 49),
    (text% "id-UnknownU-RNTIIndication", 50),
    (text% "id-HNB-GWResponse", 51),
    (text% "id-URAIdentityList", 52)]
  type := [
    (text% "HNB-Identity", Hnbap.HNBAP_HNB_Identity),
    (text% "HNB-Location-Information", Hnbap.HNBAP_HNB_Location_Information),
    (text% "PLMNidentity", Hnbap.HNBAP_PLMNidentity),
    (text% "CellIdentity", Hnbap.HNBAP_CellIdentity),
    (text% "LAC", Hnbap.HNBAP_LAC),
    (text% "RAC", Hnbap.HNBAP_RAC),
    (text% "SAC", Hnbap.HNBAP_SAC),
    (text% "CSG-ID", Hnbap.HNBAP_CSG_ID),
    (text% "RNC-ID", Hnbap.HNBAP_RNC_ID),
    (text% "Cause", Hnbap.HNBAP_Cause),
    (text% "CriticalityDiagnostics", Hnbap.HNBAP_CriticalityDiagnostics),
    (text% "BackoffTimer", Hnbap.HNBAP_BackoffTimer),
    (text% "UE-Identity", Hnbap.HNBAP_UE_Identity),
    (text% "Registration-Cause", Hnbap.HNBAP_Registration_Cause),
    (text% "UE-Capabilities", Hnbap.HNBAP_UE_Capabilities),
    (text% "Context-ID", Hnbap.HNBAP_Context_ID),
    (text% "CSGMembershipStatus", Hnbap.HNBAP_CSGMembershipStatus),
    (text% "RABList", Hnbap.HNBAP_RABList),
    (text% "Update-cause", Hnbap.HNBAP_Update_cause),
    (text% "NeighbourInfoRequestList", Hnbap.HNBAP_NeighbourInfoRequestList),
    (text% "NeighbourInfoList", Hnbap.HNBAP_NeighbourInfoList),
    (text% "U-RNTI", Hnbap.HNBAP_U_RNTI),
    (text% "HNB-GWResponse", Hnbap.HNBAP_HNB_GWResponse)]
  container := [
    (text% "HNBRegisterRequestIEs", Hnbap.HNBAP_HNBRegisterRequest),
    (text% "HNBRegisterAcceptIEs", Hnbap.HNBAP_HNBRegisterAccept),
    (text% "HNBRegisterRejectIEs", Hnbap.HNBAP_HNBRegisterReject),
    (text% "HNBDe-RegisterIEs", Hnbap.HNBAP_HNBDe_Register),
    (text% "UERegisterRequestIEs", Hnbap.HNBAP_UERegisterRequest),
    (text% "UERegisterAcceptIEs", Hnbap.HNBAP_UERegisterAccept),
    (text% "UERegisterRejectIEs", Hnbap.HNBAP_UERegisterReject),
    (text% "UEDe-RegisterIEs", Hnbap.HNBAP_UEDe_Register),
    (text% "CSGMembershipUpdateIEs", Hnbap.HNBAP_CSGMembershipUpdate),
    (text% "TNLUpdateRequestIEs", Hnbap.HNBAP_TNLUpdateRequest),
    (text% "TNLUpdateResponseIEs", Hnbap.HNBAP_TNLUpdateResponse),
    (text% "TNLUpdateFailureIEs", Hnbap.HNBAP_TNLUpdateFailure),
    (text% "HNBConfigTransferRequestIEs", Hnbap.HNBAP_HNBConfigTransferRequest),
    (text% "HNBConfigTransferResponseIEs", Hnbap.HNBAP_HNBConfigTransferResponse),
    (text% "RelocationCompleteIEs", Hnbap.HNBAP_RelocationComplete),
    (text% "ErrorIndicationIEs", Hnbap.HNBAP_ErrorIndication),
    (text% "U-RNTIQueryRequestIEs", Hnbap.HNBAP_U_RNTIQueryRequest),
    (text% "U-RNTIQueryResponseIEs", Hnbap.HNBAP_U_RNTIQueryResponse)]

/-- asn1/sabp/SABP-Constants.asn:36-57; types and messages: src/sabp/*.c -/
noncomputable def sabpNames : Names where
  number := [
    (text% "id-Broadcast-Message-Content", 0),
    (text% "id-Category", 1),
    (text% "id-Cause", 2),
    (text% "id-Criticality-Diagnostics", 3),
    (text% "id-Data-Coding-Scheme", 4),
    (text% "id-Failure-List", 5),
    (text% "id-Message-Identifier", 6),
    (text% "id-New-Serial-Number", 7),
    (text% "id-Number-of-Broadcasts-Completed-List", 8),
    (text% "id-Number-of-Broadcasts-Requested", 9),
    (text% "id-Old-Serial-Number", 10),
    (text% "id-Radio-Resource-Loading-List", 11),
    (text% "id-Recovery-Indication", 12),
    (text% "id-Repetition-Period", 13),
    (text% "id-Serial-Number", 14),
    (text% "id-Service-Areas-List", 15),
    (text% "id-MessageStructure", 16),
    (text% "id-TypeOfError", 17),
    (text% "id-Paging-ETWS-Indicator", 18),
    (text% "id-Warning-Type", 19),
    (text% "id-WarningSecurityInfo", 20),
    (text% "id-Broadcast-Message-Content-Validity-Indicator", 21)]
  type := [
    (text% "Message-Identifier", Sabp.SABP_Message_Identifier),
    (text% "New-Serial-Number", Sabp.SABP_New_Serial_Number),
    (text% "Old-Serial-Number", Sabp.SABP_Old_Serial_Number),
    (text% "Service-Areas-List", Sabp.SABP_Service_Areas_List),
    (text% "Category", Sabp.SABP_Category),
    (text% "Repetition-Period", Sabp.SABP_Repetition_Period),
    (text% "Data-Coding-Scheme", Sabp.SABP_Data_Coding_Scheme),
    (text% "Failure-List", Sabp.SABP_Failure_List),
    (text% "Recovery-Indication", Sabp.SABP_Recovery_Indication),
    (text% "Serial-Number", Sabp.SABP_Serial_Number),
    (text% "Cause", Sabp.SABP_Cause)]
  container := [
    (text% "Write-Replace-IEs", Sabp.SABP_Write_Replace),
    (text% "Write-Replace-Complete-IEs", Sabp.SABP_Write_Replace_Complete),
    (text% "Write-Replace-Failure-IEs", Sabp.SABP_Write_Replace_Failure),
    (text% "Kill-IEs", Sabp.SABP_Kill),
    (text% "Kill-Complete-IEs", Sabp.SABP_Kill_Complete),
    (text% "Kill-Failure-IEs", Sabp.SABP_Kill_Failure),
    (text% "Load-Query-IEs", Sabp.SABP_Load_Query),
    (text% "Load-Query-Failure-IEs", Sabp.SABP_Load_Query_Failure),
    (text% "Message-Status-Query-IEs", Sabp.SABP_Message_Status_Query),
    (text% "Message-Status-Query-Complete-IEs", Sabp.SABP_Message_Status_Query_Complete),
    (text% "Message-Status-Query-Failure-IEs", Sabp.SABP_Message_Status_Query_Failure),
    (text% "Reset-IEs", Sabp.SABP_Reset),
    (text% "Reset-Complete-IEs", Sabp.SABP_Reset_Complete),
    (text% "Reset-Failure-IEs", Sabp.SABP_Reset_Failure),
    (text% "Restart-IEs", Sabp.SABP_Restart),
    (text% "Error-Indication-IEs", Sabp.SABP_Error_Indication)]

/-- asn1/ranap/RANAP-Constants.asn:132-403; types and messages: src/ranap/*.c -/
noncomputable def ranapNames : Names where
  number := [
    (text% "id-AreaIdentity", 0),
    (text% "id-CN-DomainIndicator", 3),
    (text% "id-Cause", 4),
    (text% "id-ChosenEncryptionAlgorithm", 5),
    (text% "id-ChosenIntegrityProtectionAlgorithm", 6),
    (text% "id-ClassmarkInformation2", 7),
    (text% "id-ClassmarkInformation3", 8),
    (text% "id-CriticalityDiagnostics", 9),
    (text% "id-DL-GTP-PDU-SequenceNumber", 10),
    (text% "id-EncryptionInformation", 11),
    (text% "id-IntegrityProtectionInformation", 12),
    (text% "id-IuTransportAssociation", 13),
    (text% "id-L3-Information", 14),
    (text% "id-LAI", 15),
    (text% "id-NAS-PDU", 16),
    (text% "id-NonSearchingIndication", 17),
    (text% "id-NumberOfSteps", 18),
    (text% "id-OMC-ID", 19),
    (text% "id-OldBSS-ToNewBSS-Information", 20),
    (text% "id-PagingAreaID", 21),
    (text% "id-PagingCause", 22),
    (text% "id-PermanentNAS-UE-ID", 23),
    (text% "id-RAB-ContextItem", 24),
    (text% "id-RAB-ContextList", 25),
    (text% "id-RAB-DataForwardingItem", 26),
    (text% "id-RAB-DataForwardingItem-SRNS-CtxReq", 27),
    (text% "id-RAB-DataForwardingList", 28),
    (text% "id-RAB-DataForwardingList-SRNS-CtxReq", 29),
    (text% "id-RAB-DataVolumeReportItem", 30),
    (text% "id-RAB-DataVolumeReportList", 31),
    (text% "id-RAB-DataVolumeReportRequestItem", 32),
    (text% "id-RAB-DataVolumeReportRequestList", 33),
    (text% "id-RAB-FailedItem", 34),
    (text% "id-RAB-FailedList", 35),
    (text% "id-RAB-ID", 36),
    (text% "id-RAB-QueuedItem", 37),
    (text% "id-RAB-QueuedList", 38),
    (text% "id-RAB-ReleaseFailedList", 39),
    (text% "id-RAB-ReleaseItem", 40),
    (text% "id-RAB-ReleaseList", 41),
    (text% "id-RAB-ReleasedItem", 42),
    (text% "id-RAB-ReleasedList", 43),
    (text% "id-RAB-ReleasedList-IuRelComp", 44),
    (text% "id-RAB-RelocationReleaseItem", 45),
    (text% "id-RAB-RelocationReleaseList", 46),
    (text% "id-RAB-SetupItem-RelocReq", 47),
    (text% "id-RAB-SetupItem-RelocReqAck", 48),
    (text% "id-RAB-SetupList-RelocReq", 49),
    (text% "id-RAB-SetupList-RelocReqAck", 50),
    (text% "id-RAB-SetupOrModifiedItem", 51),
    (text% "id-RAB-SetupOrModifiedList", 52),
    (text% "id-RAB-SetupOrModifyItem", 53),
    (text% "id-RAB-SetupOrModifyList", 54),
    (text% "id-RAC", 55),
    (text% "id-RelocationType", 56),
    (text% "id-RequestType", 57),
    (text% "id-SAI", 58),
    (text% "id-SAPI", 59),
    (text% "id-SourceID", 60),
    (text% "id-Source-ToTarget-TransparentContainer", 61),
    (text% "id-TargetID", 62),
    (text% "id-Target-ToSource-TransparentContainer", 63),
    (text% "id-TemporaryUE-ID", 64),
    (text% "id-TraceReference", 65),
    (text% "id-TraceType", 66),
    (text% "id-TransportLayerAddress", 67),
    (text% "id-TriggerID", 68),
    (text% "id-UE-ID", 69),
    (text% "id-UL-GTP-PDU-SequenceNumber", 70),
    (text% "id-RAB-FailedtoReportItem", 71),
    (text% "id-RAB-FailedtoReportList", 72),
    (text% "id-KeyStatus", 75),
    (text% "id-DRX-CycleLengthCoefficient", 76),
    (text% "id-IuSigConIdList", 77),
    (text% "id-IuSigConIdItem", 78),
    (text% "id-IuSigConId", 79),
    (text% "id-DirectTransferInformationItem-RANAP-RelocInf", 80),
    (text% "id-DirectTransferInformationList-RANAP-RelocInf", 81),
    (text% "id-RAB-ContextItem-RANAP-RelocInf", 82),
    (text% "id-RAB-ContextList-RANAP-RelocInf", 83),
    (text% "id-RAB-ContextFailedtoTransferItem", 84),
    (text% "id-RAB-ContextFailedtoTransferList", 85),
    (text% "id-GlobalRNC-ID", 86),
    (text% "id-RAB-ReleasedItem-IuRelComp", 87),
    (text% "id-MessageStructure", 88),
    (text% "id-Alt-RAB-Parameters", 89),
    (text% "id-Ass-RAB-Parameters", 90),
    (text% "id-RAB-ModifyList", 91),
    (text% "id-RAB-ModifyItem", 92),
    (text% "id-TypeOfError", 93),
    (text% "id-BroadcastAssistanceDataDecipheringKeys", 94),
    (text% "id-LocationRelatedDataRequestType", 95),
    (text% "id-GlobalCN-ID", 96),
    (text% "id-LastKnownServiceArea", 97),
    (text% "id-SRB-TrCH-Mapping", 98),
    (text% "id-InterSystemInformation-TransparentContainer", 99),
    (text% "id-NewBSS-To-OldBSS-Information", 100),
    (text% "id-SourceRNC-PDCP-context-info", 103),
    (text% "id-InformationTransferID", 104),
    (text% "id-SNA-Access-Information", 105),
    (text% "id-ProvidedData", 106),
    (text% "id-GERAN-BSC-Container", 107),
    (text% "id-GERAN-Classmark", 108),
    (text% "id-GERAN-Iumode-RAB-Failed-RABAssgntResponse-Item", 109),
    (text% "id-GERAN-Iumode-RAB-FailedList-RABAssgntResponse", 110),
    (text% "id-VerticalAccuracyCode", 111),
    (text% "id-ResponseTime", 112),
    (text% "id-PositioningPriority", 113),
    (text% "id-ClientType", 114),
    (text% "id-LocationRelatedDataRequestTypeSpecificToGERANIuMode", 115),
    (text% "id-SignallingIndication", 116),
    (text% "id-hS-DSCH-MAC-d-Flow-ID", 117),
    (text% "id-UESBI-Iu", 118),
    (text% "id-PositionData", 119),
    (text% "id-PositionDataSpecificToGERANIuMode", 120),
    (text% "id-CellLoadInformationGroup", 121),
    (text% "id-AccuracyFulfilmentIndicator", 122),
    (text% "id-InformationTransferType", 123),
    (text% "id-TraceRecordingSessionInformation", 124),
    (text% "id-TracePropagationParameters", 125),
    (text% "id-InterSystemInformationTransferType", 126),
    (text% "id-SelectedPLMN-ID", 127),
    (text% "id-RedirectionCompleted", 128),
    (text% "id-RedirectionIndication", 129),
    (text% "id-NAS-SequenceNumber", 130),
    (text% "id-RejectCauseValue", 131),
    (text% "id-APN", 132),
    (text% "id-CNMBMSLinkingInformation", 133),
    (text% "id-DeltaRAListofIdleModeUEs", 134),
    (text% "id-FrequenceLayerConvergenceFlag", 135),
    (text% "id-InformationExchangeID", 136),
    (text% "id-InformationExchangeType", 137),
    (text% "id-InformationRequested", 138),
    (text% "id-InformationRequestType", 139),
    (text% "id-IPMulticastAddress", 140),
    (text% "id-JoinedMBMSBearerServicesList", 141),
    (text% "id-LeftMBMSBearerServicesList", 142),
    (text% "id-MBMSBearerServiceType", 143),
    (text% "id-MBMSCNDe-Registration", 144),
    (text% "id-MBMSServiceArea", 145),
    (text% "id-MBMSSessionDuration", 146),
    (text% "id-MBMSSessionIdentity", 147),
    (text% "id-PDP-TypeInformation", 148),
    (text% "id-RAB-Parameters", 149),
    (text% "id-RAListofIdleModeUEs", 150),
    (text% "id-MBMSRegistrationRequestType", 151),
    (text% "id-SessionUpdateID", 152),
    (text% "id-TMGI", 153),
    (text% "id-TransportLayerInformation", 154),
    (text% "id-UnsuccessfulLinkingList", 155),
    (text% "id-MBMSLinkingInformation", 156),
    (text% "id-MBMSSessionRepetitionNumber", 157),
    (text% "id-AlternativeRABConfiguration", 158),
    (text% "id-AlternativeRABConfigurationRequest", 159),
    (text% "id-E-DCH-MAC-d-Flow-ID", 160),
    (text% "id-SourceBSS-ToTargetBSS-TransparentContainer", 161),
    (text% "id-TargetBSS-ToSourceBSS-TransparentContainer", 162),
    (text% "id-TimeToMBMSDataTransfer", 163),
    (text% "id-IncludeVelocity", 164),
    (text% "id-VelocityEstimate", 165),
    (text% "id-RedirectAttemptFlag", 166),
    (text% "id-RAT-Type", 167),
    (text% "id-PeriodicLocationInfo", 168),
    (text% "id-MBMSCountingInformation", 169),
    (text% "id-170-not-to-be-used-for-IE-ids", 170),
    (text% "id-ExtendedRNC-ID", 171),
    (text% "id-Alt-RAB-Parameter-ExtendedGuaranteedBitrateInf", 172),
    (text% "id-Alt-RAB-Parameter-ExtendedMaxBitrateInf", 173),
    (text% "id-Ass-RAB-Parameter-ExtendedGuaranteedBitrateList", 174),
    (text% "id-Ass-RAB-Parameter-ExtendedMaxBitrateList", 175),
    (text% "id-RAB-Parameter-ExtendedGuaranteedBitrateList", 176),
    (text% "id-RAB-Parameter-ExtendedMaxBitrateList", 177),
    (text% "id-Requested-RAB-Parameter-ExtendedMaxBitrateList", 178),
    (text% "id-Requested-RAB-Parameter-ExtendedGuaranteedBitrateList", 179),
    (text% "id-LAofIdleModeUEs", 180),
    (text% "id-newLAListofIdleModeUEs", 181),
    (text% "id-LAListwithNoIdleModeUEsAnyMore", 182),
    (text% "id-183-not-to-be-used-for-IE-ids", 183),
    (text% "id-GANSS-PositioningDataSet", 184),
    (text% "id-RequestedGANSSAssistanceData", 185),
    (text% "id-BroadcastGANSSAssistanceDataDecipheringKeys", 186),
    (text% "id-d-RNTI-for-NoIuCSUP", 187),
    (text% "id-RAB-SetupList-EnhancedRelocCompleteReq", 188),
    (text% "id-RAB-SetupItem-EnhancedRelocCompleteReq", 189),
    (text% "id-RAB-SetupList-EnhancedRelocCompleteRes", 190),
    (text% "id-RAB-SetupItem-EnhancedRelocCompleteRes", 191),
    (text% "id-RAB-SetupList-EnhRelocInfoReq", 192),
    (text% "id-RAB-SetupItem-EnhRelocInfoReq", 193),
    (text% "id-RAB-SetupList-EnhRelocInfoRes", 194),
    (text% "id-RAB-SetupItem-EnhRelocInfoRes", 195),
    (text% "id-OldIuSigConId", 196),
    (text% "id-RAB-FailedList-EnhRelocInfoRes", 197),
    (text% "id-RAB-FailedItem-EnhRelocInfoRes", 198),
    (text% "id-Global-ENB-ID", 199),
    (text% "id-UE-History-Information", 200),
    (text% "id-MBMSSynchronisationInformation", 201),
    (text% "id-SubscriberProfileIDforRFP", 202),
    (text% "id-CSG-Id", 203),
    (text% "id-OldIuSigConIdCS", 204),
    (text% "id-OldIuSigConIdPS", 205),
    (text% "id-GlobalCN-IDCS", 206),
    (text% "id-GlobalCN-IDPS", 207),
    (text% "id-SourceExtendedRNC-ID", 208),
    (text% "id-RAB-ToBeReleasedItem-EnhancedRelocCompleteRes", 209),
    (text% "id-RAB-ToBeReleasedList-EnhancedRelocCompleteRes", 210),
    (text% "id-SourceRNC-ID", 211),
    (text% "id-Relocation-TargetRNC-ID", 212),
    (text% "id-Relocation-TargetExtendedRNC-ID", 213),
    (text% "id-Alt-RAB-Parameter-SupportedGuaranteedBitrateInf", 214),
    (text% "id-Alt-RAB-Parameter-SupportedMaxBitrateInf", 215),
    (text% "id-Ass-RAB-Parameter-SupportedGuaranteedBitrateList", 216),
    (text% "id-Ass-RAB-Parameter-SupportedMaxBitrateList", 217),
    (text% "id-RAB-Parameter-SupportedGuaranteedBitrateList", 218),
    (text% "id-RAB-Parameter-SupportedMaxBitrateList", 219),
    (text% "id-Requested-RAB-Parameter-SupportedMaxBitrateList", 220),
    (text% "id-Requested-RAB-Parameter-SupportedGuaranteedBitrateList", 221),
    (text% "id-Relocation-SourceRNC-ID", 222),
    (text% "id-Relocation-SourceExtendedRNC-ID", 223),
    (text% "id-EncryptionKey", 224),
    (text% "id-IntegrityProtectionKey", 225),
    (text% "id-SRVCC-HO-Indication", 226),
    (text% "id-SRVCC-Information", 227),
    (text% "id-SRVCC-Operation-Possible", 228),
    (text% "id-CSG-Id-List", 229),
    (text% "id-PSRABtobeReplaced", 230),
    (text% "id-E-UTRAN-Service-Handover", 231),
    (text% "id-UE-AggregateMaximumBitRate", 233),
    (text% "id-CSG-Membership-Status", 234),
    (text% "id-Cell-Access-Mode", 235),
    (text% "id-IP-Source-Address", 236),
    (text% "id-CSFB-Information", 237),
    (text% "id-PDP-TypeInformation-extension", 238),
    (text% "id-MSISDN", 239),
    (text% "id-Offload-RAB-Parameters", 240),
    (text% "id-LGW-TransportLayerAddress", 241),
    (text% "id-Correlation-ID", 242),
    (text% "id-IRAT-Measurement-Configuration", 243),
    (text% "id-MDT-Configuration", 244),
    (text% "id-Priority-Class-Indicator", 245),
    (text% "id-RNSAPRelocationParameters", 247),
    (text% "id-RABParametersList", 248),
    (text% "id-Management-Based-MDT-Allowed", 249),
    (text% "id-HigherBitratesThan16MbpsFlag", 250),
    (text% "id-Trace-Collection-Entity-IP-Addess", 251),
    (text% "id-End-Of-CSFB", 252),
    (text% "id-Time-UE-StayedInCell-EnhancedGranularity", 253),
    (text% "id-Out-Of-UTRAN", 254),
    (text% "id-TraceRecordingSessionReference", 255),
    (text% "id-IMSI", 256),
    (text% "id-HO-Cause", 257),
    (text% "id-VoiceSupportMatchIndicator", 258),
    (text% "id-RSRVCC-HO-Indication", 259),
    (text% "id-RSRVCC-Information", 260),
    (text% "id-AnchorPLMN-ID", 261),
    (text% "id-Tunnel-Information-for-BBF", 262),
    (text% "id-Management-Based-MDT-PLMN-List", 263),
    (text% "id-SignallingBasedMDTPLMNList", 264),
    (text% "id-M4Report", 265),
    (text% "id-M5Report", 266),
    (text% "id-M6Report", 267),
    (text% "id-M7Report", 268),
    (text% "id-TimingDifferenceULDL", 269),
    (text% "id-Serving-Cell-Identifier", 270),
    (text% "id-EARFCN-Extended", 271),
    (text% "id-RSRVCC-Operation-Possible", 272),
    (text% "id-SIPTO-LGW-TransportLayerAddress", 273),
    (text% "id-SIPTO-Correlation-ID", 274),
    (text% "id-LHN-ID", 275),
    (text% "id-Session-Re-establishment-Indicator", 276),
    (text% "id-LastE-UTRANPLMNIdentity", 277),
    (text% "id-RSRQ-Type", 278),
    (text% "id-RSRQ-Extension", 279)]
  type := [
    (text% "Cause", Ranap.RANAP_Cause),
    (text% "RAB-DataVolumeReportList", Ranap.RANAP_RAB_DataVolumeReportList),
    (text% "RAB-ReleasedList-IuRelComp", Ranap.RANAP_RAB_ReleasedList_IuRelComp),
    (text% "CriticalityDiagnostics", Ranap.RANAP_CriticalityDiagnostics),
    (text% "RAB-DataVolumeReportItem", Ranap.RANAP_RAB_DataVolumeReportItem),
    (text% "RAB-ReleasedItem-IuRelComp", Ranap.RANAP_RAB_ReleasedItem_IuRelComp),
    (text% "RelocationType", Ranap.RANAP_RelocationType),
    (text% "SourceID", Ranap.RANAP_SourceID),
    (text% "TargetID", Ranap.RANAP_TargetID),
    (text% "OldBSS-ToNewBSS-Information", Ranap.RANAP_OldBSS_ToNewBSS_Information),
    (text% "L3-Information", Ranap.RANAP_L3_Information),
    (text% "RAB-RelocationReleaseList", Ranap.RANAP_RAB_RelocationReleaseList),
    (text% "RAB-DataForwardingList", Ranap.RANAP_RAB_DataForwardingList),
    (text% "RAB-RelocationReleaseItem", Ranap.RANAP_RAB_RelocationReleaseItem),
    (text% "RAB-DataForwardingItem", Ranap.RANAP_RAB_DataForwardingItem),
    (text% "PermanentNAS-UE-ID", Ranap.RANAP_PermanentNAS_UE_ID),
    (text% "CN-DomainIndicator", Ranap.RANAP_CN_DomainIndicator),
    (text% "SourceRNC-ToTargetRNC-TransparentContainer", Ranap.RANAP_SourceRNC_ToTargetRNC_TransparentContainer),
    (text% "RAB-SetupList-RelocReq", Ranap.RANAP_RAB_SetupList_RelocReq),
    (text% "IntegrityProtectionInformation", Ranap.RANAP_IntegrityProtectionInformation),
    (text% "EncryptionInformation", Ranap.RANAP_EncryptionInformation),
    (text% "IuSignallingConnectionIdentifier", Ranap.RANAP_IuSignallingConnectionIdentifier),
    (text% "RAB-SetupItem-RelocReq", Ranap.RANAP_RAB_SetupItem_RelocReq),
    (text% "TargetRNC-ToSourceRNC-TransparentContainer", Ranap.RANAP_TargetRNC_ToSourceRNC_TransparentContainer),
    (text% "RAB-SetupList-RelocReqAck", Ranap.RANAP_RAB_SetupList_RelocReqAck),
    (text% "RAB-FailedList", Ranap.RANAP_RAB_FailedList),
    (text% "ChosenIntegrityProtectionAlgorithm", Ranap.RANAP_ChosenIntegrityProtectionAlgorithm),
    (text% "ChosenEncryptionAlgorithm", Ranap.RANAP_ChosenEncryptionAlgorithm),
    (text% "RAB-SetupItem-RelocReqAck", Ranap.RANAP_RAB_SetupItem_RelocReqAck),
    (text% "RAB-FailedItem", Ranap.RANAP_RAB_FailedItem),
    (text% "RAB-DataForwardingList-SRNS-CtxReq", Ranap.RANAP_RAB_DataForwardingList_SRNS_CtxReq),
    (text% "RAB-DataForwardingItem-SRNS-CtxReq", Ranap.RANAP_RAB_DataForwardingItem_SRNS_CtxReq),
    (text% "RAB-ContextList", Ranap.RANAP_RAB_ContextList),
    (text% "RABs-ContextFailedtoTransferList", Ranap.RANAP_RABs_ContextFailedtoTransferList),
    (text% "RAB-ContextItem", Ranap.RANAP_RAB_ContextItem),
    (text% "RABs-ContextFailedtoTransferItem", Ranap.RANAP_RABs_ContextFailedtoTransferItem),
    (text% "KeyStatus", Ranap.RANAP_KeyStatus),
    (text% "RAB-DataVolumeReportRequestList", Ranap.RANAP_RAB_DataVolumeReportRequestList),
    (text% "RAB-DataVolumeReportRequestItem", Ranap.RANAP_RAB_DataVolumeReportRequestItem),
    (text% "RABs-failed-to-reportList", Ranap.RANAP_RABs_failed_to_reportList),
    (text% "RABs-failed-to-reportItem", Ranap.RANAP_RABs_failed_to_reportItem),
    (text% "GlobalRNC-ID", Ranap.RANAP_GlobalRNC_ID),
    (text% "ResetResourceList", Ranap.RANAP_ResetResourceList),
    (text% "ResetResourceItem", Ranap.RANAP_ResetResourceItem),
    (text% "ResetResourceAckList", Ranap.RANAP_ResetResourceAckList),
    (text% "ResetResourceAckItem", Ranap.RANAP_ResetResourceAckItem),
    (text% "RAB-ReleaseList", Ranap.RANAP_RAB_ReleaseList),
    (text% "RAB-ReleaseItem", Ranap.RANAP_RAB_ReleaseItem),
    (text% "ExtendedRNC-ID", Ranap.RANAP_ExtendedRNC_ID),
    (text% "RAB-SetupList-EnhancedRelocCompleteReq", Ranap.RANAP_RAB_SetupList_EnhancedRelocCompleteReq),
    (text% "RAB-SetupItem-EnhancedRelocCompleteReq", Ranap.RANAP_RAB_SetupItem_EnhancedRelocCompleteReq),
    (text% "RAB-SetupList-EnhancedRelocCompleteRes", Ranap.RANAP_RAB_SetupList_EnhancedRelocCompleteRes),
    (text% "RAB-ToBeReleasedList-EnhancedRelocCompleteRes", Ranap.RANAP_RAB_ToBeReleasedList_EnhancedRelocCompleteRes),
    (text% "RAB-SetupItem-EnhancedRelocCompleteRes", Ranap.RANAP_RAB_SetupItem_EnhancedRelocCompleteRes),
    (text% "RAB-ToBeReleasedItem-EnhancedRelocCompleteRes", Ranap.RANAP_RAB_ToBeReleasedItem_EnhancedRelocCompleteRes),
    (text% "TemporaryUE-ID", Ranap.RANAP_TemporaryUE_ID),
    (text% "PagingAreaID", Ranap.RANAP_PagingAreaID),
    (text% "PagingCause", Ranap.RANAP_PagingCause),
    (text% "NonSearchingIndication", Ranap.RANAP_NonSearchingIndication),
    (text% "DRX-CycleLengthCoefficient", Ranap.RANAP_DRX_CycleLengthCoefficient),
    (text% "TraceType", Ranap.RANAP_TraceType),
    (text% "TraceReference", Ranap.RANAP_TraceReference),
    (text% "TriggerID", Ranap.RANAP_TriggerID),
    (text% "UE-ID", Ranap.RANAP_UE_ID),
    (text% "OMC-ID", Ranap.RANAP_OMC_ID),
    (text% "RequestType", Ranap.RANAP_RequestType),
    (text% "AreaIdentity", Ranap.RANAP_AreaIdentity),
    (text% "LAI", Ranap.RANAP_LAI),
    (text% "RAC", Ranap.RANAP_RAC),
    (text% "SAI", Ranap.RANAP_SAI),
    (text% "NAS-PDU", Ranap.RANAP_NAS_PDU),
    (text% "SAPI", Ranap.RANAP_SAPI),
    (text% "RejectCauseValue", Ranap.RANAP_RejectCauseValue),
    (text% "NAS-SequenceNumber", Ranap.RANAP_NAS_SequenceNumber),
    (text% "NumberOfSteps", Ranap.RANAP_NumberOfSteps),
    (text% "RAB-SetupOrModifyList", Ranap.RANAP_RAB_SetupOrModifyList),
    (text% "RAB-SetupOrModifiedList", Ranap.RANAP_RAB_SetupOrModifiedList),
    (text% "RAB-ReleasedList", Ranap.RANAP_RAB_ReleasedList),
    (text% "RAB-QueuedList", Ranap.RANAP_RAB_QueuedList),
    (text% "RAB-ReleaseFailedList", Ranap.RANAP_RAB_ReleaseFailedList),
    (text% "RAB-SetupOrModifiedItem", Ranap.RANAP_RAB_SetupOrModifiedItem),
    (text% "RAB-ReleasedItem", Ranap.RANAP_RAB_ReleasedItem),
    (text% "RAB-QueuedItem", Ranap.RANAP_RAB_QueuedItem),
    (text% "GERAN-Iumode-RAB-Failed-RABAssgntResponse-Item", Ranap.RANAP_GERAN_Iumode_RAB_Failed_RABAssgntResponse_Item),
    (text% "RAB-ContextList-RANAP-RelocInf", Ranap.RANAP_RAB_ContextList_RANAP_RelocInf),
    (text% "RAB-ContextItem-RANAP-RelocInf", Ranap.RANAP_RAB_ContextItem_RANAP_RelocInf),
    (text% "GlobalCN-ID", Ranap.RANAP_GlobalCN_ID),
    (text% "RAB-SetupList-EnhRelocInfoReq", Ranap.RANAP_RAB_SetupList_EnhRelocInfoReq),
    (text% "SNA-Access-Information", Ranap.RANAP_SNA_Access_Information),
    (text% "UESBI-Iu", Ranap.RANAP_UESBI_Iu),
    (text% "PLMNidentity", Ranap.RANAP_PLMNidentity),
    (text% "CNMBMSLinkingInformation", Ranap.RANAP_CNMBMSLinkingInformation),
    (text% "RAB-SetupItem-EnhRelocInfoReq", Ranap.RANAP_RAB_SetupItem_EnhRelocInfoReq),
    (text% "RAB-SetupList-EnhRelocInfoRes", Ranap.RANAP_RAB_SetupList_EnhRelocInfoRes),
    (text% "RAB-FailedList-EnhRelocInfoRes", Ranap.RANAP_RAB_FailedList_EnhRelocInfoRes),
    (text% "RAB-SetupItem-EnhRelocInfoRes", Ranap.RANAP_RAB_SetupItem_EnhRelocInfoRes),
    (text% "RAB-FailedItem-EnhRelocInfoRes", Ranap.RANAP_RAB_FailedItem_EnhRelocInfoRes),
    (text% "RAB-ModifyList", Ranap.RANAP_RAB_ModifyList),
    (text% "RAB-ModifyItem", Ranap.RANAP_RAB_ModifyItem),
    (text% "LocationRelatedDataRequestType", Ranap.RANAP_LocationRelatedDataRequestType),
    (text% "BroadcastAssistanceDataDecipheringKeys", Ranap.RANAP_BroadcastAssistanceDataDecipheringKeys),
    (text% "InformationTransferID", Ranap.RANAP_InformationTransferID),
    (text% "ProvidedData", Ranap.RANAP_ProvidedData),
    (text% "InterSystemInformationTransferType", Ranap.RANAP_InterSystemInformationTransferType),
    (text% "InformationExchangeID", Ranap.RANAP_InformationExchangeID),
    (text% "InformationExchangeType", Ranap.RANAP_InformationExchangeType),
    (text% "InformationRequested", Ranap.RANAP_InformationRequested),
    (text% "TMGI", Ranap.RANAP_TMGI),
    (text% "MBMSSessionIdentity", Ranap.RANAP_MBMSSessionIdentity),
    (text% "MBMSBearerServiceType", Ranap.RANAP_MBMSBearerServiceType),
    (text% "RAB-Parameters", Ranap.RANAP_RAB_Parameters),
    (text% "PDP-TypeInformation", Ranap.RANAP_PDP_TypeInformation),
    (text% "MBMSSessionDuration", Ranap.RANAP_MBMSSessionDuration),
    (text% "MBMSServiceArea", Ranap.RANAP_MBMSServiceArea),
    (text% "FrequenceLayerConvergenceFlag", Ranap.RANAP_FrequenceLayerConvergenceFlag),
    (text% "RAListofIdleModeUEs", Ranap.RANAP_RAListofIdleModeUEs),
    (text% "MBMSSessionRepetitionNumber", Ranap.RANAP_MBMSSessionRepetitionNumber),
    (text% "TimeToMBMSDataTransfer", Ranap.RANAP_TimeToMBMSDataTransfer),
    (text% "TransportLayerInformation", Ranap.RANAP_TransportLayerInformation),
    (text% "SessionUpdateID", Ranap.RANAP_SessionUpdateID),
    (text% "DeltaRAListofIdleModeUEs", Ranap.RANAP_DeltaRAListofIdleModeUEs),
    (text% "MBMSCNDe-Registration", Ranap.RANAP_MBMSCNDe_Registration),
    (text% "JoinedMBMSBearerService-IEs", Ranap.RANAP_JoinedMBMSBearerService_IEs),
    (text% "LeftMBMSBearerService-IEs", Ranap.RANAP_LeftMBMSBearerService_IEs),
    (text% "UnsuccessfulLinking-IEs", Ranap.RANAP_UnsuccessfulLinking_IEs),
    (text% "MBMSRegistrationRequestType", Ranap.RANAP_MBMSRegistrationRequestType),
    (text% "IntegrityProtectionKey", Ranap.RANAP_IntegrityProtectionKey),
    (text% "EncryptionKey", Ranap.RANAP_EncryptionKey),
    (text% "SRVCC-Information", Ranap.RANAP_SRVCC_Information),
    (text% "VoiceSupportMatchIndicator", Ranap.RANAP_VoiceSupportMatchIndicator)]
  container := [
    (text% "Iu-ReleaseCommandIEs", Ranap.RANAP_Iu_ReleaseCommand),
    (text% "Iu-ReleaseCompleteIEs", Ranap.RANAP_Iu_ReleaseComplete),
    (text% "RAB-DataVolumeReportItemIEs", Ranap.RANAP_RAB_DataVolumeReportList),
    (text% "RAB-ReleasedItem-IuRelComp-IEs", Ranap.RANAP_RAB_ReleasedList_IuRelComp),
    (text% "RelocationRequiredIEs", Ranap.RANAP_RelocationRequired),
    (text% "RelocationCommandIEs", Ranap.RANAP_RelocationCommand),
    (text% "RAB-RelocationReleaseItemIEs", Ranap.RANAP_RAB_RelocationReleaseList),
    (text% "RAB-DataForwardingItemIEs", Ranap.RANAP_RAB_DataForwardingList),
    (text% "RelocationPreparationFailureIEs", Ranap.RANAP_RelocationPreparationFailure),
    (text% "RelocationRequestIEs", Ranap.RANAP_RelocationRequest),
    (text% "RAB-SetupItem-RelocReq-IEs", Ranap.RANAP_RAB_SetupList_RelocReq),
    (text% "RelocationRequestAcknowledgeIEs", Ranap.RANAP_RelocationRequestAcknowledge),
    (text% "RAB-SetupItem-RelocReqAck-IEs", Ranap.RANAP_RAB_SetupList_RelocReqAck),
    (text% "RAB-FailedItemIEs", Ranap.RANAP_RAB_FailedList),
    (text% "RelocationFailureIEs", Ranap.RANAP_RelocationFailure),
    (text% "RelocationCancelIEs", Ranap.RANAP_RelocationCancel),
    (text% "RelocationCancelAcknowledgeIEs", Ranap.RANAP_RelocationCancelAcknowledge),
    (text% "SRNS-ContextRequestIEs", Ranap.RANAP_SRNS_ContextRequest),
    (text% "RAB-DataForwardingItem-SRNS-CtxReq-IEs", Ranap.RANAP_RAB_DataForwardingList_SRNS_CtxReq),
    (text% "SRNS-ContextResponseIEs", Ranap.RANAP_SRNS_ContextResponse),
    (text% "RAB-ContextItemIEs", Ranap.RANAP_RAB_ContextList),
    (text% "RABs-ContextFailedtoTransferItemIEs", Ranap.RANAP_RABs_ContextFailedtoTransferList),
    (text% "SecurityModeCommandIEs", Ranap.RANAP_SecurityModeCommand),
    (text% "SecurityModeCompleteIEs", Ranap.RANAP_SecurityModeComplete),
    (text% "SecurityModeRejectIEs", Ranap.RANAP_SecurityModeReject),
    (text% "DataVolumeReportRequestIEs", Ranap.RANAP_DataVolumeReportRequest),
    (text% "RAB-DataVolumeReportRequestItemIEs", Ranap.RANAP_RAB_DataVolumeReportRequestList),
    (text% "DataVolumeReportIEs", Ranap.RANAP_DataVolumeReport),
    (text% "RABs-failed-to-reportItemIEs", Ranap.RANAP_RABs_failed_to_reportList),
    (text% "ResetIEs", Ranap.RANAP_Reset),
    (text% "ResetAcknowledgeIEs", Ranap.RANAP_ResetAcknowledge),
    (text% "ResetResourceIEs", Ranap.RANAP_ResetResource),
    (text% "ResetResourceItemIEs", Ranap.RANAP_ResetResourceList),
    (text% "ResetResourceAcknowledgeIEs", Ranap.RANAP_ResetResourceAcknowledge),
    (text% "ResetResourceAckItemIEs", Ranap.RANAP_ResetResourceAckList),
    (text% "RAB-ReleaseRequestIEs", Ranap.RANAP_RAB_ReleaseRequest),
    (text% "RAB-ReleaseItemIEs", Ranap.RANAP_RAB_ReleaseList),
    (text% "Iu-ReleaseRequestIEs", Ranap.RANAP_Iu_ReleaseRequest),
    (text% "EnhancedRelocationCompleteRequestIEs", Ranap.RANAP_EnhancedRelocationCompleteRequest),
    (text% "RAB-SetupItem-EnhancedRelocCompleteReq-IEs", Ranap.RANAP_RAB_SetupList_EnhancedRelocCompleteReq),
    (text% "EnhancedRelocationCompleteResponseIEs", Ranap.RANAP_EnhancedRelocationCompleteResponse),
    (text% "RAB-SetupItem-EnhancedRelocCompleteRes-IEs", Ranap.RANAP_RAB_SetupList_EnhancedRelocCompleteRes),
    (text% "RAB-ToBeReleasedItem-EnhancedRelocCompleteRes-IEs", Ranap.RANAP_RAB_ToBeReleasedList_EnhancedRelocCompleteRes),
    (text% "EnhancedRelocationCompleteFailureIEs", Ranap.RANAP_EnhancedRelocationCompleteFailure),
    (text% "EnhancedRelocationCompleteConfirmIEs", Ranap.RANAP_EnhancedRelocationCompleteConfirm),
    (text% "PagingIEs", Ranap.RANAP_Paging),
    (text% "CommonID-IEs", Ranap.RANAP_CommonID),
    (text% "CN-InvokeTraceIEs", Ranap.RANAP_CN_InvokeTrace),
    (text% "CN-DeactivateTraceIEs", Ranap.RANAP_CN_DeactivateTrace),
    (text% "LocationReportingControlIEs", Ranap.RANAP_LocationReportingControl),
    (text% "LocationReportIEs", Ranap.RANAP_LocationReport),
    (text% "InitialUE-MessageIEs", Ranap.RANAP_InitialUE_Message),
    (text% "DirectTransferIEs", Ranap.RANAP_DirectTransfer),
    (text% "RedirectionIndication-IEs", Ranap.RANAP_RedirectionIndication),
    (text% "OverloadIEs", Ranap.RANAP_Overload),
    (text% "ErrorIndicationIEs", Ranap.RANAP_ErrorIndication),
    (text% "SRNS-DataForwardCommandIEs", Ranap.RANAP_SRNS_DataForwardCommand),
    (text% "ForwardSRNS-ContextIEs", Ranap.RANAP_ForwardSRNS_Context),
    (text% "RAB-AssignmentRequestIEs", Ranap.RANAP_RAB_AssignmentRequest),
    (text% "RAB-AssignmentResponseIEs", Ranap.RANAP_RAB_AssignmentResponse),
    (text% "RAB-SetupOrModifiedItemIEs", Ranap.RANAP_RAB_SetupOrModifiedList),
    (text% "RAB-ReleasedItemIEs", Ranap.RANAP_RAB_ReleasedList),
    (text% "RAB-QueuedItemIEs", Ranap.RANAP_RAB_QueuedList),
    (text% "GERAN-Iumode-RAB-Failed-RABAssgntResponse-ItemIEs", Ranap.RANAP_GERAN_Iumode_RAB_Failed_RABAssgntResponse_List),
    (text% "RANAP-RelocationInformationIEs", Ranap.RANAP_RANAP_RelocationInformation),
    (text% "RAB-ContextItemIEs-RANAP-RelocInf", Ranap.RANAP_RAB_ContextList_RANAP_RelocInf),
    (text% "RANAP-EnhancedRelocationInformationRequestIEs", Ranap.RANAP_RANAP_EnhancedRelocationInformationRequest),
    (text% "RAB-SetupItem-EnhRelocInfoReq-IEs", Ranap.RANAP_RAB_SetupList_EnhRelocInfoReq),
    (text% "RANAP-EnhancedRelocationInformationResponseIEs", Ranap.RANAP_RANAP_EnhancedRelocationInformationResponse),
    (text% "RAB-SetupItem-EnhRelocInfoRes-IEs", Ranap.RANAP_RAB_SetupList_EnhRelocInfoRes),
    (text% "RAB-FailedItem-EnhRelocInfoRes-IEs", Ranap.RANAP_RAB_FailedList_EnhRelocInfoRes),
    (text% "RAB-ModifyRequestIEs", Ranap.RANAP_RAB_ModifyRequest),
    (text% "RAB-ModifyItemIEs", Ranap.RANAP_RAB_ModifyList),
    (text% "LocationRelatedDataRequestIEs", Ranap.RANAP_LocationRelatedDataRequest),
    (text% "LocationRelatedDataResponseIEs", Ranap.RANAP_LocationRelatedDataResponse),
    (text% "LocationRelatedDataFailureIEs", Ranap.RANAP_LocationRelatedDataFailure),
    (text% "InformationTransferIndicationIEs", Ranap.RANAP_InformationTransferIndication),
    (text% "InformationTransferConfirmationIEs", Ranap.RANAP_InformationTransferConfirmation),
    (text% "InformationTransferFailureIEs", Ranap.RANAP_InformationTransferFailure),
    (text% "UESpecificInformationIndicationIEs", Ranap.RANAP_UESpecificInformationIndication),
    (text% "DirectInformationTransferIEs", Ranap.RANAP_DirectInformationTransfer),
    (text% "UplinkInformationExchangeRequestIEs", Ranap.RANAP_UplinkInformationExchangeRequest),
    (text% "UplinkInformationExchangeResponseIEs", Ranap.RANAP_UplinkInformationExchangeResponse),
    (text% "UplinkInformationExchangeFailureIEs", Ranap.RANAP_UplinkInformationExchangeFailure),
    (text% "MBMSSessionStartIEs", Ranap.RANAP_MBMSSessionStart),
    (text% "MBMSSessionStartResponseIEs", Ranap.RANAP_MBMSSessionStartResponse),
    (text% "MBMSSessionStartFailureIEs", Ranap.RANAP_MBMSSessionStartFailure),
    (text% "MBMSSessionUpdateIEs", Ranap.RANAP_MBMSSessionUpdate),
    (text% "MBMSSessionUpdateResponseIEs", Ranap.RANAP_MBMSSessionUpdateResponse),
    (text% "MBMSSessionUpdateFailureIEs", Ranap.RANAP_MBMSSessionUpdateFailure),
    (text% "MBMSSessionStopIEs", Ranap.RANAP_MBMSSessionStop),
    (text% "MBMSSessionStopResponseIEs", Ranap.RANAP_MBMSSessionStopResponse),
    (text% "MBMSUELinkingRequestIEs", Ranap.RANAP_MBMSUELinkingRequest),
    (text% "MBMSUELinkingResponseIEs", Ranap.RANAP_MBMSUELinkingResponse),
    (text% "MBMSRegistrationRequestIEs", Ranap.RANAP_MBMSRegistrationRequest),
    (text% "MBMSRegistrationResponseIEs", Ranap.RANAP_MBMSRegistrationResponse),
    (text% "MBMSRegistrationFailureIEs", Ranap.RANAP_MBMSRegistrationFailure),
    (text% "MBMSCNDe-RegistrationRequestIEs", Ranap.RANAP_MBMSCNDe_RegistrationRequest),
    (text% "MBMSCNDe-RegistrationResponseIEs", Ranap.RANAP_MBMSCNDe_RegistrationResponse),
    (text% "MBMSRABEstablishmentIndicationIEs", Ranap.RANAP_MBMSRABEstablishmentIndication),
    (text% "MBMSRABReleaseRequestIEs", Ranap.RANAP_MBMSRABReleaseRequest),
    (text% "MBMSRABReleaseIEs", Ranap.RANAP_MBMSRABRelease),
    (text% "MBMSRABReleaseFailureIEs", Ranap.RANAP_MBMSRABReleaseFailure),
    (text% "SRVCC-CSKeysResponseIEs", Ranap.RANAP_SRVCC_CSKeysResponse),
    (text% "UeRadioCapabilityMatchResponseIEs", Ranap.RANAP_UeRadioCapabilityMatchResponse)]

end Verif.Gen.Text
