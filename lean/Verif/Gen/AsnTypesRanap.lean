import Verif.Gen.AsnRanap
import Verif.Spec.AsnTypes

/-!
# The assignments of the RANAP modules

What the modules of `/repo/asn1/ranap` assign, in a form of its own for each kind, and the types of `Gen/AsnRanap.lean` by name.
Nothing is taken from here on trust: see `Proofs/TypesRanap.lean`.
-/

namespace Verif.Gen.Text
open Verif.AsnToStruct Verif.AsnToStruct.Spec

/-- Of `ranapCommon`. -/
noncomputable def ranapCommonAssignments : List Assignment := [
  .type (text% "Criticality") (.enum [text% "reject", text% "ignore", text% "notify"] none),
  .type (text% "Presence") (.enum [text% "optional", text% "conditional", text% "mandatory"] none),
  .type (text% "PrivateIE-ID") (.choice (.cons (text% "local") (.int [] (some ⟨text% "0", text% "65535", false⟩)) false (.cons (text% "global") .oid false .nil)) none),
  .type (text% "ProcedureCode") (.int [(text% "id-RAB-Assignment", text% "0"), (text% "id-Iu-Release", text% "1"), (text% "id-RelocationPreparation", text% "2"), (text% "id-RelocationResourceAllocation", text% "3"), (text% "id-RelocationCancel", text% "4"), (text% "id-SRNS-ContextTransfer", text% "5"), (text% "id-SecurityModeControl", text% "6"), (text% "id-DataVolumeReport", text% "7"), (text% "id-Reset", text% "9"), (text% "id-RAB-ReleaseRequest", text% "10"), (text% "id-Iu-ReleaseRequest", text% "11"), (text% "id-RelocationDetect", text% "12"), (text% "id-RelocationComplete", text% "13"), (text% "id-Paging", text% "14"), (text% "id-CommonID", text% "15"), (text% "id-CN-InvokeTrace", text% "16"), (text% "id-LocationReportingControl", text% "17"), (text% "id-LocationReport", text% "18"), (text% "id-InitialUE-Message", text% "19"), (text% "id-DirectTransfer", text% "20"), (text% "id-OverloadControl", text% "21"), (text% "id-ErrorIndication", text% "22"), (text% "id-SRNS-DataForward", text% "23"), (text% "id-ForwardSRNS-Context", text% "24"), (text% "id-privateMessage", text% "25"), (text% "id-CN-DeactivateTrace", text% "26"), (text% "id-ResetResource", text% "27"), (text% "id-RANAP-Relocation", text% "28"), (text% "id-RAB-ModifyRequest", text% "29"), (text% "id-LocationRelatedData", text% "30"), (text% "id-InformationTransfer", text% "31"), (text% "id-UESpecificInformation", text% "32"), (text% "id-UplinkInformationExchange", text% "33"), (text% "id-DirectInformationTransfer", text% "34"), (text% "id-MBMSSessionStart", text% "35"), (text% "id-MBMSSessionUpdate", text% "36"), (text% "id-MBMSSessionStop", text% "37"), (text% "id-MBMSUELinking", text% "38"), (text% "id-MBMSRegistration", text% "39"), (text% "id-MBMSCNDe-Registration-Procedure", text% "40"), (text% "id-MBMSRABEstablishmentIndication", text% "41"), (text% "id-MBMSRABRelease", text% "42"), (text% "id-enhancedRelocationComplete", text% "43"), (text% "id-enhancedRelocationCompleteConfirm", text% "44"), (text% "id-RANAPenhancedRelocation", text% "45"), (text% "id-SRVCCPreparation", text% "46"), (text% "id-UeRadioCapabilityMatch", text% "47")] (some ⟨text% "0", text% "255", false⟩)),
  .type (text% "ProtocolExtensionID") (.int [] (some ⟨text% "0", text% "65535", false⟩)),
  .type (text% "ProtocolIE-ID") (.int [(text% "id-AreaIdentity", text% "0"), (text% "id-CN-DomainIndicator", text% "3"), (text% "id-Cause", text% "4"), (text% "id-ChosenEncryptionAlgorithm", text% "5"), (text% "id-ChosenIntegrityProtectionAlgorithm", text% "6"), (text% "id-ClassmarkInformation2", text% "7"), (text% "id-ClassmarkInformation3", text% "8"), (text% "id-CriticalityDiagnostics", text% "9"), (text% "id-DL-GTP-PDU-SequenceNumber", text% "10"), (text% "id-EncryptionInformation", text% "11"), (text% "id-IntegrityProtectionInformation", text% "12"), (text% "id-IuTransportAssociation", text% "13"), (text% "id-L3-Information", text% "14"), (text% "id-LAI", text% "15"), (text% "id-NAS-PDU", text% "16"), (text% "id-NonSearchingIndication", text% "17"), (text% "id-NumberOfSteps", text% "18"), (text% "id-OMC-ID", text% "19"), (text% "id-OldBSS-ToNewBSS-Information", text% "20"), (text% "id-PagingAreaID", text% "21"), (text% "id-PagingCause", text% "22"), (text% "id-PermanentNAS-UE-ID", text% "23"), (text% "id-RAB-ContextItem", text% "24"), (text% "id-RAB-ContextList", text% "25"), (text% "id-RAB-DataForwardingItem", text% "26"), (text% "id-RAB-DataForwardingItem-SRNS-CtxReq", text% "27"), (text% "id-RAB-DataForwardingList", text% "28"), (text% "id-RAB-DataForwardingList-SRNS-CtxReq", text% "29"), (text% "id-RAB-DataVolumeReportItem", text% "30"), (text% "id-RAB-DataVolumeReportList", text% "31"), (text% "id-RAB-DataVolumeReportRequestItem", text% "32"), (text% "id-RAB-DataVolumeReportRequestList", text% "33"), (text% "id-RAB-FailedItem", text% "34"), (text% "id-RAB-FailedList", text% "35"), (text% "id-RAB-ID", text% "36"), (text% "id-RAB-QueuedItem", text% "37"), (text% "id-RAB-QueuedList", text% "38"), (text% "id-RAB-ReleaseFailedList", text% "39"), (text% "id-RAB-ReleaseItem", text% "40"), (text% "id-RAB-ReleaseList", text% "41"), (text% "id-RAB-ReleasedItem", text% "42"), (text% "id-RAB-ReleasedList", text% "43"), (text% "id-RAB-ReleasedList-IuRelComp", text% "44"), (text% "id-RAB-RelocationReleaseItem", text% "45"), (text% "id-RAB-RelocationReleaseList", text% "46"), (text% "id-RAB-SetupItem-RelocReq", text% "47"), (text% "id-RAB-SetupItem-RelocReqAck", text% "48"), (text% "id-RAB-SetupList-RelocReq", text% "49"), (text% "id-RAB-SetupList-RelocReqAck", text% "50"), (text% "id-RAB-SetupOrModifiedItem", text% "51"), (text% "id-RAB-SetupOrModifiedList", text% "52"), (text% "id-RAB-SetupOrModifyItem", text% "53"), (text% "id-RAB-SetupOrModifyList", text% "54"), (text% "id-RAC", text% "55"), (text% "id-RelocationType", text% "56"), (text% "id-RequestType", text% "57"), (text% "id-SAI", text% "58"), (text% "id-SAPI", text% "59"), (text% "id-SourceID", text% "60"), (text% "id-Source-ToTarget-TransparentContainer", text% "61"), (text% "id-TargetID", text% "62"), (text% "id-Target-ToSource-TransparentContainer", text% "63"), (text% "id-TemporaryUE-ID", text% "64"), (text% "id-TraceReference", text% "65"), (text% "id-TraceType", text% "66"), (text% "id-TransportLayerAddress", text% "67"), (text% "id-TriggerID", text% "68"), (text% "id-UE-ID", text% "69"), (text% "id-UL-GTP-PDU-SequenceNumber", text% "70"), (text% "id-RAB-FailedtoReportItem", text% "71"), (text% "id-RAB-FailedtoReportList", text% "72"), (text% "id-KeyStatus", text% "75"), (text% "id-DRX-CycleLengthCoefficient", text% "76"), (text% "id-IuSigConIdList", text% "77"), (text% "id-IuSigConIdItem", text% "78"), (text% "id-IuSigConId", text% "79"), (text% "id-DirectTransferInformationItem-RANAP-RelocInf", text% "80"), (text% "id-DirectTransferInformationList-RANAP-RelocInf", text% "81"), (text% "id-RAB-ContextItem-RANAP-RelocInf", text% "82"), (text% "id-RAB-ContextList-RANAP-RelocInf", text% "83"), (text% "id-RAB-ContextFailedtoTransferItem", text% "84"), (text% "id-RAB-ContextFailedtoTransferList", text% "85"), (text% "id-GlobalRNC-ID", text% "86"), (text% "id-RAB-ReleasedItem-IuRelComp", text% "87"), (text% "id-MessageStructure", text% "88"), (text% "id-Alt-RAB-Parameters", text% "89"), (text% "id-Ass-RAB-Parameters", text% "90"), (text% "id-RAB-ModifyList", text% "91"), (text% "id-RAB-ModifyItem", text% "92"), (text% "id-TypeOfError", text% "93"), (text% "id-BroadcastAssistanceDataDecipheringKeys", text% "94"), (text% "id-LocationRelatedDataRequestType", text% "95"), (text% "id-GlobalCN-ID", text% "96"), (text% "id-LastKnownServiceArea", text% "97"), (text% "id-SRB-TrCH-Mapping", text% "98"), (text% "id-InterSystemInformation-TransparentContainer", text% "99"), (text% "id-NewBSS-To-OldBSS-Information", text% "100"), (text% "id-SourceRNC-PDCP-context-info", text% "103"), (text% "id-InformationTransferID", text% "104"), (text% "id-SNA-Access-Information", text% "105"), (text% "id-ProvidedData", text% "106"), (text% "id-GERAN-BSC-Container", text% "107"), (text% "id-GERAN-Classmark", text% "108"), (text% "id-GERAN-Iumode-RAB-Failed-RABAssgntResponse-Item", text% "109"), (text% "id-GERAN-Iumode-RAB-FailedList-RABAssgntResponse", text% "110"), (text% "id-VerticalAccuracyCode", text% "111"), (text% "id-ResponseTime", text% "112"), (text% "id-PositioningPriority", text% "113"), (text% "id-ClientType", text% "114"), (text% "id-LocationRelatedDataRequestTypeSpecificToGERANIuMode", text% "115"), (text% "id-SignallingIndication", text% "116"), (text% "id-hS-DSCH-MAC-d-Flow-ID", text% "117"), (text% "id-UESBI-Iu", text% "118"), (text% "id-PositionData", text% "119"), (text% "id-PositionDataSpecificToGERANIuMode", text% "120"), (text% "id-CellLoadInformationGroup", text% "121"), (text% "id-AccuracyFulfilmentIndicator", text% "122"), (text% "id-InformationTransferType", text% "123"), (text% "id-TraceRecordingSessionInformation", text% "124"), (text% "id-TracePropagationParameters", text% "125"), (text% "id-InterSystemInformationTransferType", text% "126"), (text% "id-SelectedPLMN-ID", text% "127"), (text% "id-RedirectionCompleted", text% "128"), (text% "id-RedirectionIndication", text% "129"), (text% "id-NAS-SequenceNumber", text% "130"), (text% "id-RejectCauseValue", text% "131"), (text% "id-APN", text% "132"), (text% "id-CNMBMSLinkingInformation", text% "133"), (text% "id-DeltaRAListofIdleModeUEs", text% "134"), (text% "id-FrequenceLayerConvergenceFlag", text% "135"), (text% "id-InformationExchangeID", text% "136"), (text% "id-InformationExchangeType", text% "137"), (text% "id-InformationRequested", text% "138"), (text% "id-InformationRequestType", text% "139"), (text% "id-IPMulticastAddress", text% "140"), (text% "id-JoinedMBMSBearerServicesList", text% "141"), (text% "id-LeftMBMSBearerServicesList", text% "142"), (text% "id-MBMSBearerServiceType", text% "143"), (text% "id-MBMSCNDe-Registration", text% "144"), (text% "id-MBMSServiceArea", text% "145"), (text% "id-MBMSSessionDuration", text% "146"), (text% "id-MBMSSessionIdentity", text% "147"), (text% "id-PDP-TypeInformation", text% "148"), (text% "id-RAB-Parameters", text% "149"), (text% "id-RAListofIdleModeUEs", text% "150"), (text% "id-MBMSRegistrationRequestType", text% "151"), (text% "id-SessionUpdateID", text% "152"), (text% "id-TMGI", text% "153"), (text% "id-TransportLayerInformation", text% "154"), (text% "id-UnsuccessfulLinkingList", text% "155"), (text% "id-MBMSLinkingInformation", text% "156"), (text% "id-MBMSSessionRepetitionNumber", text% "157"), (text% "id-AlternativeRABConfiguration", text% "158"), (text% "id-AlternativeRABConfigurationRequest", text% "159"), (text% "id-E-DCH-MAC-d-Flow-ID", text% "160"), (text% "id-SourceBSS-ToTargetBSS-TransparentContainer", text% "161"), (text% "id-TargetBSS-ToSourceBSS-TransparentContainer", text% "162"), (text% "id-TimeToMBMSDataTransfer", text% "163"), (text% "id-IncludeVelocity", text% "164"), (text% "id-VelocityEstimate", text% "165"), (text% "id-RedirectAttemptFlag", text% "166"), (text% "id-RAT-Type", text% "167"), (text% "id-PeriodicLocationInfo", text% "168"), (text% "id-MBMSCountingInformation", text% "169"), (text% "id-170-not-to-be-used-for-IE-ids", text% "170"), (text% "id-ExtendedRNC-ID", text% "171"), (text% "id-Alt-RAB-Parameter-ExtendedGuaranteedBitrateInf", text% "172"), (text% "id-Alt-RAB-Parameter-ExtendedMaxBitrateInf", text% "173"), (text% "id-Ass-RAB-Parameter-ExtendedGuaranteedBitrateList", text% "174"), (text% "id-Ass-RAB-Parameter-ExtendedMaxBitrateList", text% "175"), (text% "id-RAB-Parameter-ExtendedGuaranteedBitrateList", text% "176"), (text% "id-RAB-Parameter-ExtendedMaxBitrateList", text% "177"), (text% "id-Requested-RAB-Parameter-ExtendedMaxBitrateList", text% "178"), (text% "id-Requested-RAB-Parameter-ExtendedGuaranteedBitrateList", text% "179"), (text% "id-LAofIdleModeUEs", text% "180"), (text% "id-newLAListofIdleModeUEs", text% "181"), (text% "id-LAListwithNoIdleModeUEsAnyMore", text% "182"), (text% "id-183-not-to-be-used-for-IE-ids", text% "183"), (text% "id-GANSS-PositioningDataSet", text% "184"), (text% "id-RequestedGANSSAssistanceData", text% "185"), (text% "id-BroadcastGANSSAssistanceDataDecipheringKeys", text% "186"), (text% "id-d-RNTI-for-NoIuCSUP", text% "187"), (text% "id-RAB-SetupList-EnhancedRelocCompleteReq", text% "188"), (text% "id-RAB-SetupItem-EnhancedRelocCompleteReq", text% "189"), (text% "id-RAB-SetupList-EnhancedRelocCompleteRes", text% "190"), (text% "id-RAB-SetupItem-EnhancedRelocCompleteRes", text% "191"), (text% "id-RAB-SetupList-EnhRelocInfoReq", text% "192"), (text% "id-RAB-SetupItem-EnhRelocInfoReq", text% "193"), (text% "id-RAB-SetupList-EnhRelocInfoRes", text% "194"), (text% "id-RAB-SetupItem-EnhRelocInfoRes", text% "195"), (text% "id-OldIuSigConId", text% "196"), (text% "id-RAB-FailedList-EnhRelocInfoRes", text% "197"), (text% "id-RAB-FailedItem-EnhRelocInfoRes", text% "198"), (text% "id-Global-ENB-ID", text% "199"), (text% "id-UE-History-Information", text% "200"), (text% "id-MBMSSynchronisationInformation", text% "201"), (text% "id-SubscriberProfileIDforRFP", text% "202"), (text% "id-CSG-Id", text% "203"), (text% "id-OldIuSigConIdCS", text% "204"), (text% "id-OldIuSigConIdPS", text% "205"), (text% "id-GlobalCN-IDCS", text% "206"), (text% "id-GlobalCN-IDPS", text% "207"), (text% "id-SourceExtendedRNC-ID", text% "208"), (text% "id-RAB-ToBeReleasedItem-EnhancedRelocCompleteRes", text% "209"), (text% "id-RAB-ToBeReleasedList-EnhancedRelocCompleteRes", text% "210"), (text% "id-SourceRNC-ID", text% "211"), (text% "id-Relocation-TargetRNC-ID", text% "212"), (text% "id-Relocation-TargetExtendedRNC-ID", text% "213"), (text% "id-Alt-RAB-Parameter-SupportedGuaranteedBitrateInf", text% "214"), (text% "id-Alt-RAB-Parameter-SupportedMaxBitrateInf", text% "215"), (text% "id-Ass-RAB-Parameter-SupportedGuaranteedBitrateList", text% "216"), (text% "id-Ass-RAB-Parameter-SupportedMaxBitrateList", text% "217"), (text% "id-RAB-Parameter-SupportedGuaranteedBitrateList", text% "218"), (text% "id-RAB-Parameter-SupportedMaxBitrateList", text% "219"), (text% "id-Requested-RAB-Parameter-SupportedMaxBitrateList", text% "220"), (text% "id-Requested-RAB-Parameter-SupportedGuaranteedBitrateList", text% "221"), (text% "id-Relocation-SourceRNC-ID", text% "222"), (text% "id-Relocation-SourceExtendedRNC-ID", text% "223"), (text% "id-EncryptionKey", text% "224"), (text% "id-IntegrityProtectionKey", text% "225"), (text% "id-SRVCC-HO-Indication", text% "226"), (text% "id-SRVCC-Information", text% "227"), (text% "id-SRVCC-Operation-Possible", text% "228"), (text% "id-CSG-Id-List", text% "229"), (text% "id-PSRABtobeReplaced", text% "230"), (text% "id-E-UTRAN-Service-Handover", text% "231"), (text% "id-UE-AggregateMaximumBitRate", text% "233"), (text% "id-CSG-Membership-Status", text% "234"), (text% "id-Cell-Access-Mode", text% "235"), (text% "id-IP-Source-Address", text% "236"), (text% "id-CSFB-Information", text% "237"), (text% "id-PDP-TypeInformation-extension", text% "238"), (text% "id-MSISDN", text% "239"), (text% "id-Offload-RAB-Parameters", text% "240"), (text% "id-LGW-TransportLayerAddress", text% "241"), (text% "id-Correlation-ID", text% "242"), (text% "id-IRAT-Measurement-Configuration", text% "243"), (text% "id-MDT-Configuration", text% "244"), (text% "id-Priority-Class-Indicator", text% "245"), (text% "id-RNSAPRelocationParameters", text% "247"), (text% "id-RABParametersList", text% "248"), (text% "id-Management-Based-MDT-Allowed", text% "249"), (text% "id-HigherBitratesThan16MbpsFlag", text% "250"), (text% "id-Trace-Collection-Entity-IP-Addess", text% "251"), (text% "id-End-Of-CSFB", text% "252"), (text% "id-Time-UE-StayedInCell-EnhancedGranularity", text% "253"), (text% "id-Out-Of-UTRAN", text% "254"), (text% "id-TraceRecordingSessionReference", text% "255"), (text% "id-IMSI", text% "256"), (text% "id-HO-Cause", text% "257"), (text% "id-VoiceSupportMatchIndicator", text% "258"), (text% "id-RSRVCC-HO-Indication", text% "259"), (text% "id-RSRVCC-Information", text% "260"), (text% "id-AnchorPLMN-ID", text% "261"), (text% "id-Tunnel-Information-for-BBF", text% "262"), (text% "id-Management-Based-MDT-PLMN-List", text% "263"), (text% "id-SignallingBasedMDTPLMNList", text% "264"), (text% "id-M4Report", text% "265"), (text% "id-M5Report", text% "266"), (text% "id-M6Report", text% "267"), (text% "id-M7Report", text% "268"), (text% "id-TimingDifferenceULDL", text% "269"), (text% "id-Serving-Cell-Identifier", text% "270"), (text% "id-EARFCN-Extended", text% "271"), (text% "id-RSRVCC-Operation-Possible", text% "272"), (text% "id-SIPTO-LGW-TransportLayerAddress", text% "273"), (text% "id-SIPTO-Correlation-ID", text% "274"), (text% "id-LHN-ID", text% "275"), (text% "id-Session-Re-establishment-Indicator", text% "276"), (text% "id-LastE-UTRANPLMNIdentity", text% "277"), (text% "id-RSRQ-Type", text% "278"), (text% "id-RSRQ-Extension", text% "279")] (some ⟨text% "0", text% "65535", false⟩)),
  .type (text% "TriggeringMessage") (.enum [text% "initiating-message", text% "successful-outcome", text% "unsuccessfull-outcome", text% "outcome"] none)]

/-- Of `ranapConstants`. -/
noncomputable def ranapConstantsAssignments : List Assignment := [
  .number (text% "id-RAB-Assignment") 0,
  .number (text% "id-Iu-Release") 1,
  .number (text% "id-RelocationPreparation") 2,
  .number (text% "id-RelocationResourceAllocation") 3,
  .number (text% "id-RelocationCancel") 4,
  .number (text% "id-SRNS-ContextTransfer") 5,
  .number (text% "id-SecurityModeControl") 6,
  .number (text% "id-DataVolumeReport") 7,
  .number (text% "id-Reset") 9,
  .number (text% "id-RAB-ReleaseRequest") 10,
  .number (text% "id-Iu-ReleaseRequest") 11,
  .number (text% "id-RelocationDetect") 12,
  .number (text% "id-RelocationComplete") 13,
  .number (text% "id-Paging") 14,
  .number (text% "id-CommonID") 15,
  .number (text% "id-CN-InvokeTrace") 16,
  .number (text% "id-LocationReportingControl") 17,
  .number (text% "id-LocationReport") 18,
  .number (text% "id-InitialUE-Message") 19,
  .number (text% "id-DirectTransfer") 20,
  .number (text% "id-OverloadControl") 21,
  .number (text% "id-ErrorIndication") 22,
  .number (text% "id-SRNS-DataForward") 23,
  .number (text% "id-ForwardSRNS-Context") 24,
  .number (text% "id-privateMessage") 25,
  .number (text% "id-CN-DeactivateTrace") 26,
  .number (text% "id-ResetResource") 27,
  .number (text% "id-RANAP-Relocation") 28,
  .number (text% "id-RAB-ModifyRequest") 29,
  .number (text% "id-LocationRelatedData") 30,
  .number (text% "id-InformationTransfer") 31,
  .number (text% "id-UESpecificInformation") 32,
  .number (text% "id-UplinkInformationExchange") 33,
  .number (text% "id-DirectInformationTransfer") 34,
  .number (text% "id-MBMSSessionStart") 35,
  .number (text% "id-MBMSSessionUpdate") 36,
  .number (text% "id-MBMSSessionStop") 37,
  .number (text% "id-MBMSUELinking") 38,
  .number (text% "id-MBMSRegistration") 39,
  .number (text% "id-MBMSCNDe-Registration-Procedure") 40,
  .number (text% "id-MBMSRABEstablishmentIndication") 41,
  .number (text% "id-MBMSRABRelease") 42,
  .number (text% "id-enhancedRelocationComplete") 43,
  .number (text% "id-enhancedRelocationCompleteConfirm") 44,
  .number (text% "id-RANAPenhancedRelocation") 45,
  .number (text% "id-SRVCCPreparation") 46,
  .number (text% "id-UeRadioCapabilityMatch") 47,
  .number (text% "maxPrivateIEs") 65535,
  .number (text% "maxProtocolExtensions") 65535,
  .number (text% "maxProtocolIEs") 65535,
  .number (text% "maxNrOfDTs") 15,
  .number (text% "maxNrOfErrors") 256,
  .number (text% "maxNrOfIuSigConIds") 250,
  .number (text% "maxNrOfPDPDirections") 2,
  .number (text% "maxNrOfPoints") 15,
  .number (text% "maxNrOfRABs") 256,
  .number (text% "maxNrOfSeparateTrafficDirections") 2,
  .number (text% "maxNrOfSRBs") 8,
  .number (text% "maxNrOfVol") 2,
  .number (text% "maxNrOfLevels") 256,
  .number (text% "maxNrOfAltValues") 16,
  .number (text% "maxNrOfPLMNsSN") 32,
  .number (text% "maxNrOfLAs") 65536,
  .number (text% "maxNrOfSNAs") 65536,
  .number (text% "maxNrOfUEsToBeTraced") 64,
  .number (text% "maxNrOfInterfaces") 16,
  .number (text% "maxRAB-Subflows") 7,
  .number (text% "maxRAB-SubflowCombination") 64,
  .number (text% "maxSet") 9,
  .number (text% "maxNrOfHSDSCHMACdFlows-1") 7,
  .number (text% "maxnoofMulticastServicesPerUE") 128,
  .number (text% "maxnoofMulticastServicesPerRNC") 512,
  .number (text% "maxMBMSSA") 256,
  .number (text% "maxMBMSRA") 65536,
  .number (text% "maxNrOfEDCHMACdFlows-1") 7,
  .number (text% "maxGANSSSet") 9,
  .number (text% "maxNrOfCSGs") 256,
  .number (text% "maxNrOfEUTRAFreqs") 8,
  .number (text% "maxNrOfCellIds") 32,
  .number (text% "maxNrOfRAIs") 8,
  .number (text% "maxNrOfLAIs") 8,
  .number (text% "maxSizeOfIMSInfo") 32,
  .number (text% "maxnoofMDTPLMNs") 16,
  .number (text% "id-AreaIdentity") 0,
  .number (text% "id-CN-DomainIndicator") 3,
  .number (text% "id-Cause") 4,
  .number (text% "id-ChosenEncryptionAlgorithm") 5,
  .number (text% "id-ChosenIntegrityProtectionAlgorithm") 6,
  .number (text% "id-ClassmarkInformation2") 7,
  .number (text% "id-ClassmarkInformation3") 8,
  .number (text% "id-CriticalityDiagnostics") 9,
  .number (text% "id-DL-GTP-PDU-SequenceNumber") 10,
  .number (text% "id-EncryptionInformation") 11,
  .number (text% "id-IntegrityProtectionInformation") 12,
  .number (text% "id-IuTransportAssociation") 13,
  .number (text% "id-L3-Information") 14,
  .number (text% "id-LAI") 15,
  .number (text% "id-NAS-PDU") 16,
  .number (text% "id-NonSearchingIndication") 17,
  .number (text% "id-NumberOfSteps") 18,
  .number (text% "id-OMC-ID") 19,
  .number (text% "id-OldBSS-ToNewBSS-Information") 20,
  .number (text% "id-PagingAreaID") 21,
  .number (text% "id-PagingCause") 22,
  .number (text% "id-PermanentNAS-UE-ID") 23,
  .number (text% "id-RAB-ContextItem") 24,
  .number (text% "id-RAB-ContextList") 25,
  .number (text% "id-RAB-DataForwardingItem") 26,
  .number (text% "id-RAB-DataForwardingItem-SRNS-CtxReq") 27,
  .number (text% "id-RAB-DataForwardingList") 28,
  .number (text% "id-RAB-DataForwardingList-SRNS-CtxReq") 29,
  .number (text% "id-RAB-DataVolumeReportItem") 30,
  .number (text% "id-RAB-DataVolumeReportList") 31,
  .number (text% "id-RAB-DataVolumeReportRequestItem") 32,
  .number (text% "id-RAB-DataVolumeReportRequestList") 33,
  .number (text% "id-RAB-FailedItem") 34,
  .number (text% "id-RAB-FailedList") 35,
  .number (text% "id-RAB-ID") 36,
  .number (text% "id-RAB-QueuedItem") 37,
  .number (text% "id-RAB-QueuedList") 38,
  .number (text% "id-RAB-ReleaseFailedList") 39,
  .number (text% "id-RAB-ReleaseItem") 40,
  .number (text% "id-RAB-ReleaseList") 41,
  .number (text% "id-RAB-ReleasedItem") 42,
  .number (text% "id-RAB-ReleasedList") 43,
  .number (text% "id-RAB-ReleasedList-IuRelComp") 44,
  .number (text% "id-RAB-RelocationReleaseItem") 45,
  .number (text% "id-RAB-RelocationReleaseList") 46,
  .number (text% "id-RAB-SetupItem-RelocReq") 47,
  .number (text% "id-RAB-SetupItem-RelocReqAck") 48,
  .number (text% "id-RAB-SetupList-RelocReq") 49,
  .number (text% "id-RAB-SetupList-RelocReqAck") 50,
  .number (text% "id-RAB-SetupOrModifiedItem") 51,
  .number (text% "id-RAB-SetupOrModifiedList") 52,
  .number (text% "id-RAB-SetupOrModifyItem") 53,
  .number (text% "id-RAB-SetupOrModifyList") 54,
  .number (text% "id-RAC") 55,
  .number (text% "id-RelocationType") 56,
  .number (text% "id-RequestType") 57,
  .number (text% "id-SAI") 58,
  .number (text% "id-SAPI") 59,
  .number (text% "id-SourceID") 60,
  .number (text% "id-Source-ToTarget-TransparentContainer") 61,
  .number (text% "id-TargetID") 62,
  .number (text% "id-Target-ToSource-TransparentContainer") 63,
  .number (text% "id-TemporaryUE-ID") 64,
  .number (text% "id-TraceReference") 65,
  .number (text% "id-TraceType") 66,
  .number (text% "id-TransportLayerAddress") 67,
  .number (text% "id-TriggerID") 68,
  .number (text% "id-UE-ID") 69,
  .number (text% "id-UL-GTP-PDU-SequenceNumber") 70,
  .number (text% "id-RAB-FailedtoReportItem") 71,
  .number (text% "id-RAB-FailedtoReportList") 72,
  .number (text% "id-KeyStatus") 75,
  .number (text% "id-DRX-CycleLengthCoefficient") 76,
  .number (text% "id-IuSigConIdList") 77,
  .number (text% "id-IuSigConIdItem") 78,
  .number (text% "id-IuSigConId") 79,
  .number (text% "id-DirectTransferInformationItem-RANAP-RelocInf") 80,
  .number (text% "id-DirectTransferInformationList-RANAP-RelocInf") 81,
  .number (text% "id-RAB-ContextItem-RANAP-RelocInf") 82,
  .number (text% "id-RAB-ContextList-RANAP-RelocInf") 83,
  .number (text% "id-RAB-ContextFailedtoTransferItem") 84,
  .number (text% "id-RAB-ContextFailedtoTransferList") 85,
  .number (text% "id-GlobalRNC-ID") 86,
  .number (text% "id-RAB-ReleasedItem-IuRelComp") 87,
  .number (text% "id-MessageStructure") 88,
  .number (text% "id-Alt-RAB-Parameters") 89,
  .number (text% "id-Ass-RAB-Parameters") 90,
  .number (text% "id-RAB-ModifyList") 91,
  .number (text% "id-RAB-ModifyItem") 92,
  .number (text% "id-TypeOfError") 93,
  .number (text% "id-BroadcastAssistanceDataDecipheringKeys") 94,
  .number (text% "id-LocationRelatedDataRequestType") 95,
  .number (text% "id-GlobalCN-ID") 96,
  .number (text% "id-LastKnownServiceArea") 97,
  .number (text% "id-SRB-TrCH-Mapping") 98,
  .number (text% "id-InterSystemInformation-TransparentContainer") 99,
  .number (text% "id-NewBSS-To-OldBSS-Information") 100,
  .number (text% "id-SourceRNC-PDCP-context-info") 103,
  .number (text% "id-InformationTransferID") 104,
  .number (text% "id-SNA-Access-Information") 105,
  .number (text% "id-ProvidedData") 106,
  .number (text% "id-GERAN-BSC-Container") 107,
  .number (text% "id-GERAN-Classmark") 108,
  .number (text% "id-GERAN-Iumode-RAB-Failed-RABAssgntResponse-Item") 109,
  .number (text% "id-GERAN-Iumode-RAB-FailedList-RABAssgntResponse") 110,
  .number (text% "id-VerticalAccuracyCode") 111,
  .number (text% "id-ResponseTime") 112,
  .number (text% "id-PositioningPriority") 113,
  .number (text% "id-ClientType") 114,
  .number (text% "id-LocationRelatedDataRequestTypeSpecificToGERANIuMode") 115,
  .number (text% "id-SignallingIndication") 116,
  .number (text% "id-hS-DSCH-MAC-d-Flow-ID") 117,
  .number (text% "id-UESBI-Iu") 118,
  .number (text% "id-PositionData") 119,
  .number (text% "id-PositionDataSpecificToGERANIuMode") 120,
  .number (text% "id-CellLoadInformationGroup") 121,
  .number (text% "id-AccuracyFulfilmentIndicator") 122,
  .number (text% "id-InformationTransferType") 123,
  .number (text% "id-TraceRecordingSessionInformation") 124,
  .number (text% "id-TracePropagationParameters") 125,
  .number (text% "id-InterSystemInformationTransferType") 126,
  .number (text% "id-SelectedPLMN-ID") 127,
  .number (text% "id-RedirectionCompleted") 128,
  .number (text% "id-RedirectionIndication") 129,
  .number (text% "id-NAS-SequenceNumber") 130,
  .number (text% "id-RejectCauseValue") 131,
  .number (text% "id-APN") 132,
  .number (text% "id-CNMBMSLinkingInformation") 133,
  .number (text% "id-DeltaRAListofIdleModeUEs") 134,
  .number (text% "id-FrequenceLayerConvergenceFlag") 135,
  .number (text% "id-InformationExchangeID") 136,
  .number (text% "id-InformationExchangeType") 137,
  .number (text% "id-InformationRequested") 138,
  .number (text% "id-InformationRequestType") 139,
  .number (text% "id-IPMulticastAddress") 140,
  .number (text% "id-JoinedMBMSBearerServicesList") 141,
  .number (text% "id-LeftMBMSBearerServicesList") 142,
  .number (text% "id-MBMSBearerServiceType") 143,
  .number (text% "id-MBMSCNDe-Registration") 144,
  .number (text% "id-MBMSServiceArea") 145,
  .number (text% "id-MBMSSessionDuration") 146,
  .number (text% "id-MBMSSessionIdentity") 147,
  .number (text% "id-PDP-TypeInformation") 148,
  .number (text% "id-RAB-Parameters") 149,
  .number (text% "id-RAListofIdleModeUEs") 150,
  .number (text% "id-MBMSRegistrationRequestType") 151,
  .number (text% "id-SessionUpdateID") 152,
  .number (text% "id-TMGI") 153,
  .number (text% "id-TransportLayerInformation") 154,
  .number (text% "id-UnsuccessfulLinkingList") 155,
  .number (text% "id-MBMSLinkingInformation") 156,
  .number (text% "id-MBMSSessionRepetitionNumber") 157,
  .number (text% "id-AlternativeRABConfiguration") 158,
  .number (text% "id-AlternativeRABConfigurationRequest") 159,
  .number (text% "id-E-DCH-MAC-d-Flow-ID") 160,
  .number (text% "id-SourceBSS-ToTargetBSS-TransparentContainer") 161,
  .number (text% "id-TargetBSS-ToSourceBSS-TransparentContainer") 162,
  .number (text% "id-TimeToMBMSDataTransfer") 163,
  .number (text% "id-IncludeVelocity") 164,
  .number (text% "id-VelocityEstimate") 165,
  .number (text% "id-RedirectAttemptFlag") 166,
  .number (text% "id-RAT-Type") 167,
  .number (text% "id-PeriodicLocationInfo") 168,
  .number (text% "id-MBMSCountingInformation") 169,
  .number (text% "id-170-not-to-be-used-for-IE-ids") 170,
  .number (text% "id-ExtendedRNC-ID") 171,
  .number (text% "id-Alt-RAB-Parameter-ExtendedGuaranteedBitrateInf") 172,
  .number (text% "id-Alt-RAB-Parameter-ExtendedMaxBitrateInf") 173,
  .number (text% "id-Ass-RAB-Parameter-ExtendedGuaranteedBitrateList") 174,
  .number (text% "id-Ass-RAB-Parameter-ExtendedMaxBitrateList") 175,
  .number (text% "id-RAB-Parameter-ExtendedGuaranteedBitrateList") 176,
  .number (text% "id-RAB-Parameter-ExtendedMaxBitrateList") 177,
  .number (text% "id-Requested-RAB-Parameter-ExtendedMaxBitrateList") 178,
  .number (text% "id-Requested-RAB-Parameter-ExtendedGuaranteedBitrateList") 179,
  .number (text% "id-LAofIdleModeUEs") 180,
  .number (text% "id-newLAListofIdleModeUEs") 181,
  .number (text% "id-LAListwithNoIdleModeUEsAnyMore") 182,
  .number (text% "id-183-not-to-be-used-for-IE-ids") 183,
  .number (text% "id-GANSS-PositioningDataSet") 184,
  .number (text% "id-RequestedGANSSAssistanceData") 185,
  .number (text% "id-BroadcastGANSSAssistanceDataDecipheringKeys") 186,
  .number (text% "id-d-RNTI-for-NoIuCSUP") 187,
  .number (text% "id-RAB-SetupList-EnhancedRelocCompleteReq") 188,
  .number (text% "id-RAB-SetupItem-EnhancedRelocCompleteReq") 189,
  .number (text% "id-RAB-SetupList-EnhancedRelocCompleteRes") 190,
  .number (text% "id-RAB-SetupItem-EnhancedRelocCompleteRes") 191,
  .number (text% "id-RAB-SetupList-EnhRelocInfoReq") 192,
  .number (text% "id-RAB-SetupItem-EnhRelocInfoReq") 193,
  .number (text% "id-RAB-SetupList-EnhRelocInfoRes") 194,
  .number (text% "id-RAB-SetupItem-EnhRelocInfoRes") 195,
  .number (text% "id-OldIuSigConId") 196,
  .number (text% "id-RAB-FailedList-EnhRelocInfoRes") 197,
  .number (text% "id-RAB-FailedItem-EnhRelocInfoRes") 198,
  .number (text% "id-Global-ENB-ID") 199,
  .number (text% "id-UE-History-Information") 200,
  .number (text% "id-MBMSSynchronisationInformation") 201,
  .number (text% "id-SubscriberProfileIDforRFP") 202,
  .number (text% "id-CSG-Id") 203,
  .number (text% "id-OldIuSigConIdCS") 204,
  .number (text% "id-OldIuSigConIdPS") 205,
  .number (text% "id-GlobalCN-IDCS") 206,
  .number (text% "id-GlobalCN-IDPS") 207,
  .number (text% "id-SourceExtendedRNC-ID") 208,
  .number (text% "id-RAB-ToBeReleasedItem-EnhancedRelocCompleteRes") 209,
  .number (text% "id-RAB-ToBeReleasedList-EnhancedRelocCompleteRes") 210,
  .number (text% "id-SourceRNC-ID") 211,
  .number (text% "id-Relocation-TargetRNC-ID") 212,
  .number (text% "id-Relocation-TargetExtendedRNC-ID") 213,
  .number (text% "id-Alt-RAB-Parameter-SupportedGuaranteedBitrateInf") 214,
  .number (text% "id-Alt-RAB-Parameter-SupportedMaxBitrateInf") 215,
  .number (text% "id-Ass-RAB-Parameter-SupportedGuaranteedBitrateList") 216,
  .number (text% "id-Ass-RAB-Parameter-SupportedMaxBitrateList") 217,
  .number (text% "id-RAB-Parameter-SupportedGuaranteedBitrateList") 218,
  .number (text% "id-RAB-Parameter-SupportedMaxBitrateList") 219,
  .number (text% "id-Requested-RAB-Parameter-SupportedMaxBitrateList") 220,
  .number (text% "id-Requested-RAB-Parameter-SupportedGuaranteedBitrateList") 221,
  .number (text% "id-Relocation-SourceRNC-ID") 222,
  .number (text% "id-Relocation-SourceExtendedRNC-ID") 223,
  .number (text% "id-EncryptionKey") 224,
  .number (text% "id-IntegrityProtectionKey") 225,
  .number (text% "id-SRVCC-HO-Indication") 226,
  .number (text% "id-SRVCC-Information") 227,
  .number (text% "id-SRVCC-Operation-Possible") 228,
  .number (text% "id-CSG-Id-List") 229,
  .number (text% "id-PSRABtobeReplaced") 230,
  .number (text% "id-E-UTRAN-Service-Handover") 231,
  .number (text% "id-UE-AggregateMaximumBitRate") 233,
  .number (text% "id-CSG-Membership-Status") 234,
  .number (text% "id-Cell-Access-Mode") 235,
  .number (text% "id-IP-Source-Address") 236,
  .number (text% "id-CSFB-Information") 237,
  .number (text% "id-PDP-TypeInformation-extension") 238,
  .number (text% "id-MSISDN") 239,
  .number (text% "id-Offload-RAB-Parameters") 240,
  .number (text% "id-LGW-TransportLayerAddress") 241,
  .number (text% "id-Correlation-ID") 242,
  .number (text% "id-IRAT-Measurement-Configuration") 243,
  .number (text% "id-MDT-Configuration") 244,
  .number (text% "id-Priority-Class-Indicator") 245,
  .number (text% "id-RNSAPRelocationParameters") 247,
  .number (text% "id-RABParametersList") 248,
  .number (text% "id-Management-Based-MDT-Allowed") 249,
  .number (text% "id-HigherBitratesThan16MbpsFlag") 250,
  .number (text% "id-Trace-Collection-Entity-IP-Addess") 251,
  .number (text% "id-End-Of-CSFB") 252,
  .number (text% "id-Time-UE-StayedInCell-EnhancedGranularity") 253,
  .number (text% "id-Out-Of-UTRAN") 254,
  .number (text% "id-TraceRecordingSessionReference") 255,
  .number (text% "id-IMSI") 256,
  .number (text% "id-HO-Cause") 257,
  .number (text% "id-VoiceSupportMatchIndicator") 258,
  .number (text% "id-RSRVCC-HO-Indication") 259,
  .number (text% "id-RSRVCC-Information") 260,
  .number (text% "id-AnchorPLMN-ID") 261,
  .number (text% "id-Tunnel-Information-for-BBF") 262,
  .number (text% "id-Management-Based-MDT-PLMN-List") 263,
  .number (text% "id-SignallingBasedMDTPLMNList") 264,
  .number (text% "id-M4Report") 265,
  .number (text% "id-M5Report") 266,
  .number (text% "id-M6Report") 267,
  .number (text% "id-M7Report") 268,
  .number (text% "id-TimingDifferenceULDL") 269,
  .number (text% "id-Serving-Cell-Identifier") 270,
  .number (text% "id-EARFCN-Extended") 271,
  .number (text% "id-RSRVCC-Operation-Possible") 272,
  .number (text% "id-SIPTO-LGW-TransportLayerAddress") 273,
  .number (text% "id-SIPTO-Correlation-ID") 274,
  .number (text% "id-LHN-ID") 275,
  .number (text% "id-Session-Re-establishment-Indicator") 276,
  .number (text% "id-LastE-UTRANPLMNIdentity") 277,
  .number (text% "id-RSRQ-Type") 278,
  .number (text% "id-RSRQ-Extension") 279]

/-- Of `ranapContainers`. -/
noncomputable def ranapContainersAssignments : List Assignment := [
  .cls (text% "RANAP-PROTOCOL-IES") [(text% "id", text% "ProtocolIE-ID"), (text% "criticality", text% "Criticality"), (text% "presence", text% "Presence")],
  .cls (text% "RANAP-PROTOCOL-IES-PAIR") [(text% "id", text% "ProtocolIE-ID"), (text% "firstCriticality", text% "Criticality"), (text% "secondCriticality", text% "Criticality"), (text% "presence", text% "Presence")],
  .cls (text% "RANAP-PROTOCOL-EXTENSION") [(text% "id", text% "ProtocolExtensionID"), (text% "criticality", text% "Criticality"), (text% "presence", text% "Presence")],
  .cls (text% "RANAP-PRIVATE-IES") [(text% "id", text% "PrivateIE-ID"), (text% "criticality", text% "Criticality"), (text% "presence", text% "Presence")],
  .template (text% "ProtocolIE-Container") [text% "IEsSetParam"] (.seqOf (some ⟨text% "0", text% "maxProtocolIEs", false⟩) (.app (text% "ProtocolIE-Field") [text% "IEsSetParam"])),
  .template (text% "ProtocolIE-Field") [text% "IEsSetParam"] (.seq (.cons (text% "id") (.field (text% "RANAP-PROTOCOL-IES") (text% "id")) false (.cons (text% "criticality") (.field (text% "RANAP-PROTOCOL-IES") (text% "criticality")) false (.cons (text% "value") (.field (text% "RANAP-PROTOCOL-IES") (text% "Value")) false .nil))) none),
  .template (text% "ProtocolIE-ContainerPair") [text% "IEsSetParam"] (.seqOf (some ⟨text% "0", text% "maxProtocolIEs", false⟩) (.app (text% "ProtocolIE-FieldPair") [text% "IEsSetParam"])),
  .template (text% "ProtocolIE-FieldPair") [text% "IEsSetParam"] (.seq (.cons (text% "id") (.field (text% "RANAP-PROTOCOL-IES-PAIR") (text% "id")) false (.cons (text% "firstCriticality") (.field (text% "RANAP-PROTOCOL-IES-PAIR") (text% "firstCriticality")) false (.cons (text% "firstValue") (.field (text% "RANAP-PROTOCOL-IES-PAIR") (text% "FirstValue")) false (.cons (text% "secondCriticality") (.field (text% "RANAP-PROTOCOL-IES-PAIR") (text% "secondCriticality")) false (.cons (text% "secondValue") (.field (text% "RANAP-PROTOCOL-IES-PAIR") (text% "SecondValue")) false .nil))))) none),
  .template (text% "ProtocolIE-ContainerList") [text% "lowerBound", text% "upperBound", text% "IEsSetParam"] (.seqOf (some ⟨text% "lowerBound", text% "upperBound", false⟩) (.app (text% "ProtocolIE-Container") [text% "IEsSetParam"])),
  .template (text% "ProtocolIE-ContainerPairList") [text% "lowerBound", text% "upperBound", text% "IEsSetParam"] (.seqOf (some ⟨text% "lowerBound", text% "upperBound", false⟩) (.app (text% "ProtocolIE-ContainerPair") [text% "IEsSetParam"])),
  .template (text% "ProtocolExtensionContainer") [text% "ExtensionSetParam"] (.seqOf (some ⟨text% "1", text% "maxProtocolExtensions", false⟩) (.app (text% "ProtocolExtensionField") [text% "ExtensionSetParam"])),
  .template (text% "ProtocolExtensionField") [text% "ExtensionSetParam"] (.seq (.cons (text% "id") (.field (text% "RANAP-PROTOCOL-EXTENSION") (text% "id")) false (.cons (text% "criticality") (.field (text% "RANAP-PROTOCOL-EXTENSION") (text% "criticality")) false (.cons (text% "extensionValue") (.field (text% "RANAP-PROTOCOL-EXTENSION") (text% "Extension")) false .nil))) none),
  .template (text% "PrivateIE-Container") [text% "IEsSetParam"] (.seqOf (some ⟨text% "1", text% "maxPrivateIEs", false⟩) (.app (text% "PrivateIE-Field") [text% "IEsSetParam"])),
  .template (text% "PrivateIE-Field") [text% "IEsSetParam"] (.seq (.cons (text% "id") (.field (text% "RANAP-PRIVATE-IES") (text% "id")) false (.cons (text% "criticality") (.field (text% "RANAP-PRIVATE-IES") (text% "criticality")) false (.cons (text% "value") (.field (text% "RANAP-PRIVATE-IES") (text% "Value")) false .nil))) none)]

/-- Of `ranapIes`. -/
noncomputable def ranapIesAssignments : List Assignment := [
  .type (text% "IE-Extensions") (.seqOf (some ⟨text% "1", text% "maxProtocolExtensions", false⟩) (.ref (text% "IE"))),
  .type (text% "AccuracyFulfilmentIndicator") (.enum [text% "requested-Accuracy-Fulfilled", text% "requested-Accuracy-Not-Fulfilled"] (some [])),
  .type (text% "AllocationOrRetentionPriority") (.seq (.cons (text% "priorityLevel") (.ref (text% "PriorityLevel")) false (.cons (text% "pre-emptionCapability") (.ref (text% "Pre-emptionCapability")) false (.cons (text% "pre-emptionVulnerability") (.ref (text% "Pre-emptionVulnerability")) false (.cons (text% "queuingAllowed") (.ref (text% "QueuingAllowed")) false (.cons (text% "iE-Extensions") (.ref (text% "IE-Extensions")) true .nil))))) (some .nil)),
  .type (text% "Alt-RAB-Parameters") (.seq (.cons (text% "altMaxBitrateInf") (.ref (text% "Alt-RAB-Parameter-MaxBitrateInf")) true (.cons (text% "altGuaranteedBitRateInf") (.ref (text% "Alt-RAB-Parameter-GuaranteedBitrateInf")) true (.cons (text% "iE-Extensions") (.ref (text% "IE-Extensions")) true .nil))) (some .nil)),
  .type (text% "Alt-RAB-Parameter-ExtendedGuaranteedBitrateInf") (.seq (.cons (text% "altExtendedGuaranteedBitrateType") (.ref (text% "Alt-RAB-Parameter-GuaranteedBitrateType")) false (.cons (text% "altExtendedGuaranteedBitrates") (.ref (text% "Alt-RAB-Parameter-ExtendedGuaranteedBitrates")) true .nil)) (some .nil)),
  .type (text% "Alt-RAB-Parameter-ExtendedGuaranteedBitrates") (.seqOf (some ⟨text% "1", text% "maxNrOfAltValues", false⟩) (.ref (text% "Alt-RAB-Parameter-ExtendedGuaranteedBitrateList"))),
  .type (text% "Alt-RAB-Parameter-ExtendedGuaranteedBitrateList") (.seqOf (some ⟨text% "1", text% "maxNrOfSeparateTrafficDirections", false⟩) (.ref (text% "ExtendedGuaranteedBitrate"))),
  .type (text% "Alt-RAB-Parameter-GuaranteedBitrateInf") (.seq (.cons (text% "altGuaranteedBitrateType") (.ref (text% "Alt-RAB-Parameter-GuaranteedBitrateType")) false (.cons (text% "altGuaranteedBitrates") (.ref (text% "Alt-RAB-Parameter-GuaranteedBitrates")) true .nil)) (some .nil)),
  .type (text% "Alt-RAB-Parameter-GuaranteedBitrateType") (.enum [text% "unspecified", text% "value-range", text% "discrete-values"] (some [])),
  .type (text% "Alt-RAB-Parameter-GuaranteedBitrates") (.seqOf (some ⟨text% "1", text% "maxNrOfAltValues", false⟩) (.ref (text% "Alt-RAB-Parameter-GuaranteedBitrateList"))),
  .type (text% "Alt-RAB-Parameter-GuaranteedBitrateList") (.seqOf (some ⟨text% "1", text% "maxNrOfSeparateTrafficDirections", false⟩) (.ref (text% "GuaranteedBitrate"))),
  .type (text% "Alt-RAB-Parameter-SupportedGuaranteedBitrateInf") (.seq (.cons (text% "altSupportedGuaranteedBitrateType") (.ref (text% "Alt-RAB-Parameter-GuaranteedBitrateType")) false (.cons (text% "altSupportedGuaranteedBitrates") (.ref (text% "Alt-RAB-Parameter-SupportedGuaranteedBitrates")) true (.cons (text% "iE-Extensions") (.ref (text% "IE-Extensions")) true .nil))) (some .nil)),
  .type (text% "Alt-RAB-Parameter-SupportedGuaranteedBitrates") (.seqOf (some ⟨text% "1", text% "maxNrOfAltValues", false⟩) (.ref (text% "SupportedRAB-ParameterBitrateList"))),
  .type (text% "Alt-RAB-Parameter-ExtendedMaxBitrateInf") (.seq (.cons (text% "altExtendedMaxBitrateType") (.ref (text% "Alt-RAB-Parameter-MaxBitrateType")) false (.cons (text% "altExtendedMaxBitrates") (.ref (text% "Alt-RAB-Parameter-ExtendedMaxBitrates")) true .nil)) (some .nil)),
  .type (text% "Alt-RAB-Parameter-ExtendedMaxBitrates") (.seqOf (some ⟨text% "1", text% "maxNrOfAltValues", false⟩) (.ref (text% "Alt-RAB-Parameter-ExtendedMaxBitrateList"))),
  .type (text% "Alt-RAB-Parameter-ExtendedMaxBitrateList") (.seqOf (some ⟨text% "1", text% "maxNrOfSeparateTrafficDirections", false⟩) (.ref (text% "ExtendedMaxBitrate"))),
  .type (text% "Alt-RAB-Parameter-MaxBitrateInf") (.seq (.cons (text% "altMaxBitrateType") (.ref (text% "Alt-RAB-Parameter-MaxBitrateType")) false (.cons (text% "altMaxBitrates") (.ref (text% "Alt-RAB-Parameter-MaxBitrates")) true .nil)) (some .nil)),
  .type (text% "Alt-RAB-Parameter-MaxBitrateType") (.enum [text% "unspecified", text% "value-range", text% "discrete-values"] (some [])),
  .type (text% "Alt-RAB-Parameter-MaxBitrates") (.seqOf (some ⟨text% "1", text% "maxNrOfAltValues", false⟩) (.ref (text% "Alt-RAB-Parameter-MaxBitrateList"))),
  .type (text% "Alt-RAB-Parameter-MaxBitrateList") (.seqOf (some ⟨text% "1", text% "maxNrOfSeparateTrafficDirections", false⟩) (.ref (text% "MaxBitrate"))),
  .type (text% "Alt-RAB-Parameter-SupportedMaxBitrateInf") (.seq (.cons (text% "altSupportedMaxBitrateType") (.ref (text% "Alt-RAB-Parameter-MaxBitrateType")) false (.cons (text% "altSupportedMaxBitrates") (.ref (text% "Alt-RAB-Parameter-SupportedMaxBitrates")) true (.cons (text% "iE-Extensions") (.ref (text% "IE-Extensions")) true .nil))) (some .nil)),
  .type (text% "Alt-RAB-Parameter-SupportedMaxBitrates") (.seqOf (some ⟨text% "1", text% "maxNrOfAltValues", false⟩) (.ref (text% "SupportedRAB-ParameterBitrateList"))),
  .type (text% "AlternativeRABConfigurationRequest") (.enum [text% "alternative-RAB-configuration-Requested"] (some [])),
  .type (text% "APN") (.octets (some ⟨text% "1", text% "255", false⟩)),
  .type (text% "AreaIdentity") (.choice (.cons (text% "sAI") (.ref (text% "SAI")) false (.cons (text% "geographicalArea") (.ref (text% "GeographicalArea")) false .nil)) (some .nil)),
  .type (text% "Ass-RAB-Parameters") (.seq (.cons (text% "assMaxBitrateInf") (.ref (text% "Ass-RAB-Parameter-MaxBitrateList")) true (.cons (text% "assGuaranteedBitRateInf") (.ref (text% "Ass-RAB-Parameter-GuaranteedBitrateList")) true (.cons (text% "iE-Extensions") (.ref (text% "IE-Extensions")) true .nil))) (some .nil)),
  .type (text% "Ass-RAB-Parameter-ExtendedGuaranteedBitrateList") (.seqOf (some ⟨text% "1", text% "maxNrOfSeparateTrafficDirections", false⟩) (.ref (text% "ExtendedGuaranteedBitrate"))),
  .type (text% "Ass-RAB-Parameter-ExtendedMaxBitrateList") (.seqOf (some ⟨text% "1", text% "maxNrOfSeparateTrafficDirections", false⟩) (.ref (text% "ExtendedMaxBitrate"))),
  .type (text% "Ass-RAB-Parameter-GuaranteedBitrateList") (.seqOf (some ⟨text% "1", text% "maxNrOfSeparateTrafficDirections", false⟩) (.ref (text% "GuaranteedBitrate"))),
  .type (text% "Ass-RAB-Parameter-MaxBitrateList") (.seqOf (some ⟨text% "1", text% "maxNrOfSeparateTrafficDirections", false⟩) (.ref (text% "MaxBitrate"))),
  .type (text% "AuthorisedPLMNs") (.seqOf (some ⟨text% "1", text% "maxNrOfPLMNsSN", false⟩) (.ref (text% "AuthorisedPLMNs-Value"))),
  .type (text% "AuthorisedPLMNs-Value") (.seq (.cons (text% "pLMNidentity") (.ref (text% "PLMNidentity")) false (.cons (text% "authorisedSNAsList") (.ref (text% "AuthorisedSNAs")) true (.cons (text% "iE-Extensions") (.ref (text% "IE-Extensions")) true .nil))) (some .nil)),
  .type (text% "AuthorisedSNAs") (.seqOf (some ⟨text% "1", text% "maxNrOfSNAs", false⟩) (.ref (text% "SNAC"))),
  .type (text% "BindingID") (.octets (some ⟨text% "4", text% "4", false⟩)),
  .type (text% "BroadcastAssistanceDataDecipheringKeys") (.seq (.cons (text% "cipheringKeyFlag") (.bits (some ⟨text% "1", text% "1", false⟩)) false (.cons (text% "currentDecipheringKey") (.bits (some ⟨text% "56", text% "56", false⟩)) false (.cons (text% "nextDecipheringKey") (.bits (some ⟨text% "56", text% "56", false⟩)) false .nil))) (some .nil)),
  .type (text% "Cause") (.choice (.cons (text% "radioNetwork") (.ref (text% "CauseRadioNetwork")) false (.cons (text% "transmissionNetwork") (.ref (text% "CauseTransmissionNetwork")) false (.cons (text% "nAS") (.ref (text% "CauseNAS")) false (.cons (text% "protocol") (.ref (text% "CauseProtocol")) false (.cons (text% "misc") (.ref (text% "CauseMisc")) false (.cons (text% "non-Standard") (.ref (text% "CauseNon-Standard")) false .nil)))))) (some (.cons (text% "radioNetworkExtension") (.ref (text% "CauseRadioNetworkExtension")) false .nil))),
  .type (text% "CauseMisc") (.int [(text% "om-intervention", text% "113"), (text% "no-resource-available", text% "114"), (text% "unspecified-failure", text% "115"), (text% "network-optimisation", text% "116")] (some ⟨text% "113", text% "128", false⟩)),
  .type (text% "CauseNAS") (.int [(text% "user-restriction-start-indication", text% "81"), (text% "user-restriction-end-indication", text% "82"), (text% "normal-release", text% "83"), (text% "csg-subscription-expiry", text% "84")] (some ⟨text% "81", text% "96", false⟩)),
  .type (text% "CauseProtocol") (.int [(text% "transfer-syntax-error", text% "97"), (text% "semantic-error", text% "98"), (text% "message-not-compatible-with-receiver-state", text% "99"), (text% "abstract-syntax-error-reject", text% "100"), (text% "abstract-syntax-error-ignore-and-notify", text% "101"), (text% "abstract-syntax-error-falsely-constructed-message", text% "102")] (some ⟨text% "97", text% "112", false⟩)),
  .type (text% "CauseRadioNetwork") (.int [(text% "rab-pre-empted", text% "1"), (text% "trelocoverall-expiry", text% "2"), (text% "trelocprep-expiry", text% "3"), (text% "treloccomplete-expiry", text% "4"), (text% "tqueing-expiry", text% "5"), (text% "relocation-triggered", text% "6"), (text% "trellocalloc-expiry", text% "7"), (text% "unable-to-establish-during-relocation", text% "8"), (text% "unknown-target-rnc", text% "9"), (text% "relocation-cancelled", text% "10"), (text% "successful-relocation", text% "11"), (text% "requested-ciphering-and-or-integrity-protection-algorithms-not-supported", text% "12"), (text% "conflict-with-already-existing-integrity-protection-and-or-ciphering-information", text% "13"), (text% "failure-in-the-radio-interface-procedure", text% "14"), (text% "release-due-to-utran-generated-reason", text% "15"), (text% "user-inactivity", text% "16"), (text% "time-critical-relocation", text% "17"), (text% "requested-traffic-class-not-available", text% "18"), (text% "invalid-rab-parameters-value", text% "19"), (text% "requested-maximum-bit-rate-not-available", text% "20"), (text% "requested-guaranteed-bit-rate-not-available", text% "21"), (text% "requested-transfer-delay-not-achievable", text% "22"), (text% "invalid-rab-parameters-combination", text% "23"), (text% "condition-violation-for-sdu-parameters", text% "24"), (text% "condition-violation-for-traffic-handling-priority", text% "25"), (text% "condition-violation-for-guaranteed-bit-rate", text% "26"), (text% "user-plane-versions-not-supported", text% "27"), (text% "iu-up-failure", text% "28"), (text% "relocation-failure-in-target-CN-RNC-or-target-system", text% "29"), (text% "invalid-RAB-ID", text% "30"), (text% "no-remaining-rab", text% "31"), (text% "interaction-with-other-procedure", text% "32"), (text% "requested-maximum-bit-rate-for-dl-not-available", text% "33"), (text% "requested-maximum-bit-rate-for-ul-not-available", text% "34"), (text% "requested-guaranteed-bit-rate-for-dl-not-available", text% "35"), (text% "requested-guaranteed-bit-rate-for-ul-not-available", text% "36"), (text% "repeated-integrity-checking-failure", text% "37"), (text% "requested-request-type-not-supported", text% "38"), (text% "request-superseded", text% "39"), (text% "release-due-to-UE-generated-signalling-connection-release", text% "40"), (text% "resource-optimisation-relocation", text% "41"), (text% "requested-information-not-available", text% "42"), (text% "relocation-desirable-for-radio-reasons", text% "43"), (text% "relocation-not-supported-in-target-RNC-or-target-system", text% "44"), (text% "directed-retry", text% "45"), (text% "radio-connection-with-UE-Lost", text% "46"), (text% "rNC-unable-to-establish-all-RFCs", text% "47"), (text% "deciphering-keys-not-available", text% "48"), (text% "dedicated-assistance-data-not-available", text% "49"), (text% "relocation-target-not-allowed", text% "50"), (text% "location-reporting-congestion", text% "51"), (text% "reduce-load-in-serving-cell", text% "52"), (text% "no-radio-resources-available-in-target-cell", text% "53"), (text% "gERAN-Iumode-failure", text% "54"), (text% "access-restricted-due-to-shared-networks", text% "55"), (text% "incoming-relocation-not-supported-due-to-PUESBINE-feature", text% "56"), (text% "traffic-load-in-the-target-cell-higher-than-in-the-source-cell", text% "57"), (text% "mBMS-no-multicast-service-for-this-UE", text% "58"), (text% "mBMS-unknown-UE-ID", text% "59"), (text% "successful-MBMS-session-start-no-data-bearer-necessary", text% "60"), (text% "mBMS-superseded-due-to-NNSF", text% "61"), (text% "mBMS-UE-linking-already-done", text% "62"), (text% "mBMS-UE-de-linking-failure-no-existing-UE-linking", text% "63"), (text% "tMGI-unknown", text% "64")] (some ⟨text% "1", text% "64", false⟩)),
  .type (text% "CauseRadioNetworkExtension") (.int [(text% "iP-multicast-address-and-APN-not-valid", text% "257"), (text% "mBMS-de-registration-rejected-due-to-implicit-registration", text% "258"), (text% "mBMS-request-superseded", text% "259"), (text% "mBMS-de-registration-during-session-not-allowed", text% "260"), (text% "mBMS-no-data-bearer-necessary", text% "261"), (text% "periodicLocationInformationNotAvailable", text% "262"), (text% "gTP-Resources-Unavailable", text% "263"), (text% "tMGI-inUse-overlapping-MBMS-service-area", text% "264"), (text% "mBMS-no-cell-in-MBMS-service-area", text% "265"), (text% "no-Iu-CS-UP-relocation", text% "266"), (text% "successful-MBMS-Session-Start-IP-Multicast-Bearer-established", text% "267"), (text% "cS-fallback-triggered", text% "268"), (text% "invalid-CSG-Id", text% "269")] (some ⟨text% "257", text% "512", false⟩)),
  .type (text% "CauseNon-Standard") (.int [] (some ⟨text% "129", text% "256", false⟩)),
  .type (text% "CauseTransmissionNetwork") (.int [(text% "signalling-transport-resource-failure", text% "65"), (text% "iu-transport-connection-failed-to-establish", text% "66")] (some ⟨text% "65", text% "80", false⟩)),
  .type (text% "Cell-Access-Mode") (.enum [text% "hybrid"] (some [])),
  .type (text% "CellBased") (.seq (.cons (text% "cellIdList") (.ref (text% "CellIdList")) false (.cons (text% "iE-Extensions") (.ref (text% "IE-Extensions")) true .nil)) (some .nil)),
  .type (text% "CellIdList") (.seqOf (some ⟨text% "1", text% "maxNrOfCellIds", false⟩) (.ref (text% "Cell-Id"))),
  .type (text% "Cell-Id") (.int [] (some ⟨text% "0", text% "268435455", false⟩)),
  .type (text% "Cell-Capacity-Class-Value") (.int [] (some ⟨text% "1", text% "100", true⟩)),
  .type (text% "CellLoadInformation") (.seq (.cons (text% "cell-Capacity-Class-Value") (.ref (text% "Cell-Capacity-Class-Value")) false (.cons (text% "loadValue") (.ref (text% "LoadValue")) false (.cons (text% "rTLoadValue") (.ref (text% "RTLoadValue")) true (.cons (text% "nRTLoadInformationValue") (.ref (text% "NRTLoadInformationValue")) true (.cons (text% "iE-Extensions") (.ref (text% "IE-Extensions")) true .nil))))) (some .nil)),
  .type (text% "CellLoadInformationGroup") (.seq (.cons (text% "sourceCellID") (.ref (text% "SourceCellID")) false (.cons (text% "uplinkCellLoadInformation") (.ref (text% "CellLoadInformation")) true (.cons (text% "downlinkCellLoadInformation") (.ref (text% "CellLoadInformation")) true (.cons (text% "iE-Extensions") (.ref (text% "IE-Extensions")) true .nil)))) (some .nil)),
  .type (text% "CellType") (.enum [text% "macro", text% "micro", text% "pico", text% "femto"] (some [])),
  .type (text% "ClientType") (.enum [text% "emergency-Services", text% "value-Added-Services", text% "pLMN-Operator-Services", text% "lawful-Intercept-Services", text% "pLMN-Operator-Broadcast-Services", text% "pLMN-Operator-O-et-M", text% "pLMN-Operator-Anonymous-Statistics", text% "pLMN-Operator-Target-MS-Service-Support"] (some [])),
  .type (text% "CriticalityDiagnostics") (.seq (.cons (text% "procedureCode") (.ref (text% "ProcedureCode")) true (.cons (text% "triggeringMessage") (.ref (text% "TriggeringMessage")) true (.cons (text% "procedureCriticality") (.ref (text% "Criticality")) true (.cons (text% "iEsCriticalityDiagnostics") (.ref (text% "CriticalityDiagnostics-IE-List")) true (.cons (text% "iE-Extensions") (.ref (text% "IE-Extensions")) true .nil))))) (some .nil)),
  .type (text% "CriticalityDiagnostics-IE-List") (.seqOf (some ⟨text% "1", text% "maxNrOfErrors", false⟩) (.ref (text% "CriticalityDiagnostics-IE-List-Value"))),
  .type (text% "CriticalityDiagnostics-IE-List-Value") (.seq (.cons (text% "iECriticality") (.ref (text% "Criticality")) false (.cons (text% "iE-ID") (.ref (text% "ProtocolIE-ID")) false (.cons (text% "repetitionNumber") (.ref (text% "RepetitionNumber0")) true (.cons (text% "iE-Extensions") (.ref (text% "IE-Extensions")) true .nil)))) (some .nil)),
  .type (text% "MessageStructure") (.seqOf (some ⟨text% "1", text% "maxNrOfLevels", false⟩) (.ref (text% "MessageStructure-Value"))),
  .type (text% "MessageStructure-Value") (.seq (.cons (text% "iE-ID") (.ref (text% "ProtocolIE-ID")) false (.cons (text% "repetitionNumber") (.ref (text% "RepetitionNumber1")) true (.cons (text% "iE-Extensions") (.ref (text% "IE-Extensions")) true .nil))) (some .nil)),
  .type (text% "CGI") (.seq (.cons (text% "pLMNidentity") (.ref (text% "PLMNidentity")) false (.cons (text% "lAC") (.ref (text% "LAC")) false (.cons (text% "cI") (.ref (text% "CI")) false (.cons (text% "iE-Extensions") (.ref (text% "IE-Extensions")) true .nil)))) none),
  .type (text% "ChosenEncryptionAlgorithm") (.ref (text% "EncryptionAlgorithm")),
  .type (text% "ChosenIntegrityProtectionAlgorithm") (.ref (text% "IntegrityProtectionAlgorithm")),
  .type (text% "CI") (.octets (some ⟨text% "2", text% "2", false⟩)),
  .type (text% "ClassmarkInformation2") (.octets none),
  .type (text% "ClassmarkInformation3") (.octets none),
  .type (text% "CN-DomainIndicator") (.enum [text% "cs-domain", text% "ps-domain"] none),
  .type (text% "CN-ID") (.int [] (some ⟨text% "0", text% "4095", false⟩)),
  .type (text% "Correlation-ID") (.octets (some ⟨text% "4", text% "4", false⟩)),
  .type (text% "CSFB-Information") (.enum [text% "csfb", text% "csfb-high-priority"] (some [])),
  .type (text% "CSG-Id") (.bits (some ⟨text% "27", text% "27", false⟩)),
  .type (text% "CSG-Id-List") (.seqOf (some ⟨text% "1", text% "maxNrOfCSGs", false⟩) (.ref (text% "CSG-Id"))),
  .type (text% "CSG-Membership-Status") (.enum [text% "member", text% "non-member"] (some [])),
  .type (text% "DataPDUType") (.enum [text% "pDUtype0", text% "pDUtype1"] (some [])),
  .type (text% "DataVolumeReference") (.int [] (some ⟨text% "0", text% "255", false⟩)),
  .type (text% "DataVolumeReportingIndication") (.enum [text% "do-report", text% "do-not-report"] none),
  .type (text% "DCH-ID") (.int [] (some ⟨text% "0", text% "255", false⟩)),
  .type (text% "DeliveryOfErroneousSDU") (.enum [text% "yes", text% "no", text% "no-error-detection-consideration"] none),
  .type (text% "DeliveryOrder") (.enum [text% "delivery-order-requested", text% "delivery-order-not-requested"] none),
  .type (text% "DeltaRAListofIdleModeUEs") (.seq (.cons (text% "newRAListofIdleModeUEs") (.ref (text% "NewRAListofIdleModeUEs")) true (.cons (text% "rAListwithNoIdleModeUEsAnyMore") (.ref (text% "RAListwithNoIdleModeUEsAnyMore")) true (.cons (text% "iE-Extensions") (.ref (text% "IE-Extensions")) true .nil))) none),
  .type (text% "NewRAListofIdleModeUEs") (.seqOf (some ⟨text% "1", text% "maxMBMSRA", false⟩) (.ref (text% "RAC"))),
  .type (text% "RAListwithNoIdleModeUEsAnyMore") (.seqOf (some ⟨text% "1", text% "maxMBMSRA", false⟩) (.ref (text% "RAC"))),
  .type (text% "ForwardingIndication") (.enum [text% "forwarding-admitted"] (some [])),
  .type (text% "DL-GTP-PDU-SequenceNumber") (.int [] (some ⟨text% "0", text% "65535", false⟩)),
  .type (text% "DL-N-PDU-SequenceNumber") (.int [] (some ⟨text% "0", text% "65535", false⟩)),
  .type (text% "D-RNTI") (.int [] (some ⟨text% "0", text% "1048575", false⟩)),
  .type (text% "DRX-CycleLengthCoefficient") (.int [] (some ⟨text% "6", text% "9", false⟩)),
  .type (text% "DSCH-ID") (.int [] (some ⟨text% "0", text% "255", false⟩)),
  .type (text% "EARFCN-Extended") (.int [] (some ⟨text% "65536", text% "262143", true⟩)),
  .type (text% "E-DCH-MAC-d-Flow-ID") (.int [] (some ⟨text% "0", text% "maxNrOfEDCHMACdFlows-1", false⟩)),
  .type (text% "ENB-ID") (.choice (.cons (text% "macroENB-ID") (.bits (some ⟨text% "20", text% "20", false⟩)) false (.cons (text% "homeENB-ID") (.bits (some ⟨text% "28", text% "28", false⟩)) false .nil)) (some .nil)),
  .type (text% "EncryptionAlgorithm") (.int [(text% "no-encryption", text% "0"), (text% "standard-UMTS-encryption-algorith-UEA1", text% "1"), (text% "standard-UMTS-encryption-algorithm-UEA2", text% "2")] (some ⟨text% "0", text% "15", false⟩)),
  .type (text% "EncryptionInformation") (.seq (.cons (text% "permittedAlgorithms") (.ref (text% "PermittedEncryptionAlgorithms")) false (.cons (text% "key") (.ref (text% "EncryptionKey")) false (.cons (text% "iE-Extensions") (.ref (text% "IE-Extensions")) true .nil))) none),
  .type (text% "EncryptionKey") (.bits (some ⟨text% "128", text% "128", false⟩)),
  .type (text% "End-Of-CSFB") (.enum [text% "end-of-CSFB"] (some [])),
  .type (text% "EquipmentsToBeTraced") (.choice (.cons (text% "iMEIlist") (.ref (text% "IMEIList")) false (.cons (text% "iMEISVlist") (.ref (text% "IMEISVList")) false (.cons (text% "iMEIgroup") (.ref (text% "IMEIGroup")) false (.cons (text% "iMEISVgroup") (.ref (text% "IMEISVGroup")) false .nil)))) (some .nil)),
  .type (text% "E-UTRAN-Service-Handover") (.enum [text% "handover-to-E-UTRAN-shall-not-be-performed"] (some [])),
  .type (text% "Event") (.enum [text% "stop-change-of-service-area", text% "direct", text% "change-of-servicearea"] (some [text% "stop-direct", text% "periodic", text% "stop-periodic"])),
  .type (text% "Event1F-Parameters") (.seq (.cons (text% "measurementQuantity") (.ref (text% "MeasurementQuantity")) false (.cons (text% "threshold") (.int [] (some ⟨text% "-120", text% "165", false⟩)) false .nil)) (some .nil)),
  .type (text% "Event1I-Parameters") (.seq (.cons (text% "threshold") (.int [] (some ⟨text% "-120", text% "-25", false⟩)) false .nil) (some .nil)),
  .type (text% "ExtendedGuaranteedBitrate") (.int [] (some ⟨text% "16000001", text% "256000000", false⟩)),
  .type (text% "ExtendedMaxBitrate") (.int [] (some ⟨text% "16000001", text% "256000000", false⟩)),
  .type (text% "ExtendedRNC-ID") (.int [] (some ⟨text% "4096", text% "65535", false⟩)),
  .type (text% "FrameSequenceNumber") (.int [] (some ⟨text% "0", text% "15", false⟩)),
  .type (text% "FrequenceLayerConvergenceFlag") (.enum [text% "no-FLC-flag"] (some [])),
  .type (text% "GANSS-PositioningDataSet") (.seqOf (some ⟨text% "1", text% "maxGANSSSet", false⟩) (.ref (text% "GANSS-PositioningMethodAndUsage"))),
  .type (text% "GANSS-PositioningMethodAndUsage") (.octets (some ⟨text% "1", text% "1", false⟩)),
  .type (text% "GeographicalArea") (.choice (.cons (text% "point") (.ref (text% "GA-Point")) false (.cons (text% "pointWithUnCertainty") (.ref (text% "GA-PointWithUnCertainty")) false (.cons (text% "polygon") (.ref (text% "GA-Polygon")) false .nil))) (some (.cons (text% "pointWithUncertaintyEllipse") (.ref (text% "GA-PointWithUnCertaintyEllipse")) false (.cons (text% "pointWithAltitude") (.ref (text% "GA-PointWithAltitude")) false (.cons (text% "pointWithAltitudeAndUncertaintyEllipsoid") (.ref (text% "GA-PointWithAltitudeAndUncertaintyEllipsoid")) false (.cons (text% "ellipsoidArc") (.ref (text% "GA-EllipsoidArc")) false .nil)))))),
  .type (text% "GeographicalCoordinates") (.seq (.cons (text% "latitudeSign") (.enum [text% "north", text% "south"] none) false (.cons (text% "latitude") (.int [] (some ⟨text% "0", text% "8388607", false⟩)) false (.cons (text% "longitude") (.int [] (some ⟨text% "-8388608", text% "8388607", false⟩)) false (.cons (text% "iE-Extensions") (.ref (text% "IE-Extensions")) true .nil)))) (some .nil)),
  .type (text% "GA-AltitudeAndDirection") (.seq (.cons (text% "directionOfAltitude") (.enum [text% "height", text% "depth"] none) false (.cons (text% "altitude") (.int [] (some ⟨text% "0", text% "32767", false⟩)) false .nil)) (some .nil)),
  .type (text% "GA-EllipsoidArc") (.seq (.cons (text% "geographicalCoordinates") (.ref (text% "GeographicalCoordinates")) false (.cons (text% "innerRadius") (.int [] (some ⟨text% "0", text% "65535", false⟩)) false (.cons (text% "uncertaintyRadius") (.int [] (some ⟨text% "0", text% "127", false⟩)) false (.cons (text% "offsetAngle") (.int [] (some ⟨text% "0", text% "179", false⟩)) false (.cons (text% "includedAngle") (.int [] (some ⟨text% "0", text% "179", false⟩)) false (.cons (text% "confidence") (.int [] (some ⟨text% "0", text% "127", false⟩)) false (.cons (text% "iE-Extensions") (.ref (text% "IE-Extensions")) true .nil))))))) (some .nil)),
  .type (text% "GA-Point") (.seq (.cons (text% "geographicalCoordinates") (.ref (text% "GeographicalCoordinates")) false (.cons (text% "iE-Extensions") (.ref (text% "IE-Extensions")) true .nil)) (some .nil)),
  .type (text% "GA-PointWithAltitude") (.seq (.cons (text% "geographicalCoordinates") (.ref (text% "GeographicalCoordinates")) false (.cons (text% "altitudeAndDirection") (.ref (text% "GA-AltitudeAndDirection")) false (.cons (text% "iE-Extensions") (.ref (text% "IE-Extensions")) true .nil))) (some .nil)),
  .type (text% "GA-PointWithAltitudeAndUncertaintyEllipsoid") (.seq (.cons (text% "geographicalCoordinates") (.ref (text% "GeographicalCoordinates")) false (.cons (text% "altitudeAndDirection") (.ref (text% "GA-AltitudeAndDirection")) false (.cons (text% "uncertaintyEllipse") (.ref (text% "GA-UncertaintyEllipse")) false (.cons (text% "uncertaintyAltitude") (.int [] (some ⟨text% "0", text% "127", false⟩)) false (.cons (text% "confidence") (.int [] (some ⟨text% "0", text% "127", false⟩)) false (.cons (text% "iE-Extensions") (.ref (text% "IE-Extensions")) true .nil)))))) (some .nil)),
  .type (text% "GA-PointWithUnCertainty") (.seq (.cons (text% "geographicalCoordinates") (.ref (text% "GeographicalCoordinates")) false (.cons (text% "iE-Extensions") (.ref (text% "IE-Extensions")) true (.cons (text% "uncertaintyCode") (.int [] (some ⟨text% "0", text% "127", false⟩)) false .nil))) none),
  .type (text% "GA-PointWithUnCertaintyEllipse") (.seq (.cons (text% "geographicalCoordinates") (.ref (text% "GeographicalCoordinates")) false (.cons (text% "uncertaintyEllipse") (.ref (text% "GA-UncertaintyEllipse")) false (.cons (text% "confidence") (.int [] (some ⟨text% "0", text% "127", false⟩)) false (.cons (text% "iE-Extensions") (.ref (text% "IE-Extensions")) true .nil)))) (some .nil)),
  .type (text% "GA-Polygon") (.seqOf (some ⟨text% "1", text% "maxNrOfPoints", false⟩) (.ref (text% "GA-Polygon-Value"))),
  .type (text% "GA-Polygon-Value") (.seq (.cons (text% "geographicalCoordinates") (.ref (text% "GeographicalCoordinates")) false (.cons (text% "iE-Extensions") (.ref (text% "IE-Extensions")) true .nil)) (some .nil)),
  .type (text% "GA-UncertaintyEllipse") (.seq (.cons (text% "uncertaintySemi-major") (.int [] (some ⟨text% "0", text% "127", false⟩)) false (.cons (text% "uncertaintySemi-minor") (.int [] (some ⟨text% "0", text% "127", false⟩)) false (.cons (text% "orientationOfMajorAxis") (.int [] (some ⟨text% "0", text% "179", false⟩)) false .nil))) (some .nil)),
  .type (text% "GERAN-BSC-Container") (.octets none),
  .type (text% "GERAN-Cell-ID") (.seq (.cons (text% "lAI") (.ref (text% "LAI")) false (.cons (text% "rAC") (.ref (text% "RAC")) false (.cons (text% "cI") (.ref (text% "CI")) false (.cons (text% "iE-Extensions") (.ref (text% "IE-Extensions")) true .nil)))) none),
  .type (text% "GERAN-Classmark") (.octets none),
  .type (text% "GlobalCN-ID") (.seq (.cons (text% "pLMNidentity") (.ref (text% "PLMNidentity")) false (.cons (text% "cN-ID") (.ref (text% "CN-ID")) false .nil)) none),
  .type (text% "GlobalRNC-ID") (.seq (.cons (text% "pLMNidentity") (.ref (text% "PLMNidentity")) false (.cons (text% "rNC-ID") (.ref (text% "RNC-ID")) false .nil)) none),
  .type (text% "GTP-TEI") (.octets (some ⟨text% "4", text% "4", false⟩)),
  .type (text% "GuaranteedBitrate") (.int [] (some ⟨text% "0", text% "16000000", false⟩)),
  .type (text% "HigherBitratesThan16MbpsFlag") (.enum [text% "allowed", text% "not-allowed"] (some [])),
  .type (text% "HS-DSCH-MAC-d-Flow-ID") (.int [] (some ⟨text% "0", text% "maxNrOfHSDSCHMACdFlows-1", false⟩)),
  .type (text% "IMEI") (.octets (some ⟨text% "8", text% "8", false⟩)),
  .type (text% "IMEIGroup") (.seq (.cons (text% "iMEI") (.ref (text% "IMEI")) false (.cons (text% "iMEIMask") (.bits (some ⟨text% "7", text% "7", false⟩)) false (.cons (text% "iE-Extensions") (.ref (text% "IE-Extensions")) true .nil))) none),
  .type (text% "IMEIList") (.seqOf (some ⟨text% "1", text% "maxNrOfUEsToBeTraced", false⟩) (.ref (text% "IMEI"))),
  .type (text% "IMEISV") (.octets (some ⟨text% "8", text% "8", false⟩)),
  .type (text% "IMEISVGroup") (.seq (.cons (text% "iMEISV") (.ref (text% "IMEISV")) false (.cons (text% "iMEISVMask") (.bits (some ⟨text% "7", text% "7", false⟩)) false (.cons (text% "iE-Extensions") (.ref (text% "IE-Extensions")) true .nil))) none),
  .type (text% "IMEISVList") (.seqOf (some ⟨text% "1", text% "maxNrOfUEsToBeTraced", false⟩) (.ref (text% "IMEISV"))),
  .type (text% "ImmediateMDT") (.seq (.cons (text% "measurementsToActivate") (.ref (text% "MeasurementsToActivate")) false (.cons (text% "m1report") (.ref (text% "M1Report")) true (.cons (text% "m2report") (.ref (text% "M2Report")) true .nil))) (some (.cons (text% "iE-Extensions") (.ref (text% "IE-Extensions")) true .nil))),
  .type (text% "IMSI") (.octets (some ⟨text% "3", text% "8", false⟩)),
  .type (text% "IncludeVelocity") (.enum [text% "requested"] none),
  .type (text% "InformationExchangeID") (.int [] (some ⟨text% "0", text% "1048575", false⟩)),
  .type (text% "InformationExchangeType") (.enum [text% "transfer", text% "request"] (some [])),
  .type (text% "InformationRequested") (.choice (.cons (text% "requestedMBMSIPMulticastAddressandAPNRequest") (.ref (text% "RequestedMBMSIPMulticastAddressandAPNRequest")) false (.cons (text% "requestedMulticastServiceList") (.ref (text% "RequestedMulticastServiceList")) false .nil)) (some .nil)),
  .type (text% "InformationRequestType") (.choice (.cons (text% "mBMSIPMulticastAddressandAPNRequest") (.ref (text% "MBMSIPMulticastAddressandAPNRequest")) false (.cons (text% "permanentNAS-UE-ID") (.ref (text% "PermanentNAS-UE-ID")) false .nil)) (some .nil)),
  .type (text% "InformationTransferID") (.int [] (some ⟨text% "0", text% "1048575", false⟩)),
  .type (text% "InformationTransferType") (.choice (.cons (text% "rNCTraceInformation") (.ref (text% "RNCTraceInformation")) false .nil) (some .nil)),
  .type (text% "IntegrityProtectionAlgorithm") (.int [(text% "standard-UMTS-integrity-algorithm-UIA1", text% "0"), (text% "standard-UMTS-integrity-algorithm-UIA2", text% "1"), (text% "no-value", text% "15")] (some ⟨text% "0", text% "15", false⟩)),
  .type (text% "IntegrityProtectionInformation") (.seq (.cons (text% "permittedAlgorithms") (.ref (text% "PermittedIntegrityProtectionAlgorithms")) false (.cons (text% "key") (.ref (text% "IntegrityProtectionKey")) false (.cons (text% "iE-Extensions") (.ref (text% "IE-Extensions")) true .nil))) none),
  .type (text% "IntegrityProtectionKey") (.bits (some ⟨text% "128", text% "128", false⟩)),
  .type (text% "InterSystemInformationTransferType") (.choice (.cons (text% "rIM-Transfer") (.ref (text% "RIM-Transfer")) false .nil) (some .nil)),
  .type (text% "InterSystemInformation-TransparentContainer") (.seq (.cons (text% "downlinkCellLoadInformation") (.ref (text% "CellLoadInformation")) true (.cons (text% "uplinkCellLoadInformation") (.ref (text% "CellLoadInformation")) true (.cons (text% "iE-Extensions") (.ref (text% "IE-Extensions")) true .nil))) (some .nil)),
  .type (text% "IPMulticastAddress") (.octets (some ⟨text% "4", text% "16", false⟩)),
  .type (text% "IuSignallingConnectionIdentifier") (.bits (some ⟨text% "24", text% "24", false⟩)),
  .type (text% "IuTransportAssociation") (.choice (.cons (text% "gTP-TEI") (.ref (text% "GTP-TEI")) false (.cons (text% "bindingID") (.ref (text% "BindingID")) false .nil)) (some .nil)),
  .type (text% "KeyStatus") (.enum [text% "old", text% "new"] (some [])),
  .type (text% "LA-LIST") (.seqOf (some ⟨text% "1", text% "maxNrOfLAs", false⟩) (.ref (text% "LA-LIST-Value"))),
  .type (text% "LA-LIST-Value") (.seq (.cons (text% "lAC") (.ref (text% "LAC")) false (.cons (text% "listOF-SNAs") (.ref (text% "ListOF-SNAs")) false (.cons (text% "iE-Extensions") (.ref (text% "IE-Extensions")) true .nil))) (some .nil)),
  .type (text% "LAC") (.octets (some ⟨text% "2", text% "2", false⟩)),
  .type (text% "LAI") (.seq (.cons (text% "pLMNidentity") (.ref (text% "PLMNidentity")) false (.cons (text% "lAC") (.ref (text% "LAC")) false (.cons (text% "iE-Extensions") (.ref (text% "IE-Extensions")) true .nil))) none),
  .type (text% "LastKnownServiceArea") (.seq (.cons (text% "sAI") (.ref (text% "SAI")) false (.cons (text% "ageOfSAI") (.int [] (some ⟨text% "0", text% "32767", false⟩)) false (.cons (text% "iE-Extensions") (.ref (text% "IE-Extensions")) true .nil))) (some .nil)),
  .type (text% "LastVisitedUTRANCell-Item") (.seq (.cons (text% "uTRAN-CellID") (.ref (text% "UTRAN-CellID")) false (.cons (text% "cellType") (.ref (text% "CellType")) false (.cons (text% "time-UE-StayedInCell") (.ref (text% "Time-UE-StayedInCell")) false (.cons (text% "iE-Extensions") (.ref (text% "IE-Extensions")) true .nil)))) (some .nil)),
  .type (text% "LHN-ID") (.octets (some ⟨text% "32", text% "256", false⟩)),
  .type (text% "Links-to-log") (.enum [text% "uplink", text% "downlink", text% "both-uplink-and-downlink"] (some [])),
  .type (text% "ListOF-SNAs") (.seqOf (some ⟨text% "1", text% "maxNrOfSNAs", false⟩) (.ref (text% "SNAC"))),
  .type (text% "ListOfInterfacesToTrace") (.seqOf (some ⟨text% "1", text% "maxNrOfInterfaces", false⟩) (.ref (text% "InterfacesToTraceItem"))),
  .type (text% "InterfacesToTraceItem") (.seq (.cons (text% "interface") (.enum [text% "iu-cs", text% "iu-ps", text% "iur", text% "iub", text% "uu"] (some [])) false (.cons (text% "iE-Extensions") (.ref (text% "IE-Extensions")) true .nil)) (some .nil)),
  .type (text% "LoadValue") (.int [] (some ⟨text% "0", text% "100", false⟩)),
  .type (text% "LocationRelatedDataRequestType") (.seq (.cons (text% "requestedLocationRelatedDataType") (.ref (text% "RequestedLocationRelatedDataType")) false (.cons (text% "requestedGPSAssistanceData") (.ref (text% "RequestedGPSAssistanceData")) true .nil)) (some .nil)),
  .type (text% "LocationRelatedDataRequestTypeSpecificToGERANIuMode") (.enum [text% "decipheringKeysEOTD", text% "dedicatedMobileAssistedEOTDAssistanceData", text% "dedicatedMobileBasedEOTDAssistanceData"] (some [])),
  .type (text% "LocationReportingTransferInformation") (.seq (.cons (text% "reportChangeOfSAI") (.ref (text% "ReportChangeOfSAI")) true (.cons (text% "periodicReportingIndicator") (.ref (text% "PeriodicReportingIndicator")) true (.cons (text% "directReportingIndicator") (.ref (text% "DirectReportingIndicator")) true (.cons (text% "verticalAccuracyCode") (.ref (text% "VerticalAccuracyCode")) true (.cons (text% "positioningPriorityChangeSAI") (.ref (text% "PositioningPriority")) true (.cons (text% "positioningPriorityDirect") (.ref (text% "PositioningPriority")) true (.cons (text% "clientTypePeriodic") (.ref (text% "ClientType")) true (.cons (text% "clientTypeDirect") (.ref (text% "ClientType")) true (.cons (text% "responseTime") (.ref (text% "ResponseTime")) true (.cons (text% "includeVelocity") (.ref (text% "IncludeVelocity")) true (.cons (text% "periodicLocationInfo") (.ref (text% "PeriodicLocationInfo")) true (.cons (text% "iE-Extensions") (.ref (text% "IE-Extensions")) true .nil)))))))))))) (some .nil)),
  .type (text% "ReportChangeOfSAI") (.enum [text% "requested"] (some [])),
  .type (text% "PeriodicReportingIndicator") (.enum [text% "periodicSAI", text% "periodicGeo"] (some [])),
  .type (text% "DirectReportingIndicator") (.enum [text% "directSAI", text% "directGeo"] (some [])),
  .type (text% "L3-Information") (.octets none),
  .type (text% "M1Report") (.choice (.cons (text% "periodic") (.ref (text% "MDT-Report-Parameters")) false (.cons (text% "event1F") (.ref (text% "Event1F-Parameters")) false .nil)) (some .nil)),
  .type (text% "M2Report") (.choice (.cons (text% "periodic") (.ref (text% "MDT-Report-Parameters")) false (.cons (text% "event1I") (.ref (text% "Event1I-Parameters")) false .nil)) (some .nil)),
  .type (text% "M4Report") (.choice (.cons (text% "all") .null false (.cons (text% "m4-collection-parameters") (.ref (text% "M4-Collection-Parameters")) false .nil)) (some .nil)),
  .type (text% "M4-Collection-Parameters") (.seq (.cons (text% "m4-period") (.ref (text% "M4-Period")) false (.cons (text% "m4-threshold") (.ref (text% "M4-Threshold")) true (.cons (text% "iE-Extensions") (.ref (text% "IE-Extensions")) true .nil))) (some .nil)),
  .type (text% "M4-Period") (.enum [text% "ms100", text% "ms250", text% "ms500", text% "ms1000", text% "ms2000", text% "ms3000", text% "ms4000", text% "ms6000"] (some [])),
  .type (text% "M4-Threshold") (.int [] (some ⟨text% "0", text% "31", false⟩)),
  .type (text% "M5Report") (.choice (.cons (text% "when-available") .null false (.cons (text% "m5-period") (.ref (text% "M5-Period")) false .nil)) (some .nil)),
  .type (text% "M5-Period") (.enum [text% "ms100", text% "ms250", text% "ms500", text% "ms1000", text% "ms2000", text% "ms3000", text% "ms4000", text% "ms6000"] (some [])),
  .type (text% "M6Report") (.seq (.cons (text% "m6-period") (.ref (text% "M6-Period")) false (.cons (text% "m6-links-to-log") (.ref (text% "Links-to-log")) false (.cons (text% "iE-Extensions") (.ref (text% "IE-Extensions")) true .nil))) (some .nil)),
  .type (text% "M6-Period") (.enum [text% "ms1000", text% "ms2000", text% "ms3000", text% "ms4000", text% "ms6000", text% "ms8000", text% "ms12000", text% "ms16000", text% "ms20000", text% "ms24000", text% "ms28000", text% "ms32000", text% "ms64000"] (some [])),
  .type (text% "M7Report") (.seq (.cons (text% "m7-period") (.ref (text% "M7-Period")) false (.cons (text% "m7-links-to-log") (.ref (text% "Links-to-log")) false (.cons (text% "iE-Extensions") (.ref (text% "IE-Extensions")) true .nil))) (some .nil)),
  .type (text% "M7-Period") (.enum [text% "ms1000", text% "ms2000", text% "ms3000", text% "ms4000", text% "ms6000", text% "ms8000", text% "ms12000", text% "ms16000", text% "ms20000", text% "ms24000", text% "ms28000", text% "ms32000", text% "ms64000"] (some [])),
  .type (text% "Management-Based-MDT-Allowed") (.enum [text% "allowed"] (some [])),
  .type (text% "MaxBitrate") (.int [] (some ⟨text% "1", text% "16000000", false⟩)),
  .type (text% "MaxSDU-Size") (.int [] (some ⟨text% "0", text% "32768", false⟩)),
  .type (text% "MBMS-PTP-RAB-ID") (.bits (some ⟨text% "8", text% "8", false⟩)),
  .type (text% "MBMSBearerServiceType") (.enum [text% "multicast", text% "broadcast"] (some [])),
  .type (text% "MBMSCNDe-Registration") (.enum [text% "normalsessionstop", text% "deregister"] (some [])),
  .type (text% "MBMSCountingInformation") (.enum [text% "counting", text% "notcounting"] (some [])),
  .type (text% "MBMSHCIndicator") (.enum [text% "uncompressed-header", text% "compressed-header"] (some [])),
  .type (text% "MBMSIPMulticastAddressandAPNRequest") (.seqOf (some ⟨text% "1", text% "maxnoofMulticastServicesPerRNC", false⟩) (.ref (text% "TMGI"))),
  .type (text% "MBMSLinkingInformation") (.enum [text% "uE-has-joined-multicast-services"] (some [])),
  .type (text% "MBMSRegistrationRequestType") (.enum [text% "register", text% "deregister"] (some [])),
  .type (text% "MBMSServiceArea") (.octets none),
  .type (text% "MBMSSessionDuration") (.octets (some ⟨text% "3", text% "3", false⟩)),
  .type (text% "MBMSSessionIdentity") (.octets (some ⟨text% "1", text% "1", false⟩)),
  .type (text% "MBMSSessionRepetitionNumber") (.octets (some ⟨text% "1", text% "1", false⟩)),
  .type (text% "MDT-Activation") (.enum [text% "immediateMDTonly", text% "loggedMDTonly", text% "immediateMDTandTrace"] (some [])),
  .type (text% "MDTAreaScope") (.choice (.cons (text% "cellbased") (.ref (text% "CellBased")) false (.cons (text% "labased") (.ref (text% "LABased")) false (.cons (text% "rabased") (.ref (text% "RABased")) false (.cons (text% "plmn-area-based") .null false .nil)))) (some .nil)),
  .type (text% "MDT-Configuration") (.seq (.cons (text% "mdtActivation") (.ref (text% "MDT-Activation")) false (.cons (text% "mdtAreaScope") (.ref (text% "MDTAreaScope")) false (.cons (text% "mdtMode") (.ref (text% "MDTMode")) false (.cons (text% "iE-Extensions") (.ref (text% "IE-Extensions")) true .nil)))) (some .nil)),
  .type (text% "MDTMode") (.choice (.cons (text% "immediateMDT") (.ref (text% "ImmediateMDT")) false (.cons (text% "loggedMDT") (.ref (text% "LoggedMDT")) false .nil)) (some .nil)),
  .type (text% "MDT-PLMN-List") (.seqOf (some ⟨text% "1", text% "maxnoofMDTPLMNs", false⟩) (.ref (text% "PLMNidentity"))),
  .type (text% "MDT-Report-Parameters") (.seq (.cons (text% "reportInterval") (.ref (text% "ReportInterval")) false (.cons (text% "reportAmount") (.ref (text% "ReportAmount")) false .nil)) (some .nil)),
  .type (text% "MeasurementQuantity") (.enum [text% "cpichEcNo", text% "cpichRSCP", text% "pathloss"] (some [])),
  .type (text% "MeasurementsToActivate") (.bits (some ⟨text% "8", text% "8", false⟩)),
  .type (text% "MSISDN") (.octets (some ⟨text% "1", text% "9", false⟩)),
  .type (text% "NAS-PDU") (.octets none),
  .type (text% "NAS-SequenceNumber") (.bits (some ⟨text% "2", text% "2", false⟩)),
  .type (text% "NAS-SynchronisationIndicator") (.bits (some ⟨text% "4", text% "4", false⟩)),
  .type (text% "NewBSS-To-OldBSS-Information") (.octets none),
  .type (text% "NonSearchingIndication") (.enum [text% "non-searching", text% "searching"] none),
  .type (text% "NRTLoadInformationValue") (.int [] (some ⟨text% "0", text% "3", false⟩)),
  .type (text% "NumberOfIuInstances") (.int [] (some ⟨text% "1", text% "2", false⟩)),
  .type (text% "NumberOfSteps") (.int [] (some ⟨text% "1", text% "16", false⟩)),
  .type (text% "Offload-RAB-Parameters") (.seq (.cons (text% "accessPointName") (.ref (text% "Offload-RAB-Parameters-APN")) false (.cons (text% "chargingCharacteristics") (.ref (text% "Offload-RAB-Parameters-ChargingCharacteristics")) false (.cons (text% "iE-Extensions") (.ref (text% "IE-Extensions")) true .nil))) (some .nil)),
  .type (text% "Offload-RAB-Parameters-APN") (.octets (some ⟨text% "1", text% "255", false⟩)),
  .type (text% "Offload-RAB-Parameters-ChargingCharacteristics") (.octets (some ⟨text% "2", text% "2", false⟩)),
  .type (text% "OldBSS-ToNewBSS-Information") (.octets none),
  .type (text% "OMC-ID") (.octets (some ⟨text% "3", text% "22", false⟩)),
  .type (text% "Out-Of-UTRAN") (.enum [text% "cell-reselection-to-EUTRAN"] (some [])),
  .type (text% "PagingAreaID") (.choice (.cons (text% "lAI") (.ref (text% "LAI")) false (.cons (text% "rAI") (.ref (text% "RAI")) false .nil)) (some .nil)),
  .type (text% "PagingCause") (.enum [text% "terminating-conversational-call", text% "terminating-streaming-call", text% "terminating-interactive-call", text% "terminating-background-call", text% "terminating-low-priority-signalling"] (some [text% "terminating-high-priority-signalling"])),
  .type (text% "PDP-TypeInformation") (.seqOf (some ⟨text% "1", text% "maxNrOfPDPDirections", false⟩) (.ref (text% "PDP-Type"))),
  .type (text% "PDP-Type") (.enum [text% "empty", text% "ppp", text% "osp-ihoss", text% "ipv4", text% "ipv6"] (some [])),
  .type (text% "PDP-TypeInformation-extension") (.seqOf (some ⟨text% "1", text% "maxNrOfPDPDirections", false⟩) (.ref (text% "PDP-Type-extension"))),
  .type (text% "PDP-Type-extension") (.enum [text% "ipv4-and-ipv6"] (some [])),
  .type (text% "PDUType14FrameSequenceNumber") (.int [] (some ⟨text% "0", text% "3", false⟩)),
  .type (text% "PeriodicLocationInfo") (.seq (.cons (text% "reportingAmount") (.int [] (some ⟨text% "1", text% "8639999", true⟩)) false (.cons (text% "reportingInterval") (.int [] (some ⟨text% "1", text% "8639999", true⟩)) false (.cons (text% "iE-Extensions") (.ref (text% "IE-Extensions")) true .nil))) (some .nil)),
  .type (text% "PermanentNAS-UE-ID") (.choice (.cons (text% "iMSI") (.ref (text% "IMSI")) false .nil) (some .nil)),
  .type (text% "PermittedEncryptionAlgorithms") (.seqOf (some ⟨text% "1", text% "16", false⟩) (.ref (text% "EncryptionAlgorithm"))),
  .type (text% "PermittedIntegrityProtectionAlgorithms") (.seqOf (some ⟨text% "1", text% "16", false⟩) (.ref (text% "IntegrityProtectionAlgorithm"))),
  .type (text% "LABased") (.seq (.cons (text% "laiList") (.ref (text% "LAI-List")) false (.cons (text% "iE-Extensions") (.ref (text% "IE-Extensions")) true .nil)) (some .nil)),
  .type (text% "LAI-List") (.seqOf (some ⟨text% "1", text% "maxNrOfLAIs", false⟩) (.ref (text% "LAI"))),
  .type (text% "LoggedMDT") (.seq (.cons (text% "loggingInterval") (.ref (text% "LoggingInterval")) false (.cons (text% "loggingDuration") (.ref (text% "LoggingDuration")) false (.cons (text% "iE-Extensions") (.ref (text% "IE-Extensions")) true .nil))) (some .nil)),
  .type (text% "LoggingInterval") (.enum [text% "s1d28", text% "s2d56", text% "s5d12", text% "s10d24", text% "s20d48", text% "s30d72", text% "s40d96", text% "s61d44"] (some [])),
  .type (text% "LoggingDuration") (.enum [text% "min10", text% "min20", text% "min40", text% "min60", text% "min90", text% "min120"] (some [])),
  .type (text% "PLMNidentity") (.octets (some ⟨text% "3", text% "3", false⟩)),
  .type (text% "PLMNs-in-shared-network") (.seqOf (some ⟨text% "1", text% "maxNrOfPLMNsSN", false⟩) (.ref (text% "PLMNs-in-shared-network-Value"))),
  .type (text% "PLMNs-in-shared-network-Value") (.seq (.cons (text% "pLMNidentity") (.ref (text% "PLMNidentity")) false (.cons (text% "lA-LIST") (.ref (text% "LA-LIST")) false (.cons (text% "iE-Extensions") (.ref (text% "IE-Extensions")) true .nil))) (some .nil)),
  .type (text% "Port-Number") (.octets (some ⟨text% "2", text% "2", false⟩)),
  .type (text% "PositioningDataDiscriminator") (.bits (some ⟨text% "4", text% "4", false⟩)),
  .type (text% "PositioningDataSet") (.seqOf (some ⟨text% "1", text% "maxSet", false⟩) (.ref (text% "PositioningMethodAndUsage"))),
  .type (text% "PositioningMethodAndUsage") (.octets (some ⟨text% "1", text% "1", false⟩)),
  .type (text% "PositioningPriority") (.enum [text% "high-Priority", text% "normal-Priority"] (some [])),
  .type (text% "PositionData") (.seq (.cons (text% "positioningDataDiscriminator") (.ref (text% "PositioningDataDiscriminator")) false (.cons (text% "positioningDataSet") (.ref (text% "PositioningDataSet")) true (.cons (text% "iE-Extensions") (.ref (text% "IE-Extensions")) true .nil))) (some .nil)),
  .type (text% "PositionDataSpecificToGERANIuMode") (.octets none),
  .type (text% "Pre-emptionCapability") (.enum [text% "shall-not-trigger-pre-emption", text% "may-trigger-pre-emption"] none),
  .type (text% "Pre-emptionVulnerability") (.enum [text% "not-pre-emptable", text% "pre-emptable"] none),
  .type (text% "PriorityLevel") (.int [(text% "spare", text% "0"), (text% "highest", text% "1"), (text% "lowest", text% "14"), (text% "no-priority", text% "15")] (some ⟨text% "0", text% "15", false⟩)),
  .type (text% "Priority-Class-Indicator") (.bits (some ⟨text% "8", text% "8", false⟩)),
  .type (text% "ProvidedData") (.choice (.cons (text% "shared-network-information") (.ref (text% "Shared-Network-Information")) false .nil) (some .nil)),
  .type (text% "P-TMSI") (.octets (some ⟨text% "4", text% "4", false⟩)),
  .type (text% "QueuingAllowed") (.enum [text% "queueing-not-allowed", text% "queueing-allowed"] none),
  .type (text% "RAB-AsymmetryIndicator") (.enum [text% "symmetric-bidirectional", text% "asymmetric-unidirectional-downlink", text% "asymmetric-unidirectional-uplink", text% "asymmetric-bidirectional"] (some [])),
  .type (text% "RABased") (.seq (.cons (text% "raiList") (.ref (text% "RAI-List")) false (.cons (text% "iE-Extensions") (.ref (text% "IE-Extensions")) true .nil)) (some .nil)),
  .type (text% "RAI-List") (.seqOf (some ⟨text% "1", text% "maxNrOfRAIs", false⟩) (.ref (text% "RAI"))),
  .type (text% "RABDataVolumeReport") (.seqOf (some ⟨text% "1", text% "maxNrOfVol", false⟩) (.ref (text% "RABDataVolumeReport-Value"))),
  .type (text% "RABDataVolumeReport-Value") (.seq (.cons (text% "dl-UnsuccessfullyTransmittedDataVolume") (.ref (text% "UnsuccessfullyTransmittedDataVolume")) false (.cons (text% "dataVolumeReference") (.ref (text% "DataVolumeReference")) true (.cons (text% "iE-Extensions") (.ref (text% "IE-Extensions")) true .nil))) (some .nil)),
  .type (text% "RAB-ID") (.bits (some ⟨text% "8", text% "8", false⟩)),
  .type (text% "RAB-Parameter-ExtendedGuaranteedBitrateList") (.seqOf (some ⟨text% "1", text% "maxNrOfSeparateTrafficDirections", false⟩) (.ref (text% "ExtendedGuaranteedBitrate"))),
  .type (text% "RAB-Parameter-ExtendedMaxBitrateList") (.seqOf (some ⟨text% "1", text% "maxNrOfSeparateTrafficDirections", false⟩) (.ref (text% "ExtendedMaxBitrate"))),
  .type (text% "RAB-Parameter-GuaranteedBitrateList") (.seqOf (some ⟨text% "1", text% "maxNrOfSeparateTrafficDirections", false⟩) (.ref (text% "GuaranteedBitrate"))),
  .type (text% "RAB-Parameter-MaxBitrateList") (.seqOf (some ⟨text% "1", text% "maxNrOfSeparateTrafficDirections", false⟩) (.ref (text% "MaxBitrate"))),
  .type (text% "RAB-Parameters") (.seq (.cons (text% "trafficClass") (.ref (text% "TrafficClass")) false (.cons (text% "rAB-AsymmetryIndicator") (.ref (text% "RAB-AsymmetryIndicator")) false (.cons (text% "maxBitrate") (.ref (text% "RAB-Parameter-MaxBitrateList")) false (.cons (text% "guaranteedBitRate") (.ref (text% "RAB-Parameter-GuaranteedBitrateList")) true (.cons (text% "deliveryOrder") (.ref (text% "DeliveryOrder")) false (.cons (text% "maxSDU-Size") (.ref (text% "MaxSDU-Size")) false (.cons (text% "sDU-Parameters") (.ref (text% "SDU-Parameters")) false (.cons (text% "transferDelay") (.ref (text% "TransferDelay")) true (.cons (text% "trafficHandlingPriority") (.ref (text% "TrafficHandlingPriority")) true (.cons (text% "allocationOrRetentionPriority") (.ref (text% "AllocationOrRetentionPriority")) true (.cons (text% "sourceStatisticsDescriptor") (.ref (text% "SourceStatisticsDescriptor")) true (.cons (text% "relocationRequirement") (.ref (text% "RelocationRequirement")) true (.cons (text% "iE-Extensions") (.ref (text% "IE-Extensions")) true .nil))))))))))))) (some .nil)),
  .type (text% "RABParametersList") (.seqOf (some ⟨text% "1", text% "maxNrOfRABs", false⟩) (.ref (text% "RABParametersList-Value"))),
  .type (text% "RABParametersList-Value") (.seq (.cons (text% "rab-Id") (.ref (text% "RAB-ID")) false (.cons (text% "cn-domain") (.ref (text% "CN-DomainIndicator")) false (.cons (text% "rabDataVolumeReport") (.ref (text% "RABDataVolumeReport")) true (.cons (text% "upInformation") (.ref (text% "UPInformation")) true (.cons (text% "iE-Extensions") (.ref (text% "IE-Extensions")) true .nil))))) (some .nil)),
  .type (text% "RAB-SubflowCombinationBitRate") (.int [] (some ⟨text% "0", text% "16000000", false⟩)),
  .type (text% "RAB-TrCH-Mapping") (.seqOf (some ⟨text% "1", text% "maxNrOfRABs", false⟩) (.ref (text% "RAB-TrCH-MappingItem"))),
  .type (text% "RAB-TrCH-MappingItem") (.seq (.cons (text% "rAB-ID") (.ref (text% "RAB-ID")) false (.cons (text% "trCH-ID-List") (.ref (text% "TrCH-ID-List")) false (.cons (text% "iE-Extensions") (.ref (text% "IE-Extensions")) true .nil))) (some .nil)),
  .type (text% "RAC") (.octets (some ⟨text% "1", text% "1", false⟩)),
  .type (text% "RAI") (.seq (.cons (text% "lAI") (.ref (text% "LAI")) false (.cons (text% "rAC") (.ref (text% "RAC")) false (.cons (text% "iE-Extensions") (.ref (text% "IE-Extensions")) true .nil))) (some .nil)),
  .type (text% "RAListofIdleModeUEs") (.choice (.cons (text% "notEmptyRAListofIdleModeUEs") (.ref (text% "NotEmptyRAListofIdleModeUEs")) false (.cons (text% "emptyFullRAListofIdleModeUEs") (.enum [text% "emptylist", text% "fulllist"] (some [])) false .nil)) (some .nil)),
  .type (text% "NotEmptyRAListofIdleModeUEs") (.seq (.cons (text% "rAofIdleModeUEs") (.ref (text% "RAofIdleModeUEs")) false (.cons (text% "iE-Extensions") (.ref (text% "IE-Extensions")) true .nil)) none),
  .type (text% "RAofIdleModeUEs") (.seqOf (some ⟨text% "1", text% "maxMBMSRA", false⟩) (.ref (text% "RAC"))),
  .type (text% "LAListofIdleModeUEs") (.seqOf (some ⟨text% "1", text% "maxMBMSRA", false⟩) (.ref (text% "LAI"))),
  .type (text% "RAT-Type") (.enum [text% "utran", text% "geran"] (some [])),
  .type (text% "RateControlAllowed") (.enum [text% "not-allowed", text% "allowed"] none),
  .type (text% "RedirectAttemptFlag") .null,
  .type (text% "RedirectionCompleted") (.enum [text% "redirection-completed"] (some [])),
  .type (text% "RejectCauseValue") (.enum [text% "pLMN-Not-Allowed", text% "location-Area-Not-Allowed", text% "roaming-Not-Allowed-In-This-Location-Area", text% "no-Suitable-Cell-In-Location-Area", text% "gPRS-Services-Not-Allowed-In-This-PLMN", text% "cS-PS-coordination-required"] (some [text% "network-failure", text% "not-authorized-for-this-CSG"])),
  .type (text% "RelocationRequirement") (.enum [text% "lossless", text% "none"] (some [text% "realtime"])),
  .type (text% "RelocationType") (.enum [text% "ue-not-involved", text% "ue-involved"] (some [])),
  .type (text% "RepetitionNumber0") (.int [] (some ⟨text% "0", text% "255", false⟩)),
  .type (text% "RepetitionNumber1") (.int [] (some ⟨text% "1", text% "256", false⟩)),
  .type (text% "ReportArea") (.enum [text% "service-area", text% "geographical-area"] (some [])),
  .type (text% "ReportInterval") (.enum [text% "ms250", text% "ms500", text% "ms1000", text% "ms2000", text% "ms3000", text% "ms4000", text% "ms6000", text% "ms12000", text% "ms16000", text% "ms20000", text% "ms24000", text% "ms32000", text% "ms64000"] (some [text% "ms8000", text% "ms28000"])),
  .type (text% "ReportAmount") (.enum [text% "n1", text% "n2", text% "n4", text% "n8", text% "n16", text% "n32", text% "n64", text% "infinity"] (some [])),
  .type (text% "RequestedGPSAssistanceData") (.octets (some ⟨text% "1", text% "38", false⟩)),
  .type (text% "RequestedGANSSAssistanceData") (.octets (some ⟨text% "1", text% "201", false⟩)),
  .type (text% "RequestedLocationRelatedDataType") (.enum [text% "decipheringKeysUEBasedOTDOA", text% "decipheringKeysAssistedGPS", text% "dedicatedAssistanceDataUEBasedOTDOA", text% "dedicatedAssistanceDataAssistedGPS"] (some [text% "decipheringKeysAssistedGANSS", text% "dedicatedAssistanceDataAssistedGANSS", text% "decipheringKeysAssistedGPSandGANSS", text% "dedicatedAssistanceDataAssistedGPSandGANSS"])),
  .type (text% "RequestedMBMSIPMulticastAddressandAPNRequest") (.seqOf (some ⟨text% "1", text% "maxnoofMulticastServicesPerRNC", false⟩) (.ref (text% "MBMSIPMulticastAddressandAPNlist"))),
  .type (text% "MBMSIPMulticastAddressandAPNlist") (.seq (.cons (text% "tMGI") (.ref (text% "TMGI")) false (.cons (text% "iPMulticastAddress") (.ref (text% "IPMulticastAddress")) false (.cons (text% "aPN") (.ref (text% "APN")) false (.cons (text% "iE-Extensions") (.ref (text% "IE-Extensions")) true .nil)))) (some .nil)),
  .type (text% "RequestedMulticastServiceList") (.seqOf (some ⟨text% "1", text% "maxnoofMulticastServicesPerUE", false⟩) (.ref (text% "TMGI"))),
  .type (text% "Requested-RAB-Parameter-Values") (.seq (.cons (text% "requestedMaxBitrates") (.ref (text% "Requested-RAB-Parameter-MaxBitrateList")) true (.cons (text% "requestedGuaranteedBitrates") (.ref (text% "Requested-RAB-Parameter-GuaranteedBitrateList")) true (.cons (text% "iE-Extensions") (.ref (text% "IE-Extensions")) true .nil))) (some .nil)),
  .type (text% "Requested-RAB-Parameter-ExtendedMaxBitrateList") (.seqOf (some ⟨text% "1", text% "maxNrOfSeparateTrafficDirections", false⟩) (.ref (text% "ExtendedMaxBitrate"))),
  .type (text% "Requested-RAB-Parameter-ExtendedGuaranteedBitrateList") (.seqOf (some ⟨text% "1", text% "maxNrOfSeparateTrafficDirections", false⟩) (.ref (text% "ExtendedGuaranteedBitrate"))),
  .type (text% "Requested-RAB-Parameter-MaxBitrateList") (.seqOf (some ⟨text% "1", text% "maxNrOfSeparateTrafficDirections", false⟩) (.ref (text% "MaxBitrate"))),
  .type (text% "Requested-RAB-Parameter-GuaranteedBitrateList") (.seqOf (some ⟨text% "1", text% "maxNrOfSeparateTrafficDirections", false⟩) (.ref (text% "GuaranteedBitrate"))),
  .type (text% "RequestType") (.seq (.cons (text% "event") (.ref (text% "Event")) false (.cons (text% "reportArea") (.ref (text% "ReportArea")) false (.cons (text% "accuracyCode") (.int [] (some ⟨text% "0", text% "127", false⟩)) true .nil))) (some .nil)),
  .type (text% "ResidualBitErrorRatio") (.seq (.cons (text% "mantissa") (.int [] (some ⟨text% "1", text% "9", false⟩)) false (.cons (text% "exponent") (.int [] (some ⟨text% "1", text% "8", false⟩)) false (.cons (text% "iE-Extensions") (.ref (text% "IE-Extensions")) true .nil))) none),
  .type (text% "ResponseTime") (.enum [text% "lowdelay", text% "delaytolerant"] (some [])),
  .type (text% "RIMInformation") (.octets none),
  .type (text% "RIM-Transfer") (.seq (.cons (text% "rIMInformation") (.ref (text% "RIMInformation")) false (.cons (text% "rIMRoutingAddress") (.ref (text% "RIMRoutingAddress")) true (.cons (text% "iE-Extensions") (.ref (text% "IE-Extensions")) true .nil))) none),
  .type (text% "RIMRoutingAddress") (.choice (.cons (text% "targetRNC-ID") (.ref (text% "TargetRNC-ID")) false (.cons (text% "gERAN-Cell-ID") (.ref (text% "GERAN-Cell-ID")) false .nil)) (some (.cons (text% "targeteNB-ID") (.ref (text% "TargetENB-ID")) false .nil))),
  .type (text% "RNC-ID") (.int [] (some ⟨text% "0", text% "4095", false⟩)),
  .type (text% "RNCTraceInformation") (.seq (.cons (text% "traceReference") (.ref (text% "TraceReference")) false (.cons (text% "traceActivationIndicato") (.enum [text% "activated", text% "deactivated"] none) false (.cons (text% "equipmentsToBeTraced") (.ref (text% "EquipmentsToBeTraced")) true (.cons (text% "iE-Extensions") (.ref (text% "IE-Extensions")) true .nil)))) none),
  .type (text% "RNSAPRelocationParameters") (.seq (.cons (text% "rabParmetersList") (.ref (text% "RABParametersList")) true (.cons (text% "locationReporting") (.ref (text% "LocationReportingTransferInformation")) true (.cons (text% "traceInformation") (.ref (text% "TraceInformation")) true (.cons (text% "sourceSAI") (.ref (text% "SAI")) true (.cons (text% "iE-Extensions") (.ref (text% "IE-Extensions")) true .nil))))) (some .nil)),
  .type (text% "RRC-Container") (.octets none),
  .type (text% "RTLoadValue") (.int [] (some ⟨text% "0", text% "100", false⟩)),
  .type (text% "RSRVCC-HO-Indication") (.enum [text% "ps-only"] (some [])),
  .type (text% "RSRVCC-Information") (.seq (.cons (text% "nonce") (.bits (some ⟨text% "128", text% "128", false⟩)) false (.cons (text% "iMSInformation") (.octets (some ⟨text% "1", text% "maxSizeOfIMSInfo", false⟩)) false (.cons (text% "iE-Extensions") (.ref (text% "IE-Extensions")) true .nil))) (some .nil)),
  .type (text% "RSRVCC-Operation-Possible") (.enum [text% "rsrvcc-possible"] (some [])),
  .type (text% "SAC") (.octets (some ⟨text% "2", text% "2", false⟩)),
  .type (text% "SAI") (.seq (.cons (text% "pLMNidentity") (.ref (text% "PLMNidentity")) false (.cons (text% "lAC") (.ref (text% "LAC")) false (.cons (text% "sAC") (.ref (text% "SAC")) false (.cons (text% "iE-Extensions") (.ref (text% "IE-Extensions")) true .nil)))) none),
  .type (text% "SAPI") (.enum [text% "sapi-0", text% "sapi-3"] (some [])),
  .type (text% "SessionUpdateID") (.int [] (some ⟨text% "0", text% "1048575", false⟩)),
  .type (text% "Shared-Network-Information") (.seq (.cons (text% "pLMNs-in-shared-network") (.ref (text% "PLMNs-in-shared-network")) false (.cons (text% "iE-Extensions") (.ref (text% "IE-Extensions")) true .nil)) (some .nil)),
  .type (text% "Session-Re-establishment-Indicator") (.enum [text% "true"] (some [])),
  .type (text% "SignallingIndication") (.enum [text% "signalling"] (some [])),
  .type (text% "SDU-ErrorRatio") (.seq (.cons (text% "mantissa") (.int [] (some ⟨text% "1", text% "9", false⟩)) false (.cons (text% "exponent") (.int [] (some ⟨text% "1", text% "6", false⟩)) false (.cons (text% "iE-Extensions") (.ref (text% "IE-Extensions")) true .nil))) none),
  .type (text% "SDU-FormatInformationParameters") (.seqOf (some ⟨text% "1", text% "maxRAB-SubflowCombination", false⟩) (.ref (text% "SDU-FormatInformationParameterItem"))),
  .type (text% "SDU-FormatInformationParameterItem") (.seq (.cons (text% "subflowSDU-Size") (.ref (text% "SubflowSDU-Size")) true (.cons (text% "rAB-SubflowCombinationBitRate") (.ref (text% "RAB-SubflowCombinationBitRate")) true (.cons (text% "iE-Extensions") (.ref (text% "IE-Extensions")) true .nil))) (some .nil)),
  .type (text% "SDU-Parameters") (.seqOf (some ⟨text% "1", text% "maxRAB-Subflows", false⟩) (.ref (text% "SDU-ParameterItem"))),
  .type (text% "SDU-ParameterItem") (.seq (.cons (text% "sDU-ErrorRatio") (.ref (text% "SDU-ErrorRatio")) true (.cons (text% "residualBitErrorRatio") (.ref (text% "ResidualBitErrorRatio")) false (.cons (text% "deliveryOfErroneousSDU") (.ref (text% "DeliveryOfErroneousSDU")) false (.cons (text% "sDU-FormatInformationParameters") (.ref (text% "SDU-FormatInformationParameters")) true (.cons (text% "iE-Extensions") (.ref (text% "IE-Extensions")) true .nil))))) (some .nil)),
  .type (text% "SNA-Access-Information") (.seq (.cons (text% "authorisedPLMNs") (.ref (text% "AuthorisedPLMNs")) false (.cons (text% "iE-Extensions") (.ref (text% "IE-Extensions")) true .nil)) (some .nil)),
  .type (text% "SNAC") (.int [] (some ⟨text% "0", text% "65535", false⟩)),
  .type (text% "Service-Handover") (.enum [text% "handover-to-GSM-should-be-performed", text% "handover-to-GSM-should-not-be-performed", text% "handover-to-GSM-shall-not-be-performed"] (some [])),
  .type (text% "Source-ToTarget-TransparentContainer") (.octets none),
  .type (text% "SourceeNodeB-ToTargeteNodeB-TransparentContainer") (.octets none),
  .type (text% "SourceCellID") (.choice (.cons (text% "sourceUTRANCellID") (.ref (text% "SourceUTRANCellID")) false (.cons (text% "sourceGERANCellID") (.ref (text% "CGI")) false .nil)) (some .nil)),
  .type (text% "SourceBSS-ToTargetBSS-TransparentContainer") (.octets none),
  .type (text% "SourceID") (.choice (.cons (text% "sourceRNC-ID") (.ref (text% "SourceRNC-ID")) false (.cons (text% "sAI") (.ref (text% "SAI")) false .nil)) (some .nil)),
  .type (text% "SourceRNC-ID") (.seq (.cons (text% "pLMNidentity") (.ref (text% "PLMNidentity")) false (.cons (text% "rNC-ID") (.ref (text% "RNC-ID")) false (.cons (text% "iE-Extensions") (.ref (text% "IE-Extensions")) true .nil))) none),
  .type (text% "SourceRNC-ToTargetRNC-TransparentContainer") (.seq (.cons (text% "rRC-Container") (.ref (text% "RRC-Container")) false (.cons (text% "numberOfIuInstances") (.ref (text% "NumberOfIuInstances")) false (.cons (text% "relocationType") (.ref (text% "RelocationType")) false (.cons (text% "chosenIntegrityProtectionAlgorithm") (.ref (text% "ChosenIntegrityProtectionAlgorithm")) true (.cons (text% "integrityProtectionKey") (.ref (text% "IntegrityProtectionKey")) true (.cons (text% "chosenEncryptionAlgorithForSignalling") (.ref (text% "ChosenEncryptionAlgorithm")) true (.cons (text% "cipheringKey") (.ref (text% "EncryptionKey")) true (.cons (text% "chosenEncryptionAlgorithForCS") (.ref (text% "ChosenEncryptionAlgorithm")) true (.cons (text% "chosenEncryptionAlgorithForPS") (.ref (text% "ChosenEncryptionAlgorithm")) true (.cons (text% "d-RNTI") (.ref (text% "D-RNTI")) true (.cons (text% "targetCellId") (.ref (text% "TargetCellId")) true (.cons (text% "rAB-TrCH-Mapping") (.ref (text% "RAB-TrCH-Mapping")) true (.cons (text% "iE-Extensions") (.ref (text% "IE-Extensions")) true .nil))))))))))))) (some .nil)),
  .type (text% "IRAT-Measurement-Configuration") (.seq (.cons (text% "rSRP") (.int [] (some ⟨text% "0", text% "97", false⟩)) true (.cons (text% "rSRQ") (.int [] (some ⟨text% "0", text% "34", false⟩)) true (.cons (text% "iRATmeasurementParameters") (.ref (text% "IRATmeasurementParameters")) false (.cons (text% "iE-Extensions") (.ref (text% "IE-Extensions")) true .nil)))) none),
  .type (text% "IRATmeasurementParameters") (.seq (.cons (text% "measurementDuration") (.int [] (some ⟨text% "1", text% "100", false⟩)) false (.cons (text% "eUTRANFrequencies") (.ref (text% "EUTRANFrequencies")) true (.cons (text% "iE-Extensions") (.ref (text% "IE-Extensions")) true .nil))) none),
  .type (text% "RSRQ-Type") (.seq (.cons (text% "allSymbols") .bool false (.cons (text% "wideBand") .bool false .nil)) none),
  .type (text% "RSRQ-Extension") (.int [] (some ⟨text% "-30", text% "46", true⟩)),
  .type (text% "EUTRANFrequencies") (.seqOf (some ⟨text% "1", text% "maxNrOfEUTRAFreqs", false⟩) (.ref (text% "EUTRANFrequencies-Value"))),
  .type (text% "EUTRANFrequencies-Value") (.seq (.cons (text% "earfcn") (.int [] (some ⟨text% "0", text% "65535", false⟩)) false (.cons (text% "measBand") (.ref (text% "MeasBand")) true (.cons (text% "iE-Extensions") (.ref (text% "IE-Extensions")) true .nil))) none),
  .type (text% "MeasBand") (.enum [text% "v6", text% "v15", text% "v25", text% "v50", text% "v75", text% "v100"] none),
  .type (text% "SubscriberProfileIDforRFP") (.int [] (some ⟨text% "1", text% "256", false⟩)),
  .type (text% "SourceStatisticsDescriptor") (.enum [text% "speech", text% "unknown"] (some [])),
  .type (text% "SupportedRAB-ParameterBitrateList") (.seqOf (some ⟨text% "1", text% "maxNrOfSeparateTrafficDirections", false⟩) (.ref (text% "SupportedBitrate"))),
  .type (text% "SupportedBitrate") (.int [] (some ⟨text% "1", text% "1000000000", true⟩)),
  .type (text% "SourceUTRANCellID") (.seq (.cons (text% "pLMNidentity") (.ref (text% "PLMNidentity")) false (.cons (text% "uTRANcellID") (.ref (text% "TargetCellId")) false (.cons (text% "iE-Extensions") (.ref (text% "IE-Extensions")) true .nil))) none),
  .type (text% "SRB-ID") (.int [] (some ⟨text% "1", text% "32", false⟩)),
  .type (text% "SRB-TrCH-Mapping") (.seqOf (some ⟨text% "1", text% "maxNrOfSRBs", false⟩) (.ref (text% "SRB-TrCH-MappingItem"))),
  .type (text% "SRB-TrCH-MappingItem") (.seq (.cons (text% "sRB-ID") (.ref (text% "SRB-ID")) false (.cons (text% "trCH-ID") (.ref (text% "TrCH-ID")) false (.cons (text% "iE-Extensions") (.ref (text% "IE-Extensions")) true .nil))) (some .nil)),
  .type (text% "SRVCC-HO-Indication") (.enum [text% "ps-and-cs", text% "cs-only"] (some [])),
  .type (text% "SRVCC-Information") (.seq (.cons (text% "nonce") (.bits (some ⟨text% "128", text% "128", false⟩)) false (.cons (text% "iE-Extensions") (.ref (text% "IE-Extensions")) true .nil)) (some .nil)),
  .type (text% "SRVCC-Operation-Possible") (.enum [text% "srvcc-possible"] (some [])),
  .type (text% "SubflowSDU-Size") (.int [] (some ⟨text% "0", text% "4095", false⟩)),
  .type (text% "TAC") (.octets (some ⟨text% "2", text% "2", false⟩)),
  .type (text% "TAI") (.seq (.cons (text% "pLMNidentity") (.ref (text% "PLMNidentity")) false (.cons (text% "tAC") (.ref (text% "TAC")) false (.cons (text% "iE-Extensions") (.ref (text% "IE-Extensions")) true .nil))) none),
  .type (text% "Target-ToSource-TransparentContainer") (.octets none),
  .type (text% "TargeteNodeB-ToSourceeNodeB-TransparentContainer") (.octets none),
  .type (text% "TargetBSS-ToSourceBSS-TransparentContainer") (.octets none),
  .type (text% "TargetCellId") (.int [] (some ⟨text% "0", text% "268435455", false⟩)),
  .type (text% "TargetID") (.choice (.cons (text% "targetRNC-ID") (.ref (text% "TargetRNC-ID")) false (.cons (text% "cGI") (.ref (text% "CGI")) false .nil)) (some (.cons (text% "targeteNB-ID") (.ref (text% "TargetENB-ID")) false .nil))),
  .type (text% "TargetENB-ID") (.seq (.cons (text% "pLMNidentity") (.ref (text% "PLMNidentity")) false (.cons (text% "eNB-ID") (.ref (text% "ENB-ID")) false (.cons (text% "iE-Extensions") (.ref (text% "IE-Extensions")) true (.cons (text% "selectedTAI") (.ref (text% "TAI")) false .nil)))) (some .nil)),
  .type (text% "TargetRNC-ID") (.seq (.cons (text% "lAI") (.ref (text% "LAI")) false (.cons (text% "rAC") (.ref (text% "RAC")) true (.cons (text% "rNC-ID") (.ref (text% "RNC-ID")) false (.cons (text% "iE-Extensions") (.ref (text% "IE-Extensions")) true .nil)))) none),
  .type (text% "TargetRNC-ToSourceRNC-TransparentContainer") (.seq (.cons (text% "rRC-Container") (.ref (text% "RRC-Container")) false (.cons (text% "d-RNTI") (.ref (text% "D-RNTI")) true (.cons (text% "iE-Extensions") (.ref (text% "IE-Extensions")) true .nil))) (some .nil)),
  .type (text% "TBCD-STRING") (.octets none),
  .type (text% "TemporaryUE-ID") (.choice (.cons (text% "tMSI") (.ref (text% "TMSI")) false (.cons (text% "p-TMSI") (.ref (text% "P-TMSI")) false .nil)) (some .nil)),
  .type (text% "Time-UE-StayedInCell") (.int [] (some ⟨text% "0", text% "4095", false⟩)),
  .type (text% "Time-UE-StayedInCell-EnhancedGranularity") (.int [] (some ⟨text% "0", text% "40950", false⟩)),
  .type (text% "TimeToMBMSDataTransfer") (.octets (some ⟨text% "1", text% "1", false⟩)),
  .type (text% "TimingDifferenceULDL") (.octets (some ⟨text% "1", text% "1", false⟩)),
  .type (text% "TMGI") (.seq (.cons (text% "pLMNidentity") (.ref (text% "PLMNidentity")) false (.cons (text% "serviceID") (.octets (some ⟨text% "3", text% "3", false⟩)) false (.cons (text% "iE-Extensions") (.ref (text% "IE-Extensions")) true .nil))) none),
  .type (text% "TMSI") (.octets (some ⟨text% "4", text% "4", false⟩)),
  .type (text% "TraceDepth") (.enum [text% "minimum", text% "medium", text% "maximum"] (some [])),
  .type (text% "TraceInformation") (.seq (.cons (text% "traceReference") (.ref (text% "TraceReference")) false (.cons (text% "ue-identity") (.ref (text% "UE-ID")) false (.cons (text% "tracePropagationParameters") (.ref (text% "TracePropagationParameters")) true (.cons (text% "iE-Extensions") (.ref (text% "IE-Extensions")) true .nil)))) (some .nil)),
  .type (text% "TracePropagationParameters") (.seq (.cons (text% "traceRecordingSessionReference") (.ref (text% "TraceRecordingSessionReference")) false (.cons (text% "traceDepth") (.ref (text% "TraceDepth")) false (.cons (text% "listOfInterfacesToTrace") (.ref (text% "ListOfInterfacesToTrace")) true (.cons (text% "iE-Extensions") (.ref (text% "IE-Extensions")) true .nil)))) (some .nil)),
  .type (text% "TraceRecordingSessionInformation") (.seq (.cons (text% "traceReference") (.ref (text% "TraceReference")) false (.cons (text% "traceRecordingSessionReference") (.ref (text% "TraceRecordingSessionReference")) false (.cons (text% "iE-Extensions") (.ref (text% "IE-Extensions")) true .nil))) (some .nil)),
  .type (text% "TraceRecordingSessionReference") (.int [] (some ⟨text% "0", text% "65535", false⟩)),
  .type (text% "TraceReference") (.octets (some ⟨text% "2", text% "3", false⟩)),
  .type (text% "TraceType") (.octets (some ⟨text% "1", text% "1", false⟩)),
  .type (text% "TrafficClass") (.enum [text% "conversational", text% "streaming", text% "interactive", text% "background"] (some [])),
  .type (text% "TrafficHandlingPriority") (.int [(text% "spare", text% "0"), (text% "highest", text% "1"), (text% "lowest", text% "14"), (text% "no-priority-used", text% "15")] (some ⟨text% "0", text% "15", false⟩)),
  .type (text% "TransferDelay") (.int [] (some ⟨text% "0", text% "65535", false⟩)),
  .type (text% "UnsuccessfullyTransmittedDataVolume") (.int [] (some ⟨text% "0", text% "4294967295", false⟩)),
  .type (text% "TransportLayerAddress") (.bits (some ⟨text% "1", text% "160", true⟩)),
  .type (text% "TrCH-ID") (.seq (.cons (text% "dCH-ID") (.ref (text% "DCH-ID")) true (.cons (text% "dSCH-ID") (.ref (text% "DSCH-ID")) true (.cons (text% "uSCH-ID") (.ref (text% "USCH-ID")) true (.cons (text% "iE-Extensions") (.ref (text% "IE-Extensions")) true .nil)))) (some .nil)),
  .type (text% "TrCH-ID-List") (.seqOf (some ⟨text% "1", text% "maxRAB-Subflows", false⟩) (.ref (text% "TrCH-ID"))),
  .type (text% "TriggerID") (.octets (some ⟨text% "3", text% "22", false⟩)),
  .type (text% "TunnelInformation") (.seq (.cons (text% "transportLayerAddress") (.ref (text% "TransportLayerAddress")) false (.cons (text% "uDP-Port-Number") (.ref (text% "Port-Number")) true (.cons (text% "iE-Extensions") (.ref (text% "IE-Extensions")) true .nil))) (some .nil)),
  .type (text% "TypeOfError") (.enum [text% "not-understood", text% "missing"] (some [])),
  .type (text% "UE-AggregateMaximumBitRate") (.seq (.cons (text% "uE-AggregateMaximumBitRateDownlink") (.ref (text% "UE-AggregateMaximumBitRateDownlink")) true (.cons (text% "uE-AggregateMaximumBitRateUplink") (.ref (text% "UE-AggregateMaximumBitRateUplink")) true .nil)) (some .nil)),
  .type (text% "UE-AggregateMaximumBitRateDownlink") (.int [] (some ⟨text% "1", text% "1000000000", false⟩)),
  .type (text% "UE-AggregateMaximumBitRateUplink") (.int [] (some ⟨text% "1", text% "1000000000", false⟩)),
  .type (text% "UE-History-Information") (.octets none),
  .type (text% "UE-ID") (.choice (.cons (text% "imsi") (.ref (text% "IMSI")) false (.cons (text% "imei") (.ref (text% "IMEI")) false .nil)) (some (.cons (text% "imeisv") (.ref (text% "IMEISV")) false .nil))),
  .type (text% "UESBI-Iu") (.seq (.cons (text% "uESBI-IuA") (.ref (text% "UESBI-IuA")) true (.cons (text% "uESBI-IuB") (.ref (text% "UESBI-IuB")) true (.cons (text% "iE-Extensions") (.ref (text% "IE-Extensions")) true .nil))) (some .nil)),
  .type (text% "UESBI-IuA") (.bits (some ⟨text% "1", text% "128", false⟩)),
  .type (text% "UESBI-IuB") (.bits (some ⟨text% "1", text% "128", false⟩)),
  .type (text% "UL-GTP-PDU-SequenceNumber") (.int [] (some ⟨text% "0", text% "65535", false⟩)),
  .type (text% "UL-N-PDU-SequenceNumber") (.int [] (some ⟨text% "0", text% "65535", false⟩)),
  .type (text% "UPInformation") (.seq (.cons (text% "frameSeqNoUL") (.ref (text% "FrameSequenceNumber")) false (.cons (text% "frameSeqNoDL") (.ref (text% "FrameSequenceNumber")) false (.cons (text% "pdu14FrameSeqNoUL") (.ref (text% "PDUType14FrameSequenceNumber")) false (.cons (text% "pdu14FrameSeqNoDL") (.ref (text% "PDUType14FrameSequenceNumber")) false (.cons (text% "dataPDUType") (.ref (text% "DataPDUType")) false (.cons (text% "upinitialisationFrame") (.ref (text% "UPInitialisationFrame")) false (.cons (text% "iE-Extensions") (.ref (text% "IE-Extensions")) true .nil))))))) (some .nil)),
  .type (text% "UPInitialisationFrame") (.octets none),
  .type (text% "UP-ModeVersions") (.bits (some ⟨text% "16", text% "16", false⟩)),
  .type (text% "USCH-ID") (.int [] (some ⟨text% "0", text% "255", false⟩)),
  .type (text% "UserPlaneMode") (.enum [text% "transparent-mode", text% "support-mode-for-predefined-SDU-sizes"] (some [])),
  .type (text% "UTRAN-CellID") (.seq (.cons (text% "pLMNidentity") (.ref (text% "PLMNidentity")) false (.cons (text% "cellID") (.ref (text% "TargetCellId")) false (.cons (text% "iE-Extensions") (.ref (text% "IE-Extensions")) true .nil))) none),
  .type (text% "VelocityEstimate") (.choice (.cons (text% "horizontalVelocity") (.ref (text% "HorizontalVelocity")) false (.cons (text% "horizontalWithVerticalVelocity") (.ref (text% "HorizontalWithVerticalVelocity")) false (.cons (text% "horizontalVelocityWithUncertainty") (.ref (text% "HorizontalVelocityWithUncertainty")) false (.cons (text% "horizontalWithVeritcalVelocityAndUncertainty") (.ref (text% "HorizontalWithVerticalVelocityAndUncertainty")) false .nil)))) (some .nil)),
  .type (text% "HorizontalVelocity") (.seq (.cons (text% "horizontalSpeedAndBearing") (.ref (text% "HorizontalSpeedAndBearing")) false (.cons (text% "iE-Extensions") (.ref (text% "IE-Extensions")) true .nil)) (some .nil)),
  .type (text% "HorizontalWithVerticalVelocity") (.seq (.cons (text% "horizontalSpeedAndBearing") (.ref (text% "HorizontalSpeedAndBearing")) false (.cons (text% "veritcalVelocity") (.ref (text% "VerticalVelocity")) false (.cons (text% "iE-Extensions") (.ref (text% "IE-Extensions")) true .nil))) (some .nil)),
  .type (text% "HorizontalVelocityWithUncertainty") (.seq (.cons (text% "horizontalSpeedAndBearing") (.ref (text% "HorizontalSpeedAndBearing")) false (.cons (text% "uncertaintySpeed") (.int [] (some ⟨text% "0", text% "255", false⟩)) false (.cons (text% "iE-Extensions") (.ref (text% "IE-Extensions")) true .nil))) (some .nil)),
  .type (text% "HorizontalWithVerticalVelocityAndUncertainty") (.seq (.cons (text% "horizontalSpeedAndBearing") (.ref (text% "HorizontalSpeedAndBearing")) false (.cons (text% "veritcalVelocity") (.ref (text% "VerticalVelocity")) false (.cons (text% "horizontalUncertaintySpeed") (.int [] (some ⟨text% "0", text% "255", false⟩)) false (.cons (text% "verticalUncertaintySpeed") (.int [] (some ⟨text% "0", text% "255", false⟩)) false (.cons (text% "iE-Extensions") (.ref (text% "IE-Extensions")) true .nil))))) (some .nil)),
  .type (text% "HorizontalSpeedAndBearing") (.seq (.cons (text% "bearing") (.int [] (some ⟨text% "0", text% "359", false⟩)) false (.cons (text% "horizontalSpeed") (.int [] (some ⟨text% "0", text% "2047", false⟩)) false .nil)) none),
  .type (text% "VerticalVelocity") (.seq (.cons (text% "veritcalSpeed") (.int [] (some ⟨text% "0", text% "255", false⟩)) false (.cons (text% "veritcalSpeedDirection") (.ref (text% "VerticalSpeedDirection")) false .nil)) none),
  .type (text% "VerticalSpeedDirection") (.enum [text% "upward", text% "downward"] none),
  .type (text% "VerticalAccuracyCode") (.int [] (some ⟨text% "0", text% "127", false⟩)),
  .type (text% "VoiceSupportMatchIndicator") (.enum [text% "supported", text% "not-supported"] (some []))]

/-- Of `ranap`. -/
noncomputable def ranapContentsAssignments : List Assignment := [
  .template (text% "RAB-IE-ContainerList") [text% "IEsSetParam"] (.app (text% "ProtocolIE-ContainerList") [text% "1", text% "maxNrOfRABs", text% "IEsSetParam"]),
  .template (text% "RAB-IE-ContainerPairList") [text% "IEsSetParam"] (.app (text% "ProtocolIE-ContainerPairList") [text% "1", text% "maxNrOfRABs", text% "IEsSetParam"]),
  .template (text% "ProtocolError-IE-ContainerList") [text% "IEsSetParam"] (.app (text% "ProtocolIE-ContainerList") [text% "1", text% "maxNrOfRABs", text% "IEsSetParam"]),
  .template (text% "IuSigConId-IE-ContainerList") [text% "IEsSetParam"] (.app (text% "ProtocolIE-ContainerList") [text% "1", text% "maxNrOfIuSigConIds", text% "IEsSetParam"]),
  .template (text% "DirectTransfer-IE-ContainerList") [text% "IEsSetParam"] (.app (text% "ProtocolIE-ContainerList") [text% "1", text% "maxNrOfDTs", text% "IEsSetParam"]),
  .type (text% "Iu-ReleaseCommand") (.seq (.cons (text% "protocolIEs") (.app (text% "ProtocolIE-Container") [text% "Iu-ReleaseCommandIEs"]) false (.cons (text% "protocolExtensions") (.app (text% "ProtocolExtensionContainer") [text% "Iu-ReleaseCommandExtensions"]) true .nil)) (some .nil)),
  .object (text% "Iu-ReleaseCommandIEs"),
  .object (text% "Iu-ReleaseCommandExtensions"),
  .type (text% "Iu-ReleaseComplete") (.seq (.cons (text% "protocolIEs") (.app (text% "ProtocolIE-Container") [text% "Iu-ReleaseCompleteIEs"]) false (.cons (text% "protocolExtensions") (.app (text% "ProtocolExtensionContainer") [text% "Iu-ReleaseCompleteExtensions"]) true .nil)) (some .nil)),
  .object (text% "Iu-ReleaseCompleteIEs"),
  .type (text% "RAB-DataVolumeReportList") (.app (text% "RAB-IE-ContainerList") [text% "RAB-DataVolumeReportItemIEs"]),
  .object (text% "RAB-DataVolumeReportItemIEs"),
  .type (text% "RAB-DataVolumeReportItem") (.seq (.cons (text% "rAB-ID") (.ref (text% "RAB-ID")) false (.cons (text% "dl-UnsuccessfullyTransmittedDataVolume") (.ref (text% "DataVolumeList")) true (.cons (text% "iE-Extensions") (.app (text% "ProtocolExtensionContainer") [text% "RAB-DataVolumeReportItem-ExtIEs"]) true .nil))) (some .nil)),
  .object (text% "RAB-DataVolumeReportItem-ExtIEs"),
  .type (text% "RAB-ReleasedList-IuRelComp") (.app (text% "RAB-IE-ContainerList") [text% "RAB-ReleasedItem-IuRelComp-IEs"]),
  .object (text% "RAB-ReleasedItem-IuRelComp-IEs"),
  .type (text% "RAB-ReleasedItem-IuRelComp") (.seq (.cons (text% "rAB-ID") (.ref (text% "RAB-ID")) false (.cons (text% "dL-GTP-PDU-SequenceNumber") (.ref (text% "DL-GTP-PDU-SequenceNumber")) true (.cons (text% "uL-GTP-PDU-SequenceNumber") (.ref (text% "UL-GTP-PDU-SequenceNumber")) true (.cons (text% "iE-Extensions") (.app (text% "ProtocolExtensionContainer") [text% "RAB-ReleasedItem-IuRelComp-ExtIEs"]) true .nil)))) (some .nil)),
  .object (text% "RAB-ReleasedItem-IuRelComp-ExtIEs"),
  .object (text% "Iu-ReleaseCompleteExtensions"),
  .type (text% "RelocationRequired") (.seq (.cons (text% "protocolIEs") (.app (text% "ProtocolIE-Container") [text% "RelocationRequiredIEs"]) false (.cons (text% "protocolExtensions") (.app (text% "ProtocolExtensionContainer") [text% "RelocationRequiredExtensions"]) true .nil)) (some .nil)),
  .object (text% "RelocationRequiredIEs"),
  .object (text% "RelocationRequiredExtensions"),
  .type (text% "RelocationCommand") (.seq (.cons (text% "protocolIEs") (.app (text% "ProtocolIE-Container") [text% "RelocationCommandIEs"]) false (.cons (text% "protocolExtensions") (.app (text% "ProtocolExtensionContainer") [text% "RelocationCommandExtensions"]) true .nil)) (some .nil)),
  .object (text% "RelocationCommandIEs"),
  .type (text% "RAB-RelocationReleaseList") (.app (text% "RAB-IE-ContainerList") [text% "RAB-RelocationReleaseItemIEs"]),
  .object (text% "RAB-RelocationReleaseItemIEs"),
  .type (text% "RAB-RelocationReleaseItem") (.seq (.cons (text% "rAB-ID") (.ref (text% "RAB-ID")) false (.cons (text% "iE-Extensions") (.app (text% "ProtocolExtensionContainer") [text% "RAB-RelocationReleaseItem-ExtIEs"]) true .nil)) (some .nil)),
  .object (text% "RAB-RelocationReleaseItem-ExtIEs"),
  .type (text% "RAB-DataForwardingList") (.app (text% "RAB-IE-ContainerList") [text% "RAB-DataForwardingItemIEs"]),
  .object (text% "RAB-DataForwardingItemIEs"),
  .type (text% "RAB-DataForwardingItem") (.seq (.cons (text% "rAB-ID") (.ref (text% "RAB-ID")) false (.cons (text% "transportLayerAddress") (.ref (text% "TransportLayerAddress")) false (.cons (text% "iuTransportAssociation") (.ref (text% "IuTransportAssociation")) false (.cons (text% "iE-Extensions") (.app (text% "ProtocolExtensionContainer") [text% "RAB-DataForwardingItem-ExtIEs"]) true .nil)))) (some .nil)),
  .object (text% "RAB-DataForwardingItem-ExtIEs"),
  .object (text% "RelocationCommandExtensions"),
  .type (text% "RelocationPreparationFailure") (.seq (.cons (text% "protocolIEs") (.app (text% "ProtocolIE-Container") [text% "RelocationPreparationFailureIEs"]) false (.cons (text% "protocolExtensions") (.app (text% "ProtocolExtensionContainer") [text% "RelocationPreparationFailureExtensions"]) true .nil)) (some .nil)),
  .object (text% "RelocationPreparationFailureIEs"),
  .object (text% "RelocationPreparationFailureExtensions"),
  .type (text% "RelocationRequest") (.seq (.cons (text% "protocolIEs") (.app (text% "ProtocolIE-Container") [text% "RelocationRequestIEs"]) false (.cons (text% "protocolExtensions") (.app (text% "ProtocolExtensionContainer") [text% "RelocationRequestExtensions"]) true .nil)) (some .nil)),
  .object (text% "RelocationRequestIEs"),
  .type (text% "RAB-SetupList-RelocReq") (.app (text% "RAB-IE-ContainerList") [text% "RAB-SetupItem-RelocReq-IEs"]),
  .object (text% "RAB-SetupItem-RelocReq-IEs"),
  .type (text% "RAB-SetupItem-RelocReq") (.seq (.cons (text% "rAB-ID") (.ref (text% "RAB-ID")) false (.cons (text% "nAS-SynchronisationIndicator") (.ref (text% "NAS-SynchronisationIndicator")) true (.cons (text% "rAB-Parameters") (.ref (text% "RAB-Parameters")) false (.cons (text% "dataVolumeReportingIndication") (.ref (text% "DataVolumeReportingIndication")) true (.cons (text% "pDP-TypeInformation") (.ref (text% "PDP-TypeInformation")) true (.cons (text% "userPlaneInformation") (.ref (text% "UserPlaneInformation")) false (.cons (text% "transportLayerAddress") (.ref (text% "TransportLayerAddress")) false (.cons (text% "iuTransportAssociation") (.ref (text% "IuTransportAssociation")) false (.cons (text% "service-Handover") (.ref (text% "Service-Handover")) true (.cons (text% "iE-Extensions") (.app (text% "ProtocolExtensionContainer") [text% "RAB-SetupItem-RelocReq-ExtIEs"]) true .nil)))))))))) (some .nil)),
  .object (text% "RAB-SetupItem-RelocReq-ExtIEs"),
  .type (text% "UserPlaneInformation") (.seq (.cons (text% "userPlaneMode") (.ref (text% "UserPlaneMode")) false (.cons (text% "uP-ModeVersions") (.ref (text% "UP-ModeVersions")) false (.cons (text% "iE-Extensions") (.app (text% "ProtocolExtensionContainer") [text% "UserPlaneInformation-ExtIEs"]) true .nil))) (some .nil)),
  .object (text% "UserPlaneInformation-ExtIEs"),
  .object (text% "RelocationRequestExtensions"),
  .type (text% "CNMBMSLinkingInformation") (.seq (.cons (text% "joinedMBMSBearerService-IEs") (.ref (text% "JoinedMBMSBearerService-IEs")) false (.cons (text% "iE-Extensions") (.app (text% "ProtocolExtensionContainer") [text% "CNMBMSLinkingInformation-ExtIEs"]) true .nil)) (some .nil)),
  .object (text% "CNMBMSLinkingInformation-ExtIEs"),
  .type (text% "JoinedMBMSBearerService-IEs") (.seqOf (some ⟨text% "1", text% "maxnoofMulticastServicesPerUE", false⟩) (.ref (text% "JoinedMBMSBearerService-IEs-Value"))),
  .type (text% "JoinedMBMSBearerService-IEs-Value") (.seq (.cons (text% "tMGI") (.ref (text% "TMGI")) false (.cons (text% "mBMS-PTP-RAB-ID") (.ref (text% "MBMS-PTP-RAB-ID")) false (.cons (text% "iE-Extensions") (.app (text% "ProtocolExtensionContainer") [text% "JoinedMBMSBearerService-ExtIEs"]) true .nil))) (some .nil)),
  .object (text% "JoinedMBMSBearerService-ExtIEs"),
  .type (text% "RelocationRequestAcknowledge") (.seq (.cons (text% "protocolIEs") (.app (text% "ProtocolIE-Container") [text% "RelocationRequestAcknowledgeIEs"]) false (.cons (text% "protocolExtensions") (.app (text% "ProtocolExtensionContainer") [text% "RelocationRequestAcknowledgeExtensions"]) true .nil)) (some .nil)),
  .object (text% "RelocationRequestAcknowledgeIEs"),
  .type (text% "RAB-SetupList-RelocReqAck") (.app (text% "RAB-IE-ContainerList") [text% "RAB-SetupItem-RelocReqAck-IEs"]),
  .object (text% "RAB-SetupItem-RelocReqAck-IEs"),
  .type (text% "RAB-SetupItem-RelocReqAck") (.seq (.cons (text% "rAB-ID") (.ref (text% "RAB-ID")) false (.cons (text% "transportLayerAddress") (.ref (text% "TransportLayerAddress")) true (.cons (text% "iuTransportAssociation") (.ref (text% "IuTransportAssociation")) true (.cons (text% "iE-Extensions") (.app (text% "ProtocolExtensionContainer") [text% "RAB-SetupItem-RelocReqAck-ExtIEs"]) true .nil)))) (some .nil)),
  .object (text% "RAB-SetupItem-RelocReqAck-ExtIEs"),
  .type (text% "RAB-FailedList") (.app (text% "RAB-IE-ContainerList") [text% "RAB-FailedItemIEs"]),
  .object (text% "RAB-FailedItemIEs"),
  .type (text% "RAB-FailedItem") (.seq (.cons (text% "rAB-ID") (.ref (text% "RAB-ID")) false (.cons (text% "cause") (.ref (text% "Cause")) false (.cons (text% "iE-Extensions") (.app (text% "ProtocolExtensionContainer") [text% "RAB-FailedItem-ExtIEs"]) true .nil))) (some .nil)),
  .object (text% "RAB-FailedItem-ExtIEs"),
  .object (text% "RelocationRequestAcknowledgeExtensions"),
  .type (text% "RelocationFailure") (.seq (.cons (text% "protocolIEs") (.app (text% "ProtocolIE-Container") [text% "RelocationFailureIEs"]) false (.cons (text% "protocolExtensions") (.app (text% "ProtocolExtensionContainer") [text% "RelocationFailureExtensions"]) true .nil)) (some .nil)),
  .object (text% "RelocationFailureIEs"),
  .object (text% "RelocationFailureExtensions"),
  .type (text% "RelocationCancel") (.seq (.cons (text% "protocolIEs") (.app (text% "ProtocolIE-Container") [text% "RelocationCancelIEs"]) false (.cons (text% "protocolExtensions") (.app (text% "ProtocolExtensionContainer") [text% "RelocationCancelExtensions"]) true .nil)) (some .nil)),
  .object (text% "RelocationCancelIEs"),
  .object (text% "RelocationCancelExtensions"),
  .type (text% "RelocationCancelAcknowledge") (.seq (.cons (text% "protocolIEs") (.app (text% "ProtocolIE-Container") [text% "RelocationCancelAcknowledgeIEs"]) false (.cons (text% "protocolExtensions") (.app (text% "ProtocolExtensionContainer") [text% "RelocationCancelAcknowledgeExtensions"]) true .nil)) (some .nil)),
  .object (text% "RelocationCancelAcknowledgeIEs"),
  .object (text% "RelocationCancelAcknowledgeExtensions"),
  .type (text% "SRNS-ContextRequest") (.seq (.cons (text% "protocolIEs") (.app (text% "ProtocolIE-Container") [text% "SRNS-ContextRequestIEs"]) false (.cons (text% "protocolExtensions") (.app (text% "ProtocolExtensionContainer") [text% "SRNS-ContextRequestExtensions"]) true .nil)) (some .nil)),
  .object (text% "SRNS-ContextRequestIEs"),
  .type (text% "RAB-DataForwardingList-SRNS-CtxReq") (.app (text% "RAB-IE-ContainerList") [text% "RAB-DataForwardingItem-SRNS-CtxReq-IEs"]),
  .object (text% "RAB-DataForwardingItem-SRNS-CtxReq-IEs"),
  .type (text% "RAB-DataForwardingItem-SRNS-CtxReq") (.seq (.cons (text% "rAB-ID") (.ref (text% "RAB-ID")) false (.cons (text% "iE-Extensions") (.app (text% "ProtocolExtensionContainer") [text% "RAB-DataForwardingItem-SRNS-CtxReq-ExtIEs"]) true .nil)) (some .nil)),
  .object (text% "RAB-DataForwardingItem-SRNS-CtxReq-ExtIEs"),
  .object (text% "SRNS-ContextRequestExtensions"),
  .type (text% "SRNS-ContextResponse") (.seq (.cons (text% "protocolIEs") (.app (text% "ProtocolIE-Container") [text% "SRNS-ContextResponseIEs"]) false (.cons (text% "protocolExtensions") (.app (text% "ProtocolExtensionContainer") [text% "SRNS-ContextResponseExtensions"]) true .nil)) (some .nil)),
  .object (text% "SRNS-ContextResponseIEs"),
  .type (text% "RAB-ContextList") (.app (text% "RAB-IE-ContainerList") [text% "RAB-ContextItemIEs"]),
  .object (text% "RAB-ContextItemIEs"),
  .type (text% "RAB-ContextItem") (.seq (.cons (text% "rAB-ID") (.ref (text% "RAB-ID")) false (.cons (text% "dl-GTP-PDU-SequenceNumber") (.ref (text% "DL-GTP-PDU-SequenceNumber")) true (.cons (text% "ul-GTP-PDU-SequenceNumber") (.ref (text% "UL-GTP-PDU-SequenceNumber")) true (.cons (text% "dl-N-PDU-SequenceNumber") (.ref (text% "DL-N-PDU-SequenceNumber")) true (.cons (text% "ul-N-PDU-SequenceNumber") (.ref (text% "UL-N-PDU-SequenceNumber")) true (.cons (text% "iE-Extensions") (.app (text% "ProtocolExtensionContainer") [text% "RAB-ContextItem-ExtIEs"]) true .nil)))))) (some .nil)),
  .object (text% "RAB-ContextItem-ExtIEs"),
  .type (text% "RABs-ContextFailedtoTransferList") (.app (text% "RAB-IE-ContainerList") [text% "RABs-ContextFailedtoTransferItemIEs"]),
  .object (text% "RABs-ContextFailedtoTransferItemIEs"),
  .type (text% "RABs-ContextFailedtoTransferItem") (.seq (.cons (text% "rAB-ID") (.ref (text% "RAB-ID")) false (.cons (text% "cause") (.ref (text% "Cause")) false (.cons (text% "iE-Extensions") (.app (text% "ProtocolExtensionContainer") [text% "RABs-ContextFailedtoTransferItem-ExtIEs"]) true .nil))) (some .nil)),
  .object (text% "RABs-ContextFailedtoTransferItem-ExtIEs"),
  .object (text% "SRNS-ContextResponseExtensions"),
  .type (text% "SecurityModeCommand") (.seq (.cons (text% "protocolIEs") (.app (text% "ProtocolIE-Container") [text% "SecurityModeCommandIEs"]) false (.cons (text% "protocolExtensions") (.app (text% "ProtocolExtensionContainer") [text% "SecurityModeCommandExtensions"]) true .nil)) (some .nil)),
  .object (text% "SecurityModeCommandIEs"),
  .object (text% "SecurityModeCommandExtensions"),
  .type (text% "SecurityModeComplete") (.seq (.cons (text% "protocolIEs") (.app (text% "ProtocolIE-Container") [text% "SecurityModeCompleteIEs"]) false (.cons (text% "protocolExtensions") (.app (text% "ProtocolExtensionContainer") [text% "SecurityModeCompleteExtensions"]) true .nil)) (some .nil)),
  .object (text% "SecurityModeCompleteIEs"),
  .object (text% "SecurityModeCompleteExtensions"),
  .type (text% "SecurityModeReject") (.seq (.cons (text% "protocolIEs") (.app (text% "ProtocolIE-Container") [text% "SecurityModeRejectIEs"]) false (.cons (text% "protocolExtensions") (.app (text% "ProtocolExtensionContainer") [text% "SecurityModeRejectExtensions"]) true .nil)) (some .nil)),
  .object (text% "SecurityModeRejectIEs"),
  .object (text% "SecurityModeRejectExtensions"),
  .type (text% "DataVolumeReportRequest") (.seq (.cons (text% "protocolIEs") (.app (text% "ProtocolIE-Container") [text% "DataVolumeReportRequestIEs"]) false (.cons (text% "protocolExtensions") (.app (text% "ProtocolExtensionContainer") [text% "DataVolumeReportRequestExtensions"]) true .nil)) (some .nil)),
  .object (text% "DataVolumeReportRequestIEs"),
  .type (text% "RAB-DataVolumeReportRequestList") (.app (text% "RAB-IE-ContainerList") [text% "RAB-DataVolumeReportRequestItemIEs"]),
  .object (text% "RAB-DataVolumeReportRequestItemIEs"),
  .type (text% "RAB-DataVolumeReportRequestItem") (.seq (.cons (text% "rAB-ID") (.ref (text% "RAB-ID")) false (.cons (text% "iE-Extensions") (.app (text% "ProtocolExtensionContainer") [text% "RAB-DataVolumeReportRequestItem-ExtIEs"]) true .nil)) (some .nil)),
  .object (text% "RAB-DataVolumeReportRequestItem-ExtIEs"),
  .object (text% "DataVolumeReportRequestExtensions"),
  .type (text% "DataVolumeReport") (.seq (.cons (text% "protocolIEs") (.app (text% "ProtocolIE-Container") [text% "DataVolumeReportIEs"]) false (.cons (text% "protocolExtensions") (.app (text% "ProtocolExtensionContainer") [text% "DataVolumeReportExtensions"]) true .nil)) (some .nil)),
  .object (text% "DataVolumeReportIEs"),
  .object (text% "DataVolumeReportExtensions"),
  .type (text% "RABs-failed-to-reportList") (.app (text% "RAB-IE-ContainerList") [text% "RABs-failed-to-reportItemIEs"]),
  .object (text% "RABs-failed-to-reportItemIEs"),
  .type (text% "RABs-failed-to-reportItem") (.seq (.cons (text% "rAB-ID") (.ref (text% "RAB-ID")) false (.cons (text% "cause") (.ref (text% "Cause")) false (.cons (text% "iE-Extensions") (.app (text% "ProtocolExtensionContainer") [text% "RABs-failed-to-reportItem-ExtIEs"]) true .nil))) (some .nil)),
  .object (text% "RABs-failed-to-reportItem-ExtIEs"),
  .type (text% "Reset") (.seq (.cons (text% "protocolIEs") (.app (text% "ProtocolIE-Container") [text% "ResetIEs"]) false (.cons (text% "protocolExtensions") (.app (text% "ProtocolExtensionContainer") [text% "ResetExtensions"]) true .nil)) (some .nil)),
  .object (text% "ResetIEs"),
  .object (text% "ResetExtensions"),
  .type (text% "ResetAcknowledge") (.seq (.cons (text% "protocolIEs") (.app (text% "ProtocolIE-Container") [text% "ResetAcknowledgeIEs"]) false (.cons (text% "protocolExtensions") (.app (text% "ProtocolExtensionContainer") [text% "ResetAcknowledgeExtensions"]) true .nil)) (some .nil)),
  .object (text% "ResetAcknowledgeIEs"),
  .object (text% "ResetAcknowledgeExtensions"),
  .type (text% "ResetResource") (.seq (.cons (text% "protocolIEs") (.app (text% "ProtocolIE-Container") [text% "ResetResourceIEs"]) false (.cons (text% "protocolExtensions") (.app (text% "ProtocolExtensionContainer") [text% "ResetResourceExtensions"]) true .nil)) (some .nil)),
  .object (text% "ResetResourceIEs"),
  .type (text% "ResetResourceList") (.app (text% "IuSigConId-IE-ContainerList") [text% "ResetResourceItemIEs"]),
  .object (text% "ResetResourceItemIEs"),
  .type (text% "ResetResourceItem") (.seq (.cons (text% "iuSigConId") (.ref (text% "IuSignallingConnectionIdentifier")) false (.cons (text% "iE-Extensions") (.app (text% "ProtocolExtensionContainer") [text% "ResetResourceItem-ExtIEs"]) true .nil)) (some .nil)),
  .object (text% "ResetResourceItem-ExtIEs"),
  .object (text% "ResetResourceExtensions"),
  .type (text% "ResetResourceAcknowledge") (.seq (.cons (text% "protocolIEs") (.app (text% "ProtocolIE-Container") [text% "ResetResourceAcknowledgeIEs"]) false (.cons (text% "protocolExtensions") (.app (text% "ProtocolExtensionContainer") [text% "ResetResourceAcknowledgeExtensions"]) true .nil)) (some .nil)),
  .object (text% "ResetResourceAcknowledgeIEs"),
  .type (text% "ResetResourceAckList") (.app (text% "IuSigConId-IE-ContainerList") [text% "ResetResourceAckItemIEs"]),
  .object (text% "ResetResourceAckItemIEs"),
  .type (text% "ResetResourceAckItem") (.seq (.cons (text% "iuSigConId") (.ref (text% "IuSignallingConnectionIdentifier")) false (.cons (text% "iE-Extensions") (.app (text% "ProtocolExtensionContainer") [text% "ResetResourceAckItem-ExtIEs"]) true .nil)) (some .nil)),
  .object (text% "ResetResourceAckItem-ExtIEs"),
  .object (text% "ResetResourceAcknowledgeExtensions"),
  .type (text% "RAB-ReleaseRequest") (.seq (.cons (text% "protocolIEs") (.app (text% "ProtocolIE-Container") [text% "RAB-ReleaseRequestIEs"]) false (.cons (text% "protocolExtensions") (.app (text% "ProtocolExtensionContainer") [text% "RAB-ReleaseRequestExtensions"]) true .nil)) (some .nil)),
  .object (text% "RAB-ReleaseRequestIEs"),
  .type (text% "RAB-ReleaseList") (.app (text% "RAB-IE-ContainerList") [text% "RAB-ReleaseItemIEs"]),
  .object (text% "RAB-ReleaseItemIEs"),
  .type (text% "RAB-ReleaseItem") (.seq (.cons (text% "rAB-ID") (.ref (text% "RAB-ID")) false (.cons (text% "cause") (.ref (text% "Cause")) false (.cons (text% "iE-Extensions") (.app (text% "ProtocolExtensionContainer") [text% "RAB-ReleaseItem-ExtIEs"]) true .nil))) (some .nil)),
  .object (text% "RAB-ReleaseItem-ExtIEs"),
  .object (text% "RAB-ReleaseRequestExtensions"),
  .type (text% "Iu-ReleaseRequest") (.seq (.cons (text% "protocolIEs") (.app (text% "ProtocolIE-Container") [text% "Iu-ReleaseRequestIEs"]) false (.cons (text% "protocolExtensions") (.app (text% "ProtocolExtensionContainer") [text% "Iu-ReleaseRequestExtensions"]) true .nil)) (some .nil)),
  .object (text% "Iu-ReleaseRequestIEs"),
  .object (text% "Iu-ReleaseRequestExtensions"),
  .type (text% "RelocationDetect") (.seq (.cons (text% "protocolIEs") (.app (text% "ProtocolIE-Container") [text% "RelocationDetectIEs"]) false (.cons (text% "protocolExtensions") (.app (text% "ProtocolExtensionContainer") [text% "RelocationDetectExtensions"]) true .nil)) (some .nil)),
  .object (text% "RelocationDetectIEs"),
  .object (text% "RelocationDetectExtensions"),
  .type (text% "RelocationComplete") (.seq (.cons (text% "protocolIEs") (.app (text% "ProtocolIE-Container") [text% "RelocationCompleteIEs"]) false (.cons (text% "protocolExtensions") (.app (text% "ProtocolExtensionContainer") [text% "RelocationCompleteExtensions"]) true .nil)) (some .nil)),
  .object (text% "RelocationCompleteIEs"),
  .object (text% "RelocationCompleteExtensions"),
  .type (text% "EnhancedRelocationCompleteRequest") (.seq (.cons (text% "protocolIEs") (.app (text% "ProtocolIE-Container") [text% "EnhancedRelocationCompleteRequestIEs"]) false (.cons (text% "protocolExtensions") (.app (text% "ProtocolExtensionContainer") [text% "EnhancedRelocationCompleteRequestExtensions"]) true .nil)) (some .nil)),
  .object (text% "EnhancedRelocationCompleteRequestIEs"),
  .type (text% "RAB-SetupList-EnhancedRelocCompleteReq") (.app (text% "RAB-IE-ContainerList") [text% "RAB-SetupItem-EnhancedRelocCompleteReq-IEs"]),
  .object (text% "RAB-SetupItem-EnhancedRelocCompleteReq-IEs"),
  .type (text% "RAB-SetupItem-EnhancedRelocCompleteReq") (.seq (.cons (text% "rAB-ID") (.ref (text% "RAB-ID")) false (.cons (text% "transportLayerAddressReq1") (.ref (text% "TransportLayerAddress")) true (.cons (text% "iuTransportAssociationReq1") (.ref (text% "IuTransportAssociation")) true (.cons (text% "ass-RAB-Parameters") (.ref (text% "Ass-RAB-Parameters")) true (.cons (text% "iE-Extensions") (.app (text% "ProtocolExtensionContainer") [text% "RAB-SetupItem-EnhancedRelocCompleteReq-ExtIEs"]) true .nil))))) (some .nil)),
  .object (text% "RAB-SetupItem-EnhancedRelocCompleteReq-ExtIEs"),
  .object (text% "EnhancedRelocationCompleteRequestExtensions"),
  .type (text% "EnhancedRelocationCompleteResponse") (.seq (.cons (text% "protocolIEs") (.app (text% "ProtocolIE-Container") [text% "EnhancedRelocationCompleteResponseIEs"]) false (.cons (text% "protocolExtensions") (.app (text% "ProtocolExtensionContainer") [text% "EnhancedRelocationCompleteResponseExtensions"]) true .nil)) (some .nil)),
  .object (text% "EnhancedRelocationCompleteResponseIEs"),
  .type (text% "RAB-SetupList-EnhancedRelocCompleteRes") (.app (text% "RAB-IE-ContainerList") [text% "RAB-SetupItem-EnhancedRelocCompleteRes-IEs"]),
  .object (text% "RAB-SetupItem-EnhancedRelocCompleteRes-IEs"),
  .type (text% "RAB-SetupItem-EnhancedRelocCompleteRes") (.seq (.cons (text% "rAB-ID") (.ref (text% "RAB-ID")) false (.cons (text% "rAB-Parameters") (.ref (text% "RAB-Parameters")) true (.cons (text% "userPlaneInformation") (.ref (text% "UserPlaneInformation")) false (.cons (text% "transportLayerAddressRes1") (.ref (text% "TransportLayerAddress")) true (.cons (text% "iuTransportAssociationRes1") (.ref (text% "IuTransportAssociation")) true (.cons (text% "rab2beReleasedList") (.ref (text% "RAB-ToBeReleasedList-EnhancedRelocCompleteRes")) true (.cons (text% "iE-Extensions") (.app (text% "ProtocolExtensionContainer") [text% "RAB-SetupItem-EnhancedRelocCompleteRes-ExtIEs"]) true .nil))))))) (some .nil)),
  .object (text% "RAB-SetupItem-EnhancedRelocCompleteRes-ExtIEs"),
  .type (text% "RAB-ToBeReleasedList-EnhancedRelocCompleteRes") (.app (text% "RAB-IE-ContainerList") [text% "RAB-ToBeReleasedItem-EnhancedRelocCompleteRes-IEs"]),
  .object (text% "RAB-ToBeReleasedItem-EnhancedRelocCompleteRes-IEs"),
  .type (text% "RAB-ToBeReleasedItem-EnhancedRelocCompleteRes") (.seq (.cons (text% "rAB-ID") (.ref (text% "RAB-ID")) false (.cons (text% "cause") (.ref (text% "Cause")) false (.cons (text% "iE-Extensions") (.app (text% "ProtocolExtensionContainer") [text% "RAB-ToBeReleasedItem-EnhancedRelocCompleteRes-ExtIEs"]) true .nil))) (some .nil)),
  .object (text% "RAB-ToBeReleasedItem-EnhancedRelocCompleteRes-ExtIEs"),
  .object (text% "EnhancedRelocationCompleteResponseExtensions"),
  .type (text% "EnhancedRelocationCompleteFailure") (.seq (.cons (text% "protocolIEs") (.app (text% "ProtocolIE-Container") [text% "EnhancedRelocationCompleteFailureIEs"]) false (.cons (text% "protocolExtensions") (.app (text% "ProtocolExtensionContainer") [text% "EnhancedRelocationCompleteFailureExtensions"]) true .nil)) (some .nil)),
  .object (text% "EnhancedRelocationCompleteFailureIEs"),
  .object (text% "EnhancedRelocationCompleteFailureExtensions"),
  .type (text% "EnhancedRelocationCompleteConfirm") (.seq (.cons (text% "protocolIEs") (.app (text% "ProtocolIE-Container") [text% "EnhancedRelocationCompleteConfirmIEs"]) false (.cons (text% "protocolExtensions") (.app (text% "ProtocolExtensionContainer") [text% "EnhancedRelocationCompleteConfirmExtensions"]) true .nil)) (some .nil)),
  .object (text% "EnhancedRelocationCompleteConfirmIEs"),
  .object (text% "EnhancedRelocationCompleteConfirmExtensions"),
  .type (text% "Paging") (.seq (.cons (text% "protocolIEs") (.app (text% "ProtocolIE-Container") [text% "PagingIEs"]) false (.cons (text% "protocolExtensions") (.app (text% "ProtocolExtensionContainer") [text% "PagingExtensions"]) true .nil)) (some .nil)),
  .object (text% "PagingIEs"),
  .object (text% "PagingExtensions"),
  .type (text% "CommonID") (.seq (.cons (text% "protocolIEs") (.app (text% "ProtocolIE-Container") [text% "CommonID-IEs"]) false (.cons (text% "protocolExtensions") (.app (text% "ProtocolExtensionContainer") [text% "CommonIDExtensions"]) true .nil)) (some .nil)),
  .object (text% "CommonID-IEs"),
  .object (text% "CommonIDExtensions"),
  .type (text% "CN-InvokeTrace") (.seq (.cons (text% "protocolIEs") (.app (text% "ProtocolIE-Container") [text% "CN-InvokeTraceIEs"]) false (.cons (text% "protocolExtensions") (.app (text% "ProtocolExtensionContainer") [text% "CN-InvokeTraceExtensions"]) true .nil)) (some .nil)),
  .object (text% "CN-InvokeTraceIEs"),
  .object (text% "CN-InvokeTraceExtensions"),
  .type (text% "CN-DeactivateTrace") (.seq (.cons (text% "protocolIEs") (.app (text% "ProtocolIE-Container") [text% "CN-DeactivateTraceIEs"]) false (.cons (text% "protocolExtensions") (.app (text% "ProtocolExtensionContainer") [text% "CN-DeactivateTraceExtensions"]) true .nil)) (some .nil)),
  .object (text% "CN-DeactivateTraceIEs"),
  .object (text% "CN-DeactivateTraceExtensions"),
  .type (text% "LocationReportingControl") (.seq (.cons (text% "protocolIEs") (.app (text% "ProtocolIE-Container") [text% "LocationReportingControlIEs"]) false (.cons (text% "protocolExtensions") (.app (text% "ProtocolExtensionContainer") [text% "LocationReportingControlExtensions"]) true .nil)) (some .nil)),
  .object (text% "LocationReportingControlIEs"),
  .object (text% "LocationReportingControlExtensions"),
  .type (text% "LocationReport") (.seq (.cons (text% "protocolIEs") (.app (text% "ProtocolIE-Container") [text% "LocationReportIEs"]) false (.cons (text% "protocolExtensions") (.app (text% "ProtocolExtensionContainer") [text% "LocationReportExtensions"]) true .nil)) (some .nil)),
  .object (text% "LocationReportIEs"),
  .object (text% "LocationReportExtensions"),
  .type (text% "InitialUE-Message") (.seq (.cons (text% "protocolIEs") (.app (text% "ProtocolIE-Container") [text% "InitialUE-MessageIEs"]) false (.cons (text% "protocolExtensions") (.app (text% "ProtocolExtensionContainer") [text% "InitialUE-MessageExtensions"]) true .nil)) (some .nil)),
  .object (text% "InitialUE-MessageIEs"),
  .object (text% "InitialUE-MessageExtensions"),
  .type (text% "DirectTransfer") (.seq (.cons (text% "protocolIEs") (.app (text% "ProtocolIE-Container") [text% "DirectTransferIEs"]) false (.cons (text% "protocolExtensions") (.app (text% "ProtocolExtensionContainer") [text% "DirectTransferExtensions"]) true .nil)) (some .nil)),
  .object (text% "DirectTransferIEs"),
  .object (text% "DirectTransferExtensions"),
  .type (text% "RedirectionIndication") (.app (text% "ProtocolIE-Container") [text% "RedirectionIndication-IEs"]),
  .object (text% "RedirectionIndication-IEs"),
  .type (text% "Overload") (.seq (.cons (text% "protocolIEs") (.app (text% "ProtocolIE-Container") [text% "OverloadIEs"]) false (.cons (text% "protocolExtensions") (.app (text% "ProtocolExtensionContainer") [text% "OverloadExtensions"]) true .nil)) (some .nil)),
  .object (text% "OverloadIEs"),
  .object (text% "OverloadExtensions"),
  .type (text% "ErrorIndication") (.seq (.cons (text% "protocolIEs") (.app (text% "ProtocolIE-Container") [text% "ErrorIndicationIEs"]) false (.cons (text% "protocolExtensions") (.app (text% "ProtocolExtensionContainer") [text% "ErrorIndicationExtensions"]) true .nil)) (some .nil)),
  .object (text% "ErrorIndicationIEs"),
  .object (text% "ErrorIndicationExtensions"),
  .type (text% "SRNS-DataForwardCommand") (.seq (.cons (text% "protocolIEs") (.app (text% "ProtocolIE-Container") [text% "SRNS-DataForwardCommandIEs"]) false (.cons (text% "protocolExtensions") (.app (text% "ProtocolExtensionContainer") [text% "SRNS-DataForwardCommandExtensions"]) true .nil)) (some .nil)),
  .object (text% "SRNS-DataForwardCommandIEs"),
  .object (text% "SRNS-DataForwardCommandExtensions"),
  .type (text% "ForwardSRNS-Context") (.seq (.cons (text% "protocolIEs") (.app (text% "ProtocolIE-Container") [text% "ForwardSRNS-ContextIEs"]) false (.cons (text% "protocolExtensions") (.app (text% "ProtocolExtensionContainer") [text% "ForwardSRNS-ContextExtensions"]) true .nil)) (some .nil)),
  .object (text% "ForwardSRNS-ContextIEs"),
  .object (text% "ForwardSRNS-ContextExtensions"),
  .type (text% "RAB-AssignmentRequest") (.seq (.cons (text% "protocolIEs") (.app (text% "ProtocolIE-Container") [text% "RAB-AssignmentRequestIEs"]) false (.cons (text% "protocolExtensions") (.app (text% "ProtocolExtensionContainer") [text% "RAB-AssignmentRequestExtensions"]) true .nil)) (some .nil)),
  .object (text% "RAB-AssignmentRequestIEs"),
  .type (text% "RAB-SetupOrModifyList") (.app (text% "RAB-IE-ContainerPairList") [text% "RAB-SetupOrModifyItem-IEs"]),
  .object (text% "RAB-SetupOrModifyItem-IEs"),
  .type (text% "RAB-SetupOrModifyItemFirst") (.seq (.cons (text% "rAB-ID") (.ref (text% "RAB-ID")) false (.cons (text% "nAS-SynchronisationIndicator") (.ref (text% "NAS-SynchronisationIndicator")) true (.cons (text% "rAB-Parameters") (.ref (text% "RAB-Parameters")) true (.cons (text% "userPlaneInformation") (.ref (text% "UserPlaneInformation")) true (.cons (text% "transportLayerInformation") (.ref (text% "TransportLayerInformation")) true (.cons (text% "service-Handover") (.ref (text% "Service-Handover")) true (.cons (text% "iE-Extensions") (.app (text% "ProtocolExtensionContainer") [text% "RAB-SetupOrModifyItemFirst-ExtIEs"]) true .nil))))))) (some .nil)),
  .type (text% "TransportLayerInformation") (.seq (.cons (text% "transportLayerAddress") (.ref (text% "TransportLayerAddress")) false (.cons (text% "iuTransportAssociation") (.ref (text% "IuTransportAssociation")) false (.cons (text% "iE-Extensions") (.app (text% "ProtocolExtensionContainer") [text% "TransportLayerInformation-ExtIEs"]) true .nil))) (some .nil)),
  .object (text% "TransportLayerInformation-ExtIEs"),
  .object (text% "RAB-SetupOrModifyItemFirst-ExtIEs"),
  .type (text% "RAB-SetupOrModifyItemSecond") (.seq (.cons (text% "pDP-TypeInformation") (.ref (text% "PDP-TypeInformation")) true (.cons (text% "dataVolumeReportingIndication") (.ref (text% "DataVolumeReportingIndication")) true (.cons (text% "dl-GTP-PDU-SequenceNumber") (.ref (text% "DL-GTP-PDU-SequenceNumber")) true (.cons (text% "ul-GTP-PDU-SequenceNumber") (.ref (text% "UL-GTP-PDU-SequenceNumber")) true (.cons (text% "dl-N-PDU-SequenceNumber") (.ref (text% "DL-N-PDU-SequenceNumber")) true (.cons (text% "ul-N-PDU-SequenceNumber") (.ref (text% "UL-N-PDU-SequenceNumber")) true (.cons (text% "iE-Extensions") (.app (text% "ProtocolExtensionContainer") [text% "RAB-SetupOrModifyItemSecond-ExtIEs"]) true .nil))))))) (some .nil)),
  .object (text% "RAB-SetupOrModifyItemSecond-ExtIEs"),
  .object (text% "RAB-AssignmentRequestExtensions"),
  .type (text% "RAB-AssignmentResponse") (.seq (.cons (text% "protocolIEs") (.app (text% "ProtocolIE-Container") [text% "RAB-AssignmentResponseIEs"]) false (.cons (text% "protocolExtensions") (.app (text% "ProtocolExtensionContainer") [text% "RAB-AssignmentResponseExtensions"]) true .nil)) (some .nil)),
  .object (text% "RAB-AssignmentResponseIEs"),
  .type (text% "RAB-SetupOrModifiedList") (.app (text% "RAB-IE-ContainerList") [text% "RAB-SetupOrModifiedItemIEs"]),
  .object (text% "RAB-SetupOrModifiedItemIEs"),
  .type (text% "RAB-SetupOrModifiedItem") (.seq (.cons (text% "rAB-ID") (.ref (text% "RAB-ID")) false (.cons (text% "transportLayerAddress") (.ref (text% "TransportLayerAddress")) true (.cons (text% "iuTransportAssociation") (.ref (text% "IuTransportAssociation")) true (.cons (text% "dl-dataVolumes") (.ref (text% "DataVolumeList")) true (.cons (text% "iE-Extensions") (.app (text% "ProtocolExtensionContainer") [text% "RAB-SetupOrModifiedItem-ExtIEs"]) true .nil))))) (some .nil)),
  .object (text% "RAB-SetupOrModifiedItem-ExtIEs"),
  .type (text% "RAB-ReleasedList") (.app (text% "RAB-IE-ContainerList") [text% "RAB-ReleasedItemIEs"]),
  .object (text% "RAB-ReleasedItemIEs"),
  .type (text% "RAB-ReleasedItem") (.seq (.cons (text% "rAB-ID") (.ref (text% "RAB-ID")) false (.cons (text% "dl-dataVolumes") (.ref (text% "DataVolumeList")) true (.cons (text% "dL-GTP-PDU-SequenceNumber") (.ref (text% "DL-GTP-PDU-SequenceNumber")) true (.cons (text% "uL-GTP-PDU-SequenceNumber") (.ref (text% "UL-GTP-PDU-SequenceNumber")) true (.cons (text% "iE-Extensions") (.app (text% "ProtocolExtensionContainer") [text% "RAB-ReleasedItem-ExtIEs"]) true .nil))))) (some .nil)),
  .object (text% "RAB-ReleasedItem-ExtIEs"),
  .type (text% "DataVolumeList") (.seqOf (some ⟨text% "1", text% "maxNrOfVol", false⟩) (.ref (text% "DataVolumeList-Value"))),
  .type (text% "DataVolumeList-Value") (.seq (.cons (text% "dl-UnsuccessfullyTransmittedDataVolume") (.ref (text% "UnsuccessfullyTransmittedDataVolume")) false (.cons (text% "dataVolumeReference") (.ref (text% "DataVolumeReference")) true (.cons (text% "iE-Extensions") (.app (text% "ProtocolExtensionContainer") [text% "DataVolumeList-ExtIEs"]) true .nil))) (some .nil)),
  .object (text% "DataVolumeList-ExtIEs"),
  .type (text% "RAB-QueuedList") (.app (text% "RAB-IE-ContainerList") [text% "RAB-QueuedItemIEs"]),
  .object (text% "RAB-QueuedItemIEs"),
  .type (text% "RAB-QueuedItem") (.seq (.cons (text% "rAB-ID") (.ref (text% "RAB-ID")) false (.cons (text% "iE-Extensions") (.app (text% "ProtocolExtensionContainer") [text% "RAB-QueuedItem-ExtIEs"]) true .nil)) (some .nil)),
  .object (text% "RAB-QueuedItem-ExtIEs"),
  .type (text% "RAB-ReleaseFailedList") (.ref (text% "RAB-FailedList")),
  .object (text% "RAB-AssignmentResponseExtensions"),
  .type (text% "GERAN-Iumode-RAB-FailedList-RABAssgntResponse") (.app (text% "RAB-IE-ContainerList") [text% "GERAN-Iumode-RAB-Failed-RABAssgntResponse-ItemIEs"]),
  .object (text% "GERAN-Iumode-RAB-Failed-RABAssgntResponse-ItemIEs"),
  .type (text% "GERAN-Iumode-RAB-Failed-RABAssgntResponse-Item") (.seq (.cons (text% "rAB-ID") (.ref (text% "RAB-ID")) false (.cons (text% "cause") (.ref (text% "Cause")) false (.cons (text% "gERAN-Classmark") (.ref (text% "GERAN-Classmark")) true (.cons (text% "iE-Extensions") (.app (text% "ProtocolExtensionContainer") [text% "GERAN-Iumode-RAB-Failed-RABAssgntResponse-Item-ExtIEs"]) true .nil)))) (some .nil)),
  .object (text% "GERAN-Iumode-RAB-Failed-RABAssgntResponse-Item-ExtIEs"),
  .type (text% "PrivateMessage") (.seq (.cons (text% "privateIEs") (.app (text% "PrivateIE-Container") [text% "PrivateMessage-IEs"]) false .nil) (some .nil)),
  .object (text% "PrivateMessage-IEs"),
  .type (text% "RANAP-RelocationInformation") (.seq (.cons (text% "protocolIEs") (.app (text% "ProtocolIE-Container") [text% "RANAP-RelocationInformationIEs"]) false (.cons (text% "protocolExtensions") (.app (text% "ProtocolExtensionContainer") [text% "RANAP-RelocationInformationExtensions"]) true .nil)) (some .nil)),
  .object (text% "RANAP-RelocationInformationIEs"),
  .type (text% "DirectTransferInformationList-RANAP-RelocInf") (.app (text% "DirectTransfer-IE-ContainerList") [text% "DirectTransferInformationItemIEs-RANAP-RelocInf"]),
  .object (text% "DirectTransferInformationItemIEs-RANAP-RelocInf"),
  .type (text% "DirectTransferInformationItem-RANAP-RelocInf") (.seq (.cons (text% "nAS-PDU") (.ref (text% "NAS-PDU")) false (.cons (text% "sAPI") (.ref (text% "SAPI")) false (.cons (text% "cN-DomainIndicator") (.ref (text% "CN-DomainIndicator")) false (.cons (text% "iE-Extensions") (.app (text% "ProtocolExtensionContainer") [text% "RANAP-DirectTransferInformationItem-ExtIEs-RANAP-RelocInf"]) true .nil)))) (some .nil)),
  .object (text% "RANAP-DirectTransferInformationItem-ExtIEs-RANAP-RelocInf"),
  .type (text% "RAB-ContextList-RANAP-RelocInf") (.app (text% "RAB-IE-ContainerList") [text% "RAB-ContextItemIEs-RANAP-RelocInf"]),
  .object (text% "RAB-ContextItemIEs-RANAP-RelocInf"),
  .type (text% "RAB-ContextItem-RANAP-RelocInf") (.seq (.cons (text% "rAB-ID") (.ref (text% "RAB-ID")) false (.cons (text% "dl-GTP-PDU-SequenceNumber") (.ref (text% "DL-GTP-PDU-SequenceNumber")) true (.cons (text% "ul-GTP-PDU-SequenceNumber") (.ref (text% "UL-GTP-PDU-SequenceNumber")) true (.cons (text% "dl-N-PDU-SequenceNumber") (.ref (text% "DL-N-PDU-SequenceNumber")) true (.cons (text% "ul-N-PDU-SequenceNumber") (.ref (text% "UL-N-PDU-SequenceNumber")) true (.cons (text% "iE-Extensions") (.app (text% "ProtocolExtensionContainer") [text% "RAB-ContextItem-ExtIEs-RANAP-RelocInf"]) true .nil)))))) (some .nil)),
  .object (text% "RAB-ContextItem-ExtIEs-RANAP-RelocInf"),
  .object (text% "RANAP-RelocationInformationExtensions"),
  .type (text% "RANAP-EnhancedRelocationInformationRequest") (.seq (.cons (text% "protocolIEs") (.app (text% "ProtocolIE-Container") [text% "RANAP-EnhancedRelocationInformationRequestIEs"]) false (.cons (text% "protocolExtensions") (.app (text% "ProtocolExtensionContainer") [text% "RANAP-EnhancedRelocationInformationRequestExtensions"]) true .nil)) (some .nil)),
  .object (text% "RANAP-EnhancedRelocationInformationRequestIEs"),
  .type (text% "RAB-SetupList-EnhRelocInfoReq") (.app (text% "RAB-IE-ContainerList") [text% "RAB-SetupItem-EnhRelocInfoReq-IEs"]),
  .object (text% "RAB-SetupItem-EnhRelocInfoReq-IEs"),
  .type (text% "RAB-SetupItem-EnhRelocInfoReq") (.seq (.cons (text% "rAB-ID") (.ref (text% "RAB-ID")) false (.cons (text% "cN-DomainIndicator") (.ref (text% "CN-DomainIndicator")) false (.cons (text% "rAB-Parameters") (.ref (text% "RAB-Parameters")) false (.cons (text% "dataVolumeReportingIndication") (.ref (text% "DataVolumeReportingIndication")) true (.cons (text% "pDP-TypeInformation") (.ref (text% "PDP-TypeInformation")) true (.cons (text% "userPlaneInformation") (.ref (text% "UserPlaneInformation")) false (.cons (text% "dataForwardingInformation") (.ref (text% "TNLInformationEnhRelInfoReq")) true (.cons (text% "sourceSideIuULTNLInfo") (.ref (text% "TNLInformationEnhRelInfoReq")) true (.cons (text% "service-Handover") (.ref (text% "Service-Handover")) true (.cons (text% "alt-RAB-Parameters") (.ref (text% "Alt-RAB-Parameters")) true (.cons (text% "iE-Extensions") (.app (text% "ProtocolExtensionContainer") [text% "RAB-SetupItem-EnhRelocInfoReq-ExtIEs"]) true .nil))))))))))) (some .nil)),
  .object (text% "RAB-SetupItem-EnhRelocInfoReq-ExtIEs"),
  .type (text% "TNLInformationEnhRelInfoReq") (.seq (.cons (text% "transportLayerAddress") (.ref (text% "TransportLayerAddress")) false (.cons (text% "iuTransportAssociation") (.ref (text% "IuTransportAssociation")) false (.cons (text% "iE-Extensions") (.app (text% "ProtocolExtensionContainer") [text% "TNLInformationEnhRelInfoReq-ExtIEs"]) true .nil))) (some .nil)),
  .object (text% "TNLInformationEnhRelInfoReq-ExtIEs"),
  .object (text% "RANAP-EnhancedRelocationInformationRequestExtensions"),
  .type (text% "RANAP-EnhancedRelocationInformationResponse") (.seq (.cons (text% "protocolIEs") (.app (text% "ProtocolIE-Container") [text% "RANAP-EnhancedRelocationInformationResponseIEs"]) false (.cons (text% "protocolExtensions") (.app (text% "ProtocolExtensionContainer") [text% "RANAP-EnhancedRelocationInformationResponseExtensions"]) true .nil)) (some .nil)),
  .object (text% "RANAP-EnhancedRelocationInformationResponseIEs"),
  .type (text% "RAB-SetupList-EnhRelocInfoRes") (.app (text% "RAB-IE-ContainerList") [text% "RAB-SetupItem-EnhRelocInfoRes-IEs"]),
  .object (text% "RAB-SetupItem-EnhRelocInfoRes-IEs"),
  .type (text% "RAB-SetupItem-EnhRelocInfoRes") (.seq (.cons (text% "cN-DomainIndicator") (.ref (text% "CN-DomainIndicator")) false (.cons (text% "rAB-ID") (.ref (text% "RAB-ID")) false (.cons (text% "dataForwardingInformation") (.ref (text% "TNLInformationEnhRelInfoRes")) true (.cons (text% "ass-RAB-Parameters") (.ref (text% "Ass-RAB-Parameters")) true (.cons (text% "iE-Extensions") (.app (text% "ProtocolExtensionContainer") [text% "RAB-SetupItem-EnhRelocInfoRes-ExtIEs"]) true .nil))))) (some .nil)),
  .object (text% "RAB-SetupItem-EnhRelocInfoRes-ExtIEs"),
  .type (text% "RAB-FailedList-EnhRelocInfoRes") (.app (text% "RAB-IE-ContainerList") [text% "RAB-FailedItem-EnhRelocInfoRes-IEs"]),
  .object (text% "RAB-FailedItem-EnhRelocInfoRes-IEs"),
  .type (text% "RAB-FailedItem-EnhRelocInfoRes") (.seq (.cons (text% "cN-DomainIndicator") (.ref (text% "CN-DomainIndicator")) false (.cons (text% "rAB-ID") (.ref (text% "RAB-ID")) false (.cons (text% "cause") (.ref (text% "Cause")) false (.cons (text% "iE-Extensions") (.app (text% "ProtocolExtensionContainer") [text% "RAB-FailedItem-EnhRelocInfoRes-ExtIEs"]) true .nil)))) (some .nil)),
  .object (text% "RAB-FailedItem-EnhRelocInfoRes-ExtIEs"),
  .type (text% "TNLInformationEnhRelInfoRes") (.seq (.cons (text% "dl-forwardingTransportLayerAddress") (.ref (text% "TransportLayerAddress")) false (.cons (text% "dl-forwardingTransportAssociation") (.ref (text% "IuTransportAssociation")) false (.cons (text% "iE-Extensions") (.app (text% "ProtocolExtensionContainer") [text% "TNLInformationEnhRelInfoRes-ExtIEs"]) true .nil))) (some .nil)),
  .object (text% "TNLInformationEnhRelInfoRes-ExtIEs"),
  .object (text% "RANAP-EnhancedRelocationInformationResponseExtensions"),
  .type (text% "RAB-ModifyRequest") (.seq (.cons (text% "protocolIEs") (.app (text% "ProtocolIE-Container") [text% "RAB-ModifyRequestIEs"]) false (.cons (text% "protocolExtensions") (.app (text% "ProtocolExtensionContainer") [text% "RAB-ModifyRequestExtensions"]) true .nil)) (some .nil)),
  .object (text% "RAB-ModifyRequestIEs"),
  .type (text% "RAB-ModifyList") (.app (text% "RAB-IE-ContainerList") [text% "RAB-ModifyItemIEs"]),
  .object (text% "RAB-ModifyItemIEs"),
  .type (text% "RAB-ModifyItem") (.seq (.cons (text% "rAB-ID") (.ref (text% "RAB-ID")) false (.cons (text% "requested-RAB-Parameter-Values") (.ref (text% "Requested-RAB-Parameter-Values")) false (.cons (text% "iE-Extensions") (.app (text% "ProtocolExtensionContainer") [text% "RAB-ModifyItem-ExtIEs"]) true .nil))) (some .nil)),
  .object (text% "RAB-ModifyItem-ExtIEs"),
  .object (text% "RAB-ModifyRequestExtensions"),
  .type (text% "LocationRelatedDataRequest") (.seq (.cons (text% "protocolIEs") (.app (text% "ProtocolIE-Container") [text% "LocationRelatedDataRequestIEs"]) false (.cons (text% "protocolExtensions") (.app (text% "ProtocolExtensionContainer") [text% "LocationRelatedDataRequestExtensions"]) true .nil)) (some .nil)),
  .object (text% "LocationRelatedDataRequestIEs"),
  .object (text% "LocationRelatedDataRequestExtensions"),
  .type (text% "LocationRelatedDataResponse") (.seq (.cons (text% "protocolIEs") (.app (text% "ProtocolIE-Container") [text% "LocationRelatedDataResponseIEs"]) false (.cons (text% "protocolExtensions") (.app (text% "ProtocolExtensionContainer") [text% "LocationRelatedDataResponseExtensions"]) true .nil)) (some .nil)),
  .object (text% "LocationRelatedDataResponseIEs"),
  .object (text% "LocationRelatedDataResponseExtensions"),
  .type (text% "LocationRelatedDataFailure") (.seq (.cons (text% "protocolIEs") (.app (text% "ProtocolIE-Container") [text% "LocationRelatedDataFailureIEs"]) false (.cons (text% "protocolExtensions") (.app (text% "ProtocolExtensionContainer") [text% "LocationRelatedDataFailureExtensions"]) true .nil)) (some .nil)),
  .object (text% "LocationRelatedDataFailureIEs"),
  .object (text% "LocationRelatedDataFailureExtensions"),
  .type (text% "InformationTransferIndication") (.seq (.cons (text% "protocolIEs") (.app (text% "ProtocolIE-Container") [text% "InformationTransferIndicationIEs"]) false (.cons (text% "protocolExtensions") (.app (text% "ProtocolExtensionContainer") [text% "InformationTransferIndicationExtensions"]) true .nil)) (some .nil)),
  .object (text% "InformationTransferIndicationIEs"),
  .object (text% "InformationTransferIndicationExtensions"),
  .type (text% "InformationTransferConfirmation") (.seq (.cons (text% "protocolIEs") (.app (text% "ProtocolIE-Container") [text% "InformationTransferConfirmationIEs"]) false (.cons (text% "protocolExtensions") (.app (text% "ProtocolExtensionContainer") [text% "InformationTransferConfirmationExtensions"]) true .nil)) (some .nil)),
  .object (text% "InformationTransferConfirmationIEs"),
  .object (text% "InformationTransferConfirmationExtensions"),
  .type (text% "InformationTransferFailure") (.seq (.cons (text% "protocolIEs") (.app (text% "ProtocolIE-Container") [text% "InformationTransferFailureIEs"]) false (.cons (text% "protocolExtensions") (.app (text% "ProtocolExtensionContainer") [text% "InformationTransferFailureExtensions"]) true .nil)) (some .nil)),
  .object (text% "InformationTransferFailureIEs"),
  .object (text% "InformationTransferFailureExtensions"),
  .type (text% "UESpecificInformationIndication") (.seq (.cons (text% "protocolIEs") (.app (text% "ProtocolIE-Container") [text% "UESpecificInformationIndicationIEs"]) false (.cons (text% "protocolExtensions") (.app (text% "ProtocolExtensionContainer") [text% "UESpecificInformationIndicationExtensions"]) true .nil)) (some .nil)),
  .object (text% "UESpecificInformationIndicationIEs"),
  .object (text% "UESpecificInformationIndicationExtensions"),
  .type (text% "DirectInformationTransfer") (.seq (.cons (text% "protocolIEs") (.app (text% "ProtocolIE-Container") [text% "DirectInformationTransferIEs"]) false (.cons (text% "protocolExtensions") (.app (text% "ProtocolExtensionContainer") [text% "DirectInformationTransferExtensions"]) true .nil)) (some .nil)),
  .object (text% "DirectInformationTransferIEs"),
  .object (text% "DirectInformationTransferExtensions"),
  .type (text% "UplinkInformationExchangeRequest") (.seq (.cons (text% "protocolIEs") (.app (text% "ProtocolIE-Container") [text% "UplinkInformationExchangeRequestIEs"]) false (.cons (text% "protocolExtensions") (.app (text% "ProtocolExtensionContainer") [text% "UplinkInformationExchangeRequestExtensions"]) true .nil)) (some .nil)),
  .object (text% "UplinkInformationExchangeRequestIEs"),
  .object (text% "UplinkInformationExchangeRequestExtensions"),
  .type (text% "UplinkInformationExchangeResponse") (.seq (.cons (text% "protocolIEs") (.app (text% "ProtocolIE-Container") [text% "UplinkInformationExchangeResponseIEs"]) false (.cons (text% "protocolExtensions") (.app (text% "ProtocolExtensionContainer") [text% "UplinkInformationExchangeResponseExtensions"]) true .nil)) (some .nil)),
  .object (text% "UplinkInformationExchangeResponseIEs"),
  .object (text% "UplinkInformationExchangeResponseExtensions"),
  .type (text% "UplinkInformationExchangeFailure") (.seq (.cons (text% "protocolIEs") (.app (text% "ProtocolIE-Container") [text% "UplinkInformationExchangeFailureIEs"]) false (.cons (text% "protocolExtensions") (.app (text% "ProtocolExtensionContainer") [text% "UplinkInformationExchangeFailureExtensions"]) true .nil)) (some .nil)),
  .object (text% "UplinkInformationExchangeFailureIEs"),
  .object (text% "UplinkInformationExchangeFailureExtensions"),
  .type (text% "MBMSSessionStart") (.seq (.cons (text% "protocolIEs") (.app (text% "ProtocolIE-Container") [text% "MBMSSessionStartIEs"]) false (.cons (text% "protocolExtensions") (.app (text% "ProtocolExtensionContainer") [text% "MBMSSessionStartExtensions"]) true .nil)) (some .nil)),
  .object (text% "MBMSSessionStartIEs"),
  .object (text% "MBMSSessionStartExtensions"),
  .type (text% "MBMSSynchronisationInformation") (.seq (.cons (text% "mBMSHCIndicator") (.ref (text% "MBMSHCIndicator")) false (.cons (text% "iPMulticastAddress") (.ref (text% "IPMulticastAddress")) false (.cons (text% "gTPDLTEID") (.ref (text% "GTP-TEI")) false (.cons (text% "iE-Extensions") (.app (text% "ProtocolExtensionContainer") [text% "MBMSSynchronisationInformation-ExtIEs"]) true .nil)))) (some .nil)),
  .object (text% "MBMSSynchronisationInformation-ExtIEs"),
  .type (text% "MBMSSessionStartResponse") (.seq (.cons (text% "protocolIEs") (.app (text% "ProtocolIE-Container") [text% "MBMSSessionStartResponseIEs"]) false (.cons (text% "protocolExtensions") (.app (text% "ProtocolExtensionContainer") [text% "MBMSSessionStartResponseExtensions"]) true .nil)) (some .nil)),
  .object (text% "MBMSSessionStartResponseIEs"),
  .object (text% "MBMSSessionStartResponseExtensions"),
  .type (text% "MBMSSessionStartFailure") (.seq (.cons (text% "protocolIEs") (.app (text% "ProtocolIE-Container") [text% "MBMSSessionStartFailureIEs"]) false (.cons (text% "protocolExtensions") (.app (text% "ProtocolExtensionContainer") [text% "MBMSSessionStartFailureExtensions"]) true .nil)) (some .nil)),
  .object (text% "MBMSSessionStartFailureIEs"),
  .object (text% "MBMSSessionStartFailureExtensions"),
  .type (text% "MBMSSessionUpdate") (.seq (.cons (text% "protocolIEs") (.app (text% "ProtocolIE-Container") [text% "MBMSSessionUpdateIEs"]) false (.cons (text% "protocolExtensions") (.app (text% "ProtocolExtensionContainer") [text% "MBMSSessionUpdateExtensions"]) true .nil)) (some .nil)),
  .object (text% "MBMSSessionUpdateIEs"),
  .object (text% "MBMSSessionUpdateExtensions"),
  .type (text% "MBMSSessionUpdateResponse") (.seq (.cons (text% "protocolIEs") (.app (text% "ProtocolIE-Container") [text% "MBMSSessionUpdateResponseIEs"]) false (.cons (text% "protocolExtensions") (.app (text% "ProtocolExtensionContainer") [text% "MBMSSessionUpdateResponseExtensions"]) true .nil)) (some .nil)),
  .object (text% "MBMSSessionUpdateResponseIEs"),
  .object (text% "MBMSSessionUpdateResponseExtensions"),
  .type (text% "MBMSSessionUpdateFailure") (.seq (.cons (text% "protocolIEs") (.app (text% "ProtocolIE-Container") [text% "MBMSSessionUpdateFailureIEs"]) false (.cons (text% "protocolExtensions") (.app (text% "ProtocolExtensionContainer") [text% "MBMSSessionUpdateFailureExtensions"]) true .nil)) (some .nil)),
  .object (text% "MBMSSessionUpdateFailureIEs"),
  .object (text% "MBMSSessionUpdateFailureExtensions"),
  .type (text% "MBMSSessionStop") (.seq (.cons (text% "protocolIEs") (.app (text% "ProtocolIE-Container") [text% "MBMSSessionStopIEs"]) false (.cons (text% "protocolExtensions") (.app (text% "ProtocolExtensionContainer") [text% "MBMSSessionStopExtensions"]) true .nil)) (some .nil)),
  .object (text% "MBMSSessionStopIEs"),
  .object (text% "MBMSSessionStopExtensions"),
  .type (text% "MBMSSessionStopResponse") (.seq (.cons (text% "protocolIEs") (.app (text% "ProtocolIE-Container") [text% "MBMSSessionStopResponseIEs"]) false (.cons (text% "protocolExtensions") (.app (text% "ProtocolExtensionContainer") [text% "MBMSSessionStopResponseExtensions"]) true .nil)) (some .nil)),
  .object (text% "MBMSSessionStopResponseIEs"),
  .object (text% "MBMSSessionStopResponseExtensions"),
  .type (text% "MBMSUELinkingRequest") (.seq (.cons (text% "protocolIEs") (.app (text% "ProtocolIE-Container") [text% "MBMSUELinkingRequestIEs"]) false (.cons (text% "protocolExtensions") (.app (text% "ProtocolExtensionContainer") [text% "MBMSUELinkingRequestExtensions"]) true .nil)) (some .nil)),
  .object (text% "MBMSUELinkingRequestIEs"),
  .type (text% "LeftMBMSBearerService-IEs") (.seqOf (some ⟨text% "1", text% "maxnoofMulticastServicesPerUE", false⟩) (.ref (text% "LeftMBMSBearerService-IEs-Value"))),
  .type (text% "LeftMBMSBearerService-IEs-Value") (.seq (.cons (text% "tMGI") (.ref (text% "TMGI")) false (.cons (text% "iE-Extensions") (.app (text% "ProtocolExtensionContainer") [text% "LeftMBMSBearerService-ExtIEs"]) true .nil)) (some .nil)),
  .object (text% "LeftMBMSBearerService-ExtIEs"),
  .object (text% "MBMSUELinkingRequestExtensions"),
  .type (text% "MBMSUELinkingResponse") (.seq (.cons (text% "protocolIEs") (.app (text% "ProtocolIE-Container") [text% "MBMSUELinkingResponseIEs"]) false (.cons (text% "protocolExtensions") (.app (text% "ProtocolExtensionContainer") [text% "MBMSUELinkingResponseExtensions"]) true .nil)) (some .nil)),
  .object (text% "MBMSUELinkingResponseIEs"),
  .type (text% "UnsuccessfulLinking-IEs") (.seqOf (some ⟨text% "1", text% "maxnoofMulticastServicesPerUE", false⟩) (.ref (text% "UnsuccessfulLinking-IEs-Value"))),
  .type (text% "UnsuccessfulLinking-IEs-Value") (.seq (.cons (text% "tMGI") (.ref (text% "TMGI")) false (.cons (text% "cause") (.ref (text% "Cause")) false (.cons (text% "iE-Extensions") (.app (text% "ProtocolExtensionContainer") [text% "UnsuccessfulLinking-ExtIEs"]) true .nil))) (some .nil)),
  .object (text% "UnsuccessfulLinking-ExtIEs"),
  .object (text% "MBMSUELinkingResponseExtensions"),
  .type (text% "MBMSRegistrationRequest") (.seq (.cons (text% "protocolIEs") (.app (text% "ProtocolIE-Container") [text% "MBMSRegistrationRequestIEs"]) false (.cons (text% "protocolExtensions") (.app (text% "ProtocolExtensionContainer") [text% "MBMSRegistrationRequestExtensions"]) true .nil)) (some .nil)),
  .object (text% "MBMSRegistrationRequestIEs"),
  .object (text% "MBMSRegistrationRequestExtensions"),
  .type (text% "MBMSRegistrationResponse") (.seq (.cons (text% "protocolIEs") (.app (text% "ProtocolIE-Container") [text% "MBMSRegistrationResponseIEs"]) false (.cons (text% "protocolExtensions") (.app (text% "ProtocolExtensionContainer") [text% "MBMSRegistrationResponseExtensions"]) true .nil)) (some .nil)),
  .object (text% "MBMSRegistrationResponseIEs"),
  .object (text% "MBMSRegistrationResponseExtensions"),
  .type (text% "MBMSRegistrationFailure") (.seq (.cons (text% "protocolIEs") (.app (text% "ProtocolIE-Container") [text% "MBMSRegistrationFailureIEs"]) false (.cons (text% "protocolExtensions") (.app (text% "ProtocolExtensionContainer") [text% "MBMSRegistrationFailureExtensions"]) true .nil)) (some .nil)),
  .object (text% "MBMSRegistrationFailureIEs"),
  .object (text% "MBMSRegistrationFailureExtensions"),
  .type (text% "MBMSCNDe-RegistrationRequest") (.seq (.cons (text% "protocolIEs") (.app (text% "ProtocolIE-Container") [text% "MBMSCNDe-RegistrationRequestIEs"]) false (.cons (text% "protocolExtensions") (.app (text% "ProtocolExtensionContainer") [text% "MBMSCNDe-RegistrationRequestExtensions"]) true .nil)) (some .nil)),
  .object (text% "MBMSCNDe-RegistrationRequestIEs"),
  .object (text% "MBMSCNDe-RegistrationRequestExtensions"),
  .type (text% "MBMSCNDe-RegistrationResponse") (.seq (.cons (text% "protocolIEs") (.app (text% "ProtocolIE-Container") [text% "MBMSCNDe-RegistrationResponseIEs"]) false (.cons (text% "protocolExtensions") (.app (text% "ProtocolExtensionContainer") [text% "MBMSCNDe-RegistrationResponseExtensions"]) true .nil)) (some .nil)),
  .object (text% "MBMSCNDe-RegistrationResponseIEs"),
  .object (text% "MBMSCNDe-RegistrationResponseExtensions"),
  .type (text% "MBMSRABEstablishmentIndication") (.seq (.cons (text% "protocolIEs") (.app (text% "ProtocolIE-Container") [text% "MBMSRABEstablishmentIndicationIEs"]) false (.cons (text% "protocolExtensions") (.app (text% "ProtocolExtensionContainer") [text% "MBMSRABEstablishmentIndicationExtensions"]) true .nil)) (some .nil)),
  .object (text% "MBMSRABEstablishmentIndicationIEs"),
  .object (text% "MBMSRABEstablishmentIndicationExtensions"),
  .type (text% "MBMSRABReleaseRequest") (.seq (.cons (text% "protocolIEs") (.app (text% "ProtocolIE-Container") [text% "MBMSRABReleaseRequestIEs"]) false (.cons (text% "protocolExtensions") (.app (text% "ProtocolExtensionContainer") [text% "MBMSRABReleaseRequestExtensions"]) true .nil)) (some .nil)),
  .object (text% "MBMSRABReleaseRequestIEs"),
  .object (text% "MBMSRABReleaseRequestExtensions"),
  .type (text% "MBMSRABRelease") (.seq (.cons (text% "protocolIEs") (.app (text% "ProtocolIE-Container") [text% "MBMSRABReleaseIEs"]) false (.cons (text% "protocolExtensions") (.app (text% "ProtocolExtensionContainer") [text% "MBMSRABReleaseExtensions"]) true .nil)) (some .nil)),
  .object (text% "MBMSRABReleaseIEs"),
  .object (text% "MBMSRABReleaseExtensions"),
  .type (text% "MBMSRABReleaseFailure") (.seq (.cons (text% "protocolIEs") (.app (text% "ProtocolIE-Container") [text% "MBMSRABReleaseFailureIEs"]) false (.cons (text% "protocolExtensions") (.app (text% "ProtocolExtensionContainer") [text% "MBMSRABReleaseFailureExtensions"]) true .nil)) (some .nil)),
  .object (text% "MBMSRABReleaseFailureIEs"),
  .object (text% "MBMSRABReleaseFailureExtensions"),
  .type (text% "SRVCC-CSKeysRequest") (.seq (.cons (text% "protocolIEs") (.app (text% "ProtocolIE-Container") [text% "SRVCC-CSKeysRequestIEs"]) false (.cons (text% "protocolExtensions") (.app (text% "ProtocolExtensionContainer") [text% "SRVCC-CSKeysRequestExtensions"]) true .nil)) (some .nil)),
  .object (text% "SRVCC-CSKeysRequestIEs"),
  .object (text% "SRVCC-CSKeysRequestExtensions"),
  .type (text% "SRVCC-CSKeysResponse") (.seq (.cons (text% "protocolIEs") (.app (text% "ProtocolIE-Container") [text% "SRVCC-CSKeysResponseIEs"]) false (.cons (text% "protocolExtensions") (.app (text% "ProtocolExtensionContainer") [text% "SRVCC-CSKeysResponseExtensions"]) true .nil)) (some .nil)),
  .object (text% "SRVCC-CSKeysResponseIEs"),
  .object (text% "SRVCC-CSKeysResponseExtensions"),
  .type (text% "UeRadioCapabilityMatchRequest") (.seq (.cons (text% "protocolIEs") (.app (text% "ProtocolIE-Container") [text% "UeRadioCapabilityMatchRequestIEs"]) false (.cons (text% "protocolExtensions") (.app (text% "ProtocolExtensionContainer") [text% "UeRadioCapabilityMatchRequestExtensions"]) true .nil)) (some .nil)),
  .object (text% "UeRadioCapabilityMatchRequestIEs"),
  .object (text% "UeRadioCapabilityMatchRequestExtensions"),
  .type (text% "UeRadioCapabilityMatchResponse") (.seq (.cons (text% "protocolIEs") (.app (text% "ProtocolIE-Container") [text% "UeRadioCapabilityMatchResponseIEs"]) false (.cons (text% "protocolExtensions") (.app (text% "ProtocolExtensionContainer") [text% "UeRadioCapabilityMatchResponseExtensions"]) true .nil)) (some .nil)),
  .object (text% "UeRadioCapabilityMatchResponseIEs"),
  .object (text% "UeRadioCapabilityMatchResponseExtensions")]

/-- Of `ranapDescriptions`. -/
noncomputable def ranapDescriptionsAssignments : List Assignment := [
  .cls (text% "RANAP-ELEMENTARY-PROCEDURE") [(text% "procedureCode", text% "ProcedureCode"), (text% "criticality", text% "Criticality")],
  .type (text% "RANAP-PDU") (.choice (.cons (text% "initiatingMessage") (.ref (text% "InitiatingMessage")) false (.cons (text% "successfulOutcome") (.ref (text% "SuccessfulOutcome")) false (.cons (text% "unsuccessfulOutcome") (.ref (text% "UnsuccessfulOutcome")) false (.cons (text% "outcome") (.ref (text% "Outcome")) false .nil)))) (some .nil)),
  .type (text% "InitiatingMessage") (.seq (.cons (text% "procedureCode") (.field (text% "RANAP-ELEMENTARY-PROCEDURE") (text% "procedureCode")) false (.cons (text% "criticality") (.field (text% "RANAP-ELEMENTARY-PROCEDURE") (text% "criticality")) false (.cons (text% "value") (.field (text% "RANAP-ELEMENTARY-PROCEDURE") (text% "InitiatingMessage")) false .nil))) none),
  .type (text% "SuccessfulOutcome") (.seq (.cons (text% "procedureCode") (.field (text% "RANAP-ELEMENTARY-PROCEDURE") (text% "procedureCode")) false (.cons (text% "criticality") (.field (text% "RANAP-ELEMENTARY-PROCEDURE") (text% "criticality")) false (.cons (text% "value") (.field (text% "RANAP-ELEMENTARY-PROCEDURE") (text% "SuccessfulOutcome")) false .nil))) none),
  .type (text% "UnsuccessfulOutcome") (.seq (.cons (text% "procedureCode") (.field (text% "RANAP-ELEMENTARY-PROCEDURE") (text% "procedureCode")) false (.cons (text% "criticality") (.field (text% "RANAP-ELEMENTARY-PROCEDURE") (text% "criticality")) false (.cons (text% "value") (.field (text% "RANAP-ELEMENTARY-PROCEDURE") (text% "UnsuccessfulOutcome")) false .nil))) none),
  .type (text% "Outcome") (.seq (.cons (text% "procedureCode") (.field (text% "RANAP-ELEMENTARY-PROCEDURE") (text% "procedureCode")) false (.cons (text% "criticality") (.field (text% "RANAP-ELEMENTARY-PROCEDURE") (text% "criticality")) false (.cons (text% "value") (.field (text% "RANAP-ELEMENTARY-PROCEDURE") (text% "Outcome")) false .nil))) none),
  .object (text% "RANAP-ELEMENTARY-PROCEDURES"),
  .object (text% "RANAP-ELEMENTARY-PROCEDURES-CLASS-1"),
  .object (text% "RANAP-ELEMENTARY-PROCEDURES-CLASS-2"),
  .object (text% "RANAP-ELEMENTARY-PROCEDURES-CLASS-3"),
  .object (text% "iu-Release"),
  .object (text% "relocationPreparation"),
  .object (text% "relocationResourceAllocation"),
  .object (text% "relocationCancel"),
  .object (text% "sRNS-ContextTransfer"),
  .object (text% "securityModeControl"),
  .object (text% "dataVolumeReport"),
  .object (text% "reset"),
  .object (text% "rAB-ReleaseRequest"),
  .object (text% "iu-ReleaseRequest"),
  .object (text% "relocationDetect"),
  .object (text% "relocationComplete"),
  .object (text% "paging"),
  .object (text% "commonID"),
  .object (text% "cN-InvokeTrace"),
  .object (text% "cN-DeactivateTrace"),
  .object (text% "locationReportingControl"),
  .object (text% "locationReport"),
  .object (text% "initialUE-Message"),
  .object (text% "directTransfer"),
  .object (text% "overloadControl"),
  .object (text% "errorIndication"),
  .object (text% "sRNS-DataForward"),
  .object (text% "forwardSRNS-Context"),
  .object (text% "rAB-Assignment"),
  .object (text% "privateMessage"),
  .object (text% "resetResource"),
  .object (text% "rANAP-Relocation"),
  .object (text% "rAB-ModifyRequest"),
  .object (text% "locationRelatedData"),
  .object (text% "informationTransfer"),
  .object (text% "uESpecificInformation"),
  .object (text% "directInformationTransfer"),
  .object (text% "uplinkInformationExchange"),
  .object (text% "mBMSSessionStart"),
  .object (text% "mBMSSessionUpdate"),
  .object (text% "mBMSSessionStop"),
  .object (text% "mBMSUELinking"),
  .object (text% "mBMSRegistration"),
  .object (text% "mBMSCNDe-Registration"),
  .object (text% "mBMSRABEstablishmentIndication"),
  .object (text% "mBMSRABRelease"),
  .object (text% "enhancedRelocationComplete"),
  .object (text% "enhancedRelocationCompleteConfirm"),
  .object (text% "rANAP-enhancedRelocation"),
  .object (text% "sRVCCPreparation"),
  .object (text% "ueRadioCapabilityMatch")]

/-- Of `ranapIe`. -/
noncomputable def ranapIeAssignments : List Assignment := [
  .type (text% "IE") (.seq (.cons (text% "id") (.ref (text% "ProtocolIE-ID")) false (.cons (text% "criticality") (.ref (text% "Criticality")) false (.cons (text% "value") .any false .nil))) none)]

/-- The types by name. -/
noncomputable def ranapTypes : List (Text × Aper.Ty) := [
  (text% "Criticality", Asn.Ranap.Criticality),
  (text% "Presence", Asn.Ranap.Presence),
  (text% "PrivateIE-ID", Asn.Ranap.PrivateIE_ID),
  (text% "ProcedureCode", Asn.Ranap.ProcedureCode),
  (text% "ProtocolExtensionID", Asn.Ranap.ProtocolExtensionID),
  (text% "ProtocolIE-ID", Asn.Ranap.ProtocolIE_ID),
  (text% "TriggeringMessage", Asn.Ranap.TriggeringMessage),
  (text% "IE-Extensions", Asn.Ranap.IE_Extensions),
  (text% "AccuracyFulfilmentIndicator", Asn.Ranap.AccuracyFulfilmentIndicator),
  (text% "AllocationOrRetentionPriority", Asn.Ranap.AllocationOrRetentionPriority),
  (text% "Alt-RAB-Parameters", Asn.Ranap.Alt_RAB_Parameters),
  (text% "Alt-RAB-Parameter-ExtendedGuaranteedBitrateInf", Asn.Ranap.Alt_RAB_Parameter_ExtendedGuaranteedBitrateInf),
  (text% "Alt-RAB-Parameter-ExtendedGuaranteedBitrates", Asn.Ranap.Alt_RAB_Parameter_ExtendedGuaranteedBitrates),
  (text% "Alt-RAB-Parameter-ExtendedGuaranteedBitrateList", Asn.Ranap.Alt_RAB_Parameter_ExtendedGuaranteedBitrateList),
  (text% "Alt-RAB-Parameter-GuaranteedBitrateInf", Asn.Ranap.Alt_RAB_Parameter_GuaranteedBitrateInf),
  (text% "Alt-RAB-Parameter-GuaranteedBitrateType", Asn.Ranap.Alt_RAB_Parameter_GuaranteedBitrateType),
  (text% "Alt-RAB-Parameter-GuaranteedBitrates", Asn.Ranap.Alt_RAB_Parameter_GuaranteedBitrates),
  (text% "Alt-RAB-Parameter-GuaranteedBitrateList", Asn.Ranap.Alt_RAB_Parameter_GuaranteedBitrateList),
  (text% "Alt-RAB-Parameter-SupportedGuaranteedBitrateInf", Asn.Ranap.Alt_RAB_Parameter_SupportedGuaranteedBitrateInf),
  (text% "Alt-RAB-Parameter-SupportedGuaranteedBitrates", Asn.Ranap.Alt_RAB_Parameter_SupportedGuaranteedBitrates),
  (text% "Alt-RAB-Parameter-ExtendedMaxBitrateInf", Asn.Ranap.Alt_RAB_Parameter_ExtendedMaxBitrateInf),
  (text% "Alt-RAB-Parameter-ExtendedMaxBitrates", Asn.Ranap.Alt_RAB_Parameter_ExtendedMaxBitrates),
  (text% "Alt-RAB-Parameter-ExtendedMaxBitrateList", Asn.Ranap.Alt_RAB_Parameter_ExtendedMaxBitrateList),
  (text% "Alt-RAB-Parameter-MaxBitrateInf", Asn.Ranap.Alt_RAB_Parameter_MaxBitrateInf),
  (text% "Alt-RAB-Parameter-MaxBitrateType", Asn.Ranap.Alt_RAB_Parameter_MaxBitrateType),
  (text% "Alt-RAB-Parameter-MaxBitrates", Asn.Ranap.Alt_RAB_Parameter_MaxBitrates),
  (text% "Alt-RAB-Parameter-MaxBitrateList", Asn.Ranap.Alt_RAB_Parameter_MaxBitrateList),
  (text% "Alt-RAB-Parameter-SupportedMaxBitrateInf", Asn.Ranap.Alt_RAB_Parameter_SupportedMaxBitrateInf),
  (text% "Alt-RAB-Parameter-SupportedMaxBitrates", Asn.Ranap.Alt_RAB_Parameter_SupportedMaxBitrates),
  (text% "AlternativeRABConfigurationRequest", Asn.Ranap.AlternativeRABConfigurationRequest),
  (text% "APN", Asn.Ranap.APN),
  (text% "AreaIdentity", Asn.Ranap.AreaIdentity),
  (text% "Ass-RAB-Parameters", Asn.Ranap.Ass_RAB_Parameters),
  (text% "Ass-RAB-Parameter-ExtendedGuaranteedBitrateList", Asn.Ranap.Ass_RAB_Parameter_ExtendedGuaranteedBitrateList),
  (text% "Ass-RAB-Parameter-ExtendedMaxBitrateList", Asn.Ranap.Ass_RAB_Parameter_ExtendedMaxBitrateList),
  (text% "Ass-RAB-Parameter-GuaranteedBitrateList", Asn.Ranap.Ass_RAB_Parameter_GuaranteedBitrateList),
  (text% "Ass-RAB-Parameter-MaxBitrateList", Asn.Ranap.Ass_RAB_Parameter_MaxBitrateList),
  (text% "AuthorisedPLMNs", Asn.Ranap.AuthorisedPLMNs),
  (text% "AuthorisedPLMNs-Value", Asn.Ranap.AuthorisedPLMNs_Value),
  (text% "AuthorisedSNAs", Asn.Ranap.AuthorisedSNAs),
  (text% "BindingID", Asn.Ranap.BindingID),
  (text% "BroadcastAssistanceDataDecipheringKeys", Asn.Ranap.BroadcastAssistanceDataDecipheringKeys),
  (text% "Cause", Asn.Ranap.Cause),
  (text% "CauseMisc", Asn.Ranap.CauseMisc),
  (text% "CauseNAS", Asn.Ranap.CauseNAS),
  (text% "CauseProtocol", Asn.Ranap.CauseProtocol),
  (text% "CauseRadioNetwork", Asn.Ranap.CauseRadioNetwork),
  (text% "CauseRadioNetworkExtension", Asn.Ranap.CauseRadioNetworkExtension),
  (text% "CauseNon-Standard", Asn.Ranap.CauseNon_Standard),
  (text% "CauseTransmissionNetwork", Asn.Ranap.CauseTransmissionNetwork),
  (text% "Cell-Access-Mode", Asn.Ranap.Cell_Access_Mode),
  (text% "CellBased", Asn.Ranap.CellBased),
  (text% "CellIdList", Asn.Ranap.CellIdList),
  (text% "Cell-Id", Asn.Ranap.Cell_Id),
  (text% "Cell-Capacity-Class-Value", Asn.Ranap.Cell_Capacity_Class_Value),
  (text% "CellLoadInformation", Asn.Ranap.CellLoadInformation),
  (text% "CellLoadInformationGroup", Asn.Ranap.CellLoadInformationGroup),
  (text% "CellType", Asn.Ranap.CellType),
  (text% "ClientType", Asn.Ranap.ClientType),
  (text% "CriticalityDiagnostics", Asn.Ranap.CriticalityDiagnostics),
  (text% "CriticalityDiagnostics-IE-List", Asn.Ranap.CriticalityDiagnostics_IE_List),
  (text% "CriticalityDiagnostics-IE-List-Value", Asn.Ranap.CriticalityDiagnostics_IE_List_Value),
  (text% "MessageStructure", Asn.Ranap.MessageStructure),
  (text% "MessageStructure-Value", Asn.Ranap.MessageStructure_Value),
  (text% "CGI", Asn.Ranap.CGI),
  (text% "ChosenEncryptionAlgorithm", Asn.Ranap.ChosenEncryptionAlgorithm),
  (text% "ChosenIntegrityProtectionAlgorithm", Asn.Ranap.ChosenIntegrityProtectionAlgorithm),
  (text% "CI", Asn.Ranap.CI),
  (text% "ClassmarkInformation2", Asn.Ranap.ClassmarkInformation2),
  (text% "ClassmarkInformation3", Asn.Ranap.ClassmarkInformation3),
  (text% "CN-DomainIndicator", Asn.Ranap.CN_DomainIndicator),
  (text% "CN-ID", Asn.Ranap.CN_ID),
  (text% "Correlation-ID", Asn.Ranap.Correlation_ID),
  (text% "CSFB-Information", Asn.Ranap.CSFB_Information),
  (text% "CSG-Id", Asn.Ranap.CSG_Id),
  (text% "CSG-Id-List", Asn.Ranap.CSG_Id_List),
  (text% "CSG-Membership-Status", Asn.Ranap.CSG_Membership_Status),
  (text% "DataPDUType", Asn.Ranap.DataPDUType),
  (text% "DataVolumeReference", Asn.Ranap.DataVolumeReference),
  (text% "DataVolumeReportingIndication", Asn.Ranap.DataVolumeReportingIndication),
  (text% "DCH-ID", Asn.Ranap.DCH_ID),
  (text% "DeliveryOfErroneousSDU", Asn.Ranap.DeliveryOfErroneousSDU),
  (text% "DeliveryOrder", Asn.Ranap.DeliveryOrder),
  (text% "DeltaRAListofIdleModeUEs", Asn.Ranap.DeltaRAListofIdleModeUEs),
  (text% "NewRAListofIdleModeUEs", Asn.Ranap.NewRAListofIdleModeUEs),
  (text% "RAListwithNoIdleModeUEsAnyMore", Asn.Ranap.RAListwithNoIdleModeUEsAnyMore),
  (text% "ForwardingIndication", Asn.Ranap.ForwardingIndication),
  (text% "DL-GTP-PDU-SequenceNumber", Asn.Ranap.DL_GTP_PDU_SequenceNumber),
  (text% "DL-N-PDU-SequenceNumber", Asn.Ranap.DL_N_PDU_SequenceNumber),
  (text% "D-RNTI", Asn.Ranap.D_RNTI),
  (text% "DRX-CycleLengthCoefficient", Asn.Ranap.DRX_CycleLengthCoefficient),
  (text% "DSCH-ID", Asn.Ranap.DSCH_ID),
  (text% "EARFCN-Extended", Asn.Ranap.EARFCN_Extended),
  (text% "E-DCH-MAC-d-Flow-ID", Asn.Ranap.E_DCH_MAC_d_Flow_ID),
  (text% "ENB-ID", Asn.Ranap.ENB_ID),
  (text% "EncryptionAlgorithm", Asn.Ranap.EncryptionAlgorithm),
  (text% "EncryptionInformation", Asn.Ranap.EncryptionInformation),
  (text% "EncryptionKey", Asn.Ranap.EncryptionKey),
  (text% "End-Of-CSFB", Asn.Ranap.End_Of_CSFB),
  (text% "EquipmentsToBeTraced", Asn.Ranap.EquipmentsToBeTraced),
  (text% "E-UTRAN-Service-Handover", Asn.Ranap.E_UTRAN_Service_Handover),
  (text% "Event", Asn.Ranap.Event),
  (text% "Event1F-Parameters", Asn.Ranap.Event1F_Parameters),
  (text% "Event1I-Parameters", Asn.Ranap.Event1I_Parameters),
  (text% "ExtendedGuaranteedBitrate", Asn.Ranap.ExtendedGuaranteedBitrate),
  (text% "ExtendedMaxBitrate", Asn.Ranap.ExtendedMaxBitrate),
  (text% "ExtendedRNC-ID", Asn.Ranap.ExtendedRNC_ID),
  (text% "FrameSequenceNumber", Asn.Ranap.FrameSequenceNumber),
  (text% "FrequenceLayerConvergenceFlag", Asn.Ranap.FrequenceLayerConvergenceFlag),
  (text% "GANSS-PositioningDataSet", Asn.Ranap.GANSS_PositioningDataSet),
  (text% "GANSS-PositioningMethodAndUsage", Asn.Ranap.GANSS_PositioningMethodAndUsage),
  (text% "GeographicalArea", Asn.Ranap.GeographicalArea),
  (text% "GeographicalCoordinates", Asn.Ranap.GeographicalCoordinates),
  (text% "GA-AltitudeAndDirection", Asn.Ranap.GA_AltitudeAndDirection),
  (text% "GA-EllipsoidArc", Asn.Ranap.GA_EllipsoidArc),
  (text% "GA-Point", Asn.Ranap.GA_Point),
  (text% "GA-PointWithAltitude", Asn.Ranap.GA_PointWithAltitude),
  (text% "GA-PointWithAltitudeAndUncertaintyEllipsoid", Asn.Ranap.GA_PointWithAltitudeAndUncertaintyEllipsoid),
  (text% "GA-PointWithUnCertainty", Asn.Ranap.GA_PointWithUnCertainty),
  (text% "GA-PointWithUnCertaintyEllipse", Asn.Ranap.GA_PointWithUnCertaintyEllipse),
  (text% "GA-Polygon", Asn.Ranap.GA_Polygon),
  (text% "GA-Polygon-Value", Asn.Ranap.GA_Polygon_Value),
  (text% "GA-UncertaintyEllipse", Asn.Ranap.GA_UncertaintyEllipse),
  (text% "GERAN-BSC-Container", Asn.Ranap.GERAN_BSC_Container),
  (text% "GERAN-Cell-ID", Asn.Ranap.GERAN_Cell_ID),
  (text% "GERAN-Classmark", Asn.Ranap.GERAN_Classmark),
  (text% "GlobalCN-ID", Asn.Ranap.GlobalCN_ID),
  (text% "GlobalRNC-ID", Asn.Ranap.GlobalRNC_ID),
  (text% "GTP-TEI", Asn.Ranap.GTP_TEI),
  (text% "GuaranteedBitrate", Asn.Ranap.GuaranteedBitrate),
  (text% "HigherBitratesThan16MbpsFlag", Asn.Ranap.HigherBitratesThan16MbpsFlag),
  (text% "HS-DSCH-MAC-d-Flow-ID", Asn.Ranap.HS_DSCH_MAC_d_Flow_ID),
  (text% "IMEI", Asn.Ranap.IMEI),
  (text% "IMEIGroup", Asn.Ranap.IMEIGroup),
  (text% "IMEIList", Asn.Ranap.IMEIList),
  (text% "IMEISV", Asn.Ranap.IMEISV),
  (text% "IMEISVGroup", Asn.Ranap.IMEISVGroup),
  (text% "IMEISVList", Asn.Ranap.IMEISVList),
  (text% "ImmediateMDT", Asn.Ranap.ImmediateMDT),
  (text% "IMSI", Asn.Ranap.IMSI),
  (text% "IncludeVelocity", Asn.Ranap.IncludeVelocity),
  (text% "InformationExchangeID", Asn.Ranap.InformationExchangeID),
  (text% "InformationExchangeType", Asn.Ranap.InformationExchangeType),
  (text% "InformationRequested", Asn.Ranap.InformationRequested),
  (text% "InformationRequestType", Asn.Ranap.InformationRequestType),
  (text% "InformationTransferID", Asn.Ranap.InformationTransferID),
  (text% "InformationTransferType", Asn.Ranap.InformationTransferType),
  (text% "IntegrityProtectionAlgorithm", Asn.Ranap.IntegrityProtectionAlgorithm),
  (text% "IntegrityProtectionInformation", Asn.Ranap.IntegrityProtectionInformation),
  (text% "IntegrityProtectionKey", Asn.Ranap.IntegrityProtectionKey),
  (text% "InterSystemInformationTransferType", Asn.Ranap.InterSystemInformationTransferType),
  (text% "InterSystemInformation-TransparentContainer", Asn.Ranap.InterSystemInformation_TransparentContainer),
  (text% "IPMulticastAddress", Asn.Ranap.IPMulticastAddress),
  (text% "IuSignallingConnectionIdentifier", Asn.Ranap.IuSignallingConnectionIdentifier),
  (text% "IuTransportAssociation", Asn.Ranap.IuTransportAssociation),
  (text% "KeyStatus", Asn.Ranap.KeyStatus),
  (text% "LA-LIST", Asn.Ranap.LA_LIST),
  (text% "LA-LIST-Value", Asn.Ranap.LA_LIST_Value),
  (text% "LAC", Asn.Ranap.LAC),
  (text% "LAI", Asn.Ranap.LAI),
  (text% "LastKnownServiceArea", Asn.Ranap.LastKnownServiceArea),
  (text% "LastVisitedUTRANCell-Item", Asn.Ranap.LastVisitedUTRANCell_Item),
  (text% "LHN-ID", Asn.Ranap.LHN_ID),
  (text% "Links-to-log", Asn.Ranap.Links_to_log),
  (text% "ListOF-SNAs", Asn.Ranap.ListOF_SNAs),
  (text% "ListOfInterfacesToTrace", Asn.Ranap.ListOfInterfacesToTrace),
  (text% "InterfacesToTraceItem", Asn.Ranap.InterfacesToTraceItem),
  (text% "LoadValue", Asn.Ranap.LoadValue),
  (text% "LocationRelatedDataRequestType", Asn.Ranap.LocationRelatedDataRequestType),
  (text% "LocationRelatedDataRequestTypeSpecificToGERANIuMode", Asn.Ranap.LocationRelatedDataRequestTypeSpecificToGERANIuMode),
  (text% "LocationReportingTransferInformation", Asn.Ranap.LocationReportingTransferInformation),
  (text% "ReportChangeOfSAI", Asn.Ranap.ReportChangeOfSAI),
  (text% "PeriodicReportingIndicator", Asn.Ranap.PeriodicReportingIndicator),
  (text% "DirectReportingIndicator", Asn.Ranap.DirectReportingIndicator),
  (text% "L3-Information", Asn.Ranap.L3_Information),
  (text% "M1Report", Asn.Ranap.M1Report),
  (text% "M2Report", Asn.Ranap.M2Report),
  (text% "M4Report", Asn.Ranap.M4Report),
  (text% "M4-Collection-Parameters", Asn.Ranap.M4_Collection_Parameters),
  (text% "M4-Period", Asn.Ranap.M4_Period),
  (text% "M4-Threshold", Asn.Ranap.M4_Threshold),
  (text% "M5Report", Asn.Ranap.M5Report),
  (text% "M5-Period", Asn.Ranap.M5_Period),
  (text% "M6Report", Asn.Ranap.M6Report),
  (text% "M6-Period", Asn.Ranap.M6_Period),
  (text% "M7Report", Asn.Ranap.M7Report),
  (text% "M7-Period", Asn.Ranap.M7_Period),
  (text% "Management-Based-MDT-Allowed", Asn.Ranap.Management_Based_MDT_Allowed),
  (text% "MaxBitrate", Asn.Ranap.MaxBitrate),
  (text% "MaxSDU-Size", Asn.Ranap.MaxSDU_Size),
  (text% "MBMS-PTP-RAB-ID", Asn.Ranap.MBMS_PTP_RAB_ID),
  (text% "MBMSBearerServiceType", Asn.Ranap.MBMSBearerServiceType),
  (text% "MBMSCNDe-Registration", Asn.Ranap.MBMSCNDe_Registration),
  (text% "MBMSCountingInformation", Asn.Ranap.MBMSCountingInformation),
  (text% "MBMSHCIndicator", Asn.Ranap.MBMSHCIndicator),
  (text% "MBMSIPMulticastAddressandAPNRequest", Asn.Ranap.MBMSIPMulticastAddressandAPNRequest),
  (text% "MBMSLinkingInformation", Asn.Ranap.MBMSLinkingInformation),
  (text% "MBMSRegistrationRequestType", Asn.Ranap.MBMSRegistrationRequestType),
  (text% "MBMSServiceArea", Asn.Ranap.MBMSServiceArea),
  (text% "MBMSSessionDuration", Asn.Ranap.MBMSSessionDuration),
  (text% "MBMSSessionIdentity", Asn.Ranap.MBMSSessionIdentity),
  (text% "MBMSSessionRepetitionNumber", Asn.Ranap.MBMSSessionRepetitionNumber),
  (text% "MDT-Activation", Asn.Ranap.MDT_Activation),
  (text% "MDTAreaScope", Asn.Ranap.MDTAreaScope),
  (text% "MDT-Configuration", Asn.Ranap.MDT_Configuration),
  (text% "MDTMode", Asn.Ranap.MDTMode),
  (text% "MDT-PLMN-List", Asn.Ranap.MDT_PLMN_List),
  (text% "MDT-Report-Parameters", Asn.Ranap.MDT_Report_Parameters),
  (text% "MeasurementQuantity", Asn.Ranap.MeasurementQuantity),
  (text% "MeasurementsToActivate", Asn.Ranap.MeasurementsToActivate),
  (text% "MSISDN", Asn.Ranap.MSISDN),
  (text% "NAS-PDU", Asn.Ranap.NAS_PDU),
  (text% "NAS-SequenceNumber", Asn.Ranap.NAS_SequenceNumber),
  (text% "NAS-SynchronisationIndicator", Asn.Ranap.NAS_SynchronisationIndicator),
  (text% "NewBSS-To-OldBSS-Information", Asn.Ranap.NewBSS_To_OldBSS_Information),
  (text% "NonSearchingIndication", Asn.Ranap.NonSearchingIndication),
  (text% "NRTLoadInformationValue", Asn.Ranap.NRTLoadInformationValue),
  (text% "NumberOfIuInstances", Asn.Ranap.NumberOfIuInstances),
  (text% "NumberOfSteps", Asn.Ranap.NumberOfSteps),
  (text% "Offload-RAB-Parameters", Asn.Ranap.Offload_RAB_Parameters),
  (text% "Offload-RAB-Parameters-APN", Asn.Ranap.Offload_RAB_Parameters_APN),
  (text% "Offload-RAB-Parameters-ChargingCharacteristics", Asn.Ranap.Offload_RAB_Parameters_ChargingCharacteristics),
  (text% "OldBSS-ToNewBSS-Information", Asn.Ranap.OldBSS_ToNewBSS_Information),
  (text% "OMC-ID", Asn.Ranap.OMC_ID),
  (text% "Out-Of-UTRAN", Asn.Ranap.Out_Of_UTRAN),
  (text% "PagingAreaID", Asn.Ranap.PagingAreaID),
  (text% "PagingCause", Asn.Ranap.PagingCause),
  (text% "PDP-TypeInformation", Asn.Ranap.PDP_TypeInformation),
  (text% "PDP-Type", Asn.Ranap.PDP_Type),
  (text% "PDP-TypeInformation-extension", Asn.Ranap.PDP_TypeInformation_extension),
  (text% "PDP-Type-extension", Asn.Ranap.PDP_Type_extension),
  (text% "PDUType14FrameSequenceNumber", Asn.Ranap.PDUType14FrameSequenceNumber),
  (text% "PeriodicLocationInfo", Asn.Ranap.PeriodicLocationInfo),
  (text% "PermanentNAS-UE-ID", Asn.Ranap.PermanentNAS_UE_ID),
  (text% "PermittedEncryptionAlgorithms", Asn.Ranap.PermittedEncryptionAlgorithms),
  (text% "PermittedIntegrityProtectionAlgorithms", Asn.Ranap.PermittedIntegrityProtectionAlgorithms),
  (text% "LABased", Asn.Ranap.LABased),
  (text% "LAI-List", Asn.Ranap.LAI_List),
  (text% "LoggedMDT", Asn.Ranap.LoggedMDT),
  (text% "LoggingInterval", Asn.Ranap.LoggingInterval),
  (text% "LoggingDuration", Asn.Ranap.LoggingDuration),
  (text% "PLMNidentity", Asn.Ranap.PLMNidentity),
  (text% "PLMNs-in-shared-network", Asn.Ranap.PLMNs_in_shared_network),
  (text% "PLMNs-in-shared-network-Value", Asn.Ranap.PLMNs_in_shared_network_Value),
  (text% "Port-Number", Asn.Ranap.Port_Number),
  (text% "PositioningDataDiscriminator", Asn.Ranap.PositioningDataDiscriminator),
  (text% "PositioningDataSet", Asn.Ranap.PositioningDataSet),
  (text% "PositioningMethodAndUsage", Asn.Ranap.PositioningMethodAndUsage),
  (text% "PositioningPriority", Asn.Ranap.PositioningPriority),
  (text% "PositionData", Asn.Ranap.PositionData),
  (text% "PositionDataSpecificToGERANIuMode", Asn.Ranap.PositionDataSpecificToGERANIuMode),
  (text% "Pre-emptionCapability", Asn.Ranap.Pre_emptionCapability),
  (text% "Pre-emptionVulnerability", Asn.Ranap.Pre_emptionVulnerability),
  (text% "PriorityLevel", Asn.Ranap.PriorityLevel),
  (text% "Priority-Class-Indicator", Asn.Ranap.Priority_Class_Indicator),
  (text% "ProvidedData", Asn.Ranap.ProvidedData),
  (text% "P-TMSI", Asn.Ranap.P_TMSI),
  (text% "QueuingAllowed", Asn.Ranap.QueuingAllowed),
  (text% "RAB-AsymmetryIndicator", Asn.Ranap.RAB_AsymmetryIndicator),
  (text% "RABased", Asn.Ranap.RABased),
  (text% "RAI-List", Asn.Ranap.RAI_List),
  (text% "RABDataVolumeReport", Asn.Ranap.RABDataVolumeReport),
  (text% "RABDataVolumeReport-Value", Asn.Ranap.RABDataVolumeReport_Value),
  (text% "RAB-ID", Asn.Ranap.RAB_ID),
  (text% "RAB-Parameter-ExtendedGuaranteedBitrateList", Asn.Ranap.RAB_Parameter_ExtendedGuaranteedBitrateList),
  (text% "RAB-Parameter-ExtendedMaxBitrateList", Asn.Ranap.RAB_Parameter_ExtendedMaxBitrateList),
  (text% "RAB-Parameter-GuaranteedBitrateList", Asn.Ranap.RAB_Parameter_GuaranteedBitrateList),
  (text% "RAB-Parameter-MaxBitrateList", Asn.Ranap.RAB_Parameter_MaxBitrateList),
  (text% "RAB-Parameters", Asn.Ranap.RAB_Parameters),
  (text% "RABParametersList", Asn.Ranap.RABParametersList),
  (text% "RABParametersList-Value", Asn.Ranap.RABParametersList_Value),
  (text% "RAB-SubflowCombinationBitRate", Asn.Ranap.RAB_SubflowCombinationBitRate),
  (text% "RAB-TrCH-Mapping", Asn.Ranap.RAB_TrCH_Mapping),
  (text% "RAB-TrCH-MappingItem", Asn.Ranap.RAB_TrCH_MappingItem),
  (text% "RAC", Asn.Ranap.RAC),
  (text% "RAI", Asn.Ranap.RAI),
  (text% "RAListofIdleModeUEs", Asn.Ranap.RAListofIdleModeUEs),
  (text% "NotEmptyRAListofIdleModeUEs", Asn.Ranap.NotEmptyRAListofIdleModeUEs),
  (text% "RAofIdleModeUEs", Asn.Ranap.RAofIdleModeUEs),
  (text% "LAListofIdleModeUEs", Asn.Ranap.LAListofIdleModeUEs),
  (text% "RAT-Type", Asn.Ranap.RAT_Type),
  (text% "RateControlAllowed", Asn.Ranap.RateControlAllowed),
  (text% "RedirectAttemptFlag", Asn.Ranap.RedirectAttemptFlag),
  (text% "RedirectionCompleted", Asn.Ranap.RedirectionCompleted),
  (text% "RejectCauseValue", Asn.Ranap.RejectCauseValue),
  (text% "RelocationRequirement", Asn.Ranap.RelocationRequirement),
  (text% "RelocationType", Asn.Ranap.RelocationType),
  (text% "RepetitionNumber0", Asn.Ranap.RepetitionNumber0),
  (text% "RepetitionNumber1", Asn.Ranap.RepetitionNumber1),
  (text% "ReportArea", Asn.Ranap.ReportArea),
  (text% "ReportInterval", Asn.Ranap.ReportInterval),
  (text% "ReportAmount", Asn.Ranap.ReportAmount),
  (text% "RequestedGPSAssistanceData", Asn.Ranap.RequestedGPSAssistanceData),
  (text% "RequestedGANSSAssistanceData", Asn.Ranap.RequestedGANSSAssistanceData),
  (text% "RequestedLocationRelatedDataType", Asn.Ranap.RequestedLocationRelatedDataType),
  (text% "RequestedMBMSIPMulticastAddressandAPNRequest", Asn.Ranap.RequestedMBMSIPMulticastAddressandAPNRequest),
  (text% "MBMSIPMulticastAddressandAPNlist", Asn.Ranap.MBMSIPMulticastAddressandAPNlist),
  (text% "RequestedMulticastServiceList", Asn.Ranap.RequestedMulticastServiceList),
  (text% "Requested-RAB-Parameter-Values", Asn.Ranap.Requested_RAB_Parameter_Values),
  (text% "Requested-RAB-Parameter-ExtendedMaxBitrateList", Asn.Ranap.Requested_RAB_Parameter_ExtendedMaxBitrateList),
  (text% "Requested-RAB-Parameter-ExtendedGuaranteedBitrateList", Asn.Ranap.Requested_RAB_Parameter_ExtendedGuaranteedBitrateList),
  (text% "Requested-RAB-Parameter-MaxBitrateList", Asn.Ranap.Requested_RAB_Parameter_MaxBitrateList),
  (text% "Requested-RAB-Parameter-GuaranteedBitrateList", Asn.Ranap.Requested_RAB_Parameter_GuaranteedBitrateList),
  (text% "RequestType", Asn.Ranap.RequestType),
  (text% "ResidualBitErrorRatio", Asn.Ranap.ResidualBitErrorRatio),
  (text% "ResponseTime", Asn.Ranap.ResponseTime),
  (text% "RIMInformation", Asn.Ranap.RIMInformation),
  (text% "RIM-Transfer", Asn.Ranap.RIM_Transfer),
  (text% "RIMRoutingAddress", Asn.Ranap.RIMRoutingAddress),
  (text% "RNC-ID", Asn.Ranap.RNC_ID),
  (text% "RNCTraceInformation", Asn.Ranap.RNCTraceInformation),
  (text% "RNSAPRelocationParameters", Asn.Ranap.RNSAPRelocationParameters),
  (text% "RRC-Container", Asn.Ranap.RRC_Container),
  (text% "RTLoadValue", Asn.Ranap.RTLoadValue),
  (text% "RSRVCC-HO-Indication", Asn.Ranap.RSRVCC_HO_Indication),
  (text% "RSRVCC-Information", Asn.Ranap.RSRVCC_Information),
  (text% "RSRVCC-Operation-Possible", Asn.Ranap.RSRVCC_Operation_Possible),
  (text% "SAC", Asn.Ranap.SAC),
  (text% "SAI", Asn.Ranap.SAI),
  (text% "SAPI", Asn.Ranap.SAPI),
  (text% "SessionUpdateID", Asn.Ranap.SessionUpdateID),
  (text% "Shared-Network-Information", Asn.Ranap.Shared_Network_Information),
  (text% "Session-Re-establishment-Indicator", Asn.Ranap.Session_Re_establishment_Indicator),
  (text% "SignallingIndication", Asn.Ranap.SignallingIndication),
  (text% "SDU-ErrorRatio", Asn.Ranap.SDU_ErrorRatio),
  (text% "SDU-FormatInformationParameters", Asn.Ranap.SDU_FormatInformationParameters),
  (text% "SDU-FormatInformationParameterItem", Asn.Ranap.SDU_FormatInformationParameterItem),
  (text% "SDU-Parameters", Asn.Ranap.SDU_Parameters),
  (text% "SDU-ParameterItem", Asn.Ranap.SDU_ParameterItem),
  (text% "SNA-Access-Information", Asn.Ranap.SNA_Access_Information),
  (text% "SNAC", Asn.Ranap.SNAC),
  (text% "Service-Handover", Asn.Ranap.Service_Handover),
  (text% "Source-ToTarget-TransparentContainer", Asn.Ranap.Source_ToTarget_TransparentContainer),
  (text% "SourceeNodeB-ToTargeteNodeB-TransparentContainer", Asn.Ranap.SourceeNodeB_ToTargeteNodeB_TransparentContainer),
  (text% "SourceCellID", Asn.Ranap.SourceCellID),
  (text% "SourceBSS-ToTargetBSS-TransparentContainer", Asn.Ranap.SourceBSS_ToTargetBSS_TransparentContainer),
  (text% "SourceID", Asn.Ranap.SourceID),
  (text% "SourceRNC-ID", Asn.Ranap.SourceRNC_ID),
  (text% "SourceRNC-ToTargetRNC-TransparentContainer", Asn.Ranap.SourceRNC_ToTargetRNC_TransparentContainer),
  (text% "IRAT-Measurement-Configuration", Asn.Ranap.IRAT_Measurement_Configuration),
  (text% "IRATmeasurementParameters", Asn.Ranap.IRATmeasurementParameters),
  (text% "RSRQ-Type", Asn.Ranap.RSRQ_Type),
  (text% "RSRQ-Extension", Asn.Ranap.RSRQ_Extension),
  (text% "EUTRANFrequencies", Asn.Ranap.EUTRANFrequencies),
  (text% "EUTRANFrequencies-Value", Asn.Ranap.EUTRANFrequencies_Value),
  (text% "MeasBand", Asn.Ranap.MeasBand),
  (text% "SubscriberProfileIDforRFP", Asn.Ranap.SubscriberProfileIDforRFP),
  (text% "SourceStatisticsDescriptor", Asn.Ranap.SourceStatisticsDescriptor),
  (text% "SupportedRAB-ParameterBitrateList", Asn.Ranap.SupportedRAB_ParameterBitrateList),
  (text% "SupportedBitrate", Asn.Ranap.SupportedBitrate),
  (text% "SourceUTRANCellID", Asn.Ranap.SourceUTRANCellID),
  (text% "SRB-ID", Asn.Ranap.SRB_ID),
  (text% "SRB-TrCH-Mapping", Asn.Ranap.SRB_TrCH_Mapping),
  (text% "SRB-TrCH-MappingItem", Asn.Ranap.SRB_TrCH_MappingItem),
  (text% "SRVCC-HO-Indication", Asn.Ranap.SRVCC_HO_Indication),
  (text% "SRVCC-Information", Asn.Ranap.SRVCC_Information),
  (text% "SRVCC-Operation-Possible", Asn.Ranap.SRVCC_Operation_Possible),
  (text% "SubflowSDU-Size", Asn.Ranap.SubflowSDU_Size),
  (text% "TAC", Asn.Ranap.TAC),
  (text% "TAI", Asn.Ranap.TAI),
  (text% "Target-ToSource-TransparentContainer", Asn.Ranap.Target_ToSource_TransparentContainer),
  (text% "TargeteNodeB-ToSourceeNodeB-TransparentContainer", Asn.Ranap.TargeteNodeB_ToSourceeNodeB_TransparentContainer),
  (text% "TargetBSS-ToSourceBSS-TransparentContainer", Asn.Ranap.TargetBSS_ToSourceBSS_TransparentContainer),
  (text% "TargetCellId", Asn.Ranap.TargetCellId),
  (text% "TargetID", Asn.Ranap.TargetID),
  (text% "TargetENB-ID", Asn.Ranap.TargetENB_ID),
  (text% "TargetRNC-ID", Asn.Ranap.TargetRNC_ID),
  (text% "TargetRNC-ToSourceRNC-TransparentContainer", Asn.Ranap.TargetRNC_ToSourceRNC_TransparentContainer),
  (text% "TBCD-STRING", Asn.Ranap.TBCD_STRING),
  (text% "TemporaryUE-ID", Asn.Ranap.TemporaryUE_ID),
  (text% "Time-UE-StayedInCell", Asn.Ranap.Time_UE_StayedInCell),
  (text% "Time-UE-StayedInCell-EnhancedGranularity", Asn.Ranap.Time_UE_StayedInCell_EnhancedGranularity),
  (text% "TimeToMBMSDataTransfer", Asn.Ranap.TimeToMBMSDataTransfer),
  (text% "TimingDifferenceULDL", Asn.Ranap.TimingDifferenceULDL),
  (text% "TMGI", Asn.Ranap.TMGI),
  (text% "TMSI", Asn.Ranap.TMSI),
  (text% "TraceDepth", Asn.Ranap.TraceDepth),
  (text% "TraceInformation", Asn.Ranap.TraceInformation),
  (text% "TracePropagationParameters", Asn.Ranap.TracePropagationParameters),
  (text% "TraceRecordingSessionInformation", Asn.Ranap.TraceRecordingSessionInformation),
  (text% "TraceRecordingSessionReference", Asn.Ranap.TraceRecordingSessionReference),
  (text% "TraceReference", Asn.Ranap.TraceReference),
  (text% "TraceType", Asn.Ranap.TraceType),
  (text% "TrafficClass", Asn.Ranap.TrafficClass),
  (text% "TrafficHandlingPriority", Asn.Ranap.TrafficHandlingPriority),
  (text% "TransferDelay", Asn.Ranap.TransferDelay),
  (text% "UnsuccessfullyTransmittedDataVolume", Asn.Ranap.UnsuccessfullyTransmittedDataVolume),
  (text% "TransportLayerAddress", Asn.Ranap.TransportLayerAddress),
  (text% "TrCH-ID", Asn.Ranap.TrCH_ID),
  (text% "TrCH-ID-List", Asn.Ranap.TrCH_ID_List),
  (text% "TriggerID", Asn.Ranap.TriggerID),
  (text% "TunnelInformation", Asn.Ranap.TunnelInformation),
  (text% "TypeOfError", Asn.Ranap.TypeOfError),
  (text% "UE-AggregateMaximumBitRate", Asn.Ranap.UE_AggregateMaximumBitRate),
  (text% "UE-AggregateMaximumBitRateDownlink", Asn.Ranap.UE_AggregateMaximumBitRateDownlink),
  (text% "UE-AggregateMaximumBitRateUplink", Asn.Ranap.UE_AggregateMaximumBitRateUplink),
  (text% "UE-History-Information", Asn.Ranap.UE_History_Information),
  (text% "UE-ID", Asn.Ranap.UE_ID),
  (text% "UESBI-Iu", Asn.Ranap.UESBI_Iu),
  (text% "UESBI-IuA", Asn.Ranap.UESBI_IuA),
  (text% "UESBI-IuB", Asn.Ranap.UESBI_IuB),
  (text% "UL-GTP-PDU-SequenceNumber", Asn.Ranap.UL_GTP_PDU_SequenceNumber),
  (text% "UL-N-PDU-SequenceNumber", Asn.Ranap.UL_N_PDU_SequenceNumber),
  (text% "UPInformation", Asn.Ranap.UPInformation),
  (text% "UPInitialisationFrame", Asn.Ranap.UPInitialisationFrame),
  (text% "UP-ModeVersions", Asn.Ranap.UP_ModeVersions),
  (text% "USCH-ID", Asn.Ranap.USCH_ID),
  (text% "UserPlaneMode", Asn.Ranap.UserPlaneMode),
  (text% "UTRAN-CellID", Asn.Ranap.UTRAN_CellID),
  (text% "VelocityEstimate", Asn.Ranap.VelocityEstimate),
  (text% "HorizontalVelocity", Asn.Ranap.HorizontalVelocity),
  (text% "HorizontalWithVerticalVelocity", Asn.Ranap.HorizontalWithVerticalVelocity),
  (text% "HorizontalVelocityWithUncertainty", Asn.Ranap.HorizontalVelocityWithUncertainty),
  (text% "HorizontalWithVerticalVelocityAndUncertainty", Asn.Ranap.HorizontalWithVerticalVelocityAndUncertainty),
  (text% "HorizontalSpeedAndBearing", Asn.Ranap.HorizontalSpeedAndBearing),
  (text% "VerticalVelocity", Asn.Ranap.VerticalVelocity),
  (text% "VerticalSpeedDirection", Asn.Ranap.VerticalSpeedDirection),
  (text% "VerticalAccuracyCode", Asn.Ranap.VerticalAccuracyCode),
  (text% "VoiceSupportMatchIndicator", Asn.Ranap.VoiceSupportMatchIndicator),
  (text% "Iu-ReleaseCommand", Asn.Ranap.Iu_ReleaseCommand),
  (text% "Iu-ReleaseComplete", Asn.Ranap.Iu_ReleaseComplete),
  (text% "RAB-DataVolumeReportList", Asn.Ranap.RAB_DataVolumeReportList),
  (text% "RAB-DataVolumeReportItem", Asn.Ranap.RAB_DataVolumeReportItem),
  (text% "RAB-ReleasedList-IuRelComp", Asn.Ranap.RAB_ReleasedList_IuRelComp),
  (text% "RAB-ReleasedItem-IuRelComp", Asn.Ranap.RAB_ReleasedItem_IuRelComp),
  (text% "RelocationRequired", Asn.Ranap.RelocationRequired),
  (text% "RelocationCommand", Asn.Ranap.RelocationCommand),
  (text% "RAB-RelocationReleaseList", Asn.Ranap.RAB_RelocationReleaseList),
  (text% "RAB-RelocationReleaseItem", Asn.Ranap.RAB_RelocationReleaseItem),
  (text% "RAB-DataForwardingList", Asn.Ranap.RAB_DataForwardingList),
  (text% "RAB-DataForwardingItem", Asn.Ranap.RAB_DataForwardingItem),
  (text% "RelocationPreparationFailure", Asn.Ranap.RelocationPreparationFailure),
  (text% "RelocationRequest", Asn.Ranap.RelocationRequest),
  (text% "RAB-SetupList-RelocReq", Asn.Ranap.RAB_SetupList_RelocReq),
  (text% "RAB-SetupItem-RelocReq", Asn.Ranap.RAB_SetupItem_RelocReq),
  (text% "UserPlaneInformation", Asn.Ranap.UserPlaneInformation),
  (text% "CNMBMSLinkingInformation", Asn.Ranap.CNMBMSLinkingInformation),
  (text% "JoinedMBMSBearerService-IEs", Asn.Ranap.JoinedMBMSBearerService_IEs),
  (text% "JoinedMBMSBearerService-IEs-Value", Asn.Ranap.JoinedMBMSBearerService_IEs_Value),
  (text% "RelocationRequestAcknowledge", Asn.Ranap.RelocationRequestAcknowledge),
  (text% "RAB-SetupList-RelocReqAck", Asn.Ranap.RAB_SetupList_RelocReqAck),
  (text% "RAB-SetupItem-RelocReqAck", Asn.Ranap.RAB_SetupItem_RelocReqAck),
  (text% "RAB-FailedList", Asn.Ranap.RAB_FailedList),
  (text% "RAB-FailedItem", Asn.Ranap.RAB_FailedItem),
  (text% "RelocationFailure", Asn.Ranap.RelocationFailure),
  (text% "RelocationCancel", Asn.Ranap.RelocationCancel),
  (text% "RelocationCancelAcknowledge", Asn.Ranap.RelocationCancelAcknowledge),
  (text% "SRNS-ContextRequest", Asn.Ranap.SRNS_ContextRequest),
  (text% "RAB-DataForwardingList-SRNS-CtxReq", Asn.Ranap.RAB_DataForwardingList_SRNS_CtxReq),
  (text% "RAB-DataForwardingItem-SRNS-CtxReq", Asn.Ranap.RAB_DataForwardingItem_SRNS_CtxReq),
  (text% "SRNS-ContextResponse", Asn.Ranap.SRNS_ContextResponse),
  (text% "RAB-ContextList", Asn.Ranap.RAB_ContextList),
  (text% "RAB-ContextItem", Asn.Ranap.RAB_ContextItem),
  (text% "RABs-ContextFailedtoTransferList", Asn.Ranap.RABs_ContextFailedtoTransferList),
  (text% "RABs-ContextFailedtoTransferItem", Asn.Ranap.RABs_ContextFailedtoTransferItem),
  (text% "SecurityModeCommand", Asn.Ranap.SecurityModeCommand),
  (text% "SecurityModeComplete", Asn.Ranap.SecurityModeComplete),
  (text% "SecurityModeReject", Asn.Ranap.SecurityModeReject),
  (text% "DataVolumeReportRequest", Asn.Ranap.DataVolumeReportRequest),
  (text% "RAB-DataVolumeReportRequestList", Asn.Ranap.RAB_DataVolumeReportRequestList),
  (text% "RAB-DataVolumeReportRequestItem", Asn.Ranap.RAB_DataVolumeReportRequestItem),
  (text% "DataVolumeReport", Asn.Ranap.DataVolumeReport),
  (text% "RABs-failed-to-reportList", Asn.Ranap.RABs_failed_to_reportList),
  (text% "RABs-failed-to-reportItem", Asn.Ranap.RABs_failed_to_reportItem),
  (text% "Reset", Asn.Ranap.Reset),
  (text% "ResetAcknowledge", Asn.Ranap.ResetAcknowledge),
  (text% "ResetResource", Asn.Ranap.ResetResource),
  (text% "ResetResourceList", Asn.Ranap.ResetResourceList),
  (text% "ResetResourceItem", Asn.Ranap.ResetResourceItem),
  (text% "ResetResourceAcknowledge", Asn.Ranap.ResetResourceAcknowledge),
  (text% "ResetResourceAckList", Asn.Ranap.ResetResourceAckList),
  (text% "ResetResourceAckItem", Asn.Ranap.ResetResourceAckItem),
  (text% "RAB-ReleaseRequest", Asn.Ranap.RAB_ReleaseRequest),
  (text% "RAB-ReleaseList", Asn.Ranap.RAB_ReleaseList),
  (text% "RAB-ReleaseItem", Asn.Ranap.RAB_ReleaseItem),
  (text% "Iu-ReleaseRequest", Asn.Ranap.Iu_ReleaseRequest),
  (text% "RelocationDetect", Asn.Ranap.RelocationDetect),
  (text% "RelocationComplete", Asn.Ranap.RelocationComplete),
  (text% "EnhancedRelocationCompleteRequest", Asn.Ranap.EnhancedRelocationCompleteRequest),
  (text% "RAB-SetupList-EnhancedRelocCompleteReq", Asn.Ranap.RAB_SetupList_EnhancedRelocCompleteReq),
  (text% "RAB-SetupItem-EnhancedRelocCompleteReq", Asn.Ranap.RAB_SetupItem_EnhancedRelocCompleteReq),
  (text% "EnhancedRelocationCompleteResponse", Asn.Ranap.EnhancedRelocationCompleteResponse),
  (text% "RAB-SetupList-EnhancedRelocCompleteRes", Asn.Ranap.RAB_SetupList_EnhancedRelocCompleteRes),
  (text% "RAB-SetupItem-EnhancedRelocCompleteRes", Asn.Ranap.RAB_SetupItem_EnhancedRelocCompleteRes),
  (text% "RAB-ToBeReleasedList-EnhancedRelocCompleteRes", Asn.Ranap.RAB_ToBeReleasedList_EnhancedRelocCompleteRes),
  (text% "RAB-ToBeReleasedItem-EnhancedRelocCompleteRes", Asn.Ranap.RAB_ToBeReleasedItem_EnhancedRelocCompleteRes),
  (text% "EnhancedRelocationCompleteFailure", Asn.Ranap.EnhancedRelocationCompleteFailure),
  (text% "EnhancedRelocationCompleteConfirm", Asn.Ranap.EnhancedRelocationCompleteConfirm),
  (text% "Paging", Asn.Ranap.Paging),
  (text% "CommonID", Asn.Ranap.CommonID),
  (text% "CN-InvokeTrace", Asn.Ranap.CN_InvokeTrace),
  (text% "CN-DeactivateTrace", Asn.Ranap.CN_DeactivateTrace),
  (text% "LocationReportingControl", Asn.Ranap.LocationReportingControl),
  (text% "LocationReport", Asn.Ranap.LocationReport),
  (text% "InitialUE-Message", Asn.Ranap.InitialUE_Message),
  (text% "DirectTransfer", Asn.Ranap.DirectTransfer),
  (text% "RedirectionIndication", Asn.Ranap.RedirectionIndication),
  (text% "Overload", Asn.Ranap.Overload),
  (text% "ErrorIndication", Asn.Ranap.ErrorIndication),
  (text% "SRNS-DataForwardCommand", Asn.Ranap.SRNS_DataForwardCommand),
  (text% "ForwardSRNS-Context", Asn.Ranap.ForwardSRNS_Context),
  (text% "RAB-AssignmentRequest", Asn.Ranap.RAB_AssignmentRequest),
  (text% "RAB-SetupOrModifyList", Asn.Ranap.RAB_SetupOrModifyList),
  (text% "RAB-SetupOrModifyItemFirst", Asn.Ranap.RAB_SetupOrModifyItemFirst),
  (text% "TransportLayerInformation", Asn.Ranap.TransportLayerInformation),
  (text% "RAB-SetupOrModifyItemSecond", Asn.Ranap.RAB_SetupOrModifyItemSecond),
  (text% "RAB-AssignmentResponse", Asn.Ranap.RAB_AssignmentResponse),
  (text% "RAB-SetupOrModifiedList", Asn.Ranap.RAB_SetupOrModifiedList),
  (text% "RAB-SetupOrModifiedItem", Asn.Ranap.RAB_SetupOrModifiedItem),
  (text% "RAB-ReleasedList", Asn.Ranap.RAB_ReleasedList),
  (text% "RAB-ReleasedItem", Asn.Ranap.RAB_ReleasedItem),
  (text% "DataVolumeList", Asn.Ranap.DataVolumeList),
  (text% "DataVolumeList-Value", Asn.Ranap.DataVolumeList_Value),
  (text% "RAB-QueuedList", Asn.Ranap.RAB_QueuedList),
  (text% "RAB-QueuedItem", Asn.Ranap.RAB_QueuedItem),
  (text% "RAB-ReleaseFailedList", Asn.Ranap.RAB_ReleaseFailedList),
  (text% "GERAN-Iumode-RAB-FailedList-RABAssgntResponse", Asn.Ranap.GERAN_Iumode_RAB_FailedList_RABAssgntResponse),
  (text% "GERAN-Iumode-RAB-Failed-RABAssgntResponse-Item", Asn.Ranap.GERAN_Iumode_RAB_Failed_RABAssgntResponse_Item),
  (text% "PrivateMessage", Asn.Ranap.PrivateMessage),
  (text% "RANAP-RelocationInformation", Asn.Ranap.RANAP_RelocationInformation),
  (text% "DirectTransferInformationList-RANAP-RelocInf", Asn.Ranap.DirectTransferInformationList_RANAP_RelocInf),
  (text% "DirectTransferInformationItem-RANAP-RelocInf", Asn.Ranap.DirectTransferInformationItem_RANAP_RelocInf),
  (text% "RAB-ContextList-RANAP-RelocInf", Asn.Ranap.RAB_ContextList_RANAP_RelocInf),
  (text% "RAB-ContextItem-RANAP-RelocInf", Asn.Ranap.RAB_ContextItem_RANAP_RelocInf),
  (text% "RANAP-EnhancedRelocationInformationRequest", Asn.Ranap.RANAP_EnhancedRelocationInformationRequest),
  (text% "RAB-SetupList-EnhRelocInfoReq", Asn.Ranap.RAB_SetupList_EnhRelocInfoReq),
  (text% "RAB-SetupItem-EnhRelocInfoReq", Asn.Ranap.RAB_SetupItem_EnhRelocInfoReq),
  (text% "TNLInformationEnhRelInfoReq", Asn.Ranap.TNLInformationEnhRelInfoReq),
  (text% "RANAP-EnhancedRelocationInformationResponse", Asn.Ranap.RANAP_EnhancedRelocationInformationResponse),
  (text% "RAB-SetupList-EnhRelocInfoRes", Asn.Ranap.RAB_SetupList_EnhRelocInfoRes),
  (text% "RAB-SetupItem-EnhRelocInfoRes", Asn.Ranap.RAB_SetupItem_EnhRelocInfoRes),
  (text% "RAB-FailedList-EnhRelocInfoRes", Asn.Ranap.RAB_FailedList_EnhRelocInfoRes),
  (text% "RAB-FailedItem-EnhRelocInfoRes", Asn.Ranap.RAB_FailedItem_EnhRelocInfoRes),
  (text% "TNLInformationEnhRelInfoRes", Asn.Ranap.TNLInformationEnhRelInfoRes),
  (text% "RAB-ModifyRequest", Asn.Ranap.RAB_ModifyRequest),
  (text% "RAB-ModifyList", Asn.Ranap.RAB_ModifyList),
  (text% "RAB-ModifyItem", Asn.Ranap.RAB_ModifyItem),
  (text% "LocationRelatedDataRequest", Asn.Ranap.LocationRelatedDataRequest),
  (text% "LocationRelatedDataResponse", Asn.Ranap.LocationRelatedDataResponse),
  (text% "LocationRelatedDataFailure", Asn.Ranap.LocationRelatedDataFailure),
  (text% "InformationTransferIndication", Asn.Ranap.InformationTransferIndication),
  (text% "InformationTransferConfirmation", Asn.Ranap.InformationTransferConfirmation),
  (text% "InformationTransferFailure", Asn.Ranap.InformationTransferFailure),
  (text% "UESpecificInformationIndication", Asn.Ranap.UESpecificInformationIndication),
  (text% "DirectInformationTransfer", Asn.Ranap.DirectInformationTransfer),
  (text% "UplinkInformationExchangeRequest", Asn.Ranap.UplinkInformationExchangeRequest),
  (text% "UplinkInformationExchangeResponse", Asn.Ranap.UplinkInformationExchangeResponse),
  (text% "UplinkInformationExchangeFailure", Asn.Ranap.UplinkInformationExchangeFailure),
  (text% "MBMSSessionStart", Asn.Ranap.MBMSSessionStart),
  (text% "MBMSSynchronisationInformation", Asn.Ranap.MBMSSynchronisationInformation),
  (text% "MBMSSessionStartResponse", Asn.Ranap.MBMSSessionStartResponse),
  (text% "MBMSSessionStartFailure", Asn.Ranap.MBMSSessionStartFailure),
  (text% "MBMSSessionUpdate", Asn.Ranap.MBMSSessionUpdate),
  (text% "MBMSSessionUpdateResponse", Asn.Ranap.MBMSSessionUpdateResponse),
  (text% "MBMSSessionUpdateFailure", Asn.Ranap.MBMSSessionUpdateFailure),
  (text% "MBMSSessionStop", Asn.Ranap.MBMSSessionStop),
  (text% "MBMSSessionStopResponse", Asn.Ranap.MBMSSessionStopResponse),
  (text% "MBMSUELinkingRequest", Asn.Ranap.MBMSUELinkingRequest),
  (text% "LeftMBMSBearerService-IEs", Asn.Ranap.LeftMBMSBearerService_IEs),
  (text% "LeftMBMSBearerService-IEs-Value", Asn.Ranap.LeftMBMSBearerService_IEs_Value),
  (text% "MBMSUELinkingResponse", Asn.Ranap.MBMSUELinkingResponse),
  (text% "UnsuccessfulLinking-IEs", Asn.Ranap.UnsuccessfulLinking_IEs),
  (text% "UnsuccessfulLinking-IEs-Value", Asn.Ranap.UnsuccessfulLinking_IEs_Value),
  (text% "MBMSRegistrationRequest", Asn.Ranap.MBMSRegistrationRequest),
  (text% "MBMSRegistrationResponse", Asn.Ranap.MBMSRegistrationResponse),
  (text% "MBMSRegistrationFailure", Asn.Ranap.MBMSRegistrationFailure),
  (text% "MBMSCNDe-RegistrationRequest", Asn.Ranap.MBMSCNDe_RegistrationRequest),
  (text% "MBMSCNDe-RegistrationResponse", Asn.Ranap.MBMSCNDe_RegistrationResponse),
  (text% "MBMSRABEstablishmentIndication", Asn.Ranap.MBMSRABEstablishmentIndication),
  (text% "MBMSRABReleaseRequest", Asn.Ranap.MBMSRABReleaseRequest),
  (text% "MBMSRABRelease", Asn.Ranap.MBMSRABRelease),
  (text% "MBMSRABReleaseFailure", Asn.Ranap.MBMSRABReleaseFailure),
  (text% "SRVCC-CSKeysRequest", Asn.Ranap.SRVCC_CSKeysRequest),
  (text% "SRVCC-CSKeysResponse", Asn.Ranap.SRVCC_CSKeysResponse),
  (text% "UeRadioCapabilityMatchRequest", Asn.Ranap.UeRadioCapabilityMatchRequest),
  (text% "UeRadioCapabilityMatchResponse", Asn.Ranap.UeRadioCapabilityMatchResponse),
  (text% "RANAP-PDU", Asn.Ranap.RANAP_PDU),
  (text% "InitiatingMessage", Asn.Ranap.InitiatingMessage),
  (text% "SuccessfulOutcome", Asn.Ranap.SuccessfulOutcome),
  (text% "UnsuccessfulOutcome", Asn.Ranap.UnsuccessfulOutcome),
  (text% "Outcome", Asn.Ranap.Outcome),
  (text% "IE", Asn.Ranap.IE)]

end Verif.Gen.Text
