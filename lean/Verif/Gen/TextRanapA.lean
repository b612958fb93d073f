import Verif.Gen.TextLit
import Verif.Model.AsnToStruct

/-!
# Text of the RANAP messages

The lines 1-1328 of `/repo/asn1/ranap/RANAP-PDU-Contents.asn` as they are, in parts, each with the tables of
elements that are expected for it.
-/

namespace Verif.Gen.Text
open Verif.AsnToStruct

/-- asn1/ranap/RANAP-PDU-Contents.asn:1-446 -/
noncomputable def ranap0 : List Text := [
  text% "-- **************************************************************\n",
  text% "--\n",
  text% "-- PDU definitions for RANAP.\n",
  text% "--\n",
  text% "-- **************************************************************\n",
  text% "\n",
  text% "RANAP-PDU-Contents {\n",
  text% "itu-t (0) identified-organization (4) etsi (0) mobileDomain (0)\n",
  text% "umts-Access (20) modules (3) ranap (0) version1 (1) ranap-PDU-Contents (1) }\n",
  text% "\n",
  text% "DEFINITIONS AUTOMATIC TAGS ::=\n",
  text% "\n",
  text% "BEGIN\n",
  text% "\n",
  text% "-- **************************************************************\n",
  text% "--\n",
  text% "-- IE parameter types from other modules.\n",
  text% "--\n",
  text% "-- **************************************************************\n",
  text% "\n",
  text% "IMPORTS\n",
  text% "\tAccuracyFulfilmentIndicator,\n",
  text% "\tAPN,\n",
  text% "\tBroadcastAssistanceDataDecipheringKeys,\n",
  text% "\tLocationRelatedDataRequestType,\n",
  text% "\tLocationRelatedDataRequestTypeSpecificToGERANIuMode,\n",
  text% "\tDataVolumeReference,\n",
  text% "\tCellLoadInformation,\n",
  text% "\tAreaIdentity,\n",
  text% "\tCN-DomainIndicator,\n",
  text% "\tCause,\n",
  text% "\tCell-Access-Mode,\n",
  text% "\tClientType,\n",
  text% "\tCriticalityDiagnostics,\n",
  text% "\tChosenEncryptionAlgorithm,\n",
  text% "\tChosenIntegrityProtectionAlgorithm,\n",
  text% "\tClassmarkInformation2,\n",
  text% "\tClassmarkInformation3,\n",
  text% "\tCSG-Id,\n",
  text% "\tCSG-Id-List,\n",
  text% "\tCSG-Membership-Status,\n",
  text% "\tDL-GTP-PDU-SequenceNumber,\n",
  text% "\tDL-N-PDU-SequenceNumber,\n",
  text% "\tDataVolumeReportingIndication,\n",
  text% "\tDeltaRAListofIdleModeUEs,\n",
  text% "\tDRX-CycleLengthCoefficient,\n",
  text% "\tEncryptionInformation,\n",
  text% "\tEncryptionKey,\n",
  text% "\tE-UTRAN-Service-Handover,\n",
  text% "\tExtendedRNC-ID,\n",
  text% "\tFrequenceLayerConvergenceFlag,\n",
  text% "\tGERAN-BSC-Container,\n",
  text% "\tGERAN-Classmark,\n",
  text% "\tGlobalCN-ID,\n",
  text% "\tGlobalRNC-ID,\n",
  text% "\tGTP-TEI,\n",
  text% "\tIncludeVelocity,\n",
  text% "\tInformationExchangeID,\n",
  text% "\tInformationExchangeType,\n",
  text% "\tInformationRequested,\n",
  text% "\tInformationRequestType,\n",
  text% "\tInformationTransferID,\n",
  text% "\tInformationTransferType,\n",
  text% "\tInterSystemInformationTransferType,\n",
  text% "\tIntegrityProtectionInformation,\n",
  text% "\tIntegrityProtectionKey,\n",
  text% "\tInterSystemInformation-TransparentContainer,\n",
  text% "\tIPMulticastAddress,\n",
  text% "\tIuSignallingConnectionIdentifier,\n",
  text% "\tIuTransportAssociation,\n",
  text% "\tKeyStatus,\n",
  text% "\tL3-Information,\n",
  text% "\tLAI,\n",
  text% "\tLastKnownServiceArea,\n",
  text% "\tCorrelation-ID,\n",
  text% "\tMBMS-PTP-RAB-ID,\n",
  text% "\tMBMSBearerServiceType,\n",
  text% "\tMBMSCountingInformation,\n",
  text% "\tMBMSCNDe-Registration,\n",
  text% "\tMBMSHCIndicator,\n",
  text% "\tMBMSRegistrationRequestType,\n",
  text% "\tMBMSServiceArea,\n",
  text% "\tMBMSSessionDuration,\n",
  text% "\tMBMSSessionIdentity,\n",
  text% "\tMBMSSessionRepetitionNumber,\n",
  text% "\tMSISDN,\n",
  text% "\tNAS-PDU,\n",
  text% "\tNAS-SequenceNumber,\n",
  text% "\tNAS-SynchronisationIndicator,\n",
  text% "\tNewBSS-To-OldBSS-Information,\n",
  text% "\tNonSearchingIndication,\n",
  text% "\tNumberOfSteps,\n",
  text% "\tOffload-RAB-Parameters,\n",
  text% "\tOffload-RAB-Parameters-APN,\n",
  text% "\tOffload-RAB-Parameters-ChargingCharacteristics,\n",
  text% "\tOMC-ID,\n",
  text% "\tOldBSS-ToNewBSS-Information,\n",
  text% "\tPagingAreaID,\n",
  text% "\tPagingCause,\n",
  text% "\tPDP-TypeInformation, \n",
  text% "\tPDP-TypeInformation-extension,\n",
  text% "\tPermanentNAS-UE-ID,\n",
  text% "\tPLMNidentity,\n",
  text% "\tPositionData,\n",
  text% "\tPositionDataSpecificToGERANIuMode,\n",
  text% "\tPositioningPriority,\n",
  text% "\tProvidedData,\n",
  text% "\tRAB-ID,\n",
  text% "\tRAB-Parameters,\n",
  text% "\tRAC,\n",
  text% "\tRAListofIdleModeUEs,\n",
  text% "\tRAT-Type,\n",
  text% "\tRedirectAttemptFlag,\n",
  text% "\tRedirectionCompleted,\n",
  text% "\tRejectCauseValue,\n",
  text% "\tRelocationType,\n",
  text% "\tRequestedGANSSAssistanceData,\n",
  text% "\tRequestType,\n",
  text% "\tRequested-RAB-Parameter-Values,\n",
  text% "\tResponseTime,\n",
  text% "\tRRC-Container,\n",
  text% "\tRSRVCC-Operation-Possible,\n",
  text% "\tRSRQ-Type,\n",
  text% "\tRSRQ-Extension,\n",
  text% "\tSAI,\n",
  text% "\tSAPI,\n",
  text% "\tService-Handover,\n",
  text% "\tSessionUpdateID,\n",
  text% "\tSNA-Access-Information,\n",
  text% "\tSourceBSS-ToTargetBSS-TransparentContainer,\n",
  text% "\tSourceID,\n",
  text% "\tSource-ToTarget-TransparentContainer,\n",
  text% "\tSourceRNC-ToTargetRNC-TransparentContainer,\n",
  text% "\tSRVCC-HO-Indication,\n",
  text% "\tSRVCC-Information,\n",
  text% "\tSRVCC-Operation-Possible,\n",
  text% "\tTargetBSS-ToSourceBSS-TransparentContainer,\n",
  text% "\tTargetID,\n",
  text% "\tTarget-ToSource-TransparentContainer,\n",
  text% "\tTargetRNC-ToSourceRNC-TransparentContainer,\n",
  text% "\tTemporaryUE-ID,\n",
  text% "\tTimeToMBMSDataTransfer,\n",
  text% "\tTMGI,\n",
  text% "\tTracePropagationParameters,\n",
  text% "\tTraceReference,\n",
  text% "\tTraceType,\n",
  text% "\tUnsuccessfullyTransmittedDataVolume,\n",
  text% "\tTransportLayerAddress,\n",
  text% "\tTriggerID,\n",
  text% "\tUE-AggregateMaximumBitRate,\n",
  text% "\tUE-ID,\n",
  text% "\tUESBI-Iu,\n",
  text% "\tUL-GTP-PDU-SequenceNumber,\n",
  text% "\tUL-N-PDU-SequenceNumber,\n",
  text% "\tUP-ModeVersions,\n",
  text% "\tUserPlaneMode,\n",
  text% "\tVelocityEstimate,\n",
  text% "\tVerticalAccuracyCode,\n",
  text% "\tVoiceSupportMatchIndicator,\n",
  text% "\tAlt-RAB-Parameters,\n",
  text% "\tAss-RAB-Parameters,\n",
  text% "\tPeriodicLocationInfo,\n",
  text% "\tSubscriberProfileIDforRFP,\n",
  text% "\tRNSAPRelocationParameters,\n",
  text% "\tRABParametersList,\n",
  text% "\tMDT-Configuration,\n",
  text% "\tPriority-Class-Indicator,\n",
  text% "\tManagement-Based-MDT-Allowed,\n",
  text% "\tHigherBitratesThan16MbpsFlag,\n",
  text% "\tEnd-Of-CSFB,\n",
  text% "\tOut-Of-UTRAN,\n",
  text% "\tRSRVCC-HO-Indication,\n",
  text% "\tRSRVCC-Information,\n",
  text% "\tMDT-PLMN-List,\n",
  text% "\tTunnelInformation,\n",
  text% "\tLHN-ID,\n",
  text% "\tSession-Re-establishment-Indicator\n",
  text% "\n",
  text% "FROM RANAP-IEs\n",
  text% "\n",
  text% "\tPrivateIE-Container{},\n",
  text% "\tProtocolExtensionContainer{},\n",
  text% "\tProtocolIE-ContainerList{},\n",
  text% "\tProtocolIE-ContainerPair{},\n",
  text% "\tProtocolIE-ContainerPairList{},\n",
  text% "\tProtocolIE-Container{},\n",
  text% "\tRANAP-PRIVATE-IES,\n",
  text% "\tRANAP-PROTOCOL-EXTENSION,\n",
  text% "\tRANAP-PROTOCOL-IES,\n",
  text% "\tRANAP-PROTOCOL-IES-PAIR\n",
  text% "FROM RANAP-Containers\n",
  text% "\n",
  text% "\tmaxNrOfDTs,\n",
  text% "\tmaxNrOfErrors,\n",
  text% "\tmaxNrOfIuSigConIds,\n",
  text% "\tmaxNrOfRABs,\n",
  text% "\tmaxNrOfVol,\n",
  text% "\tmaxnoofMulticastServicesPerUE,\n",
  text% "\n",
  text% "\tid-AccuracyFulfilmentIndicator,\n",
  text% "\tid-APN,\n",
  text% "\tid-AreaIdentity,\n",
  text% "\tid-Alt-RAB-Parameters,\n",
  text% "\tid-Ass-RAB-Parameters,\n",
  text% "\tid-BroadcastAssistanceDataDecipheringKeys,\n",
  text% "\tid-LocationRelatedDataRequestType,\n",
  text% "\tid-CN-DomainIndicator,\n",
  text% "\tid-Cause,\n",
  text% "\tid-Cell-Access-Mode,\n",
  text% "\tid-ChosenEncryptionAlgorithm,\n",
  text% "\tid-ChosenIntegrityProtectionAlgorithm,\n",
  text% "\tid-ClassmarkInformation2,\n",
  text% "\tid-ClassmarkInformation3,\n",
  text% "\tid-ClientType,\n",
  text% "\tid-CNMBMSLinkingInformation,\n",
  text% "\tid-CriticalityDiagnostics,\n",
  text% "\tid-CSG-Id,\n",
  text% "\tid-CSG-Id-List,\n",
  text% "\tid-CSG-Membership-Status,\n",
  text% "\tid-DeltaRAListofIdleModeUEs,\n",
  text% "\tid-DRX-CycleLengthCoefficient,\n",
  text% "\tid-DirectTransferInformationItem-RANAP-RelocInf,\n",
  text% "\tid-DirectTransferInformationList-RANAP-RelocInf,\n",
  text% "\tid-DL-GTP-PDU-SequenceNumber,\n",
  text% "\tid-EncryptionInformation,\n",
  text% "\tid-EncryptionKey,\n",
  text% "\tid-ExtendedRNC-ID,\n",
  text% "\tid-FrequenceLayerConvergenceFlag,\n",
  text% "\tid-GERAN-BSC-Container,\n",
  text% "\tid-GERAN-Classmark,\n",
  text% "\tid-GERAN-Iumode-RAB-Failed-RABAssgntResponse-Item,\n",
  text% "\tid-GERAN-Iumode-RAB-FailedList-RABAssgntResponse,\n",
  text% "\tid-GlobalCN-ID,\n",
  text% "\tid-GlobalCN-IDCS,\n",
  text% "\tid-GlobalCN-IDPS,\n",
  text% "\tid-GlobalRNC-ID,\n",
  text% "\tid-IncludeVelocity,\n",
  text% "\tid-InformationExchangeID,\n",
  text% "\tid-InformationExchangeType,\n",
  text% "\tid-InformationRequested,\n",
  text% "\tid-InformationRequestType,\n",
  text% "\tid-InformationTransferID,\n",
  text% "\tid-InformationTransferType,\n",
  text% "\tid-IntegrityProtectionInformation,\n",
  text% "\tid-IntegrityProtectionKey,\n",
  text% "\tid-InterSystemInformationTransferType,\n",
  text% "\tid-InterSystemInformation-TransparentContainer,\n",
  text% "\tid-IPMulticastAddress,\n",
  text% "\tid-IuSigConId,\n",
  text% "\tid-OldIuSigConId,\n",
  text% "\tid-OldIuSigConIdCS,\n",
  text% "\tid-OldIuSigConIdPS,\n",
  text% "\tid-IuSigConIdItem,\n",
  text% "\tid-IuSigConIdList,\n",
  text% "\tid-IuTransportAssociation,\n",
  text% "\tid-JoinedMBMSBearerServicesList,\n",
  text% "\tid-KeyStatus,\n",
  text% "\tid-L3-Information,\n",
  text% "\tid-LAI,\n",
  text% "\tid-LastKnownServiceArea,\n",
  text% "\tid-LeftMBMSBearerServicesList,\n",
  text% "\tid-LocationRelatedDataRequestTypeSpecificToGERANIuMode,\n",
  text% "\tid-MBMSBearerServiceType,\n",
  text% "\tid-MBMSCountingInformation,\n",
  text% "\tid-MBMSCNDe-Registration,\n",
  text% "\tid-MBMSRegistrationRequestType,\n",
  text% "\tid-MBMSSynchronisationInformation,\n",
  text% "\tid-MBMSServiceArea,\n",
  text% "\tid-MBMSSessionDuration,\n",
  text% "\tid-MBMSSessionIdentity,\n",
  text% "\tid-MBMSSessionRepetitionNumber,\n",
  text% "\tid-MSISDN,\n",
  text% "\tid-NAS-PDU,\n",
  text% "\tid-NAS-SequenceNumber,\n",
  text% "\tid-NewBSS-To-OldBSS-Information,\n",
  text% "\tid-NonSearchingIndication,\n",
  text% "\tid-NumberOfSteps,\n",
  text% "\tid-Offload-RAB-Parameters,\n",
  text% "\tid-OMC-ID,\n",
  text% "\tid-OldBSS-ToNewBSS-Information,\n",
  text% "\tid-PagingAreaID,\n",
  text% "\tid-PagingCause,\n",
  text% "\tid-PDP-TypeInformation,\n",
  text% "\tid-PDP-TypeInformation-extension,\n",
  text% "\tid-PermanentNAS-UE-ID,\n",
  text% "\tid-PositionData,\n",
  text% "\tid-PositionDataSpecificToGERANIuMode,\n",
  text% "\tid-PositioningPriority,\n",
  text% "\tid-ProvidedData,\n",
  text% "\tid-RAB-ContextItem,\n",
  text% "\tid-RAB-ContextList,\n",
  text% "\tid-RAB-ContextFailedtoTransferItem,\n",
  text% "\tid-RAB-ContextFailedtoTransferList,\n",
  text% "\tid-RAB-ContextItem-RANAP-RelocInf,\n",
  text% "\tid-RAB-ContextList-RANAP-RelocInf,\n",
  text% "\tid-RAB-DataForwardingItem,\n",
  text% "\tid-RAB-DataForwardingItem-SRNS-CtxReq,\n",
  text% "\tid-RAB-DataForwardingList,\n",
  text% "\tid-RAB-DataForwardingList-SRNS-CtxReq,\n",
  text% "\tid-RAB-DataVolumeReportItem,\n",
  text% "\tid-RAB-DataVolumeReportList,\n",
  text% "\tid-RAB-DataVolumeReportRequestItem,\n",
  text% "\tid-RAB-DataVolumeReportRequestList,\n",
  text% "\tid-RAB-FailedItem,\n",
  text% "\tid-RAB-FailedList,\n",
  text% "\tid-RAB-FailedList-EnhRelocInfoRes,\n",
  text% "\tid-RAB-FailedItem-EnhRelocInfoRes,\n",
  text% "\tid-RAB-FailedtoReportItem,\n",
  text% "\tid-RAB-FailedtoReportList,\n",
  text% "\tid-RAB-ID,\n",
  text% "\tid-RAB-ModifyList,\n",
  text% "\tid-RAB-ModifyItem,\n",
  text% "\tid-RAB-Parameters,\n",
  text% "\tid-RAB-QueuedItem,\n",
  text% "\tid-RAB-QueuedList,\n",
  text% "\tid-RAB-ReleaseFailedList,\n",
  text% "\tid-RAB-ReleaseItem,\n",
  text% "\tid-RAB-ReleasedItem-IuRelComp,\n",
  text% "\tid-RAB-ReleaseList,\n",
  text% "\tid-RAB-ReleasedItem,\n",
  text% "\tid-RAB-ReleasedList,\n",
  text% "\tid-RAB-ReleasedList-IuRelComp,\n",
  text% "\tid-RAB-RelocationReleaseItem,\n",
  text% "\tid-RAB-RelocationReleaseList,\n",
  text% "\tid-RAB-SetupItem-RelocReq,\n",
  text% "\tid-RAB-SetupItem-RelocReqAck,\n",
  text% "\tid-RAB-SetupList-RelocReq,\n",
  text% "\tid-RAB-SetupList-RelocReqAck,\n",
  text% "\tid-RAB-SetupList-EnhRelocInfoReq,\n",
  text% "\tid-RAB-SetupItem-EnhRelocInfoReq,\n",
  text% "\tid-RAB-SetupList-EnhRelocInfoRes,\n",
  text% "\tid-RAB-SetupItem-EnhRelocInfoRes,\n",
  text% "\tid-RAB-SetupList-EnhancedRelocCompleteReq,\n",
  text% "\tid-RAB-SetupItem-EnhancedRelocCompleteReq,\n",
  text% "\tid-RAB-SetupList-EnhancedRelocCompleteRes,\n",
  text% "\tid-RAB-SetupItem-EnhancedRelocCompleteRes,\n",
  text% "\tid-RAB-SetupOrModifiedItem,\n",
  text% "\tid-RAB-SetupOrModifiedList,\n",
  text% "\tid-RAB-SetupOrModifyItem,\n",
  text% "\tid-RAB-SetupOrModifyList,\n",
  text% "\tid-RAB-ToBeReleasedItem-EnhancedRelocCompleteRes,\n",
  text% "\tid-RAB-ToBeReleasedList-EnhancedRelocCompleteRes,\n",
  text% "\tid-RAC,\n",
  text% "\tid-RAListofIdleModeUEs,\n",
  text% "\tid-RAT-Type,\n",
  text% "\tid-RedirectAttemptFlag,\n",
  text% "\tid-RedirectionCompleted,\n",
  text% "\tid-RedirectionIndication,\n",
  text% "\tid-RejectCauseValue,\n",
  text% "\tid-RelocationType,\n",
  text% "\tid-Relocation-SourceRNC-ID,\n",
  text% "\tid-Relocation-SourceExtendedRNC-ID,\n",
  text% "\tid-Relocation-TargetRNC-ID,\n",
  text% "\tid-Relocation-TargetExtendedRNC-ID,\n",
  text% "\tid-RequestedGANSSAssistanceData,\n",
  text% "\tid-RequestType,\n",
  text% "\tid-ResponseTime,\n",
  text% "\tid-RSRVCC-Operation-Possible,\n",
  text% "\tid-SAI,\n",
  text% "\tid-SAPI,\n",
  text% "\tid-SelectedPLMN-ID,\n",
  text% "\tid-SessionUpdateID,\n",
  text% "\tid-SNA-Access-Information,\n",
  text% "\tid-SourceBSS-ToTargetBSS-TransparentContainer,\n",
  text% "\tid-SourceRNC-ID,\n",
  text% "\tid-SourceExtendedRNC-ID,\n",
  text% "\tid-SourceID,\n",
  text% "\tid-Source-ToTarget-TransparentContainer,\n",
  text% "\tid-SourceRNC-PDCP-context-info,\n",
  text% "\tid-SRVCC-HO-Indication,\n",
  text% "\tid-SRVCC-Information,\n",
  text% "\tid-SRVCC-Operation-Possible,\n",
  text% "\tid-TargetBSS-ToSourceBSS-TransparentContainer,\n",
  text% "\tid-TargetID,\n",
  text% "\tid-Target-ToSource-TransparentContainer,\n",
  text% "\tid-TemporaryUE-ID,\n",
  text% "\tid-TimeToMBMSDataTransfer,\n",
  text% "\tid-TMGI,\n",
  text% "\tid-TracePropagationParameters,\n",
  text% "\tid-TraceReference,\n",
  text% "\tid-TraceType,\n",
  text% "\tid-TransportLayerAddress,\n",
  text% "\tid-TransportLayerInformation,\n",
  text% "\tid-TriggerID,\n",
  text% "\tid-UE-AggregateMaximumBitRate,\n",
  text% "\tid-UE-ID,\n",
  text% "\tid-UESBI-Iu,\n",
  text% "\tid-UL-GTP-PDU-SequenceNumber,\n",
  text% "\tid-UnsuccessfulLinkingList,\n",
  text% "\tid-VelocityEstimate,\n",
  text% "\tid-VerticalAccuracyCode,\n",
  text% "\tid-VoiceSupportMatchIndicator,\n",
  text% "\tid-PeriodicLocationInfo,\n",
  text% "\tid-BroadcastGANSSAssistanceDataDecipheringKeys,\n",
  text% "\tid-SubscriberProfileIDforRFP,\n",
  text% "\tid-E-UTRAN-Service-Handover,\n",
  text% "\tid-IP-Source-Address,\n",
  text% "\tid-LGW-TransportLayerAddress,\n",
  text% "\tid-Correlation-ID,\n",
  text% "\tid-MDT-Configuration,\n",
  text% "\tid-RNSAPRelocationParameters,\n",
  text% "\tid-RABParametersList,\n",
  text% "\tid-Priority-Class-Indicator,\n",
  text% "\tid-Management-Based-MDT-Allowed,\n",
  text% "\tid-HigherBitratesThan16MbpsFlag,\n",
  text% "\tid-Trace-Collection-Entity-IP-Addess,\n",
  text% "\tid-End-Of-CSFB,\n",
  text% "\tid-Out-Of-UTRAN,\n",
  text% "\tid-RSRVCC-HO-Indication,\n",
  text% "\tid-RSRVCC-Information,\n",
  text% "\tid-AnchorPLMN-ID,\n",
  text% "\tid-Management-Based-MDT-PLMN-List,\n",
  text% "\tid-Tunnel-Information-for-BBF,\n",
  text% "\tid-SIPTO-Correlation-ID,\n",
  text% "\tid-SIPTO-LGW-TransportLayerAddress,\n",
  text% "\tid-LHN-ID,\n",
  text% "\tid-LastE-UTRANPLMNIdentity,\n",
  text% "\tid-Session-Re-establishment-Indicator\n",
  text% "\n",
  text% "FROM RANAP-Constants;\n",
  text% "\n",
  text% "-- **************************************************************\n",
  text% "--\n",
  text% "-- Common Container Lists\n",
  text% "--\n",
  text% "-- **************************************************************\n",
  text% "\n",
  text% "RAB-IE-ContainerList\t\t{ RANAP-PROTOCOL-IES\t\t: IEsSetParam }\t::= ProtocolIE-ContainerList\t\t{ 1, maxNrOfRABs,\t\t{IEsSetParam} }\n",
  text% "RAB-IE-ContainerPairList\t{ RANAP-PROTOCOL-IES-PAIR\t: IEsSetParam }\t::= ProtocolIE-ContainerPairList\t{ 1, maxNrOfRABs,\t\t{IEsSetParam} }\n",
  text% "ProtocolError-IE-ContainerList\t{ RANAP-PROTOCOL-IES\t\t: IEsSetParam }\t::= ProtocolIE-ContainerList\t\t{ 1, maxNrOfRABs,\t\t{IEsSetParam} }\n",
  text% "IuSigConId-IE-ContainerList\t{ RANAP-PROTOCOL-IES\t\t: IEsSetParam }\t::= ProtocolIE-ContainerList\t\t{ 1, maxNrOfIuSigConIds,\t{IEsSetParam} }\n",
  text% "DirectTransfer-IE-ContainerList\t{ RANAP-PROTOCOL-IES\t\t: IEsSetParam }\t::= ProtocolIE-ContainerList\t\t{ 1, maxNrOfDTs,\t\t{IEsSetParam} }\n",
  text% "\n",
  text% "-- **************************************************************\n",
  text% "--\n",
  text% "-- Iu RELEASE ELEMENTARY PROCEDURE\n",
  text% "--\n",
  text% "-- **************************************************************\n",
  text% "\n",
  text% "-- **************************************************************\n",
  text% "--\n",
  text% "-- Iu Release Command\n",
  text% "--\n",
  text% "-- **************************************************************\n",
  text% "\n",
  text% "Iu-ReleaseCommand ::= SEQUENCE {\n"]

/-- The tables of `ranap0`. -/
noncomputable def ranap0Tables : List (Text × List Row) := []

/-- asn1/ranap/RANAP-PDU-Contents.asn:447-490 -/
noncomputable def ranap1 : List Text := [
  text% "\tprotocolIEs\t\tProtocolIE-Container\t\t{ {Iu-ReleaseCommandIEs} },\n",
  text% "\tprotocolExtensions\tProtocolExtensionContainer\t{ {Iu-ReleaseCommandExtensions} } \tOPTIONAL,\n",
  text% "\t...\n",
  text% "}\n",
  text% "\n",
  text% "Iu-ReleaseCommandIEs RANAP-PROTOCOL-IES ::= {\n",
  text% "\t{ ID id-Cause\t\tCRITICALITY ignore\tTYPE Cause\t PRESENCE mandatory\t},\n",
  text% "\t...\n",
  text% "}\n",
  text% "\n",
  text% "Iu-ReleaseCommandExtensions RANAP-PROTOCOL-EXTENSION ::= {\n",
  text% "\t{ ID id-End-Of-CSFB\t\tCRITICALITY ignore\tEXTENSION End-Of-CSFB\t\tPRESENCE optional }|\n",
  text% "\t{ ID id-Out-Of-UTRAN\t\tCRITICALITY ignore\tEXTENSION Out-Of-UTRAN\t\tPRESENCE optional }|\n",
  text% "\t{ ID id-LastE-UTRANPLMNIdentity\tCRITICALITY ignore\tEXTENSION PLMNidentity\t\tPRESENCE optional },\n",
  text% "\t...\n",
  text% "}\n",
  text% "\n",
  text% "-- **************************************************************\n",
  text% "--\n",
  text% "-- Iu Release Complete\n",
  text% "--\n",
  text% "-- **************************************************************\n",
  text% "\n",
  text% "Iu-ReleaseComplete ::= SEQUENCE {\n",
  text% "\tprotocolIEs\t\tProtocolIE-Container\t\t{ {Iu-ReleaseCompleteIEs} },\n",
  text% "\tprotocolExtensions\tProtocolExtensionContainer\t{ {Iu-ReleaseCompleteExtensions} }\tOPTIONAL,\n",
  text% "\t...\n",
  text% "}\n",
  text% "\n",
  text% "Iu-ReleaseCompleteIEs RANAP-PROTOCOL-IES ::= {\n",
  text% "\t{ ID id-RAB-DataVolumeReportList\tCRITICALITY ignore\tTYPE RAB-DataVolumeReportList \tPRESENCE optional\t} |\n",
  text% "\t{ ID id-RAB-ReleasedList-IuRelComp\tCRITICALITY ignore\tTYPE RAB-ReleasedList-IuRelComp\tPRESENCE optional\t} |\n",
  text% "\t{ ID id-CriticalityDiagnostics\t\tCRITICALITY ignore\tTYPE CriticalityDiagnostics \tPRESENCE optional \t},\n",
  text% "\t...\n",
  text% "}\n",
  text% "\n",
  text% "RAB-DataVolumeReportList ::= RAB-IE-ContainerList { {RAB-DataVolumeReportItemIEs} }\n",
  text% "\n",
  text% "RAB-DataVolumeReportItemIEs RANAP-PROTOCOL-IES ::= {\n",
  text% "\t{ ID id-RAB-DataVolumeReportItem\tCRITICALITY ignore\tTYPE RAB-DataVolumeReportItem\tPRESENCE mandatory\t},\n",
  text% "\t...\n",
  text% "}\n",
  text% "\n",
  text% "RAB-DataVolumeReportItem ::= SEQUENCE {\n"]

/-- The tables of `ranap1`. -/
noncomputable def ranap1Tables : List (Text × List Row) := [
  (text% "Iu-ReleaseCommandIEs", [
    ⟨text% "id-Cause", text% "ignore", text% "Cause", text% "mandatory"⟩]),
  (text% "Iu-ReleaseCompleteIEs", [
    ⟨text% "id-RAB-DataVolumeReportList", text% "ignore", text% "RAB-DataVolumeReportList", text% "optional"⟩,
    ⟨text% "id-RAB-ReleasedList-IuRelComp", text% "ignore", text% "RAB-ReleasedList-IuRelComp", text% "optional"⟩,
    ⟨text% "id-CriticalityDiagnostics", text% "ignore", text% "CriticalityDiagnostics", text% "optional"⟩]),
  (text% "RAB-DataVolumeReportItemIEs", [
    ⟨text% "id-RAB-DataVolumeReportItem", text% "ignore", text% "RAB-DataVolumeReportItem", text% "mandatory"⟩])]

/-- asn1/ranap/RANAP-PDU-Contents.asn:491-581 -/
noncomputable def ranap2 : List Text := [
  text% "\trAB-ID\t\t\t\t\tRAB-ID,\n",
  text% "\tdl-UnsuccessfullyTransmittedDataVolume\tDataVolumeList\t\tOPTIONAL\n",
  text% "\t-- This IE shall always be present although its presence is optional --,\n",
  text% "\tiE-Extensions\t\t\t\tProtocolExtensionContainer { {RAB-DataVolumeReportItem-ExtIEs} } OPTIONAL,\n",
  text% "\t...\n",
  text% "}\n",
  text% "\n",
  text% "RAB-DataVolumeReportItem-ExtIEs RANAP-PROTOCOL-EXTENSION ::= {\n",
  text% "\t...\n",
  text% "}\n",
  text% "\n",
  text% "RAB-ReleasedList-IuRelComp\t::= RAB-IE-ContainerList { {RAB-ReleasedItem-IuRelComp-IEs} }\n",
  text% "\n",
  text% "RAB-ReleasedItem-IuRelComp-IEs RANAP-PROTOCOL-IES ::= {\n",
  text% "\t{ ID id-RAB-ReleasedItem-IuRelComp\tCRITICALITY ignore\tTYPE RAB-ReleasedItem-IuRelComp\t\t\t\tPRESENCE mandatory\t},\n",
  text% "\t...\n",
  text% "}\n",
  text% "\n",
  text% "RAB-ReleasedItem-IuRelComp\t::= SEQUENCE {\n",
  text% "\t\trAB-ID\t\t\t\tRAB-ID,\n",
  text% "\t\tdL-GTP-PDU-SequenceNumber\tDL-GTP-PDU-SequenceNumber \tOPTIONAL,\n",
  text% "\t\tuL-GTP-PDU-SequenceNumber\tUL-GTP-PDU-SequenceNumber \tOPTIONAL,\n",
  text% "\t\tiE-Extensions\t\t\tProtocolExtensionContainer { {RAB-ReleasedItem-IuRelComp-ExtIEs} }\t\t\tOPTIONAL,\n",
  text% "\t...\n",
  text% "}\n",
  text% "\n",
  text% "RAB-ReleasedItem-IuRelComp-ExtIEs RANAP-PROTOCOL-EXTENSION ::= {\n",
  text% "\t...\n",
  text% "}\n",
  text% "\n",
  text% "\n",
  text% "Iu-ReleaseCompleteExtensions RANAP-PROTOCOL-EXTENSION ::= {\n",
  text% "\t...\n",
  text% "}\n",
  text% "\n",
  text% "-- **************************************************************\n",
  text% "--\n",
  text% "-- RELOCATION PREPARATION ELEMENTARY PROCEDURE\n",
  text% "--\n",
  text% "-- **************************************************************\n",
  text% "\n",
  text% "-- **************************************************************\n",
  text% "--\n",
  text% "-- Relocation Required\n",
  text% "--\n",
  text% "-- **************************************************************\n",
  text% "\n",
  text% "RelocationRequired ::= SEQUENCE {\n",
  text% "\tprotocolIEs\t\t\tProtocolIE-Container\t\t\t{ {RelocationRequiredIEs} },\n",
  text% "\tprotocolExtensions\t\tProtocolExtensionContainer\t{ {RelocationRequiredExtensions} }\t\t\t\tOPTIONAL,\n",
  text% "...\n",
  text% "}\n",
  text% "\n",
  text% "RelocationRequiredIEs RANAP-PROTOCOL-IES ::= {\n",
  text% "\t{ ID id-RelocationType\t\t\t\tCRITICALITY reject\tTYPE RelocationType \t\t\t\tPRESENCE mandatory\t} |\n",
  text% "\t{ ID id-Cause\t\t\t\t\tCRITICALITY ignore\tTYPE Cause\t\t \t\t\tPRESENCE mandatory\t} |\n",
  text% "\t{ ID id-SourceID\t\t\t\tCRITICALITY ignore\tTYPE SourceID\t \t\t\t\tPRESENCE mandatory\t} |\n",
  text% "\t{ ID id-TargetID\t\t\t\tCRITICALITY reject\tTYPE TargetID\t \t\t\t\tPRESENCE mandatory\t} |\n",
  text% "\t{ ID id-ClassmarkInformation2\t\t\tCRITICALITY reject\tTYPE ClassmarkInformation2\t\t\tPRESENCE conditional\n",
  text% "\t-- This IE shall be present if the Target ID IE contains a CGI IE and Source BSS To Target BSS Transparent Container is not included --\t\t} |\n",
  text% "\t{ ID id-ClassmarkInformation3\t\t\tCRITICALITY ignore\tTYPE ClassmarkInformation3\t\t\tPRESENCE conditional\n",
  text% "\t-- This IE shall be present if the Target ID IE contains a CGI IE and Source BSS To Target BSS Transparent Container is not included --\t\t} |\n",
  text% "\t{ ID id-Source-ToTarget-TransparentContainer\tCRITICALITY reject\tTYPE Source-ToTarget-TransparentContainer PRESENCE conditional\n",
  text% "\t-- This IE shall be present if the Target ID IE contains a RNC-ID IE or eNB-ID --\t\t\t\t\t\t\t\t} |\n",
  text% "\t{ ID id-OldBSS-ToNewBSS-Information\t\tCRITICALITY ignore\tTYPE OldBSS-ToNewBSS-Information\t\tPRESENCE optional\t} ,\n",
  text% "\t...\n",
  text% "}\n",
  text% "\n",
  text% "RelocationRequiredExtensions RANAP-PROTOCOL-EXTENSION ::= {\n",
  text% "-- Extension for Release 5 to enable GERAN support over Iu-cs --\n",
  text% "\t{ ID id-GERAN-Classmark\t\t\t\t\tCRITICALITY ignore\tEXTENSION GERAN-Classmark\t\tPRESENCE optional} |\n",
  text% "-- Extension for Release 6 to enable Inter-RAT PS Handover between UTRAN and GERAN A/Gb --\n",
  text% "\t{ ID id-SourceBSS-ToTargetBSS-TransparentContainer\tCRITICALITY ignore\tEXTENSION SourceBSS-ToTargetBSS-TransparentContainer\tPRESENCE optional} |\n",
  text% "-- Extension for Release 8 for SRVCC operation --\n",
  text% "\t{ ID id-SRVCC-HO-Indication\t\t\t\tCRITICALITY reject\tEXTENSION SRVCC-HO-Indication\t\tPRESENCE optional} |\n",
  text% "-- Extension for Release 9 to communicate to the CN the CSG id of the target cell --\n",
  text% "\t{ ID id-CSG-Id\t\t\t\t\t\tCRITICALITY reject\tEXTENSION CSG-Id \t\t\tPRESENCE optional} |\n",
  text% "-- Extension for Release 9 to communicate to the CN the hybrid access status of the target cell --\n",
  text% "\t{ ID id-Cell-Access-Mode\t\t\t\tCRITICALITY reject\tEXTENSION Cell-Access-Mode\t\tPRESENCE optional} |\n",
  text% "-- Extension for Release 11 for rSRVCC operation --\n",
  text% "\t{ ID id-RSRVCC-HO-Indication\t\t\t\tCRITICALITY reject\tEXTENSION RSRVCC-HO-Indication\t\tPRESENCE optional},\n",
  text% "\t...\n",
  text% "}\n",
  text% "\n",
  text% "-- **************************************************************\n",
  text% "--\n",
  text% "-- Relocation Command\n",
  text% "--\n",
  text% "-- **************************************************************\n",
  text% "\n",
  text% "RelocationCommand ::= SEQUENCE {\n"]

/-- The tables of `ranap2`. -/
noncomputable def ranap2Tables : List (Text × List Row) := [
  (text% "RAB-ReleasedItem-IuRelComp-IEs", [
    ⟨text% "id-RAB-ReleasedItem-IuRelComp", text% "ignore", text% "RAB-ReleasedItem-IuRelComp", text% "mandatory"⟩]),
  (text% "RelocationRequiredIEs", [
    ⟨text% "id-RelocationType", text% "reject", text% "RelocationType", text% "mandatory"⟩,
    ⟨text% "id-Cause", text% "ignore", text% "Cause", text% "mandatory"⟩,
    ⟨text% "id-SourceID", text% "ignore", text% "SourceID", text% "mandatory"⟩,
    ⟨text% "id-TargetID", text% "reject", text% "TargetID", text% "mandatory"⟩,
    ⟨text% "id-OldBSS-ToNewBSS-Information", text% "ignore", text% "OldBSS-ToNewBSS-Information", text% "optional"⟩])]

/-- asn1/ranap/RANAP-PDU-Contents.asn:582-621 -/
noncomputable def ranap3 : List Text := [
  text% "\tprotocolIEs\t\t\tProtocolIE-Container\t\t\t{ {RelocationCommandIEs} },\n",
  text% "\tprotocolExtensions\t\tProtocolExtensionContainer\t{ {RelocationCommandExtensions} }\t\t\t\tOPTIONAL,\n",
  text% "\t...\n",
  text% "}\n",
  text% "\n",
  text% "RelocationCommandIEs RANAP-PROTOCOL-IES ::= {\n",
  text% "\t{ ID id-Target-ToSource-TransparentContainer\t\n",
  text% "\t\t\t\t\t\t\tCRITICALITY reject\tTYPE Target-ToSource-TransparentContainer PRESENCE optional\t} |\n",
  text% "\t{ ID id-L3-Information\t\t\t\tCRITICALITY ignore\tTYPE L3-Information\t\t\t\tPRESENCE optional\t} |\n",
  text% "\t{ ID id-RAB-RelocationReleaseList\t\tCRITICALITY ignore\tTYPE RAB-RelocationReleaseList \t\t\tPRESENCE optional\t} |\n",
  text% "\t{ ID id-RAB-DataForwardingList\t\t\tCRITICALITY ignore\tTYPE RAB-DataForwardingList\t\t\tPRESENCE optional\t} |\n",
  text% "\t{ ID id-CriticalityDiagnostics\t\t\tCRITICALITY ignore\tTYPE CriticalityDiagnostics \t\t\tPRESENCE optional\t},\n",
  text% "\t...\n",
  text% "}\n",
  text% "\n",
  text% "RAB-RelocationReleaseList \t\t\t\t::= RAB-IE-ContainerList { {RAB-RelocationReleaseItemIEs} }\n",
  text% "\n",
  text% "RAB-RelocationReleaseItemIEs RANAP-PROTOCOL-IES ::= {\n",
  text% "\t{ ID id-RAB-RelocationReleaseItem\t\tCRITICALITY ignore\tTYPE RAB-RelocationReleaseItem\t\t\tPRESENCE mandatory\t},\n",
  text% "\t...\n",
  text% "}\n",
  text% "\n",
  text% "RAB-RelocationReleaseItem ::= SEQUENCE {\n",
  text% "\trAB-ID\t\t\t\t\t\tRAB-ID,\n",
  text% "\tiE-Extensions\t\t\t\t\tProtocolExtensionContainer { {RAB-RelocationReleaseItem-ExtIEs} }\t\t\tOPTIONAL,\n",
  text% "\t...\n",
  text% "}\n",
  text% "\n",
  text% "RAB-RelocationReleaseItem-ExtIEs RANAP-PROTOCOL-EXTENSION ::= {\n",
  text% "\t...\n",
  text% "}\n",
  text% "\n",
  text% "RAB-DataForwardingList \t\t\t\t\t::= RAB-IE-ContainerList { {RAB-DataForwardingItemIEs} }\n",
  text% "\n",
  text% "RAB-DataForwardingItemIEs RANAP-PROTOCOL-IES ::= {\n",
  text% "\t{ ID id-RAB-DataForwardingItem\t\t\tCRITICALITY ignore\tTYPE RAB-DataForwardingItem\t\t\tPRESENCE mandatory\t},\n",
  text% "\t...\n",
  text% "}\n",
  text% "\n",
  text% "RAB-DataForwardingItem ::= SEQUENCE {\n"]

/-- The tables of `ranap3`. -/
noncomputable def ranap3Tables : List (Text × List Row) := [
  (text% "RelocationCommandIEs", [
    ⟨text% "id-L3-Information", text% "ignore", text% "L3-Information", text% "optional"⟩,
    ⟨text% "id-RAB-RelocationReleaseList", text% "ignore", text% "RAB-RelocationReleaseList", text% "optional"⟩,
    ⟨text% "id-RAB-DataForwardingList", text% "ignore", text% "RAB-DataForwardingList", text% "optional"⟩,
    ⟨text% "id-CriticalityDiagnostics", text% "ignore", text% "CriticalityDiagnostics", text% "optional"⟩]),
  (text% "RAB-RelocationReleaseItemIEs", [
    ⟨text% "id-RAB-RelocationReleaseItem", text% "ignore", text% "RAB-RelocationReleaseItem", text% "mandatory"⟩]),
  (text% "RAB-DataForwardingItemIEs", [
    ⟨text% "id-RAB-DataForwardingItem", text% "ignore", text% "RAB-DataForwardingItem", text% "mandatory"⟩])]

/-- asn1/ranap/RANAP-PDU-Contents.asn:622-654 -/
noncomputable def ranap4 : List Text := [
  text% "\trAB-ID\t\t\t\t\t\tRAB-ID,\n",
  text% "\ttransportLayerAddress\t\t\t\tTransportLayerAddress,\n",
  text% "\tiuTransportAssociation\t\t\t\tIuTransportAssociation,\n",
  text% "\tiE-Extensions\t\t\t\t\tProtocolExtensionContainer { {RAB-DataForwardingItem-ExtIEs} }\t\t\tOPTIONAL,\n",
  text% "\t...\n",
  text% "}\n",
  text% "\n",
  text% "RAB-DataForwardingItem-ExtIEs RANAP-PROTOCOL-EXTENSION ::= {\n",
  text% "-- Extension for Release 5 to allow transfer of a second pair of TLA and association --\n",
  text% "\t{ID id-TransportLayerAddress\tCRITICALITY ignore\tEXTENSION TransportLayerAddress\tPRESENCE optional} |\n",
  text% "\t{ID id-IuTransportAssociation\tCRITICALITY ignore\tEXTENSION IuTransportAssociation\tPRESENCE optional},\n",
  text% "\t...\n",
  text% "}\n",
  text% "\n",
  text% "RelocationCommandExtensions RANAP-PROTOCOL-EXTENSION ::= {\n",
  text% "-- Extension for Release 5 to enable Inter RAN Load Information Exchange over Iu --\n",
  text% "\t{ ID id-InterSystemInformation-TransparentContainer\tCRITICALITY ignore\tEXTENSION InterSystemInformation-TransparentContainer\tPRESENCE optional} |\n",
  text% "-- Extension for Release 6 to enable Inter-RAT PS Handover between UTRAN and GERAN A/Gb --\n",
  text% "\t{ ID id-TargetBSS-ToSourceBSS-TransparentContainer\tCRITICALITY ignore\tEXTENSION TargetBSS-ToSourceBSS-TransparentContainer\tPRESENCE optional} |\n",
  text% "-- Extension for Release 8 for SRVCC operation --\n",
  text% "\t{ ID id-SRVCC-Information\t\t\t\tCRITICALITY reject\tEXTENSION SRVCC-Information\t\t\t\tPRESENCE optional} |\n",
  text% "-- Extension for Release 11 for rSRVCC operation --\n",
  text% "\t{ ID id-RSRVCC-Information\t\t\t\tCRITICALITY reject\tEXTENSION RSRVCC-Information\t\t\t\tPRESENCE optional},\n",
  text% "\t...\n",
  text% "}\n",
  text% "\n",
  text% "-- **************************************************************\n",
  text% "--\n",
  text% "-- Relocation Preparation Failure\n",
  text% "--\n",
  text% "-- **************************************************************\n",
  text% "\n",
  text% "RelocationPreparationFailure ::= SEQUENCE {\n"]

/-- The tables of `ranap4`. -/
noncomputable def ranap4Tables : List (Text × List Row) := []

/-- asn1/ranap/RANAP-PDU-Contents.asn:655-709 -/
noncomputable def ranap5 : List Text := [
  text% "\tprotocolIEs\t\t\tProtocolIE-Container\t\t{ {RelocationPreparationFailureIEs} },\n",
  text% "\tprotocolExtensions\t\tProtocolExtensionContainer\t{ {RelocationPreparationFailureExtensions} }\t\t\tOPTIONAL,\n",
  text% "...\n",
  text% "}\n",
  text% "\n",
  text% "RelocationPreparationFailureIEs RANAP-PROTOCOL-IES ::= {\n",
  text% "\t{ ID id-Cause\t\t\tCRITICALITY ignore\tTYPE Cause\t\t\tPRESENCE mandatory\t} |\n",
  text% "\t{ ID id-CriticalityDiagnostics\tCRITICALITY ignore\tTYPE CriticalityDiagnostics \tPRESENCE optional\t},\n",
  text% "\t...\n",
  text% "}\n",
  text% "\n",
  text% "RelocationPreparationFailureExtensions RANAP-PROTOCOL-EXTENSION ::= {\n",
  text% "-- Extension for Release 5 to enable Inter RAN Load Information Exchange over Iu --\n",
  text% "\t{ ID id-InterSystemInformation-TransparentContainer\tCRITICALITY ignore\tEXTENSION InterSystemInformation-TransparentContainer\tPRESENCE optional\t},\n",
  text% "\t...\n",
  text% "}\n",
  text% "\n",
  text% "-- **************************************************************\n",
  text% "--\n",
  text% "-- RELOCATION RESOURCE ALLOCATION ELEMENTARY PROCEDURE\n",
  text% "--\n",
  text% "-- **************************************************************\n",
  text% "\n",
  text% "-- **************************************************************\n",
  text% "--\n",
  text% "-- Relocation Request\n",
  text% "--\n",
  text% "-- **************************************************************\n",
  text% "\n",
  text% "RelocationRequest ::= SEQUENCE {\n",
  text% "\tprotocolIEs\t\t\tProtocolIE-Container\t\t\t{ {RelocationRequestIEs} },\n",
  text% "\tprotocolExtensions\t\tProtocolExtensionContainer\t{ {RelocationRequestExtensions} }\t\t\t\tOPTIONAL,\n",
  text% "\t...\n",
  text% "}\n",
  text% "\n",
  text% "RelocationRequestIEs RANAP-PROTOCOL-IES ::= {\n",
  text% "\t{ ID id-PermanentNAS-UE-ID\t\t\tCRITICALITY ignore\tTYPE PermanentNAS-UE-ID \t\t\tPRESENCE optional\t} |\n",
  text% "\t{ ID id-Cause\t\t\t\t\tCRITICALITY ignore\tTYPE Cause\t\t\t\t\tPRESENCE mandatory\t} |\n",
  text% "\t{ ID id-CN-DomainIndicator\t\t\tCRITICALITY reject\tTYPE CN-DomainIndicator\t\t\t\tPRESENCE mandatory\t} |\n",
  text% "\t{ ID id-Source-ToTarget-TransparentContainer\tCRITICALITY reject\tTYPE SourceRNC-ToTargetRNC-TransparentContainer\tPRESENCE mandatory\t} |\n",
  text% "\t{ ID id-RAB-SetupList-RelocReq\t\t\tCRITICALITY reject\tTYPE RAB-SetupList-RelocReq\t\t\tPRESENCE optional\t} |\n",
  text% "\t{ ID id-IntegrityProtectionInformation\t\tCRITICALITY ignore\tTYPE IntegrityProtectionInformation \t\tPRESENCE optional\t} |\n",
  text% "\t{ ID id-EncryptionInformation\t\t\tCRITICALITY ignore\tTYPE EncryptionInformation \t\t\tPRESENCE optional\t} |\n",
  text% "\t{ ID id-IuSigConId\t\t\t\tCRITICALITY ignore \tTYPE IuSignallingConnectionIdentifier \t\tPRESENCE mandatory\t},\n",
  text% "\t...\n",
  text% "}\n",
  text% "\n",
  text% "RAB-SetupList-RelocReq \t\t\t\t\t::= RAB-IE-ContainerList { {RAB-SetupItem-RelocReq-IEs} }\n",
  text% "\n",
  text% "RAB-SetupItem-RelocReq-IEs RANAP-PROTOCOL-IES ::= {\n",
  text% "\t{ ID id-RAB-SetupItem-RelocReq\t\t\tCRITICALITY reject\tTYPE RAB-SetupItem-RelocReq\t\t\tPRESENCE mandatory \t},\n",
  text% "\t...\n",
  text% "}\n",
  text% "\n",
  text% "RAB-SetupItem-RelocReq ::= SEQUENCE {\n"]

/-- The tables of `ranap5`. -/
noncomputable def ranap5Tables : List (Text × List Row) := [
  (text% "RelocationPreparationFailureIEs", [
    ⟨text% "id-Cause", text% "ignore", text% "Cause", text% "mandatory"⟩,
    ⟨text% "id-CriticalityDiagnostics", text% "ignore", text% "CriticalityDiagnostics", text% "optional"⟩]),
  (text% "RelocationRequestIEs", [
    ⟨text% "id-PermanentNAS-UE-ID", text% "ignore", text% "PermanentNAS-UE-ID", text% "optional"⟩,
    ⟨text% "id-Cause", text% "ignore", text% "Cause", text% "mandatory"⟩,
    ⟨text% "id-CN-DomainIndicator", text% "reject", text% "CN-DomainIndicator", text% "mandatory"⟩,
    ⟨text% "id-Source-ToTarget-TransparentContainer", text% "reject", text% "SourceRNC-ToTargetRNC-TransparentContainer", text% "mandatory"⟩,
    ⟨text% "id-RAB-SetupList-RelocReq", text% "reject", text% "RAB-SetupList-RelocReq", text% "optional"⟩,
    ⟨text% "id-IntegrityProtectionInformation", text% "ignore", text% "IntegrityProtectionInformation", text% "optional"⟩,
    ⟨text% "id-EncryptionInformation", text% "ignore", text% "EncryptionInformation", text% "optional"⟩,
    ⟨text% "id-IuSigConId", text% "ignore", text% "IuSignallingConnectionIdentifier", text% "mandatory"⟩]),
  (text% "RAB-SetupItem-RelocReq-IEs", [
    ⟨text% "id-RAB-SetupItem-RelocReq", text% "reject", text% "RAB-SetupItem-RelocReq", text% "mandatory"⟩])]

/-- asn1/ranap/RANAP-PDU-Contents.asn:710-739 -/
noncomputable def ranap6 : List Text := [
  text% "\trAB-ID\t\t\t\tRAB-ID,\n",
  text% "\tnAS-SynchronisationIndicator\tNAS-SynchronisationIndicator\tOPTIONAL,\n",
  text% "\trAB-Parameters\t\t\tRAB-Parameters,\n",
  text% "\tdataVolumeReportingIndication\tDataVolumeReportingIndication \tOPTIONAL\n",
  text% "\t-- This IE shall be present if the CN domain indicator IE is set to \"PS domain\" --,\n",
  text% "\tpDP-TypeInformation\t\tPDP-TypeInformation\t\tOPTIONAL\n",
  text% "\t-- This IE shall be present if the CN domain indicator IE is set to \"PS domain\" --,\n",
  text% "\tuserPlaneInformation\t\tUserPlaneInformation,\n",
  text% "\ttransportLayerAddress\t\tTransportLayerAddress,\n",
  text% "\tiuTransportAssociation\t\tIuTransportAssociation,\n",
  text% "\tservice-Handover\t\tService-Handover\t\tOPTIONAL,\n",
  text% "\tiE-Extensions\t\t\tProtocolExtensionContainer { {RAB-SetupItem-RelocReq-ExtIEs} }\t\t\tOPTIONAL,\n",
  text% "\t...\n",
  text% "}\n",
  text% "\n",
  text% "RAB-SetupItem-RelocReq-ExtIEs RANAP-PROTOCOL-EXTENSION ::= {\n",
  text% "-- Extension for Release 4 to enable RAB Quality of Service negotiation over Iu --\n",
  text% "\t{ ID id-Alt-RAB-Parameters\t\tCRITICALITY ignore\tEXTENSION Alt-RAB-Parameters\t\tPRESENCE optional}|\n",
  text% "-- Extension for Release 5 to enable GERAN support over Iu-cs --\n",
  text% "\t{ ID id-GERAN-BSC-Container\t\tCRITICALITY ignore\tEXTENSION GERAN-BSC-Container\t\tPRESENCE optional}|\n",
  text% "-- Extension for Release 8 to enable handover restriction to E-UTRAN --\n",
  text% "\t{ ID id-E-UTRAN-Service-Handover\tCRITICALITY ignore\tEXTENSION E-UTRAN-Service-Handover\tPRESENCE optional}|\n",
  text% "-- Extension for Release 9 to enable a new value --\n",
  text% "\t{ ID id-PDP-TypeInformation-extension \tCRITICALITY ignore\tEXTENSION PDP-TypeInformation-extension\tPRESENCE optional}|\n",
  text% "-- Extension for Release 10 to enable offload at Iu-PS for UTRAN --\n",
  text% "\t{ ID id-Offload-RAB-Parameters\t\tCRITICALITY ignore\tEXTENSION Offload-RAB-Parameters\tPRESENCE optional},\n",
  text% "\t...\n",
  text% "}\n",
  text% "\n",
  text% "UserPlaneInformation ::= SEQUENCE {\n"]

/-- The tables of `ranap6`. -/
noncomputable def ranap6Tables : List (Text × List Row) := []

/-- asn1/ranap/RANAP-PDU-Contents.asn:740-773 -/
noncomputable def ranap7 : List Text := [
  text% "\tuserPlaneMode\t\tUserPlaneMode,\n",
  text% "\tuP-ModeVersions\t\tUP-ModeVersions,\n",
  text% "\tiE-Extensions\t\tProtocolExtensionContainer { {UserPlaneInformation-ExtIEs} }\t\t\tOPTIONAL,\n",
  text% "\t...\n",
  text% "}\n",
  text% "\n",
  text% "UserPlaneInformation-ExtIEs RANAP-PROTOCOL-EXTENSION ::= {\n",
  text% "\t...\n",
  text% "}\n",
  text% "\n",
  text% "RelocationRequestExtensions RANAP-PROTOCOL-EXTENSION ::= {\n",
  text% "-- Extension for Release 4 --\n",
  text% "\t{ ID id-GlobalCN-ID\t\t\tCRITICALITY reject\tEXTENSION GlobalCN-ID\t\t\tPRESENCE optional}|\n",
  text% "-- Extension for Release 5 to enable shared networks in connected mode --\n",
  text% "\t{ ID id-SNA-Access-Information\t\tCRITICALITY ignore\tEXTENSION SNA-Access-Information\tPRESENCE optional}|\n",
  text% "-- Extension for Release 5 to enable specific behaviour by the RNC in relation with early UE handling --\n",
  text% "\t{ ID id-UESBI-Iu\t\t\tCRITICALITY ignore\tEXTENSION UESBI-Iu\t\t\tPRESENCE optional}|\n",
  text% "-- Extension for Release 6 to convey the selected PLMN id in network sharing mobility scenarios --\n",
  text% "\t{ ID id-SelectedPLMN-ID\t \t\tCRITICALITY ignore\tEXTENSION PLMNidentity\t\t\tPRESENCE optional}|\n",
  text% "-- Extension for Release 6 to enable MBMS UE linking at relocation --\n",
  text% "\t{ ID id-CNMBMSLinkingInformation\tCRITICALITY ignore\tEXTENSION CNMBMSLinkingInformation\tPRESENCE optional}|\n",
  text% "\t{ ID id-UE-AggregateMaximumBitRate\tCRITICALITY ignore\tEXTENSION UE-AggregateMaximumBitRate\tPRESENCE optional}|\n",
  text% "-- Extension for Release 9 to communicate to the target cell the CSG id reported by the source --\n",
  text% "\t{ ID id-CSG-Id \t\t\t\tCRITICALITY reject\tEXTENSION CSG-Id \t\t\tPRESENCE optional}|\n",
  text% "-- Extension for Release 9 for enabling UE prioritisation during access to hybrid cells --\n",
  text% "\t{ ID id-CSG-Membership-Status\t\tCRITICALITY ignore\tEXTENSION CSG-Membership-Status\t\tPRESENCE optional}|\n",
  text% "-- Extension for Release 10 to enable offload at Iu-PS for UTRAN --\n",
  text% "\t{ ID id-MSISDN\t\t\t\tCRITICALITY ignore\tEXTENSION MSISDN\t\t\tPRESENCE optional}|\n",
  text% "-- Extension for Release 11 to support rSRVCC in case of network sharing –\n",
  text% "\t{ ID id-AnchorPLMN-ID\t\t\tCRITICALITY ignore\tEXTENSION PLMNidentity\t\t\tPRESENCE optional},\n",
  text% "\t...\n",
  text% "}\n",
  text% "\n",
  text% "CNMBMSLinkingInformation ::= SEQUENCE {\n"]

/-- The tables of `ranap7`. -/
noncomputable def ranap7Tables : List (Text × List Row) := []

/-- asn1/ranap/RANAP-PDU-Contents.asn:774-825 -/
noncomputable def ranap8 : List Text := [
  text% "\tjoinedMBMSBearerService-IEs\tJoinedMBMSBearerService-IEs,\n",
  text% "\tiE-Extensions\t\t\tProtocolExtensionContainer { {CNMBMSLinkingInformation-ExtIEs} }\t\tOPTIONAL,\n",
  text% "\t...\n",
  text% "}\n",
  text% "\n",
  text% "CNMBMSLinkingInformation-ExtIEs RANAP-PROTOCOL-EXTENSION ::= {\n",
  text% "\t...\n",
  text% "}\n",
  text% "\n",
  text% "JoinedMBMSBearerService-IEs ::= SEQUENCE (SIZE (1.. maxnoofMulticastServicesPerUE)) OF JoinedMBMSBearerService-IEs-Value\n",
  text% "JoinedMBMSBearerService-IEs-Value ::=\n",
  text% "\tSEQUENCE {\n",
  text% "\t\ttMGI\t\t\tTMGI,\n",
  text% "\t\tmBMS-PTP-RAB-ID\t\tMBMS-PTP-RAB-ID,\n",
  text% "\t\tiE-Extensions\t\tProtocolExtensionContainer { {JoinedMBMSBearerService-ExtIEs} } OPTIONAL,\n",
  text% "\t\t...\n",
  text% "\t}\n",
  text% "\n",
  text% "JoinedMBMSBearerService-ExtIEs RANAP-PROTOCOL-EXTENSION ::= {\n",
  text% "\t...\n",
  text% "}\n",
  text% "\n",
  text% "-- **************************************************************\n",
  text% "--\n",
  text% "-- Relocation Request Acknowledge\n",
  text% "--\n",
  text% "-- **************************************************************\n",
  text% "\n",
  text% "RelocationRequestAcknowledge ::= SEQUENCE {\n",
  text% "\tprotocolIEs\t\tProtocolIE-Container\t\t{ {RelocationRequestAcknowledgeIEs} },\n",
  text% "\tprotocolExtensions\tProtocolExtensionContainer\t{ {RelocationRequestAcknowledgeExtensions} }\t\t\tOPTIONAL,\n",
  text% "\t...\n",
  text% "}\n",
  text% "\n",
  text% "RelocationRequestAcknowledgeIEs RANAP-PROTOCOL-IES ::= {\n",
  text% "\t{ ID id-Target-ToSource-TransparentContainer\tCRITICALITY ignore\tTYPE TargetRNC-ToSourceRNC-TransparentContainer PRESENCE optional\t} |\n",
  text% "\t{ ID id-RAB-SetupList-RelocReqAck\t\tCRITICALITY ignore\tTYPE RAB-SetupList-RelocReqAck\t\t\tPRESENCE optional\t} |\n",
  text% "\t{ ID id-RAB-FailedList\t\t\t\tCRITICALITY ignore\tTYPE RAB-FailedList\t\t\t\tPRESENCE optional\t} |\n",
  text% "\t{ ID id-ChosenIntegrityProtectionAlgorithm\tCRITICALITY ignore\tTYPE ChosenIntegrityProtectionAlgorithm\t\tPRESENCE optional\t} |\n",
  text% "\t{ ID id-ChosenEncryptionAlgorithm\t\tCRITICALITY ignore\tTYPE ChosenEncryptionAlgorithm\t\t\tPRESENCE optional\t} |\n",
  text% "\t{ ID id-CriticalityDiagnostics\t\t\tCRITICALITY ignore\tTYPE CriticalityDiagnostics \t\t\tPRESENCE optional\t},\n",
  text% "\t...\n",
  text% "}\n",
  text% "\n",
  text% "RAB-SetupList-RelocReqAck \t\t\t\t::= RAB-IE-ContainerList { {RAB-SetupItem-RelocReqAck-IEs} }\n",
  text% "\n",
  text% "RAB-SetupItem-RelocReqAck-IEs RANAP-PROTOCOL-IES ::= {\n",
  text% "\t{ ID id-RAB-SetupItem-RelocReqAck\t\tCRITICALITY reject\tTYPE RAB-SetupItem-RelocReqAck\t\t\tPRESENCE mandatory \t},\n",
  text% "\t...\n",
  text% "}\n",
  text% "\n",
  text% "RAB-SetupItem-RelocReqAck ::= SEQUENCE {\n"]

/-- The tables of `ranap8`. -/
noncomputable def ranap8Tables : List (Text × List Row) := [
  (text% "RelocationRequestAcknowledgeIEs", [
    ⟨text% "id-Target-ToSource-TransparentContainer", text% "ignore", text% "TargetRNC-ToSourceRNC-TransparentContainer", text% "optional"⟩,
    ⟨text% "id-RAB-SetupList-RelocReqAck", text% "ignore", text% "RAB-SetupList-RelocReqAck", text% "optional"⟩,
    ⟨text% "id-RAB-FailedList", text% "ignore", text% "RAB-FailedList", text% "optional"⟩,
    ⟨text% "id-ChosenIntegrityProtectionAlgorithm", text% "ignore", text% "ChosenIntegrityProtectionAlgorithm", text% "optional"⟩,
    ⟨text% "id-ChosenEncryptionAlgorithm", text% "ignore", text% "ChosenEncryptionAlgorithm", text% "optional"⟩,
    ⟨text% "id-CriticalityDiagnostics", text% "ignore", text% "CriticalityDiagnostics", text% "optional"⟩]),
  (text% "RAB-SetupItem-RelocReqAck-IEs", [
    ⟨text% "id-RAB-SetupItem-RelocReqAck", text% "reject", text% "RAB-SetupItem-RelocReqAck", text% "mandatory"⟩])]

/-- asn1/ranap/RANAP-PDU-Contents.asn:826-873 -/
noncomputable def ranap9 : List Text := [
  text% "\trAB-ID\t\t\tRAB-ID,\n",
  text% "\ttransportLayerAddress\tTransportLayerAddress\tOPTIONAL,\n",
  text% "\tiuTransportAssociation\tIuTransportAssociation\tOPTIONAL,\n",
  text% "\tiE-Extensions\t\tProtocolExtensionContainer { {RAB-SetupItem-RelocReqAck-ExtIEs} }\t\t\tOPTIONAL,\n",
  text% "\t...\n",
  text% "}\n",
  text% "\n",
  text% "RAB-SetupItem-RelocReqAck-ExtIEs RANAP-PROTOCOL-EXTENSION ::= {\n",
  text% "-- Extension for Release 4 to enable RAB Quality of Service negotiation over Iu --\n",
  text% "\t{ID id-Ass-RAB-Parameters\tCRITICALITY ignore\tEXTENSION Ass-RAB-Parameters\t\tPRESENCE optional\t} |\n",
  text% "-- Extension for Release 5 to allow transfer of a second pair of TLA and association --\n",
  text% "\t{ID id-TransportLayerAddress\tCRITICALITY ignore\tEXTENSION TransportLayerAddress\t\tPRESENCE optional\t} |\n",
  text% "\t{ID id-IuTransportAssociation\tCRITICALITY ignore\tEXTENSION IuTransportAssociation\tPRESENCE optional\t},\n",
  text% "\t...\n",
  text% "}\n",
  text% "\n",
  text% "RAB-FailedList \t\t\t\t\t\t::= RAB-IE-ContainerList { {RAB-FailedItemIEs} }\n",
  text% "\n",
  text% "RAB-FailedItemIEs RANAP-PROTOCOL-IES ::= {\n",
  text% "\t{ ID id-RAB-FailedItem\t\tCRITICALITY ignore\tTYPE RAB-FailedItem\t\t\tPRESENCE mandatory\t},\n",
  text% "\t...\n",
  text% "}\n",
  text% "\n",
  text% "RAB-FailedItem ::= SEQUENCE {\n",
  text% "\trAB-ID\t\tRAB-ID,\n",
  text% "\tcause\t\tCause,\n",
  text% "\tiE-Extensions\tProtocolExtensionContainer { {RAB-FailedItem-ExtIEs} }\t\t\tOPTIONAL,\n",
  text% "\t...\n",
  text% "}\n",
  text% "\n",
  text% "RAB-FailedItem-ExtIEs RANAP-PROTOCOL-EXTENSION ::= {\n",
  text% "\t...\n",
  text% "}\n",
  text% "\n",
  text% "RelocationRequestAcknowledgeExtensions RANAP-PROTOCOL-EXTENSION ::= {\n",
  text% "-- Extension for Release 5 to enable Inter RAN Load Information Exchange over Iu --\n",
  text% "\t{ID id-NewBSS-To-OldBSS-Information\tCRITICALITY ignore\tEXTENSION NewBSS-To-OldBSS-Information\tPRESENCE optional\t }|\n",
  text% "\t{ID id-CSG-Id\t\t\t\tCRITICALITY ignore\tEXTENSION CSG-Id\t\t\tPRESENCE optional\t},\n",
  text% "\t...\n",
  text% "}\n",
  text% "\n",
  text% "-- **************************************************************\n",
  text% "--\n",
  text% "-- Relocation Failure\n",
  text% "--\n",
  text% "-- **************************************************************\n",
  text% "\n",
  text% "RelocationFailure ::= SEQUENCE {\n"]

/-- The tables of `ranap9`. -/
noncomputable def ranap9Tables : List (Text × List Row) := [
  (text% "RAB-FailedItemIEs", [
    ⟨text% "id-RAB-FailedItem", text% "ignore", text% "RAB-FailedItem", text% "mandatory"⟩])]

/-- asn1/ranap/RANAP-PDU-Contents.asn:874-926 -/
noncomputable def ranap10 : List Text := [
  text% "\tprotocolIEs\t\tProtocolIE-Container\t\t{ {RelocationFailureIEs} },\n",
  text% "\tprotocolExtensions\tProtocolExtensionContainer\t{ {RelocationFailureExtensions} }\t\t\t\tOPTIONAL,\n",
  text% "\t...\n",
  text% "}\n",
  text% "\n",
  text% "RelocationFailureIEs RANAP-PROTOCOL-IES ::= {\n",
  text% "\t{ ID id-Cause\t\t\tCRITICALITY ignore\tTYPE Cause\t\t\tPRESENCE mandatory\t} |\n",
  text% "\t{ ID id-CriticalityDiagnostics\tCRITICALITY ignore\tTYPE CriticalityDiagnostics \tPRESENCE optional\t},\n",
  text% "\t...\n",
  text% "}\n",
  text% "\n",
  text% "RelocationFailureExtensions RANAP-PROTOCOL-EXTENSION ::= {\n",
  text% "-- Extension for Release 5 to enable Inter RAN Load Information Exchange over Iu --\n",
  text% "\t{ ID id-NewBSS-To-OldBSS-Information\tCRITICALITY ignore\tEXTENSION NewBSS-To-OldBSS-Information\t\tPRESENCE optional\t} |\n",
  text% "-- Extension for Release 5 to enable GERAN support over Iu-cs --\n",
  text% "\t{ ID id-GERAN-Classmark\t\t\tCRITICALITY ignore\tEXTENSION GERAN-Classmark\t\t\tPRESENCE optional\t},\n",
  text% "\t...\n",
  text% "}\n",
  text% "\n",
  text% "-- **************************************************************\n",
  text% "--\n",
  text% "-- RELOCATION CANCEL ELEMENTARY PROCEDURE\n",
  text% "--\n",
  text% "-- **************************************************************\n",
  text% "\n",
  text% "-- **************************************************************\n",
  text% "--\n",
  text% "-- Relocation Cancel\n",
  text% "--\n",
  text% "-- **************************************************************\n",
  text% "\n",
  text% "RelocationCancel ::= SEQUENCE {\n",
  text% "\tprotocolIEs\t\tProtocolIE-Container\t\t{ {RelocationCancelIEs} },\n",
  text% "\tprotocolExtensions\tProtocolExtensionContainer\t{ {RelocationCancelExtensions} }\t\t\t\tOPTIONAL,\n",
  text% "\t...\n",
  text% "}\n",
  text% "\n",
  text% "RelocationCancelIEs RANAP-PROTOCOL-IES ::= {\n",
  text% "\t{ ID id-Cause\t\tCRITICALITY ignore\tTYPE Cause\tPRESENCE mandatory\t},\n",
  text% "\t...\n",
  text% "}\n",
  text% "\n",
  text% "RelocationCancelExtensions RANAP-PROTOCOL-EXTENSION ::= {\n",
  text% "\t...\n",
  text% "}\n",
  text% "\n",
  text% "-- **************************************************************\n",
  text% "--\n",
  text% "-- Relocation Cancel Acknowledge\n",
  text% "--\n",
  text% "-- **************************************************************\n",
  text% "\n",
  text% "RelocationCancelAcknowledge ::= SEQUENCE {\n"]

/-- The tables of `ranap10`. -/
noncomputable def ranap10Tables : List (Text × List Row) := [
  (text% "RelocationFailureIEs", [
    ⟨text% "id-Cause", text% "ignore", text% "Cause", text% "mandatory"⟩,
    ⟨text% "id-CriticalityDiagnostics", text% "ignore", text% "CriticalityDiagnostics", text% "optional"⟩]),
  (text% "RelocationCancelIEs", [
    ⟨text% "id-Cause", text% "ignore", text% "Cause", text% "mandatory"⟩])]

/-- asn1/ranap/RANAP-PDU-Contents.asn:927-971 -/
noncomputable def ranap11 : List Text := [
  text% "\tprotocolIEs\t\tProtocolIE-Container\t\t{ {RelocationCancelAcknowledgeIEs} },\n",
  text% "\tprotocolExtensions\tProtocolExtensionContainer\t{ {RelocationCancelAcknowledgeExtensions} } \t\t\tOPTIONAL,\n",
  text% "\t...\n",
  text% "}\n",
  text% "\n",
  text% "RelocationCancelAcknowledgeIEs RANAP-PROTOCOL-IES ::= {\n",
  text% "\t{ ID id-CriticalityDiagnostics\tCRITICALITY ignore\tTYPE CriticalityDiagnostics\tPRESENCE optional\t},\n",
  text% "\t...\n",
  text% "}\n",
  text% "\n",
  text% "RelocationCancelAcknowledgeExtensions RANAP-PROTOCOL-EXTENSION ::= {\n",
  text% "\t...\n",
  text% "}\n",
  text% "\n",
  text% "-- **************************************************************\n",
  text% "--\n",
  text% "-- SRNS CONTEXT TRANSFER OPEARATION\n",
  text% "--\n",
  text% "-- **************************************************************\n",
  text% "\n",
  text% "-- **************************************************************\n",
  text% "--\n",
  text% "-- SRNS Context Request\n",
  text% "--\n",
  text% "-- **************************************************************\n",
  text% "\n",
  text% "SRNS-ContextRequest ::= SEQUENCE {\n",
  text% "\tprotocolIEs\t\tProtocolIE-Container\t\t{ {SRNS-ContextRequestIEs} },\n",
  text% "\tprotocolExtensions\tProtocolExtensionContainer\t{ {SRNS-ContextRequestExtensions} }\t\t\t\tOPTIONAL,\n",
  text% "\t...\n",
  text% "}\n",
  text% "\n",
  text% "SRNS-ContextRequestIEs RANAP-PROTOCOL-IES ::= {\n",
  text% "\t{ ID id-RAB-DataForwardingList-SRNS-CtxReq\tCRITICALITY ignore\tTYPE RAB-DataForwardingList-SRNS-CtxReq\t\tPRESENCE mandatory\t},\n",
  text% "\t...\n",
  text% "}\n",
  text% "\n",
  text% "RAB-DataForwardingList-SRNS-CtxReq ::= RAB-IE-ContainerList { {RAB-DataForwardingItem-SRNS-CtxReq-IEs} }\n",
  text% "\n",
  text% "RAB-DataForwardingItem-SRNS-CtxReq-IEs RANAP-PROTOCOL-IES ::= {\n",
  text% "\t{ ID id-RAB-DataForwardingItem-SRNS-CtxReq\tCRITICALITY reject\tTYPE RAB-DataForwardingItem-SRNS-CtxReq\t\tPRESENCE mandatory\t},\n",
  text% "\t...\n",
  text% "}\n",
  text% "\n",
  text% "RAB-DataForwardingItem-SRNS-CtxReq ::= SEQUENCE {\n"]

/-- The tables of `ranap11`. -/
noncomputable def ranap11Tables : List (Text × List Row) := [
  (text% "RelocationCancelAcknowledgeIEs", [
    ⟨text% "id-CriticalityDiagnostics", text% "ignore", text% "CriticalityDiagnostics", text% "optional"⟩]),
  (text% "SRNS-ContextRequestIEs", [
    ⟨text% "id-RAB-DataForwardingList-SRNS-CtxReq", text% "ignore", text% "RAB-DataForwardingList-SRNS-CtxReq", text% "mandatory"⟩]),
  (text% "RAB-DataForwardingItem-SRNS-CtxReq-IEs", [
    ⟨text% "id-RAB-DataForwardingItem-SRNS-CtxReq", text% "reject", text% "RAB-DataForwardingItem-SRNS-CtxReq", text% "mandatory"⟩])]

/-- asn1/ranap/RANAP-PDU-Contents.asn:972-1034 -/
noncomputable def ranap12 : List Text := [
  text% "\trAB-ID\t\tRAB-ID,\n",
  text% "\tiE-Extensions\tProtocolExtensionContainer { {RAB-DataForwardingItem-SRNS-CtxReq-ExtIEs} }\t\t\tOPTIONAL,\n",
  text% "\t...\n",
  text% "}\n",
  text% "\n",
  text% "RAB-DataForwardingItem-SRNS-CtxReq-ExtIEs RANAP-PROTOCOL-EXTENSION ::= {\n",
  text% "\t...\n",
  text% "}\n",
  text% "\n",
  text% "SRNS-ContextRequestExtensions RANAP-PROTOCOL-EXTENSION ::= {\n",
  text% "-- The SGSN may include the IE, when available to indicate the RAT from which the context request originates, to correct measurement points in SRNC. --\n",
  text% "\t{ID id-RAT-Type\t\tCRITICALITY ignore\tEXTENSION \tRAT-Type\t\tPRESENCE optional },\n",
  text% "\t...\n",
  text% "}\n",
  text% "\n",
  text% "-- **************************************************************\n",
  text% "--\n",
  text% "-- SRNS Context Response\n",
  text% "--\n",
  text% "-- **************************************************************\n",
  text% "\n",
  text% "SRNS-ContextResponse ::= SEQUENCE {\n",
  text% "\tprotocolIEs\t\tProtocolIE-Container\t\t{ {SRNS-ContextResponseIEs} },\n",
  text% "\tprotocolExtensions\tProtocolExtensionContainer\t{ {SRNS-ContextResponseExtensions} }\t\t\t\tOPTIONAL,\n",
  text% "\t...\n",
  text% "}\n",
  text% "\n",
  text% "SRNS-ContextResponseIEs RANAP-PROTOCOL-IES ::= {\n",
  text% "\t{ ID id-RAB-ContextList\t\t\tCRITICALITY ignore\tTYPE RAB-ContextList\t\t\tPRESENCE optional\t} |\n",
  text% "\t{ ID id-RAB-ContextFailedtoTransferList\tCRITICALITY ignore\tTYPE RABs-ContextFailedtoTransferList\tPRESENCE optional\t}|\n",
  text% "\t{ ID id-CriticalityDiagnostics\t\tCRITICALITY ignore\tTYPE CriticalityDiagnostics\t\tPRESENCE optional\t},\n",
  text% "\t...\n",
  text% "}\n",
  text% "\n",
  text% "RAB-ContextList \t\t\t\t\t::= RAB-IE-ContainerList { {RAB-ContextItemIEs} }\n",
  text% "\n",
  text% "RAB-ContextItemIEs RANAP-PROTOCOL-IES ::= {\n",
  text% "\t{ ID id-RAB-ContextItem\t\t\tCRITICALITY ignore\tTYPE RAB-ContextItem\t\tPRESENCE mandatory\t},\n",
  text% "\t...\n",
  text% "}\n",
  text% "\n",
  text% "RAB-ContextItem ::= SEQUENCE {\n",
  text% "\trAB-ID\t\t\t\tRAB-ID,\n",
  text% "\tdl-GTP-PDU-SequenceNumber\tDL-GTP-PDU-SequenceNumber \tOPTIONAL,\n",
  text% "\tul-GTP-PDU-SequenceNumber\tUL-GTP-PDU-SequenceNumber \tOPTIONAL,\n",
  text% "\tdl-N-PDU-SequenceNumber\t\tDL-N-PDU-SequenceNumber \tOPTIONAL,\n",
  text% "\tul-N-PDU-SequenceNumber\t\tUL-N-PDU-SequenceNumber \tOPTIONAL,\n",
  text% "\tiE-Extensions\t\t\tProtocolExtensionContainer { {RAB-ContextItem-ExtIEs} }\t\t\tOPTIONAL,\n",
  text% "\t...\n",
  text% "}\n",
  text% "\n",
  text% "RAB-ContextItem-ExtIEs RANAP-PROTOCOL-EXTENSION ::= {\n",
  text% "\t...\n",
  text% "}\n",
  text% "s\n",
  text% "RABs-ContextFailedtoTransferList ::= RAB-IE-ContainerList { {RABs-ContextFailedtoTransferItemIEs} }\n",
  text% "\n",
  text% "RABs-ContextFailedtoTransferItemIEs RANAP-PROTOCOL-IES ::= {\n",
  text% "\t{ ID id-RAB-ContextFailedtoTransferItem\t\tCRITICALITY ignore\tTYPE RABs-ContextFailedtoTransferItem\t\t\tPRESENCE mandatory\t},\n",
  text% "\t...\n",
  text% "}\n",
  text% "\n",
  text% "RABs-ContextFailedtoTransferItem::= SEQUENCE {\n"]

/-- The tables of `ranap12`. -/
noncomputable def ranap12Tables : List (Text × List Row) := [
  (text% "SRNS-ContextResponseIEs", [
    ⟨text% "id-RAB-ContextList", text% "ignore", text% "RAB-ContextList", text% "optional"⟩,
    ⟨text% "id-RAB-ContextFailedtoTransferList", text% "ignore", text% "RABs-ContextFailedtoTransferList", text% "optional"⟩,
    ⟨text% "id-CriticalityDiagnostics", text% "ignore", text% "CriticalityDiagnostics", text% "optional"⟩]),
  (text% "RAB-ContextItemIEs", [
    ⟨text% "id-RAB-ContextItem", text% "ignore", text% "RAB-ContextItem", text% "mandatory"⟩]),
  (text% "RABs-ContextFailedtoTransferItemIEs", [
    ⟨text% "id-RAB-ContextFailedtoTransferItem", text% "ignore", text% "RABs-ContextFailedtoTransferItem", text% "mandatory"⟩])]

/-- asn1/ranap/RANAP-PDU-Contents.asn:1035-1108 -/
noncomputable def ranap13 : List Text := [
  text% "\trAB-ID\t\tRAB-ID,\n",
  text% "\tcause\t\tCause,\n",
  text% "\tiE-Extensions\tProtocolExtensionContainer { { RABs-ContextFailedtoTransferItem-ExtIEs} }\t\t\tOPTIONAL,\n",
  text% "\t...\n",
  text% "}\n",
  text% "\n",
  text% "\n",
  text% "RABs-ContextFailedtoTransferItem-ExtIEs RANAP-PROTOCOL-EXTENSION ::= {\n",
  text% "\t...\n",
  text% "}\n",
  text% "\n",
  text% "SRNS-ContextResponseExtensions RANAP-PROTOCOL-EXTENSION ::= {\n",
  text% "\t...\n",
  text% "}\n",
  text% "\n",
  text% "-- **************************************************************\n",
  text% "--\n",
  text% "-- SECURITY MODE CONTROL ELEMENTARY PROCEDURE\n",
  text% "--\n",
  text% "-- **************************************************************\n",
  text% "\n",
  text% "-- **************************************************************\n",
  text% "--\n",
  text% "-- Security Mode Command\n",
  text% "--\n",
  text% "-- **************************************************************\n",
  text% "\n",
  text% "SecurityModeCommand ::= SEQUENCE {\n",
  text% "\tprotocolIEs\t\tProtocolIE-Container\t\t{ {SecurityModeCommandIEs} },\n",
  text% "\tprotocolExtensions\tProtocolExtensionContainer\t{ {SecurityModeCommandExtensions} }\t\t\t\tOPTIONAL,\n",
  text% "\t...\n",
  text% "}\n",
  text% "\n",
  text% "SecurityModeCommandIEs RANAP-PROTOCOL-IES ::= {\n",
  text% "\t{ ID id-IntegrityProtectionInformation\tCRITICALITY reject\tTYPE IntegrityProtectionInformation\tPRESENCE mandatory\t} |\n",
  text% "\t{ ID id-EncryptionInformation\t\tCRITICALITY ignore\tTYPE EncryptionInformation\t\tPRESENCE optional\t} |\n",
  text% "\t{ ID id-KeyStatus\t\t\tCRITICALITY reject\tTYPE KeyStatus\t\t\t\tPRESENCE mandatory},\n",
  text% "\t...\n",
  text% "}\n",
  text% "\n",
  text% "SecurityModeCommandExtensions RANAP-PROTOCOL-EXTENSION ::= {\n",
  text% "\t...\n",
  text% "}\n",
  text% "\n",
  text% "-- **************************************************************\n",
  text% "--\n",
  text% "-- Security Mode Complete\n",
  text% "--\n",
  text% "-- **************************************************************\n",
  text% "\n",
  text% "SecurityModeComplete ::= SEQUENCE {\n",
  text% "\tprotocolIEs\t\tProtocolIE-Container\t\t{ {SecurityModeCompleteIEs} },\n",
  text% "\tprotocolExtensions\tProtocolExtensionContainer\t{ {SecurityModeCompleteExtensions} }\t\t\t\tOPTIONAL,\n",
  text% "\t...\n",
  text% "}\n",
  text% "\n",
  text% "SecurityModeCompleteIEs RANAP-PROTOCOL-IES ::= {\n",
  text% "\t{ ID id-ChosenIntegrityProtectionAlgorithm\tCRITICALITY reject\tTYPE ChosenIntegrityProtectionAlgorithm \tPRESENCE mandatory\t} |\n",
  text% "\t{ ID id-ChosenEncryptionAlgorithm\t\tCRITICALITY ignore\tTYPE ChosenEncryptionAlgorithm\t\t\tPRESENCE optional\t} |\n",
  text% "\t{ ID id-CriticalityDiagnostics\t\t\tCRITICALITY ignore\tTYPE CriticalityDiagnostics\t\t\tPRESENCE optional\t},\n",
  text% "\t...\n",
  text% "}\n",
  text% "\n",
  text% "SecurityModeCompleteExtensions RANAP-PROTOCOL-EXTENSION ::= {\n",
  text% "\t...\n",
  text% "}\n",
  text% "\n",
  text% "-- **************************************************************\n",
  text% "--\n",
  text% "-- Security Mode Reject\n",
  text% "--\n",
  text% "-- **************************************************************\n",
  text% "\n",
  text% "SecurityModeReject ::= SEQUENCE {\n"]

/-- The tables of `ranap13`. -/
noncomputable def ranap13Tables : List (Text × List Row) := [
  (text% "SecurityModeCommandIEs", [
    ⟨text% "id-IntegrityProtectionInformation", text% "reject", text% "IntegrityProtectionInformation", text% "mandatory"⟩,
    ⟨text% "id-EncryptionInformation", text% "ignore", text% "EncryptionInformation", text% "optional"⟩,
    ⟨text% "id-KeyStatus", text% "reject", text% "KeyStatus", text% "mandatory"⟩]),
  (text% "SecurityModeCompleteIEs", [
    ⟨text% "id-ChosenIntegrityProtectionAlgorithm", text% "reject", text% "ChosenIntegrityProtectionAlgorithm", text% "mandatory"⟩,
    ⟨text% "id-ChosenEncryptionAlgorithm", text% "ignore", text% "ChosenEncryptionAlgorithm", text% "optional"⟩,
    ⟨text% "id-CriticalityDiagnostics", text% "ignore", text% "CriticalityDiagnostics", text% "optional"⟩])]

/-- asn1/ranap/RANAP-PDU-Contents.asn:1109-1154 -/
noncomputable def ranap14 : List Text := [
  text% "\tprotocolIEs\t\tProtocolIE-Container\t\t{ {SecurityModeRejectIEs} },\n",
  text% "\tprotocolExtensions\tProtocolExtensionContainer\t{ {SecurityModeRejectExtensions} }\t\t\t\tOPTIONAL,\n",
  text% "\t...\n",
  text% "}\n",
  text% "\n",
  text% "SecurityModeRejectIEs RANAP-PROTOCOL-IES ::= {\n",
  text% "\t{ ID id-Cause\t\t\tCRITICALITY ignore\tTYPE Cause\t\t\tPRESENCE mandatory\t} |\n",
  text% "\t{ ID id-CriticalityDiagnostics\tCRITICALITY ignore\tTYPE CriticalityDiagnostics \tPRESENCE optional\t},\n",
  text% "\t...\n",
  text% "}\n",
  text% "\n",
  text% "SecurityModeRejectExtensions RANAP-PROTOCOL-EXTENSION ::= {\n",
  text% "\t...\n",
  text% "}\n",
  text% "\n",
  text% "-- **************************************************************\n",
  text% "--\n",
  text% "-- DATA VOLUME REPORT ELEMENTARY PROCEDURE\n",
  text% "--\n",
  text% "-- **************************************************************\n",
  text% "\n",
  text% "-- **************************************************************\n",
  text% "--\n",
  text% "-- Data Volume Report Request\n",
  text% "--\n",
  text% "-- **************************************************************\n",
  text% "\n",
  text% "DataVolumeReportRequest ::= SEQUENCE {\n",
  text% "\tprotocolIEs\t\tProtocolIE-Container\t\t{ {DataVolumeReportRequestIEs} },\n",
  text% "\tprotocolExtensions\tProtocolExtensionContainer\t{ {DataVolumeReportRequestExtensions} }\t\t\tOPTIONAL,\n",
  text% "\t...\n",
  text% "}\n",
  text% "\n",
  text% "DataVolumeReportRequestIEs RANAP-PROTOCOL-IES ::= {\n",
  text% "\t{ ID id-RAB-DataVolumeReportRequestList\t\tCRITICALITY ignore\tTYPE RAB-DataVolumeReportRequestList\t\tPRESENCE mandatory\t},\n",
  text% "\t...\n",
  text% "}\n",
  text% "\n",
  text% "RAB-DataVolumeReportRequestList ::= RAB-IE-ContainerList { {RAB-DataVolumeReportRequestItemIEs} }\n",
  text% "\n",
  text% "RAB-DataVolumeReportRequestItemIEs RANAP-PROTOCOL-IES ::= {\n",
  text% "\t{ ID id-RAB-DataVolumeReportRequestItem\t\tCRITICALITY reject\tTYPE RAB-DataVolumeReportRequestItem\t\tPRESENCE mandatory\t},\n",
  text% "\t...\n",
  text% "}\n",
  text% "\n",
  text% "RAB-DataVolumeReportRequestItem ::= SEQUENCE {\n"]

/-- The tables of `ranap14`. -/
noncomputable def ranap14Tables : List (Text × List Row) := [
  (text% "SecurityModeRejectIEs", [
    ⟨text% "id-Cause", text% "ignore", text% "Cause", text% "mandatory"⟩,
    ⟨text% "id-CriticalityDiagnostics", text% "ignore", text% "CriticalityDiagnostics", text% "optional"⟩]),
  (text% "DataVolumeReportRequestIEs", [
    ⟨text% "id-RAB-DataVolumeReportRequestList", text% "ignore", text% "RAB-DataVolumeReportRequestList", text% "mandatory"⟩]),
  (text% "RAB-DataVolumeReportRequestItemIEs", [
    ⟨text% "id-RAB-DataVolumeReportRequestItem", text% "reject", text% "RAB-DataVolumeReportRequestItem", text% "mandatory"⟩])]

/-- asn1/ranap/RANAP-PDU-Contents.asn:1155-1223 -/
noncomputable def ranap15 : List Text := [
  text% "\trAB-ID\t\tRAB-ID,\n",
  text% "\tiE-Extensions\tProtocolExtensionContainer { {RAB-DataVolumeReportRequestItem-ExtIEs} }\t\t\tOPTIONAL,\n",
  text% "\t...\n",
  text% "}\n",
  text% "\n",
  text% "RAB-DataVolumeReportRequestItem-ExtIEs RANAP-PROTOCOL-EXTENSION ::= {\n",
  text% "\t...\n",
  text% "}\n",
  text% "\n",
  text% "DataVolumeReportRequestExtensions RANAP-PROTOCOL-EXTENSION ::= {\n",
  text% "\t...\n",
  text% "}\n",
  text% "\n",
  text% "-- **************************************************************\n",
  text% "--\n",
  text% "-- Data Volume Report\n",
  text% "--\n",
  text% "-- **************************************************************\n",
  text% "\n",
  text% "DataVolumeReport ::= SEQUENCE {\n",
  text% "\tprotocolIEs\t\tProtocolIE-Container\t\t{ {DataVolumeReportIEs} },\n",
  text% "\tprotocolExtensions\tProtocolExtensionContainer\t{ {DataVolumeReportExtensions} }\t\t\t\tOPTIONAL,\n",
  text% "\t...\n",
  text% "}\n",
  text% "\n",
  text% "DataVolumeReportIEs RANAP-PROTOCOL-IES ::= {\n",
  text% "\t{ ID id-RAB-DataVolumeReportList\tCRITICALITY ignore\tTYPE RAB-DataVolumeReportList\tPRESENCE optional\t} |\n",
  text% "\t{ ID id-RAB-FailedtoReportList\t\tCRITICALITY ignore\tTYPE RABs-failed-to-reportList\tPRESENCE optional\t} |\n",
  text% "\t{ ID id-CriticalityDiagnostics\t\tCRITICALITY ignore\tTYPE CriticalityDiagnostics\tPRESENCE optional\t},\n",
  text% "\t...\n",
  text% "}\n",
  text% "\n",
  text% "DataVolumeReportExtensions RANAP-PROTOCOL-EXTENSION ::= {\n",
  text% "\t...\n",
  text% "}\n",
  text% "\n",
  text% "RABs-failed-to-reportList \t::= RAB-IE-ContainerList { {RABs-failed-to-reportItemIEs} }\n",
  text% "\n",
  text% "RABs-failed-to-reportItemIEs RANAP-PROTOCOL-IES ::= {\n",
  text% "\t{ ID id-RAB-FailedtoReportItem\t\tCRITICALITY ignore\tTYPE RABs-failed-to-reportItem\t\t\tPRESENCE mandatory\t},\n",
  text% "\t...\n",
  text% "}\n",
  text% "\n",
  text% "RABs-failed-to-reportItem::= SEQUENCE {\n",
  text% "\trAB-ID\t\tRAB-ID,\n",
  text% "\tcause\t\tCause,\n",
  text% "\tiE-Extensions\tProtocolExtensionContainer { { RABs-failed-to-reportItem-ExtIEs} }\t\t\tOPTIONAL,\n",
  text% "\t...\n",
  text% "}\n",
  text% "\n",
  text% "\n",
  text% "RABs-failed-to-reportItem-ExtIEs RANAP-PROTOCOL-EXTENSION ::= {\n",
  text% "\t...\n",
  text% "}\n",
  text% "\n",
  text% "\n",
  text% "-- **************************************************************\n",
  text% "--\n",
  text% "-- RESET ELEMENTARY PROCEDURE\n",
  text% "--\n",
  text% "-- **************************************************************\n",
  text% "\n",
  text% "-- **************************************************************\n",
  text% "--\n",
  text% "-- Reset\n",
  text% "--\n",
  text% "-- **************************************************************\n",
  text% "\n",
  text% "Reset ::= SEQUENCE {\n"]

/-- The tables of `ranap15`. -/
noncomputable def ranap15Tables : List (Text × List Row) := [
  (text% "DataVolumeReportIEs", [
    ⟨text% "id-RAB-DataVolumeReportList", text% "ignore", text% "RAB-DataVolumeReportList", text% "optional"⟩,
    ⟨text% "id-RAB-FailedtoReportList", text% "ignore", text% "RABs-failed-to-reportList", text% "optional"⟩,
    ⟨text% "id-CriticalityDiagnostics", text% "ignore", text% "CriticalityDiagnostics", text% "optional"⟩]),
  (text% "RABs-failed-to-reportItemIEs", [
    ⟨text% "id-RAB-FailedtoReportItem", text% "ignore", text% "RABs-failed-to-reportItem", text% "mandatory"⟩])]

/-- asn1/ranap/RANAP-PDU-Contents.asn:1224-1283 -/
noncomputable def ranap16 : List Text := [
  text% "\tprotocolIEs\t\t\tProtocolIE-Container\t\t\t{ {ResetIEs} },\n",
  text% "\tprotocolExtensions\t\tProtocolExtensionContainer\t{ {ResetExtensions} }\t\t\t\t\tOPTIONAL,\n",
  text% "\t...\n",
  text% "}\n",
  text% "\n",
  text% "ResetIEs RANAP-PROTOCOL-IES ::= {\n",
  text% "\t{ ID id-Cause\t\t\t\t\tCRITICALITY ignore\tTYPE Cause\t\t\t\t\tPRESENCE mandatory\t} |\n",
  text% "\t{ ID id-CN-DomainIndicator\t\t\tCRITICALITY reject\tTYPE CN-DomainIndicator\t\t\t\tPRESENCE mandatory\t} |\n",
  text% "\t{ ID id-GlobalRNC-ID\t\t\t\tCRITICALITY ignore\tTYPE GlobalRNC-ID\t\t\t\tPRESENCE optional\t},\n",
  text% "\t...\n",
  text% "}\n",
  text% "\n",
  text% "ResetExtensions RANAP-PROTOCOL-EXTENSION ::= {\n",
  text% "-- Extension for Release 4 --\n",
  text% "\t{ ID id-GlobalCN-ID\t\t\t\tCRITICALITY ignore\t\tEXTENSION GlobalCN-ID\t\t\t\tPRESENCE optional}|\n",
  text% "-- Extension for Release 7 to indicate extended RNC-ID --\n",
  text% "\t{ ID id-ExtendedRNC-ID\t\t\t\tCRITICALITY reject\tEXTENSION ExtendedRNC-ID\t\tPRESENCE optional\t},\n",
  text% "\t...\n",
  text% "}\n",
  text% "\n",
  text% "-- **************************************************************\n",
  text% "--\n",
  text% "-- Reset Acknowledge\n",
  text% "--\n",
  text% "-- **************************************************************\n",
  text% "\n",
  text% "ResetAcknowledge ::= SEQUENCE {\n",
  text% "\tprotocolIEs\t\tProtocolIE-Container\t\t{ {ResetAcknowledgeIEs} },\n",
  text% "\tprotocolExtensions\tProtocolExtensionContainer\t{ {ResetAcknowledgeExtensions} }\t\t\t\tOPTIONAL,\n",
  text% "\t...\n",
  text% "}\n",
  text% "\n",
  text% "ResetAcknowledgeIEs RANAP-PROTOCOL-IES ::= {\n",
  text% "\t{ ID id-CN-DomainIndicator\tCRITICALITY reject\tTYPE CN-DomainIndicator\t\tPRESENCE mandatory\t} |\n",
  text% "\t{ ID id-CriticalityDiagnostics\tCRITICALITY ignore\tTYPE CriticalityDiagnostics\tPRESENCE optional\t} |\n",
  text% "\t{ ID id-GlobalRNC-ID\t\tCRITICALITY ignore\tTYPE GlobalRNC-ID\t\tPRESENCE optional\t},\n",
  text% "\t...\n",
  text% "}\n",
  text% "\n",
  text% "ResetAcknowledgeExtensions RANAP-PROTOCOL-EXTENSION ::= {\n",
  text% "-- Extension for Release 4 --\n",
  text% "\t{ ID id-GlobalCN-ID\t\tCRITICALITY ignore\tEXTENSION GlobalCN-ID\t\tPRESENCE optional}|\n",
  text% "-- Extension for Release 7 to indicate extended RNC-ID --\n",
  text% "\t{ ID id-ExtendedRNC-ID\t\tCRITICALITY reject\tEXTENSION ExtendedRNC-ID\tPRESENCE optional\t},\n",
  text% "\t...\n",
  text% "}\n",
  text% "-- **************************************************************\n",
  text% "--\n",
  text% "-- RESET RESOURCE ELEMENTARY PROCEDURE\n",
  text% "--\n",
  text% "-- **************************************************************\n",
  text% "\n",
  text% "\n",
  text% "-- **************************************************************\n",
  text% "--\n",
  text% "-- Reset Resource\n",
  text% "--\n",
  text% "-- **************************************************************\n",
  text% "\n",
  text% "ResetResource ::= SEQUENCE {\n"]

/-- The tables of `ranap16`. -/
noncomputable def ranap16Tables : List (Text × List Row) := [
  (text% "ResetIEs", [
    ⟨text% "id-Cause", text% "ignore", text% "Cause", text% "mandatory"⟩,
    ⟨text% "id-CN-DomainIndicator", text% "reject", text% "CN-DomainIndicator", text% "mandatory"⟩,
    ⟨text% "id-GlobalRNC-ID", text% "ignore", text% "GlobalRNC-ID", text% "optional"⟩]),
  (text% "ResetAcknowledgeIEs", [
    ⟨text% "id-CN-DomainIndicator", text% "reject", text% "CN-DomainIndicator", text% "mandatory"⟩,
    ⟨text% "id-CriticalityDiagnostics", text% "ignore", text% "CriticalityDiagnostics", text% "optional"⟩,
    ⟨text% "id-GlobalRNC-ID", text% "ignore", text% "GlobalRNC-ID", text% "optional"⟩])]

/-- asn1/ranap/RANAP-PDU-Contents.asn:1284-1328 -/
noncomputable def ranap17 : List Text := [
  text% "\tprotocolIEs\t\tProtocolIE-Container\t\t{ {ResetResourceIEs} },\n",
  text% "\tprotocolExtensions\tProtocolExtensionContainer\t{ {ResetResourceExtensions} }\t\t\t\t\tOPTIONAL,\n",
  text% "\t...\n",
  text% "}\n",
  text% "\n",
  text% "ResetResourceIEs RANAP-PROTOCOL-IES ::= {\n",
  text% "\t{ ID id-CN-DomainIndicator\tCRITICALITY reject\tTYPE CN-DomainIndicator\t\t\t\tPRESENCE mandatory\t} |\n",
  text% "\t{ ID id-Cause\t\t\tCRITICALITY ignore\tTYPE Cause\t\t\t\t\tPRESENCE mandatory\t} |\n",
  text% "\t{ ID id-IuSigConIdList\t\tCRITICALITY ignore\tTYPE ResetResourceList\t\t\t\tPRESENCE mandatory\t} |\n",
  text% "\t{ ID id-GlobalRNC-ID\t\tCRITICALITY ignore\tTYPE GlobalRNC-ID\t\t\t\tPRESENCE optional\t},\n",
  text% "\t...\n",
  text% "}\n",
  text% "\n",
  text% "ResetResourceList \t::=\tIuSigConId-IE-ContainerList{ {ResetResourceItemIEs} }\n",
  text% "\n",
  text% "ResetResourceItemIEs RANAP-PROTOCOL-IES ::= {\n",
  text% "\t{ ID id-IuSigConIdItem\t\tCRITICALITY reject\tTYPE\tResetResourceItem\t\t\tPRESENCE mandatory\t},\n",
  text% "\t...\n",
  text% "}\n",
  text% "\n",
  text% "ResetResourceItem ::= SEQUENCE {\n",
  text% "\tiuSigConId\t\tIuSignallingConnectionIdentifier,\n",
  text% "\tiE-Extensions\t\tProtocolExtensionContainer { { ResetResourceItem-ExtIEs} }\t\t\tOPTIONAL,\n",
  text% "\t...\n",
  text% "}\n",
  text% "\n",
  text% "ResetResourceItem-ExtIEs RANAP-PROTOCOL-EXTENSION ::= {\n",
  text% "\t...\n",
  text% "}\n",
  text% "\n",
  text% "ResetResourceExtensions RANAP-PROTOCOL-EXTENSION ::= {\n",
  text% "-- Extension for Release 4 --\n",
  text% "\t{ ID id-GlobalCN-ID\tCRITICALITY ignore\tEXTENSION GlobalCN-ID\t\tPRESENCE optional}|\n",
  text% "-- Extension for Release 7 to indicate extended RNC-ID --\n",
  text% "\t{ ID id-ExtendedRNC-ID\tCRITICALITY reject\tEXTENSION ExtendedRNC-ID\tPRESENCE optional\t},\n",
  text% "\t...\n",
  text% "}\n",
  text% "\n",
  text% "-- **************************************************************\n",
  text% "--\n",
  text% "-- Reset Resource Acknowledge\n",
  text% "--\n",
  text% "-- **************************************************************\n",
  text% "\n",
  text% "ResetResourceAcknowledge ::= SEQUENCE {\n"]

/-- The tables of `ranap17`. -/
noncomputable def ranap17Tables : List (Text × List Row) := [
  (text% "ResetResourceIEs", [
    ⟨text% "id-CN-DomainIndicator", text% "reject", text% "CN-DomainIndicator", text% "mandatory"⟩,
    ⟨text% "id-Cause", text% "ignore", text% "Cause", text% "mandatory"⟩,
    ⟨text% "id-IuSigConIdList", text% "ignore", text% "ResetResourceList", text% "mandatory"⟩,
    ⟨text% "id-GlobalRNC-ID", text% "ignore", text% "GlobalRNC-ID", text% "optional"⟩]),
  (text% "ResetResourceItemIEs", [
    ⟨text% "id-IuSigConIdItem", text% "reject", text% "ResetResourceItem", text% "mandatory"⟩])]

end Verif.Gen.Text
