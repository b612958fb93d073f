import Verif.Gen.TextLit
import Verif.Model.AsnToStruct

/-!
# Text of the RANAP types

The lines of `/repo/asn1/ranap/RANAP-CommonDataTypes.asn`, `-Containers.asn`, `-IEs.asn` as they are, and
those of `IE` in `-PDU.asn`, to which `-IEs.asn` refers.
-/

namespace Verif.Gen.Text
open Verif.AsnToStruct

/-- asn1/ranap/RANAP-CommonDataTypes.asn -/
noncomputable def ranapCommon : List Text := [
  text% "-- **************************************************************\n",
  text% "--\n",
  text% "-- Common definitions\n",
  text% "--\n",
  text% "-- **************************************************************\n",
  text% "\n",
  text% "RANAP-CommonDataTypes {\n",
  text% "itu-t (0) identified-organization (4) etsi (0) mobileDomain (0)\n",
  text% "umts-Access (20) modules (3) ranap (0) version1 (1) ranap-CommonDataTypes (3) }\n",
  text% "\n",
  text% "DEFINITIONS AUTOMATIC TAGS ::=\n",
  text% "\n",
  text% "BEGIN\n",
  text% "\n",
  text% "Criticality\t\t::= ENUMERATED { reject, ignore, notify }\n",
  text% "\n",
  text% "Presence\t\t::= ENUMERATED { optional, conditional, mandatory }\n",
  text% "\n",
  text% "PrivateIE-ID\t::= CHOICE {\n",
  text% "\tlocal\t\t\tINTEGER (0..65535),\n",
  text% "\tglobal\t\t\tOBJECT IDENTIFIER\n",
  text% "}\n",
  text% "\n",
  text% "ProcedureCode\t\t::= INTEGER {\n",
  text% "\tid-RAB-Assignment(0),\n",
  text% "\tid-Iu-Release(1),\n",
  text% "\tid-RelocationPreparation(2),\n",
  text% "\tid-RelocationResourceAllocation(3),\n",
  text% "\tid-RelocationCancel(4),\n",
  text% "\tid-SRNS-ContextTransfer(5),\n",
  text% "\tid-SecurityModeControl(6),\n",
  text% "\tid-DataVolumeReport(7),\n",
  text% "\tid-Reset(9),\n",
  text% "\tid-RAB-ReleaseRequest(10),\n",
  text% "\tid-Iu-ReleaseRequest(11),\n",
  text% "\tid-RelocationDetect(12),\n",
  text% "\tid-RelocationComplete(13),\n",
  text% "\tid-Paging(14),\n",
  text% "\tid-CommonID(15),\n",
  text% "\tid-CN-InvokeTrace(16),\n",
  text% "\tid-LocationReportingControl(17),\n",
  text% "\tid-LocationReport(18),\n",
  text% "\tid-InitialUE-Message(19),\n",
  text% "\tid-DirectTransfer(20),\n",
  text% "\tid-OverloadControl(21),\n",
  text% "\tid-ErrorIndication(22),\n",
  text% "\tid-SRNS-DataForward(23),\n",
  text% "\tid-ForwardSRNS-Context(24),\n",
  text% "\tid-privateMessage(25),\n",
  text% "\tid-CN-DeactivateTrace(26),\n",
  text% "\tid-ResetResource(27),\n",
  text% "\tid-RANAP-Relocation(28),\n",
  text% "\tid-RAB-ModifyRequest(29),\n",
  text% "\tid-LocationRelatedData(30),\n",
  text% "\tid-InformationTransfer(31),\n",
  text% "\tid-UESpecificInformation(32),\n",
  text% "\tid-UplinkInformationExchange(33),\n",
  text% "\tid-DirectInformationTransfer(34),\n",
  text% "\tid-MBMSSessionStart(35),\n",
  text% "\tid-MBMSSessionUpdate(36),\n",
  text% "\tid-MBMSSessionStop(37),\n",
  text% "\tid-MBMSUELinking(38),\n",
  text% "\tid-MBMSRegistration(39),\n",
  text% "\tid-MBMSCNDe-Registration-Procedure(40),\n",
  text% "\tid-MBMSRABEstablishmentIndication(41),\n",
  text% "\tid-MBMSRABRelease(42),\n",
  text% "\tid-enhancedRelocationComplete(43),\n",
  text% "\tid-enhancedRelocationCompleteConfirm(44),\n",
  text% "\tid-RANAPenhancedRelocation(45),\n",
  text% "\tid-SRVCCPreparation(46),\n",
  text% "\tid-UeRadioCapabilityMatch(47)\n",
  text% "} (0..255)\n",
  text% "\n",
  text% "ProtocolExtensionID\t::= INTEGER (0..65535)\n",
  text% "\n",
  text% "ProtocolIE-ID \t\t::= INTEGER {\n",
  text% "\tid-AreaIdentity(0),\n",
  text% "\tid-CN-DomainIndicator(3),\n",
  text% "\tid-Cause(4),\n",
  text% "\tid-ChosenEncryptionAlgorithm(5),\n",
  text% "\tid-ChosenIntegrityProtectionAlgorithm(6),\n",
  text% "\tid-ClassmarkInformation2(7),\n",
  text% "\tid-ClassmarkInformation3(8),\n",
  text% "\tid-CriticalityDiagnostics(9),\n",
  text% "\tid-DL-GTP-PDU-SequenceNumber(10),\n",
  text% "\tid-EncryptionInformation(11),\n",
  text% "\tid-IntegrityProtectionInformation(12),\n",
  text% "\tid-IuTransportAssociation(13),\n",
  text% "\tid-L3-Information(14),\n",
  text% "\tid-LAI(15),\n",
  text% "\tid-NAS-PDU(16),\n",
  text% "\tid-NonSearchingIndication(17),\n",
  text% "\tid-NumberOfSteps(18),\n",
  text% "\tid-OMC-ID(19),\n",
  text% "\tid-OldBSS-ToNewBSS-Information(20),\n",
  text% "\tid-PagingAreaID(21),\n",
  text% "\tid-PagingCause(22),\n",
  text% "\tid-PermanentNAS-UE-ID(23),\n",
  text% "\tid-RAB-ContextItem(24),\n",
  text% "\tid-RAB-ContextList(25),\n",
  text% "\tid-RAB-DataForwardingItem(26),\n",
  text% "\tid-RAB-DataForwardingItem-SRNS-CtxReq(27),\n",
  text% "\tid-RAB-DataForwardingList(28),\n",
  text% "\tid-RAB-DataForwardingList-SRNS-CtxReq(29),\n",
  text% "\tid-RAB-DataVolumeReportItem(30),\n",
  text% "\tid-RAB-DataVolumeReportList(31),\n",
  text% "\tid-RAB-DataVolumeReportRequestItem(32),\n",
  text% "\tid-RAB-DataVolumeReportRequestList(33),\n",
  text% "\tid-RAB-FailedItem(34),\n",
  text% "\tid-RAB-FailedList(35),\n",
  text% "\tid-RAB-ID(36),\n",
  text% "\tid-RAB-QueuedItem(37),\n",
  text% "\tid-RAB-QueuedList(38),\n",
  text% "\tid-RAB-ReleaseFailedList(39),\n",
  text% "\tid-RAB-ReleaseItem(40),\n",
  text% "\tid-RAB-ReleaseList(41),\n",
  text% "\tid-RAB-ReleasedItem(42),\n",
  text% "\tid-RAB-ReleasedList(43),\n",
  text% "\tid-RAB-ReleasedList-IuRelComp(44),\n",
  text% "\tid-RAB-RelocationReleaseItem(45),\n",
  text% "\tid-RAB-RelocationReleaseList(46),\n",
  text% "\tid-RAB-SetupItem-RelocReq(47),\n",
  text% "\tid-RAB-SetupItem-RelocReqAck(48),\n",
  text% "\tid-RAB-SetupList-RelocReq(49),\n",
  text% "\tid-RAB-SetupList-RelocReqAck(50),\n",
  text% "\tid-RAB-SetupOrModifiedItem(51),\n",
  text% "\tid-RAB-SetupOrModifiedList(52),\n",
  text% "\tid-RAB-SetupOrModifyItem(53),\n",
  text% "\tid-RAB-SetupOrModifyList(54),\n",
  text% "\tid-RAC(55),\n",
  text% "\tid-RelocationType(56),\n",
  text% "\tid-RequestType(57),\n",
  text% "\tid-SAI(58),\n",
  text% "\tid-SAPI(59),\n",
  text% "\tid-SourceID(60),\n",
  text% "\tid-Source-ToTarget-TransparentContainer(61),\n",
  text% "\tid-TargetID(62),\n",
  text% "\tid-Target-ToSource-TransparentContainer(63),\n",
  text% "\tid-TemporaryUE-ID(64),\n",
  text% "\tid-TraceReference(65),\n",
  text% "\tid-TraceType(66),\n",
  text% "\tid-TransportLayerAddress(67),\n",
  text% "\tid-TriggerID(68),\n",
  text% "\tid-UE-ID(69),\n",
  text% "\tid-UL-GTP-PDU-SequenceNumber(70),\n",
  text% "\tid-RAB-FailedtoReportItem(71),\n",
  text% "\tid-RAB-FailedtoReportList(72),\n",
  text% "\tid-KeyStatus(75),\n",
  text% "\tid-DRX-CycleLengthCoefficient(76),\n",
  text% "\tid-IuSigConIdList(77),\n",
  text% "\tid-IuSigConIdItem(78),\n",
  text% "\tid-IuSigConId(79),\n",
  text% "\tid-DirectTransferInformationItem-RANAP-RelocInf(80),\n",
  text% "\tid-DirectTransferInformationList-RANAP-RelocInf(81),\n",
  text% "\tid-RAB-ContextItem-RANAP-RelocInf(82),\n",
  text% "\tid-RAB-ContextList-RANAP-RelocInf(83),\n",
  text% "\tid-RAB-ContextFailedtoTransferItem(84),\n",
  text% "\tid-RAB-ContextFailedtoTransferList(85),\n",
  text% "\tid-GlobalRNC-ID(86),\n",
  text% "\tid-RAB-ReleasedItem-IuRelComp(87),\n",
  text% "\tid-MessageStructure(88),\n",
  text% "\tid-Alt-RAB-Parameters(89),\n",
  text% "\tid-Ass-RAB-Parameters(90),\n",
  text% "\tid-RAB-ModifyList(91),\n",
  text% "\tid-RAB-ModifyItem(92),\n",
  text% "\tid-TypeOfError(93),\n",
  text% "\tid-BroadcastAssistanceDataDecipheringKeys(94),\n",
  text% "\tid-LocationRelatedDataRequestType(95),\n",
  text% "\tid-GlobalCN-ID(96),\n",
  text% "\tid-LastKnownServiceArea(97),\n",
  text% "\tid-SRB-TrCH-Mapping(98),\n",
  text% "\tid-InterSystemInformation-TransparentContainer(99),\n",
  text% "\tid-NewBSS-To-OldBSS-Information(100),\n",
  text% "\tid-SourceRNC-PDCP-context-info(103),\n",
  text% "\tid-InformationTransferID(104),\n",
  text% "\tid-SNA-Access-Information(105),\n",
  text% "\tid-ProvidedData(106),\n",
  text% "\tid-GERAN-BSC-Container(107),\n",
  text% "\tid-GERAN-Classmark(108),\n",
  text% "\tid-GERAN-Iumode-RAB-Failed-RABAssgntResponse-Item(109),\n",
  text% "\tid-GERAN-Iumode-RAB-FailedList-RABAssgntResponse(110),\n",
  text% "\tid-VerticalAccuracyCode(111),\n",
  text% "\tid-ResponseTime(112),\n",
  text% "\tid-PositioningPriority(113),\n",
  text% "\tid-ClientType(114),\n",
  text% "\tid-LocationRelatedDataRequestTypeSpecificToGERANIuMode(115),\n",
  text% "\tid-SignallingIndication(116),\n",
  text% "\tid-hS-DSCH-MAC-d-Flow-ID(117),\n",
  text% "\tid-UESBI-Iu(118),\n",
  text% "\tid-PositionData(119),\n",
  text% "\tid-PositionDataSpecificToGERANIuMode(120),\n",
  text% "\tid-CellLoadInformationGroup(121),\n",
  text% "\tid-AccuracyFulfilmentIndicator(122),\n",
  text% "\tid-InformationTransferType(123),\n",
  text% "\tid-TraceRecordingSessionInformation(124),\n",
  text% "\tid-TracePropagationParameters(125),\n",
  text% "\tid-InterSystemInformationTransferType(126),\n",
  text% "\tid-SelectedPLMN-ID(127),\n",
  text% "\tid-RedirectionCompleted(128),\n",
  text% "\tid-RedirectionIndication(129),\n",
  text% "\tid-NAS-SequenceNumber(130),\n",
  text% "\tid-RejectCauseValue(131),\n",
  text% "\tid-APN(132),\n",
  text% "\tid-CNMBMSLinkingInformation(133),\n",
  text% "\tid-DeltaRAListofIdleModeUEs(134),\n",
  text% "\tid-FrequenceLayerConvergenceFlag(135),\n",
  text% "\tid-InformationExchangeID(136),\n",
  text% "\tid-InformationExchangeType(137),\n",
  text% "\tid-InformationRequested(138),\n",
  text% "\tid-InformationRequestType(139),\n",
  text% "\tid-IPMulticastAddress(140),\n",
  text% "\tid-JoinedMBMSBearerServicesList(141),\n",
  text% "\tid-LeftMBMSBearerServicesList(142),\n",
  text% "\tid-MBMSBearerServiceType(143),\n",
  text% "\tid-MBMSCNDe-Registration(144),\n",
  text% "\tid-MBMSServiceArea(145),\n",
  text% "\tid-MBMSSessionDuration(146),\n",
  text% "\tid-MBMSSessionIdentity(147),\n",
  text% "\tid-PDP-TypeInformation(148),\n",
  text% "\tid-RAB-Parameters(149),\n",
  text% "\tid-RAListofIdleModeUEs(150),\n",
  text% "\tid-MBMSRegistrationRequestType(151),\n",
  text% "\tid-SessionUpdateID(152),\n",
  text% "\tid-TMGI(153),\n",
  text% "\tid-TransportLayerInformation(154),\n",
  text% "\tid-UnsuccessfulLinkingList(155),\n",
  text% "\tid-MBMSLinkingInformation(156),\n",
  text% "\tid-MBMSSessionRepetitionNumber(157),\n",
  text% "\tid-AlternativeRABConfiguration(158),\n",
  text% "\tid-AlternativeRABConfigurationRequest(159),\n",
  text% "\tid-E-DCH-MAC-d-Flow-ID(160),\n",
  text% "\tid-SourceBSS-ToTargetBSS-TransparentContainer(161),\n",
  text% "\tid-TargetBSS-ToSourceBSS-TransparentContainer(162),\n",
  text% "\tid-TimeToMBMSDataTransfer(163),\n",
  text% "\tid-IncludeVelocity(164),\n",
  text% "\tid-VelocityEstimate(165),\n",
  text% "\tid-RedirectAttemptFlag(166),\n",
  text% "\tid-RAT-Type(167),\n",
  text% "\tid-PeriodicLocationInfo(168),\n",
  text% "\tid-MBMSCountingInformation(169),\n",
  text% "\tid-170-not-to-be-used-for-IE-ids(170),\n",
  text% "\tid-ExtendedRNC-ID(171),\n",
  text% "\tid-Alt-RAB-Parameter-ExtendedGuaranteedBitrateInf(172),\n",
  text% "\tid-Alt-RAB-Parameter-ExtendedMaxBitrateInf(173),\n",
  text% "\tid-Ass-RAB-Parameter-ExtendedGuaranteedBitrateList(174),\n",
  text% "\tid-Ass-RAB-Parameter-ExtendedMaxBitrateList(175),\n",
  text% "\tid-RAB-Parameter-ExtendedGuaranteedBitrateList(176),\n",
  text% "\tid-RAB-Parameter-ExtendedMaxBitrateList(177),\n",
  text% "\tid-Requested-RAB-Parameter-ExtendedMaxBitrateList(178),\n",
  text% "\tid-Requested-RAB-Parameter-ExtendedGuaranteedBitrateList(179),\n",
  text% "\tid-LAofIdleModeUEs(180),\n",
  text% "\tid-newLAListofIdleModeUEs(181),\n",
  text% "\tid-LAListwithNoIdleModeUEsAnyMore(182),\n",
  text% "\tid-183-not-to-be-used-for-IE-ids(183),\n",
  text% "\tid-GANSS-PositioningDataSet(184),\n",
  text% "\tid-RequestedGANSSAssistanceData(185),\n",
  text% "\tid-BroadcastGANSSAssistanceDataDecipheringKeys(186),\n",
  text% "\tid-d-RNTI-for-NoIuCSUP(187),\n",
  text% "\tid-RAB-SetupList-EnhancedRelocCompleteReq(188),\n",
  text% "\tid-RAB-SetupItem-EnhancedRelocCompleteReq(189),\n",
  text% "\tid-RAB-SetupList-EnhancedRelocCompleteRes(190),\n",
  text% "\tid-RAB-SetupItem-EnhancedRelocCompleteRes(191),\n",
  text% "\tid-RAB-SetupList-EnhRelocInfoReq(192),\n",
  text% "\tid-RAB-SetupItem-EnhRelocInfoReq(193),\n",
  text% "\tid-RAB-SetupList-EnhRelocInfoRes(194),\n",
  text% "\tid-RAB-SetupItem-EnhRelocInfoRes(195),\n",
  text% "\tid-OldIuSigConId(196),\n",
  text% "\tid-RAB-FailedList-EnhRelocInfoRes(197),\n",
  text% "\tid-RAB-FailedItem-EnhRelocInfoRes(198),\n",
  text% "\tid-Global-ENB-ID(199),\n",
  text% "\tid-UE-History-Information(200),\n",
  text% "\tid-MBMSSynchronisationInformation(201),\n",
  text% "\tid-SubscriberProfileIDforRFP(202),\n",
  text% "\tid-CSG-Id(203),\n",
  text% "\tid-OldIuSigConIdCS(204),\n",
  text% "\tid-OldIuSigConIdPS(205),\n",
  text% "\tid-GlobalCN-IDCS(206),\n",
  text% "\tid-GlobalCN-IDPS(207),\n",
  text% "\tid-SourceExtendedRNC-ID(208),\n",
  text% "\tid-RAB-ToBeReleasedItem-EnhancedRelocCompleteRes(209),\n",
  text% "\tid-RAB-ToBeReleasedList-EnhancedRelocCompleteRes(210),\n",
  text% "\tid-SourceRNC-ID(211),\n",
  text% "\tid-Relocation-TargetRNC-ID(212),\n",
  text% "\tid-Relocation-TargetExtendedRNC-ID(213),\n",
  text% "\tid-Alt-RAB-Parameter-SupportedGuaranteedBitrateInf(214),\n",
  text% "\tid-Alt-RAB-Parameter-SupportedMaxBitrateInf(215),\n",
  text% "\tid-Ass-RAB-Parameter-SupportedGuaranteedBitrateList(216),\n",
  text% "\tid-Ass-RAB-Parameter-SupportedMaxBitrateList(217),\n",
  text% "\tid-RAB-Parameter-SupportedGuaranteedBitrateList(218),\n",
  text% "\tid-RAB-Parameter-SupportedMaxBitrateList(219),\n",
  text% "\tid-Requested-RAB-Parameter-SupportedMaxBitrateList(220),\n",
  text% "\tid-Requested-RAB-Parameter-SupportedGuaranteedBitrateList(221),\n",
  text% "\tid-Relocation-SourceRNC-ID(222),\n",
  text% "\tid-Relocation-SourceExtendedRNC-ID(223),\n",
  text% "\tid-EncryptionKey(224),\n",
  text% "\tid-IntegrityProtectionKey(225),\n",
  text% "\tid-SRVCC-HO-Indication(226),\n",
  text% "\tid-SRVCC-Information(227),\n",
  text% "\tid-SRVCC-Operation-Possible(228),\n",
  text% "\tid-CSG-Id-List(229),\n",
  text% "\tid-PSRABtobeReplaced(230),\n",
  text% "\tid-E-UTRAN-Service-Handover(231),\n",
  text% "\tid-UE-AggregateMaximumBitRate(233),\n",
  text% "\tid-CSG-Membership-Status(234),\n",
  text% "\tid-Cell-Access-Mode(235),\n",
  text% "\tid-IP-Source-Address(236),\n",
  text% "\tid-CSFB-Information(237),\n",
  text% "\tid-PDP-TypeInformation-extension(238),\n",
  text% "\tid-MSISDN(239),\n",
  text% "\tid-Offload-RAB-Parameters(240),\n",
  text% "\tid-LGW-TransportLayerAddress(241),\n",
  text% "\tid-Correlation-ID(242),\n",
  text% "\tid-IRAT-Measurement-Configuration(243),\n",
  text% "\tid-MDT-Configuration(244),\n",
  text% "\tid-Priority-Class-Indicator(245),\n",
  text% "\tid-RNSAPRelocationParameters(247),\n",
  text% "\tid-RABParametersList(248),\n",
  text% "\tid-Management-Based-MDT-Allowed(249),\n",
  text% "\tid-HigherBitratesThan16MbpsFlag(250),\n",
  text% "\tid-Trace-Collection-Entity-IP-Addess(251),\n",
  text% "\tid-End-Of-CSFB(252),\n",
  text% "\tid-Time-UE-StayedInCell-EnhancedGranularity(253),\n",
  text% "\tid-Out-Of-UTRAN(254),\n",
  text% "\tid-TraceRecordingSessionReference(255),\n",
  text% "\tid-IMSI(256),\n",
  text% "\tid-HO-Cause(257),\n",
  text% "\tid-VoiceSupportMatchIndicator(258),\n",
  text% "\tid-RSRVCC-HO-Indication(259),\n",
  text% "\tid-RSRVCC-Information(260),\n",
  text% "\tid-AnchorPLMN-ID(261),\n",
  text% "\tid-Tunnel-Information-for-BBF(262),\n",
  text% "\tid-Management-Based-MDT-PLMN-List(263),\n",
  text% "\tid-SignallingBasedMDTPLMNList(264),\n",
  text% "\tid-M4Report(265),\n",
  text% "\tid-M5Report(266),\n",
  text% "\tid-M6Report(267),\n",
  text% "\tid-M7Report(268),\n",
  text% "\tid-TimingDifferenceULDL(269),\n",
  text% "\tid-Serving-Cell-Identifier(270),\n",
  text% "\tid-EARFCN-Extended(271),\n",
  text% "\tid-RSRVCC-Operation-Possible(272),\n",
  text% "\tid-SIPTO-LGW-TransportLayerAddress(273),\n",
  text% "\tid-SIPTO-Correlation-ID(274),\n",
  text% "\tid-LHN-ID(275),\n",
  text% "\tid-Session-Re-establishment-Indicator(276),\n",
  text% "\tid-LastE-UTRANPLMNIdentity(277),\n",
  text% "\tid-RSRQ-Type(278),\n",
  text% "\tid-RSRQ-Extension(279)\n",
  text% "} (0..65535)\n",
  text% "\n",
  text% "TriggeringMessage\t::= ENUMERATED { initiating-message, successful-outcome, unsuccessfull-outcome, outcome }\n",
  text% "\n",
  text% "END\n"]

/-- asn1/ranap/RANAP-Containers.asn -/
noncomputable def ranapContainers : List Text := [
  text% "-- **************************************************************\n",
  text% "--\n",
  text% "-- Container definitions\n",
  text% "--\n",
  text% "-- **************************************************************\n",
  text% "\n",
  text% "RANAP-Containers {\n",
  text% "itu-t (0) identified-organization (4) etsi (0) mobileDomain (0)\n",
  text% "umts-Access (20) modules (3) ranap (0) version1 (1) ranap-Containers (5) }\n",
  text% "\n",
  text% "DEFINITIONS AUTOMATIC TAGS ::=\n",
  text% "\n",
  text% "BEGIN\n",
  text% "\n",
  text% "-- **************************************************************\n",
  text% "--\n",
  text% "-- IE parameter types from other modules.\n",
  text% "--\n",
  text% "-- **************************************************************\n",
  text% "\n",
  text% "IMPORTS\n",
  text% "\tCriticality,\n",
  text% "\tPresence,\n",
  text% "\tPrivateIE-ID,\n",
  text% "\tProtocolExtensionID,\n",
  text% "\tProtocolIE-ID\n",
  text% "FROM RANAP-CommonDataTypes\n",
  text% "\n",
  text% "\tmaxPrivateIEs,\n",
  text% "\tmaxProtocolExtensions,\n",
  text% "\tmaxProtocolIEs\n",
  text% "FROM RANAP-Constants;\n",
  text% "\n",
  text% "-- **************************************************************\n",
  text% "--\n",
  text% "-- Class Definition for Protocol IEs\n",
  text% "--\n",
  text% "-- **************************************************************\n",
  text% "\n",
  text% "RANAP-PROTOCOL-IES ::= CLASS {\n",
  text% "\t&id\t\t\t\tProtocolIE-ID \t\t\t\t\tUNIQUE,\n",
  text% "\t&criticality\t\t\tCriticality,\n",
  text% "\t&Value,\n",
  text% "\t&presence\t\t\tPresence\n",
  text% "}\n",
  text% "WITH SYNTAX {\n",
  text% "\tID\t\t\t\t&id\n",
  text% "\tCRITICALITY\t\t\t&criticality\n",
  text% "\tTYPE\t\t\t\t&Value\n",
  text% "\tPRESENCE\t\t\t&presence\n",
  text% "}\n",
  text% "\n",
  text% "-- **************************************************************\n",
  text% "--\n",
  text% "-- Class Definition for Protocol IEs\n",
  text% "--\n",
  text% "-- **************************************************************\n",
  text% "\n",
  text% "RANAP-PROTOCOL-IES-PAIR ::= CLASS {\n",
  text% "\t&id\t\t\t\tProtocolIE-ID \t\t\tUNIQUE,\n",
  text% "\t&firstCriticality\t\tCriticality,\n",
  text% "\t&FirstValue,\n",
  text% "\t&secondCriticality\t\tCriticality,\n",
  text% "\t&SecondValue,\n",
  text% "\t&presence\t\t\tPresence\n",
  text% "}\n",
  text% "WITH SYNTAX {\n",
  text% "\tID\t\t\t\t&id\n",
  text% "\tFIRST CRITICALITY \t\t&firstCriticality\n",
  text% "\tFIRST TYPE\t\t\t&FirstValue\n",
  text% "\tSECOND CRITICALITY \t\t&secondCriticality\n",
  text% "\tSECOND TYPE\t\t\t&SecondValue\n",
  text% "\tPRESENCE\t\t\t&presence\n",
  text% "}\n",
  text% "\n",
  text% "-- **************************************************************\n",
  text% "--\n",
  text% "-- Class Definition for Protocol Extensions\n",
  text% "--\n",
  text% "-- **************************************************************\n",
  text% "\n",
  text% "RANAP-PROTOCOL-EXTENSION ::= CLASS {\n",
  text% "\t&id\t\t\t\tProtocolExtensionID \t\tUNIQUE,\n",
  text% "\t&criticality\t\t\tCriticality,\n",
  text% "\t&Extension,\n",
  text% "\t&presence\t\t\tPresence\n",
  text% "}\n",
  text% "WITH SYNTAX {\n",
  text% "\tID\t\t\t\t&id\n",
  text% "\tCRITICALITY\t\t\t&criticality\n",
  text% "\tEXTENSION\t\t\t&Extension\n",
  text% "\tPRESENCE\t\t\t&presence\n",
  text% "}\n",
  text% "\n",
  text% "-- **************************************************************\n",
  text% "--\n",
  text% "-- Class Definition for Private IEs\n",
  text% "--\n",
  text% "-- **************************************************************\n",
  text% "\n",
  text% "RANAP-PRIVATE-IES ::= CLASS {\n",
  text% "\t&id\t\t\t\tPrivateIE-ID,\n",
  text% "\t&criticality\t\t\tCriticality,\n",
  text% "\t&Value,\n",
  text% "\t&presence\t\tPresence\n",
  text% "}\n",
  text% "WITH SYNTAX {\n",
  text% "\tID\t\t\t\t&id\n",
  text% "\tCRITICALITY\t\t\t&criticality\n",
  text% "\tTYPE\t\t\t&Value\n",
  text% "\tPRESENCE\t\t&presence\n",
  text% "}\n",
  text% "\n",
  text% "-- **************************************************************\n",
  text% "--\n",
  text% "-- Container for Protocol IEs\n",
  text% "--\n",
  text% "-- **************************************************************\n",
  text% "\n",
  text% "ProtocolIE-Container {RANAP-PROTOCOL-IES : IEsSetParam} ::=\n",
  text% "\tSEQUENCE (SIZE (0..maxProtocolIEs)) OF\n",
  text% "\tProtocolIE-Field {{IEsSetParam}}\n",
  text% "\n",
  text% "ProtocolIE-Field {RANAP-PROTOCOL-IES : IEsSetParam} ::= SEQUENCE {\n",
  text% "\tid\t\tRANAP-PROTOCOL-IES.&id \t\t({IEsSetParam}),\n",
  text% "\tcriticality\tRANAP-PROTOCOL-IES.&criticality ({IEsSetParam}{@id}),\n",
  text% "\tvalue\t\tRANAP-PROTOCOL-IES.&Value\t ({IEsSetParam}{@id})\n",
  text% "}\n",
  text% "\n",
  text% "-- **************************************************************\n",
  text% "--\n",
  text% "-- Container for Protocol IE Pairs\n",
  text% "--\n",
  text% "-- **************************************************************\n",
  text% "\n",
  text% "ProtocolIE-ContainerPair {RANAP-PROTOCOL-IES-PAIR : IEsSetParam} ::=\n",
  text% "\tSEQUENCE (SIZE (0..maxProtocolIEs)) OF\n",
  text% "\tProtocolIE-FieldPair {{IEsSetParam}}\n",
  text% "\n",
  text% "ProtocolIE-FieldPair {RANAP-PROTOCOL-IES-PAIR : IEsSetParam} ::= SEQUENCE {\n",
  text% "\tid\t\t\tRANAP-PROTOCOL-IES-PAIR.&id\t\t\t\t({IEsSetParam}),\n",
  text% "\tfirstCriticality\tRANAP-PROTOCOL-IES-PAIR.&firstCriticality\t\t({IEsSetParam}{@id}),\n",
  text% "\tfirstValue\t\tRANAP-PROTOCOL-IES-PAIR.&FirstValue\t\t\t({IEsSetParam}{@id}),\n",
  text% "\tsecondCriticality\tRANAP-PROTOCOL-IES-PAIR.&secondCriticality\t\t({IEsSetParam}{@id}),\n",
  text% "\tsecondValue\t\tRANAP-PROTOCOL-IES-PAIR.&SecondValue\t\t\t({IEsSetParam}{@id})\n",
  text% "}\n",
  text% "\n",
  text% "-- **************************************************************\n",
  text% "--\n",
  text% "-- Container Lists for Protocol IE Containers\n",
  text% "--\n",
  text% "-- **************************************************************\n",
  text% "\n",
  text% "ProtocolIE-ContainerList {INTEGER : lowerBound, INTEGER : upperBound, RANAP-PROTOCOL-IES : IEsSetParam} ::=\n",
  text% "\tSEQUENCE (SIZE (lowerBound..upperBound)) OF\n",
  text% "\tProtocolIE-Container {{IEsSetParam}}\n",
  text% "\n",
  text% "ProtocolIE-ContainerPairList {INTEGER : lowerBound, INTEGER : upperBound, RANAP-PROTOCOL-IES-PAIR : IEsSetParam} ::=\n",
  text% "\tSEQUENCE (SIZE (lowerBound..upperBound)) OF\n",
  text% "\tProtocolIE-ContainerPair {{IEsSetParam}}\n",
  text% "\n",
  text% "-- **************************************************************\n",
  text% "--\n",
  text% "-- Container for Protocol Extensions\n",
  text% "--\n",
  text% "-- **************************************************************\n",
  text% "\n",
  text% "ProtocolExtensionContainer {RANAP-PROTOCOL-EXTENSION : ExtensionSetParam} ::=\n",
  text% "\tSEQUENCE (SIZE (1..maxProtocolExtensions)) OF\n",
  text% "\tProtocolExtensionField {{ExtensionSetParam}}\n",
  text% "\n",
  text% "ProtocolExtensionField {RANAP-PROTOCOL-EXTENSION : ExtensionSetParam} ::= SEQUENCE {\n",
  text% "\tid\t\t\tRANAP-PROTOCOL-EXTENSION.&id\t\t\t({ExtensionSetParam}),\n",
  text% "\tcriticality\t\tRANAP-PROTOCOL-EXTENSION.&criticality\t\t({ExtensionSetParam}{@id}),\n",
  text% "\textensionValue\t\tRANAP-PROTOCOL-EXTENSION.&Extension\t\t({ExtensionSetParam}{@id})\n",
  text% "}\n",
  text% "\n",
  text% "-- **************************************************************\n",
  text% "--\n",
  text% "-- Container for Private IEs\n",
  text% "--\n",
  text% "-- **************************************************************\n",
  text% "\n",
  text% "PrivateIE-Container {RANAP-PRIVATE-IES : IEsSetParam } ::=\n",
  text% "\tSEQUENCE (SIZE (1.. maxPrivateIEs)) OF\n",
  text% "\tPrivateIE-Field {{IEsSetParam}}\n",
  text% "\n",
  text% "PrivateIE-Field {RANAP-PRIVATE-IES : IEsSetParam} ::= SEQUENCE {\n",
  text% "\tid\t\t\tRANAP-PRIVATE-IES.&id\t\t\t({IEsSetParam}),\n",
  text% "\tcriticality\t\tRANAP-PRIVATE-IES.&criticality\t\t({IEsSetParam}{@id}),\n",
  text% "\tvalue\t\t\tRANAP-PRIVATE-IES.&Value\t\t({IEsSetParam}{@id})\n",
  text% "}\n",
  text% "\n",
  text% "END\n"]

/-- asn1/ranap/RANAP-IEs.asn -/
noncomputable def ranapIes : List Text := [
  text% "-- **************************************************************\n",
  text% "--\n",
  text% "-- Information Element Definitions\n",
  text% "--\n",
  text% "-- **************************************************************\n",
  text% "\n",
  text% "RANAP-IEs {\n",
  text% "itu-t (0) identified-organization (4) etsi (0) mobileDomain (0)\n",
  text% "umts-Access (20) modules (3) ranap (0) version1 (1) ranap-IEs (2) }\n",
  text% "\n",
  text% "DEFINITIONS AUTOMATIC TAGS ::=\n",
  text% "\n",
  text% "BEGIN\n",
  text% "\n",
  text% "IMPORTS\n",
  text% "\tmaxNrOfCSGs,\n",
  text% "\tmaxNrOfErrors,\n",
  text% "\tmaxNrOfPDPDirections,\n",
  text% "\tmaxNrOfPoints,\n",
  text% "\tmaxNrOfRABs,\n",
  text% "\tmaxNrOfSRBs,\n",
  text% "\tmaxNrOfSeparateTrafficDirections,\n",
  text% "\tmaxRAB-Subflows,\n",
  text% "\tmaxRAB-SubflowCombination,\n",
  text% "\tmaxNrOfLevels,\n",
  text% "\tmaxNrOfAltValues,\n",
  text% "\tmaxNrOfSNAs,\n",
  text% "\tmaxNrOfLAs,\n",
  text% "\tmaxNrOfPLMNsSN,\n",
  text% "\tmaxSet,\n",
  text% "\tmaxNrOfHSDSCHMACdFlows-1,\n",
  text% "\tmaxNrOfUEsToBeTraced,\n",
  text% "\tmaxNrOfInterfaces,\n",
  text% "\tmaxnoofMulticastServicesPerRNC,\n",
  text% "\tmaxMBMSSA,\n",
  text% "\tmaxMBMSRA,\n",
  text% "\tmaxnoofMulticastServicesPerUE,\n",
  text% "\tmaxNrOfEDCHMACdFlows-1,\n",
  text% "\tmaxGANSSSet,\n",
  text% "\tmaxNrOfEUTRAFreqs,\n",
  text% "\tmaxNrOfCellIds,\n",
  text% "\tmaxNrOfRAIs,\n",
  text% "\tmaxNrOfLAIs,\n",
  text% "\tmaxNrOfVol,\n",
  text% "\tmaxSizeOfIMSInfo,\n",
  text% "\tmaxnoofMDTPLMNs,\n",
  text% "\tmaxProtocolExtensions,\n",
  text% "\n",
  text% "\tid-CN-DomainIndicator,\n",
  text% "\tid-MessageStructure,\n",
  text% "\tid-SRB-TrCH-Mapping,\n",
  text% "\tid-TypeOfError,\n",
  text% "\tid-hS-DSCH-MAC-d-Flow-ID,\n",
  text% "\tid-SignallingIndication,\n",
  text% "\tid-CellLoadInformationGroup,\n",
  text% "\tid-TraceRecordingSessionInformation,\n",
  text% "\tid-MBMSLinkingInformation,\n",
  text% "\tid-AlternativeRABConfiguration,\n",
  text% "\tid-AlternativeRABConfigurationRequest,\n",
  text% "\tid-E-DCH-MAC-d-Flow-ID,\n",
  text% "\tid-RAC,\n",
  text% "\tid-Alt-RAB-Parameter-ExtendedGuaranteedBitrateInf,\n",
  text% "\tid-Alt-RAB-Parameter-ExtendedMaxBitrateInf,\n",
  text% "\tid-Ass-RAB-Parameter-ExtendedGuaranteedBitrateList,\n",
  text% "\tid-Ass-RAB-Parameter-ExtendedMaxBitrateList,\n",
  text% "\tid-RAB-Parameter-ExtendedGuaranteedBitrateList,\n",
  text% "\tid-RAB-Parameter-ExtendedMaxBitrateList,\n",
  text% "\tid-Requested-RAB-Parameter-ExtendedMaxBitrateList,\n",
  text% "\tid-Requested-RAB-Parameter-ExtendedGuaranteedBitrateList,\n",
  text% "\tid-LAofIdleModeUEs,\n",
  text% "\tid-newLAListofIdleModeUEs,\n",
  text% "\tid-LAListwithNoIdleModeUEsAnyMore,\n",
  text% "\tid-ExtendedRNC-ID,\n",
  text% "\tid-GANSS-PositioningDataSet,\n",
  text% "\tid-d-RNTI-for-NoIuCSUP,\n",
  text% "\tid-UE-History-Information,\n",
  text% "\tid-SubscriberProfileIDforRFP,\n",
  text% "\tid-Alt-RAB-Parameter-SupportedGuaranteedBitrateInf,\n",
  text% "\tid-Alt-RAB-Parameter-SupportedMaxBitrateInf,\n",
  text% "\tid-Ass-RAB-Parameter-SupportedGuaranteedBitrateList,\n",
  text% "\tid-Ass-RAB-Parameter-SupportedMaxBitrateList,\n",
  text% "\tid-RAB-Parameter-SupportedGuaranteedBitrateList,\n",
  text% "\tid-RAB-Parameter-SupportedMaxBitrateList,\n",
  text% "\tid-Requested-RAB-Parameter-SupportedMaxBitrateList,\n",
  text% "\tid-Requested-RAB-Parameter-SupportedGuaranteedBitrateList,\n",
  text% "\tid-PSRABtobeReplaced,\n",
  text% "\tid-SRVCC-Information,\n",
  text% "\tid-CSG-Id,\n",
  text% "\tid-CSFB-Information,\n",
  text% "\tid-IRAT-Measurement-Configuration,\n",
  text% "\tid-Management-Based-MDT-Allowed,\n",
  text% "\tid-Time-UE-StayedInCell-EnhancedGranularity,\n",
  text% "\tid-HO-Cause,\n",
  text% "\tid-TraceRecordingSessionReference,\n",
  text% "\tid-IMSI,\n",
  text% "\tid-Management-Based-MDT-PLMN-List,\n",
  text% "\tid-SignallingBasedMDTPLMNList,\n",
  text% "\tid-M4Report,\n",
  text% "\tid-M5Report,\n",
  text% "\tid-M6Report,\n",
  text% "\tid-M7Report,\n",
  text% "\tid-TimingDifferenceULDL,\n",
  text% "\tid-Trace-Collection-Entity-IP-Addess,\n",
  text% "\tid-Serving-Cell-Identifier,\n",
  text% "\tid-EARFCN-Extended,\n",
  text% "\tid-LastE-UTRANPLMNIdentity,\n",
  text% "\tid-RSRQ-Type,\n",
  text% "\tid-RSRQ-Extension\n",
  text% "\n",
  text% "\n",
  text% "FROM RANAP-Constants\n",
  text% "\n",
  text% "\tCriticality,\n",
  text% "\tProcedureCode,\n",
  text% "\tProtocolIE-ID,\n",
  text% "\tTriggeringMessage\n",
  text% "FROM RANAP-CommonDataTypes\n",
  text% "\n",
  text% "\tIE\n",
  text% "FROM RANAP-PDU;\n",
  text% "\n",
  text% "IE-Extensions ::= SEQUENCE (SIZE (1..maxProtocolExtensions)) OF IE\n",
  text% "\n",
  text% "-- A\n",
  text% "\n",
  text% "AccuracyFulfilmentIndicator ::= ENUMERATED{\n",
  text% "\trequested-Accuracy-Fulfilled,\n",
  text% "\trequested-Accuracy-Not-Fulfilled,\n",
  text% "\t...\n",
  text% "}\n",
  text% "\n",
  text% "AllocationOrRetentionPriority ::= SEQUENCE {\n",
  text% "\tpriorityLevel\t\t\tPriorityLevel,\n",
  text% "\tpre-emptionCapability\t\tPre-emptionCapability,\n",
  text% "\tpre-emptionVulnerability\tPre-emptionVulnerability,\n",
  text% "\tqueuingAllowed\t\t\tQueuingAllowed,\n",
  text% "\tiE-Extensions\t\t\tIE-Extensions\t\t OPTIONAL,\n",
  text% "\t...\n",
  text% "}\n",
  text% "\n",
  text% "Alt-RAB-Parameters ::= SEQUENCE {\n",
  text% "\taltMaxBitrateInf\t\tAlt-RAB-Parameter-MaxBitrateInf \t\t\t\tOPTIONAL,\n",
  text% "\taltGuaranteedBitRateInf\t\tAlt-RAB-Parameter-GuaranteedBitrateInf \t\t\t\tOPTIONAL,\n",
  text% "\tiE-Extensions\t\t\tIE-Extensions\t\t \t\t\t\t\tOPTIONAL,\n",
  text% "\t...\n",
  text% "}\n",
  text% "\n",
  text% "Alt-RAB-Parameter-ExtendedGuaranteedBitrateInf ::= SEQUENCE {\n",
  text% "\taltExtendedGuaranteedBitrateType\tAlt-RAB-Parameter-GuaranteedBitrateType,\n",
  text% "\taltExtendedGuaranteedBitrates\t\tAlt-RAB-Parameter-ExtendedGuaranteedBitrates\tOPTIONAL\n",
  text% "\t-- This IE shall be present if the Type of Extended Guaranteed Bit Rates Information IE is set to \"Value range\" or \"Discrete values\" --,\n",
  text% "\t...\n",
  text% "}\n",
  text% "\n",
  text% "Alt-RAB-Parameter-ExtendedGuaranteedBitrates ::= SEQUENCE (SIZE (1..maxNrOfAltValues)) OF\n",
  text% "\tAlt-RAB-Parameter-ExtendedGuaranteedBitrateList\n",
  text% "\n",
  text% "Alt-RAB-Parameter-ExtendedGuaranteedBitrateList\t::= SEQUENCE (SIZE (1..maxNrOfSeparateTrafficDirections)) OF ExtendedGuaranteedBitrate\n",
  text% "\n",
  text% "Alt-RAB-Parameter-GuaranteedBitrateInf ::= SEQUENCE {\n",
  text% "\taltGuaranteedBitrateType\tAlt-RAB-Parameter-GuaranteedBitrateType,\n",
  text% "\taltGuaranteedBitrates\t\tAlt-RAB-Parameter-GuaranteedBitrates\t\t\tOPTIONAL\n",
  text% "\t-- This IE shall be present if the Type of Guaranteed Bit Rates Information IE is set to \"Value range\" or \"Discrete values\" --,\n",
  text% "\t...\n",
  text% "}\n",
  text% "\n",
  text% "Alt-RAB-Parameter-GuaranteedBitrateType ::= ENUMERATED{\n",
  text% "\tunspecified,\n",
  text% "\tvalue-range,\n",
  text% "\tdiscrete-values,\n",
  text% "\t...\n",
  text% "}\n",
  text% "\n",
  text% "Alt-RAB-Parameter-GuaranteedBitrates ::= SEQUENCE (SIZE (1..maxNrOfAltValues)) OF\n",
  text% "\tAlt-RAB-Parameter-GuaranteedBitrateList\n",
  text% "\n",
  text% "\n",
  text% "Alt-RAB-Parameter-GuaranteedBitrateList\t::= SEQUENCE (SIZE (1..maxNrOfSeparateTrafficDirections)) OF GuaranteedBitrate\n",
  text% "\n",
  text% "Alt-RAB-Parameter-SupportedGuaranteedBitrateInf ::= SEQUENCE {\n",
  text% "\taltSupportedGuaranteedBitrateType\tAlt-RAB-Parameter-GuaranteedBitrateType,\n",
  text% "\taltSupportedGuaranteedBitrates\t\tAlt-RAB-Parameter-SupportedGuaranteedBitrates\tOPTIONAL\n",
  text% "\t-- This IE shall be present if the Type of Supported Guaranteed Bit Rates Information IE is set to \"Value range\" or \"Discrete values\" --,\n",
  text% "\tiE-Extensions\t\t\tIE-Extensions\t\t \t\t\t\t\tOPTIONAL,\n",
  text% "\t...\n",
  text% "}\n",
  text% "\n",
  text% "Alt-RAB-Parameter-SupportedGuaranteedBitrates ::= SEQUENCE (SIZE (1..maxNrOfAltValues)) OF\n",
  text% "\tSupportedRAB-ParameterBitrateList\n",
  text% "\n",
  text% "\n",
  text% "Alt-RAB-Parameter-ExtendedMaxBitrateInf ::= SEQUENCE {\n",
  text% "\taltExtendedMaxBitrateType\tAlt-RAB-Parameter-MaxBitrateType,\n",
  text% "\taltExtendedMaxBitrates\t\tAlt-RAB-Parameter-ExtendedMaxBitrates\t\t\tOPTIONAL\n",
  text% "\t-- This IE shall be present if the Type of Extended Alternative Maximum Bit Rates Information IE is set to \"Value range\" or \"Discrete values\" --,\n",
  text% "\t...\n",
  text% "}\n",
  text% "\n",
  text% "Alt-RAB-Parameter-ExtendedMaxBitrates ::= SEQUENCE (SIZE (1..maxNrOfAltValues)) OF\n",
  text% "\tAlt-RAB-Parameter-ExtendedMaxBitrateList\n",
  text% "\n",
  text% "Alt-RAB-Parameter-ExtendedMaxBitrateList\t::= SEQUENCE (SIZE (1..maxNrOfSeparateTrafficDirections)) OF ExtendedMaxBitrate\n",
  text% "\n",
  text% "Alt-RAB-Parameter-MaxBitrateInf ::= SEQUENCE {\n",
  text% "\taltMaxBitrateType\tAlt-RAB-Parameter-MaxBitrateType,\n",
  text% "\taltMaxBitrates\t\tAlt-RAB-Parameter-MaxBitrates\t\t\tOPTIONAL\n",
  text% "\t-- This IE shall be present if the Type of Alternative Maximun Bit Rates Information IE is set to \"Value range\" or \"Discrete values\" --,\n",
  text% "\t...\n",
  text% "}\n",
  text% "\n",
  text% "Alt-RAB-Parameter-MaxBitrateType ::= ENUMERATED{\n",
  text% "\tunspecified,\n",
  text% "\tvalue-range,\n",
  text% "\tdiscrete-values,\n",
  text% "\t...\n",
  text% "}\n",
  text% "\n",
  text% "Alt-RAB-Parameter-MaxBitrates ::= SEQUENCE (SIZE (1..maxNrOfAltValues)) OF\n",
  text% "\tAlt-RAB-Parameter-MaxBitrateList\n",
  text% "\n",
  text% "\n",
  text% "Alt-RAB-Parameter-MaxBitrateList ::= SEQUENCE (SIZE (1..maxNrOfSeparateTrafficDirections)) OF MaxBitrate\n",
  text% "\n",
  text% "\n",
  text% "Alt-RAB-Parameter-SupportedMaxBitrateInf ::= SEQUENCE {\n",
  text% "\taltSupportedMaxBitrateType\tAlt-RAB-Parameter-MaxBitrateType,\n",
  text% "\taltSupportedMaxBitrates\t\tAlt-RAB-Parameter-SupportedMaxBitrates\t\t\tOPTIONAL\n",
  text% "\t-- This IE shall be present if the Type of Supported Alternative Maximun Bit Rates Information IE is set to \"Value range\" or \"Discrete values\" --,\n",
  text% "\tiE-Extensions\t\t\tIE-Extensions\t\t \t\t\t\t\tOPTIONAL,\n",
  text% "...\n",
  text% "}\n",
  text% "\n",
  text% "\n",
  text% "Alt-RAB-Parameter-SupportedMaxBitrates ::= SEQUENCE (SIZE (1..maxNrOfAltValues)) OF\n",
  text% "\tSupportedRAB-ParameterBitrateList\n",
  text% "\n",
  text% "AlternativeRABConfigurationRequest ::= ENUMERATED{\n",
  text% "\talternative-RAB-configuration-Requested,\n",
  text% "\t...\n",
  text% "}\n",
  text% "\n",
  text% "APN\t::= OCTET STRING (SIZE (1..255))\n",
  text% "-- Reference: 23.003\n",
  text% "\n",
  text% "AreaIdentity ::= CHOICE {\n",
  text% "\tsAI\t\t\t\tSAI,\n",
  text% "\tgeographicalArea\t\tGeographicalArea,\n",
  text% "\t...\n",
  text% "}\n",
  text% "\n",
  text% "Ass-RAB-Parameters ::= SEQUENCE {\n",
  text% "\tassMaxBitrateInf\t\tAss-RAB-Parameter-MaxBitrateList \t\t\t\tOPTIONAL,\n",
  text% "\tassGuaranteedBitRateInf\t\tAss-RAB-Parameter-GuaranteedBitrateList \t\t\tOPTIONAL,\n",
  text% "\tiE-Extensions\t\t\tIE-Extensions\t\t \t\t\t\t\tOPTIONAL,\n",
  text% "\t...\n",
  text% "}\n",
  text% "\n",
  text% "Ass-RAB-Parameter-ExtendedGuaranteedBitrateList\t::= SEQUENCE (SIZE (1..maxNrOfSeparateTrafficDirections)) OF ExtendedGuaranteedBitrate\n",
  text% "\n",
  text% "Ass-RAB-Parameter-ExtendedMaxBitrateList ::= SEQUENCE (SIZE (1..maxNrOfSeparateTrafficDirections)) OF ExtendedMaxBitrate\n",
  text% "\n",
  text% "\n",
  text% "Ass-RAB-Parameter-GuaranteedBitrateList\t::= SEQUENCE (SIZE (1..maxNrOfSeparateTrafficDirections)) OF GuaranteedBitrate\n",
  text% "\n",
  text% "\n",
  text% "Ass-RAB-Parameter-MaxBitrateList ::= SEQUENCE (SIZE (1..maxNrOfSeparateTrafficDirections)) OF MaxBitrate\n",
  text% "\n",
  text% "AuthorisedPLMNs ::= SEQUENCE (SIZE (1..maxNrOfPLMNsSN)) OF AuthorisedPLMNs-Value\n",
  text% "AuthorisedPLMNs-Value ::=\n",
  text% "\tSEQUENCE {\n",
  text% "\t\tpLMNidentity\t\tPLMNidentity,\n",
  text% "\t\tauthorisedSNAsList\tAuthorisedSNAs\t\tOPTIONAL,\n",
  text% "\t\tiE-Extensions\t\tIE-Extensions\t\tOPTIONAL,\n",
  text% "\t\t...\n",
  text% "\t}\n",
  text% "\n",
  text% "AuthorisedSNAs ::= SEQUENCE (SIZE (1..maxNrOfSNAs)) OF SNAC\n",
  text% "\n",
  text% "\n",
  text% "-- B\n",
  text% "\n",
  text% "BindingID ::= OCTET STRING (SIZE (4))\n",
  text% "\n",
  text% "BroadcastAssistanceDataDecipheringKeys\t::= SEQUENCE {\n",
  text% "\tcipheringKeyFlag\tBIT STRING (SIZE (1)),\n",
  text% "\tcurrentDecipheringKey\tBIT STRING (SIZE (56)),\n",
  text% "\tnextDecipheringKey\tBIT STRING (SIZE (56)),\n",
  text% "\t...\n",
  text% "}\n",
  text% "\n",
  text% "-- C\n",
  text% "\n",
  text% "\n",
  text% "Cause ::= CHOICE {\n",
  text% "\tradioNetwork\t\tCauseRadioNetwork,\n",
  text% "\ttransmissionNetwork\tCauseTransmissionNetwork,\n",
  text% "\tnAS\t\t\tCauseNAS,\n",
  text% "\tprotocol\t\tCauseProtocol,\n",
  text% "\tmisc\t\t\tCauseMisc,\n",
  text% "\tnon-Standard\t\tCauseNon-Standard,\n",
  text% "\t...,\n",
  text% "\tradioNetworkExtension\tCauseRadioNetworkExtension\n",
  text% "}\n",
  text% "\n",
  text% "CauseMisc ::= INTEGER {\n",
  text% "\tom-intervention (113),\n",
  text% "\tno-resource-available (114),\n",
  text% "\tunspecified-failure (115),\n",
  text% "\tnetwork-optimisation (116)\n",
  text% "} (113..128)\n",
  text% "\n",
  text% "CauseNAS ::= INTEGER {\n",
  text% "\tuser-restriction-start-indication (81),\n",
  text% "\tuser-restriction-end-indication (82),\n",
  text% "\tnormal-release (83),\n",
  text% "\tcsg-subscription-expiry(84)\n",
  text% "} (81..96)\n",
  text% "\n",
  text% "CauseProtocol ::= INTEGER {\n",
  text% "\ttransfer-syntax-error (97),\n",
  text% "\tsemantic-error (98),\n",
  text% "\tmessage-not-compatible-with-receiver-state (99),\n",
  text% "\tabstract-syntax-error-reject (100),\n",
  text% "\tabstract-syntax-error-ignore-and-notify (101),\n",
  text% "\tabstract-syntax-error-falsely-constructed-message (102)\n",
  text% "} (97..112)\n",
  text% "\n",
  text% "CauseRadioNetwork ::= INTEGER {\n",
  text% "\trab-pre-empted (1),\n",
  text% "\ttrelocoverall-expiry (2),\n",
  text% "\ttrelocprep-expiry (3),\n",
  text% "\ttreloccomplete-expiry (4),\n",
  text% "\ttqueing-expiry (5),\n",
  text% "\trelocation-triggered (6),\n",
  text% "\ttrellocalloc-expiry(7),\n",
  text% "\tunable-to-establish-during-relocation (8),\n",
  text% "\tunknown-target-rnc (9),\n",
  text% "\trelocation-cancelled (10),\n",
  text% "\tsuccessful-relocation (11),\n",
  text% "\trequested-ciphering-and-or-integrity-protection-algorithms-not-supported (12),\n",
  text% "\tconflict-with-already-existing-integrity-protection-and-or-ciphering-information (13),\n",
  text% "\tfailure-in-the-radio-interface-procedure (14),\n",
  text% "\trelease-due-to-utran-generated-reason (15),\n",
  text% "\tuser-inactivity (16),\n",
  text% "\ttime-critical-relocation (17),\n",
  text% "\trequested-traffic-class-not-available (18),\n",
  text% "\tinvalid-rab-parameters-value (19),\n",
  text% "\trequested-maximum-bit-rate-not-available (20),\n",
  text% "\trequested-guaranteed-bit-rate-not-available (21),\n",
  text% "\trequested-transfer-delay-not-achievable (22),\n",
  text% "\tinvalid-rab-parameters-combination (23),\n",
  text% "\tcondition-violation-for-sdu-parameters (24),\n",
  text% "\tcondition-violation-for-traffic-handling-priority (25),\n",
  text% "\tcondition-violation-for-guaranteed-bit-rate (26),\n",
  text% "\tuser-plane-versions-not-supported (27),\n",
  text% "\tiu-up-failure (28),\n",
  text% "\trelocation-failure-in-target-CN-RNC-or-target-system(29),\n",
  text% "\tinvalid-RAB-ID (30),\n",
  text% "\tno-remaining-rab (31),\n",
  text% "\tinteraction-with-other-procedure (32),\n",
  text% "\trequested-maximum-bit-rate-for-dl-not-available (33),\n",
  text% "\trequested-maximum-bit-rate-for-ul-not-available (34),\n",
  text% "\trequested-guaranteed-bit-rate-for-dl-not-available (35),\n",
  text% "\trequested-guaranteed-bit-rate-for-ul-not-available (36),\n",
  text% "\trepeated-integrity-checking-failure (37),\n",
  text% "\trequested-request-type-not-supported (38),\n",
  text% "\trequest-superseded (39),\n",
  text% "\trelease-due-to-UE-generated-signalling-connection-release (40),\n",
  text% "\tresource-optimisation-relocation (41),\n",
  text% "\trequested-information-not-available (42),\n",
  text% "\trelocation-desirable-for-radio-reasons (43),\n",
  text% "\trelocation-not-supported-in-target-RNC-or-target-system (44),\n",
  text% "\tdirected-retry (45),\n",
  text% "\tradio-connection-with-UE-Lost (46),\n",
  text% "\trNC-unable-to-establish-all-RFCs (47),\n",
  text% "\tdeciphering-keys-not-available(48),\n",
  text% "\tdedicated-assistance-data-not-available(49),\n",
  text% "\trelocation-target-not-allowed (50),\n",
  text% "\tlocation-reporting-congestion (51),\n",
  text% "\treduce-load-in-serving-cell (52),\n",
  text% "\tno-radio-resources-available-in-target-cell (53),\n",
  text% "\tgERAN-Iumode-failure (54),\n",
  text% "\taccess-restricted-due-to-shared-networks (55),\n",
  text% "\tincoming-relocation-not-supported-due-to-PUESBINE-feature (56),\n",
  text% "\ttraffic-load-in-the-target-cell-higher-than-in-the-source-cell (57),\n",
  text% "\tmBMS-no-multicast-service-for-this-UE(58),\n",
  text% "\tmBMS-unknown-UE-ID(59),\n",
  text% "\tsuccessful-MBMS-session-start-no-data-bearer-necessary(60),\n",
  text% "\tmBMS-superseded-due-to-NNSF(61),\n",
  text% "\tmBMS-UE-linking-already-done(62),\n",
  text% "\tmBMS-UE-de-linking-failure-no-existing-UE-linking(63),\n",
  text% "\ttMGI-unknown(64)\n",
  text% "} (1..64)\n",
  text% "\n",
  text% "CauseRadioNetworkExtension ::= INTEGER {\n",
  text% "\tiP-multicast-address-and-APN-not-valid(257),\n",
  text% "\tmBMS-de-registration-rejected-due-to-implicit-registration(258),\n",
  text% "\tmBMS-request-superseded(259),\n",
  text% "\tmBMS-de-registration-during-session-not-allowed(260),\n",
  text% "\tmBMS-no-data-bearer-necessary(261),\n",
  text% "\tperiodicLocationInformationNotAvailable(262),\n",
  text% "\tgTP-Resources-Unavailable(263),\n",
  text% "\ttMGI-inUse-overlapping-MBMS-service-area(264),\n",
  text% "\tmBMS-no-cell-in-MBMS-service-area(265),\n",
  text% "\tno-Iu-CS-UP-relocation(266),\n",
  text% "\tsuccessful-MBMS-Session-Start-IP-Multicast-Bearer-established(267),\n",
  text% "\tcS-fallback-triggered(268),\n",
  text% "\tinvalid-CSG-Id(269)\n",
  text% "} (257..512)\n",
  text% "\n",
  text% "CauseNon-Standard ::= INTEGER (129..256)\n",
  text% "-- Cause value 256 shall not be used --\n",
  text% "\n",
  text% "CauseTransmissionNetwork ::= INTEGER {\n",
  text% "\tsignalling-transport-resource-failure (65),\n",
  text% "\tiu-transport-connection-failed-to-establish (66)\n",
  text% "} (65..80)\n",
  text% "\n",
  text% "Cell-Access-Mode::= ENUMERATED {\n",
  text% "\thybrid,\n",
  text% "\t... \n",
  text% "}\n",
  text% "\n",
  text% "CellBased::= SEQUENCE {\n",
  text% "\tcellIdList\t\tCellIdList,\n",
  text% "\tiE-Extensions\t\tIE-Extensions\t\tOPTIONAL,\n",
  text% "\t...\n",
  text% "}\n",
  text% "\n",
  text% "CellIdList ::= SEQUENCE (SIZE (1..maxNrOfCellIds)) OF\n",
  text% "\tCell-Id\n",
  text% "\n",
  text% "Cell-Id\t\t::= INTEGER (0..268435455)\n",
  text% "\n",
  text% "Cell-Capacity-Class-Value ::= INTEGER (1..100,...)\n",
  text% "\n",
  text% "CellLoadInformation ::= SEQUENCE {\n",
  text% "\tcell-Capacity-Class-Value\tCell-Capacity-Class-Value,\n",
  text% "\tloadValue\t\t\tLoadValue,\n",
  text% "\trTLoadValue\t\t\tRTLoadValue\t\t\t\tOPTIONAL,\n",
  text% "\tnRTLoadInformationValue\t\tNRTLoadInformationValue\t\t\tOPTIONAL,\n",
  text% "\tiE-Extensions\t\t\tIE-Extensions\t\t\t\tOPTIONAL,\n",
  text% "\t...\n",
  text% "}\n",
  text% "\n",
  text% "CellLoadInformationGroup ::= SEQUENCE {\n",
  text% "\tsourceCellID\t\t\t\t\tSourceCellID,\n",
  text% "\tuplinkCellLoadInformation\t\t\tCellLoadInformation\t\tOPTIONAL,\n",
  text% "\tdownlinkCellLoadInformation\t\t\tCellLoadInformation\t\tOPTIONAL,\n",
  text% "\tiE-Extensions\t\t\t\t\tIE-Extensions\t\t\tOPTIONAL,\n",
  text% "\t...\n",
  text% "}\n",
  text% "\n",
  text% "CellType ::= ENUMERATED{\n",
  text% "\tmacro,\n",
  text% "\tmicro,\n",
  text% "\tpico,\n",
  text% "\tfemto,\n",
  text% "\t...\n",
  text% "}\n",
  text% "\n",
  text% "ClientType ::= ENUMERATED {\n",
  text% "\temergency-Services,\n",
  text% "\tvalue-Added-Services,\n",
  text% "\tpLMN-Operator-Services,\n",
  text% "\tlawful-Intercept-Services,\n",
  text% "\tpLMN-Operator-Broadcast-Services,\n",
  text% "\tpLMN-Operator-O-et-M,\n",
  text% "\tpLMN-Operator-Anonymous-Statistics,\n",
  text% "\tpLMN-Operator-Target-MS-Service-Support,\n",
  text% "\t...\n",
  text% "}\n",
  text% "\n",
  text% "CriticalityDiagnostics ::= SEQUENCE {\n",
  text% "\tprocedureCode\t\t\tProcedureCode\t\t\tOPTIONAL,\n",
  text% "\ttriggeringMessage\t\tTriggeringMessage\t\tOPTIONAL,\n",
  text% "\tprocedureCriticality\t\tCriticality\t\t\tOPTIONAL,\n",
  text% "\tiEsCriticalityDiagnostics\tCriticalityDiagnostics-IE-List \tOPTIONAL,\n",
  text% "\tiE-Extensions\t\t\tIE-Extensions\t\t\tOPTIONAL,\n",
  text% "\t...\n",
  text% "}\n",
  text% "\n",
  text% "CriticalityDiagnostics-IE-List ::= SEQUENCE (SIZE (1..maxNrOfErrors)) OF CriticalityDiagnostics-IE-List-Value\n",
  text% "CriticalityDiagnostics-IE-List-Value ::=\n",
  text% "\tSEQUENCE {\n",
  text% "\t\tiECriticality\t\tCriticality,\n",
  text% "\t\tiE-ID\t\t\tProtocolIE-ID,\n",
  text% "\t\trepetitionNumber\tRepetitionNumber0\t\tOPTIONAL,\n",
  text% "\t\tiE-Extensions\t\tIE-Extensions\t\t\tOPTIONAL,\n",
  text% "\t\t...\n",
  text% "\t}\n",
  text% "\n",
  text% "MessageStructure ::= SEQUENCE (SIZE (1..maxNrOfLevels)) OF MessageStructure-Value\n",
  text% "MessageStructure-Value ::=\n",
  text% "\tSEQUENCE {\n",
  text% "\t\tiE-ID\t\t\tProtocolIE-ID,\n",
  text% "\t\trepetitionNumber\tRepetitionNumber1\t\tOPTIONAL,\n",
  text% "\t\tiE-Extensions\t\tIE-Extensions\t\t\tOPTIONAL,\n",
  text% "\t\t...\n",
  text% "\t}\n",
  text% "\n",
  text% "CGI ::= SEQUENCE {\n",
  text% "\tpLMNidentity\tPLMNidentity,\n",
  text% "\tlAC\t\tLAC,\n",
  text% "\tcI\t\tCI,\n",
  text% "\tiE-Extensions\t\tIE-Extensions\t\t\tOPTIONAL\n",
  text% "}\n",
  text% "\n",
  text% "ChosenEncryptionAlgorithm \t\t::= EncryptionAlgorithm\n",
  text% "\n",
  text% "ChosenIntegrityProtectionAlgorithm \t::= IntegrityProtectionAlgorithm\n",
  text% "\n",
  text% "CI\t\t\t\t\t::= OCTET STRING (SIZE (2))\n",
  text% "\n",
  text% "ClassmarkInformation2\t\t\t::= OCTET STRING\n",
  text% "\n",
  text% "ClassmarkInformation3\t\t\t::= OCTET STRING\n",
  text% "\n",
  text% "CN-DomainIndicator ::= ENUMERATED {\n",
  text% "\tcs-domain,\n",
  text% "\tps-domain\n",
  text% "}\n",
  text% "\n",
  text% "CN-ID\t::= INTEGER (0..4095)\n",
  text% "\n",
  text% "Correlation-ID\t::= OCTET STRING (SIZE (4))\n",
  text% "\n",
  text% "CSFB-Information ::= ENUMERATED {\n",
  text% "\tcsfb,\n",
  text% "\tcsfb-high-priority,\n",
  text% "\t...\n",
  text% "}\n",
  text% "\n",
  text% "CSG-Id\t\t::= BIT STRING (SIZE (27))\n",
  text% "\n",
  text% "CSG-Id-List ::= SEQUENCE (SIZE (1..maxNrOfCSGs)) OF\n",
  text% "\tCSG-Id\n",
  text% "\n",
  text% "CSG-Membership-Status ::= ENUMERATED { \n",
  text% "\tmember, \n",
  text% "\tnon-member,\n",
  text% "\t...\n",
  text% "}\n",
  text% "\n",
  text% "-- D\n",
  text% "\n",
  text% "DataPDUType\t\t::=\tENUMERATED {\n",
  text% "\tpDUtype0,\n",
  text% "\tpDUtype1,\n",
  text% "\t...\n",
  text% "}\n",
  text% "\n",
  text% "DataVolumeReference\t::= INTEGER (0..255)\n",
  text% "\n",
  text% "DataVolumeReportingIndication ::= ENUMERATED {\n",
  text% "\tdo-report,\n",
  text% "\tdo-not-report\n",
  text% "}\n",
  text% "\n",
  text% "DCH-ID ::= INTEGER (0..255)\n",
  text% "\n",
  text% "DeliveryOfErroneousSDU ::= ENUMERATED {\n",
  text% "\tyes,\n",
  text% "\tno,\n",
  text% "\tno-error-detection-consideration\n",
  text% "}\n",
  text% "\n",
  text% "DeliveryOrder::= ENUMERATED {\n",
  text% "\tdelivery-order-requested,\n",
  text% "\tdelivery-order-not-requested\n",
  text% "}\n",
  text% "\n",
  text% "DeltaRAListofIdleModeUEs ::= SEQUENCE {\n",
  text% "\tnewRAListofIdleModeUEs\t\tNewRAListofIdleModeUEs\tOPTIONAL,\n",
  text% "\trAListwithNoIdleModeUEsAnyMore\tRAListwithNoIdleModeUEsAnyMore\tOPTIONAL,\n",
  text% "\tiE-Extensions\t\t\tIE-Extensions\t\t\tOPTIONAL\n",
  text% "}\n",
  text% "\n",
  text% "NewRAListofIdleModeUEs ::= SEQUENCE (SIZE (1..maxMBMSRA)) OF\n",
  text% "\tRAC\n",
  text% "\n",
  text% "RAListwithNoIdleModeUEsAnyMore ::= SEQUENCE (SIZE (1..maxMBMSRA)) OF\n",
  text% "\tRAC\n",
  text% "\n",
  text% "ForwardingIndication::=ENUMERATED{\n",
  text% "\tforwarding-admitted,\n",
  text% "\t...\n",
  text% "}\n",
  text% "\n",
  text% "DL-GTP-PDU-SequenceNumber\t\t::= INTEGER (0..65535)\n",
  text% "\n",
  text% "DL-N-PDU-SequenceNumber \t\t::= INTEGER (0..65535)\n",
  text% "\n",
  text% "D-RNTI\t\t\t\t\t::= INTEGER (0..1048575)\n",
  text% "\n",
  text% "DRX-CycleLengthCoefficient\t\t::= INTEGER (6..9)\n",
  text% "\n",
  text% "DSCH-ID ::= INTEGER (0..255)\n",
  text% "\n",
  text% "\n",
  text% "-- E\n",
  text% "\n",
  text% "EARFCN-Extended\t\t::= INTEGER (65536..262143, ...)\n",
  text% "\n",
  text% "E-DCH-MAC-d-Flow-ID\t::= INTEGER (0.. maxNrOfEDCHMACdFlows-1)\n",
  text% "\n",
  text% "ENB-ID ::= CHOICE {\n",
  text% "\tmacroENB-ID\tBIT STRING (SIZE(20)),\n",
  text% "\thomeENB-ID\tBIT STRING (SIZE(28)),\n",
  text% "\t...\n",
  text% "}\n",
  text% "\n",
  text% "EncryptionAlgorithm ::= INTEGER { no-encryption (0), standard-UMTS-encryption-algorith-UEA1 (1), standard-UMTS-encryption-algorithm-UEA2 (2) } (0..15)\n",
  text% "\n",
  text% "EncryptionInformation ::= SEQUENCE {\n",
  text% "\tpermittedAlgorithms\tPermittedEncryptionAlgorithms,\n",
  text% "\tkey\t\t\tEncryptionKey,\n",
  text% "\tiE-Extensions\t\tIE-Extensions\t\t\tOPTIONAL\n",
  text% "}\n",
  text% "\n",
  text% "EncryptionKey ::= BIT STRING (SIZE (128))\n",
  text% "-- Reference: 33.102\n",
  text% "\n",
  text% "End-Of-CSFB ::= ENUMERATED{\n",
  text% "\tend-of-CSFB,\n",
  text% "\t...\n",
  text% "}\n",
  text% "\n",
  text% "EquipmentsToBeTraced ::= CHOICE {\n",
  text% "\tiMEIlist\tIMEIList,\n",
  text% "\tiMEISVlist\tIMEISVList,\n",
  text% "\tiMEIgroup\tIMEIGroup,\n",
  text% "\tiMEISVgroup\tIMEISVGroup,\n",
  text% "\t...\n",
  text% "}\n",
  text% "\n",
  text% "E-UTRAN-Service-Handover ::= ENUMERATED {\n",
  text% "\thandover-to-E-UTRAN-shall-not-be-performed,\n",
  text% "\t...\n",
  text% "}\n",
  text% "\n",
  text% "Event ::= ENUMERATED {\n",
  text% "\tstop-change-of-service-area,\n",
  text% "\tdirect,\n",
  text% "\tchange-of-servicearea,\n",
  text% "\t...,\n",
  text% "\tstop-direct,\n",
  text% "\tperiodic,\n",
  text% "\tstop-periodic\n",
  text% "}\n",
  text% "\n",
  text% "Event1F-Parameters ::= SEQUENCE {\n",
  text% "\tmeasurementQuantity\tMeasurementQuantity,\n",
  text% "\tthreshold\t\tINTEGER(-120..165),\n",
  text% "\t...\n",
  text% "}\n",
  text% "\n",
  text% "Event1I-Parameters ::= SEQUENCE {\n",
  text% "\tthreshold\tINTEGER(-120..-25),\n",
  text% "\t...\n",
  text% "}\n",
  text% "\n",
  text% "ExtendedGuaranteedBitrate\t::= INTEGER (16000001..256000000)\n",
  text% "-- Unit is bits per sec\n",
  text% "\n",
  text% "ExtendedMaxBitrate\t\t::= INTEGER (16000001..256000000)\n",
  text% "-- Unit is bits per sec\n",
  text% "\n",
  text% "ExtendedRNC-ID\t\t\t::= INTEGER (4096..65535)\n",
  text% "\n",
  text% "-- F\n",
  text% "\n",
  text% "FrameSequenceNumber\t\t::=\tINTEGER(0..15)\n",
  text% "\n",
  text% "FrequenceLayerConvergenceFlag ::= ENUMERATED {\n",
  text% "\tno-FLC-flag,\n",
  text% "\t...\n",
  text% "}\n",
  text% "\n",
  text% "-- G\n",
  text% "\n",
  text% "GANSS-PositioningDataSet ::= SEQUENCE(SIZE(1..maxGANSSSet)) OF GANSS-PositioningMethodAndUsage\n",
  text% "\n",
  text% "GANSS-PositioningMethodAndUsage ::= OCTET STRING (SIZE(1))\n",
  text% "\n",
  text% "GeographicalArea ::= CHOICE {\n",
  text% "\tpoint\t\t\t\tGA-Point,\n",
  text% "\tpointWithUnCertainty\t\tGA-PointWithUnCertainty,\n",
  text% "\tpolygon\t\t\t\tGA-Polygon,\n",
  text% "\t...,\n",
  text% "\tpointWithUncertaintyEllipse\tGA-PointWithUnCertaintyEllipse,\n",
  text% "\tpointWithAltitude\t\tGA-PointWithAltitude,\n",
  text% "\tpointWithAltitudeAndUncertaintyEllipsoid\t\tGA-PointWithAltitudeAndUncertaintyEllipsoid,\n",
  text% "\tellipsoidArc\t\t\tGA-EllipsoidArc\n",
  text% "}\n",
  text% "\n",
  text% "GeographicalCoordinates ::= SEQUENCE {\n",
  text% "\tlatitudeSign\tENUMERATED { north, south },\n",
  text% "\tlatitude\tINTEGER (0..8388607),\n",
  text% "\tlongitude\tINTEGER (-8388608..8388607),\n",
  text% "\tiE-Extensions\tIE-Extensions\t\t\tOPTIONAL,\n",
  text% "\t...\n",
  text% "}\n",
  text% "\n",
  text% "GA-AltitudeAndDirection ::= SEQUENCE {\n",
  text% "\tdirectionOfAltitude\tENUMERATED {height, depth},\n",
  text% "\taltitude\t\tINTEGER (0..32767),\n",
  text% "\t...\n",
  text% "}\n",
  text% "\n",
  text% "GA-EllipsoidArc ::= SEQUENCE {\n",
  text% "\tgeographicalCoordinates\tGeographicalCoordinates,\n",
  text% "\tinnerRadius\t\tINTEGER (0..65535),\n",
  text% "\tuncertaintyRadius\tINTEGER (0..127),\n",
  text% "\toffsetAngle\t\tINTEGER (0..179),\n",
  text% "\tincludedAngle\t\tINTEGER(0..179),\n",
  text% "\tconfidence\t\tINTEGER (0..127),\n",
  text% "\tiE-Extensions\t\tIE-Extensions\t\t\tOPTIONAL,\n",
  text% "\t...\n",
  text% "}\n",
  text% "\n",
  text% "GA-Point ::= SEQUENCE {\n",
  text% "\tgeographicalCoordinates\tGeographicalCoordinates,\n",
  text% "\tiE-Extensions\t\tIE-Extensions\t\t\tOPTIONAL,\n",
  text% "\t...\n",
  text% "}\n",
  text% "\n",
  text% "GA-PointWithAltitude ::= SEQUENCE {\n",
  text% "\tgeographicalCoordinates\tGeographicalCoordinates,\n",
  text% "\taltitudeAndDirection\tGA-AltitudeAndDirection,\n",
  text% "\tiE-Extensions\t\tIE-Extensions\t\t\tOPTIONAL,\n",
  text% "\t...\n",
  text% "}\n",
  text% "\n",
  text% "GA-PointWithAltitudeAndUncertaintyEllipsoid ::= SEQUENCE {\n",
  text% "\tgeographicalCoordinates\tGeographicalCoordinates,\n",
  text% "\taltitudeAndDirection\tGA-AltitudeAndDirection,\n",
  text% "\tuncertaintyEllipse\tGA-UncertaintyEllipse,\n",
  text% "\tuncertaintyAltitude\tINTEGER (0..127),\n",
  text% "\tconfidence\t\tINTEGER (0..127),\n",
  text% "\tiE-Extensions\t\tIE-Extensions\t\t\tOPTIONAL,\n",
  text% "\t...\n",
  text% "}\n",
  text% "\n",
  text% "GA-PointWithUnCertainty ::=SEQUENCE {\n",
  text% "\tgeographicalCoordinates\tGeographicalCoordinates,\n",
  text% "\tiE-Extensions\t\tIE-Extensions\t\t\tOPTIONAL,\n",
  text% "\tuncertaintyCode\t\tINTEGER (0..127)\n",
  text% "}\n",
  text% "\n",
  text% "GA-PointWithUnCertaintyEllipse ::= SEQUENCE {\n",
  text% "\tgeographicalCoordinates\tGeographicalCoordinates,\n",
  text% "\tuncertaintyEllipse\tGA-UncertaintyEllipse,\n",
  text% "\tconfidence\t\tINTEGER (0..127),\n",
  text% "\tiE-Extensions\t\tIE-Extensions\t\t\tOPTIONAL,\n",
  text% "\t...\n",
  text% "}\n",
  text% "\n",
  text% "GA-Polygon ::= SEQUENCE (SIZE (1..maxNrOfPoints)) OF GA-Polygon-Value\n",
  text% "GA-Polygon-Value ::=\n",
  text% "\tSEQUENCE {\n",
  text% "\t\tgeographicalCoordinates\tGeographicalCoordinates,\n",
  text% "\t\tiE-Extensions\t\tIE-Extensions\t\t\tOPTIONAL,\n",
  text% "\t\t...\n",
  text% "\t}\n",
  text% "\n",
  text% "GA-UncertaintyEllipse ::= SEQUENCE {\n",
  text% "\tuncertaintySemi-major\tINTEGER (0..127),\n",
  text% "\tuncertaintySemi-minor\tINTEGER (0..127),\n",
  text% "\torientationOfMajorAxis\tINTEGER (0..179), \t-- The values 90..179 shall not be used.\n",
  text% "\t...\n",
  text% "}\n",
  text% "\n",
  text% "GERAN-BSC-Container\t\t\t\t::= OCTET STRING\n",
  text% "\t-- GERAN BSC Container as defined in TS 48.008 [11] --\n",
  text% "\n",
  text% "\n",
  text% "GERAN-Cell-ID ::= SEQUENCE {\n",
  text% "\tlAI\t\tLAI,\n",
  text% "\trAC\t\tRAC,\n",
  text% "\tcI\t\tCI,\n",
  text% "\tiE-Extensions\tIE-Extensions\t\t\tOPTIONAL\n",
  text% "}\n",
  text% "\n",
  text% "GERAN-Classmark\t \t\t\t\t::= OCTET STRING\n",
  text% "\t-- GERAN Classmark as defined in TS 48.008 [11] --\n",
  text% "\n",
  text% "GlobalCN-ID ::= SEQUENCE {\n",
  text% "\tpLMNidentity\tPLMNidentity,\n",
  text% "\tcN-ID\t\tCN-ID\n",
  text% "}\n",
  text% "\n",
  text% "\n",
  text% "GlobalRNC-ID ::= SEQUENCE {\n",
  text% "\tpLMNidentity\tPLMNidentity,\n",
  text% "\trNC-ID\t\tRNC-ID\n",
  text% "}\n",
  text% "\n",
  text% "GTP-TEI\t::= OCTET STRING (SIZE (4))\n",
  text% "\n",
  text% "GuaranteedBitrate ::= INTEGER (0..16000000)\n",
  text% "-- Unit is bits per sec\n",
  text% "\n",
  text% "-- H\n",
  text% "\n",
  text% "HigherBitratesThan16MbpsFlag ::= ENUMERATED{\n",
  text% "\tallowed,\n",
  text% "\tnot-allowed,\n",
  text% "\t...\n",
  text% "}\n",
  text% "\n",
  text% "HS-DSCH-MAC-d-Flow-ID\t::= INTEGER (0.. maxNrOfHSDSCHMACdFlows-1)\n",
  text% "\n",
  text% "-- I\n",
  text% "\n",
  text% "\n",
  text% "IMEI\t::= OCTET STRING (SIZE (8))\n",
  text% "-- Reference: 23.003\n",
  text% "\n",
  text% "IMEIGroup\t::= SEQUENCE {\n",
  text% "\tiMEI\t\tIMEI,\n",
  text% "\tiMEIMask\tBIT STRING (SIZE (7)),\n",
  text% "\tiE-Extensions\tIE-Extensions\t\t\tOPTIONAL\n",
  text% "}\n",
  text% "\n",
  text% "IMEIList\t::= SEQUENCE (SIZE (1..maxNrOfUEsToBeTraced)) OF IMEI\n",
  text% "\n",
  text% "IMEISV\t\t::= OCTET STRING (SIZE (8))\n",
  text% "-- Reference: 23.003\n",
  text% "\n",
  text% "IMEISVGroup\t::= SEQUENCE {\n",
  text% "\tiMEISV\t\tIMEISV,\n",
  text% "\tiMEISVMask\tBIT STRING (SIZE (7)),\n",
  text% "\tiE-Extensions\tIE-Extensions\t\t\tOPTIONAL\n",
  text% "}\n",
  text% "\n",
  text% "IMEISVList\t::= SEQUENCE (SIZE (1..maxNrOfUEsToBeTraced)) OF IMEISV\n",
  text% "\n",
  text% "ImmediateMDT\t::= SEQUENCE {\n",
  text% "\tmeasurementsToActivate\tMeasurementsToActivate,\n",
  text% "\tm1report\t\tM1Report\t\t\t\tOPTIONAL,\n",
  text% "\t-- Included in case of event-triggered reporting for measurement M1\n",
  text% "\tm2report\t\tM2Report\t\t\t\tOPTIONAL,\n",
  text% "\t-- Included in case of event-triggered reporting for measurement M2\n",
  text% "\t...,\n",
  text% "\tiE-Extensions\t\tIE-Extensions\t\t\tOPTIONAL\n",
  text% "}\n",
  text% "\n",
  text% "IMSI\t::= OCTET STRING (SIZE (3..8))\n",
  text% "-- Reference: 23.003\n",
  text% "\n",
  text% "IncludeVelocity\t\t::= ENUMERATED {\n",
  text% "\trequested\n",
  text% "}\n",
  text% "\n",
  text% "InformationExchangeID ::= INTEGER (0.. 1048575)\n",
  text% "\n",
  text% "InformationExchangeType ::= ENUMERATED {\n",
  text% "\ttransfer,\n",
  text% "\trequest,\n",
  text% "\t...\n",
  text% "}\n",
  text% "\n",
  text% "InformationRequested ::= CHOICE {\n",
  text% "\trequestedMBMSIPMulticastAddressandAPNRequest\tRequestedMBMSIPMulticastAddressandAPNRequest,\n",
  text% "\trequestedMulticastServiceList\t\t\tRequestedMulticastServiceList,\n",
  text% "\t...\n",
  text% "}\n",
  text% "\n",
  text% "\n",
  text% "InformationRequestType ::= CHOICE {\n",
  text% "\tmBMSIPMulticastAddressandAPNRequest\t\tMBMSIPMulticastAddressandAPNRequest,\n",
  text% "\tpermanentNAS-UE-ID\t\t\t\tPermanentNAS-UE-ID,\n",
  text% "\t...\n",
  text% "}\n",
  text% "\n",
  text% "InformationTransferID ::= INTEGER (0.. 1048575)\n",
  text% "\n",
  text% "InformationTransferType ::= CHOICE {\n",
  text% "\trNCTraceInformation\t\t\tRNCTraceInformation,\n",
  text% "\t...\n",
  text% "}\n",
  text% "\n",
  text% "IntegrityProtectionAlgorithm\t\t::= INTEGER {\n",
  text% "\tstandard-UMTS-integrity-algorithm-UIA1 (0), standard-UMTS-integrity-algorithm-UIA2 (1),\n",
  text% "\tno-value (15)\n",
  text% "} (0..15)\n",
  text% "\n",
  text% "IntegrityProtectionInformation ::= SEQUENCE {\n",
  text% "\tpermittedAlgorithms\t\tPermittedIntegrityProtectionAlgorithms,\n",
  text% "\tkey\t\t\t\tIntegrityProtectionKey,\n",
  text% "\tiE-Extensions\t\t\tIE-Extensions\t\t\tOPTIONAL\n",
  text% "}\n",
  text% "\n",
  text% "IntegrityProtectionKey\t\t\t::= BIT STRING (SIZE (128))\n",
  text% "\n",
  text% "InterSystemInformationTransferType ::= CHOICE {\n",
  text% "\trIM-Transfer\t\t\tRIM-Transfer,\n",
  text% "\t...\n",
  text% "}\n",
  text% "\n",
  text% "InterSystemInformation-TransparentContainer ::= SEQUENCE {\n",
  text% "\tdownlinkCellLoadInformation\tCellLoadInformation\t\tOPTIONAL,\n",
  text% "\tuplinkCellLoadInformation\tCellLoadInformation\t\tOPTIONAL,\n",
  text% "\tiE-Extensions\t\t\tIE-Extensions \t\t\tOPTIONAL,\n",
  text% "\t...\n",
  text% "}\n",
  text% "\n",
  text% "IPMulticastAddress ::= OCTET STRING (SIZE (4..16))\n",
  text% "-- Reference: 23.003\n",
  text% "\n",
  text% "IuSignallingConnectionIdentifier\t::= BIT STRING (SIZE (24))\n",
  text% "\n",
  text% "IuTransportAssociation ::= CHOICE {\n",
  text% "\tgTP-TEI\t\t\t\tGTP-TEI,\n",
  text% "\tbindingID\t\t\tBindingID,\n",
  text% "\t...\n",
  text% "}\n",
  text% "\n",
  text% "-- J\n",
  text% "-- K\n",
  text% "\n",
  text% "KeyStatus\t::= ENUMERATED {\n",
  text% "\told,\n",
  text% "\tnew,\n",
  text% "\t...\n",
  text% "}\n",
  text% "-- L\n",
  text% "\n",
  text% "LA-LIST ::= SEQUENCE (SIZE (1..maxNrOfLAs)) OF LA-LIST-Value\n",
  text% "LA-LIST-Value ::=\n",
  text% "\tSEQUENCE {\n",
  text% "\t\tlAC\t\t\tLAC,\n",
  text% "\t\tlistOF-SNAs\t\tListOF-SNAs,\n",
  text% "\t\tiE-Extensions\t\tIE-Extensions \t\t\tOPTIONAL,\n",
  text% "\t\t...\n",
  text% "\t}\n",
  text% "\n",
  text% "LAC\t\t\t\t\t::= OCTET STRING (SIZE (2))\n",
  text% "\n",
  text% "LAI ::= SEQUENCE {\n",
  text% "\tpLMNidentity\t\t\tPLMNidentity,\n",
  text% "\tlAC\t\t\t\tLAC,\n",
  text% "\tiE-Extensions\t\t\tIE-Extensions \t\t\tOPTIONAL\n",
  text% "}\n",
  text% "\n",
  text% "LastKnownServiceArea\t::= SEQUENCE {\n",
  text% "\tsAI\t\tSAI,\n",
  text% "\tageOfSAI\tINTEGER (0..32767),\n",
  text% "\tiE-Extensions\tIE-Extensions \t\t\tOPTIONAL,\n",
  text% "\t...\n",
  text% "}\n",
  text% "\n",
  text% "LastVisitedUTRANCell-Item ::= SEQUENCE {\n",
  text% "\tuTRAN-CellID\t\tUTRAN-CellID,\n",
  text% "\tcellType\t\tCellType,\n",
  text% "\ttime-UE-StayedInCell\tTime-UE-StayedInCell,\n",
  text% "\tiE-Extensions\t\tIE-Extensions \t\t\tOPTIONAL,\n",
  text% "\t...\n",
  text% "}\n",
  text% "\n",
  text% "LHN-ID ::= OCTET STRING (SIZE (32..256))\n",
  text% "\n",
  text% "Links-to-log ::= ENUMERATED {uplink, downlink, both-uplink-and-downlink, ...}\n",
  text% "\n",
  text% "ListOF-SNAs ::= SEQUENCE (SIZE (1..maxNrOfSNAs)) OF SNAC\n",
  text% "\n",
  text% "ListOfInterfacesToTrace ::= SEQUENCE (SIZE (1..maxNrOfInterfaces)) OF InterfacesToTraceItem\n",
  text% "\n",
  text% "InterfacesToTraceItem ::= SEQUENCE {\n",
  text% "\tinterface\tENUMERATED {iu-cs, iu-ps, iur, iub, uu, ...},\n",
  text% "\tiE-Extensions\tIE-Extensions \t\t\tOPTIONAL,\n",
  text% "\t...\n",
  text% "}\n",
  text% "\n",
  text% "LoadValue\t::= INTEGER (0..100)\n",
  text% "\n",
  text% "LocationRelatedDataRequestType\t::= SEQUENCE {\n",
  text% "\trequestedLocationRelatedDataType\tRequestedLocationRelatedDataType,\n",
  text% "\trequestedGPSAssistanceData\t\tRequestedGPSAssistanceData\tOPTIONAL,\n",
  text% "\t-- This IE shall be present if the Requested Location Related Data Type IE is set to ‘Dedicated Assistance Data for Assisted GPS’ or\n",
  text% "\t-- `Dedicated Assistance Data for Assisted GPS and GANSS’\n",
  text% "\t...\n",
  text% "}\n",
  text% "\n",
  text% "LocationRelatedDataRequestTypeSpecificToGERANIuMode\t::= ENUMERATED {\n",
  text% "\tdecipheringKeysEOTD,\n",
  text% "\tdedicatedMobileAssistedEOTDAssistanceData,\n",
  text% "\tdedicatedMobileBasedEOTDAssistanceData,\n",
  text% "\t...\n",
  text% "}\n",
  text% "\n",
  text% "LocationReportingTransferInformation\t::=\tSEQUENCE {\n",
  text% "\treportChangeOfSAI\t\tReportChangeOfSAI\t\tOPTIONAL,\n",
  text% "\tperiodicReportingIndicator\tPeriodicReportingIndicator\tOPTIONAL,\n",
  text% "\tdirectReportingIndicator\tDirectReportingIndicator\tOPTIONAL,\n",
  text% "\tverticalAccuracyCode\t\tVerticalAccuracyCode\t\tOPTIONAL,\n",
  text% "\tpositioningPriorityChangeSAI\tPositioningPriority\t\tOPTIONAL,\n",
  text% "\tpositioningPriorityDirect\tPositioningPriority\t\tOPTIONAL,\n",
  text% "\tclientTypePeriodic\t\tClientType\t\t\tOPTIONAL,\n",
  text% "\tclientTypeDirect\t\tClientType\t\t\tOPTIONAL,\n",
  text% "\tresponseTime\t\t\tResponseTime\t\t\tOPTIONAL,\n",
  text% "\tincludeVelocity\t\t\tIncludeVelocity\t\t\tOPTIONAL,\n",
  text% "\tperiodicLocationInfo\t\tPeriodicLocationInfo\t\tOPTIONAL,\n",
  text% "\tiE-Extensions\t\t\tIE-Extensions \t\t\tOPTIONAL,\n",
  text% "\t...\n",
  text% "}\n",
  text% "\n",
  text% "ReportChangeOfSAI ::=\tENUMERATED {\n",
  text% "\trequested,\n",
  text% "\t...\n",
  text% "}\n",
  text% "\n",
  text% "PeriodicReportingIndicator ::=\tENUMERATED {\n",
  text% "\tperiodicSAI,\n",
  text% "\tperiodicGeo,\n",
  text% "\t...\n",
  text% "}\n",
  text% "\n",
  text% "DirectReportingIndicator ::=\tENUMERATED {\n",
  text% "\tdirectSAI,\n",
  text% "\tdirectGeo,\n",
  text% "\t...\n",
  text% "}\n",
  text% "\n",
  text% "L3-Information\t::= OCTET STRING\n",
  text% "\n",
  text% "-- M\n",
  text% "\n",
  text% "M1Report\t::= CHOICE {\n",
  text% "\tperiodic\t\t\tMDT-Report-Parameters,\n",
  text% "\tevent1F\t\t\t\tEvent1F-Parameters,\n",
  text% "\t...\n",
  text% "}\n",
  text% "\n",
  text% "M2Report\t::= CHOICE {\n",
  text% "\tperiodic\t\t\tMDT-Report-Parameters,\n",
  text% "\tevent1I\t\t\t\tEvent1I-Parameters,\n",
  text% "\t...\n",
  text% "}\n",
  text% "\n",
  text% "M4Report\t::= CHOICE {\n",
  text% "\tall\t\t\t\tNULL,\n",
  text% "\tm4-collection-parameters\tM4-Collection-Parameters,\n",
  text% "\t...\n",
  text% "}\n",
  text% "\n",
  text% "M4-Collection-Parameters ::= SEQUENCE {\n",
  text% "\tm4-period\tM4-Period,\n",
  text% "\tm4-threshold\tM4-Threshold\tOPTIONAL,\n",
  text% "\tiE-Extensions\tIE-Extensions \tOPTIONAL,\n",
  text% "\t...\n",
  text% "}\n",
  text% "\n",
  text% "M4-Period  ::= ENUMERATED {ms100, ms250, ms500, ms1000, ms2000, ms3000, ms4000, ms6000, ...}\n",
  text% "\n",
  text% "\n",
  text% "M4-Threshold ::= INTEGER (0..31)\n",
  text% "\n",
  text% "\n",
  text% "M5Report\t::= CHOICE {\n",
  text% "\twhen-available\tNULL,\n",
  text% "\tm5-period\tM5-Period,\n",
  text% "\t...\n",
  text% "}\n",
  text% "M5-Period ::= ENUMERATED {ms100, ms250, ms500, ms1000, ms2000, ms3000, ms4000, ms6000, ...}\n",
  text% "\n",
  text% "\n",
  text% "\n",
  text% "M6Report ::= SEQUENCE {\n",
  text% "\tm6-period\tM6-Period,\n",
  text% "\tm6-links-to-log\tLinks-to-log,\n",
  text% "\tiE-Extensions\tIE-Extensions \tOPTIONAL,\n",
  text% "\t...\n",
  text% "}\n",
  text% "\n",
  text% "M6-Period ::= ENUMERATED {ms1000, ms2000, ms3000, ms4000, ms6000, ms8000, ms12000, ms16000, ms20000, ms24000, ms28000, ms32000, ms64000, ...}\n",
  text% "\n",
  text% "M7Report ::= SEQUENCE {\n",
  text% "\tm7-period\tM7-Period,\n",
  text% "\tm7-links-to-log\tLinks-to-log,\n",
  text% "\tiE-Extensions\tIE-Extensions \tOPTIONAL,\n",
  text% "\t...\n",
  text% "}\n",
  text% "\n",
  text% "M7-Period ::= ENUMERATED {ms1000, ms2000, ms3000, ms4000, ms6000, ms8000, ms12000, ms16000, ms20000, ms24000, ms28000, ms32000, ms64000, ...}\n",
  text% "\n",
  text% "Management-Based-MDT-Allowed ::= ENUMERATED { \n",
  text% "\tallowed, ... }\n",
  text% "\n",
  text% "MaxBitrate\t\t\t\t::= INTEGER (1..16000000)\n",
  text% "-- Unit is bits per sec\n",
  text% "\n",
  text% "MaxSDU-Size\t\t\t\t::= INTEGER (0..32768)\n",
  text% "-- MaxSDU-Size\n",
  text% "-- Unit isBIT STRING (SIZE (8))\n",
  text% "\n",
  text% "MBMS-PTP-RAB-ID ::= BIT STRING (SIZE (8))\n",
  text% "\n",
  text% "MBMSBearerServiceType ::= ENUMERATED {\n",
  text% "\tmulticast,\n",
  text% "\tbroadcast,\n",
  text% "\t...\n",
  text% "}\n",
  text% "\n",
  text% "MBMSCNDe-Registration ::= ENUMERATED {\n",
  text% "\tnormalsessionstop,\n",
  text% "\tderegister,\n",
  text% "\t...\n",
  text% "}\n",
  text% "\n",
  text% "\n",
  text% "MBMSCountingInformation ::= ENUMERATED {\n",
  text% "\tcounting,\n",
  text% "\tnotcounting,\n",
  text% "\t...\n",
  text% "}\n",
  text% "\n",
  text% "MBMSHCIndicator ::= ENUMERATED {\n",
  text% "\tuncompressed-header,\n",
  text% "\tcompressed-header,\n",
  text% "\t...\n",
  text% "}\n",
  text% "\n",
  text% "MBMSIPMulticastAddressandAPNRequest ::= SEQUENCE (SIZE (1..maxnoofMulticastServicesPerRNC)) OF\n",
  text% "\tTMGI\n",
  text% "\n",
  text% "MBMSLinkingInformation ::= ENUMERATED {\n",
  text% "\tuE-has-joined-multicast-services,\n",
  text% "\t...\n",
  text% "}\n",
  text% "\n",
  text% "MBMSRegistrationRequestType ::= ENUMERATED {\n",
  text% "\tregister,\n",
  text% "\tderegister,\n",
  text% "\t...\n",
  text% "}\n",
  text% "\n",
  text% "MBMSServiceArea ::= OCTET STRING\n",
  text% "\n",
  text% "MBMSSessionDuration ::= OCTET STRING (SIZE (3))\n",
  text% "\n",
  text% "\n",
  text% "\n",
  text% "MBMSSessionIdentity ::= OCTET STRING (SIZE (1))\n",
  text% "\n",
  text% "MBMSSessionRepetitionNumber ::= OCTET STRING (SIZE (1))\n",
  text% "\n",
  text% "MDT-Activation\t::= ENUMERATED {\n",
  text% "\timmediateMDTonly,\n",
  text% "\tloggedMDTonly,\n",
  text% "\timmediateMDTandTrace,\n",
  text% "\t...\n",
  text% "}\n",
  text% "\n",
  text% "MDTAreaScope ::= CHOICE {\n",
  text% "\tcellbased\tCellBased,\n",
  text% "\tlabased\t\tLABased,\n",
  text% "\trabased\t\tRABased,\n",
  text% "\tplmn-area-based\tNULL,\n",
  text% "\t...\n",
  text% "}\n",
  text% "\n",
  text% "MDT-Configuration\t::= SEQUENCE {\n",
  text% "\tmdtActivation\t\tMDT-Activation,\n",
  text% "\tmdtAreaScope\t\tMDTAreaScope,\n",
  text% "\tmdtMode\t\t\tMDTMode,\n",
  text% "\tiE-Extensions\t\tIE-Extensions \tOPTIONAL,\n",
  text% "\t...\n",
  text% "}\n",
  text% "\n",
  text% "MDTMode\t::= CHOICE {\n",
  text% "\timmediateMDT\t\tImmediateMDT,\n",
  text% "\tloggedMDT\t\tLoggedMDT,\n",
  text% "\t...\n",
  text% "}\n",
  text% "\n",
  text% "MDT-PLMN-List ::= SEQUENCE (SIZE (1..maxnoofMDTPLMNs)) OF PLMNidentity\n",
  text% "\n",
  text% "MDT-Report-Parameters ::= SEQUENCE {\n",
  text% "\treportInterval\tReportInterval,\n",
  text% "\treportAmount\tReportAmount,\n",
  text% "\t...\n",
  text% "}\n",
  text% "\n",
  text% "MeasurementQuantity ::= ENUMERATED {\n",
  text% "\tcpichEcNo,\n",
  text% "\tcpichRSCP,\n",
  text% "\tpathloss,\n",
  text% "\t...\n",
  text% "}\n",
  text% "\n",
  text% "MeasurementsToActivate::= BIT STRING (SIZE (8))\n",
  text% "\n",
  text% "MSISDN ::= OCTET STRING (SIZE (1..9))\n",
  text% "\n",
  text% "-- N\n",
  text% "\n",
  text% "\n",
  text% "NAS-PDU\t\t\t\t::= OCTET STRING\n",
  text% "\n",
  text% "NAS-SequenceNumber\t\t::= BIT STRING (SIZE (2))\n",
  text% "-- Reference: 24.008\n",
  text% "\n",
  text% "NAS-SynchronisationIndicator\t::= BIT STRING (SIZE (4))\n",
  text% "\n",
  text% "NewBSS-To-OldBSS-Information\t::= OCTET STRING\n",
  text% "\n",
  text% "NonSearchingIndication ::= ENUMERATED {\n",
  text% "\tnon-searching,\n",
  text% "\tsearching\n",
  text% "}\n",
  text% "\n",
  text% "NRTLoadInformationValue\t::= INTEGER (0..3)\n",
  text% "\n",
  text% "NumberOfIuInstances\t::= INTEGER (1..2)\n",
  text% "\n",
  text% "NumberOfSteps\t\t::= INTEGER (1..16)\n",
  text% "\n",
  text% "-- O\n",
  text% "\n",
  text% "Offload-RAB-Parameters ::= SEQUENCE {\n",
  text% "\taccessPointName\t\t\tOffload-RAB-Parameters-APN,\n",
  text% "\tchargingCharacteristics\t\tOffload-RAB-Parameters-ChargingCharacteristics,\n",
  text% "\tiE-Extensions\t\t\tIE-Extensions \tOPTIONAL,\n",
  text% "\t...\n",
  text% "}\n",
  text% "\n",
  text% "Offload-RAB-Parameters-APN ::= OCTET STRING (SIZE (1..255))\n",
  text% "\n",
  text% "Offload-RAB-Parameters-ChargingCharacteristics ::= OCTET STRING (SIZE (2))\n",
  text% "\n",
  text% "OldBSS-ToNewBSS-Information\t\t::= OCTET STRING\n",
  text% "\n",
  text% "OMC-ID\t\t\t\t\t::= OCTET STRING (SIZE (3..22))\n",
  text% "-- Reference: GSM TS 12.20 [25]\n",
  text% "\n",
  text% "Out-Of-UTRAN ::= ENUMERATED{\n",
  text% "\tcell-reselection-to-EUTRAN,\n",
  text% "\t...\n",
  text% "}\n",
  text% "\n",
  text% "-- P\n",
  text% "\n",
  text% "PagingAreaID ::= CHOICE {\n",
  text% "\tlAI\t\t\t\tLAI,\n",
  text% "\trAI\t\t\t\tRAI,\n",
  text% "\t...\n",
  text% "}\n",
  text% "\n",
  text% "PagingCause ::= ENUMERATED {\n",
  text% "\tterminating-conversational-call,\n",
  text% "\tterminating-streaming-call,\n",
  text% "\tterminating-interactive-call,\n",
  text% "\tterminating-background-call,\n",
  text% "\tterminating-low-priority-signalling,\n",
  text% "\t...,\n",
  text% "\tterminating-high-priority-signalling\n",
  text% "}\n",
  text% "\n",
  text% "PDP-TypeInformation ::= SEQUENCE (SIZE (1..maxNrOfPDPDirections)) OF\n",
  text% "\tPDP-Type\n",
  text% "\n",
  text% "PDP-Type ::= ENUMERATED {\n",
  text% "\tempty,\n",
  text% "\tppp,\n",
  text% "\tosp-ihoss\t-- this value shall not be used -- ,\n",
  text% "\tipv4,\n",
  text% "\tipv6,\n",
  text% "\t...\n",
  text% "}\n",
  text% "\n",
  text% "PDP-TypeInformation-extension ::= SEQUENCE (SIZE (1..maxNrOfPDPDirections)) OF\n",
  text% "\tPDP-Type-extension\n",
  text% "\n",
  text% "PDP-Type-extension ::= ENUMERATED {\n",
  text% "\tipv4-and-ipv6,\n",
  text% "\t...\n",
  text% "}\n",
  text% "\n",
  text% "PDUType14FrameSequenceNumber\t\t::=\tINTEGER(0..3)\n",
  text% "\n",
  text% "PeriodicLocationInfo ::= SEQUENCE {\n",
  text% "\treportingAmount\t\tINTEGER (1..8639999, ...),\n",
  text% "\treportingInterval\tINTEGER (1..8639999, ...),\n",
  text% "\tiE-Extensions\t\tIE-Extensions \tOPTIONAL,\n",
  text% "\t...\n",
  text% "}\n",
  text% "\n",
  text% "PermanentNAS-UE-ID ::= CHOICE {\n",
  text% "\tiMSI\t\t\tIMSI,\n",
  text% "\t...\n",
  text% "}\n",
  text% "\n",
  text% "PermittedEncryptionAlgorithms ::= SEQUENCE (SIZE (1..16)) OF\n",
  text% "\tEncryptionAlgorithm\n",
  text% "\n",
  text% "PermittedIntegrityProtectionAlgorithms ::= SEQUENCE (SIZE (1..16)) OF\n",
  text% "\tIntegrityProtectionAlgorithm\n",
  text% "\n",
  text% "LABased\t::= SEQUENCE {\n",
  text% "\tlaiList\t\t\tLAI-List,\n",
  text% "\tiE-Extensions\t\tIE-Extensions \tOPTIONAL,\n",
  text% "\t...\n",
  text% "}\n",
  text% "\n",
  text% "LAI-List\t::= SEQUENCE (SIZE (1..maxNrOfLAIs)) OF\n",
  text% "\tLAI\n",
  text% "\n",
  text% "\n",
  text% "\n",
  text% "LoggedMDT\t::=\tSEQUENCE {\n",
  text% "\tloggingInterval\t\tLoggingInterval,\n",
  text% "\tloggingDuration\t\tLoggingDuration,\n",
  text% "\tiE-Extensions\t\tIE-Extensions \tOPTIONAL,\n",
  text% "\t...\n",
  text% "}\n",
  text% "\n",
  text% "LoggingInterval\t::=\tENUMERATED {\n",
  text% "\ts1d28,\n",
  text% "\ts2d56,\n",
  text% "\ts5d12,\n",
  text% "\ts10d24,\n",
  text% "\ts20d48,\n",
  text% "\ts30d72,\n",
  text% "\ts40d96,\n",
  text% "\ts61d44,\n",
  text% "\t...\n",
  text% "\t}\n",
  text% "\n",
  text% "LoggingDuration\t::=\tENUMERATED {\n",
  text% "\t\tmin10,\n",
  text% "\t\tmin20,\n",
  text% "\t\tmin40,\n",
  text% "\t\tmin60,\n",
  text% "\t\tmin90,\n",
  text% "\t\tmin120,\n",
  text% "...}\n",
  text% "\n",
  text% "\n",
  text% "\n",
  text% "PLMNidentity \t\t\t\t::= OCTET STRING (SIZE (3))\n",
  text% "\n",
  text% "PLMNs-in-shared-network ::= SEQUENCE (SIZE (1..maxNrOfPLMNsSN)) OF PLMNs-in-shared-network-Value\n",
  text% "PLMNs-in-shared-network-Value ::=\n",
  text% "\tSEQUENCE {\n",
  text% "\t\tpLMNidentity\tPLMNidentity,\n",
  text% "\t\tlA-LIST\t\tLA-LIST,\n",
  text% "\t\tiE-Extensions\tIE-Extensions \tOPTIONAL,\n",
  text% "\t\t...\n",
  text% "\t}\n",
  text% "\n",
  text% "Port-Number ::= OCTET STRING (SIZE (2))\n",
  text% "\n",
  text% "PositioningDataDiscriminator ::= BIT STRING (SIZE(4))\n",
  text% "\n",
  text% "PositioningDataSet ::= SEQUENCE(SIZE(1..maxSet)) OF PositioningMethodAndUsage\n",
  text% "\n",
  text% "PositioningMethodAndUsage ::= OCTET STRING (SIZE(1))\n",
  text% "\n",
  text% "PositioningPriority\t::= ENUMERATED {\n",
  text% "\thigh-Priority,\n",
  text% "\tnormal-Priority,\n",
  text% "...\n",
  text% "}\n",
  text% "\n",
  text% "PositionData ::= SEQUENCE {\n",
  text% "\tpositioningDataDiscriminator\tPositioningDataDiscriminator,\n",
  text% "\tpositioningDataSet\t\tPositioningDataSet\t\t\tOPTIONAL,\n",
  text% "-- This IE shall be present if the PositioningDataDiscriminator IE is set to the value \"0000\" --\n",
  text% "\tiE-Extensions\t\t\tIE-Extensions \tOPTIONAL,\n",
  text% "\t...\n",
  text% "}\n",
  text% "\n",
  text% "PositionDataSpecificToGERANIuMode ::= OCTET STRING\n",
  text% "\n",
  text% "Pre-emptionCapability ::= ENUMERATED {\n",
  text% "\tshall-not-trigger-pre-emption,\n",
  text% "\tmay-trigger-pre-emption\n",
  text% "}\n",
  text% "\n",
  text% "Pre-emptionVulnerability ::= ENUMERATED {\n",
  text% "\tnot-pre-emptable,\n",
  text% "\tpre-emptable\n",
  text% "}\n",
  text% "\n",
  text% "PriorityLevel\t::= INTEGER { spare (0), highest (1), lowest (14), no-priority (15) } (0..15)\n",
  text% "\n",
  text% "Priority-Class-Indicator ::= BIT STRING (SIZE(8))\n",
  text% "\n",
  text% "ProvidedData ::= CHOICE {\n",
  text% "\tshared-network-information\tShared-Network-Information,\n",
  text% "\t...\n",
  text% "}\n",
  text% "\n",
  text% "P-TMSI\t::= OCTET STRING (SIZE (4))\n",
  text% "\n",
  text% "-- Q\n",
  text% "\n",
  text% "QueuingAllowed ::= ENUMERATED {\n",
  text% "\tqueueing-not-allowed,\n",
  text% "\tqueueing-allowed\n",
  text% "}\n",
  text% "\n",
  text% "-- R\n",
  text% "RAB-AsymmetryIndicator::= ENUMERATED {\n",
  text% "\tsymmetric-bidirectional,\n",
  text% "\tasymmetric-unidirectional-downlink,\n",
  text% "\tasymmetric-unidirectional-uplink,\n",
  text% "\tasymmetric-bidirectional,\n",
  text% "\t...\n",
  text% "}\n",
  text% "\n",
  text% "RABased\t::= SEQUENCE {\n",
  text% "\traiList\t\tRAI-List,\n",
  text% "\tiE-Extensions\tIE-Extensions \tOPTIONAL,\n",
  text% "\t...\n",
  text% "}\n",
  text% "\n",
  text% "RAI-List\t::= SEQUENCE (SIZE (1..maxNrOfRAIs)) OF\n",
  text% "\tRAI\n",
  text% "\n",
  text% "RABDataVolumeReport ::= SEQUENCE (SIZE (1..maxNrOfVol)) OF RABDataVolumeReport-Value\n",
  text% "RABDataVolumeReport-Value ::=\n",
  text% "\tSEQUENCE {\n",
  text% "\t\tdl-UnsuccessfullyTransmittedDataVolume\tUnsuccessfullyTransmittedDataVolume,\n",
  text% "\t\tdataVolumeReference\t\t\tDataVolumeReference\tOPTIONAL,\n",
  text% "\t\tiE-Extensions\t\t\t\tIE-Extensions \t\tOPTIONAL,\n",
  text% "\t\t...\n",
  text% "\t}\n",
  text% "\n",
  text% "RAB-ID\t::= BIT STRING (SIZE (8))\n",
  text% "\n",
  text% "RAB-Parameter-ExtendedGuaranteedBitrateList\t::= SEQUENCE (SIZE (1..maxNrOfSeparateTrafficDirections)) OF ExtendedGuaranteedBitrate\n",
  text% "\n",
  text% "RAB-Parameter-ExtendedMaxBitrateList\t\t::= SEQUENCE (SIZE (1..maxNrOfSeparateTrafficDirections)) OF ExtendedMaxBitrate\n",
  text% "\n",
  text% "\n",
  text% "RAB-Parameter-GuaranteedBitrateList\t::= SEQUENCE (SIZE (1..maxNrOfSeparateTrafficDirections)) OF GuaranteedBitrate\n",
  text% "--This IE shall be ignored if Supported Guaranteed Bit rate is present--\n",
  text% "\n",
  text% "RAB-Parameter-MaxBitrateList\t\t::= SEQUENCE (SIZE (1..maxNrOfSeparateTrafficDirections)) OF MaxBitrate\n",
  text% "--This IE shall be ignored if Supported Maximum Bit rate is present--\n",
  text% "\n",
  text% "RAB-Parameters ::= SEQUENCE {\n",
  text% "\ttrafficClass\t\t\tTrafficClass,\n",
  text% "\trAB-AsymmetryIndicator\t\tRAB-AsymmetryIndicator,\n",
  text% "\tmaxBitrate\t\t\tRAB-Parameter-MaxBitrateList,\n",
  text% "\tguaranteedBitRate\t\tRAB-Parameter-GuaranteedBitrateList OPTIONAL\n",
  text% "\t-- This IE shall be present the traffic class IE is set to \"Conversational\" or \"Streaming\" --,\n",
  text% "\tdeliveryOrder\t\t\tDeliveryOrder,\n",
  text% "\tmaxSDU-Size\t\t\tMaxSDU-Size,\n",
  text% "\tsDU-Parameters\t\t\tSDU-Parameters,\n",
  text% "\ttransferDelay\t\t\tTransferDelay OPTIONAL\n",
  text% "\t-- This IE shall be present the traffic class IE is set to \"Conversational\" or \"Streaming\" --,\n",
  text% "\ttrafficHandlingPriority\t\tTrafficHandlingPriority OPTIONAL\n",
  text% "\t-- This IE shall be present the traffic class IE is set to \"Interactive\" --,\n",
  text% "\tallocationOrRetentionPriority\tAllocationOrRetentionPriority OPTIONAL,\n",
  text% "\tsourceStatisticsDescriptor\tSourceStatisticsDescriptor OPTIONAL\n",
  text% "\t-- This IE shall be present the traffic class IE is set to \"Conversational\" or \"Streaming\" --,\n",
  text% "\trelocationRequirement\tRelocationRequirement OPTIONAL,\n",
  text% "\tiE-Extensions\t\t\tIE-Extensions OPTIONAL,\n",
  text% "\t...\n",
  text% "}\n",
  text% "\n",
  text% "RABParametersList\t::=\tSEQUENCE (SIZE (1.. maxNrOfRABs)) OF RABParametersList-Value\n",
  text% "RABParametersList-Value ::= SEQUENCE {\n",
  text% "\trab-Id\t\t\tRAB-ID,\n",
  text% "\tcn-domain\t\tCN-DomainIndicator,\n",
  text% "\trabDataVolumeReport\tRABDataVolumeReport\tOPTIONAL,\n",
  text% "\tupInformation\t\tUPInformation\tOPTIONAL,\n",
  text% "\tiE-Extensions\t\tIE-Extensions OPTIONAL,\n",
  text% "\t...\n",
  text% "}\n",
  text% "\n",
  text% "RAB-SubflowCombinationBitRate \t::= INTEGER (0..16000000)\n",
  text% "\n",
  text% "RAB-TrCH-Mapping ::=\tSEQUENCE ( SIZE (1..maxNrOfRABs)) OF\n",
  text% "\tRAB-TrCH-MappingItem\n",
  text% "\n",
  text% "RAB-TrCH-MappingItem ::= SEQUENCE {\n",
  text% "\trAB-ID\t\tRAB-ID,\n",
  text% "\ttrCH-ID-List\tTrCH-ID-List,\n",
  text% "\tiE-Extensions\tIE-Extensions OPTIONAL,\n",
  text% "\t...\n",
  text% "}\n",
  text% "\n",
  text% "RAC ::= OCTET STRING (SIZE (1))\n",
  text% "\n",
  text% "RAI ::= SEQUENCE {\n",
  text% "\tlAI\t\tLAI,\n",
  text% "\trAC\t\tRAC,\n",
  text% "\tiE-Extensions\tIE-Extensions OPTIONAL,\n",
  text% "\t...\n",
  text% "}\n",
  text% "\n",
  text% "RAListofIdleModeUEs ::= CHOICE {\n",
  text% "\tnotEmptyRAListofIdleModeUEs\tNotEmptyRAListofIdleModeUEs,\n",
  text% "\temptyFullRAListofIdleModeUEs\tENUMERATED {emptylist,fulllist,...},\n",
  text% "\t...\n",
  text% "}\n",
  text% "\n",
  text% "NotEmptyRAListofIdleModeUEs ::= SEQUENCE {\n",
  text% "\trAofIdleModeUEs\tRAofIdleModeUEs,\n",
  text% "\tiE-Extensions\tIE-Extensions OPTIONAL\n",
  text% "}\n",
  text% "\n",
  text% "RAofIdleModeUEs ::= SEQUENCE (SIZE (1..maxMBMSRA)) OF\n",
  text% "\tRAC\n",
  text% "\n",
  text% "LAListofIdleModeUEs ::= SEQUENCE (SIZE (1..maxMBMSRA)) OF\n",
  text% "\tLAI\n",
  text% "\n",
  text% "RAT-Type ::= ENUMERATED {\n",
  text% "\tutran,\n",
  text% "\tgeran,\n",
  text% "\t...\n",
  text% "}\n",
  text% "\n",
  text% "RateControlAllowed ::= ENUMERATED {\n",
  text% "\tnot-allowed,\n",
  text% "\tallowed\n",
  text% "}\n",
  text% "\n",
  text% "RedirectAttemptFlag \t::= NULL\n",
  text% "\n",
  text% "RedirectionCompleted\t::= ENUMERATED {\n",
  text% "\tredirection-completed,\n",
  text% "\t...\n",
  text% "}\n",
  text% "\n",
  text% "RejectCauseValue ::= ENUMERATED {\n",
  text% "\tpLMN-Not-Allowed,\n",
  text% "\tlocation-Area-Not-Allowed,\n",
  text% "\troaming-Not-Allowed-In-This-Location-Area,\n",
  text% "\tno-Suitable-Cell-In-Location-Area,\n",
  text% "\tgPRS-Services-Not-Allowed-In-This-PLMN,\n",
  text% "\tcS-PS-coordination-required,\n",
  text% "\t...,\n",
  text% "\tnetwork-failure,\n",
  text% "\tnot-authorized-for-this-CSG\n",
  text% "}\n",
  text% "\n",
  text% "\n",
  text% "RelocationRequirement ::= ENUMERATED {\n",
  text% "\tlossless,\n",
  text% "\tnone,\n",
  text% "\t...,\n",
  text% "\trealtime\n",
  text% "}\n",
  text% "\n",
  text% "RelocationType ::= ENUMERATED {\n",
  text% "\tue-not-involved,\n",
  text% "\tue-involved,\n",
  text% "\t...\n",
  text% "}\n",
  text% "\n",
  text% "RepetitionNumber0 ::= INTEGER (0..255)\n",
  text% "\n",
  text% "RepetitionNumber1 ::= INTEGER (1..256)\n",
  text% "\n",
  text% "\n",
  text% "ReportArea ::= ENUMERATED {\n",
  text% "\tservice-area,\n",
  text% "\tgeographical-area,\n",
  text% "\t...\n",
  text% "}\n",
  text% "\n",
  text% "ReportInterval\t\t::=\tENUMERATED {\n",
  text% "\tms250,\n",
  text% "\tms500,\n",
  text% "\tms1000,\n",
  text% "\tms2000,\n",
  text% "\tms3000,\n",
  text% "\tms4000,\n",
  text% "\tms6000,\n",
  text% "\tms12000,\n",
  text% "\tms16000,\n",
  text% "\tms20000,\n",
  text% "\tms24000,\n",
  text% "\tms32000,\n",
  text% "\tms64000,\n",
  text% "\t...,\n",
  text% "\tms8000,\n",
  text% "\tms28000\n",
  text% "}\n",
  text% "\n",
  text% "ReportAmount\t\t::=\tENUMERATED { n1, n2, n4, n8, n16, n32, n64, infinity, ... }\n",
  text% "\n",
  text% "RequestedGPSAssistanceData \t::= OCTET STRING (SIZE (1 .. 38 ))\n",
  text% "\t-- gpsAssistanceData as defined in 24.080 --\n",
  text% "\n",
  text% "RequestedGANSSAssistanceData \t::= OCTET STRING (SIZE (1 .. 201 ))\n",
  text% "\t-- ganssAssistanceData as defined in 24.080 --\n",
  text% "\n",
  text% "RequestedLocationRelatedDataType ::= ENUMERATED {\n",
  text% "\tdecipheringKeysUEBasedOTDOA,\n",
  text% "\tdecipheringKeysAssistedGPS,\n",
  text% "\tdedicatedAssistanceDataUEBasedOTDOA,\n",
  text% "\tdedicatedAssistanceDataAssistedGPS,\n",
  text% "\t...,\n",
  text% "-- Release 7 extension elements --\n",
  text% "\tdecipheringKeysAssistedGANSS,\n",
  text% "\tdedicatedAssistanceDataAssistedGANSS,\n",
  text% "\tdecipheringKeysAssistedGPSandGANSS,\n",
  text% "\tdedicatedAssistanceDataAssistedGPSandGANSS\n",
  text% "}\n",
  text% "\n",
  text% "RequestedMBMSIPMulticastAddressandAPNRequest ::= SEQUENCE (SIZE (1..maxnoofMulticastServicesPerRNC)) OF\n",
  text% "\tMBMSIPMulticastAddressandAPNlist\n",
  text% "\n",
  text% "MBMSIPMulticastAddressandAPNlist ::= SEQUENCE {\n",
  text% "\ttMGI\t\t\tTMGI,\n",
  text% "\tiPMulticastAddress\tIPMulticastAddress,\n",
  text% "\taPN\t\t\tAPN,\n",
  text% "\tiE-Extensions\t\tIE-Extensions OPTIONAL,\n",
  text% "\t...\n",
  text% "}\n",
  text% "\n",
  text% "RequestedMulticastServiceList ::= SEQUENCE (SIZE (1.. maxnoofMulticastServicesPerUE)) OF\n",
  text% "\tTMGI\n",
  text% "\n",
  text% "Requested-RAB-Parameter-Values ::= SEQUENCE {\n",
  text% "\trequestedMaxBitrates\t\tRequested-RAB-Parameter-MaxBitrateList\t\t\tOPTIONAL,\n",
  text% "\trequestedGuaranteedBitrates\tRequested-RAB-Parameter-GuaranteedBitrateList\t\t\tOPTIONAL,\n",
  text% "\tiE-Extensions\t\t\tIE-Extensions OPTIONAL,\n",
  text% "\t...\n",
  text% "}\n",
  text% "\n",
  text% "Requested-RAB-Parameter-ExtendedMaxBitrateList ::= SEQUENCE (SIZE (1..maxNrOfSeparateTrafficDirections)) OF ExtendedMaxBitrate\n",
  text% "\n",
  text% "Requested-RAB-Parameter-ExtendedGuaranteedBitrateList\t::= SEQUENCE (SIZE (1..maxNrOfSeparateTrafficDirections)) OF ExtendedGuaranteedBitrate\n",
  text% "\n",
  text% "Requested-RAB-Parameter-MaxBitrateList ::= SEQUENCE (SIZE (1..maxNrOfSeparateTrafficDirections)) OF MaxBitrate\n",
  text% "\n",
  text% "Requested-RAB-Parameter-GuaranteedBitrateList\t::= SEQUENCE (SIZE (1..maxNrOfSeparateTrafficDirections)) OF GuaranteedBitrate\n",
  text% "\n",
  text% "\n",
  text% "RequestType ::= SEQUENCE {\n",
  text% "\tevent\t\tEvent,\n",
  text% "\treportArea\tReportArea,\n",
  text% "\taccuracyCode\tINTEGER (0..127)\tOPTIONAL,\n",
  text% "\t...\n",
  text% "}\n",
  text% "\n",
  text% "ResidualBitErrorRatio ::= SEQUENCE {\n",
  text% "\tmantissa\tINTEGER (1..9),\n",
  text% "\texponent\tINTEGER (1..8),\n",
  text% "\tiE-Extensions\tIE-Extensions OPTIONAL\n",
  text% "}\n",
  text% "-- ResidualBitErrorRatio = mantissa * 10^-exponent\n",
  text% "\n",
  text% "ResponseTime\t::= ENUMERATED {\n",
  text% "\tlowdelay,\n",
  text% "\tdelaytolerant,\n",
  text% "\t...\n",
  text% "}\n",
  text% "\n",
  text% "RIMInformation\t::= OCTET STRING\n",
  text% "\n",
  text% "RIM-Transfer ::= SEQUENCE {\n",
  text% "\trIMInformation\t\tRIMInformation,\n",
  text% "\trIMRoutingAddress\tRIMRoutingAddress\tOPTIONAL,\n",
  text% "\tiE-Extensions\t\tIE-Extensions OPTIONAL\n",
  text% "}\n",
  text% "\n",
  text% "RIMRoutingAddress ::= CHOICE {\n",
  text% "\ttargetRNC-ID\t\tTargetRNC-ID,\n",
  text% "\tgERAN-Cell-ID\t\tGERAN-Cell-ID,\n",
  text% "\t... ,\n",
  text% "\ttargeteNB-ID\t\tTargetENB-ID\n",
  text% "}\n",
  text% "\n",
  text% "\n",
  text% "RNC-ID\t::= INTEGER (0..4095)\n",
  text% "-- RNC-ID\t\t\t\t\t::= BIT STRING (SIZE (12))\n",
  text% "-- Harmonized with RNSAP and NBAP definitions\n",
  text% "\n",
  text% "\n",
  text% "RNCTraceInformation::= SEQUENCE {\n",
  text% "\ttraceReference\t\t\tTraceReference,\n",
  text% "\ttraceActivationIndicato\t\tENUMERATED {activated,deactivated},\n",
  text% "\tequipmentsToBeTraced\t\tEquipmentsToBeTraced\t\t\t\t\t\tOPTIONAL,\n",
  text% "\t-- This IE shall be present if the Trace Activation Indicator IE is set to \"Activated\".\n",
  text% "\tiE-Extensions\t\t\tIE-Extensions OPTIONAL\n",
  text% "}\n",
  text% "\n",
  text% "RNSAPRelocationParameters ::=\tSEQUENCE {\n",
  text% "\trabParmetersList\tRABParametersList \t\t\tOPTIONAL,\n",
  text% "\tlocationReporting\tLocationReportingTransferInformation\tOPTIONAL,\n",
  text% "\ttraceInformation\tTraceInformation \t\t\tOPTIONAL,\n",
  text% "\tsourceSAI\t\tSAI\t\t\t\t\tOPTIONAL,\n",
  text% "\tiE-Extensions\t\tIE-Extensions OPTIONAL,\n",
  text% "\t...\n",
  text% "}\n",
  text% "\n",
  text% "RRC-Container\t::= OCTET STRING\n",
  text% "\n",
  text% "RTLoadValue\t::= INTEGER (0..100)\n",
  text% "\n",
  text% "RSRVCC-HO-Indication ::= ENUMERATED {\n",
  text% "\tps-only,\n",
  text% "\t...\n",
  text% "}\n",
  text% "\n",
  text% "RSRVCC-Information ::= SEQUENCE {\n",
  text% "\tnonce\t\tBIT STRING (SIZE (128)),\n",
  text% "\tiMSInformation\tOCTET STRING(SIZE(1.. maxSizeOfIMSInfo)),\n",
  text% "\tiE-Extensions\tIE-Extensions OPTIONAL,\n",
  text% "\t...\n",
  text% "\n",
  text% "}\n",
  text% "\n",
  text% "RSRVCC-Operation-Possible ::= ENUMERATED {\n",
  text% "\trsrvcc-possible,\n",
  text% "\t...\n",
  text% "}\n",
  text% "\n",
  text% "-- S\n",
  text% "\n",
  text% "SAC\t::= OCTET STRING (SIZE (2))\n",
  text% "SAI ::= SEQUENCE {\n",
  text% "\tpLMNidentity\tPLMNidentity,\n",
  text% "\tlAC\t\tLAC,\n",
  text% "\tsAC\t\tSAC,\n",
  text% "\tiE-Extensions\tIE-Extensions OPTIONAL\n",
  text% "}\n",
  text% "\n",
  text% "SAPI ::= ENUMERATED {\n",
  text% "\tsapi-0,\n",
  text% "\tsapi-3,\n",
  text% "\t...\n",
  text% "}\n",
  text% "\n",
  text% "SessionUpdateID ::= INTEGER (0.. 1048575)\n",
  text% "Shared-Network-Information ::= SEQUENCE {\n",
  text% "\tpLMNs-in-shared-network\t\tPLMNs-in-shared-network,\n",
  text% "\tiE-Extensions\t\t\tIE-Extensions OPTIONAL,\n",
  text% "\t...\n",
  text% "}\n",
  text% "\n",
  text% "Session-Re-establishment-Indicator\t::= ENUMERATED {true, ...}\n",
  text% "\n",
  text% "SignallingIndication ::= ENUMERATED {\n",
  text% "\tsignalling,\n",
  text% "\t...\n",
  text% "}\n",
  text% "\n",
  text% "SDU-ErrorRatio ::= SEQUENCE {\n",
  text% "\tmantissa\tINTEGER (1..9),\n",
  text% "\texponent\tINTEGER (1..6),\n",
  text% "\tiE-Extensions\tIE-Extensions OPTIONAL\n",
  text% "}\n",
  text% "-- SDU-ErrorRatio = mantissa * 10^-exponent\n",
  text% "\n",
  text% "SDU-FormatInformationParameters ::= SEQUENCE (SIZE (1..maxRAB-SubflowCombination)) OF SDU-FormatInformationParameterItem\n",
  text% "SDU-FormatInformationParameterItem ::=\n",
  text% "\tSEQUENCE {\n",
  text% "\t\tsubflowSDU-Size\t\t\tSubflowSDU-Size \tOPTIONAL,\n",
  text% "\t\trAB-SubflowCombinationBitRate\tRAB-SubflowCombinationBitRate \tOPTIONAL,\n",
  text% "\t\tiE-Extensions\t\t\tIE-Extensions \t\tOPTIONAL,\n",
  text% "\t\t...\n",
  text% "\t}\n",
  text% "\n",
  text% "SDU-Parameters ::= SEQUENCE (SIZE (1..maxRAB-Subflows)) OF SDU-ParameterItem\n",
  text% "SDU-ParameterItem ::=\n",
  text% "\tSEQUENCE {\n",
  text% "\t\tsDU-ErrorRatio\t\t\tSDU-ErrorRatio OPTIONAL\n",
  text% "\t\t-- This IE shall be present if the Delivery Of Erroneous SDU IE is set to \"Yes\" or \"No\" --,\n",
  text% "\t\tresidualBitErrorRatio\t\tResidualBitErrorRatio,\n",
  text% "\t\tdeliveryOfErroneousSDU\t\tDeliveryOfErroneousSDU,\n",
  text% "\t\tsDU-FormatInformationParameters\tSDU-FormatInformationParameters OPTIONAL,\n",
  text% "\t\tiE-Extensions\t\t\tIE-Extensions \t\tOPTIONAL,\n",
  text% "\t\t...\n",
  text% "\t}\n",
  text% "\n",
  text% "SNA-Access-Information ::= SEQUENCE {\n",
  text% "\t\tauthorisedPLMNs\tAuthorisedPLMNs,\n",
  text% "\t\tiE-Extensions\tIE-Extensions \t\tOPTIONAL,\n",
  text% "\t\t...\n",
  text% "\t}\n",
  text% "\n",
  text% "SNAC ::= INTEGER (0..65535)\n",
  text% "\n",
  text% "Service-Handover ::= ENUMERATED {\n",
  text% "\thandover-to-GSM-should-be-performed,\n",
  text% "\thandover-to-GSM-should-not-be-performed,\n",
  text% "\thandover-to-GSM-shall-not-be-performed,\n",
  text% "\t...\n",
  text% "}\n",
  text% "\n",
  text% "Source-ToTarget-TransparentContainer ::= OCTET STRING\n",
  text% "-- This IE is a transparent container, the IE shall be encoded not as an OCTET STRING but according to the type specifications of the target system.\n",
  text% "-- Note: In the current version of this specification, this IE may either carry the Source RNC to\n",
  text% "-- Target RNC Transparent Container or the Source eNB to Target eNB Transparent Container IE as\n",
  text% "-- defined in TS 36.413 [49]\n",
  text% "\n",
  text% "SourceeNodeB-ToTargeteNodeB-TransparentContainer ::= OCTET STRING\n",
  text% "\n",
  text% "\n",
  text% "SourceCellID ::= CHOICE {\n",
  text% "\tsourceUTRANCellID\tSourceUTRANCellID,\n",
  text% "\tsourceGERANCellID\tCGI,\n",
  text% "\t...\n",
  text% "}\n",
  text% "\n",
  text% "SourceBSS-ToTargetBSS-TransparentContainer\t\t::= OCTET STRING\n",
  text% "\n",
  text% "SourceID ::= CHOICE {\n",
  text% "\tsourceRNC-ID\tSourceRNC-ID,\n",
  text% "\tsAI\t\tSAI,\n",
  text% "\t...\n",
  text% "}\n",
  text% "\n",
  text% "\n",
  text% "SourceRNC-ID ::= SEQUENCE {\n",
  text% "\tpLMNidentity\tPLMNidentity,\n",
  text% "\trNC-ID\t\tRNC-ID,\n",
  text% "\tiE-Extensions\tIE-Extensions \t\tOPTIONAL\n",
  text% "}\n",
  text% "\n",
  text% "SourceRNC-ToTargetRNC-TransparentContainer ::= SEQUENCE {\n",
  text% "\trRC-Container\t\t\tRRC-Container,\n",
  text% "\tnumberOfIuInstances\t\tNumberOfIuInstances,\n",
  text% "\trelocationType \t\t\tRelocationType,\n",
  text% "\tchosenIntegrityProtectionAlgorithm ChosenIntegrityProtectionAlgorithm\tOPTIONAL,\n",
  text% "\tintegrityProtectionKey\t\tIntegrityProtectionKey\t\t\tOPTIONAL,\n",
  text% "\tchosenEncryptionAlgorithForSignalling ChosenEncryptionAlgorithm\t\tOPTIONAL,\n",
  text% "\tcipheringKey\t\t\tEncryptionKey\t\t\t\tOPTIONAL,\n",
  text% "\tchosenEncryptionAlgorithForCS\tChosenEncryptionAlgorithm\t\tOPTIONAL,\n",
  text% "\tchosenEncryptionAlgorithForPS\tChosenEncryptionAlgorithm\t\tOPTIONAL,\n",
  text% "\td-RNTI\t\t\t\tD-RNTI \t\t\t\t\tOPTIONAL\n",
  text% "\t-- This IE shall be present if the Relocation type IE is set to \"UE not involved in relocation of SRNS\" --,\n",
  text% "\ttargetCellId\t\t\tTargetCellId\t\t\t\tOPTIONAL\n",
  text% "\t-- This IE shall be present if the Relocation type IE is set to \"UE involved in relocation of SRNS\" --,\n",
  text% "\trAB-TrCH-Mapping\t\tRAB-TrCH-Mapping\t\t\tOPTIONAL,\n",
  text% "\tiE-Extensions\t\t\tIE-Extensions \t\t\t\tOPTIONAL,\n",
  text% "\t...\n",
  text% "}\n",
  text% "\n",
  text% "IRAT-Measurement-Configuration ::= SEQUENCE {\n",
  text% "\trSRP\t\t\t\tINTEGER (0..97)\t\t\tOPTIONAL,\n",
  text% "\trSRQ\t\t\t\tINTEGER (0..34)\t\t\tOPTIONAL,\n",
  text% "\tiRATmeasurementParameters\tIRATmeasurementParameters,\n",
  text% "\tiE-Extensions\t\t\tIE-Extensions OPTIONAL}\n",
  text% "\n",
  text% "IRATmeasurementParameters::= SEQUENCE {\n",
  text% "\tmeasurementDuration\tINTEGER (1..100),\n",
  text% "\teUTRANFrequencies\tEUTRANFrequencies\t\tOPTIONAL,\n",
  text% "\tiE-Extensions\t\tIE-Extensions OPTIONAL}\n",
  text% "\n",
  text% "RSRQ-Type ::= SEQUENCE {\n",
  text% "\tallSymbols\t\tBOOLEAN,\n",
  text% "\twideBand\t\tBOOLEAN\n",
  text% "}\n",
  text% "\n",
  text% "RSRQ-Extension ::= INTEGER (-30..46, ...)\n",
  text% "\n",
  text% "EUTRANFrequencies ::= SEQUENCE (SIZE (1..maxNrOfEUTRAFreqs)) OF EUTRANFrequencies-Value\n",
  text% "EUTRANFrequencies-Value ::= SEQUENCE {\n",
  text% "\tearfcn\t\t\tINTEGER (0..65535),\n",
  text% "\tmeasBand\t\tMeasBand\t\t\tOPTIONAL,\n",
  text% "\tiE-Extensions\t\tIE-Extensions OPTIONAL}\n",
  text% "\n",
  text% "MeasBand ::= ENUMERATED {\n",
  text% "\tv6,\n",
  text% "\tv15,\n",
  text% "\tv25,\n",
  text% "\tv50,\n",
  text% "\tv75,\n",
  text% "\tv100\n",
  text% "}\n",
  text% "\n",
  text% "SubscriberProfileIDforRFP ::= INTEGER (1..256)\n",
  text% "\n",
  text% "SourceStatisticsDescriptor ::= ENUMERATED {\n",
  text% "\tspeech,\n",
  text% "\tunknown,\n",
  text% "\t...\n",
  text% "}\n",
  text% "\n",
  text% "SupportedRAB-ParameterBitrateList ::= SEQUENCE (SIZE (1..maxNrOfSeparateTrafficDirections)) OF SupportedBitrate\n",
  text% "\n",
  text% "SupportedBitrate ::= INTEGER (1..1000000000, ...)\n",
  text% "-- Unit is bits per sec\n",
  text% "\n",
  text% "SourceUTRANCellID ::= SEQUENCE {\n",
  text% "\tpLMNidentity\tPLMNidentity,\n",
  text% "\tuTRANcellID\tTargetCellId,\n",
  text% "\tiE-Extensions\tIE-Extensions OPTIONAL\n",
  text% "}\n",
  text% "\n",
  text% "SRB-ID ::= INTEGER (1..32)\n",
  text% "\n",
  text% "SRB-TrCH-Mapping ::=\tSEQUENCE ( SIZE (1..maxNrOfSRBs)) OF\n",
  text% "\tSRB-TrCH-MappingItem\n",
  text% "\n",
  text% "SRB-TrCH-MappingItem ::= SEQUENCE {\n",
  text% "\tsRB-ID\t\tSRB-ID,\n",
  text% "\ttrCH-ID\t\tTrCH-ID,\n",
  text% "\tiE-Extensions\tIE-Extensions OPTIONAL,\n",
  text% "\t...\n",
  text% "}\n",
  text% "\n",
  text% "\n",
  text% "SRVCC-HO-Indication ::= ENUMERATED {\n",
  text% "\tps-and-cs,\n",
  text% "\tcs-only,\n",
  text% "\t...\n",
  text% "}\n",
  text% "\n",
  text% "SRVCC-Information ::= SEQUENCE {\n",
  text% "\tnonce\t\tBIT STRING (SIZE (128)),\n",
  text% "\tiE-Extensions\tIE-Extensions OPTIONAL,\n",
  text% "\t...\n",
  text% "}\n",
  text% "\n",
  text% "SRVCC-Operation-Possible ::= ENUMERATED {\n",
  text% "\tsrvcc-possible,\n",
  text% "\t...\n",
  text% "}\n",
  text% "\n",
  text% "SubflowSDU-Size\t\t\t\t::= INTEGER (0..4095)\n",
  text% "-- Unit is bit\n",
  text% "\n",
  text% "\n",
  text% "-- T\n",
  text% "TAC ::= OCTET STRING (SIZE (2))\n",
  text% "\n",
  text% "TAI ::= SEQUENCE {\n",
  text% "\tpLMNidentity\tPLMNidentity,\n",
  text% "\ttAC\t\tTAC,\n",
  text% "\tiE-Extensions\tIE-Extensions OPTIONAL\n",
  text% "}\n",
  text% "\n",
  text% "Target-ToSource-TransparentContainer ::= OCTET STRING\n",
  text% "-- This IE is a transparent container, the IE shall be encoded not as an OCTET STRING but according to the type specifications of the target system.\n",
  text% "-- Note: In the current version of this specification, this IE may either carry the Target RNC to\n",
  text% "-- Source RNC Transparent Container or the Target eNB to Source eNB Transparent Container IE as\n",
  text% "-- defined in TS 36.413 [49]\n",
  text% "\n",
  text% "TargeteNodeB-ToSourceeNodeB-TransparentContainer ::= OCTET STRING\n",
  text% "\n",
  text% "TargetBSS-ToSourceBSS-TransparentContainer\t\t::= OCTET STRING\n",
  text% "\n",
  text% "TargetCellId\t\t::= INTEGER (0..268435455)\n",
  text% "\n",
  text% "TargetID ::= CHOICE {\n",
  text% "\ttargetRNC-ID\tTargetRNC-ID,\n",
  text% "\tcGI\t\tCGI,\n",
  text% "\t\n",
  text% "\t...,\n",
  text% "\ttargeteNB-ID\tTargetENB-ID\n",
  text% "}\n",
  text% "\n",
  text% "TargetENB-ID ::= SEQUENCE {\n",
  text% "\tpLMNidentity\tPLMNidentity,\n",
  text% "\teNB-ID\t\tENB-ID,\n",
  text% "\tiE-Extensions\tIE-Extensions\tOPTIONAL,\n",
  text% "\tselectedTAI\tTAI,\n",
  text% "\t...\n",
  text% "}\n",
  text% "\n",
  text% "TargetRNC-ID ::= SEQUENCE {\n",
  text% "\tlAI\t\tLAI,\n",
  text% "\trAC\t\tRAC \t\tOPTIONAL,\n",
  text% "\trNC-ID\t\tRNC-ID,\n",
  text% "\tiE-Extensions\tIE-Extensions\tOPTIONAL\n",
  text% "}\n",
  text% "\n",
  text% "TargetRNC-ToSourceRNC-TransparentContainer ::= SEQUENCE {\n",
  text% "\trRC-Container\tRRC-Container,\n",
  text% "\td-RNTI\t\tD-RNTI \t\tOPTIONAL\n",
  text% "\t-- May be included to allow the triggering of the Relocation Detect procedure from the Iur Interface --,\n",
  text% "\tiE-Extensions\tIE-Extensions\tOPTIONAL,\n",
  text% "\t...\n",
  text% "}\n",
  text% "\n",
  text% "TBCD-STRING \t\t::= OCTET STRING\n",
  text% "\n",
  text% "TemporaryUE-ID ::= CHOICE {\n",
  text% "\ttMSI\t\tTMSI,\n",
  text% "\tp-TMSI\t\tP-TMSI,\n",
  text% "\t...\n",
  text% "}\n",
  text% "\n",
  text% "Time-UE-StayedInCell ::= INTEGER (0..4095)\n",
  text% "\n",
  text% "Time-UE-StayedInCell-EnhancedGranularity ::= INTEGER (0..40950)\n",
  text% "\n",
  text% "TimeToMBMSDataTransfer\t::= OCTET STRING(SIZE(1))\n",
  text% "\n",
  text% "TimingDifferenceULDL\t::= OCTET STRING (SIZE(1))\n",
  text% "\n",
  text% "TMGI ::= SEQUENCE {\n",
  text% "\tpLMNidentity\tPLMNidentity,\n",
  text% "\tserviceID\tOCTET STRING (SIZE (3)),\n",
  text% "\tiE-Extensions\tIE-Extensions\tOPTIONAL\n",
  text% "}\n",
  text% "\n",
  text% "TMSI ::= OCTET STRING (SIZE (4))\n",
  text% "\n",
  text% "TraceDepth ::= ENUMERATED {\n",
  text% "\tminimum,\n",
  text% "\tmedium,\n",
  text% "\tmaximum,\n",
  text% "\t...\n",
  text% "}\n",
  text% "\n",
  text% "TraceInformation\t::= SEQUENCE {\n",
  text% "\ttraceReference\t\t\tTraceReference,\n",
  text% "\tue-identity\t\t\tUE-ID,\n",
  text% "\ttracePropagationParameters\tTracePropagationParameters OPTIONAL,\n",
  text% "\tiE-Extensions\t\t\tIE-Extensions\t\tOPTIONAL,\n",
  text% "\t...\n",
  text% "}\n",
  text% "\n",
  text% "TracePropagationParameters ::= SEQUENCE {\n",
  text% "\ttraceRecordingSessionReference\tTraceRecordingSessionReference,\n",
  text% "\ttraceDepth\t\t\tTraceDepth,\n",
  text% "\tlistOfInterfacesToTrace\t\tListOfInterfacesToTrace\t\tOPTIONAL,\n",
  text% "\tiE-Extensions\t\t\tIE-Extensions\t\tOPTIONAL,\n",
  text% "\t...\n",
  text% "}\n",
  text% "\n",
  text% "TraceRecordingSessionInformation\t::= SEQUENCE {\n",
  text% "\ttraceReference\t\t\tTraceReference,\n",
  text% "\ttraceRecordingSessionReference\tTraceRecordingSessionReference,\n",
  text% "\tiE-Extensions\t\t\tIE-Extensions\t\tOPTIONAL,\n",
  text% "\t...\n",
  text% "}\n",
  text% "\n",
  text% "TraceRecordingSessionReference\t\t::= INTEGER (0..65535)\n",
  text% "\n",
  text% "TraceReference\t\t\t\t::= OCTET STRING (SIZE (2..3))\n",
  text% "\n",
  text% "TraceType\t\t\t\t::= OCTET STRING (SIZE (1))\n",
  text% "-- Reference: GSM TS 12.08\n",
  text% "\n",
  text% "TrafficClass ::= ENUMERATED {\n",
  text% "\tconversational,\n",
  text% "\tstreaming,\n",
  text% "\tinteractive,\n",
  text% "\tbackground,\n",
  text% "\t...\n",
  text% "}\n",
  text% "\n",
  text% "TrafficHandlingPriority \t\t::= INTEGER { spare (0), highest (1), lowest (14), no-priority-used (15) } (0..15)\n",
  text% "\n",
  text% "TransferDelay \t\t\t\t::= INTEGER (0..65535)\n",
  text% "-- Unit is millisecond\n",
  text% "\n",
  text% "UnsuccessfullyTransmittedDataVolume\t::= INTEGER (0..4294967295)\n",
  text% "\n",
  text% "TransportLayerAddress \t\t\t::= BIT STRING (SIZE (1..160, ...))\n",
  text% "\n",
  text% "TrCH-ID ::= SEQUENCE {\n",
  text% "\tdCH-ID\t\tDCH-ID\t\tOPTIONAL,\n",
  text% "\tdSCH-ID\t\tDSCH-ID\t\tOPTIONAL,\n",
  text% "\tuSCH-ID\t\tUSCH-ID\t\tOPTIONAL,\n",
  text% "\tiE-Extensions\tIE-Extensions\tOPTIONAL,\n",
  text% "\t...\n",
  text% "}\n",
  text% "\n",
  text% "TrCH-ID-List ::= SEQUENCE (SIZE (1..maxRAB-Subflows)) OF\n",
  text% "\tTrCH-ID\n",
  text% "\n",
  text% "TriggerID\t\t\t\t::= OCTET STRING (SIZE (3..22))\n",
  text% "\n",
  text% "TunnelInformation ::= SEQUENCE {\n",
  text% "\ttransportLayerAddress\tTransportLayerAddress,\n",
  text% "\tuDP-Port-Number\t\tPort-Number\t\t\t\tOPTIONAL,\n",
  text% "\tiE-Extensions\t\tIE-Extensions\t\t\t\tOPTIONAL,\n",
  text% "\t...\n",
  text% "}\n",
  text% "\n",
  text% "TypeOfError ::= ENUMERATED {\n",
  text% "\tnot-understood,\n",
  text% "\tmissing,\n",
  text% "\t...\n",
  text% "}\n",
  text% "\n",
  text% "\n",
  text% "-- U\n",
  text% "\n",
  text% "UE-AggregateMaximumBitRate ::= SEQUENCE {\n",
  text% "\tuE-AggregateMaximumBitRateDownlink\tUE-AggregateMaximumBitRateDownlink\tOPTIONAL,\n",
  text% "\tuE-AggregateMaximumBitRateUplink\tUE-AggregateMaximumBitRateUplink\tOPTIONAL,\n",
  text% "\t...\n",
  text% "}\n",
  text% "\n",
  text% "UE-AggregateMaximumBitRateDownlink\t::= INTEGER (1..1000000000)\n",
  text% "-- Unit is bits per sec\n",
  text% "\n",
  text% "UE-AggregateMaximumBitRateUplink\t::= INTEGER (1..1000000000)\n",
  text% "-- Unit is bits per sec\n",
  text% "\n",
  text% "\n",
  text% "UE-History-Information ::= OCTET STRING\n",
  text% "\n",
  text% "UE-ID ::= CHOICE {\n",
  text% "\timsi\tIMSI,\n",
  text% "\timei\tIMEI,\n",
  text% "\t...,\n",
  text% "\timeisv\tIMEISV\n",
  text% "\n",
  text% "}\n",
  text% "\n",
  text% "UESBI-Iu ::= SEQUENCE {\n",
  text% "\tuESBI-IuA\tUESBI-IuA\tOPTIONAL,\n",
  text% "\tuESBI-IuB\tUESBI-IuB\tOPTIONAL,\n",
  text% "\tiE-Extensions\tIE-Extensions\tOPTIONAL,\n",
  text% "\t...\n",
  text% "}\n",
  text% "\n",
  text% "UESBI-IuA\t\t\t\t::= BIT STRING (SIZE(1..128))\n",
  text% "-- Reference: TR25.994 --\n",
  text% "UESBI-IuB\t\t\t\t::= BIT STRING (SIZE(1..128))\n",
  text% "-- Reference: TR25.995 --\n",
  text% "\n",
  text% "UL-GTP-PDU-SequenceNumber\t\t::= INTEGER (0..65535)\n",
  text% "\n",
  text% "UL-N-PDU-SequenceNumber \t\t::= INTEGER (0..65535)\n",
  text% "\n",
  text% "UPInformation\t\t::=\t\tSEQUENCE {\n",
  text% "\tframeSeqNoUL\t\tFrameSequenceNumber,\n",
  text% "\tframeSeqNoDL\t\tFrameSequenceNumber,\n",
  text% "\tpdu14FrameSeqNoUL\tPDUType14FrameSequenceNumber,\n",
  text% "\tpdu14FrameSeqNoDL\tPDUType14FrameSequenceNumber,\n",
  text% "\tdataPDUType\t\tDataPDUType,\n",
  text% "\tupinitialisationFrame\tUPInitialisationFrame,\n",
  text% "\tiE-Extensions\t\tIE-Extensions\tOPTIONAL,\n",
  text% "\t...\n",
  text% "}\n",
  text% "\n",
  text% "UPInitialisationFrame\t::= OCTET STRING\n",
  text% "\n",
  text% "UP-ModeVersions\t\t::= BIT STRING (SIZE (16))\n",
  text% "\n",
  text% "USCH-ID\t\t\t::= INTEGER (0..255)\n",
  text% "\n",
  text% "UserPlaneMode ::= ENUMERATED {\n",
  text% "\ttransparent-mode,\n",
  text% "\tsupport-mode-for-predefined-SDU-sizes,\n",
  text% "\t...\n",
  text% "}\n",
  text% "\n",
  text% "UTRAN-CellID ::= SEQUENCE {\n",
  text% "\tpLMNidentity\tPLMNidentity,\n",
  text% "\tcellID\t\tTargetCellId,\n",
  text% "\tiE-Extensions\tIE-Extensions\tOPTIONAL\n",
  text% "}\n",
  text% "\n",
  text% "\n",
  text% "-- V\n",
  text% "\n",
  text% "VelocityEstimate ::= CHOICE {\n",
  text% "\thorizontalVelocity\t\t\tHorizontalVelocity,\n",
  text% "\thorizontalWithVerticalVelocity\t\tHorizontalWithVerticalVelocity,\n",
  text% "\thorizontalVelocityWithUncertainty\tHorizontalVelocityWithUncertainty,\n",
  text% "\thorizontalWithVeritcalVelocityAndUncertainty\tHorizontalWithVerticalVelocityAndUncertainty,\n",
  text% "\t...\n",
  text% "}\n",
  text% "\n",
  text% "HorizontalVelocity\t::= SEQUENCE {\n",
  text% "\thorizontalSpeedAndBearing\tHorizontalSpeedAndBearing,\n",
  text% "\tiE-Extensions\t\t\tIE-Extensions\tOPTIONAL,\n",
  text% "\t...\n",
  text% "}\n",
  text% "\n",
  text% "HorizontalWithVerticalVelocity ::= SEQUENCE {\n",
  text% "\thorizontalSpeedAndBearing\tHorizontalSpeedAndBearing,\n",
  text% "\tveritcalVelocity\t\tVerticalVelocity,\n",
  text% "\tiE-Extensions\t\t\tIE-Extensions\tOPTIONAL,\n",
  text% "\t...\n",
  text% "}\n",
  text% "\n",
  text% "HorizontalVelocityWithUncertainty ::= SEQUENCE {\n",
  text% "\thorizontalSpeedAndBearing\tHorizontalSpeedAndBearing,\n",
  text% "\tuncertaintySpeed\t\tINTEGER (0..255),\n",
  text% "\tiE-Extensions\t\t\tIE-Extensions\tOPTIONAL,\n",
  text% "\t...\n",
  text% "}\n",
  text% "\n",
  text% "HorizontalWithVerticalVelocityAndUncertainty ::= SEQUENCE {\n",
  text% "\thorizontalSpeedAndBearing\tHorizontalSpeedAndBearing,\n",
  text% "\tveritcalVelocity\t\tVerticalVelocity,\n",
  text% "\thorizontalUncertaintySpeed\tINTEGER (0..255),\n",
  text% "\tverticalUncertaintySpeed\tINTEGER (0..255),\n",
  text% "\tiE-Extensions\t\t\tIE-Extensions\tOPTIONAL,\n",
  text% "\t...\n",
  text% "}\n",
  text% "\n",
  text% "HorizontalSpeedAndBearing ::= SEQUENCE {\n",
  text% "\tbearing\t\tINTEGER (0..359),\n",
  text% "\thorizontalSpeed\tINTEGER (0..2047)\n",
  text% "}\n",
  text% "\n",
  text% "VerticalVelocity ::= SEQUENCE {\n",
  text% "\tveritcalSpeed\t\tINTEGER (0..255),\n",
  text% "\tveritcalSpeedDirection\tVerticalSpeedDirection\n",
  text% "}\n",
  text% "\n",
  text% "VerticalSpeedDirection ::= ENUMERATED {\n",
  text% "\tupward,\n",
  text% "\tdownward\n",
  text% "}\n",
  text% "\n",
  text% "VerticalAccuracyCode\t::= INTEGER (0..127)\n",
  text% "\n",
  text% "VoiceSupportMatchIndicator ::= ENUMERATED { \n",
  text% "\tsupported,\n",
  text% "\tnot-supported,\n",
  text% "\t...\n",
  text% "}\n",
  text% "\n",
  text% "END\n"]

/-- asn1/ranap/RANAP-PDU.asn:527-531 -/
noncomputable def ranapIe : List Text := [
  text% "IE ::= SEQUENCE {\n",
  text% "    id ProtocolIE-ID,\n",
  text% "    criticality Criticality,\n",
  text% "    value ANY\n",
  text% "}\n"]

end Verif.Gen.Text
