import Verif.Gen.AsnTypesRanap
import Verif.Gen.TextTypesRanap
import Verif.Gen.TextConstants
import Verif.Gen.AsnNames
import Verif.Gen.AsnNamed
import Verif.Proofs.ReadRanap
import Verif.Gen.TextProcs
import Verif.Proofs.AsnTypes
import Verif.Proofs.TextRanapAll

/-!
# The types of RANAP are those of the text
-/

namespace Verif.Gen.Text
open Verif.AsnToStruct Verif.AsnToStruct.Spec

theorem ranap_common : moduleItems (ranapCommon.flatMap (tokens false [])) = some ranapCommonAssignments := by kernel_rfl

theorem ranap_constants : moduleItems (ranapConstants.flatMap (tokens false [])) = some ranapConstantsAssignments := by kernel_rfl

theorem ranap_containers : moduleItems (ranapContainers.flatMap (tokens false [])) = some ranapContainersAssignments := by kernel_rfl

theorem ranap_ies : moduleItems (ranapIes.flatMap (tokens false [])) = some ranapIesAssignments := by kernel_rfl

theorem ranap_contents : moduleItems (ranap.flatMap (tokens false [])) = some ranapContentsAssignments := by kernel_rfl

theorem ranap_descriptions : moduleItems (ranapDescriptions.flatMap (tokens false [])) = some ranapDescriptionsAssignments := by kernel_rfl

theorem ranap_ie : items 10000 (ranapIe.flatMap (tokens false [])) = some ranapIeAssignments := by kernel_rfl

/-- The modules. -/
noncomputable def ranapModules : List (List Text) :=
  [ranapCommon, ranapConstants, ranapContainers, ranapIes, ranap, ranapDescriptions]

/-- All assignments. -/
noncomputable def ranapAssignments : List Assignment :=
  [ranapCommonAssignments, ranapConstantsAssignments, ranapContainersAssignments, ranapIesAssignments, ranapContentsAssignments, ranapDescriptionsAssignments].flatten ++ ranapIeAssignments

theorem ranap_assignments : assignments ranapModules ranapIe = some ranapAssignments := by
  unfold assignments ranapModules
  simp only [List.mapM_cons, List.mapM_nil, ranap_common, ranap_constants, ranap_containers, ranap_ies, ranap_contents, ranap_descriptions, ranap_ie]
  rfl

/-- The types in an order in which each uses only those in front of it. -/
noncomputable def ranapOrder : List (Text × Aper.Ty) := [
  (text% "Criticality", Asn.Ranap.Criticality),
  (text% "Presence", Asn.Ranap.Presence),
  (text% "PrivateIE-ID", Asn.Ranap.PrivateIE_ID),
  (text% "ProcedureCode", Asn.Ranap.ProcedureCode),
  (text% "ProtocolExtensionID", Asn.Ranap.ProtocolExtensionID),
  (text% "ProtocolIE-ID", Asn.Ranap.ProtocolIE_ID),
  (text% "TriggeringMessage", Asn.Ranap.TriggeringMessage),
  (text% "IE", Asn.Ranap.IE),
  (text% "IE-Extensions", Asn.Ranap.IE_Extensions),
  (text% "AccuracyFulfilmentIndicator", Asn.Ranap.AccuracyFulfilmentIndicator),
  (text% "QueuingAllowed", Asn.Ranap.QueuingAllowed),
  (text% "Pre-emptionVulnerability", Asn.Ranap.Pre_emptionVulnerability),
  (text% "Pre-emptionCapability", Asn.Ranap.Pre_emptionCapability),
  (text% "PriorityLevel", Asn.Ranap.PriorityLevel),
  (text% "AllocationOrRetentionPriority", Asn.Ranap.AllocationOrRetentionPriority),
  (text% "GuaranteedBitrate", Asn.Ranap.GuaranteedBitrate),
  (text% "Alt-RAB-Parameter-GuaranteedBitrateList", Asn.Ranap.Alt_RAB_Parameter_GuaranteedBitrateList),
  (text% "Alt-RAB-Parameter-GuaranteedBitrates", Asn.Ranap.Alt_RAB_Parameter_GuaranteedBitrates),
  (text% "Alt-RAB-Parameter-GuaranteedBitrateType", Asn.Ranap.Alt_RAB_Parameter_GuaranteedBitrateType),
  (text% "Alt-RAB-Parameter-GuaranteedBitrateInf", Asn.Ranap.Alt_RAB_Parameter_GuaranteedBitrateInf),
  (text% "MaxBitrate", Asn.Ranap.MaxBitrate),
  (text% "Alt-RAB-Parameter-MaxBitrateList", Asn.Ranap.Alt_RAB_Parameter_MaxBitrateList),
  (text% "Alt-RAB-Parameter-MaxBitrates", Asn.Ranap.Alt_RAB_Parameter_MaxBitrates),
  (text% "Alt-RAB-Parameter-MaxBitrateType", Asn.Ranap.Alt_RAB_Parameter_MaxBitrateType),
  (text% "Alt-RAB-Parameter-MaxBitrateInf", Asn.Ranap.Alt_RAB_Parameter_MaxBitrateInf),
  (text% "Alt-RAB-Parameters", Asn.Ranap.Alt_RAB_Parameters),
  (text% "ExtendedGuaranteedBitrate", Asn.Ranap.ExtendedGuaranteedBitrate),
  (text% "Alt-RAB-Parameter-ExtendedGuaranteedBitrateList", Asn.Ranap.Alt_RAB_Parameter_ExtendedGuaranteedBitrateList),
  (text% "Alt-RAB-Parameter-ExtendedGuaranteedBitrates", Asn.Ranap.Alt_RAB_Parameter_ExtendedGuaranteedBitrates),
  (text% "Alt-RAB-Parameter-ExtendedGuaranteedBitrateInf", Asn.Ranap.Alt_RAB_Parameter_ExtendedGuaranteedBitrateInf),
  (text% "SupportedBitrate", Asn.Ranap.SupportedBitrate),
  (text% "SupportedRAB-ParameterBitrateList", Asn.Ranap.SupportedRAB_ParameterBitrateList),
  (text% "Alt-RAB-Parameter-SupportedGuaranteedBitrates", Asn.Ranap.Alt_RAB_Parameter_SupportedGuaranteedBitrates),
  (text% "Alt-RAB-Parameter-SupportedGuaranteedBitrateInf", Asn.Ranap.Alt_RAB_Parameter_SupportedGuaranteedBitrateInf),
  (text% "ExtendedMaxBitrate", Asn.Ranap.ExtendedMaxBitrate),
  (text% "Alt-RAB-Parameter-ExtendedMaxBitrateList", Asn.Ranap.Alt_RAB_Parameter_ExtendedMaxBitrateList),
  (text% "Alt-RAB-Parameter-ExtendedMaxBitrates", Asn.Ranap.Alt_RAB_Parameter_ExtendedMaxBitrates),
  (text% "Alt-RAB-Parameter-ExtendedMaxBitrateInf", Asn.Ranap.Alt_RAB_Parameter_ExtendedMaxBitrateInf),
  (text% "Alt-RAB-Parameter-SupportedMaxBitrates", Asn.Ranap.Alt_RAB_Parameter_SupportedMaxBitrates),
  (text% "Alt-RAB-Parameter-SupportedMaxBitrateInf", Asn.Ranap.Alt_RAB_Parameter_SupportedMaxBitrateInf),
  (text% "AlternativeRABConfigurationRequest", Asn.Ranap.AlternativeRABConfigurationRequest),
  (text% "APN", Asn.Ranap.APN),
  (text% "GeographicalCoordinates", Asn.Ranap.GeographicalCoordinates),
  (text% "GA-Polygon-Value", Asn.Ranap.GA_Polygon_Value),
  (text% "GA-Polygon", Asn.Ranap.GA_Polygon),
  (text% "GA-PointWithUnCertainty", Asn.Ranap.GA_PointWithUnCertainty),
  (text% "GA-Point", Asn.Ranap.GA_Point),
  (text% "GA-EllipsoidArc", Asn.Ranap.GA_EllipsoidArc),
  (text% "GA-UncertaintyEllipse", Asn.Ranap.GA_UncertaintyEllipse),
  (text% "GA-AltitudeAndDirection", Asn.Ranap.GA_AltitudeAndDirection),
  (text% "GA-PointWithAltitudeAndUncertaintyEllipsoid", Asn.Ranap.GA_PointWithAltitudeAndUncertaintyEllipsoid),
  (text% "GA-PointWithAltitude", Asn.Ranap.GA_PointWithAltitude),
  (text% "GA-PointWithUnCertaintyEllipse", Asn.Ranap.GA_PointWithUnCertaintyEllipse),
  (text% "GeographicalArea", Asn.Ranap.GeographicalArea),
  (text% "SAC", Asn.Ranap.SAC),
  (text% "LAC", Asn.Ranap.LAC),
  (text% "PLMNidentity", Asn.Ranap.PLMNidentity),
  (text% "SAI", Asn.Ranap.SAI),
  (text% "AreaIdentity", Asn.Ranap.AreaIdentity),
  (text% "Ass-RAB-Parameter-GuaranteedBitrateList", Asn.Ranap.Ass_RAB_Parameter_GuaranteedBitrateList),
  (text% "Ass-RAB-Parameter-MaxBitrateList", Asn.Ranap.Ass_RAB_Parameter_MaxBitrateList),
  (text% "Ass-RAB-Parameters", Asn.Ranap.Ass_RAB_Parameters),
  (text% "Ass-RAB-Parameter-ExtendedGuaranteedBitrateList", Asn.Ranap.Ass_RAB_Parameter_ExtendedGuaranteedBitrateList),
  (text% "Ass-RAB-Parameter-ExtendedMaxBitrateList", Asn.Ranap.Ass_RAB_Parameter_ExtendedMaxBitrateList),
  (text% "SNAC", Asn.Ranap.SNAC),
  (text% "AuthorisedSNAs", Asn.Ranap.AuthorisedSNAs),
  (text% "AuthorisedPLMNs-Value", Asn.Ranap.AuthorisedPLMNs_Value),
  (text% "AuthorisedPLMNs", Asn.Ranap.AuthorisedPLMNs),
  (text% "BindingID", Asn.Ranap.BindingID),
  (text% "BroadcastAssistanceDataDecipheringKeys", Asn.Ranap.BroadcastAssistanceDataDecipheringKeys),
  (text% "CauseNon-Standard", Asn.Ranap.CauseNon_Standard),
  (text% "CauseMisc", Asn.Ranap.CauseMisc),
  (text% "CauseProtocol", Asn.Ranap.CauseProtocol),
  (text% "CauseNAS", Asn.Ranap.CauseNAS),
  (text% "CauseTransmissionNetwork", Asn.Ranap.CauseTransmissionNetwork),
  (text% "CauseRadioNetwork", Asn.Ranap.CauseRadioNetwork),
  (text% "CauseRadioNetworkExtension", Asn.Ranap.CauseRadioNetworkExtension),
  (text% "Cause", Asn.Ranap.Cause),
  (text% "Cell-Access-Mode", Asn.Ranap.Cell_Access_Mode),
  (text% "Cell-Id", Asn.Ranap.Cell_Id),
  (text% "CellIdList", Asn.Ranap.CellIdList),
  (text% "CellBased", Asn.Ranap.CellBased),
  (text% "Cell-Capacity-Class-Value", Asn.Ranap.Cell_Capacity_Class_Value),
  (text% "NRTLoadInformationValue", Asn.Ranap.NRTLoadInformationValue),
  (text% "RTLoadValue", Asn.Ranap.RTLoadValue),
  (text% "LoadValue", Asn.Ranap.LoadValue),
  (text% "CellLoadInformation", Asn.Ranap.CellLoadInformation),
  (text% "CI", Asn.Ranap.CI),
  (text% "CGI", Asn.Ranap.CGI),
  (text% "TargetCellId", Asn.Ranap.TargetCellId),
  (text% "SourceUTRANCellID", Asn.Ranap.SourceUTRANCellID),
  (text% "SourceCellID", Asn.Ranap.SourceCellID),
  (text% "CellLoadInformationGroup", Asn.Ranap.CellLoadInformationGroup),
  (text% "CellType", Asn.Ranap.CellType),
  (text% "ClientType", Asn.Ranap.ClientType),
  (text% "RepetitionNumber0", Asn.Ranap.RepetitionNumber0),
  (text% "CriticalityDiagnostics-IE-List-Value", Asn.Ranap.CriticalityDiagnostics_IE_List_Value),
  (text% "CriticalityDiagnostics-IE-List", Asn.Ranap.CriticalityDiagnostics_IE_List),
  (text% "CriticalityDiagnostics", Asn.Ranap.CriticalityDiagnostics),
  (text% "RepetitionNumber1", Asn.Ranap.RepetitionNumber1),
  (text% "MessageStructure-Value", Asn.Ranap.MessageStructure_Value),
  (text% "MessageStructure", Asn.Ranap.MessageStructure),
  (text% "EncryptionAlgorithm", Asn.Ranap.EncryptionAlgorithm),
  (text% "ChosenEncryptionAlgorithm", Asn.Ranap.ChosenEncryptionAlgorithm),
  (text% "IntegrityProtectionAlgorithm", Asn.Ranap.IntegrityProtectionAlgorithm),
  (text% "ChosenIntegrityProtectionAlgorithm", Asn.Ranap.ChosenIntegrityProtectionAlgorithm),
  (text% "ClassmarkInformation2", Asn.Ranap.ClassmarkInformation2),
  (text% "ClassmarkInformation3", Asn.Ranap.ClassmarkInformation3),
  (text% "CN-DomainIndicator", Asn.Ranap.CN_DomainIndicator),
  (text% "CN-ID", Asn.Ranap.CN_ID),
  (text% "Correlation-ID", Asn.Ranap.Correlation_ID),
  (text% "CSFB-Information", Asn.Ranap.CSFB_Information),
  (text% "CSG-Id", Asn.Ranap.CSG_Id),
  (text% "CSG-Id-List", Asn.Ranap.CSG_Id_List),
  (text% "CSG-Membership-Status", Asn.Ranap.CSG_Membership_Status),
  (text% "DataPDUType", Asn.Ranap.DataPDUType),
  (text% "DataVolumeReference", Asn.Ranap.DataVolumeReference),
  (text% "DataVolumeReportingIndication", Asn.Ranap.DataVolumeReportingIndication),
  (text% "DCH-ID", Asn.Ranap.DCH_ID),
  (text% "DeliveryOfErroneousSDU", Asn.Ranap.DeliveryOfErroneousSDU),
  (text% "DeliveryOrder", Asn.Ranap.DeliveryOrder),
  (text% "RAC", Asn.Ranap.RAC),
  (text% "RAListwithNoIdleModeUEsAnyMore", Asn.Ranap.RAListwithNoIdleModeUEsAnyMore),
  (text% "NewRAListofIdleModeUEs", Asn.Ranap.NewRAListofIdleModeUEs),
  (text% "DeltaRAListofIdleModeUEs", Asn.Ranap.DeltaRAListofIdleModeUEs),
  (text% "ForwardingIndication", Asn.Ranap.ForwardingIndication),
  (text% "DL-GTP-PDU-SequenceNumber", Asn.Ranap.DL_GTP_PDU_SequenceNumber),
  (text% "DL-N-PDU-SequenceNumber", Asn.Ranap.DL_N_PDU_SequenceNumber),
  (text% "D-RNTI", Asn.Ranap.D_RNTI),
  (text% "DRX-CycleLengthCoefficient", Asn.Ranap.DRX_CycleLengthCoefficient),
  (text% "DSCH-ID", Asn.Ranap.DSCH_ID),
  (text% "EARFCN-Extended", Asn.Ranap.EARFCN_Extended),
  (text% "E-DCH-MAC-d-Flow-ID", Asn.Ranap.E_DCH_MAC_d_Flow_ID),
  (text% "ENB-ID", Asn.Ranap.ENB_ID),
  (text% "EncryptionKey", Asn.Ranap.EncryptionKey),
  (text% "PermittedEncryptionAlgorithms", Asn.Ranap.PermittedEncryptionAlgorithms),
  (text% "EncryptionInformation", Asn.Ranap.EncryptionInformation),
  (text% "End-Of-CSFB", Asn.Ranap.End_Of_CSFB),
  (text% "IMEISV", Asn.Ranap.IMEISV),
  (text% "IMEISVGroup", Asn.Ranap.IMEISVGroup),
  (text% "IMEI", Asn.Ranap.IMEI),
  (text% "IMEIGroup", Asn.Ranap.IMEIGroup),
  (text% "IMEISVList", Asn.Ranap.IMEISVList),
  (text% "IMEIList", Asn.Ranap.IMEIList),
  (text% "EquipmentsToBeTraced", Asn.Ranap.EquipmentsToBeTraced),
  (text% "E-UTRAN-Service-Handover", Asn.Ranap.E_UTRAN_Service_Handover),
  (text% "Event", Asn.Ranap.Event),
  (text% "MeasurementQuantity", Asn.Ranap.MeasurementQuantity),
  (text% "Event1F-Parameters", Asn.Ranap.Event1F_Parameters),
  (text% "Event1I-Parameters", Asn.Ranap.Event1I_Parameters),
  (text% "ExtendedRNC-ID", Asn.Ranap.ExtendedRNC_ID),
  (text% "FrameSequenceNumber", Asn.Ranap.FrameSequenceNumber),
  (text% "FrequenceLayerConvergenceFlag", Asn.Ranap.FrequenceLayerConvergenceFlag),
  (text% "GANSS-PositioningMethodAndUsage", Asn.Ranap.GANSS_PositioningMethodAndUsage),
  (text% "GANSS-PositioningDataSet", Asn.Ranap.GANSS_PositioningDataSet),
  (text% "GERAN-BSC-Container", Asn.Ranap.GERAN_BSC_Container),
  (text% "LAI", Asn.Ranap.LAI),
  (text% "GERAN-Cell-ID", Asn.Ranap.GERAN_Cell_ID),
  (text% "GERAN-Classmark", Asn.Ranap.GERAN_Classmark),
  (text% "GlobalCN-ID", Asn.Ranap.GlobalCN_ID),
  (text% "RNC-ID", Asn.Ranap.RNC_ID),
  (text% "GlobalRNC-ID", Asn.Ranap.GlobalRNC_ID),
  (text% "GTP-TEI", Asn.Ranap.GTP_TEI),
  (text% "HigherBitratesThan16MbpsFlag", Asn.Ranap.HigherBitratesThan16MbpsFlag),
  (text% "HS-DSCH-MAC-d-Flow-ID", Asn.Ranap.HS_DSCH_MAC_d_Flow_ID),
  (text% "ReportAmount", Asn.Ranap.ReportAmount),
  (text% "ReportInterval", Asn.Ranap.ReportInterval),
  (text% "MDT-Report-Parameters", Asn.Ranap.MDT_Report_Parameters),
  (text% "M2Report", Asn.Ranap.M2Report),
  (text% "M1Report", Asn.Ranap.M1Report),
  (text% "MeasurementsToActivate", Asn.Ranap.MeasurementsToActivate),
  (text% "ImmediateMDT", Asn.Ranap.ImmediateMDT),
  (text% "IMSI", Asn.Ranap.IMSI),
  (text% "IncludeVelocity", Asn.Ranap.IncludeVelocity),
  (text% "InformationExchangeID", Asn.Ranap.InformationExchangeID),
  (text% "InformationExchangeType", Asn.Ranap.InformationExchangeType),
  (text% "TMGI", Asn.Ranap.TMGI),
  (text% "RequestedMulticastServiceList", Asn.Ranap.RequestedMulticastServiceList),
  (text% "IPMulticastAddress", Asn.Ranap.IPMulticastAddress),
  (text% "MBMSIPMulticastAddressandAPNlist", Asn.Ranap.MBMSIPMulticastAddressandAPNlist),
  (text% "RequestedMBMSIPMulticastAddressandAPNRequest", Asn.Ranap.RequestedMBMSIPMulticastAddressandAPNRequest),
  (text% "InformationRequested", Asn.Ranap.InformationRequested),
  (text% "PermanentNAS-UE-ID", Asn.Ranap.PermanentNAS_UE_ID),
  (text% "MBMSIPMulticastAddressandAPNRequest", Asn.Ranap.MBMSIPMulticastAddressandAPNRequest),
  (text% "InformationRequestType", Asn.Ranap.InformationRequestType),
  (text% "InformationTransferID", Asn.Ranap.InformationTransferID),
  (text% "TraceReference", Asn.Ranap.TraceReference),
  (text% "RNCTraceInformation", Asn.Ranap.RNCTraceInformation),
  (text% "InformationTransferType", Asn.Ranap.InformationTransferType),
  (text% "IntegrityProtectionKey", Asn.Ranap.IntegrityProtectionKey),
  (text% "PermittedIntegrityProtectionAlgorithms", Asn.Ranap.PermittedIntegrityProtectionAlgorithms),
  (text% "IntegrityProtectionInformation", Asn.Ranap.IntegrityProtectionInformation),
  (text% "TargetRNC-ID", Asn.Ranap.TargetRNC_ID),
  (text% "TAC", Asn.Ranap.TAC),
  (text% "TAI", Asn.Ranap.TAI),
  (text% "TargetENB-ID", Asn.Ranap.TargetENB_ID),
  (text% "RIMRoutingAddress", Asn.Ranap.RIMRoutingAddress),
  (text% "RIMInformation", Asn.Ranap.RIMInformation),
  (text% "RIM-Transfer", Asn.Ranap.RIM_Transfer),
  (text% "InterSystemInformationTransferType", Asn.Ranap.InterSystemInformationTransferType),
  (text% "InterSystemInformation-TransparentContainer", Asn.Ranap.InterSystemInformation_TransparentContainer),
  (text% "IuSignallingConnectionIdentifier", Asn.Ranap.IuSignallingConnectionIdentifier),
  (text% "IuTransportAssociation", Asn.Ranap.IuTransportAssociation),
  (text% "KeyStatus", Asn.Ranap.KeyStatus),
  (text% "ListOF-SNAs", Asn.Ranap.ListOF_SNAs),
  (text% "LA-LIST-Value", Asn.Ranap.LA_LIST_Value),
  (text% "LA-LIST", Asn.Ranap.LA_LIST),
  (text% "LastKnownServiceArea", Asn.Ranap.LastKnownServiceArea),
  (text% "Time-UE-StayedInCell", Asn.Ranap.Time_UE_StayedInCell),
  (text% "UTRAN-CellID", Asn.Ranap.UTRAN_CellID),
  (text% "LastVisitedUTRANCell-Item", Asn.Ranap.LastVisitedUTRANCell_Item),
  (text% "LHN-ID", Asn.Ranap.LHN_ID),
  (text% "Links-to-log", Asn.Ranap.Links_to_log),
  (text% "InterfacesToTraceItem", Asn.Ranap.InterfacesToTraceItem),
  (text% "ListOfInterfacesToTrace", Asn.Ranap.ListOfInterfacesToTrace),
  (text% "RequestedGPSAssistanceData", Asn.Ranap.RequestedGPSAssistanceData),
  (text% "RequestedLocationRelatedDataType", Asn.Ranap.RequestedLocationRelatedDataType),
  (text% "LocationRelatedDataRequestType", Asn.Ranap.LocationRelatedDataRequestType),
  (text% "LocationRelatedDataRequestTypeSpecificToGERANIuMode", Asn.Ranap.LocationRelatedDataRequestTypeSpecificToGERANIuMode),
  (text% "PeriodicLocationInfo", Asn.Ranap.PeriodicLocationInfo),
  (text% "ResponseTime", Asn.Ranap.ResponseTime),
  (text% "PositioningPriority", Asn.Ranap.PositioningPriority),
  (text% "VerticalAccuracyCode", Asn.Ranap.VerticalAccuracyCode),
  (text% "DirectReportingIndicator", Asn.Ranap.DirectReportingIndicator),
  (text% "PeriodicReportingIndicator", Asn.Ranap.PeriodicReportingIndicator),
  (text% "ReportChangeOfSAI", Asn.Ranap.ReportChangeOfSAI),
  (text% "LocationReportingTransferInformation", Asn.Ranap.LocationReportingTransferInformation),
  (text% "L3-Information", Asn.Ranap.L3_Information),
  (text% "M4-Threshold", Asn.Ranap.M4_Threshold),
  (text% "M4-Period", Asn.Ranap.M4_Period),
  (text% "M4-Collection-Parameters", Asn.Ranap.M4_Collection_Parameters),
  (text% "M4Report", Asn.Ranap.M4Report),
  (text% "M5-Period", Asn.Ranap.M5_Period),
  (text% "M5Report", Asn.Ranap.M5Report),
  (text% "M6-Period", Asn.Ranap.M6_Period),
  (text% "M6Report", Asn.Ranap.M6Report),
  (text% "M7-Period", Asn.Ranap.M7_Period),
  (text% "M7Report", Asn.Ranap.M7Report),
  (text% "Management-Based-MDT-Allowed", Asn.Ranap.Management_Based_MDT_Allowed),
  (text% "MaxSDU-Size", Asn.Ranap.MaxSDU_Size),
  (text% "MBMS-PTP-RAB-ID", Asn.Ranap.MBMS_PTP_RAB_ID),
  (text% "MBMSBearerServiceType", Asn.Ranap.MBMSBearerServiceType),
  (text% "MBMSCNDe-Registration", Asn.Ranap.MBMSCNDe_Registration),
  (text% "MBMSCountingInformation", Asn.Ranap.MBMSCountingInformation),
  (text% "MBMSHCIndicator", Asn.Ranap.MBMSHCIndicator),
  (text% "MBMSLinkingInformation", Asn.Ranap.MBMSLinkingInformation),
  (text% "MBMSRegistrationRequestType", Asn.Ranap.MBMSRegistrationRequestType),
  (text% "MBMSServiceArea", Asn.Ranap.MBMSServiceArea),
  (text% "MBMSSessionDuration", Asn.Ranap.MBMSSessionDuration),
  (text% "MBMSSessionIdentity", Asn.Ranap.MBMSSessionIdentity),
  (text% "MBMSSessionRepetitionNumber", Asn.Ranap.MBMSSessionRepetitionNumber),
  (text% "MDT-Activation", Asn.Ranap.MDT_Activation),
  (text% "RAI", Asn.Ranap.RAI),
  (text% "RAI-List", Asn.Ranap.RAI_List),
  (text% "RABased", Asn.Ranap.RABased),
  (text% "LAI-List", Asn.Ranap.LAI_List),
  (text% "LABased", Asn.Ranap.LABased),
  (text% "MDTAreaScope", Asn.Ranap.MDTAreaScope),
  (text% "LoggingDuration", Asn.Ranap.LoggingDuration),
  (text% "LoggingInterval", Asn.Ranap.LoggingInterval),
  (text% "LoggedMDT", Asn.Ranap.LoggedMDT),
  (text% "MDTMode", Asn.Ranap.MDTMode),
  (text% "MDT-Configuration", Asn.Ranap.MDT_Configuration),
  (text% "MDT-PLMN-List", Asn.Ranap.MDT_PLMN_List),
  (text% "MSISDN", Asn.Ranap.MSISDN),
  (text% "NAS-PDU", Asn.Ranap.NAS_PDU),
  (text% "NAS-SequenceNumber", Asn.Ranap.NAS_SequenceNumber),
  (text% "NAS-SynchronisationIndicator", Asn.Ranap.NAS_SynchronisationIndicator),
  (text% "NewBSS-To-OldBSS-Information", Asn.Ranap.NewBSS_To_OldBSS_Information),
  (text% "NonSearchingIndication", Asn.Ranap.NonSearchingIndication),
  (text% "NumberOfIuInstances", Asn.Ranap.NumberOfIuInstances),
  (text% "NumberOfSteps", Asn.Ranap.NumberOfSteps),
  (text% "Offload-RAB-Parameters-ChargingCharacteristics", Asn.Ranap.Offload_RAB_Parameters_ChargingCharacteristics),
  (text% "Offload-RAB-Parameters-APN", Asn.Ranap.Offload_RAB_Parameters_APN),
  (text% "Offload-RAB-Parameters", Asn.Ranap.Offload_RAB_Parameters),
  (text% "OldBSS-ToNewBSS-Information", Asn.Ranap.OldBSS_ToNewBSS_Information),
  (text% "OMC-ID", Asn.Ranap.OMC_ID),
  (text% "Out-Of-UTRAN", Asn.Ranap.Out_Of_UTRAN),
  (text% "PagingAreaID", Asn.Ranap.PagingAreaID),
  (text% "PagingCause", Asn.Ranap.PagingCause),
  (text% "PDP-Type", Asn.Ranap.PDP_Type),
  (text% "PDP-TypeInformation", Asn.Ranap.PDP_TypeInformation),
  (text% "PDP-Type-extension", Asn.Ranap.PDP_Type_extension),
  (text% "PDP-TypeInformation-extension", Asn.Ranap.PDP_TypeInformation_extension),
  (text% "PDUType14FrameSequenceNumber", Asn.Ranap.PDUType14FrameSequenceNumber),
  (text% "PLMNs-in-shared-network-Value", Asn.Ranap.PLMNs_in_shared_network_Value),
  (text% "PLMNs-in-shared-network", Asn.Ranap.PLMNs_in_shared_network),
  (text% "Port-Number", Asn.Ranap.Port_Number),
  (text% "PositioningDataDiscriminator", Asn.Ranap.PositioningDataDiscriminator),
  (text% "PositioningMethodAndUsage", Asn.Ranap.PositioningMethodAndUsage),
  (text% "PositioningDataSet", Asn.Ranap.PositioningDataSet),
  (text% "PositionData", Asn.Ranap.PositionData),
  (text% "PositionDataSpecificToGERANIuMode", Asn.Ranap.PositionDataSpecificToGERANIuMode),
  (text% "Priority-Class-Indicator", Asn.Ranap.Priority_Class_Indicator),
  (text% "Shared-Network-Information", Asn.Ranap.Shared_Network_Information),
  (text% "ProvidedData", Asn.Ranap.ProvidedData),
  (text% "P-TMSI", Asn.Ranap.P_TMSI),
  (text% "RAB-AsymmetryIndicator", Asn.Ranap.RAB_AsymmetryIndicator),
  (text% "UnsuccessfullyTransmittedDataVolume", Asn.Ranap.UnsuccessfullyTransmittedDataVolume),
  (text% "RABDataVolumeReport-Value", Asn.Ranap.RABDataVolumeReport_Value),
  (text% "RABDataVolumeReport", Asn.Ranap.RABDataVolumeReport),
  (text% "RAB-ID", Asn.Ranap.RAB_ID),
  (text% "RAB-Parameter-ExtendedGuaranteedBitrateList", Asn.Ranap.RAB_Parameter_ExtendedGuaranteedBitrateList),
  (text% "RAB-Parameter-ExtendedMaxBitrateList", Asn.Ranap.RAB_Parameter_ExtendedMaxBitrateList),
  (text% "RAB-Parameter-GuaranteedBitrateList", Asn.Ranap.RAB_Parameter_GuaranteedBitrateList),
  (text% "RAB-Parameter-MaxBitrateList", Asn.Ranap.RAB_Parameter_MaxBitrateList),
  (text% "RelocationRequirement", Asn.Ranap.RelocationRequirement),
  (text% "SourceStatisticsDescriptor", Asn.Ranap.SourceStatisticsDescriptor),
  (text% "TrafficHandlingPriority", Asn.Ranap.TrafficHandlingPriority),
  (text% "TransferDelay", Asn.Ranap.TransferDelay),
  (text% "RAB-SubflowCombinationBitRate", Asn.Ranap.RAB_SubflowCombinationBitRate),
  (text% "SubflowSDU-Size", Asn.Ranap.SubflowSDU_Size),
  (text% "SDU-FormatInformationParameterItem", Asn.Ranap.SDU_FormatInformationParameterItem),
  (text% "SDU-FormatInformationParameters", Asn.Ranap.SDU_FormatInformationParameters),
  (text% "ResidualBitErrorRatio", Asn.Ranap.ResidualBitErrorRatio),
  (text% "SDU-ErrorRatio", Asn.Ranap.SDU_ErrorRatio),
  (text% "SDU-ParameterItem", Asn.Ranap.SDU_ParameterItem),
  (text% "SDU-Parameters", Asn.Ranap.SDU_Parameters),
  (text% "TrafficClass", Asn.Ranap.TrafficClass),
  (text% "RAB-Parameters", Asn.Ranap.RAB_Parameters),
  (text% "UPInitialisationFrame", Asn.Ranap.UPInitialisationFrame),
  (text% "UPInformation", Asn.Ranap.UPInformation),
  (text% "RABParametersList-Value", Asn.Ranap.RABParametersList_Value),
  (text% "RABParametersList", Asn.Ranap.RABParametersList),
  (text% "USCH-ID", Asn.Ranap.USCH_ID),
  (text% "TrCH-ID", Asn.Ranap.TrCH_ID),
  (text% "TrCH-ID-List", Asn.Ranap.TrCH_ID_List),
  (text% "RAB-TrCH-MappingItem", Asn.Ranap.RAB_TrCH_MappingItem),
  (text% "RAB-TrCH-Mapping", Asn.Ranap.RAB_TrCH_Mapping),
  (text% "RAofIdleModeUEs", Asn.Ranap.RAofIdleModeUEs),
  (text% "NotEmptyRAListofIdleModeUEs", Asn.Ranap.NotEmptyRAListofIdleModeUEs),
  (text% "RAListofIdleModeUEs", Asn.Ranap.RAListofIdleModeUEs),
  (text% "LAListofIdleModeUEs", Asn.Ranap.LAListofIdleModeUEs),
  (text% "RAT-Type", Asn.Ranap.RAT_Type),
  (text% "RateControlAllowed", Asn.Ranap.RateControlAllowed),
  (text% "RedirectAttemptFlag", Asn.Ranap.RedirectAttemptFlag),
  (text% "RedirectionCompleted", Asn.Ranap.RedirectionCompleted),
  (text% "RejectCauseValue", Asn.Ranap.RejectCauseValue),
  (text% "RelocationType", Asn.Ranap.RelocationType),
  (text% "ReportArea", Asn.Ranap.ReportArea),
  (text% "RequestedGANSSAssistanceData", Asn.Ranap.RequestedGANSSAssistanceData),
  (text% "Requested-RAB-Parameter-GuaranteedBitrateList", Asn.Ranap.Requested_RAB_Parameter_GuaranteedBitrateList),
  (text% "Requested-RAB-Parameter-MaxBitrateList", Asn.Ranap.Requested_RAB_Parameter_MaxBitrateList),
  (text% "Requested-RAB-Parameter-Values", Asn.Ranap.Requested_RAB_Parameter_Values),
  (text% "Requested-RAB-Parameter-ExtendedMaxBitrateList", Asn.Ranap.Requested_RAB_Parameter_ExtendedMaxBitrateList),
  (text% "Requested-RAB-Parameter-ExtendedGuaranteedBitrateList", Asn.Ranap.Requested_RAB_Parameter_ExtendedGuaranteedBitrateList),
  (text% "RequestType", Asn.Ranap.RequestType),
  (text% "TraceDepth", Asn.Ranap.TraceDepth),
  (text% "TraceRecordingSessionReference", Asn.Ranap.TraceRecordingSessionReference),
  (text% "TracePropagationParameters", Asn.Ranap.TracePropagationParameters),
  (text% "UE-ID", Asn.Ranap.UE_ID),
  (text% "TraceInformation", Asn.Ranap.TraceInformation),
  (text% "RNSAPRelocationParameters", Asn.Ranap.RNSAPRelocationParameters),
  (text% "RRC-Container", Asn.Ranap.RRC_Container),
  (text% "RSRVCC-HO-Indication", Asn.Ranap.RSRVCC_HO_Indication),
  (text% "RSRVCC-Information", Asn.Ranap.RSRVCC_Information),
  (text% "RSRVCC-Operation-Possible", Asn.Ranap.RSRVCC_Operation_Possible),
  (text% "SAPI", Asn.Ranap.SAPI),
  (text% "SessionUpdateID", Asn.Ranap.SessionUpdateID),
  (text% "Session-Re-establishment-Indicator", Asn.Ranap.Session_Re_establishment_Indicator),
  (text% "SignallingIndication", Asn.Ranap.SignallingIndication),
  (text% "SNA-Access-Information", Asn.Ranap.SNA_Access_Information),
  (text% "Service-Handover", Asn.Ranap.Service_Handover),
  (text% "Source-ToTarget-TransparentContainer", Asn.Ranap.Source_ToTarget_TransparentContainer),
  (text% "SourceeNodeB-ToTargeteNodeB-TransparentContainer", Asn.Ranap.SourceeNodeB_ToTargeteNodeB_TransparentContainer),
  (text% "SourceBSS-ToTargetBSS-TransparentContainer", Asn.Ranap.SourceBSS_ToTargetBSS_TransparentContainer),
  (text% "SourceRNC-ID", Asn.Ranap.SourceRNC_ID),
  (text% "SourceID", Asn.Ranap.SourceID),
  (text% "SourceRNC-ToTargetRNC-TransparentContainer", Asn.Ranap.SourceRNC_ToTargetRNC_TransparentContainer),
  (text% "MeasBand", Asn.Ranap.MeasBand),
  (text% "EUTRANFrequencies-Value", Asn.Ranap.EUTRANFrequencies_Value),
  (text% "EUTRANFrequencies", Asn.Ranap.EUTRANFrequencies),
  (text% "IRATmeasurementParameters", Asn.Ranap.IRATmeasurementParameters),
  (text% "IRAT-Measurement-Configuration", Asn.Ranap.IRAT_Measurement_Configuration),
  (text% "RSRQ-Type", Asn.Ranap.RSRQ_Type),
  (text% "RSRQ-Extension", Asn.Ranap.RSRQ_Extension),
  (text% "SubscriberProfileIDforRFP", Asn.Ranap.SubscriberProfileIDforRFP),
  (text% "SRB-ID", Asn.Ranap.SRB_ID),
  (text% "SRB-TrCH-MappingItem", Asn.Ranap.SRB_TrCH_MappingItem),
  (text% "SRB-TrCH-Mapping", Asn.Ranap.SRB_TrCH_Mapping),
  (text% "SRVCC-HO-Indication", Asn.Ranap.SRVCC_HO_Indication),
  (text% "SRVCC-Information", Asn.Ranap.SRVCC_Information),
  (text% "SRVCC-Operation-Possible", Asn.Ranap.SRVCC_Operation_Possible),
  (text% "Target-ToSource-TransparentContainer", Asn.Ranap.Target_ToSource_TransparentContainer),
  (text% "TargeteNodeB-ToSourceeNodeB-TransparentContainer", Asn.Ranap.TargeteNodeB_ToSourceeNodeB_TransparentContainer),
  (text% "TargetBSS-ToSourceBSS-TransparentContainer", Asn.Ranap.TargetBSS_ToSourceBSS_TransparentContainer),
  (text% "TargetID", Asn.Ranap.TargetID),
  (text% "TargetRNC-ToSourceRNC-TransparentContainer", Asn.Ranap.TargetRNC_ToSourceRNC_TransparentContainer),
  (text% "TBCD-STRING", Asn.Ranap.TBCD_STRING),
  (text% "TMSI", Asn.Ranap.TMSI),
  (text% "TemporaryUE-ID", Asn.Ranap.TemporaryUE_ID),
  (text% "Time-UE-StayedInCell-EnhancedGranularity", Asn.Ranap.Time_UE_StayedInCell_EnhancedGranularity),
  (text% "TimeToMBMSDataTransfer", Asn.Ranap.TimeToMBMSDataTransfer),
  (text% "TimingDifferenceULDL", Asn.Ranap.TimingDifferenceULDL),
  (text% "TraceRecordingSessionInformation", Asn.Ranap.TraceRecordingSessionInformation),
  (text% "TraceType", Asn.Ranap.TraceType),
  (text% "TransportLayerAddress", Asn.Ranap.TransportLayerAddress),
  (text% "TriggerID", Asn.Ranap.TriggerID),
  (text% "TunnelInformation", Asn.Ranap.TunnelInformation),
  (text% "TypeOfError", Asn.Ranap.TypeOfError),
  (text% "UE-AggregateMaximumBitRateUplink", Asn.Ranap.UE_AggregateMaximumBitRateUplink),
  (text% "UE-AggregateMaximumBitRateDownlink", Asn.Ranap.UE_AggregateMaximumBitRateDownlink),
  (text% "UE-AggregateMaximumBitRate", Asn.Ranap.UE_AggregateMaximumBitRate),
  (text% "UE-History-Information", Asn.Ranap.UE_History_Information),
  (text% "UESBI-IuB", Asn.Ranap.UESBI_IuB),
  (text% "UESBI-IuA", Asn.Ranap.UESBI_IuA),
  (text% "UESBI-Iu", Asn.Ranap.UESBI_Iu),
  (text% "UL-GTP-PDU-SequenceNumber", Asn.Ranap.UL_GTP_PDU_SequenceNumber),
  (text% "UL-N-PDU-SequenceNumber", Asn.Ranap.UL_N_PDU_SequenceNumber),
  (text% "UP-ModeVersions", Asn.Ranap.UP_ModeVersions),
  (text% "UserPlaneMode", Asn.Ranap.UserPlaneMode),
  (text% "VerticalSpeedDirection", Asn.Ranap.VerticalSpeedDirection),
  (text% "VerticalVelocity", Asn.Ranap.VerticalVelocity),
  (text% "HorizontalSpeedAndBearing", Asn.Ranap.HorizontalSpeedAndBearing),
  (text% "HorizontalWithVerticalVelocityAndUncertainty", Asn.Ranap.HorizontalWithVerticalVelocityAndUncertainty),
  (text% "HorizontalVelocityWithUncertainty", Asn.Ranap.HorizontalVelocityWithUncertainty),
  (text% "HorizontalWithVerticalVelocity", Asn.Ranap.HorizontalWithVerticalVelocity),
  (text% "HorizontalVelocity", Asn.Ranap.HorizontalVelocity),
  (text% "VelocityEstimate", Asn.Ranap.VelocityEstimate),
  (text% "VoiceSupportMatchIndicator", Asn.Ranap.VoiceSupportMatchIndicator),
  (text% "Iu-ReleaseCommand", Asn.Ranap.Iu_ReleaseCommand),
  (text% "Iu-ReleaseComplete", Asn.Ranap.Iu_ReleaseComplete),
  (text% "RAB-DataVolumeReportList", Asn.Ranap.RAB_DataVolumeReportList),
  (text% "DataVolumeList-Value", Asn.Ranap.DataVolumeList_Value),
  (text% "DataVolumeList", Asn.Ranap.DataVolumeList),
  (text% "RAB-DataVolumeReportItem", Asn.Ranap.RAB_DataVolumeReportItem),
  (text% "RAB-ReleasedList-IuRelComp", Asn.Ranap.RAB_ReleasedList_IuRelComp),
  (text% "RAB-ReleasedItem-IuRelComp", Asn.Ranap.RAB_ReleasedItem_IuRelComp),
  (text% "RelocationRequired", Asn.Ranap.RelocationRequired),
  (text% "RelocationCommand", Asn.Ranap.RelocationCommand),
  (text% "RAB-RelocationReleaseList", Asn.Ranap.RAB_RelocationReleaseList),
  (text% "RAB-RelocationReleaseItem", Asn.Ranap.RAB_RelocationReleaseItem),
  (text% "RAB-DataForwardingList", Asn.Ranap.RAB_DataForwardingList),
  (text% "RAB-DataForwardingItem", Asn.Ranap.RAB_DataForwardingItem),
  (text% "RelocationPreparationFailure", Asn.Ranap.RelocationPreparationFailure),
  (text% "RelocationRequest", Asn.Ranap.RelocationRequest),
  (text% "RAB-SetupList-RelocReq", Asn.Ranap.RAB_SetupList_RelocReq),
  (text% "UserPlaneInformation", Asn.Ranap.UserPlaneInformation),
  (text% "RAB-SetupItem-RelocReq", Asn.Ranap.RAB_SetupItem_RelocReq),
  (text% "JoinedMBMSBearerService-IEs-Value", Asn.Ranap.JoinedMBMSBearerService_IEs_Value),
  (text% "JoinedMBMSBearerService-IEs", Asn.Ranap.JoinedMBMSBearerService_IEs),
  (text% "CNMBMSLinkingInformation", Asn.Ranap.CNMBMSLinkingInformation),
  (text% "RelocationRequestAcknowledge", Asn.Ranap.RelocationRequestAcknowledge),
  (text% "RAB-SetupList-RelocReqAck", Asn.Ranap.RAB_SetupList_RelocReqAck),
  (text% "RAB-SetupItem-RelocReqAck", Asn.Ranap.RAB_SetupItem_RelocReqAck),
  (text% "RAB-FailedList", Asn.Ranap.RAB_FailedList),
  (text% "RAB-FailedItem", Asn.Ranap.RAB_FailedItem),
  (text% "RelocationFailure", Asn.Ranap.RelocationFailure),
  (text% "RelocationCancel", Asn.Ranap.RelocationCancel),
  (text% "RelocationCancelAcknowledge", Asn.Ranap.RelocationCancelAcknowledge),
  (text% "SRNS-ContextRequest", Asn.Ranap.SRNS_ContextRequest),
  (text% "RAB-DataForwardingList-SRNS-CtxReq", Asn.Ranap.RAB_DataForwardingList_SRNS_CtxReq),
  (text% "RAB-DataForwardingItem-SRNS-CtxReq", Asn.Ranap.RAB_DataForwardingItem_SRNS_CtxReq),
  (text% "SRNS-ContextResponse", Asn.Ranap.SRNS_ContextResponse),
  (text% "RAB-ContextList", Asn.Ranap.RAB_ContextList),
  (text% "RAB-ContextItem", Asn.Ranap.RAB_ContextItem),
  (text% "RABs-ContextFailedtoTransferList", Asn.Ranap.RABs_ContextFailedtoTransferList),
  (text% "RABs-ContextFailedtoTransferItem", Asn.Ranap.RABs_ContextFailedtoTransferItem),
  (text% "SecurityModeCommand", Asn.Ranap.SecurityModeCommand),
  (text% "SecurityModeComplete", Asn.Ranap.SecurityModeComplete),
  (text% "SecurityModeReject", Asn.Ranap.SecurityModeReject),
  (text% "DataVolumeReportRequest", Asn.Ranap.DataVolumeReportRequest),
  (text% "RAB-DataVolumeReportRequestList", Asn.Ranap.RAB_DataVolumeReportRequestList),
  (text% "RAB-DataVolumeReportRequestItem", Asn.Ranap.RAB_DataVolumeReportRequestItem),
  (text% "DataVolumeReport", Asn.Ranap.DataVolumeReport),
  (text% "RABs-failed-to-reportList", Asn.Ranap.RABs_failed_to_reportList),
  (text% "RABs-failed-to-reportItem", Asn.Ranap.RABs_failed_to_reportItem),
  (text% "Reset", Asn.Ranap.Reset),
  (text% "ResetAcknowledge", Asn.Ranap.ResetAcknowledge),
  (text% "ResetResource", Asn.Ranap.ResetResource),
  (text% "ResetResourceList", Asn.Ranap.ResetResourceList),
  (text% "ResetResourceItem", Asn.Ranap.ResetResourceItem),
  (text% "ResetResourceAcknowledge", Asn.Ranap.ResetResourceAcknowledge),
  (text% "ResetResourceAckList", Asn.Ranap.ResetResourceAckList),
  (text% "ResetResourceAckItem", Asn.Ranap.ResetResourceAckItem),
  (text% "RAB-ReleaseRequest", Asn.Ranap.RAB_ReleaseRequest),
  (text% "RAB-ReleaseList", Asn.Ranap.RAB_ReleaseList),
  (text% "RAB-ReleaseItem", Asn.Ranap.RAB_ReleaseItem),
  (text% "Iu-ReleaseRequest", Asn.Ranap.Iu_ReleaseRequest),
  (text% "RelocationDetect", Asn.Ranap.RelocationDetect),
  (text% "RelocationComplete", Asn.Ranap.RelocationComplete),
  (text% "EnhancedRelocationCompleteRequest", Asn.Ranap.EnhancedRelocationCompleteRequest),
  (text% "RAB-SetupList-EnhancedRelocCompleteReq", Asn.Ranap.RAB_SetupList_EnhancedRelocCompleteReq),
  (text% "RAB-SetupItem-EnhancedRelocCompleteReq", Asn.Ranap.RAB_SetupItem_EnhancedRelocCompleteReq),
  (text% "EnhancedRelocationCompleteResponse", Asn.Ranap.EnhancedRelocationCompleteResponse),
  (text% "RAB-SetupList-EnhancedRelocCompleteRes", Asn.Ranap.RAB_SetupList_EnhancedRelocCompleteRes),
  (text% "RAB-ToBeReleasedList-EnhancedRelocCompleteRes", Asn.Ranap.RAB_ToBeReleasedList_EnhancedRelocCompleteRes),
  (text% "RAB-SetupItem-EnhancedRelocCompleteRes", Asn.Ranap.RAB_SetupItem_EnhancedRelocCompleteRes),
  (text% "RAB-ToBeReleasedItem-EnhancedRelocCompleteRes", Asn.Ranap.RAB_ToBeReleasedItem_EnhancedRelocCompleteRes),
  (text% "EnhancedRelocationCompleteFailure", Asn.Ranap.EnhancedRelocationCompleteFailure),
  (text% "EnhancedRelocationCompleteConfirm", Asn.Ranap.EnhancedRelocationCompleteConfirm),
  (text% "Paging", Asn.Ranap.Paging),
  (text% "CommonID", Asn.Ranap.CommonID),
  (text% "CN-InvokeTrace", Asn.Ranap.CN_InvokeTrace),
  (text% "CN-DeactivateTrace", Asn.Ranap.CN_DeactivateTrace),
  (text% "LocationReportingControl", Asn.Ranap.LocationReportingControl),
  (text% "LocationReport", Asn.Ranap.LocationReport),
  (text% "InitialUE-Message", Asn.Ranap.InitialUE_Message),
  (text% "DirectTransfer", Asn.Ranap.DirectTransfer),
  (text% "RedirectionIndication", Asn.Ranap.RedirectionIndication),
  (text% "Overload", Asn.Ranap.Overload),
  (text% "ErrorIndication", Asn.Ranap.ErrorIndication),
  (text% "SRNS-DataForwardCommand", Asn.Ranap.SRNS_DataForwardCommand),
  (text% "ForwardSRNS-Context", Asn.Ranap.ForwardSRNS_Context),
  (text% "RAB-AssignmentRequest", Asn.Ranap.RAB_AssignmentRequest),
  (text% "RAB-SetupOrModifyList", Asn.Ranap.RAB_SetupOrModifyList),
  (text% "TransportLayerInformation", Asn.Ranap.TransportLayerInformation),
  (text% "RAB-SetupOrModifyItemFirst", Asn.Ranap.RAB_SetupOrModifyItemFirst),
  (text% "RAB-SetupOrModifyItemSecond", Asn.Ranap.RAB_SetupOrModifyItemSecond),
  (text% "RAB-AssignmentResponse", Asn.Ranap.RAB_AssignmentResponse),
  (text% "RAB-SetupOrModifiedList", Asn.Ranap.RAB_SetupOrModifiedList),
  (text% "RAB-SetupOrModifiedItem", Asn.Ranap.RAB_SetupOrModifiedItem),
  (text% "RAB-ReleasedList", Asn.Ranap.RAB_ReleasedList),
  (text% "RAB-ReleasedItem", Asn.Ranap.RAB_ReleasedItem),
  (text% "RAB-QueuedList", Asn.Ranap.RAB_QueuedList),
  (text% "RAB-QueuedItem", Asn.Ranap.RAB_QueuedItem),
  (text% "RAB-ReleaseFailedList", Asn.Ranap.RAB_ReleaseFailedList),
  (text% "GERAN-Iumode-RAB-FailedList-RABAssgntResponse", Asn.Ranap.GERAN_Iumode_RAB_FailedList_RABAssgntResponse),
  (text% "GERAN-Iumode-RAB-Failed-RABAssgntResponse-Item", Asn.Ranap.GERAN_Iumode_RAB_Failed_RABAssgntResponse_Item),
  (text% "PrivateMessage", Asn.Ranap.PrivateMessage),
  (text% "RANAP-RelocationInformation", Asn.Ranap.RANAP_RelocationInformation),
  (text% "DirectTransferInformationList-RANAP-RelocInf", Asn.Ranap.DirectTransferInformationList_RANAP_RelocInf),
  (text% "DirectTransferInformationItem-RANAP-RelocInf", Asn.Ranap.DirectTransferInformationItem_RANAP_RelocInf),
  (text% "RAB-ContextList-RANAP-RelocInf", Asn.Ranap.RAB_ContextList_RANAP_RelocInf),
  (text% "RAB-ContextItem-RANAP-RelocInf", Asn.Ranap.RAB_ContextItem_RANAP_RelocInf),
  (text% "RANAP-EnhancedRelocationInformationRequest", Asn.Ranap.RANAP_EnhancedRelocationInformationRequest),
  (text% "RAB-SetupList-EnhRelocInfoReq", Asn.Ranap.RAB_SetupList_EnhRelocInfoReq),
  (text% "TNLInformationEnhRelInfoReq", Asn.Ranap.TNLInformationEnhRelInfoReq),
  (text% "RAB-SetupItem-EnhRelocInfoReq", Asn.Ranap.RAB_SetupItem_EnhRelocInfoReq),
  (text% "RANAP-EnhancedRelocationInformationResponse", Asn.Ranap.RANAP_EnhancedRelocationInformationResponse),
  (text% "RAB-SetupList-EnhRelocInfoRes", Asn.Ranap.RAB_SetupList_EnhRelocInfoRes),
  (text% "TNLInformationEnhRelInfoRes", Asn.Ranap.TNLInformationEnhRelInfoRes),
  (text% "RAB-SetupItem-EnhRelocInfoRes", Asn.Ranap.RAB_SetupItem_EnhRelocInfoRes),
  (text% "RAB-FailedList-EnhRelocInfoRes", Asn.Ranap.RAB_FailedList_EnhRelocInfoRes),
  (text% "RAB-FailedItem-EnhRelocInfoRes", Asn.Ranap.RAB_FailedItem_EnhRelocInfoRes),
  (text% "RAB-ModifyRequest", Asn.Ranap.RAB_ModifyRequest),
  (text% "RAB-ModifyList", Asn.Ranap.RAB_ModifyList),
  (text% "RAB-ModifyItem", Asn.Ranap.RAB_ModifyItem),
  (text% "LocationRelatedDataRequest", Asn.Ranap.LocationRelatedDataRequest),
  (text% "LocationRelatedDataResponse", Asn.Ranap.LocationRelatedDataResponse),
  (text% "LocationRelatedDataFailure", Asn.Ranap.LocationRelatedDataFailure),
  (text% "InformationTransferIndication", Asn.Ranap.InformationTransferIndication),
  (text% "InformationTransferConfirmation", Asn.Ranap.InformationTransferConfirmation),
  (text% "InformationTransferFailure", Asn.Ranap.InformationTransferFailure),
  (text% "UESpecificInformationIndication", Asn.Ranap.UESpecificInformationIndication),
  (text% "DirectInformationTransfer", Asn.Ranap.DirectInformationTransfer),
  (text% "UplinkInformationExchangeRequest", Asn.Ranap.UplinkInformationExchangeRequest),
  (text% "UplinkInformationExchangeResponse", Asn.Ranap.UplinkInformationExchangeResponse),
  (text% "UplinkInformationExchangeFailure", Asn.Ranap.UplinkInformationExchangeFailure),
  (text% "MBMSSessionStart", Asn.Ranap.MBMSSessionStart),
  (text% "MBMSSynchronisationInformation", Asn.Ranap.MBMSSynchronisationInformation),
  (text% "MBMSSessionStartResponse", Asn.Ranap.MBMSSessionStartResponse),
  (text% "MBMSSessionStartFailure", Asn.Ranap.MBMSSessionStartFailure),
  (text% "MBMSSessionUpdate", Asn.Ranap.MBMSSessionUpdate),
  (text% "MBMSSessionUpdateResponse", Asn.Ranap.MBMSSessionUpdateResponse),
  (text% "MBMSSessionUpdateFailure", Asn.Ranap.MBMSSessionUpdateFailure),
  (text% "MBMSSessionStop", Asn.Ranap.MBMSSessionStop),
  (text% "MBMSSessionStopResponse", Asn.Ranap.MBMSSessionStopResponse),
  (text% "MBMSUELinkingRequest", Asn.Ranap.MBMSUELinkingRequest),
  (text% "LeftMBMSBearerService-IEs-Value", Asn.Ranap.LeftMBMSBearerService_IEs_Value),
  (text% "LeftMBMSBearerService-IEs", Asn.Ranap.LeftMBMSBearerService_IEs),
  (text% "MBMSUELinkingResponse", Asn.Ranap.MBMSUELinkingResponse),
  (text% "UnsuccessfulLinking-IEs-Value", Asn.Ranap.UnsuccessfulLinking_IEs_Value),
  (text% "UnsuccessfulLinking-IEs", Asn.Ranap.UnsuccessfulLinking_IEs),
  (text% "MBMSRegistrationRequest", Asn.Ranap.MBMSRegistrationRequest),
  (text% "MBMSRegistrationResponse", Asn.Ranap.MBMSRegistrationResponse),
  (text% "MBMSRegistrationFailure", Asn.Ranap.MBMSRegistrationFailure),
  (text% "MBMSCNDe-RegistrationRequest", Asn.Ranap.MBMSCNDe_RegistrationRequest),
  (text% "MBMSCNDe-RegistrationResponse", Asn.Ranap.MBMSCNDe_RegistrationResponse),
  (text% "MBMSRABEstablishmentIndication", Asn.Ranap.MBMSRABEstablishmentIndication),
  (text% "MBMSRABReleaseRequest", Asn.Ranap.MBMSRABReleaseRequest),
  (text% "MBMSRABRelease", Asn.Ranap.MBMSRABRelease),
  (text% "MBMSRABReleaseFailure", Asn.Ranap.MBMSRABReleaseFailure),
  (text% "SRVCC-CSKeysRequest", Asn.Ranap.SRVCC_CSKeysRequest),
  (text% "SRVCC-CSKeysResponse", Asn.Ranap.SRVCC_CSKeysResponse),
  (text% "UeRadioCapabilityMatchRequest", Asn.Ranap.UeRadioCapabilityMatchRequest),
  (text% "UeRadioCapabilityMatchResponse", Asn.Ranap.UeRadioCapabilityMatchResponse),
  (text% "Outcome", Asn.Ranap.Outcome),
  (text% "UnsuccessfulOutcome", Asn.Ranap.UnsuccessfulOutcome),
  (text% "SuccessfulOutcome", Asn.Ranap.SuccessfulOutcome),
  (text% "InitiatingMessage", Asn.Ranap.InitiatingMessage),
  (text% "RANAP-PDU", Asn.Ranap.RANAP_PDU)]

theorem ranap_typeNameList : typeNames ranapAssignments = ranapTypes.map (·.1) := by kernel_rfl

theorem ranap_stages : stages ranapAssignments [] ranapOrder = some (ranapOrder.map (·.2)) := by kernel_rfl

theorem ranap_ordered : ranapTypes.map (fun x => findF (key x.1) ranapOrder) = ranapTypes.map fun x => some x.2 := by kernel_rfl

theorem ranap_defines : TypesOf ranapAssignments ranapTypes :=
  typesOf_of_stages ranap_typeNameList ranap_stages ranap_ordered

theorem ranap_nameTable : nameTable ranapAssignments = AsnNames.ranapAsn ++ [("IE", [("id", 0), ("criticality", 1), ("value", 2)])] := by
  kernel_rfl

theorem ranap_named : (ranapTypes.filter fun x => x.1 ≠ text% "DirectTransferInformationList-RANAP-RelocInf").map
    (fun x => (String.ofList x.1, x.2)) = AsnTable.ranapNamed.map fun t => (t.2.name, t.2.asn) := by kernel_rfl

theorem ranap_elementTypes : ranapSets.map (fun s => (String.ofList s.1, (s.2.filter fun r => r.ty ≠ text% "DirectTransferInformationList-RANAP-RelocInf").map fun r =>
      (String.ofList r.id, String.ofList r.ty))) =
    AsnTable.Ranap.elements.map fun s => (s.1, s.2.map fun e => (e.1, e.2.name)) := by kernel_rfl

theorem ranap_elementNamed : AsnTable.Ranap.elements.map (fun s => s.2.map fun e => some e.2) =
    AsnTable.ranapIndices.map fun l => l.map fun i => AsnTable.ranapNamed[i]?.map (·.2) := by kernel_rfl

end Verif.Gen.Text
