import Verif.Spec.Asn
import Verif.Gen.AsnRanap
import Verif.Gen.RanapTypesMore
import Verif.Gen.RanapIes
import Verif.Gen.AsnRua
import Verif.Gen.RuaTypesMore
import Verif.Gen.RuaIes
import Verif.Gen.AsnHnbap
import Verif.Gen.HnbapTypesMore
import Verif.Gen.HnbapIes
import Verif.Gen.AsnSabp
import Verif.Gen.SabpTypesMore
import Verif.Gen.SabpIes

/-!
# The types of the ASN.1 specifications and those of the C code

Generated by the script which also wrote `Verif/Gen/Asn*.lean`: the types of both sides, matched by name (with `-` replaced by `_`, and
`GERAN-Iumode-RAB-FailedList-RABAssgntResponse` by the name it has in the code).  The division into several tables is
justified by the theorems about them (`Verif/Props/Asn.lean`).
-/

namespace Verif.Gen.AsnTable
open Verif.Asn

namespace Ranap
def Criticality : NamedTy := ⟨"Criticality", Asn.Ranap.Criticality, Gen.Ranap.RANAP_Criticality⟩
def Presence : NamedTy := ⟨"Presence", Asn.Ranap.Presence, Gen.Ranap.RANAP_Presence⟩
def PrivateIE_ID : NamedTy := ⟨"PrivateIE-ID", Asn.Ranap.PrivateIE_ID, Gen.Ranap.RANAP_PrivateIE_ID⟩
def ProcedureCode : NamedTy := ⟨"ProcedureCode", Asn.Ranap.ProcedureCode, Gen.Ranap.RANAP_ProcedureCode⟩
def ProtocolExtensionID : NamedTy := ⟨"ProtocolExtensionID", Asn.Ranap.ProtocolExtensionID, Gen.Ranap.RANAP_ProtocolExtensionID⟩
def ProtocolIE_ID : NamedTy := ⟨"ProtocolIE-ID", Asn.Ranap.ProtocolIE_ID, Gen.Ranap.RANAP_ProtocolIE_ID⟩
def TriggeringMessage : NamedTy := ⟨"TriggeringMessage", Asn.Ranap.TriggeringMessage, Gen.Ranap.RANAP_TriggeringMessage⟩
def IE_Extensions : NamedTy := ⟨"IE-Extensions", Asn.Ranap.IE_Extensions, Gen.Ranap.RANAP_IE_Extensions⟩
def AccuracyFulfilmentIndicator : NamedTy := ⟨"AccuracyFulfilmentIndicator", Asn.Ranap.AccuracyFulfilmentIndicator, Gen.Ranap.RANAP_AccuracyFulfilmentIndicator⟩
def AllocationOrRetentionPriority : NamedTy := ⟨"AllocationOrRetentionPriority", Asn.Ranap.AllocationOrRetentionPriority, Gen.Ranap.RANAP_AllocationOrRetentionPriority⟩
def Alt_RAB_Parameters : NamedTy := ⟨"Alt-RAB-Parameters", Asn.Ranap.Alt_RAB_Parameters, Gen.Ranap.RANAP_Alt_RAB_Parameters⟩
def Alt_RAB_Parameter_ExtendedGuaranteedBitrateInf : NamedTy := ⟨"Alt-RAB-Parameter-ExtendedGuaranteedBitrateInf", Asn.Ranap.Alt_RAB_Parameter_ExtendedGuaranteedBitrateInf, Gen.Ranap.RANAP_Alt_RAB_Parameter_ExtendedGuaranteedBitrateInf⟩
def Alt_RAB_Parameter_ExtendedGuaranteedBitrates : NamedTy := ⟨"Alt-RAB-Parameter-ExtendedGuaranteedBitrates", Asn.Ranap.Alt_RAB_Parameter_ExtendedGuaranteedBitrates, Gen.Ranap.RANAP_Alt_RAB_Parameter_ExtendedGuaranteedBitrates⟩
def Alt_RAB_Parameter_ExtendedGuaranteedBitrateList : NamedTy := ⟨"Alt-RAB-Parameter-ExtendedGuaranteedBitrateList", Asn.Ranap.Alt_RAB_Parameter_ExtendedGuaranteedBitrateList, Gen.Ranap.RANAP_Alt_RAB_Parameter_ExtendedGuaranteedBitrateList⟩
def Alt_RAB_Parameter_GuaranteedBitrateInf : NamedTy := ⟨"Alt-RAB-Parameter-GuaranteedBitrateInf", Asn.Ranap.Alt_RAB_Parameter_GuaranteedBitrateInf, Gen.Ranap.RANAP_Alt_RAB_Parameter_GuaranteedBitrateInf⟩
def Alt_RAB_Parameter_GuaranteedBitrateType : NamedTy := ⟨"Alt-RAB-Parameter-GuaranteedBitrateType", Asn.Ranap.Alt_RAB_Parameter_GuaranteedBitrateType, Gen.Ranap.RANAP_Alt_RAB_Parameter_GuaranteedBitrateType⟩
def Alt_RAB_Parameter_GuaranteedBitrates : NamedTy := ⟨"Alt-RAB-Parameter-GuaranteedBitrates", Asn.Ranap.Alt_RAB_Parameter_GuaranteedBitrates, Gen.Ranap.RANAP_Alt_RAB_Parameter_GuaranteedBitrates⟩
def Alt_RAB_Parameter_GuaranteedBitrateList : NamedTy := ⟨"Alt-RAB-Parameter-GuaranteedBitrateList", Asn.Ranap.Alt_RAB_Parameter_GuaranteedBitrateList, Gen.Ranap.RANAP_Alt_RAB_Parameter_GuaranteedBitrateList⟩
def Alt_RAB_Parameter_SupportedGuaranteedBitrateInf : NamedTy := ⟨"Alt-RAB-Parameter-SupportedGuaranteedBitrateInf", Asn.Ranap.Alt_RAB_Parameter_SupportedGuaranteedBitrateInf, Gen.Ranap.RANAP_Alt_RAB_Parameter_SupportedGuaranteedBitrateInf⟩
def Alt_RAB_Parameter_SupportedGuaranteedBitrates : NamedTy := ⟨"Alt-RAB-Parameter-SupportedGuaranteedBitrates", Asn.Ranap.Alt_RAB_Parameter_SupportedGuaranteedBitrates, Gen.Ranap.RANAP_Alt_RAB_Parameter_SupportedGuaranteedBitrates⟩
def Alt_RAB_Parameter_ExtendedMaxBitrateInf : NamedTy := ⟨"Alt-RAB-Parameter-ExtendedMaxBitrateInf", Asn.Ranap.Alt_RAB_Parameter_ExtendedMaxBitrateInf, Gen.Ranap.RANAP_Alt_RAB_Parameter_ExtendedMaxBitrateInf⟩
def Alt_RAB_Parameter_ExtendedMaxBitrates : NamedTy := ⟨"Alt-RAB-Parameter-ExtendedMaxBitrates", Asn.Ranap.Alt_RAB_Parameter_ExtendedMaxBitrates, Gen.Ranap.RANAP_Alt_RAB_Parameter_ExtendedMaxBitrates⟩
def Alt_RAB_Parameter_ExtendedMaxBitrateList : NamedTy := ⟨"Alt-RAB-Parameter-ExtendedMaxBitrateList", Asn.Ranap.Alt_RAB_Parameter_ExtendedMaxBitrateList, Gen.Ranap.RANAP_Alt_RAB_Parameter_ExtendedMaxBitrateList⟩
def Alt_RAB_Parameter_MaxBitrateInf : NamedTy := ⟨"Alt-RAB-Parameter-MaxBitrateInf", Asn.Ranap.Alt_RAB_Parameter_MaxBitrateInf, Gen.Ranap.RANAP_Alt_RAB_Parameter_MaxBitrateInf⟩
def Alt_RAB_Parameter_MaxBitrateType : NamedTy := ⟨"Alt-RAB-Parameter-MaxBitrateType", Asn.Ranap.Alt_RAB_Parameter_MaxBitrateType, Gen.Ranap.RANAP_Alt_RAB_Parameter_MaxBitrateType⟩
def Alt_RAB_Parameter_MaxBitrates : NamedTy := ⟨"Alt-RAB-Parameter-MaxBitrates", Asn.Ranap.Alt_RAB_Parameter_MaxBitrates, Gen.Ranap.RANAP_Alt_RAB_Parameter_MaxBitrates⟩
def Alt_RAB_Parameter_MaxBitrateList : NamedTy := ⟨"Alt-RAB-Parameter-MaxBitrateList", Asn.Ranap.Alt_RAB_Parameter_MaxBitrateList, Gen.Ranap.RANAP_Alt_RAB_Parameter_MaxBitrateList⟩
def Alt_RAB_Parameter_SupportedMaxBitrateInf : NamedTy := ⟨"Alt-RAB-Parameter-SupportedMaxBitrateInf", Asn.Ranap.Alt_RAB_Parameter_SupportedMaxBitrateInf, Gen.Ranap.RANAP_Alt_RAB_Parameter_SupportedMaxBitrateInf⟩
def Alt_RAB_Parameter_SupportedMaxBitrates : NamedTy := ⟨"Alt-RAB-Parameter-SupportedMaxBitrates", Asn.Ranap.Alt_RAB_Parameter_SupportedMaxBitrates, Gen.Ranap.RANAP_Alt_RAB_Parameter_SupportedMaxBitrates⟩
def AlternativeRABConfigurationRequest : NamedTy := ⟨"AlternativeRABConfigurationRequest", Asn.Ranap.AlternativeRABConfigurationRequest, Gen.Ranap.RANAP_AlternativeRABConfigurationRequest⟩
def APN : NamedTy := ⟨"APN", Asn.Ranap.APN, Gen.Ranap.RANAP_APN⟩
def AreaIdentity : NamedTy := ⟨"AreaIdentity", Asn.Ranap.AreaIdentity, Gen.Ranap.RANAP_AreaIdentity⟩
def Ass_RAB_Parameters : NamedTy := ⟨"Ass-RAB-Parameters", Asn.Ranap.Ass_RAB_Parameters, Gen.Ranap.RANAP_Ass_RAB_Parameters⟩
def Ass_RAB_Parameter_ExtendedGuaranteedBitrateList : NamedTy := ⟨"Ass-RAB-Parameter-ExtendedGuaranteedBitrateList", Asn.Ranap.Ass_RAB_Parameter_ExtendedGuaranteedBitrateList, Gen.Ranap.RANAP_Ass_RAB_Parameter_ExtendedGuaranteedBitrateList⟩
def Ass_RAB_Parameter_ExtendedMaxBitrateList : NamedTy := ⟨"Ass-RAB-Parameter-ExtendedMaxBitrateList", Asn.Ranap.Ass_RAB_Parameter_ExtendedMaxBitrateList, Gen.Ranap.RANAP_Ass_RAB_Parameter_ExtendedMaxBitrateList⟩
def Ass_RAB_Parameter_GuaranteedBitrateList : NamedTy := ⟨"Ass-RAB-Parameter-GuaranteedBitrateList", Asn.Ranap.Ass_RAB_Parameter_GuaranteedBitrateList, Gen.Ranap.RANAP_Ass_RAB_Parameter_GuaranteedBitrateList⟩
def Ass_RAB_Parameter_MaxBitrateList : NamedTy := ⟨"Ass-RAB-Parameter-MaxBitrateList", Asn.Ranap.Ass_RAB_Parameter_MaxBitrateList, Gen.Ranap.RANAP_Ass_RAB_Parameter_MaxBitrateList⟩
def AuthorisedPLMNs : NamedTy := ⟨"AuthorisedPLMNs", Asn.Ranap.AuthorisedPLMNs, Gen.Ranap.RANAP_AuthorisedPLMNs⟩
def AuthorisedPLMNs_Value : NamedTy := ⟨"AuthorisedPLMNs-Value", Asn.Ranap.AuthorisedPLMNs_Value, Gen.Ranap.RANAP_AuthorisedPLMNs_Value⟩
def AuthorisedSNAs : NamedTy := ⟨"AuthorisedSNAs", Asn.Ranap.AuthorisedSNAs, Gen.Ranap.RANAP_AuthorisedSNAs⟩
def BindingID : NamedTy := ⟨"BindingID", Asn.Ranap.BindingID, Gen.Ranap.RANAP_BindingID⟩
def BroadcastAssistanceDataDecipheringKeys : NamedTy := ⟨"BroadcastAssistanceDataDecipheringKeys", Asn.Ranap.BroadcastAssistanceDataDecipheringKeys, Gen.Ranap.RANAP_BroadcastAssistanceDataDecipheringKeys⟩
def Cause : NamedTy := ⟨"Cause", Asn.Ranap.Cause, Gen.Ranap.RANAP_Cause⟩
def CauseMisc : NamedTy := ⟨"CauseMisc", Asn.Ranap.CauseMisc, Gen.Ranap.RANAP_CauseMisc⟩
def CauseNAS : NamedTy := ⟨"CauseNAS", Asn.Ranap.CauseNAS, Gen.Ranap.RANAP_CauseNAS⟩
def CauseProtocol : NamedTy := ⟨"CauseProtocol", Asn.Ranap.CauseProtocol, Gen.Ranap.RANAP_CauseProtocol⟩
def CauseRadioNetwork : NamedTy := ⟨"CauseRadioNetwork", Asn.Ranap.CauseRadioNetwork, Gen.Ranap.RANAP_CauseRadioNetwork⟩
def CauseRadioNetworkExtension : NamedTy := ⟨"CauseRadioNetworkExtension", Asn.Ranap.CauseRadioNetworkExtension, Gen.Ranap.RANAP_CauseRadioNetworkExtension⟩
def CauseNon_Standard : NamedTy := ⟨"CauseNon-Standard", Asn.Ranap.CauseNon_Standard, Gen.Ranap.RANAP_CauseNon_Standard⟩
def CauseTransmissionNetwork : NamedTy := ⟨"CauseTransmissionNetwork", Asn.Ranap.CauseTransmissionNetwork, Gen.Ranap.RANAP_CauseTransmissionNetwork⟩
def Cell_Access_Mode : NamedTy := ⟨"Cell-Access-Mode", Asn.Ranap.Cell_Access_Mode, Gen.Ranap.RANAP_Cell_Access_Mode⟩
def CellBased : NamedTy := ⟨"CellBased", Asn.Ranap.CellBased, Gen.Ranap.RANAP_CellBased⟩
def CellIdList : NamedTy := ⟨"CellIdList", Asn.Ranap.CellIdList, Gen.Ranap.RANAP_CellIdList⟩
def Cell_Id : NamedTy := ⟨"Cell-Id", Asn.Ranap.Cell_Id, Gen.Ranap.RANAP_Cell_Id⟩
def Cell_Capacity_Class_Value : NamedTy := ⟨"Cell-Capacity-Class-Value", Asn.Ranap.Cell_Capacity_Class_Value, Gen.Ranap.RANAP_Cell_Capacity_Class_Value⟩
def CellLoadInformation : NamedTy := ⟨"CellLoadInformation", Asn.Ranap.CellLoadInformation, Gen.Ranap.RANAP_CellLoadInformation⟩
def CellLoadInformationGroup : NamedTy := ⟨"CellLoadInformationGroup", Asn.Ranap.CellLoadInformationGroup, Gen.Ranap.RANAP_CellLoadInformationGroup⟩
def CellType : NamedTy := ⟨"CellType", Asn.Ranap.CellType, Gen.Ranap.RANAP_CellType⟩
def ClientType : NamedTy := ⟨"ClientType", Asn.Ranap.ClientType, Gen.Ranap.RANAP_ClientType⟩
def CriticalityDiagnostics : NamedTy := ⟨"CriticalityDiagnostics", Asn.Ranap.CriticalityDiagnostics, Gen.Ranap.RANAP_CriticalityDiagnostics⟩
def CriticalityDiagnostics_IE_List : NamedTy := ⟨"CriticalityDiagnostics-IE-List", Asn.Ranap.CriticalityDiagnostics_IE_List, Gen.Ranap.RANAP_CriticalityDiagnostics_IE_List⟩
def CriticalityDiagnostics_IE_List_Value : NamedTy := ⟨"CriticalityDiagnostics-IE-List-Value", Asn.Ranap.CriticalityDiagnostics_IE_List_Value, Gen.Ranap.RANAP_CriticalityDiagnostics_IE_List_Value⟩
def MessageStructure : NamedTy := ⟨"MessageStructure", Asn.Ranap.MessageStructure, Gen.Ranap.RANAP_MessageStructure⟩
def MessageStructure_Value : NamedTy := ⟨"MessageStructure-Value", Asn.Ranap.MessageStructure_Value, Gen.Ranap.RANAP_MessageStructure_Value⟩
def CGI : NamedTy := ⟨"CGI", Asn.Ranap.CGI, Gen.Ranap.RANAP_CGI⟩
def ChosenEncryptionAlgorithm : NamedTy := ⟨"ChosenEncryptionAlgorithm", Asn.Ranap.ChosenEncryptionAlgorithm, Gen.Ranap.RANAP_ChosenEncryptionAlgorithm⟩
def ChosenIntegrityProtectionAlgorithm : NamedTy := ⟨"ChosenIntegrityProtectionAlgorithm", Asn.Ranap.ChosenIntegrityProtectionAlgorithm, Gen.Ranap.RANAP_ChosenIntegrityProtectionAlgorithm⟩
def CI : NamedTy := ⟨"CI", Asn.Ranap.CI, Gen.Ranap.RANAP_CI⟩
def ClassmarkInformation2 : NamedTy := ⟨"ClassmarkInformation2", Asn.Ranap.ClassmarkInformation2, Gen.Ranap.RANAP_ClassmarkInformation2⟩
def ClassmarkInformation3 : NamedTy := ⟨"ClassmarkInformation3", Asn.Ranap.ClassmarkInformation3, Gen.Ranap.RANAP_ClassmarkInformation3⟩
def CN_DomainIndicator : NamedTy := ⟨"CN-DomainIndicator", Asn.Ranap.CN_DomainIndicator, Gen.Ranap.RANAP_CN_DomainIndicator⟩
def CN_ID : NamedTy := ⟨"CN-ID", Asn.Ranap.CN_ID, Gen.Ranap.RANAP_CN_ID⟩
def Correlation_ID : NamedTy := ⟨"Correlation-ID", Asn.Ranap.Correlation_ID, Gen.Ranap.RANAP_Correlation_ID⟩
def CSFB_Information : NamedTy := ⟨"CSFB-Information", Asn.Ranap.CSFB_Information, Gen.Ranap.RANAP_CSFB_Information⟩
def CSG_Id : NamedTy := ⟨"CSG-Id", Asn.Ranap.CSG_Id, Gen.Ranap.RANAP_CSG_Id⟩
def CSG_Id_List : NamedTy := ⟨"CSG-Id-List", Asn.Ranap.CSG_Id_List, Gen.Ranap.RANAP_CSG_Id_List⟩
def CSG_Membership_Status : NamedTy := ⟨"CSG-Membership-Status", Asn.Ranap.CSG_Membership_Status, Gen.Ranap.RANAP_CSG_Membership_Status⟩
def DataPDUType : NamedTy := ⟨"DataPDUType", Asn.Ranap.DataPDUType, Gen.Ranap.RANAP_DataPDUType⟩
def DataVolumeReference : NamedTy := ⟨"DataVolumeReference", Asn.Ranap.DataVolumeReference, Gen.Ranap.RANAP_DataVolumeReference⟩
def DataVolumeReportingIndication : NamedTy := ⟨"DataVolumeReportingIndication", Asn.Ranap.DataVolumeReportingIndication, Gen.Ranap.RANAP_DataVolumeReportingIndication⟩
def DCH_ID : NamedTy := ⟨"DCH-ID", Asn.Ranap.DCH_ID, Gen.Ranap.RANAP_DCH_ID⟩
def DeliveryOfErroneousSDU : NamedTy := ⟨"DeliveryOfErroneousSDU", Asn.Ranap.DeliveryOfErroneousSDU, Gen.Ranap.RANAP_DeliveryOfErroneousSDU⟩
def DeliveryOrder : NamedTy := ⟨"DeliveryOrder", Asn.Ranap.DeliveryOrder, Gen.Ranap.RANAP_DeliveryOrder⟩
def DeltaRAListofIdleModeUEs : NamedTy := ⟨"DeltaRAListofIdleModeUEs", Asn.Ranap.DeltaRAListofIdleModeUEs, Gen.Ranap.RANAP_DeltaRAListofIdleModeUEs⟩
def NewRAListofIdleModeUEs : NamedTy := ⟨"NewRAListofIdleModeUEs", Asn.Ranap.NewRAListofIdleModeUEs, Gen.Ranap.RANAP_NewRAListofIdleModeUEs⟩
def RAListwithNoIdleModeUEsAnyMore : NamedTy := ⟨"RAListwithNoIdleModeUEsAnyMore", Asn.Ranap.RAListwithNoIdleModeUEsAnyMore, Gen.Ranap.RANAP_RAListwithNoIdleModeUEsAnyMore⟩
def ForwardingIndication : NamedTy := ⟨"ForwardingIndication", Asn.Ranap.ForwardingIndication, Gen.Ranap.RANAP_ForwardingIndication⟩
def DL_GTP_PDU_SequenceNumber : NamedTy := ⟨"DL-GTP-PDU-SequenceNumber", Asn.Ranap.DL_GTP_PDU_SequenceNumber, Gen.Ranap.RANAP_DL_GTP_PDU_SequenceNumber⟩
def DL_N_PDU_SequenceNumber : NamedTy := ⟨"DL-N-PDU-SequenceNumber", Asn.Ranap.DL_N_PDU_SequenceNumber, Gen.Ranap.RANAP_DL_N_PDU_SequenceNumber⟩
def D_RNTI : NamedTy := ⟨"D-RNTI", Asn.Ranap.D_RNTI, Gen.Ranap.RANAP_D_RNTI⟩
def DRX_CycleLengthCoefficient : NamedTy := ⟨"DRX-CycleLengthCoefficient", Asn.Ranap.DRX_CycleLengthCoefficient, Gen.Ranap.RANAP_DRX_CycleLengthCoefficient⟩
def DSCH_ID : NamedTy := ⟨"DSCH-ID", Asn.Ranap.DSCH_ID, Gen.Ranap.RANAP_DSCH_ID⟩
def EARFCN_Extended : NamedTy := ⟨"EARFCN-Extended", Asn.Ranap.EARFCN_Extended, Gen.Ranap.RANAP_EARFCN_Extended⟩
def E_DCH_MAC_d_Flow_ID : NamedTy := ⟨"E-DCH-MAC-d-Flow-ID", Asn.Ranap.E_DCH_MAC_d_Flow_ID, Gen.Ranap.RANAP_E_DCH_MAC_d_Flow_ID⟩
def ENB_ID : NamedTy := ⟨"ENB-ID", Asn.Ranap.ENB_ID, Gen.Ranap.RANAP_ENB_ID⟩
def EncryptionAlgorithm : NamedTy := ⟨"EncryptionAlgorithm", Asn.Ranap.EncryptionAlgorithm, Gen.Ranap.RANAP_EncryptionAlgorithm⟩
def EncryptionInformation : NamedTy := ⟨"EncryptionInformation", Asn.Ranap.EncryptionInformation, Gen.Ranap.RANAP_EncryptionInformation⟩
def EncryptionKey : NamedTy := ⟨"EncryptionKey", Asn.Ranap.EncryptionKey, Gen.Ranap.RANAP_EncryptionKey⟩
def End_Of_CSFB : NamedTy := ⟨"End-Of-CSFB", Asn.Ranap.End_Of_CSFB, Gen.Ranap.RANAP_End_Of_CSFB⟩
def EquipmentsToBeTraced : NamedTy := ⟨"EquipmentsToBeTraced", Asn.Ranap.EquipmentsToBeTraced, Gen.Ranap.RANAP_EquipmentsToBeTraced⟩
def E_UTRAN_Service_Handover : NamedTy := ⟨"E-UTRAN-Service-Handover", Asn.Ranap.E_UTRAN_Service_Handover, Gen.Ranap.RANAP_E_UTRAN_Service_Handover⟩
def Event : NamedTy := ⟨"Event", Asn.Ranap.Event, Gen.Ranap.RANAP_Event⟩
def Event1F_Parameters : NamedTy := ⟨"Event1F-Parameters", Asn.Ranap.Event1F_Parameters, Gen.Ranap.RANAP_Event1F_Parameters⟩
def Event1I_Parameters : NamedTy := ⟨"Event1I-Parameters", Asn.Ranap.Event1I_Parameters, Gen.Ranap.RANAP_Event1I_Parameters⟩
def ExtendedGuaranteedBitrate : NamedTy := ⟨"ExtendedGuaranteedBitrate", Asn.Ranap.ExtendedGuaranteedBitrate, Gen.Ranap.RANAP_ExtendedGuaranteedBitrate⟩
def ExtendedMaxBitrate : NamedTy := ⟨"ExtendedMaxBitrate", Asn.Ranap.ExtendedMaxBitrate, Gen.Ranap.RANAP_ExtendedMaxBitrate⟩
def ExtendedRNC_ID : NamedTy := ⟨"ExtendedRNC-ID", Asn.Ranap.ExtendedRNC_ID, Gen.Ranap.RANAP_ExtendedRNC_ID⟩
def FrameSequenceNumber : NamedTy := ⟨"FrameSequenceNumber", Asn.Ranap.FrameSequenceNumber, Gen.Ranap.RANAP_FrameSequenceNumber⟩
def FrequenceLayerConvergenceFlag : NamedTy := ⟨"FrequenceLayerConvergenceFlag", Asn.Ranap.FrequenceLayerConvergenceFlag, Gen.Ranap.RANAP_FrequenceLayerConvergenceFlag⟩
def GANSS_PositioningDataSet : NamedTy := ⟨"GANSS-PositioningDataSet", Asn.Ranap.GANSS_PositioningDataSet, Gen.Ranap.RANAP_GANSS_PositioningDataSet⟩
def GANSS_PositioningMethodAndUsage : NamedTy := ⟨"GANSS-PositioningMethodAndUsage", Asn.Ranap.GANSS_PositioningMethodAndUsage, Gen.Ranap.RANAP_GANSS_PositioningMethodAndUsage⟩
def GeographicalArea : NamedTy := ⟨"GeographicalArea", Asn.Ranap.GeographicalArea, Gen.Ranap.RANAP_GeographicalArea⟩
def GeographicalCoordinates : NamedTy := ⟨"GeographicalCoordinates", Asn.Ranap.GeographicalCoordinates, Gen.Ranap.RANAP_GeographicalCoordinates⟩
def GA_AltitudeAndDirection : NamedTy := ⟨"GA-AltitudeAndDirection", Asn.Ranap.GA_AltitudeAndDirection, Gen.Ranap.RANAP_GA_AltitudeAndDirection⟩
def GA_EllipsoidArc : NamedTy := ⟨"GA-EllipsoidArc", Asn.Ranap.GA_EllipsoidArc, Gen.Ranap.RANAP_GA_EllipsoidArc⟩
def GA_Point : NamedTy := ⟨"GA-Point", Asn.Ranap.GA_Point, Gen.Ranap.RANAP_GA_Point⟩
def GA_PointWithAltitude : NamedTy := ⟨"GA-PointWithAltitude", Asn.Ranap.GA_PointWithAltitude, Gen.Ranap.RANAP_GA_PointWithAltitude⟩
def GA_PointWithAltitudeAndUncertaintyEllipsoid : NamedTy := ⟨"GA-PointWithAltitudeAndUncertaintyEllipsoid", Asn.Ranap.GA_PointWithAltitudeAndUncertaintyEllipsoid, Gen.Ranap.RANAP_GA_PointWithAltitudeAndUncertaintyEllipsoid⟩
def GA_PointWithUnCertainty : NamedTy := ⟨"GA-PointWithUnCertainty", Asn.Ranap.GA_PointWithUnCertainty, Gen.Ranap.RANAP_GA_PointWithUnCertainty⟩
def GA_PointWithUnCertaintyEllipse : NamedTy := ⟨"GA-PointWithUnCertaintyEllipse", Asn.Ranap.GA_PointWithUnCertaintyEllipse, Gen.Ranap.RANAP_GA_PointWithUnCertaintyEllipse⟩
def GA_Polygon : NamedTy := ⟨"GA-Polygon", Asn.Ranap.GA_Polygon, Gen.Ranap.RANAP_GA_Polygon⟩
def GA_Polygon_Value : NamedTy := ⟨"GA-Polygon-Value", Asn.Ranap.GA_Polygon_Value, Gen.Ranap.RANAP_GA_Polygon_Value⟩
def GA_UncertaintyEllipse : NamedTy := ⟨"GA-UncertaintyEllipse", Asn.Ranap.GA_UncertaintyEllipse, Gen.Ranap.RANAP_GA_UncertaintyEllipse⟩
def GERAN_BSC_Container : NamedTy := ⟨"GERAN-BSC-Container", Asn.Ranap.GERAN_BSC_Container, Gen.Ranap.RANAP_GERAN_BSC_Container⟩
def GERAN_Cell_ID : NamedTy := ⟨"GERAN-Cell-ID", Asn.Ranap.GERAN_Cell_ID, Gen.Ranap.RANAP_GERAN_Cell_ID⟩
def GERAN_Classmark : NamedTy := ⟨"GERAN-Classmark", Asn.Ranap.GERAN_Classmark, Gen.Ranap.RANAP_GERAN_Classmark⟩
def GlobalCN_ID : NamedTy := ⟨"GlobalCN-ID", Asn.Ranap.GlobalCN_ID, Gen.Ranap.RANAP_GlobalCN_ID⟩
def GlobalRNC_ID : NamedTy := ⟨"GlobalRNC-ID", Asn.Ranap.GlobalRNC_ID, Gen.Ranap.RANAP_GlobalRNC_ID⟩
def GTP_TEI : NamedTy := ⟨"GTP-TEI", Asn.Ranap.GTP_TEI, Gen.Ranap.RANAP_GTP_TEI⟩
def GuaranteedBitrate : NamedTy := ⟨"GuaranteedBitrate", Asn.Ranap.GuaranteedBitrate, Gen.Ranap.RANAP_GuaranteedBitrate⟩
def HigherBitratesThan16MbpsFlag : NamedTy := ⟨"HigherBitratesThan16MbpsFlag", Asn.Ranap.HigherBitratesThan16MbpsFlag, Gen.Ranap.RANAP_HigherBitratesThan16MbpsFlag⟩
def HS_DSCH_MAC_d_Flow_ID : NamedTy := ⟨"HS-DSCH-MAC-d-Flow-ID", Asn.Ranap.HS_DSCH_MAC_d_Flow_ID, Gen.Ranap.RANAP_HS_DSCH_MAC_d_Flow_ID⟩
def IMEI : NamedTy := ⟨"IMEI", Asn.Ranap.IMEI, Gen.Ranap.RANAP_IMEI⟩
def IMEIGroup : NamedTy := ⟨"IMEIGroup", Asn.Ranap.IMEIGroup, Gen.Ranap.RANAP_IMEIGroup⟩
def IMEIList : NamedTy := ⟨"IMEIList", Asn.Ranap.IMEIList, Gen.Ranap.RANAP_IMEIList⟩
def IMEISV : NamedTy := ⟨"IMEISV", Asn.Ranap.IMEISV, Gen.Ranap.RANAP_IMEISV⟩
def IMEISVGroup : NamedTy := ⟨"IMEISVGroup", Asn.Ranap.IMEISVGroup, Gen.Ranap.RANAP_IMEISVGroup⟩
def IMEISVList : NamedTy := ⟨"IMEISVList", Asn.Ranap.IMEISVList, Gen.Ranap.RANAP_IMEISVList⟩
def ImmediateMDT : NamedTy := ⟨"ImmediateMDT", Asn.Ranap.ImmediateMDT, Gen.Ranap.RANAP_ImmediateMDT⟩
def IMSI : NamedTy := ⟨"IMSI", Asn.Ranap.IMSI, Gen.Ranap.RANAP_IMSI⟩
def IncludeVelocity : NamedTy := ⟨"IncludeVelocity", Asn.Ranap.IncludeVelocity, Gen.Ranap.RANAP_IncludeVelocity⟩
def InformationExchangeID : NamedTy := ⟨"InformationExchangeID", Asn.Ranap.InformationExchangeID, Gen.Ranap.RANAP_InformationExchangeID⟩
def InformationExchangeType : NamedTy := ⟨"InformationExchangeType", Asn.Ranap.InformationExchangeType, Gen.Ranap.RANAP_InformationExchangeType⟩
def InformationRequested : NamedTy := ⟨"InformationRequested", Asn.Ranap.InformationRequested, Gen.Ranap.RANAP_InformationRequested⟩
def InformationRequestType : NamedTy := ⟨"InformationRequestType", Asn.Ranap.InformationRequestType, Gen.Ranap.RANAP_InformationRequestType⟩
def InformationTransferID : NamedTy := ⟨"InformationTransferID", Asn.Ranap.InformationTransferID, Gen.Ranap.RANAP_InformationTransferID⟩
def InformationTransferType : NamedTy := ⟨"InformationTransferType", Asn.Ranap.InformationTransferType, Gen.Ranap.RANAP_InformationTransferType⟩
def IntegrityProtectionAlgorithm : NamedTy := ⟨"IntegrityProtectionAlgorithm", Asn.Ranap.IntegrityProtectionAlgorithm, Gen.Ranap.RANAP_IntegrityProtectionAlgorithm⟩
def IntegrityProtectionInformation : NamedTy := ⟨"IntegrityProtectionInformation", Asn.Ranap.IntegrityProtectionInformation, Gen.Ranap.RANAP_IntegrityProtectionInformation⟩
def IntegrityProtectionKey : NamedTy := ⟨"IntegrityProtectionKey", Asn.Ranap.IntegrityProtectionKey, Gen.Ranap.RANAP_IntegrityProtectionKey⟩
def InterSystemInformationTransferType : NamedTy := ⟨"InterSystemInformationTransferType", Asn.Ranap.InterSystemInformationTransferType, Gen.Ranap.RANAP_InterSystemInformationTransferType⟩
def InterSystemInformation_TransparentContainer : NamedTy := ⟨"InterSystemInformation-TransparentContainer", Asn.Ranap.InterSystemInformation_TransparentContainer, Gen.Ranap.RANAP_InterSystemInformation_TransparentContainer⟩
def IPMulticastAddress : NamedTy := ⟨"IPMulticastAddress", Asn.Ranap.IPMulticastAddress, Gen.Ranap.RANAP_IPMulticastAddress⟩
def IuSignallingConnectionIdentifier : NamedTy := ⟨"IuSignallingConnectionIdentifier", Asn.Ranap.IuSignallingConnectionIdentifier, Gen.Ranap.RANAP_IuSignallingConnectionIdentifier⟩
def IuTransportAssociation : NamedTy := ⟨"IuTransportAssociation", Asn.Ranap.IuTransportAssociation, Gen.Ranap.RANAP_IuTransportAssociation⟩
def KeyStatus : NamedTy := ⟨"KeyStatus", Asn.Ranap.KeyStatus, Gen.Ranap.RANAP_KeyStatus⟩
def LA_LIST : NamedTy := ⟨"LA-LIST", Asn.Ranap.LA_LIST, Gen.Ranap.RANAP_LA_LIST⟩
def LA_LIST_Value : NamedTy := ⟨"LA-LIST-Value", Asn.Ranap.LA_LIST_Value, Gen.Ranap.RANAP_LA_LIST_Value⟩
def LAC : NamedTy := ⟨"LAC", Asn.Ranap.LAC, Gen.Ranap.RANAP_LAC⟩
def LAI : NamedTy := ⟨"LAI", Asn.Ranap.LAI, Gen.Ranap.RANAP_LAI⟩
def LastKnownServiceArea : NamedTy := ⟨"LastKnownServiceArea", Asn.Ranap.LastKnownServiceArea, Gen.Ranap.RANAP_LastKnownServiceArea⟩
def LastVisitedUTRANCell_Item : NamedTy := ⟨"LastVisitedUTRANCell-Item", Asn.Ranap.LastVisitedUTRANCell_Item, Gen.Ranap.RANAP_LastVisitedUTRANCell_Item⟩
def LHN_ID : NamedTy := ⟨"LHN-ID", Asn.Ranap.LHN_ID, Gen.Ranap.RANAP_LHN_ID⟩
def Links_to_log : NamedTy := ⟨"Links-to-log", Asn.Ranap.Links_to_log, Gen.Ranap.RANAP_Links_to_log⟩
def ListOF_SNAs : NamedTy := ⟨"ListOF-SNAs", Asn.Ranap.ListOF_SNAs, Gen.Ranap.RANAP_ListOF_SNAs⟩
def ListOfInterfacesToTrace : NamedTy := ⟨"ListOfInterfacesToTrace", Asn.Ranap.ListOfInterfacesToTrace, Gen.Ranap.RANAP_ListOfInterfacesToTrace⟩
def InterfacesToTraceItem : NamedTy := ⟨"InterfacesToTraceItem", Asn.Ranap.InterfacesToTraceItem, Gen.Ranap.RANAP_InterfacesToTraceItem⟩
def LoadValue : NamedTy := ⟨"LoadValue", Asn.Ranap.LoadValue, Gen.Ranap.RANAP_LoadValue⟩
def LocationRelatedDataRequestType : NamedTy := ⟨"LocationRelatedDataRequestType", Asn.Ranap.LocationRelatedDataRequestType, Gen.Ranap.RANAP_LocationRelatedDataRequestType⟩
def LocationRelatedDataRequestTypeSpecificToGERANIuMode : NamedTy := ⟨"LocationRelatedDataRequestTypeSpecificToGERANIuMode", Asn.Ranap.LocationRelatedDataRequestTypeSpecificToGERANIuMode, Gen.Ranap.RANAP_LocationRelatedDataRequestTypeSpecificToGERANIuMode⟩
def LocationReportingTransferInformation : NamedTy := ⟨"LocationReportingTransferInformation", Asn.Ranap.LocationReportingTransferInformation, Gen.Ranap.RANAP_LocationReportingTransferInformation⟩
def ReportChangeOfSAI : NamedTy := ⟨"ReportChangeOfSAI", Asn.Ranap.ReportChangeOfSAI, Gen.Ranap.RANAP_ReportChangeOfSAI⟩
def PeriodicReportingIndicator : NamedTy := ⟨"PeriodicReportingIndicator", Asn.Ranap.PeriodicReportingIndicator, Gen.Ranap.RANAP_PeriodicReportingIndicator⟩
def DirectReportingIndicator : NamedTy := ⟨"DirectReportingIndicator", Asn.Ranap.DirectReportingIndicator, Gen.Ranap.RANAP_DirectReportingIndicator⟩
def L3_Information : NamedTy := ⟨"L3-Information", Asn.Ranap.L3_Information, Gen.Ranap.RANAP_L3_Information⟩
def M1Report : NamedTy := ⟨"M1Report", Asn.Ranap.M1Report, Gen.Ranap.RANAP_M1Report⟩
def M2Report : NamedTy := ⟨"M2Report", Asn.Ranap.M2Report, Gen.Ranap.RANAP_M2Report⟩
def M4Report : NamedTy := ⟨"M4Report", Asn.Ranap.M4Report, Gen.Ranap.RANAP_M4Report⟩
def M4_Collection_Parameters : NamedTy := ⟨"M4-Collection-Parameters", Asn.Ranap.M4_Collection_Parameters, Gen.Ranap.RANAP_M4_Collection_Parameters⟩
def M4_Period : NamedTy := ⟨"M4-Period", Asn.Ranap.M4_Period, Gen.Ranap.RANAP_M4_Period⟩
def M4_Threshold : NamedTy := ⟨"M4-Threshold", Asn.Ranap.M4_Threshold, Gen.Ranap.RANAP_M4_Threshold⟩
def M5Report : NamedTy := ⟨"M5Report", Asn.Ranap.M5Report, Gen.Ranap.RANAP_M5Report⟩
def M5_Period : NamedTy := ⟨"M5-Period", Asn.Ranap.M5_Period, Gen.Ranap.RANAP_M5_Period⟩
def M6Report : NamedTy := ⟨"M6Report", Asn.Ranap.M6Report, Gen.Ranap.RANAP_M6Report⟩
def M6_Period : NamedTy := ⟨"M6-Period", Asn.Ranap.M6_Period, Gen.Ranap.RANAP_M6_Period⟩
def M7Report : NamedTy := ⟨"M7Report", Asn.Ranap.M7Report, Gen.Ranap.RANAP_M7Report⟩
def M7_Period : NamedTy := ⟨"M7-Period", Asn.Ranap.M7_Period, Gen.Ranap.RANAP_M7_Period⟩
def Management_Based_MDT_Allowed : NamedTy := ⟨"Management-Based-MDT-Allowed", Asn.Ranap.Management_Based_MDT_Allowed, Gen.Ranap.RANAP_Management_Based_MDT_Allowed⟩
def MaxBitrate : NamedTy := ⟨"MaxBitrate", Asn.Ranap.MaxBitrate, Gen.Ranap.RANAP_MaxBitrate⟩
def MaxSDU_Size : NamedTy := ⟨"MaxSDU-Size", Asn.Ranap.MaxSDU_Size, Gen.Ranap.RANAP_MaxSDU_Size⟩
def MBMS_PTP_RAB_ID : NamedTy := ⟨"MBMS-PTP-RAB-ID", Asn.Ranap.MBMS_PTP_RAB_ID, Gen.Ranap.RANAP_MBMS_PTP_RAB_ID⟩
def MBMSBearerServiceType : NamedTy := ⟨"MBMSBearerServiceType", Asn.Ranap.MBMSBearerServiceType, Gen.Ranap.RANAP_MBMSBearerServiceType⟩
def MBMSCNDe_Registration : NamedTy := ⟨"MBMSCNDe-Registration", Asn.Ranap.MBMSCNDe_Registration, Gen.Ranap.RANAP_MBMSCNDe_Registration⟩
def MBMSCountingInformation : NamedTy := ⟨"MBMSCountingInformation", Asn.Ranap.MBMSCountingInformation, Gen.Ranap.RANAP_MBMSCountingInformation⟩
def MBMSHCIndicator : NamedTy := ⟨"MBMSHCIndicator", Asn.Ranap.MBMSHCIndicator, Gen.Ranap.RANAP_MBMSHCIndicator⟩
def MBMSIPMulticastAddressandAPNRequest : NamedTy := ⟨"MBMSIPMulticastAddressandAPNRequest", Asn.Ranap.MBMSIPMulticastAddressandAPNRequest, Gen.Ranap.RANAP_MBMSIPMulticastAddressandAPNRequest⟩
def MBMSLinkingInformation : NamedTy := ⟨"MBMSLinkingInformation", Asn.Ranap.MBMSLinkingInformation, Gen.Ranap.RANAP_MBMSLinkingInformation⟩
def MBMSRegistrationRequestType : NamedTy := ⟨"MBMSRegistrationRequestType", Asn.Ranap.MBMSRegistrationRequestType, Gen.Ranap.RANAP_MBMSRegistrationRequestType⟩
def MBMSServiceArea : NamedTy := ⟨"MBMSServiceArea", Asn.Ranap.MBMSServiceArea, Gen.Ranap.RANAP_MBMSServiceArea⟩
def MBMSSessionDuration : NamedTy := ⟨"MBMSSessionDuration", Asn.Ranap.MBMSSessionDuration, Gen.Ranap.RANAP_MBMSSessionDuration⟩
def MBMSSessionIdentity : NamedTy := ⟨"MBMSSessionIdentity", Asn.Ranap.MBMSSessionIdentity, Gen.Ranap.RANAP_MBMSSessionIdentity⟩
def MBMSSessionRepetitionNumber : NamedTy := ⟨"MBMSSessionRepetitionNumber", Asn.Ranap.MBMSSessionRepetitionNumber, Gen.Ranap.RANAP_MBMSSessionRepetitionNumber⟩
def MDT_Activation : NamedTy := ⟨"MDT-Activation", Asn.Ranap.MDT_Activation, Gen.Ranap.RANAP_MDT_Activation⟩
def MDTAreaScope : NamedTy := ⟨"MDTAreaScope", Asn.Ranap.MDTAreaScope, Gen.Ranap.RANAP_MDTAreaScope⟩
def MDT_Configuration : NamedTy := ⟨"MDT-Configuration", Asn.Ranap.MDT_Configuration, Gen.Ranap.RANAP_MDT_Configuration⟩
def MDTMode : NamedTy := ⟨"MDTMode", Asn.Ranap.MDTMode, Gen.Ranap.RANAP_MDTMode⟩
def MDT_PLMN_List : NamedTy := ⟨"MDT-PLMN-List", Asn.Ranap.MDT_PLMN_List, Gen.Ranap.RANAP_MDT_PLMN_List⟩
def MDT_Report_Parameters : NamedTy := ⟨"MDT-Report-Parameters", Asn.Ranap.MDT_Report_Parameters, Gen.Ranap.RANAP_MDT_Report_Parameters⟩
def MeasurementQuantity : NamedTy := ⟨"MeasurementQuantity", Asn.Ranap.MeasurementQuantity, Gen.Ranap.RANAP_MeasurementQuantity⟩
def MeasurementsToActivate : NamedTy := ⟨"MeasurementsToActivate", Asn.Ranap.MeasurementsToActivate, Gen.Ranap.RANAP_MeasurementsToActivate⟩
def MSISDN : NamedTy := ⟨"MSISDN", Asn.Ranap.MSISDN, Gen.Ranap.RANAP_MSISDN⟩
def NAS_PDU : NamedTy := ⟨"NAS-PDU", Asn.Ranap.NAS_PDU, Gen.Ranap.RANAP_NAS_PDU⟩
def NAS_SequenceNumber : NamedTy := ⟨"NAS-SequenceNumber", Asn.Ranap.NAS_SequenceNumber, Gen.Ranap.RANAP_NAS_SequenceNumber⟩
def NAS_SynchronisationIndicator : NamedTy := ⟨"NAS-SynchronisationIndicator", Asn.Ranap.NAS_SynchronisationIndicator, Gen.Ranap.RANAP_NAS_SynchronisationIndicator⟩
def NewBSS_To_OldBSS_Information : NamedTy := ⟨"NewBSS-To-OldBSS-Information", Asn.Ranap.NewBSS_To_OldBSS_Information, Gen.Ranap.RANAP_NewBSS_To_OldBSS_Information⟩
def NonSearchingIndication : NamedTy := ⟨"NonSearchingIndication", Asn.Ranap.NonSearchingIndication, Gen.Ranap.RANAP_NonSearchingIndication⟩
def NRTLoadInformationValue : NamedTy := ⟨"NRTLoadInformationValue", Asn.Ranap.NRTLoadInformationValue, Gen.Ranap.RANAP_NRTLoadInformationValue⟩
def NumberOfIuInstances : NamedTy := ⟨"NumberOfIuInstances", Asn.Ranap.NumberOfIuInstances, Gen.Ranap.RANAP_NumberOfIuInstances⟩
def NumberOfSteps : NamedTy := ⟨"NumberOfSteps", Asn.Ranap.NumberOfSteps, Gen.Ranap.RANAP_NumberOfSteps⟩
def Offload_RAB_Parameters : NamedTy := ⟨"Offload-RAB-Parameters", Asn.Ranap.Offload_RAB_Parameters, Gen.Ranap.RANAP_Offload_RAB_Parameters⟩
def Offload_RAB_Parameters_APN : NamedTy := ⟨"Offload-RAB-Parameters-APN", Asn.Ranap.Offload_RAB_Parameters_APN, Gen.Ranap.RANAP_Offload_RAB_Parameters_APN⟩
def Offload_RAB_Parameters_ChargingCharacteristics : NamedTy := ⟨"Offload-RAB-Parameters-ChargingCharacteristics", Asn.Ranap.Offload_RAB_Parameters_ChargingCharacteristics, Gen.Ranap.RANAP_Offload_RAB_Parameters_ChargingCharacteristics⟩
def OldBSS_ToNewBSS_Information : NamedTy := ⟨"OldBSS-ToNewBSS-Information", Asn.Ranap.OldBSS_ToNewBSS_Information, Gen.Ranap.RANAP_OldBSS_ToNewBSS_Information⟩
def OMC_ID : NamedTy := ⟨"OMC-ID", Asn.Ranap.OMC_ID, Gen.Ranap.RANAP_OMC_ID⟩
def Out_Of_UTRAN : NamedTy := ⟨"Out-Of-UTRAN", Asn.Ranap.Out_Of_UTRAN, Gen.Ranap.RANAP_Out_Of_UTRAN⟩
def PagingAreaID : NamedTy := ⟨"PagingAreaID", Asn.Ranap.PagingAreaID, Gen.Ranap.RANAP_PagingAreaID⟩
def PagingCause : NamedTy := ⟨"PagingCause", Asn.Ranap.PagingCause, Gen.Ranap.RANAP_PagingCause⟩
def PDP_TypeInformation : NamedTy := ⟨"PDP-TypeInformation", Asn.Ranap.PDP_TypeInformation, Gen.Ranap.RANAP_PDP_TypeInformation⟩
def PDP_Type : NamedTy := ⟨"PDP-Type", Asn.Ranap.PDP_Type, Gen.Ranap.RANAP_PDP_Type⟩
def PDP_TypeInformation_extension : NamedTy := ⟨"PDP-TypeInformation-extension", Asn.Ranap.PDP_TypeInformation_extension, Gen.Ranap.RANAP_PDP_TypeInformation_extension⟩
def PDP_Type_extension : NamedTy := ⟨"PDP-Type-extension", Asn.Ranap.PDP_Type_extension, Gen.Ranap.RANAP_PDP_Type_extension⟩
def PDUType14FrameSequenceNumber : NamedTy := ⟨"PDUType14FrameSequenceNumber", Asn.Ranap.PDUType14FrameSequenceNumber, Gen.Ranap.RANAP_PDUType14FrameSequenceNumber⟩
def PeriodicLocationInfo : NamedTy := ⟨"PeriodicLocationInfo", Asn.Ranap.PeriodicLocationInfo, Gen.Ranap.RANAP_PeriodicLocationInfo⟩
def PermanentNAS_UE_ID : NamedTy := ⟨"PermanentNAS-UE-ID", Asn.Ranap.PermanentNAS_UE_ID, Gen.Ranap.RANAP_PermanentNAS_UE_ID⟩
def PermittedEncryptionAlgorithms : NamedTy := ⟨"PermittedEncryptionAlgorithms", Asn.Ranap.PermittedEncryptionAlgorithms, Gen.Ranap.RANAP_PermittedEncryptionAlgorithms⟩
def PermittedIntegrityProtectionAlgorithms : NamedTy := ⟨"PermittedIntegrityProtectionAlgorithms", Asn.Ranap.PermittedIntegrityProtectionAlgorithms, Gen.Ranap.RANAP_PermittedIntegrityProtectionAlgorithms⟩
def LABased : NamedTy := ⟨"LABased", Asn.Ranap.LABased, Gen.Ranap.RANAP_LABased⟩
def LAI_List : NamedTy := ⟨"LAI-List", Asn.Ranap.LAI_List, Gen.Ranap.RANAP_LAI_List⟩
def LoggedMDT : NamedTy := ⟨"LoggedMDT", Asn.Ranap.LoggedMDT, Gen.Ranap.RANAP_LoggedMDT⟩
def LoggingInterval : NamedTy := ⟨"LoggingInterval", Asn.Ranap.LoggingInterval, Gen.Ranap.RANAP_LoggingInterval⟩
def LoggingDuration : NamedTy := ⟨"LoggingDuration", Asn.Ranap.LoggingDuration, Gen.Ranap.RANAP_LoggingDuration⟩
def PLMNidentity : NamedTy := ⟨"PLMNidentity", Asn.Ranap.PLMNidentity, Gen.Ranap.RANAP_PLMNidentity⟩
def PLMNs_in_shared_network : NamedTy := ⟨"PLMNs-in-shared-network", Asn.Ranap.PLMNs_in_shared_network, Gen.Ranap.RANAP_PLMNs_in_shared_network⟩
def PLMNs_in_shared_network_Value : NamedTy := ⟨"PLMNs-in-shared-network-Value", Asn.Ranap.PLMNs_in_shared_network_Value, Gen.Ranap.RANAP_PLMNs_in_shared_network_Value⟩
def Port_Number : NamedTy := ⟨"Port-Number", Asn.Ranap.Port_Number, Gen.Ranap.RANAP_Port_Number⟩
def PositioningDataDiscriminator : NamedTy := ⟨"PositioningDataDiscriminator", Asn.Ranap.PositioningDataDiscriminator, Gen.Ranap.RANAP_PositioningDataDiscriminator⟩
def PositioningDataSet : NamedTy := ⟨"PositioningDataSet", Asn.Ranap.PositioningDataSet, Gen.Ranap.RANAP_PositioningDataSet⟩
def PositioningMethodAndUsage : NamedTy := ⟨"PositioningMethodAndUsage", Asn.Ranap.PositioningMethodAndUsage, Gen.Ranap.RANAP_PositioningMethodAndUsage⟩
def PositioningPriority : NamedTy := ⟨"PositioningPriority", Asn.Ranap.PositioningPriority, Gen.Ranap.RANAP_PositioningPriority⟩
def PositionData : NamedTy := ⟨"PositionData", Asn.Ranap.PositionData, Gen.Ranap.RANAP_PositionData⟩
def PositionDataSpecificToGERANIuMode : NamedTy := ⟨"PositionDataSpecificToGERANIuMode", Asn.Ranap.PositionDataSpecificToGERANIuMode, Gen.Ranap.RANAP_PositionDataSpecificToGERANIuMode⟩
def Pre_emptionCapability : NamedTy := ⟨"Pre-emptionCapability", Asn.Ranap.Pre_emptionCapability, Gen.Ranap.RANAP_Pre_emptionCapability⟩
def Pre_emptionVulnerability : NamedTy := ⟨"Pre-emptionVulnerability", Asn.Ranap.Pre_emptionVulnerability, Gen.Ranap.RANAP_Pre_emptionVulnerability⟩
def PriorityLevel : NamedTy := ⟨"PriorityLevel", Asn.Ranap.PriorityLevel, Gen.Ranap.RANAP_PriorityLevel⟩
def Priority_Class_Indicator : NamedTy := ⟨"Priority-Class-Indicator", Asn.Ranap.Priority_Class_Indicator, Gen.Ranap.RANAP_Priority_Class_Indicator⟩
def ProvidedData : NamedTy := ⟨"ProvidedData", Asn.Ranap.ProvidedData, Gen.Ranap.RANAP_ProvidedData⟩
def P_TMSI : NamedTy := ⟨"P-TMSI", Asn.Ranap.P_TMSI, Gen.Ranap.RANAP_P_TMSI⟩
def QueuingAllowed : NamedTy := ⟨"QueuingAllowed", Asn.Ranap.QueuingAllowed, Gen.Ranap.RANAP_QueuingAllowed⟩
def RAB_AsymmetryIndicator : NamedTy := ⟨"RAB-AsymmetryIndicator", Asn.Ranap.RAB_AsymmetryIndicator, Gen.Ranap.RANAP_RAB_AsymmetryIndicator⟩
def RABased : NamedTy := ⟨"RABased", Asn.Ranap.RABased, Gen.Ranap.RANAP_RABased⟩
def RAI_List : NamedTy := ⟨"RAI-List", Asn.Ranap.RAI_List, Gen.Ranap.RANAP_RAI_List⟩
def RABDataVolumeReport : NamedTy := ⟨"RABDataVolumeReport", Asn.Ranap.RABDataVolumeReport, Gen.Ranap.RANAP_RABDataVolumeReport⟩
def RABDataVolumeReport_Value : NamedTy := ⟨"RABDataVolumeReport-Value", Asn.Ranap.RABDataVolumeReport_Value, Gen.Ranap.RANAP_RABDataVolumeReport_Value⟩
def RAB_ID : NamedTy := ⟨"RAB-ID", Asn.Ranap.RAB_ID, Gen.Ranap.RANAP_RAB_ID⟩
def RAB_Parameter_ExtendedGuaranteedBitrateList : NamedTy := ⟨"RAB-Parameter-ExtendedGuaranteedBitrateList", Asn.Ranap.RAB_Parameter_ExtendedGuaranteedBitrateList, Gen.Ranap.RANAP_RAB_Parameter_ExtendedGuaranteedBitrateList⟩
def RAB_Parameter_ExtendedMaxBitrateList : NamedTy := ⟨"RAB-Parameter-ExtendedMaxBitrateList", Asn.Ranap.RAB_Parameter_ExtendedMaxBitrateList, Gen.Ranap.RANAP_RAB_Parameter_ExtendedMaxBitrateList⟩
def RAB_Parameter_GuaranteedBitrateList : NamedTy := ⟨"RAB-Parameter-GuaranteedBitrateList", Asn.Ranap.RAB_Parameter_GuaranteedBitrateList, Gen.Ranap.RANAP_RAB_Parameter_GuaranteedBitrateList⟩
def RAB_Parameter_MaxBitrateList : NamedTy := ⟨"RAB-Parameter-MaxBitrateList", Asn.Ranap.RAB_Parameter_MaxBitrateList, Gen.Ranap.RANAP_RAB_Parameter_MaxBitrateList⟩
def RAB_Parameters : NamedTy := ⟨"RAB-Parameters", Asn.Ranap.RAB_Parameters, Gen.Ranap.RANAP_RAB_Parameters⟩
def RABParametersList : NamedTy := ⟨"RABParametersList", Asn.Ranap.RABParametersList, Gen.Ranap.RANAP_RABParametersList⟩
def RABParametersList_Value : NamedTy := ⟨"RABParametersList-Value", Asn.Ranap.RABParametersList_Value, Gen.Ranap.RANAP_RABParametersList_Value⟩
def RAB_SubflowCombinationBitRate : NamedTy := ⟨"RAB-SubflowCombinationBitRate", Asn.Ranap.RAB_SubflowCombinationBitRate, Gen.Ranap.RANAP_RAB_SubflowCombinationBitRate⟩
def RAB_TrCH_Mapping : NamedTy := ⟨"RAB-TrCH-Mapping", Asn.Ranap.RAB_TrCH_Mapping, Gen.Ranap.RANAP_RAB_TrCH_Mapping⟩
def RAB_TrCH_MappingItem : NamedTy := ⟨"RAB-TrCH-MappingItem", Asn.Ranap.RAB_TrCH_MappingItem, Gen.Ranap.RANAP_RAB_TrCH_MappingItem⟩
def RAC : NamedTy := ⟨"RAC", Asn.Ranap.RAC, Gen.Ranap.RANAP_RAC⟩
def RAI : NamedTy := ⟨"RAI", Asn.Ranap.RAI, Gen.Ranap.RANAP_RAI⟩
def RAListofIdleModeUEs : NamedTy := ⟨"RAListofIdleModeUEs", Asn.Ranap.RAListofIdleModeUEs, Gen.Ranap.RANAP_RAListofIdleModeUEs⟩
def NotEmptyRAListofIdleModeUEs : NamedTy := ⟨"NotEmptyRAListofIdleModeUEs", Asn.Ranap.NotEmptyRAListofIdleModeUEs, Gen.Ranap.RANAP_NotEmptyRAListofIdleModeUEs⟩
def RAofIdleModeUEs : NamedTy := ⟨"RAofIdleModeUEs", Asn.Ranap.RAofIdleModeUEs, Gen.Ranap.RANAP_RAofIdleModeUEs⟩
def LAListofIdleModeUEs : NamedTy := ⟨"LAListofIdleModeUEs", Asn.Ranap.LAListofIdleModeUEs, Gen.Ranap.RANAP_LAListofIdleModeUEs⟩
def RAT_Type : NamedTy := ⟨"RAT-Type", Asn.Ranap.RAT_Type, Gen.Ranap.RANAP_RAT_Type⟩
def RateControlAllowed : NamedTy := ⟨"RateControlAllowed", Asn.Ranap.RateControlAllowed, Gen.Ranap.RANAP_RateControlAllowed⟩
def RedirectAttemptFlag : NamedTy := ⟨"RedirectAttemptFlag", Asn.Ranap.RedirectAttemptFlag, Gen.Ranap.RANAP_RedirectAttemptFlag⟩
def RedirectionCompleted : NamedTy := ⟨"RedirectionCompleted", Asn.Ranap.RedirectionCompleted, Gen.Ranap.RANAP_RedirectionCompleted⟩
def RejectCauseValue : NamedTy := ⟨"RejectCauseValue", Asn.Ranap.RejectCauseValue, Gen.Ranap.RANAP_RejectCauseValue⟩
def RelocationRequirement : NamedTy := ⟨"RelocationRequirement", Asn.Ranap.RelocationRequirement, Gen.Ranap.RANAP_RelocationRequirement⟩
def RelocationType : NamedTy := ⟨"RelocationType", Asn.Ranap.RelocationType, Gen.Ranap.RANAP_RelocationType⟩
def RepetitionNumber0 : NamedTy := ⟨"RepetitionNumber0", Asn.Ranap.RepetitionNumber0, Gen.Ranap.RANAP_RepetitionNumber0⟩
def RepetitionNumber1 : NamedTy := ⟨"RepetitionNumber1", Asn.Ranap.RepetitionNumber1, Gen.Ranap.RANAP_RepetitionNumber1⟩
def ReportArea : NamedTy := ⟨"ReportArea", Asn.Ranap.ReportArea, Gen.Ranap.RANAP_ReportArea⟩
def ReportInterval : NamedTy := ⟨"ReportInterval", Asn.Ranap.ReportInterval, Gen.Ranap.RANAP_ReportInterval⟩
def ReportAmount : NamedTy := ⟨"ReportAmount", Asn.Ranap.ReportAmount, Gen.Ranap.RANAP_ReportAmount⟩
def RequestedGPSAssistanceData : NamedTy := ⟨"RequestedGPSAssistanceData", Asn.Ranap.RequestedGPSAssistanceData, Gen.Ranap.RANAP_RequestedGPSAssistanceData⟩
def RequestedGANSSAssistanceData : NamedTy := ⟨"RequestedGANSSAssistanceData", Asn.Ranap.RequestedGANSSAssistanceData, Gen.Ranap.RANAP_RequestedGANSSAssistanceData⟩
def RequestedLocationRelatedDataType : NamedTy := ⟨"RequestedLocationRelatedDataType", Asn.Ranap.RequestedLocationRelatedDataType, Gen.Ranap.RANAP_RequestedLocationRelatedDataType⟩
def RequestedMBMSIPMulticastAddressandAPNRequest : NamedTy := ⟨"RequestedMBMSIPMulticastAddressandAPNRequest", Asn.Ranap.RequestedMBMSIPMulticastAddressandAPNRequest, Gen.Ranap.RANAP_RequestedMBMSIPMulticastAddressandAPNRequest⟩
def MBMSIPMulticastAddressandAPNlist : NamedTy := ⟨"MBMSIPMulticastAddressandAPNlist", Asn.Ranap.MBMSIPMulticastAddressandAPNlist, Gen.Ranap.RANAP_MBMSIPMulticastAddressandAPNlist⟩
def RequestedMulticastServiceList : NamedTy := ⟨"RequestedMulticastServiceList", Asn.Ranap.RequestedMulticastServiceList, Gen.Ranap.RANAP_RequestedMulticastServiceList⟩
def Requested_RAB_Parameter_Values : NamedTy := ⟨"Requested-RAB-Parameter-Values", Asn.Ranap.Requested_RAB_Parameter_Values, Gen.Ranap.RANAP_Requested_RAB_Parameter_Values⟩
def Requested_RAB_Parameter_ExtendedMaxBitrateList : NamedTy := ⟨"Requested-RAB-Parameter-ExtendedMaxBitrateList", Asn.Ranap.Requested_RAB_Parameter_ExtendedMaxBitrateList, Gen.Ranap.RANAP_Requested_RAB_Parameter_ExtendedMaxBitrateList⟩
def Requested_RAB_Parameter_ExtendedGuaranteedBitrateList : NamedTy := ⟨"Requested-RAB-Parameter-ExtendedGuaranteedBitrateList", Asn.Ranap.Requested_RAB_Parameter_ExtendedGuaranteedBitrateList, Gen.Ranap.RANAP_Requested_RAB_Parameter_ExtendedGuaranteedBitrateList⟩
def Requested_RAB_Parameter_MaxBitrateList : NamedTy := ⟨"Requested-RAB-Parameter-MaxBitrateList", Asn.Ranap.Requested_RAB_Parameter_MaxBitrateList, Gen.Ranap.RANAP_Requested_RAB_Parameter_MaxBitrateList⟩
def Requested_RAB_Parameter_GuaranteedBitrateList : NamedTy := ⟨"Requested-RAB-Parameter-GuaranteedBitrateList", Asn.Ranap.Requested_RAB_Parameter_GuaranteedBitrateList, Gen.Ranap.RANAP_Requested_RAB_Parameter_GuaranteedBitrateList⟩
def RequestType : NamedTy := ⟨"RequestType", Asn.Ranap.RequestType, Gen.Ranap.RANAP_RequestType⟩
def ResidualBitErrorRatio : NamedTy := ⟨"ResidualBitErrorRatio", Asn.Ranap.ResidualBitErrorRatio, Gen.Ranap.RANAP_ResidualBitErrorRatio⟩
def ResponseTime : NamedTy := ⟨"ResponseTime", Asn.Ranap.ResponseTime, Gen.Ranap.RANAP_ResponseTime⟩
def RIMInformation : NamedTy := ⟨"RIMInformation", Asn.Ranap.RIMInformation, Gen.Ranap.RANAP_RIMInformation⟩
def RIM_Transfer : NamedTy := ⟨"RIM-Transfer", Asn.Ranap.RIM_Transfer, Gen.Ranap.RANAP_RIM_Transfer⟩
def RIMRoutingAddress : NamedTy := ⟨"RIMRoutingAddress", Asn.Ranap.RIMRoutingAddress, Gen.Ranap.RANAP_RIMRoutingAddress⟩
def RNC_ID : NamedTy := ⟨"RNC-ID", Asn.Ranap.RNC_ID, Gen.Ranap.RANAP_RNC_ID⟩
def RNCTraceInformation : NamedTy := ⟨"RNCTraceInformation", Asn.Ranap.RNCTraceInformation, Gen.Ranap.RANAP_RNCTraceInformation⟩
def RNSAPRelocationParameters : NamedTy := ⟨"RNSAPRelocationParameters", Asn.Ranap.RNSAPRelocationParameters, Gen.Ranap.RANAP_RNSAPRelocationParameters⟩
def RRC_Container : NamedTy := ⟨"RRC-Container", Asn.Ranap.RRC_Container, Gen.Ranap.RANAP_RRC_Container⟩
def RTLoadValue : NamedTy := ⟨"RTLoadValue", Asn.Ranap.RTLoadValue, Gen.Ranap.RANAP_RTLoadValue⟩
def RSRVCC_HO_Indication : NamedTy := ⟨"RSRVCC-HO-Indication", Asn.Ranap.RSRVCC_HO_Indication, Gen.Ranap.RANAP_RSRVCC_HO_Indication⟩
def RSRVCC_Information : NamedTy := ⟨"RSRVCC-Information", Asn.Ranap.RSRVCC_Information, Gen.Ranap.RANAP_RSRVCC_Information⟩
def RSRVCC_Operation_Possible : NamedTy := ⟨"RSRVCC-Operation-Possible", Asn.Ranap.RSRVCC_Operation_Possible, Gen.Ranap.RANAP_RSRVCC_Operation_Possible⟩
def SAC : NamedTy := ⟨"SAC", Asn.Ranap.SAC, Gen.Ranap.RANAP_SAC⟩
def SAI : NamedTy := ⟨"SAI", Asn.Ranap.SAI, Gen.Ranap.RANAP_SAI⟩
def SAPI : NamedTy := ⟨"SAPI", Asn.Ranap.SAPI, Gen.Ranap.RANAP_SAPI⟩
def SessionUpdateID : NamedTy := ⟨"SessionUpdateID", Asn.Ranap.SessionUpdateID, Gen.Ranap.RANAP_SessionUpdateID⟩
def Shared_Network_Information : NamedTy := ⟨"Shared-Network-Information", Asn.Ranap.Shared_Network_Information, Gen.Ranap.RANAP_Shared_Network_Information⟩
def Session_Re_establishment_Indicator : NamedTy := ⟨"Session-Re-establishment-Indicator", Asn.Ranap.Session_Re_establishment_Indicator, Gen.Ranap.RANAP_Session_Re_establishment_Indicator⟩
def SignallingIndication : NamedTy := ⟨"SignallingIndication", Asn.Ranap.SignallingIndication, Gen.Ranap.RANAP_SignallingIndication⟩
def SDU_ErrorRatio : NamedTy := ⟨"SDU-ErrorRatio", Asn.Ranap.SDU_ErrorRatio, Gen.Ranap.RANAP_SDU_ErrorRatio⟩
def SDU_FormatInformationParameters : NamedTy := ⟨"SDU-FormatInformationParameters", Asn.Ranap.SDU_FormatInformationParameters, Gen.Ranap.RANAP_SDU_FormatInformationParameters⟩
def SDU_FormatInformationParameterItem : NamedTy := ⟨"SDU-FormatInformationParameterItem", Asn.Ranap.SDU_FormatInformationParameterItem, Gen.Ranap.RANAP_SDU_FormatInformationParameterItem⟩
def SDU_Parameters : NamedTy := ⟨"SDU-Parameters", Asn.Ranap.SDU_Parameters, Gen.Ranap.RANAP_SDU_Parameters⟩
def SDU_ParameterItem : NamedTy := ⟨"SDU-ParameterItem", Asn.Ranap.SDU_ParameterItem, Gen.Ranap.RANAP_SDU_ParameterItem⟩
def SNA_Access_Information : NamedTy := ⟨"SNA-Access-Information", Asn.Ranap.SNA_Access_Information, Gen.Ranap.RANAP_SNA_Access_Information⟩
def SNAC : NamedTy := ⟨"SNAC", Asn.Ranap.SNAC, Gen.Ranap.RANAP_SNAC⟩
def Service_Handover : NamedTy := ⟨"Service-Handover", Asn.Ranap.Service_Handover, Gen.Ranap.RANAP_Service_Handover⟩
def Source_ToTarget_TransparentContainer : NamedTy := ⟨"Source-ToTarget-TransparentContainer", Asn.Ranap.Source_ToTarget_TransparentContainer, Gen.Ranap.RANAP_Source_ToTarget_TransparentContainer⟩
def SourceeNodeB_ToTargeteNodeB_TransparentContainer : NamedTy := ⟨"SourceeNodeB-ToTargeteNodeB-TransparentContainer", Asn.Ranap.SourceeNodeB_ToTargeteNodeB_TransparentContainer, Gen.Ranap.RANAP_SourceeNodeB_ToTargeteNodeB_TransparentContainer⟩
def SourceCellID : NamedTy := ⟨"SourceCellID", Asn.Ranap.SourceCellID, Gen.Ranap.RANAP_SourceCellID⟩
def SourceBSS_ToTargetBSS_TransparentContainer : NamedTy := ⟨"SourceBSS-ToTargetBSS-TransparentContainer", Asn.Ranap.SourceBSS_ToTargetBSS_TransparentContainer, Gen.Ranap.RANAP_SourceBSS_ToTargetBSS_TransparentContainer⟩
def SourceID : NamedTy := ⟨"SourceID", Asn.Ranap.SourceID, Gen.Ranap.RANAP_SourceID⟩
def SourceRNC_ID : NamedTy := ⟨"SourceRNC-ID", Asn.Ranap.SourceRNC_ID, Gen.Ranap.RANAP_SourceRNC_ID⟩
def SourceRNC_ToTargetRNC_TransparentContainer : NamedTy := ⟨"SourceRNC-ToTargetRNC-TransparentContainer", Asn.Ranap.SourceRNC_ToTargetRNC_TransparentContainer, Gen.Ranap.RANAP_SourceRNC_ToTargetRNC_TransparentContainer⟩
def IRAT_Measurement_Configuration : NamedTy := ⟨"IRAT-Measurement-Configuration", Asn.Ranap.IRAT_Measurement_Configuration, Gen.Ranap.RANAP_IRAT_Measurement_Configuration⟩
def IRATmeasurementParameters : NamedTy := ⟨"IRATmeasurementParameters", Asn.Ranap.IRATmeasurementParameters, Gen.Ranap.RANAP_IRATmeasurementParameters⟩
def RSRQ_Type : NamedTy := ⟨"RSRQ-Type", Asn.Ranap.RSRQ_Type, Gen.Ranap.RANAP_RSRQ_Type⟩
def RSRQ_Extension : NamedTy := ⟨"RSRQ-Extension", Asn.Ranap.RSRQ_Extension, Gen.Ranap.RANAP_RSRQ_Extension⟩
def EUTRANFrequencies : NamedTy := ⟨"EUTRANFrequencies", Asn.Ranap.EUTRANFrequencies, Gen.Ranap.RANAP_EUTRANFrequencies⟩
def EUTRANFrequencies_Value : NamedTy := ⟨"EUTRANFrequencies-Value", Asn.Ranap.EUTRANFrequencies_Value, Gen.Ranap.RANAP_EUTRANFrequencies_Value⟩
def MeasBand : NamedTy := ⟨"MeasBand", Asn.Ranap.MeasBand, Gen.Ranap.RANAP_MeasBand⟩
def SubscriberProfileIDforRFP : NamedTy := ⟨"SubscriberProfileIDforRFP", Asn.Ranap.SubscriberProfileIDforRFP, Gen.Ranap.RANAP_SubscriberProfileIDforRFP⟩
def SourceStatisticsDescriptor : NamedTy := ⟨"SourceStatisticsDescriptor", Asn.Ranap.SourceStatisticsDescriptor, Gen.Ranap.RANAP_SourceStatisticsDescriptor⟩
def SupportedRAB_ParameterBitrateList : NamedTy := ⟨"SupportedRAB-ParameterBitrateList", Asn.Ranap.SupportedRAB_ParameterBitrateList, Gen.Ranap.RANAP_SupportedRAB_ParameterBitrateList⟩
def SupportedBitrate : NamedTy := ⟨"SupportedBitrate", Asn.Ranap.SupportedBitrate, Gen.Ranap.RANAP_SupportedBitrate⟩
def SourceUTRANCellID : NamedTy := ⟨"SourceUTRANCellID", Asn.Ranap.SourceUTRANCellID, Gen.Ranap.RANAP_SourceUTRANCellID⟩
def SRB_ID : NamedTy := ⟨"SRB-ID", Asn.Ranap.SRB_ID, Gen.Ranap.RANAP_SRB_ID⟩
def SRB_TrCH_Mapping : NamedTy := ⟨"SRB-TrCH-Mapping", Asn.Ranap.SRB_TrCH_Mapping, Gen.Ranap.RANAP_SRB_TrCH_Mapping⟩
def SRB_TrCH_MappingItem : NamedTy := ⟨"SRB-TrCH-MappingItem", Asn.Ranap.SRB_TrCH_MappingItem, Gen.Ranap.RANAP_SRB_TrCH_MappingItem⟩
def SRVCC_HO_Indication : NamedTy := ⟨"SRVCC-HO-Indication", Asn.Ranap.SRVCC_HO_Indication, Gen.Ranap.RANAP_SRVCC_HO_Indication⟩
def SRVCC_Information : NamedTy := ⟨"SRVCC-Information", Asn.Ranap.SRVCC_Information, Gen.Ranap.RANAP_SRVCC_Information⟩
def SRVCC_Operation_Possible : NamedTy := ⟨"SRVCC-Operation-Possible", Asn.Ranap.SRVCC_Operation_Possible, Gen.Ranap.RANAP_SRVCC_Operation_Possible⟩
def SubflowSDU_Size : NamedTy := ⟨"SubflowSDU-Size", Asn.Ranap.SubflowSDU_Size, Gen.Ranap.RANAP_SubflowSDU_Size⟩
def TAC : NamedTy := ⟨"TAC", Asn.Ranap.TAC, Gen.Ranap.RANAP_TAC⟩
def TAI : NamedTy := ⟨"TAI", Asn.Ranap.TAI, Gen.Ranap.RANAP_TAI⟩
def Target_ToSource_TransparentContainer : NamedTy := ⟨"Target-ToSource-TransparentContainer", Asn.Ranap.Target_ToSource_TransparentContainer, Gen.Ranap.RANAP_Target_ToSource_TransparentContainer⟩
def TargeteNodeB_ToSourceeNodeB_TransparentContainer : NamedTy := ⟨"TargeteNodeB-ToSourceeNodeB-TransparentContainer", Asn.Ranap.TargeteNodeB_ToSourceeNodeB_TransparentContainer, Gen.Ranap.RANAP_TargeteNodeB_ToSourceeNodeB_TransparentContainer⟩
def TargetBSS_ToSourceBSS_TransparentContainer : NamedTy := ⟨"TargetBSS-ToSourceBSS-TransparentContainer", Asn.Ranap.TargetBSS_ToSourceBSS_TransparentContainer, Gen.Ranap.RANAP_TargetBSS_ToSourceBSS_TransparentContainer⟩
def TargetCellId : NamedTy := ⟨"TargetCellId", Asn.Ranap.TargetCellId, Gen.Ranap.RANAP_TargetCellId⟩
def TargetID : NamedTy := ⟨"TargetID", Asn.Ranap.TargetID, Gen.Ranap.RANAP_TargetID⟩
def TargetENB_ID : NamedTy := ⟨"TargetENB-ID", Asn.Ranap.TargetENB_ID, Gen.Ranap.RANAP_TargetENB_ID⟩
def TargetRNC_ID : NamedTy := ⟨"TargetRNC-ID", Asn.Ranap.TargetRNC_ID, Gen.Ranap.RANAP_TargetRNC_ID⟩
def TargetRNC_ToSourceRNC_TransparentContainer : NamedTy := ⟨"TargetRNC-ToSourceRNC-TransparentContainer", Asn.Ranap.TargetRNC_ToSourceRNC_TransparentContainer, Gen.Ranap.RANAP_TargetRNC_ToSourceRNC_TransparentContainer⟩
def TBCD_STRING : NamedTy := ⟨"TBCD-STRING", Asn.Ranap.TBCD_STRING, Gen.Ranap.RANAP_TBCD_STRING⟩
def TemporaryUE_ID : NamedTy := ⟨"TemporaryUE-ID", Asn.Ranap.TemporaryUE_ID, Gen.Ranap.RANAP_TemporaryUE_ID⟩
def Time_UE_StayedInCell : NamedTy := ⟨"Time-UE-StayedInCell", Asn.Ranap.Time_UE_StayedInCell, Gen.Ranap.RANAP_Time_UE_StayedInCell⟩
def Time_UE_StayedInCell_EnhancedGranularity : NamedTy := ⟨"Time-UE-StayedInCell-EnhancedGranularity", Asn.Ranap.Time_UE_StayedInCell_EnhancedGranularity, Gen.Ranap.RANAP_Time_UE_StayedInCell_EnhancedGranularity⟩
def TimeToMBMSDataTransfer : NamedTy := ⟨"TimeToMBMSDataTransfer", Asn.Ranap.TimeToMBMSDataTransfer, Gen.Ranap.RANAP_TimeToMBMSDataTransfer⟩
def TimingDifferenceULDL : NamedTy := ⟨"TimingDifferenceULDL", Asn.Ranap.TimingDifferenceULDL, Gen.Ranap.RANAP_TimingDifferenceULDL⟩
def TMGI : NamedTy := ⟨"TMGI", Asn.Ranap.TMGI, Gen.Ranap.RANAP_TMGI⟩
def TMSI : NamedTy := ⟨"TMSI", Asn.Ranap.TMSI, Gen.Ranap.RANAP_TMSI⟩
def TraceDepth : NamedTy := ⟨"TraceDepth", Asn.Ranap.TraceDepth, Gen.Ranap.RANAP_TraceDepth⟩
def TraceInformation : NamedTy := ⟨"TraceInformation", Asn.Ranap.TraceInformation, Gen.Ranap.RANAP_TraceInformation⟩
def TracePropagationParameters : NamedTy := ⟨"TracePropagationParameters", Asn.Ranap.TracePropagationParameters, Gen.Ranap.RANAP_TracePropagationParameters⟩
def TraceRecordingSessionInformation : NamedTy := ⟨"TraceRecordingSessionInformation", Asn.Ranap.TraceRecordingSessionInformation, Gen.Ranap.RANAP_TraceRecordingSessionInformation⟩
def TraceRecordingSessionReference : NamedTy := ⟨"TraceRecordingSessionReference", Asn.Ranap.TraceRecordingSessionReference, Gen.Ranap.RANAP_TraceRecordingSessionReference⟩
def TraceReference : NamedTy := ⟨"TraceReference", Asn.Ranap.TraceReference, Gen.Ranap.RANAP_TraceReference⟩
def TraceType : NamedTy := ⟨"TraceType", Asn.Ranap.TraceType, Gen.Ranap.RANAP_TraceType⟩
def TrafficClass : NamedTy := ⟨"TrafficClass", Asn.Ranap.TrafficClass, Gen.Ranap.RANAP_TrafficClass⟩
def TrafficHandlingPriority : NamedTy := ⟨"TrafficHandlingPriority", Asn.Ranap.TrafficHandlingPriority, Gen.Ranap.RANAP_TrafficHandlingPriority⟩
def TransferDelay : NamedTy := ⟨"TransferDelay", Asn.Ranap.TransferDelay, Gen.Ranap.RANAP_TransferDelay⟩
def UnsuccessfullyTransmittedDataVolume : NamedTy := ⟨"UnsuccessfullyTransmittedDataVolume", Asn.Ranap.UnsuccessfullyTransmittedDataVolume, Gen.Ranap.RANAP_UnsuccessfullyTransmittedDataVolume⟩
def TransportLayerAddress : NamedTy := ⟨"TransportLayerAddress", Asn.Ranap.TransportLayerAddress, Gen.Ranap.RANAP_TransportLayerAddress⟩
def TrCH_ID : NamedTy := ⟨"TrCH-ID", Asn.Ranap.TrCH_ID, Gen.Ranap.RANAP_TrCH_ID⟩
def TrCH_ID_List : NamedTy := ⟨"TrCH-ID-List", Asn.Ranap.TrCH_ID_List, Gen.Ranap.RANAP_TrCH_ID_List⟩
def TriggerID : NamedTy := ⟨"TriggerID", Asn.Ranap.TriggerID, Gen.Ranap.RANAP_TriggerID⟩
def TunnelInformation : NamedTy := ⟨"TunnelInformation", Asn.Ranap.TunnelInformation, Gen.Ranap.RANAP_TunnelInformation⟩
def TypeOfError : NamedTy := ⟨"TypeOfError", Asn.Ranap.TypeOfError, Gen.Ranap.RANAP_TypeOfError⟩
def UE_AggregateMaximumBitRate : NamedTy := ⟨"UE-AggregateMaximumBitRate", Asn.Ranap.UE_AggregateMaximumBitRate, Gen.Ranap.RANAP_UE_AggregateMaximumBitRate⟩
def UE_AggregateMaximumBitRateDownlink : NamedTy := ⟨"UE-AggregateMaximumBitRateDownlink", Asn.Ranap.UE_AggregateMaximumBitRateDownlink, Gen.Ranap.RANAP_UE_AggregateMaximumBitRateDownlink⟩
def UE_AggregateMaximumBitRateUplink : NamedTy := ⟨"UE-AggregateMaximumBitRateUplink", Asn.Ranap.UE_AggregateMaximumBitRateUplink, Gen.Ranap.RANAP_UE_AggregateMaximumBitRateUplink⟩
def UE_History_Information : NamedTy := ⟨"UE-History-Information", Asn.Ranap.UE_History_Information, Gen.Ranap.RANAP_UE_History_Information⟩
def UE_ID : NamedTy := ⟨"UE-ID", Asn.Ranap.UE_ID, Gen.Ranap.RANAP_UE_ID⟩
def UESBI_Iu : NamedTy := ⟨"UESBI-Iu", Asn.Ranap.UESBI_Iu, Gen.Ranap.RANAP_UESBI_Iu⟩
def UESBI_IuA : NamedTy := ⟨"UESBI-IuA", Asn.Ranap.UESBI_IuA, Gen.Ranap.RANAP_UESBI_IuA⟩
def UESBI_IuB : NamedTy := ⟨"UESBI-IuB", Asn.Ranap.UESBI_IuB, Gen.Ranap.RANAP_UESBI_IuB⟩
def UL_GTP_PDU_SequenceNumber : NamedTy := ⟨"UL-GTP-PDU-SequenceNumber", Asn.Ranap.UL_GTP_PDU_SequenceNumber, Gen.Ranap.RANAP_UL_GTP_PDU_SequenceNumber⟩
def UL_N_PDU_SequenceNumber : NamedTy := ⟨"UL-N-PDU-SequenceNumber", Asn.Ranap.UL_N_PDU_SequenceNumber, Gen.Ranap.RANAP_UL_N_PDU_SequenceNumber⟩
def UPInformation : NamedTy := ⟨"UPInformation", Asn.Ranap.UPInformation, Gen.Ranap.RANAP_UPInformation⟩
def UPInitialisationFrame : NamedTy := ⟨"UPInitialisationFrame", Asn.Ranap.UPInitialisationFrame, Gen.Ranap.RANAP_UPInitialisationFrame⟩
def UP_ModeVersions : NamedTy := ⟨"UP-ModeVersions", Asn.Ranap.UP_ModeVersions, Gen.Ranap.RANAP_UP_ModeVersions⟩
def USCH_ID : NamedTy := ⟨"USCH-ID", Asn.Ranap.USCH_ID, Gen.Ranap.RANAP_USCH_ID⟩
def UserPlaneMode : NamedTy := ⟨"UserPlaneMode", Asn.Ranap.UserPlaneMode, Gen.Ranap.RANAP_UserPlaneMode⟩
def UTRAN_CellID : NamedTy := ⟨"UTRAN-CellID", Asn.Ranap.UTRAN_CellID, Gen.Ranap.RANAP_UTRAN_CellID⟩
def VelocityEstimate : NamedTy := ⟨"VelocityEstimate", Asn.Ranap.VelocityEstimate, Gen.Ranap.RANAP_VelocityEstimate⟩
def HorizontalVelocity : NamedTy := ⟨"HorizontalVelocity", Asn.Ranap.HorizontalVelocity, Gen.Ranap.RANAP_HorizontalVelocity⟩
def HorizontalWithVerticalVelocity : NamedTy := ⟨"HorizontalWithVerticalVelocity", Asn.Ranap.HorizontalWithVerticalVelocity, Gen.Ranap.RANAP_HorizontalWithVerticalVelocity⟩
def HorizontalVelocityWithUncertainty : NamedTy := ⟨"HorizontalVelocityWithUncertainty", Asn.Ranap.HorizontalVelocityWithUncertainty, Gen.Ranap.RANAP_HorizontalVelocityWithUncertainty⟩
def HorizontalWithVerticalVelocityAndUncertainty : NamedTy := ⟨"HorizontalWithVerticalVelocityAndUncertainty", Asn.Ranap.HorizontalWithVerticalVelocityAndUncertainty, Gen.Ranap.RANAP_HorizontalWithVerticalVelocityAndUncertainty⟩
def HorizontalSpeedAndBearing : NamedTy := ⟨"HorizontalSpeedAndBearing", Asn.Ranap.HorizontalSpeedAndBearing, Gen.Ranap.RANAP_HorizontalSpeedAndBearing⟩
def VerticalVelocity : NamedTy := ⟨"VerticalVelocity", Asn.Ranap.VerticalVelocity, Gen.Ranap.RANAP_VerticalVelocity⟩
def VerticalSpeedDirection : NamedTy := ⟨"VerticalSpeedDirection", Asn.Ranap.VerticalSpeedDirection, Gen.Ranap.RANAP_VerticalSpeedDirection⟩
def VerticalAccuracyCode : NamedTy := ⟨"VerticalAccuracyCode", Asn.Ranap.VerticalAccuracyCode, Gen.Ranap.RANAP_VerticalAccuracyCode⟩
def VoiceSupportMatchIndicator : NamedTy := ⟨"VoiceSupportMatchIndicator", Asn.Ranap.VoiceSupportMatchIndicator, Gen.Ranap.RANAP_VoiceSupportMatchIndicator⟩
def RAB_DataVolumeReportItem : NamedTy := ⟨"RAB-DataVolumeReportItem", Asn.Ranap.RAB_DataVolumeReportItem, Gen.Ranap.RANAP_RAB_DataVolumeReportItem⟩
def RAB_ReleasedItem_IuRelComp : NamedTy := ⟨"RAB-ReleasedItem-IuRelComp", Asn.Ranap.RAB_ReleasedItem_IuRelComp, Gen.Ranap.RANAP_RAB_ReleasedItem_IuRelComp⟩
def RAB_RelocationReleaseItem : NamedTy := ⟨"RAB-RelocationReleaseItem", Asn.Ranap.RAB_RelocationReleaseItem, Gen.Ranap.RANAP_RAB_RelocationReleaseItem⟩
def RAB_DataForwardingItem : NamedTy := ⟨"RAB-DataForwardingItem", Asn.Ranap.RAB_DataForwardingItem, Gen.Ranap.RANAP_RAB_DataForwardingItem⟩
def RAB_SetupItem_RelocReq : NamedTy := ⟨"RAB-SetupItem-RelocReq", Asn.Ranap.RAB_SetupItem_RelocReq, Gen.Ranap.RANAP_RAB_SetupItem_RelocReq⟩
def UserPlaneInformation : NamedTy := ⟨"UserPlaneInformation", Asn.Ranap.UserPlaneInformation, Gen.Ranap.RANAP_UserPlaneInformation⟩
def CNMBMSLinkingInformation : NamedTy := ⟨"CNMBMSLinkingInformation", Asn.Ranap.CNMBMSLinkingInformation, Gen.Ranap.RANAP_CNMBMSLinkingInformation⟩
def JoinedMBMSBearerService_IEs : NamedTy := ⟨"JoinedMBMSBearerService-IEs", Asn.Ranap.JoinedMBMSBearerService_IEs, Gen.Ranap.RANAP_JoinedMBMSBearerService_IEs⟩
def JoinedMBMSBearerService_IEs_Value : NamedTy := ⟨"JoinedMBMSBearerService-IEs-Value", Asn.Ranap.JoinedMBMSBearerService_IEs_Value, Gen.Ranap.RANAP_JoinedMBMSBearerService_IEs_Value⟩
def RAB_SetupItem_RelocReqAck : NamedTy := ⟨"RAB-SetupItem-RelocReqAck", Asn.Ranap.RAB_SetupItem_RelocReqAck, Gen.Ranap.RANAP_RAB_SetupItem_RelocReqAck⟩
def RAB_FailedItem : NamedTy := ⟨"RAB-FailedItem", Asn.Ranap.RAB_FailedItem, Gen.Ranap.RANAP_RAB_FailedItem⟩
def RAB_DataForwardingItem_SRNS_CtxReq : NamedTy := ⟨"RAB-DataForwardingItem-SRNS-CtxReq", Asn.Ranap.RAB_DataForwardingItem_SRNS_CtxReq, Gen.Ranap.RANAP_RAB_DataForwardingItem_SRNS_CtxReq⟩
def RAB_ContextItem : NamedTy := ⟨"RAB-ContextItem", Asn.Ranap.RAB_ContextItem, Gen.Ranap.RANAP_RAB_ContextItem⟩
def RABs_ContextFailedtoTransferItem : NamedTy := ⟨"RABs-ContextFailedtoTransferItem", Asn.Ranap.RABs_ContextFailedtoTransferItem, Gen.Ranap.RANAP_RABs_ContextFailedtoTransferItem⟩
def RAB_DataVolumeReportRequestItem : NamedTy := ⟨"RAB-DataVolumeReportRequestItem", Asn.Ranap.RAB_DataVolumeReportRequestItem, Gen.Ranap.RANAP_RAB_DataVolumeReportRequestItem⟩
def RABs_failed_to_reportItem : NamedTy := ⟨"RABs-failed-to-reportItem", Asn.Ranap.RABs_failed_to_reportItem, Gen.Ranap.RANAP_RABs_failed_to_reportItem⟩
def ResetResourceItem : NamedTy := ⟨"ResetResourceItem", Asn.Ranap.ResetResourceItem, Gen.Ranap.RANAP_ResetResourceItem⟩
def ResetResourceAckItem : NamedTy := ⟨"ResetResourceAckItem", Asn.Ranap.ResetResourceAckItem, Gen.Ranap.RANAP_ResetResourceAckItem⟩
def RAB_ReleaseItem : NamedTy := ⟨"RAB-ReleaseItem", Asn.Ranap.RAB_ReleaseItem, Gen.Ranap.RANAP_RAB_ReleaseItem⟩
def RAB_SetupItem_EnhancedRelocCompleteReq : NamedTy := ⟨"RAB-SetupItem-EnhancedRelocCompleteReq", Asn.Ranap.RAB_SetupItem_EnhancedRelocCompleteReq, Gen.Ranap.RANAP_RAB_SetupItem_EnhancedRelocCompleteReq⟩
def RAB_ToBeReleasedItem_EnhancedRelocCompleteRes : NamedTy := ⟨"RAB-ToBeReleasedItem-EnhancedRelocCompleteRes", Asn.Ranap.RAB_ToBeReleasedItem_EnhancedRelocCompleteRes, Gen.Ranap.RANAP_RAB_ToBeReleasedItem_EnhancedRelocCompleteRes⟩
def RAB_SetupOrModifyList : NamedTy := ⟨"RAB-SetupOrModifyList", Asn.Ranap.RAB_SetupOrModifyList, Gen.Ranap.RANAP_RAB_SetupOrModifyList⟩
def RAB_SetupOrModifyItemFirst : NamedTy := ⟨"RAB-SetupOrModifyItemFirst", Asn.Ranap.RAB_SetupOrModifyItemFirst, Gen.Ranap.RANAP_RAB_SetupOrModifyItemFirst⟩
def TransportLayerInformation : NamedTy := ⟨"TransportLayerInformation", Asn.Ranap.TransportLayerInformation, Gen.Ranap.RANAP_TransportLayerInformation⟩
def RAB_SetupOrModifyItemSecond : NamedTy := ⟨"RAB-SetupOrModifyItemSecond", Asn.Ranap.RAB_SetupOrModifyItemSecond, Gen.Ranap.RANAP_RAB_SetupOrModifyItemSecond⟩
def RAB_SetupOrModifiedItem : NamedTy := ⟨"RAB-SetupOrModifiedItem", Asn.Ranap.RAB_SetupOrModifiedItem, Gen.Ranap.RANAP_RAB_SetupOrModifiedItem⟩
def RAB_ReleasedItem : NamedTy := ⟨"RAB-ReleasedItem", Asn.Ranap.RAB_ReleasedItem, Gen.Ranap.RANAP_RAB_ReleasedItem⟩
def DataVolumeList : NamedTy := ⟨"DataVolumeList", Asn.Ranap.DataVolumeList, Gen.Ranap.RANAP_DataVolumeList⟩
def DataVolumeList_Value : NamedTy := ⟨"DataVolumeList-Value", Asn.Ranap.DataVolumeList_Value, Gen.Ranap.RANAP_DataVolumeList_Value⟩
def RAB_QueuedItem : NamedTy := ⟨"RAB-QueuedItem", Asn.Ranap.RAB_QueuedItem, Gen.Ranap.RANAP_RAB_QueuedItem⟩
def GERAN_Iumode_RAB_Failed_RABAssgntResponse_Item : NamedTy := ⟨"GERAN-Iumode-RAB-Failed-RABAssgntResponse-Item", Asn.Ranap.GERAN_Iumode_RAB_Failed_RABAssgntResponse_Item, Gen.Ranap.RANAP_GERAN_Iumode_RAB_Failed_RABAssgntResponse_Item⟩
def DirectTransferInformationItem_RANAP_RelocInf : NamedTy := ⟨"DirectTransferInformationItem-RANAP-RelocInf", Asn.Ranap.DirectTransferInformationItem_RANAP_RelocInf, Gen.Ranap.RANAP_DirectTransferInformationItem_RANAP_RelocInf⟩
def RAB_ContextItem_RANAP_RelocInf : NamedTy := ⟨"RAB-ContextItem-RANAP-RelocInf", Asn.Ranap.RAB_ContextItem_RANAP_RelocInf, Gen.Ranap.RANAP_RAB_ContextItem_RANAP_RelocInf⟩
def RAB_SetupItem_EnhRelocInfoReq : NamedTy := ⟨"RAB-SetupItem-EnhRelocInfoReq", Asn.Ranap.RAB_SetupItem_EnhRelocInfoReq, Gen.Ranap.RANAP_RAB_SetupItem_EnhRelocInfoReq⟩
def TNLInformationEnhRelInfoReq : NamedTy := ⟨"TNLInformationEnhRelInfoReq", Asn.Ranap.TNLInformationEnhRelInfoReq, Gen.Ranap.RANAP_TNLInformationEnhRelInfoReq⟩
def RAB_SetupItem_EnhRelocInfoRes : NamedTy := ⟨"RAB-SetupItem-EnhRelocInfoRes", Asn.Ranap.RAB_SetupItem_EnhRelocInfoRes, Gen.Ranap.RANAP_RAB_SetupItem_EnhRelocInfoRes⟩
def RAB_FailedItem_EnhRelocInfoRes : NamedTy := ⟨"RAB-FailedItem-EnhRelocInfoRes", Asn.Ranap.RAB_FailedItem_EnhRelocInfoRes, Gen.Ranap.RANAP_RAB_FailedItem_EnhRelocInfoRes⟩
def TNLInformationEnhRelInfoRes : NamedTy := ⟨"TNLInformationEnhRelInfoRes", Asn.Ranap.TNLInformationEnhRelInfoRes, Gen.Ranap.RANAP_TNLInformationEnhRelInfoRes⟩
def RAB_ModifyItem : NamedTy := ⟨"RAB-ModifyItem", Asn.Ranap.RAB_ModifyItem, Gen.Ranap.RANAP_RAB_ModifyItem⟩
def MBMSSynchronisationInformation : NamedTy := ⟨"MBMSSynchronisationInformation", Asn.Ranap.MBMSSynchronisationInformation, Gen.Ranap.RANAP_MBMSSynchronisationInformation⟩
def LeftMBMSBearerService_IEs : NamedTy := ⟨"LeftMBMSBearerService-IEs", Asn.Ranap.LeftMBMSBearerService_IEs, Gen.Ranap.RANAP_LeftMBMSBearerService_IEs⟩
def LeftMBMSBearerService_IEs_Value : NamedTy := ⟨"LeftMBMSBearerService-IEs-Value", Asn.Ranap.LeftMBMSBearerService_IEs_Value, Gen.Ranap.RANAP_LeftMBMSBearerService_IEs_Value⟩
def UnsuccessfulLinking_IEs : NamedTy := ⟨"UnsuccessfulLinking-IEs", Asn.Ranap.UnsuccessfulLinking_IEs, Gen.Ranap.RANAP_UnsuccessfulLinking_IEs⟩
def UnsuccessfulLinking_IEs_Value : NamedTy := ⟨"UnsuccessfulLinking-IEs-Value", Asn.Ranap.UnsuccessfulLinking_IEs_Value, Gen.Ranap.RANAP_UnsuccessfulLinking_IEs_Value⟩
def RANAP_PDU : NamedTy := ⟨"RANAP-PDU", Asn.Ranap.RANAP_PDU, Gen.Ranap.RANAP_RANAP_PDU⟩
def InitiatingMessage : NamedTy := ⟨"InitiatingMessage", Asn.Ranap.InitiatingMessage, Gen.Ranap.RANAP_InitiatingMessage⟩
def SuccessfulOutcome : NamedTy := ⟨"SuccessfulOutcome", Asn.Ranap.SuccessfulOutcome, Gen.Ranap.RANAP_SuccessfulOutcome⟩
def UnsuccessfulOutcome : NamedTy := ⟨"UnsuccessfulOutcome", Asn.Ranap.UnsuccessfulOutcome, Gen.Ranap.RANAP_UnsuccessfulOutcome⟩
def Outcome : NamedTy := ⟨"Outcome", Asn.Ranap.Outcome, Gen.Ranap.RANAP_Outcome⟩
def IE : NamedTy := ⟨"IE", Asn.Ranap.IE, Gen.Ranap.RANAP_IE⟩
def Iu_ReleaseCommand : NamedTy := ⟨"Iu-ReleaseCommand", Asn.Ranap.Iu_ReleaseCommand, Gen.Ranap.RANAP_Iu_ReleaseCommand⟩
def Iu_ReleaseComplete : NamedTy := ⟨"Iu-ReleaseComplete", Asn.Ranap.Iu_ReleaseComplete, Gen.Ranap.RANAP_Iu_ReleaseComplete⟩
def RelocationRequired : NamedTy := ⟨"RelocationRequired", Asn.Ranap.RelocationRequired, Gen.Ranap.RANAP_RelocationRequired⟩
def RelocationCommand : NamedTy := ⟨"RelocationCommand", Asn.Ranap.RelocationCommand, Gen.Ranap.RANAP_RelocationCommand⟩
def RelocationPreparationFailure : NamedTy := ⟨"RelocationPreparationFailure", Asn.Ranap.RelocationPreparationFailure, Gen.Ranap.RANAP_RelocationPreparationFailure⟩
def RelocationRequest : NamedTy := ⟨"RelocationRequest", Asn.Ranap.RelocationRequest, Gen.Ranap.RANAP_RelocationRequest⟩
def RelocationRequestAcknowledge : NamedTy := ⟨"RelocationRequestAcknowledge", Asn.Ranap.RelocationRequestAcknowledge, Gen.Ranap.RANAP_RelocationRequestAcknowledge⟩
def RelocationFailure : NamedTy := ⟨"RelocationFailure", Asn.Ranap.RelocationFailure, Gen.Ranap.RANAP_RelocationFailure⟩
def RelocationCancel : NamedTy := ⟨"RelocationCancel", Asn.Ranap.RelocationCancel, Gen.Ranap.RANAP_RelocationCancel⟩
def RelocationCancelAcknowledge : NamedTy := ⟨"RelocationCancelAcknowledge", Asn.Ranap.RelocationCancelAcknowledge, Gen.Ranap.RANAP_RelocationCancelAcknowledge⟩
def SRNS_ContextRequest : NamedTy := ⟨"SRNS-ContextRequest", Asn.Ranap.SRNS_ContextRequest, Gen.Ranap.RANAP_SRNS_ContextRequest⟩
def SRNS_ContextResponse : NamedTy := ⟨"SRNS-ContextResponse", Asn.Ranap.SRNS_ContextResponse, Gen.Ranap.RANAP_SRNS_ContextResponse⟩
def SecurityModeCommand : NamedTy := ⟨"SecurityModeCommand", Asn.Ranap.SecurityModeCommand, Gen.Ranap.RANAP_SecurityModeCommand⟩
def SecurityModeComplete : NamedTy := ⟨"SecurityModeComplete", Asn.Ranap.SecurityModeComplete, Gen.Ranap.RANAP_SecurityModeComplete⟩
def SecurityModeReject : NamedTy := ⟨"SecurityModeReject", Asn.Ranap.SecurityModeReject, Gen.Ranap.RANAP_SecurityModeReject⟩
def DataVolumeReportRequest : NamedTy := ⟨"DataVolumeReportRequest", Asn.Ranap.DataVolumeReportRequest, Gen.Ranap.RANAP_DataVolumeReportRequest⟩
def DataVolumeReport : NamedTy := ⟨"DataVolumeReport", Asn.Ranap.DataVolumeReport, Gen.Ranap.RANAP_DataVolumeReport⟩
def Reset : NamedTy := ⟨"Reset", Asn.Ranap.Reset, Gen.Ranap.RANAP_Reset⟩
def ResetAcknowledge : NamedTy := ⟨"ResetAcknowledge", Asn.Ranap.ResetAcknowledge, Gen.Ranap.RANAP_ResetAcknowledge⟩
def ResetResource : NamedTy := ⟨"ResetResource", Asn.Ranap.ResetResource, Gen.Ranap.RANAP_ResetResource⟩
def ResetResourceAcknowledge : NamedTy := ⟨"ResetResourceAcknowledge", Asn.Ranap.ResetResourceAcknowledge, Gen.Ranap.RANAP_ResetResourceAcknowledge⟩
def RAB_ReleaseRequest : NamedTy := ⟨"RAB-ReleaseRequest", Asn.Ranap.RAB_ReleaseRequest, Gen.Ranap.RANAP_RAB_ReleaseRequest⟩
def Iu_ReleaseRequest : NamedTy := ⟨"Iu-ReleaseRequest", Asn.Ranap.Iu_ReleaseRequest, Gen.Ranap.RANAP_Iu_ReleaseRequest⟩
def RelocationDetect : NamedTy := ⟨"RelocationDetect", Asn.Ranap.RelocationDetect, Gen.Ranap.RANAP_RelocationDetect⟩
def RelocationComplete : NamedTy := ⟨"RelocationComplete", Asn.Ranap.RelocationComplete, Gen.Ranap.RANAP_RelocationComplete⟩
def EnhancedRelocationCompleteRequest : NamedTy := ⟨"EnhancedRelocationCompleteRequest", Asn.Ranap.EnhancedRelocationCompleteRequest, Gen.Ranap.RANAP_EnhancedRelocationCompleteRequest⟩
def EnhancedRelocationCompleteResponse : NamedTy := ⟨"EnhancedRelocationCompleteResponse", Asn.Ranap.EnhancedRelocationCompleteResponse, Gen.Ranap.RANAP_EnhancedRelocationCompleteResponse⟩
def EnhancedRelocationCompleteFailure : NamedTy := ⟨"EnhancedRelocationCompleteFailure", Asn.Ranap.EnhancedRelocationCompleteFailure, Gen.Ranap.RANAP_EnhancedRelocationCompleteFailure⟩
def EnhancedRelocationCompleteConfirm : NamedTy := ⟨"EnhancedRelocationCompleteConfirm", Asn.Ranap.EnhancedRelocationCompleteConfirm, Gen.Ranap.RANAP_EnhancedRelocationCompleteConfirm⟩
def Paging : NamedTy := ⟨"Paging", Asn.Ranap.Paging, Gen.Ranap.RANAP_Paging⟩
def CommonID : NamedTy := ⟨"CommonID", Asn.Ranap.CommonID, Gen.Ranap.RANAP_CommonID⟩
def CN_InvokeTrace : NamedTy := ⟨"CN-InvokeTrace", Asn.Ranap.CN_InvokeTrace, Gen.Ranap.RANAP_CN_InvokeTrace⟩
def CN_DeactivateTrace : NamedTy := ⟨"CN-DeactivateTrace", Asn.Ranap.CN_DeactivateTrace, Gen.Ranap.RANAP_CN_DeactivateTrace⟩
def LocationReportingControl : NamedTy := ⟨"LocationReportingControl", Asn.Ranap.LocationReportingControl, Gen.Ranap.RANAP_LocationReportingControl⟩
def LocationReport : NamedTy := ⟨"LocationReport", Asn.Ranap.LocationReport, Gen.Ranap.RANAP_LocationReport⟩
def InitialUE_Message : NamedTy := ⟨"InitialUE-Message", Asn.Ranap.InitialUE_Message, Gen.Ranap.RANAP_InitialUE_Message⟩
def DirectTransfer : NamedTy := ⟨"DirectTransfer", Asn.Ranap.DirectTransfer, Gen.Ranap.RANAP_DirectTransfer⟩
def Overload : NamedTy := ⟨"Overload", Asn.Ranap.Overload, Gen.Ranap.RANAP_Overload⟩
def ErrorIndication : NamedTy := ⟨"ErrorIndication", Asn.Ranap.ErrorIndication, Gen.Ranap.RANAP_ErrorIndication⟩
def SRNS_DataForwardCommand : NamedTy := ⟨"SRNS-DataForwardCommand", Asn.Ranap.SRNS_DataForwardCommand, Gen.Ranap.RANAP_SRNS_DataForwardCommand⟩
def ForwardSRNS_Context : NamedTy := ⟨"ForwardSRNS-Context", Asn.Ranap.ForwardSRNS_Context, Gen.Ranap.RANAP_ForwardSRNS_Context⟩
def RAB_AssignmentRequest : NamedTy := ⟨"RAB-AssignmentRequest", Asn.Ranap.RAB_AssignmentRequest, Gen.Ranap.RANAP_RAB_AssignmentRequest⟩
def RAB_AssignmentResponse : NamedTy := ⟨"RAB-AssignmentResponse", Asn.Ranap.RAB_AssignmentResponse, Gen.Ranap.RANAP_RAB_AssignmentResponse⟩
def RANAP_RelocationInformation : NamedTy := ⟨"RANAP-RelocationInformation", Asn.Ranap.RANAP_RelocationInformation, Gen.Ranap.RANAP_RANAP_RelocationInformation⟩
def RANAP_EnhancedRelocationInformationRequest : NamedTy := ⟨"RANAP-EnhancedRelocationInformationRequest", Asn.Ranap.RANAP_EnhancedRelocationInformationRequest, Gen.Ranap.RANAP_RANAP_EnhancedRelocationInformationRequest⟩
def RANAP_EnhancedRelocationInformationResponse : NamedTy := ⟨"RANAP-EnhancedRelocationInformationResponse", Asn.Ranap.RANAP_EnhancedRelocationInformationResponse, Gen.Ranap.RANAP_RANAP_EnhancedRelocationInformationResponse⟩
def RAB_ModifyRequest : NamedTy := ⟨"RAB-ModifyRequest", Asn.Ranap.RAB_ModifyRequest, Gen.Ranap.RANAP_RAB_ModifyRequest⟩
def LocationRelatedDataRequest : NamedTy := ⟨"LocationRelatedDataRequest", Asn.Ranap.LocationRelatedDataRequest, Gen.Ranap.RANAP_LocationRelatedDataRequest⟩
def LocationRelatedDataResponse : NamedTy := ⟨"LocationRelatedDataResponse", Asn.Ranap.LocationRelatedDataResponse, Gen.Ranap.RANAP_LocationRelatedDataResponse⟩
def LocationRelatedDataFailure : NamedTy := ⟨"LocationRelatedDataFailure", Asn.Ranap.LocationRelatedDataFailure, Gen.Ranap.RANAP_LocationRelatedDataFailure⟩
def InformationTransferIndication : NamedTy := ⟨"InformationTransferIndication", Asn.Ranap.InformationTransferIndication, Gen.Ranap.RANAP_InformationTransferIndication⟩
def InformationTransferConfirmation : NamedTy := ⟨"InformationTransferConfirmation", Asn.Ranap.InformationTransferConfirmation, Gen.Ranap.RANAP_InformationTransferConfirmation⟩
def InformationTransferFailure : NamedTy := ⟨"InformationTransferFailure", Asn.Ranap.InformationTransferFailure, Gen.Ranap.RANAP_InformationTransferFailure⟩
def UESpecificInformationIndication : NamedTy := ⟨"UESpecificInformationIndication", Asn.Ranap.UESpecificInformationIndication, Gen.Ranap.RANAP_UESpecificInformationIndication⟩
def DirectInformationTransfer : NamedTy := ⟨"DirectInformationTransfer", Asn.Ranap.DirectInformationTransfer, Gen.Ranap.RANAP_DirectInformationTransfer⟩
def UplinkInformationExchangeRequest : NamedTy := ⟨"UplinkInformationExchangeRequest", Asn.Ranap.UplinkInformationExchangeRequest, Gen.Ranap.RANAP_UplinkInformationExchangeRequest⟩
def UplinkInformationExchangeResponse : NamedTy := ⟨"UplinkInformationExchangeResponse", Asn.Ranap.UplinkInformationExchangeResponse, Gen.Ranap.RANAP_UplinkInformationExchangeResponse⟩
def UplinkInformationExchangeFailure : NamedTy := ⟨"UplinkInformationExchangeFailure", Asn.Ranap.UplinkInformationExchangeFailure, Gen.Ranap.RANAP_UplinkInformationExchangeFailure⟩
def MBMSSessionStart : NamedTy := ⟨"MBMSSessionStart", Asn.Ranap.MBMSSessionStart, Gen.Ranap.RANAP_MBMSSessionStart⟩
def MBMSSessionStartResponse : NamedTy := ⟨"MBMSSessionStartResponse", Asn.Ranap.MBMSSessionStartResponse, Gen.Ranap.RANAP_MBMSSessionStartResponse⟩
def MBMSSessionStartFailure : NamedTy := ⟨"MBMSSessionStartFailure", Asn.Ranap.MBMSSessionStartFailure, Gen.Ranap.RANAP_MBMSSessionStartFailure⟩
def MBMSSessionUpdate : NamedTy := ⟨"MBMSSessionUpdate", Asn.Ranap.MBMSSessionUpdate, Gen.Ranap.RANAP_MBMSSessionUpdate⟩
def MBMSSessionUpdateResponse : NamedTy := ⟨"MBMSSessionUpdateResponse", Asn.Ranap.MBMSSessionUpdateResponse, Gen.Ranap.RANAP_MBMSSessionUpdateResponse⟩
def MBMSSessionUpdateFailure : NamedTy := ⟨"MBMSSessionUpdateFailure", Asn.Ranap.MBMSSessionUpdateFailure, Gen.Ranap.RANAP_MBMSSessionUpdateFailure⟩
def MBMSSessionStop : NamedTy := ⟨"MBMSSessionStop", Asn.Ranap.MBMSSessionStop, Gen.Ranap.RANAP_MBMSSessionStop⟩
def MBMSSessionStopResponse : NamedTy := ⟨"MBMSSessionStopResponse", Asn.Ranap.MBMSSessionStopResponse, Gen.Ranap.RANAP_MBMSSessionStopResponse⟩
def MBMSUELinkingRequest : NamedTy := ⟨"MBMSUELinkingRequest", Asn.Ranap.MBMSUELinkingRequest, Gen.Ranap.RANAP_MBMSUELinkingRequest⟩
def MBMSUELinkingResponse : NamedTy := ⟨"MBMSUELinkingResponse", Asn.Ranap.MBMSUELinkingResponse, Gen.Ranap.RANAP_MBMSUELinkingResponse⟩
def MBMSRegistrationRequest : NamedTy := ⟨"MBMSRegistrationRequest", Asn.Ranap.MBMSRegistrationRequest, Gen.Ranap.RANAP_MBMSRegistrationRequest⟩
def MBMSRegistrationResponse : NamedTy := ⟨"MBMSRegistrationResponse", Asn.Ranap.MBMSRegistrationResponse, Gen.Ranap.RANAP_MBMSRegistrationResponse⟩
def MBMSRegistrationFailure : NamedTy := ⟨"MBMSRegistrationFailure", Asn.Ranap.MBMSRegistrationFailure, Gen.Ranap.RANAP_MBMSRegistrationFailure⟩
def MBMSCNDe_RegistrationRequest : NamedTy := ⟨"MBMSCNDe-RegistrationRequest", Asn.Ranap.MBMSCNDe_RegistrationRequest, Gen.Ranap.RANAP_MBMSCNDe_RegistrationRequest⟩
def MBMSCNDe_RegistrationResponse : NamedTy := ⟨"MBMSCNDe-RegistrationResponse", Asn.Ranap.MBMSCNDe_RegistrationResponse, Gen.Ranap.RANAP_MBMSCNDe_RegistrationResponse⟩
def MBMSRABEstablishmentIndication : NamedTy := ⟨"MBMSRABEstablishmentIndication", Asn.Ranap.MBMSRABEstablishmentIndication, Gen.Ranap.RANAP_MBMSRABEstablishmentIndication⟩
def MBMSRABReleaseRequest : NamedTy := ⟨"MBMSRABReleaseRequest", Asn.Ranap.MBMSRABReleaseRequest, Gen.Ranap.RANAP_MBMSRABReleaseRequest⟩
def MBMSRABRelease : NamedTy := ⟨"MBMSRABRelease", Asn.Ranap.MBMSRABRelease, Gen.Ranap.RANAP_MBMSRABRelease⟩
def MBMSRABReleaseFailure : NamedTy := ⟨"MBMSRABReleaseFailure", Asn.Ranap.MBMSRABReleaseFailure, Gen.Ranap.RANAP_MBMSRABReleaseFailure⟩
def SRVCC_CSKeysRequest : NamedTy := ⟨"SRVCC-CSKeysRequest", Asn.Ranap.SRVCC_CSKeysRequest, Gen.Ranap.RANAP_SRVCC_CSKeysRequest⟩
def SRVCC_CSKeysResponse : NamedTy := ⟨"SRVCC-CSKeysResponse", Asn.Ranap.SRVCC_CSKeysResponse, Gen.Ranap.RANAP_SRVCC_CSKeysResponse⟩
def UeRadioCapabilityMatchRequest : NamedTy := ⟨"UeRadioCapabilityMatchRequest", Asn.Ranap.UeRadioCapabilityMatchRequest, Gen.Ranap.RANAP_UeRadioCapabilityMatchRequest⟩
def UeRadioCapabilityMatchResponse : NamedTy := ⟨"UeRadioCapabilityMatchResponse", Asn.Ranap.UeRadioCapabilityMatchResponse, Gen.Ranap.RANAP_UeRadioCapabilityMatchResponse⟩
def RAB_DataVolumeReportList : NamedTy := ⟨"RAB-DataVolumeReportList", Asn.Ranap.RAB_DataVolumeReportList, Gen.Ranap.RANAP_RAB_DataVolumeReportList⟩
def RAB_ReleasedList_IuRelComp : NamedTy := ⟨"RAB-ReleasedList-IuRelComp", Asn.Ranap.RAB_ReleasedList_IuRelComp, Gen.Ranap.RANAP_RAB_ReleasedList_IuRelComp⟩
def RAB_RelocationReleaseList : NamedTy := ⟨"RAB-RelocationReleaseList", Asn.Ranap.RAB_RelocationReleaseList, Gen.Ranap.RANAP_RAB_RelocationReleaseList⟩
def RAB_DataForwardingList : NamedTy := ⟨"RAB-DataForwardingList", Asn.Ranap.RAB_DataForwardingList, Gen.Ranap.RANAP_RAB_DataForwardingList⟩
def RAB_SetupList_RelocReq : NamedTy := ⟨"RAB-SetupList-RelocReq", Asn.Ranap.RAB_SetupList_RelocReq, Gen.Ranap.RANAP_RAB_SetupList_RelocReq⟩
def RAB_SetupList_RelocReqAck : NamedTy := ⟨"RAB-SetupList-RelocReqAck", Asn.Ranap.RAB_SetupList_RelocReqAck, Gen.Ranap.RANAP_RAB_SetupList_RelocReqAck⟩
def RAB_FailedList : NamedTy := ⟨"RAB-FailedList", Asn.Ranap.RAB_FailedList, Gen.Ranap.RANAP_RAB_FailedList⟩
def RAB_DataForwardingList_SRNS_CtxReq : NamedTy := ⟨"RAB-DataForwardingList-SRNS-CtxReq", Asn.Ranap.RAB_DataForwardingList_SRNS_CtxReq, Gen.Ranap.RANAP_RAB_DataForwardingList_SRNS_CtxReq⟩
def RAB_ContextList : NamedTy := ⟨"RAB-ContextList", Asn.Ranap.RAB_ContextList, Gen.Ranap.RANAP_RAB_ContextList⟩
def RABs_ContextFailedtoTransferList : NamedTy := ⟨"RABs-ContextFailedtoTransferList", Asn.Ranap.RABs_ContextFailedtoTransferList, Gen.Ranap.RANAP_RABs_ContextFailedtoTransferList⟩
def RAB_DataVolumeReportRequestList : NamedTy := ⟨"RAB-DataVolumeReportRequestList", Asn.Ranap.RAB_DataVolumeReportRequestList, Gen.Ranap.RANAP_RAB_DataVolumeReportRequestList⟩
def RABs_failed_to_reportList : NamedTy := ⟨"RABs-failed-to-reportList", Asn.Ranap.RABs_failed_to_reportList, Gen.Ranap.RANAP_RABs_failed_to_reportList⟩
def ResetResourceList : NamedTy := ⟨"ResetResourceList", Asn.Ranap.ResetResourceList, Gen.Ranap.RANAP_ResetResourceList⟩
def ResetResourceAckList : NamedTy := ⟨"ResetResourceAckList", Asn.Ranap.ResetResourceAckList, Gen.Ranap.RANAP_ResetResourceAckList⟩
def RAB_ReleaseList : NamedTy := ⟨"RAB-ReleaseList", Asn.Ranap.RAB_ReleaseList, Gen.Ranap.RANAP_RAB_ReleaseList⟩
def RAB_SetupList_EnhancedRelocCompleteReq : NamedTy := ⟨"RAB-SetupList-EnhancedRelocCompleteReq", Asn.Ranap.RAB_SetupList_EnhancedRelocCompleteReq, Gen.Ranap.RANAP_RAB_SetupList_EnhancedRelocCompleteReq⟩
def RAB_SetupList_EnhancedRelocCompleteRes : NamedTy := ⟨"RAB-SetupList-EnhancedRelocCompleteRes", Asn.Ranap.RAB_SetupList_EnhancedRelocCompleteRes, Gen.Ranap.RANAP_RAB_SetupList_EnhancedRelocCompleteRes⟩
def RAB_ToBeReleasedList_EnhancedRelocCompleteRes : NamedTy := ⟨"RAB-ToBeReleasedList-EnhancedRelocCompleteRes", Asn.Ranap.RAB_ToBeReleasedList_EnhancedRelocCompleteRes, Gen.Ranap.RANAP_RAB_ToBeReleasedList_EnhancedRelocCompleteRes⟩
def RAB_SetupOrModifiedList : NamedTy := ⟨"RAB-SetupOrModifiedList", Asn.Ranap.RAB_SetupOrModifiedList, Gen.Ranap.RANAP_RAB_SetupOrModifiedList⟩
def RAB_ReleasedList : NamedTy := ⟨"RAB-ReleasedList", Asn.Ranap.RAB_ReleasedList, Gen.Ranap.RANAP_RAB_ReleasedList⟩
def RAB_QueuedList : NamedTy := ⟨"RAB-QueuedList", Asn.Ranap.RAB_QueuedList, Gen.Ranap.RANAP_RAB_QueuedList⟩
def RAB_ReleaseFailedList : NamedTy := ⟨"RAB-ReleaseFailedList", Asn.Ranap.RAB_ReleaseFailedList, Gen.Ranap.RANAP_RAB_ReleaseFailedList⟩
def GERAN_Iumode_RAB_FailedList_RABAssgntResponse : NamedTy := ⟨"GERAN-Iumode-RAB-FailedList-RABAssgntResponse", Asn.Ranap.GERAN_Iumode_RAB_FailedList_RABAssgntResponse, Gen.Ranap.RANAP_GERAN_Iumode_RAB_Failed_RABAssgntResponse_List⟩
def RAB_ContextList_RANAP_RelocInf : NamedTy := ⟨"RAB-ContextList-RANAP-RelocInf", Asn.Ranap.RAB_ContextList_RANAP_RelocInf, Gen.Ranap.RANAP_RAB_ContextList_RANAP_RelocInf⟩
def RAB_SetupList_EnhRelocInfoReq : NamedTy := ⟨"RAB-SetupList-EnhRelocInfoReq", Asn.Ranap.RAB_SetupList_EnhRelocInfoReq, Gen.Ranap.RANAP_RAB_SetupList_EnhRelocInfoReq⟩
def RAB_SetupList_EnhRelocInfoRes : NamedTy := ⟨"RAB-SetupList-EnhRelocInfoRes", Asn.Ranap.RAB_SetupList_EnhRelocInfoRes, Gen.Ranap.RANAP_RAB_SetupList_EnhRelocInfoRes⟩
def RAB_FailedList_EnhRelocInfoRes : NamedTy := ⟨"RAB-FailedList-EnhRelocInfoRes", Asn.Ranap.RAB_FailedList_EnhRelocInfoRes, Gen.Ranap.RANAP_RAB_FailedList_EnhRelocInfoRes⟩
def RAB_ModifyList : NamedTy := ⟨"RAB-ModifyList", Asn.Ranap.RAB_ModifyList, Gen.Ranap.RANAP_RAB_ModifyList⟩
def RAB_SetupItem_EnhancedRelocCompleteRes : NamedTy := ⟨"RAB-SetupItem-EnhancedRelocCompleteRes", Asn.Ranap.RAB_SetupItem_EnhancedRelocCompleteRes, Gen.Ranap.RANAP_RAB_SetupItem_EnhancedRelocCompleteRes⟩
def RedirectionIndication : NamedTy := ⟨"RedirectionIndication", Asn.Ranap.RedirectionIndication, Gen.Ranap.RANAP_RedirectionIndication⟩
def PrivateMessage : NamedTy := ⟨"PrivateMessage", Asn.Ranap.PrivateMessage, Gen.Ranap.RANAP_PrivateMessage⟩
end Ranap

namespace Rua
def Criticality : NamedTy := ⟨"Criticality", Asn.Rua.Criticality, Gen.Rua.RUA_Criticality⟩
def Presence : NamedTy := ⟨"Presence", Asn.Rua.Presence, Gen.Rua.RUA_Presence⟩
def ProcedureCode : NamedTy := ⟨"ProcedureCode", Asn.Rua.ProcedureCode, Gen.Rua.RUA_ProcedureCode⟩
def PrivateIE_ID : NamedTy := ⟨"PrivateIE-ID", Asn.Rua.PrivateIE_ID, Gen.Rua.RUA_PrivateIE_ID⟩
def ProtocolIE_ID : NamedTy := ⟨"ProtocolIE-ID", Asn.Rua.ProtocolIE_ID, Gen.Rua.RUA_ProtocolIE_ID⟩
def TriggeringMessage : NamedTy := ⟨"TriggeringMessage", Asn.Rua.TriggeringMessage, Gen.Rua.RUA_TriggeringMessage⟩
def IE_Extensions : NamedTy := ⟨"IE-Extensions", Asn.Rua.IE_Extensions, Gen.Rua.RUA_IE_Extensions⟩
def CN_DomainIndicator : NamedTy := ⟨"CN-DomainIndicator", Asn.Rua.CN_DomainIndicator, Gen.Rua.RUA_CN_DomainIndicator⟩
def CSGMembershipStatus : NamedTy := ⟨"CSGMembershipStatus", Asn.Rua.CSGMembershipStatus, Gen.Rua.RUA_CSGMembershipStatus⟩
def Establishment_Cause : NamedTy := ⟨"Establishment-Cause", Asn.Rua.Establishment_Cause, Gen.Rua.RUA_Establishment_Cause⟩
def Context_ID : NamedTy := ⟨"Context-ID", Asn.Rua.Context_ID, Gen.Rua.RUA_Context_ID⟩
def IntraDomainNasNodeSelector : NamedTy := ⟨"IntraDomainNasNodeSelector", Asn.Rua.IntraDomainNasNodeSelector, Gen.Rua.RUA_IntraDomainNasNodeSelector⟩
def Gsm_map_IDNNS : NamedTy := ⟨"Gsm-map-IDNNS", Asn.Rua.Gsm_map_IDNNS, Gen.Rua.RUA_Gsm_map_IDNNS⟩
def Ansi_41_IDNNS : NamedTy := ⟨"Ansi-41-IDNNS", Asn.Rua.Ansi_41_IDNNS, Gen.Rua.RUA_Ansi_41_IDNNS⟩
def RANAP_Message : NamedTy := ⟨"RANAP-Message", Asn.Rua.RANAP_Message, Gen.Rua.RUA_RANAP_Message⟩
def RoutingParameter : NamedTy := ⟨"RoutingParameter", Asn.Rua.RoutingParameter, Gen.Rua.RUA_RoutingParameter⟩
def Cause : NamedTy := ⟨"Cause", Asn.Rua.Cause, Gen.Rua.RUA_Cause⟩
def CauseRadioNetwork : NamedTy := ⟨"CauseRadioNetwork", Asn.Rua.CauseRadioNetwork, Gen.Rua.RUA_CauseRadioNetwork⟩
def CauseTransport : NamedTy := ⟨"CauseTransport", Asn.Rua.CauseTransport, Gen.Rua.RUA_CauseTransport⟩
def CauseProtocol : NamedTy := ⟨"CauseProtocol", Asn.Rua.CauseProtocol, Gen.Rua.RUA_CauseProtocol⟩
def CauseMisc : NamedTy := ⟨"CauseMisc", Asn.Rua.CauseMisc, Gen.Rua.RUA_CauseMisc⟩
def CriticalityDiagnostics : NamedTy := ⟨"CriticalityDiagnostics", Asn.Rua.CriticalityDiagnostics, Gen.Rua.RUA_CriticalityDiagnostics⟩
def CriticalityDiagnostics_IE_List : NamedTy := ⟨"CriticalityDiagnostics-IE-List", Asn.Rua.CriticalityDiagnostics_IE_List, Gen.Rua.RUA_CriticalityDiagnostics_IE_List⟩
def CriticalityDiagnostics_IE_List_Value : NamedTy := ⟨"CriticalityDiagnostics-IE-List-Value", Asn.Rua.CriticalityDiagnostics_IE_List_Value, Gen.Rua.RUA_CriticalityDiagnostics_IE_List_Value⟩
def TypeOfError : NamedTy := ⟨"TypeOfError", Asn.Rua.TypeOfError, Gen.Rua.RUA_TypeOfError⟩
def RUA_PDU : NamedTy := ⟨"RUA-PDU", Asn.Rua.RUA_PDU, Gen.Rua.RUA_RUA_PDU⟩
def InitiatingMessage : NamedTy := ⟨"InitiatingMessage", Asn.Rua.InitiatingMessage, Gen.Rua.RUA_InitiatingMessage⟩
def SuccessfulOutcome : NamedTy := ⟨"SuccessfulOutcome", Asn.Rua.SuccessfulOutcome, Gen.Rua.RUA_SuccessfulOutcome⟩
def UnsuccessfulOutcome : NamedTy := ⟨"UnsuccessfulOutcome", Asn.Rua.UnsuccessfulOutcome, Gen.Rua.RUA_UnsuccessfulOutcome⟩
def IE : NamedTy := ⟨"IE", Asn.Rua.IE, Gen.Rua.RUA_IE⟩
def Connect : NamedTy := ⟨"Connect", Asn.Rua.Connect, Gen.Rua.RUA_Connect⟩
def DirectTransfer : NamedTy := ⟨"DirectTransfer", Asn.Rua.DirectTransfer, Gen.Rua.RUA_DirectTransfer⟩
def Disconnect : NamedTy := ⟨"Disconnect", Asn.Rua.Disconnect, Gen.Rua.RUA_Disconnect⟩
def ConnectionlessTransfer : NamedTy := ⟨"ConnectionlessTransfer", Asn.Rua.ConnectionlessTransfer, Gen.Rua.RUA_ConnectionlessTransfer⟩
def ErrorIndication : NamedTy := ⟨"ErrorIndication", Asn.Rua.ErrorIndication, Gen.Rua.RUA_ErrorIndication⟩
def PrivateMessage : NamedTy := ⟨"PrivateMessage", Asn.Rua.PrivateMessage, Gen.Rua.RUA_PrivateMessage⟩
end Rua

namespace Hnbap
def Criticality : NamedTy := ⟨"Criticality", Asn.Hnbap.Criticality, Gen.Hnbap.HNBAP_Criticality⟩
def Presence : NamedTy := ⟨"Presence", Asn.Hnbap.Presence, Gen.Hnbap.HNBAP_Presence⟩
def PrivateIE_ID : NamedTy := ⟨"PrivateIE-ID", Asn.Hnbap.PrivateIE_ID, Gen.Hnbap.HNBAP_PrivateIE_ID⟩
def ProcedureCode : NamedTy := ⟨"ProcedureCode", Asn.Hnbap.ProcedureCode, Gen.Hnbap.HNBAP_ProcedureCode⟩
def ProtocolIE_ID : NamedTy := ⟨"ProtocolIE-ID", Asn.Hnbap.ProtocolIE_ID, Gen.Hnbap.HNBAP_ProtocolIE_ID⟩
def TriggeringMessage : NamedTy := ⟨"TriggeringMessage", Asn.Hnbap.TriggeringMessage, Gen.Hnbap.HNBAP_TriggeringMessage⟩
def IE_Extensions : NamedTy := ⟨"IE-Extensions", Asn.Hnbap.IE_Extensions, Gen.Hnbap.HNBAP_IE_Extensions⟩
def Access_stratum_release_indicator : NamedTy := ⟨"Access-stratum-release-indicator", Asn.Hnbap.Access_stratum_release_indicator, Gen.Hnbap.HNBAP_Access_stratum_release_indicator⟩
def AccessResult : NamedTy := ⟨"AccessResult", Asn.Hnbap.AccessResult, Gen.Hnbap.HNBAP_AccessResult⟩
def AltitudeAndDirection : NamedTy := ⟨"AltitudeAndDirection", Asn.Hnbap.AltitudeAndDirection, Gen.Hnbap.HNBAP_AltitudeAndDirection⟩
def BackoffTimer : NamedTy := ⟨"BackoffTimer", Asn.Hnbap.BackoffTimer, Gen.Hnbap.HNBAP_BackoffTimer⟩
def BindingID : NamedTy := ⟨"BindingID", Asn.Hnbap.BindingID, Gen.Hnbap.HNBAP_BindingID⟩
def Cause : NamedTy := ⟨"Cause", Asn.Hnbap.Cause, Gen.Hnbap.HNBAP_Cause⟩
def CauseRadioNetwork : NamedTy := ⟨"CauseRadioNetwork", Asn.Hnbap.CauseRadioNetwork, Gen.Hnbap.HNBAP_CauseRadioNetwork⟩
def CauseTransport : NamedTy := ⟨"CauseTransport", Asn.Hnbap.CauseTransport, Gen.Hnbap.HNBAP_CauseTransport⟩
def CauseProtocol : NamedTy := ⟨"CauseProtocol", Asn.Hnbap.CauseProtocol, Gen.Hnbap.HNBAP_CauseProtocol⟩
def CauseMisc : NamedTy := ⟨"CauseMisc", Asn.Hnbap.CauseMisc, Gen.Hnbap.HNBAP_CauseMisc⟩
def CellIdentity : NamedTy := ⟨"CellIdentity", Asn.Hnbap.CellIdentity, Gen.Hnbap.HNBAP_CellIdentity⟩
def CELL_FACHMobilitySupport : NamedTy := ⟨"CELL-FACHMobilitySupport", Asn.Hnbap.CELL_FACHMobilitySupport, Gen.Hnbap.HNBAP_CELL_FACHMobilitySupport⟩
def Context_ID : NamedTy := ⟨"Context-ID", Asn.Hnbap.Context_ID, Gen.Hnbap.HNBAP_Context_ID⟩
def CriticalityDiagnostics : NamedTy := ⟨"CriticalityDiagnostics", Asn.Hnbap.CriticalityDiagnostics, Gen.Hnbap.HNBAP_CriticalityDiagnostics⟩
def CriticalityDiagnostics_IE_List : NamedTy := ⟨"CriticalityDiagnostics-IE-List", Asn.Hnbap.CriticalityDiagnostics_IE_List, Gen.Hnbap.HNBAP_CriticalityDiagnostics_IE_List⟩
def CriticalityDiagnostics_IE_List_Value : NamedTy := ⟨"CriticalityDiagnostics-IE-List-Value", Asn.Hnbap.CriticalityDiagnostics_IE_List_Value, Gen.Hnbap.HNBAP_CriticalityDiagnostics_IE_List_Value⟩
def CSG_ID : NamedTy := ⟨"CSG-ID", Asn.Hnbap.CSG_ID, Gen.Hnbap.HNBAP_CSG_ID⟩
def CSG_Capability : NamedTy := ⟨"CSG-Capability", Asn.Hnbap.CSG_Capability, Gen.Hnbap.HNBAP_CSG_Capability⟩
def CSGMembershipStatus : NamedTy := ⟨"CSGMembershipStatus", Asn.Hnbap.CSGMembershipStatus, Gen.Hnbap.HNBAP_CSGMembershipStatus⟩
def CGI : NamedTy := ⟨"CGI", Asn.Hnbap.CGI, Gen.Hnbap.HNBAP_CGI⟩
def CI : NamedTy := ⟨"CI", Asn.Hnbap.CI, Gen.Hnbap.HNBAP_CI⟩
def CN_DomainIndicator : NamedTy := ⟨"CN-DomainIndicator", Asn.Hnbap.CN_DomainIndicator, Gen.Hnbap.HNBAP_CN_DomainIndicator⟩
def ESN : NamedTy := ⟨"ESN", Asn.Hnbap.ESN, Gen.Hnbap.HNBAP_ESN⟩
def GeographicalLocation : NamedTy := ⟨"GeographicalLocation", Asn.Hnbap.GeographicalLocation, Gen.Hnbap.HNBAP_GeographicalLocation⟩
def GeographicalCoordinates : NamedTy := ⟨"GeographicalCoordinates", Asn.Hnbap.GeographicalCoordinates, Gen.Hnbap.HNBAP_GeographicalCoordinates⟩
def GTP_TEI : NamedTy := ⟨"GTP-TEI", Asn.Hnbap.GTP_TEI, Gen.Hnbap.HNBAP_GTP_TEI⟩
def HNBCapacity : NamedTy := ⟨"HNBCapacity", Asn.Hnbap.HNBCapacity, Gen.Hnbap.HNBAP_HNBCapacity⟩
def HNB_Cell_Access_Mode : NamedTy := ⟨"HNB-Cell-Access-Mode", Asn.Hnbap.HNB_Cell_Access_Mode, Gen.Hnbap.HNBAP_HNB_Cell_Access_Mode⟩
def HNB_Cell_Identifier : NamedTy := ⟨"HNB-Cell-Identifier", Asn.Hnbap.HNB_Cell_Identifier, Gen.Hnbap.HNBAP_HNB_Cell_Identifier⟩
def HNB_GWResponse : NamedTy := ⟨"HNB-GWResponse", Asn.Hnbap.HNB_GWResponse, Gen.Hnbap.HNBAP_HNB_GWResponse⟩
def HNB_RNL_Identity : NamedTy := ⟨"HNB-RNL-Identity", Asn.Hnbap.HNB_RNL_Identity, Gen.Hnbap.HNBAP_HNB_RNL_Identity⟩
def HNBConfigInfo : NamedTy := ⟨"HNBConfigInfo", Asn.Hnbap.HNBConfigInfo, Gen.Hnbap.HNBAP_HNBConfigInfo⟩
def ConfigurationInformation : NamedTy := ⟨"ConfigurationInformation", Asn.Hnbap.ConfigurationInformation, Gen.Hnbap.HNBAP_ConfigurationInformation⟩
def HNBConfigurationInformationProvided : NamedTy := ⟨"HNBConfigurationInformationProvided", Asn.Hnbap.HNBConfigurationInformationProvided, Gen.Hnbap.HNBAP_HNBConfigurationInformationProvided⟩
def HNBConfigurationInformationMissing : NamedTy := ⟨"HNBConfigurationInformationMissing", Asn.Hnbap.HNBConfigurationInformationMissing, Gen.Hnbap.HNBAP_HNBConfigurationInformationMissing⟩
def HNB_Location_Information : NamedTy := ⟨"HNB-Location-Information", Asn.Hnbap.HNB_Location_Information, Gen.Hnbap.HNBAP_HNB_Location_Information⟩
def HNB_Identity : NamedTy := ⟨"HNB-Identity", Asn.Hnbap.HNB_Identity, Gen.Hnbap.HNBAP_HNB_Identity⟩
def HNB_Identity_Info : NamedTy := ⟨"HNB-Identity-Info", Asn.Hnbap.HNB_Identity_Info, Gen.Hnbap.HNBAP_HNB_Identity_Info⟩
def IMEI : NamedTy := ⟨"IMEI", Asn.Hnbap.IMEI, Gen.Hnbap.HNBAP_IMEI⟩
def IMSI : NamedTy := ⟨"IMSI", Asn.Hnbap.IMSI, Gen.Hnbap.HNBAP_IMSI⟩
def IMSIDS41 : NamedTy := ⟨"IMSIDS41", Asn.Hnbap.IMSIDS41, Gen.Hnbap.HNBAP_IMSIDS41⟩
def IMSIESN : NamedTy := ⟨"IMSIESN", Asn.Hnbap.IMSIESN, Gen.Hnbap.HNBAP_IMSIESN⟩
def IP_Address : NamedTy := ⟨"IP-Address", Asn.Hnbap.IP_Address, Gen.Hnbap.HNBAP_IP_Address⟩
def Ipv4Address : NamedTy := ⟨"Ipv4Address", Asn.Hnbap.Ipv4Address, Gen.Hnbap.HNBAP_Ipv4Address⟩
def Ipv6Address : NamedTy := ⟨"Ipv6Address", Asn.Hnbap.Ipv6Address, Gen.Hnbap.HNBAP_Ipv6Address⟩
def Iurh_Signalling_TNL_AddressList : NamedTy := ⟨"Iurh-Signalling-TNL-AddressList", Asn.Hnbap.Iurh_Signalling_TNL_AddressList, Gen.Hnbap.HNBAP_Iurh_Signalling_TNL_AddressList⟩
def LAC : NamedTy := ⟨"LAC", Asn.Hnbap.LAC, Gen.Hnbap.HNBAP_LAC⟩
def LAI : NamedTy := ⟨"LAI", Asn.Hnbap.LAI, Gen.Hnbap.HNBAP_LAI⟩
def MacroCoverageInformation : NamedTy := ⟨"MacroCoverageInformation", Asn.Hnbap.MacroCoverageInformation, Gen.Hnbap.HNBAP_MacroCoverageInformation⟩
def MacroCellID : NamedTy := ⟨"MacroCellID", Asn.Hnbap.MacroCellID, Gen.Hnbap.HNBAP_MacroCellID⟩
def MuxPortNumber : NamedTy := ⟨"MuxPortNumber", Asn.Hnbap.MuxPortNumber, Gen.Hnbap.HNBAP_MuxPortNumber⟩
def NeighbourCellIdentityList : NamedTy := ⟨"NeighbourCellIdentityList", Asn.Hnbap.NeighbourCellIdentityList, Gen.Hnbap.HNBAP_NeighbourCellIdentityList⟩
def NeighbourIdentity : NamedTy := ⟨"NeighbourIdentity", Asn.Hnbap.NeighbourIdentity, Gen.Hnbap.HNBAP_NeighbourIdentity⟩
def NeighbourInfoList : NamedTy := ⟨"NeighbourInfoList", Asn.Hnbap.NeighbourInfoList, Gen.Hnbap.HNBAP_NeighbourInfoList⟩
def AdditionalNeighbourInfoList : NamedTy := ⟨"AdditionalNeighbourInfoList", Asn.Hnbap.AdditionalNeighbourInfoList, Gen.Hnbap.HNBAP_AdditionalNeighbourInfoList⟩
def NeighbourInfoRequestList : NamedTy := ⟨"NeighbourInfoRequestList", Asn.Hnbap.NeighbourInfoRequestList, Gen.Hnbap.HNBAP_NeighbourInfoRequestList⟩
def NeighbourInfoRequestItem : NamedTy := ⟨"NeighbourInfoRequestItem", Asn.Hnbap.NeighbourInfoRequestItem, Gen.Hnbap.HNBAP_NeighbourInfoRequestItem⟩
def PLMNidentity : NamedTy := ⟨"PLMNidentity", Asn.Hnbap.PLMNidentity, Gen.Hnbap.HNBAP_PLMNidentity⟩
def PSC : NamedTy := ⟨"PSC", Asn.Hnbap.PSC, Gen.Hnbap.HNBAP_PSC⟩
def PTMSI : NamedTy := ⟨"PTMSI", Asn.Hnbap.PTMSI, Gen.Hnbap.HNBAP_PTMSI⟩
def PTMSIRAI : NamedTy := ⟨"PTMSIRAI", Asn.Hnbap.PTMSIRAI, Gen.Hnbap.HNBAP_PTMSIRAI⟩
def RAB_ID : NamedTy := ⟨"RAB-ID", Asn.Hnbap.RAB_ID, Gen.Hnbap.HNBAP_RAB_ID⟩
def RABList : NamedTy := ⟨"RABList", Asn.Hnbap.RABList, Gen.Hnbap.HNBAP_RABList⟩
def RABListItem : NamedTy := ⟨"RABListItem", Asn.Hnbap.RABListItem, Gen.Hnbap.HNBAP_RABListItem⟩
def RAC : NamedTy := ⟨"RAC", Asn.Hnbap.RAC, Gen.Hnbap.HNBAP_RAC⟩
def RAI : NamedTy := ⟨"RAI", Asn.Hnbap.RAI, Gen.Hnbap.HNBAP_RAI⟩
def Registration_Cause : NamedTy := ⟨"Registration-Cause", Asn.Hnbap.Registration_Cause, Gen.Hnbap.HNBAP_Registration_Cause⟩
def RNC_ID : NamedTy := ⟨"RNC-ID", Asn.Hnbap.RNC_ID, Gen.Hnbap.HNBAP_RNC_ID⟩
def SAC : NamedTy := ⟨"SAC", Asn.Hnbap.SAC, Gen.Hnbap.HNBAP_SAC⟩
def S_RNTIPrefix : NamedTy := ⟨"S-RNTIPrefix", Asn.Hnbap.S_RNTIPrefix, Gen.Hnbap.HNBAP_S_RNTIPrefix⟩
def TMSILAI : NamedTy := ⟨"TMSILAI", Asn.Hnbap.TMSILAI, Gen.Hnbap.HNBAP_TMSILAI⟩
def TMSIDS41 : NamedTy := ⟨"TMSIDS41", Asn.Hnbap.TMSIDS41, Gen.Hnbap.HNBAP_TMSIDS41⟩
def TransportInfo : NamedTy := ⟨"TransportInfo", Asn.Hnbap.TransportInfo, Gen.Hnbap.HNBAP_TransportInfo⟩
def TransportLayerAddress : NamedTy := ⟨"TransportLayerAddress", Asn.Hnbap.TransportLayerAddress, Gen.Hnbap.HNBAP_TransportLayerAddress⟩
def Tunnel_Information : NamedTy := ⟨"Tunnel-Information", Asn.Hnbap.Tunnel_Information, Gen.Hnbap.HNBAP_Tunnel_Information⟩
def TypeOfError : NamedTy := ⟨"TypeOfError", Asn.Hnbap.TypeOfError, Gen.Hnbap.HNBAP_TypeOfError⟩
def UDP_Port_Number : NamedTy := ⟨"UDP-Port-Number", Asn.Hnbap.UDP_Port_Number, Gen.Hnbap.HNBAP_UDP_Port_Number⟩
def UE_Capabilities : NamedTy := ⟨"UE-Capabilities", Asn.Hnbap.UE_Capabilities, Gen.Hnbap.HNBAP_UE_Capabilities⟩
def UTRANCellID : NamedTy := ⟨"UTRANCellID", Asn.Hnbap.UTRANCellID, Gen.Hnbap.HNBAP_UTRANCellID⟩
def UE_Identity : NamedTy := ⟨"UE-Identity", Asn.Hnbap.UE_Identity, Gen.Hnbap.HNBAP_UE_Identity⟩
def Update_cause : NamedTy := ⟨"Update-cause", Asn.Hnbap.Update_cause, Gen.Hnbap.HNBAP_Update_cause⟩
def URAIdentityList : NamedTy := ⟨"URAIdentityList", Asn.Hnbap.URAIdentityList, Gen.Hnbap.HNBAP_URAIdentityList⟩
def URAIdentity : NamedTy := ⟨"URAIdentity", Asn.Hnbap.URAIdentity, Gen.Hnbap.HNBAP_URAIdentity⟩
def U_RNTI : NamedTy := ⟨"U-RNTI", Asn.Hnbap.U_RNTI, Gen.Hnbap.HNBAP_U_RNTI⟩
def UnknownU_RNTIIndication : NamedTy := ⟨"UnknownU-RNTIIndication", Asn.Hnbap.UnknownU_RNTIIndication, Gen.Hnbap.HNBAP_UnknownU_RNTIIndication⟩
def HNBAP_PDU : NamedTy := ⟨"HNBAP-PDU", Asn.Hnbap.HNBAP_PDU, Gen.Hnbap.HNBAP_HNBAP_PDU⟩
def InitiatingMessage : NamedTy := ⟨"InitiatingMessage", Asn.Hnbap.InitiatingMessage, Gen.Hnbap.HNBAP_InitiatingMessage⟩
def SuccessfulOutcome : NamedTy := ⟨"SuccessfulOutcome", Asn.Hnbap.SuccessfulOutcome, Gen.Hnbap.HNBAP_SuccessfulOutcome⟩
def UnsuccessfulOutcome : NamedTy := ⟨"UnsuccessfulOutcome", Asn.Hnbap.UnsuccessfulOutcome, Gen.Hnbap.HNBAP_UnsuccessfulOutcome⟩
def IE : NamedTy := ⟨"IE", Asn.Hnbap.IE, Gen.Hnbap.HNBAP_IE⟩
def HNBRegisterRequest : NamedTy := ⟨"HNBRegisterRequest", Asn.Hnbap.HNBRegisterRequest, Gen.Hnbap.HNBAP_HNBRegisterRequest⟩
def HNBRegisterAccept : NamedTy := ⟨"HNBRegisterAccept", Asn.Hnbap.HNBRegisterAccept, Gen.Hnbap.HNBAP_HNBRegisterAccept⟩
def HNBRegisterReject : NamedTy := ⟨"HNBRegisterReject", Asn.Hnbap.HNBRegisterReject, Gen.Hnbap.HNBAP_HNBRegisterReject⟩
def HNBDe_Register : NamedTy := ⟨"HNBDe-Register", Asn.Hnbap.HNBDe_Register, Gen.Hnbap.HNBAP_HNBDe_Register⟩
def UERegisterRequest : NamedTy := ⟨"UERegisterRequest", Asn.Hnbap.UERegisterRequest, Gen.Hnbap.HNBAP_UERegisterRequest⟩
def UERegisterAccept : NamedTy := ⟨"UERegisterAccept", Asn.Hnbap.UERegisterAccept, Gen.Hnbap.HNBAP_UERegisterAccept⟩
def UERegisterReject : NamedTy := ⟨"UERegisterReject", Asn.Hnbap.UERegisterReject, Gen.Hnbap.HNBAP_UERegisterReject⟩
def UEDe_Register : NamedTy := ⟨"UEDe-Register", Asn.Hnbap.UEDe_Register, Gen.Hnbap.HNBAP_UEDe_Register⟩
def CSGMembershipUpdate : NamedTy := ⟨"CSGMembershipUpdate", Asn.Hnbap.CSGMembershipUpdate, Gen.Hnbap.HNBAP_CSGMembershipUpdate⟩
def TNLUpdateRequest : NamedTy := ⟨"TNLUpdateRequest", Asn.Hnbap.TNLUpdateRequest, Gen.Hnbap.HNBAP_TNLUpdateRequest⟩
def TNLUpdateResponse : NamedTy := ⟨"TNLUpdateResponse", Asn.Hnbap.TNLUpdateResponse, Gen.Hnbap.HNBAP_TNLUpdateResponse⟩
def TNLUpdateFailure : NamedTy := ⟨"TNLUpdateFailure", Asn.Hnbap.TNLUpdateFailure, Gen.Hnbap.HNBAP_TNLUpdateFailure⟩
def HNBConfigTransferRequest : NamedTy := ⟨"HNBConfigTransferRequest", Asn.Hnbap.HNBConfigTransferRequest, Gen.Hnbap.HNBAP_HNBConfigTransferRequest⟩
def HNBConfigTransferResponse : NamedTy := ⟨"HNBConfigTransferResponse", Asn.Hnbap.HNBConfigTransferResponse, Gen.Hnbap.HNBAP_HNBConfigTransferResponse⟩
def RelocationComplete : NamedTy := ⟨"RelocationComplete", Asn.Hnbap.RelocationComplete, Gen.Hnbap.HNBAP_RelocationComplete⟩
def ErrorIndication : NamedTy := ⟨"ErrorIndication", Asn.Hnbap.ErrorIndication, Gen.Hnbap.HNBAP_ErrorIndication⟩
def U_RNTIQueryRequest : NamedTy := ⟨"U-RNTIQueryRequest", Asn.Hnbap.U_RNTIQueryRequest, Gen.Hnbap.HNBAP_U_RNTIQueryRequest⟩
def U_RNTIQueryResponse : NamedTy := ⟨"U-RNTIQueryResponse", Asn.Hnbap.U_RNTIQueryResponse, Gen.Hnbap.HNBAP_U_RNTIQueryResponse⟩
def PrivateMessage : NamedTy := ⟨"PrivateMessage", Asn.Hnbap.PrivateMessage, Gen.Hnbap.HNBAP_PrivateMessage⟩
end Hnbap

namespace Sabp
def Criticality : NamedTy := ⟨"Criticality", Asn.Sabp.Criticality, Gen.Sabp.SABP_Criticality⟩
def Presence : NamedTy := ⟨"Presence", Asn.Sabp.Presence, Gen.Sabp.SABP_Presence⟩
def ProcedureCode : NamedTy := ⟨"ProcedureCode", Asn.Sabp.ProcedureCode, Gen.Sabp.SABP_ProcedureCode⟩
def ProtocolExtensionID : NamedTy := ⟨"ProtocolExtensionID", Asn.Sabp.ProtocolExtensionID, Gen.Sabp.SABP_ProtocolExtensionID⟩
def ProtocolIE_ID : NamedTy := ⟨"ProtocolIE-ID", Asn.Sabp.ProtocolIE_ID, Gen.Sabp.SABP_ProtocolIE_ID⟩
def TriggeringMessage : NamedTy := ⟨"TriggeringMessage", Asn.Sabp.TriggeringMessage, Gen.Sabp.SABP_TriggeringMessage⟩
def IE_Extensions : NamedTy := ⟨"IE-Extensions", Asn.Sabp.IE_Extensions, Gen.Sabp.SABP_IE_Extensions⟩
def Available_Bandwidth : NamedTy := ⟨"Available-Bandwidth", Asn.Sabp.Available_Bandwidth, Gen.Sabp.SABP_Available_Bandwidth⟩
def Broadcast_Message_Content : NamedTy := ⟨"Broadcast-Message-Content", Asn.Sabp.Broadcast_Message_Content, Gen.Sabp.SABP_Broadcast_Message_Content⟩
def Broadcast_Message_Content_Validity_Indicator : NamedTy := ⟨"Broadcast-Message-Content-Validity-Indicator", Asn.Sabp.Broadcast_Message_Content_Validity_Indicator, Gen.Sabp.SABP_Broadcast_Message_Content_Validity_Indicator⟩
def Category : NamedTy := ⟨"Category", Asn.Sabp.Category, Gen.Sabp.SABP_Category⟩
def Cause : NamedTy := ⟨"Cause", Asn.Sabp.Cause, Gen.Sabp.SABP_Cause⟩
def Criticality_Diagnostics : NamedTy := ⟨"Criticality-Diagnostics", Asn.Sabp.Criticality_Diagnostics, Gen.Sabp.SABP_Criticality_Diagnostics⟩
def CriticalityDiagnostics_IE_List : NamedTy := ⟨"CriticalityDiagnostics-IE-List", Asn.Sabp.CriticalityDiagnostics_IE_List, Gen.Sabp.SABP_CriticalityDiagnostics_IE_List⟩
def CriticalityDiagnostics_IE_List_Value : NamedTy := ⟨"CriticalityDiagnostics-IE-List-Value", Asn.Sabp.CriticalityDiagnostics_IE_List_Value, Gen.Sabp.SABP_CriticalityDiagnostics_IE_List_Value⟩
def MessageStructure : NamedTy := ⟨"MessageStructure", Asn.Sabp.MessageStructure, Gen.Sabp.SABP_MessageStructure⟩
def MessageStructure_Value : NamedTy := ⟨"MessageStructure-Value", Asn.Sabp.MessageStructure_Value, Gen.Sabp.SABP_MessageStructure_Value⟩
def Data_Coding_Scheme : NamedTy := ⟨"Data-Coding-Scheme", Asn.Sabp.Data_Coding_Scheme, Gen.Sabp.SABP_Data_Coding_Scheme⟩
def Failure_List : NamedTy := ⟨"Failure-List", Asn.Sabp.Failure_List, Gen.Sabp.SABP_Failure_List⟩
def Failure_List_Item : NamedTy := ⟨"Failure-List-Item", Asn.Sabp.Failure_List_Item, Gen.Sabp.SABP_Failure_List_Item⟩
def Message_Identifier : NamedTy := ⟨"Message-Identifier", Asn.Sabp.Message_Identifier, Gen.Sabp.SABP_Message_Identifier⟩
def New_Serial_Number : NamedTy := ⟨"New-Serial-Number", Asn.Sabp.New_Serial_Number, Gen.Sabp.SABP_New_Serial_Number⟩
def Number_of_Broadcasts_Completed_List : NamedTy := ⟨"Number-of-Broadcasts-Completed-List", Asn.Sabp.Number_of_Broadcasts_Completed_List, Gen.Sabp.SABP_Number_of_Broadcasts_Completed_List⟩
def Number_of_Broadcasts_Completed_List_Item : NamedTy := ⟨"Number-of-Broadcasts-Completed-List-Item", Asn.Sabp.Number_of_Broadcasts_Completed_List_Item, Gen.Sabp.SABP_Number_of_Broadcasts_Completed_List_Item⟩
def Number_Of_Broadcasts_Completed_Info : NamedTy := ⟨"Number-Of-Broadcasts-Completed-Info", Asn.Sabp.Number_Of_Broadcasts_Completed_Info, Gen.Sabp.SABP_Number_Of_Broadcasts_Completed_Info⟩
def Number_of_Broadcasts_Requested : NamedTy := ⟨"Number-of-Broadcasts-Requested", Asn.Sabp.Number_of_Broadcasts_Requested, Gen.Sabp.SABP_Number_of_Broadcasts_Requested⟩
def Old_Serial_Number : NamedTy := ⟨"Old-Serial-Number", Asn.Sabp.Old_Serial_Number, Gen.Sabp.SABP_Old_Serial_Number⟩
def Paging_ETWS_Indicator : NamedTy := ⟨"Paging-ETWS-Indicator", Asn.Sabp.Paging_ETWS_Indicator, Gen.Sabp.SABP_Paging_ETWS_Indicator⟩
def Radio_Resource_Loading_List : NamedTy := ⟨"Radio-Resource-Loading-List", Asn.Sabp.Radio_Resource_Loading_List, Gen.Sabp.SABP_Radio_Resource_Loading_List⟩
def Radio_Resource_Loading_List_Item : NamedTy := ⟨"Radio-Resource-Loading-List-Item", Asn.Sabp.Radio_Resource_Loading_List_Item, Gen.Sabp.SABP_Radio_Resource_Loading_List_Item⟩
def Recovery_Indication : NamedTy := ⟨"Recovery-Indication", Asn.Sabp.Recovery_Indication, Gen.Sabp.SABP_Recovery_Indication⟩
def RepetitionNumber0 : NamedTy := ⟨"RepetitionNumber0", Asn.Sabp.RepetitionNumber0, Gen.Sabp.SABP_RepetitionNumber0⟩
def RepetitionNumber1 : NamedTy := ⟨"RepetitionNumber1", Asn.Sabp.RepetitionNumber1, Gen.Sabp.SABP_RepetitionNumber1⟩
def Repetition_Period : NamedTy := ⟨"Repetition-Period", Asn.Sabp.Repetition_Period, Gen.Sabp.SABP_Repetition_Period⟩
def Serial_Number : NamedTy := ⟨"Serial-Number", Asn.Sabp.Serial_Number, Gen.Sabp.SABP_Serial_Number⟩
def Service_Area_Identifier : NamedTy := ⟨"Service-Area-Identifier", Asn.Sabp.Service_Area_Identifier, Gen.Sabp.SABP_Service_Area_Identifier⟩
def Service_Areas_List : NamedTy := ⟨"Service-Areas-List", Asn.Sabp.Service_Areas_List, Gen.Sabp.SABP_Service_Areas_List⟩
def TypeOfError : NamedTy := ⟨"TypeOfError", Asn.Sabp.TypeOfError, Gen.Sabp.SABP_TypeOfError⟩
def WarningSecurityInfo : NamedTy := ⟨"WarningSecurityInfo", Asn.Sabp.WarningSecurityInfo, Gen.Sabp.SABP_WarningSecurityInfo⟩
def Warning_Type : NamedTy := ⟨"Warning-Type", Asn.Sabp.Warning_Type, Gen.Sabp.SABP_Warning_Type⟩
def SABP_PDU : NamedTy := ⟨"SABP-PDU", Asn.Sabp.SABP_PDU, Gen.Sabp.SABP_SABP_PDU⟩
def InitiatingMessage : NamedTy := ⟨"InitiatingMessage", Asn.Sabp.InitiatingMessage, Gen.Sabp.SABP_InitiatingMessage⟩
def SuccessfulOutcome : NamedTy := ⟨"SuccessfulOutcome", Asn.Sabp.SuccessfulOutcome, Gen.Sabp.SABP_SuccessfulOutcome⟩
def UnsuccessfulOutcome : NamedTy := ⟨"UnsuccessfulOutcome", Asn.Sabp.UnsuccessfulOutcome, Gen.Sabp.SABP_UnsuccessfulOutcome⟩
def IE : NamedTy := ⟨"IE", Asn.Sabp.IE, Gen.Sabp.SABP_IE⟩
def Write_Replace : NamedTy := ⟨"Write-Replace", Asn.Sabp.Write_Replace, Gen.Sabp.SABP_Write_Replace⟩
def Write_Replace_Complete : NamedTy := ⟨"Write-Replace-Complete", Asn.Sabp.Write_Replace_Complete, Gen.Sabp.SABP_Write_Replace_Complete⟩
def Write_Replace_Failure : NamedTy := ⟨"Write-Replace-Failure", Asn.Sabp.Write_Replace_Failure, Gen.Sabp.SABP_Write_Replace_Failure⟩
def Kill : NamedTy := ⟨"Kill", Asn.Sabp.Kill, Gen.Sabp.SABP_Kill⟩
def Kill_Complete : NamedTy := ⟨"Kill-Complete", Asn.Sabp.Kill_Complete, Gen.Sabp.SABP_Kill_Complete⟩
def Kill_Failure : NamedTy := ⟨"Kill-Failure", Asn.Sabp.Kill_Failure, Gen.Sabp.SABP_Kill_Failure⟩
def Load_Query : NamedTy := ⟨"Load-Query", Asn.Sabp.Load_Query, Gen.Sabp.SABP_Load_Query⟩
def Load_Query_Complete : NamedTy := ⟨"Load-Query-Complete", Asn.Sabp.Load_Query_Complete, Gen.Sabp.SABP_Load_Query_Complete⟩
def Load_Query_Failure : NamedTy := ⟨"Load-Query-Failure", Asn.Sabp.Load_Query_Failure, Gen.Sabp.SABP_Load_Query_Failure⟩
def Message_Status_Query : NamedTy := ⟨"Message-Status-Query", Asn.Sabp.Message_Status_Query, Gen.Sabp.SABP_Message_Status_Query⟩
def Message_Status_Query_Complete : NamedTy := ⟨"Message-Status-Query-Complete", Asn.Sabp.Message_Status_Query_Complete, Gen.Sabp.SABP_Message_Status_Query_Complete⟩
def Message_Status_Query_Failure : NamedTy := ⟨"Message-Status-Query-Failure", Asn.Sabp.Message_Status_Query_Failure, Gen.Sabp.SABP_Message_Status_Query_Failure⟩
def Reset : NamedTy := ⟨"Reset", Asn.Sabp.Reset, Gen.Sabp.SABP_Reset⟩
def Reset_Complete : NamedTy := ⟨"Reset-Complete", Asn.Sabp.Reset_Complete, Gen.Sabp.SABP_Reset_Complete⟩
def Reset_Failure : NamedTy := ⟨"Reset-Failure", Asn.Sabp.Reset_Failure, Gen.Sabp.SABP_Reset_Failure⟩
def Restart : NamedTy := ⟨"Restart", Asn.Sabp.Restart, Gen.Sabp.SABP_Restart⟩
def Failure : NamedTy := ⟨"Failure", Asn.Sabp.Failure, Gen.Sabp.SABP_Failure⟩
def Error_Indication : NamedTy := ⟨"Error-Indication", Asn.Sabp.Error_Indication, Gen.Sabp.SABP_Error_Indication⟩
end Sabp

/-- Types of information elements, their components, and messages around them. -/
def same : List NamedTy := [
  Ranap.Criticality, Ranap.Presence, Ranap.PrivateIE_ID, Ranap.ProcedureCode, Ranap.ProtocolExtensionID, Ranap.ProtocolIE_ID, Ranap.TriggeringMessage, Ranap.IE_Extensions, Ranap.AccuracyFulfilmentIndicator, Ranap.AllocationOrRetentionPriority, Ranap.Alt_RAB_Parameters, Ranap.Alt_RAB_Parameter_ExtendedGuaranteedBitrateInf, Ranap.Alt_RAB_Parameter_ExtendedGuaranteedBitrates, Ranap.Alt_RAB_Parameter_ExtendedGuaranteedBitrateList, Ranap.Alt_RAB_Parameter_GuaranteedBitrateInf, Ranap.Alt_RAB_Parameter_GuaranteedBitrateType, Ranap.Alt_RAB_Parameter_GuaranteedBitrates, Ranap.Alt_RAB_Parameter_GuaranteedBitrateList, Ranap.Alt_RAB_Parameter_SupportedGuaranteedBitrateInf, Ranap.Alt_RAB_Parameter_SupportedGuaranteedBitrates, Ranap.Alt_RAB_Parameter_ExtendedMaxBitrateInf, Ranap.Alt_RAB_Parameter_ExtendedMaxBitrates, Ranap.Alt_RAB_Parameter_ExtendedMaxBitrateList, Ranap.Alt_RAB_Parameter_MaxBitrateInf, Ranap.Alt_RAB_Parameter_MaxBitrateType, Ranap.Alt_RAB_Parameter_MaxBitrates, Ranap.Alt_RAB_Parameter_MaxBitrateList, Ranap.Alt_RAB_Parameter_SupportedMaxBitrateInf, Ranap.Alt_RAB_Parameter_SupportedMaxBitrates, Ranap.AlternativeRABConfigurationRequest, Ranap.APN, Ranap.AreaIdentity, Ranap.Ass_RAB_Parameters, Ranap.Ass_RAB_Parameter_ExtendedGuaranteedBitrateList, Ranap.Ass_RAB_Parameter_ExtendedMaxBitrateList, Ranap.Ass_RAB_Parameter_GuaranteedBitrateList, Ranap.Ass_RAB_Parameter_MaxBitrateList, Ranap.AuthorisedPLMNs, Ranap.AuthorisedPLMNs_Value, Ranap.AuthorisedSNAs, Ranap.BindingID, Ranap.BroadcastAssistanceDataDecipheringKeys, Ranap.Cause, Ranap.CauseMisc, Ranap.CauseNAS, Ranap.CauseProtocol, Ranap.CauseRadioNetwork, Ranap.CauseRadioNetworkExtension, Ranap.CauseNon_Standard, Ranap.CauseTransmissionNetwork, Ranap.Cell_Access_Mode, Ranap.CellBased, Ranap.CellIdList, Ranap.Cell_Id, Ranap.Cell_Capacity_Class_Value, Ranap.CellLoadInformation, Ranap.CellLoadInformationGroup, Ranap.CellType, Ranap.ClientType, Ranap.CriticalityDiagnostics, Ranap.CriticalityDiagnostics_IE_List, Ranap.CriticalityDiagnostics_IE_List_Value, Ranap.MessageStructure, Ranap.MessageStructure_Value, Ranap.CGI, Ranap.ChosenEncryptionAlgorithm, Ranap.ChosenIntegrityProtectionAlgorithm, Ranap.CI, Ranap.ClassmarkInformation2, Ranap.ClassmarkInformation3, Ranap.CN_DomainIndicator, Ranap.CN_ID, Ranap.Correlation_ID, Ranap.CSFB_Information, Ranap.CSG_Id, Ranap.CSG_Id_List, Ranap.CSG_Membership_Status, Ranap.DataPDUType, Ranap.DataVolumeReference, Ranap.DataVolumeReportingIndication, Ranap.DCH_ID, Ranap.DeliveryOfErroneousSDU, Ranap.DeliveryOrder, Ranap.DeltaRAListofIdleModeUEs, Ranap.NewRAListofIdleModeUEs, Ranap.RAListwithNoIdleModeUEsAnyMore, Ranap.ForwardingIndication, Ranap.DL_GTP_PDU_SequenceNumber, Ranap.DL_N_PDU_SequenceNumber, Ranap.D_RNTI, Ranap.DRX_CycleLengthCoefficient, Ranap.DSCH_ID, Ranap.EARFCN_Extended, Ranap.E_DCH_MAC_d_Flow_ID, Ranap.ENB_ID, Ranap.EncryptionAlgorithm, Ranap.EncryptionInformation, Ranap.EncryptionKey, Ranap.End_Of_CSFB, Ranap.EquipmentsToBeTraced, Ranap.E_UTRAN_Service_Handover, Ranap.Event, Ranap.Event1F_Parameters, Ranap.Event1I_Parameters, Ranap.ExtendedGuaranteedBitrate, Ranap.ExtendedMaxBitrate, Ranap.ExtendedRNC_ID, Ranap.FrameSequenceNumber, Ranap.FrequenceLayerConvergenceFlag, Ranap.GANSS_PositioningDataSet, Ranap.GANSS_PositioningMethodAndUsage, Ranap.GeographicalArea, Ranap.GeographicalCoordinates, Ranap.GA_AltitudeAndDirection, Ranap.GA_EllipsoidArc, Ranap.GA_Point, Ranap.GA_PointWithAltitude, Ranap.GA_PointWithAltitudeAndUncertaintyEllipsoid, Ranap.GA_PointWithUnCertainty, Ranap.GA_PointWithUnCertaintyEllipse, Ranap.GA_Polygon, Ranap.GA_Polygon_Value, Ranap.GA_UncertaintyEllipse, Ranap.GERAN_BSC_Container, Ranap.GERAN_Cell_ID, Ranap.GERAN_Classmark, Ranap.GlobalCN_ID, Ranap.GlobalRNC_ID, Ranap.GTP_TEI, Ranap.GuaranteedBitrate, Ranap.HigherBitratesThan16MbpsFlag, Ranap.HS_DSCH_MAC_d_Flow_ID, Ranap.IMEI, Ranap.IMEIGroup, Ranap.IMEIList, Ranap.IMEISV, Ranap.IMEISVGroup, Ranap.IMEISVList, Ranap.ImmediateMDT, Ranap.IMSI, Ranap.IncludeVelocity, Ranap.InformationExchangeID, Ranap.InformationExchangeType, Ranap.InformationRequested, Ranap.InformationRequestType, Ranap.InformationTransferID, Ranap.InformationTransferType, Ranap.IntegrityProtectionAlgorithm, Ranap.IntegrityProtectionInformation, Ranap.IntegrityProtectionKey, Ranap.InterSystemInformationTransferType, Ranap.InterSystemInformation_TransparentContainer, Ranap.IPMulticastAddress, Ranap.IuSignallingConnectionIdentifier, Ranap.IuTransportAssociation, Ranap.KeyStatus, Ranap.LA_LIST, Ranap.LA_LIST_Value, Ranap.LAC, Ranap.LAI, Ranap.LastKnownServiceArea, Ranap.LastVisitedUTRANCell_Item, Ranap.LHN_ID, Ranap.Links_to_log, Ranap.ListOF_SNAs, Ranap.ListOfInterfacesToTrace, Ranap.InterfacesToTraceItem, Ranap.LoadValue, Ranap.LocationRelatedDataRequestType, Ranap.LocationRelatedDataRequestTypeSpecificToGERANIuMode, Ranap.LocationReportingTransferInformation, Ranap.ReportChangeOfSAI, Ranap.PeriodicReportingIndicator, Ranap.DirectReportingIndicator, Ranap.L3_Information, Ranap.M1Report, Ranap.M2Report, Ranap.M4Report, Ranap.M4_Collection_Parameters, Ranap.M4_Period, Ranap.M4_Threshold, Ranap.M5Report, Ranap.M5_Period, Ranap.M6Report, Ranap.M6_Period, Ranap.M7Report, Ranap.M7_Period, Ranap.Management_Based_MDT_Allowed, Ranap.MaxBitrate, Ranap.MaxSDU_Size, Ranap.MBMS_PTP_RAB_ID, Ranap.MBMSBearerServiceType, Ranap.MBMSCNDe_Registration, Ranap.MBMSCountingInformation, Ranap.MBMSHCIndicator, Ranap.MBMSIPMulticastAddressandAPNRequest, Ranap.MBMSLinkingInformation, Ranap.MBMSRegistrationRequestType, Ranap.MBMSServiceArea, Ranap.MBMSSessionDuration, Ranap.MBMSSessionIdentity, Ranap.MBMSSessionRepetitionNumber, Ranap.MDT_Activation, Ranap.MDTAreaScope, Ranap.MDT_Configuration, Ranap.MDTMode, Ranap.MDT_PLMN_List, Ranap.MDT_Report_Parameters, Ranap.MeasurementQuantity, Ranap.MeasurementsToActivate, Ranap.MSISDN, Ranap.NAS_PDU, Ranap.NAS_SequenceNumber, Ranap.NAS_SynchronisationIndicator, Ranap.NewBSS_To_OldBSS_Information, Ranap.NonSearchingIndication, Ranap.NRTLoadInformationValue, Ranap.NumberOfIuInstances, Ranap.NumberOfSteps, Ranap.Offload_RAB_Parameters, Ranap.Offload_RAB_Parameters_APN, Ranap.Offload_RAB_Parameters_ChargingCharacteristics, Ranap.OldBSS_ToNewBSS_Information, Ranap.OMC_ID, Ranap.Out_Of_UTRAN, Ranap.PagingAreaID, Ranap.PagingCause, Ranap.PDP_TypeInformation, Ranap.PDP_Type, Ranap.PDP_TypeInformation_extension, Ranap.PDP_Type_extension, Ranap.PDUType14FrameSequenceNumber, Ranap.PeriodicLocationInfo, Ranap.PermanentNAS_UE_ID, Ranap.PermittedEncryptionAlgorithms, Ranap.PermittedIntegrityProtectionAlgorithms, Ranap.LABased, Ranap.LAI_List, Ranap.LoggedMDT, Ranap.LoggingInterval, Ranap.LoggingDuration, Ranap.PLMNidentity, Ranap.PLMNs_in_shared_network, Ranap.PLMNs_in_shared_network_Value, Ranap.Port_Number, Ranap.PositioningDataDiscriminator, Ranap.PositioningDataSet, Ranap.PositioningMethodAndUsage, Ranap.PositioningPriority, Ranap.PositionData, Ranap.PositionDataSpecificToGERANIuMode, Ranap.Pre_emptionCapability, Ranap.Pre_emptionVulnerability, Ranap.PriorityLevel, Ranap.Priority_Class_Indicator, Ranap.ProvidedData, Ranap.P_TMSI, Ranap.QueuingAllowed, Ranap.RAB_AsymmetryIndicator, Ranap.RABased, Ranap.RAI_List, Ranap.RABDataVolumeReport, Ranap.RABDataVolumeReport_Value, Ranap.RAB_ID, Ranap.RAB_Parameter_ExtendedGuaranteedBitrateList, Ranap.RAB_Parameter_ExtendedMaxBitrateList, Ranap.RAB_Parameter_GuaranteedBitrateList, Ranap.RAB_Parameter_MaxBitrateList, Ranap.RAB_Parameters, Ranap.RABParametersList, Ranap.RABParametersList_Value, Ranap.RAB_SubflowCombinationBitRate, Ranap.RAB_TrCH_Mapping, Ranap.RAB_TrCH_MappingItem, Ranap.RAC, Ranap.RAI, Ranap.RAListofIdleModeUEs, Ranap.NotEmptyRAListofIdleModeUEs, Ranap.RAofIdleModeUEs, Ranap.LAListofIdleModeUEs, Ranap.RAT_Type, Ranap.RateControlAllowed, Ranap.RedirectAttemptFlag, Ranap.RedirectionCompleted, Ranap.RejectCauseValue, Ranap.RelocationRequirement, Ranap.RelocationType, Ranap.RepetitionNumber0, Ranap.RepetitionNumber1, Ranap.ReportArea, Ranap.ReportInterval, Ranap.ReportAmount, Ranap.RequestedGPSAssistanceData, Ranap.RequestedGANSSAssistanceData, Ranap.RequestedLocationRelatedDataType, Ranap.RequestedMBMSIPMulticastAddressandAPNRequest, Ranap.MBMSIPMulticastAddressandAPNlist, Ranap.RequestedMulticastServiceList, Ranap.Requested_RAB_Parameter_Values, Ranap.Requested_RAB_Parameter_ExtendedMaxBitrateList, Ranap.Requested_RAB_Parameter_ExtendedGuaranteedBitrateList, Ranap.Requested_RAB_Parameter_MaxBitrateList, Ranap.Requested_RAB_Parameter_GuaranteedBitrateList, Ranap.RequestType, Ranap.ResidualBitErrorRatio, Ranap.ResponseTime, Ranap.RIMInformation, Ranap.RIM_Transfer, Ranap.RIMRoutingAddress, Ranap.RNC_ID, Ranap.RNCTraceInformation, Ranap.RNSAPRelocationParameters, Ranap.RRC_Container, Ranap.RTLoadValue, Ranap.RSRVCC_HO_Indication, Ranap.RSRVCC_Information, Ranap.RSRVCC_Operation_Possible, Ranap.SAC, Ranap.SAI, Ranap.SAPI, Ranap.SessionUpdateID, Ranap.Shared_Network_Information, Ranap.Session_Re_establishment_Indicator, Ranap.SignallingIndication, Ranap.SDU_ErrorRatio, Ranap.SDU_FormatInformationParameters, Ranap.SDU_FormatInformationParameterItem, Ranap.SDU_Parameters, Ranap.SDU_ParameterItem, Ranap.SNA_Access_Information, Ranap.SNAC, Ranap.Service_Handover, Ranap.Source_ToTarget_TransparentContainer, Ranap.SourceeNodeB_ToTargeteNodeB_TransparentContainer, Ranap.SourceCellID, Ranap.SourceBSS_ToTargetBSS_TransparentContainer, Ranap.SourceID, Ranap.SourceRNC_ID, Ranap.SourceRNC_ToTargetRNC_TransparentContainer, Ranap.IRAT_Measurement_Configuration, Ranap.IRATmeasurementParameters, Ranap.RSRQ_Type, Ranap.RSRQ_Extension, Ranap.EUTRANFrequencies, Ranap.EUTRANFrequencies_Value, Ranap.MeasBand, Ranap.SubscriberProfileIDforRFP, Ranap.SourceStatisticsDescriptor, Ranap.SupportedRAB_ParameterBitrateList, Ranap.SupportedBitrate, Ranap.SourceUTRANCellID, Ranap.SRB_ID, Ranap.SRB_TrCH_Mapping, Ranap.SRB_TrCH_MappingItem, Ranap.SRVCC_HO_Indication, Ranap.SRVCC_Information, Ranap.SRVCC_Operation_Possible, Ranap.SubflowSDU_Size, Ranap.TAC, Ranap.TAI, Ranap.Target_ToSource_TransparentContainer, Ranap.TargeteNodeB_ToSourceeNodeB_TransparentContainer, Ranap.TargetBSS_ToSourceBSS_TransparentContainer, Ranap.TargetCellId, Ranap.TargetID, Ranap.TargetENB_ID, Ranap.TargetRNC_ID, Ranap.TargetRNC_ToSourceRNC_TransparentContainer, Ranap.TBCD_STRING, Ranap.TemporaryUE_ID, Ranap.Time_UE_StayedInCell, Ranap.Time_UE_StayedInCell_EnhancedGranularity, Ranap.TimeToMBMSDataTransfer, Ranap.TimingDifferenceULDL, Ranap.TMGI, Ranap.TMSI, Ranap.TraceDepth, Ranap.TraceInformation, Ranap.TracePropagationParameters, Ranap.TraceRecordingSessionInformation, Ranap.TraceRecordingSessionReference, Ranap.TraceReference, Ranap.TraceType, Ranap.TrafficClass, Ranap.TrafficHandlingPriority, Ranap.TransferDelay, Ranap.UnsuccessfullyTransmittedDataVolume, Ranap.TransportLayerAddress, Ranap.TrCH_ID, Ranap.TrCH_ID_List, Ranap.TriggerID, Ranap.TunnelInformation, Ranap.TypeOfError, Ranap.UE_AggregateMaximumBitRate, Ranap.UE_AggregateMaximumBitRateDownlink, Ranap.UE_AggregateMaximumBitRateUplink, Ranap.UE_History_Information, Ranap.UE_ID, Ranap.UESBI_Iu, Ranap.UESBI_IuA, Ranap.UESBI_IuB, Ranap.UL_GTP_PDU_SequenceNumber, Ranap.UL_N_PDU_SequenceNumber, Ranap.UPInformation, Ranap.UPInitialisationFrame, Ranap.UP_ModeVersions, Ranap.USCH_ID, Ranap.UserPlaneMode, Ranap.UTRAN_CellID, Ranap.VelocityEstimate, Ranap.HorizontalVelocity, Ranap.HorizontalWithVerticalVelocity, Ranap.HorizontalVelocityWithUncertainty, Ranap.HorizontalWithVerticalVelocityAndUncertainty, Ranap.HorizontalSpeedAndBearing, Ranap.VerticalVelocity, Ranap.VerticalSpeedDirection, Ranap.VerticalAccuracyCode, Ranap.VoiceSupportMatchIndicator, Ranap.RAB_DataVolumeReportItem, Ranap.RAB_ReleasedItem_IuRelComp, Ranap.RAB_RelocationReleaseItem, Ranap.RAB_DataForwardingItem, Ranap.RAB_SetupItem_RelocReq, Ranap.UserPlaneInformation, Ranap.CNMBMSLinkingInformation, Ranap.JoinedMBMSBearerService_IEs, Ranap.JoinedMBMSBearerService_IEs_Value, Ranap.RAB_SetupItem_RelocReqAck, Ranap.RAB_FailedItem, Ranap.RAB_DataForwardingItem_SRNS_CtxReq, Ranap.RAB_ContextItem, Ranap.RABs_ContextFailedtoTransferItem, Ranap.RAB_DataVolumeReportRequestItem, Ranap.RABs_failed_to_reportItem, Ranap.ResetResourceItem, Ranap.ResetResourceAckItem, Ranap.RAB_ReleaseItem, Ranap.RAB_SetupItem_EnhancedRelocCompleteReq, Ranap.RAB_ToBeReleasedItem_EnhancedRelocCompleteRes, Ranap.RAB_SetupOrModifyList, Ranap.RAB_SetupOrModifyItemFirst, Ranap.TransportLayerInformation, Ranap.RAB_SetupOrModifyItemSecond, Ranap.RAB_SetupOrModifiedItem, Ranap.RAB_ReleasedItem, Ranap.DataVolumeList, Ranap.DataVolumeList_Value, Ranap.RAB_QueuedItem, Ranap.GERAN_Iumode_RAB_Failed_RABAssgntResponse_Item, Ranap.DirectTransferInformationItem_RANAP_RelocInf, Ranap.RAB_ContextItem_RANAP_RelocInf, Ranap.RAB_SetupItem_EnhRelocInfoReq, Ranap.TNLInformationEnhRelInfoReq, Ranap.RAB_SetupItem_EnhRelocInfoRes, Ranap.RAB_FailedItem_EnhRelocInfoRes, Ranap.TNLInformationEnhRelInfoRes, Ranap.RAB_ModifyItem, Ranap.MBMSSynchronisationInformation, Ranap.LeftMBMSBearerService_IEs, Ranap.LeftMBMSBearerService_IEs_Value, Ranap.UnsuccessfulLinking_IEs, Ranap.UnsuccessfulLinking_IEs_Value, Ranap.RANAP_PDU, Ranap.InitiatingMessage, Ranap.SuccessfulOutcome, Ranap.UnsuccessfulOutcome, Ranap.Outcome, Ranap.IE,
  Rua.Criticality, Rua.Presence, Rua.ProcedureCode, Rua.PrivateIE_ID, Rua.ProtocolIE_ID, Rua.TriggeringMessage, Rua.IE_Extensions, Rua.CN_DomainIndicator, Rua.CSGMembershipStatus, Rua.Establishment_Cause, Rua.Context_ID, Rua.IntraDomainNasNodeSelector, Rua.Gsm_map_IDNNS, Rua.Ansi_41_IDNNS, Rua.RANAP_Message, Rua.RoutingParameter, Rua.Cause, Rua.CauseRadioNetwork, Rua.CauseTransport, Rua.CauseProtocol, Rua.CauseMisc, Rua.CriticalityDiagnostics, Rua.CriticalityDiagnostics_IE_List, Rua.CriticalityDiagnostics_IE_List_Value, Rua.TypeOfError, Rua.RUA_PDU, Rua.InitiatingMessage, Rua.SuccessfulOutcome, Rua.UnsuccessfulOutcome, Rua.IE,
  Hnbap.Criticality, Hnbap.Presence, Hnbap.PrivateIE_ID, Hnbap.ProcedureCode, Hnbap.ProtocolIE_ID, Hnbap.TriggeringMessage, Hnbap.IE_Extensions, Hnbap.Access_stratum_release_indicator, Hnbap.AccessResult, Hnbap.AltitudeAndDirection, Hnbap.BackoffTimer, Hnbap.BindingID, Hnbap.Cause, Hnbap.CauseRadioNetwork, Hnbap.CauseTransport, Hnbap.CauseProtocol, Hnbap.CauseMisc, Hnbap.CellIdentity, Hnbap.CELL_FACHMobilitySupport, Hnbap.Context_ID, Hnbap.CriticalityDiagnostics, Hnbap.CriticalityDiagnostics_IE_List, Hnbap.CriticalityDiagnostics_IE_List_Value, Hnbap.CSG_ID, Hnbap.CSG_Capability, Hnbap.CSGMembershipStatus, Hnbap.CGI, Hnbap.CI, Hnbap.CN_DomainIndicator, Hnbap.ESN, Hnbap.GeographicalLocation, Hnbap.GeographicalCoordinates, Hnbap.GTP_TEI, Hnbap.HNBCapacity, Hnbap.HNB_Cell_Access_Mode, Hnbap.HNB_Cell_Identifier, Hnbap.HNB_GWResponse, Hnbap.HNB_RNL_Identity, Hnbap.HNBConfigInfo, Hnbap.ConfigurationInformation, Hnbap.HNBConfigurationInformationProvided, Hnbap.HNBConfigurationInformationMissing, Hnbap.HNB_Location_Information, Hnbap.HNB_Identity, Hnbap.HNB_Identity_Info, Hnbap.IMEI, Hnbap.IMSI, Hnbap.IMSIDS41, Hnbap.IMSIESN, Hnbap.IP_Address, Hnbap.Ipv4Address, Hnbap.Ipv6Address, Hnbap.Iurh_Signalling_TNL_AddressList, Hnbap.LAC, Hnbap.LAI, Hnbap.MacroCoverageInformation, Hnbap.MacroCellID, Hnbap.MuxPortNumber, Hnbap.NeighbourCellIdentityList, Hnbap.NeighbourIdentity, Hnbap.NeighbourInfoList, Hnbap.AdditionalNeighbourInfoList, Hnbap.NeighbourInfoRequestList, Hnbap.NeighbourInfoRequestItem, Hnbap.PLMNidentity, Hnbap.PSC, Hnbap.PTMSI, Hnbap.PTMSIRAI, Hnbap.RAB_ID, Hnbap.RABList, Hnbap.RABListItem, Hnbap.RAC, Hnbap.RAI, Hnbap.Registration_Cause, Hnbap.RNC_ID, Hnbap.SAC, Hnbap.S_RNTIPrefix, Hnbap.TMSILAI, Hnbap.TMSIDS41, Hnbap.TransportInfo, Hnbap.TransportLayerAddress, Hnbap.Tunnel_Information, Hnbap.TypeOfError, Hnbap.UDP_Port_Number, Hnbap.UE_Capabilities, Hnbap.UTRANCellID, Hnbap.UE_Identity, Hnbap.Update_cause, Hnbap.URAIdentityList, Hnbap.URAIdentity, Hnbap.U_RNTI, Hnbap.UnknownU_RNTIIndication, Hnbap.HNBAP_PDU, Hnbap.InitiatingMessage, Hnbap.SuccessfulOutcome, Hnbap.UnsuccessfulOutcome, Hnbap.IE,
  Sabp.Criticality, Sabp.Presence, Sabp.ProcedureCode, Sabp.ProtocolExtensionID, Sabp.ProtocolIE_ID, Sabp.TriggeringMessage, Sabp.IE_Extensions, Sabp.Available_Bandwidth, Sabp.Broadcast_Message_Content, Sabp.Broadcast_Message_Content_Validity_Indicator, Sabp.Category, Sabp.Cause, Sabp.Criticality_Diagnostics, Sabp.CriticalityDiagnostics_IE_List, Sabp.CriticalityDiagnostics_IE_List_Value, Sabp.MessageStructure, Sabp.MessageStructure_Value, Sabp.Data_Coding_Scheme, Sabp.Failure_List, Sabp.Failure_List_Item, Sabp.Message_Identifier, Sabp.New_Serial_Number, Sabp.Number_of_Broadcasts_Completed_List, Sabp.Number_of_Broadcasts_Completed_List_Item, Sabp.Number_Of_Broadcasts_Completed_Info, Sabp.Number_of_Broadcasts_Requested, Sabp.Old_Serial_Number, Sabp.Paging_ETWS_Indicator, Sabp.Radio_Resource_Loading_List, Sabp.Radio_Resource_Loading_List_Item, Sabp.Recovery_Indication, Sabp.RepetitionNumber0, Sabp.RepetitionNumber1, Sabp.Repetition_Period, Sabp.Serial_Number, Sabp.Service_Area_Identifier, Sabp.Service_Areas_List, Sabp.TypeOfError, Sabp.WarningSecurityInfo, Sabp.Warning_Type, Sabp.SABP_PDU, Sabp.InitiatingMessage, Sabp.SuccessfulOutcome, Sabp.UnsuccessfulOutcome, Sabp.IE]

/-- Messages. -/
def messages : List NamedTy := [
  Ranap.Iu_ReleaseCommand, Ranap.Iu_ReleaseComplete, Ranap.RelocationRequired, Ranap.RelocationCommand, Ranap.RelocationPreparationFailure, Ranap.RelocationRequest, Ranap.RelocationRequestAcknowledge, Ranap.RelocationFailure, Ranap.RelocationCancel, Ranap.RelocationCancelAcknowledge, Ranap.SRNS_ContextRequest, Ranap.SRNS_ContextResponse, Ranap.SecurityModeCommand, Ranap.SecurityModeComplete, Ranap.SecurityModeReject, Ranap.DataVolumeReportRequest, Ranap.DataVolumeReport, Ranap.Reset, Ranap.ResetAcknowledge, Ranap.ResetResource, Ranap.ResetResourceAcknowledge, Ranap.RAB_ReleaseRequest, Ranap.Iu_ReleaseRequest, Ranap.RelocationDetect, Ranap.RelocationComplete, Ranap.EnhancedRelocationCompleteRequest, Ranap.EnhancedRelocationCompleteResponse, Ranap.EnhancedRelocationCompleteFailure, Ranap.EnhancedRelocationCompleteConfirm, Ranap.Paging, Ranap.CommonID, Ranap.CN_InvokeTrace, Ranap.CN_DeactivateTrace, Ranap.LocationReportingControl, Ranap.LocationReport, Ranap.InitialUE_Message, Ranap.DirectTransfer, Ranap.Overload, Ranap.ErrorIndication, Ranap.SRNS_DataForwardCommand, Ranap.ForwardSRNS_Context, Ranap.RAB_AssignmentRequest, Ranap.RAB_AssignmentResponse, Ranap.RANAP_RelocationInformation, Ranap.RANAP_EnhancedRelocationInformationRequest, Ranap.RANAP_EnhancedRelocationInformationResponse, Ranap.RAB_ModifyRequest, Ranap.LocationRelatedDataRequest, Ranap.LocationRelatedDataResponse, Ranap.LocationRelatedDataFailure, Ranap.InformationTransferIndication, Ranap.InformationTransferConfirmation, Ranap.InformationTransferFailure, Ranap.UESpecificInformationIndication, Ranap.DirectInformationTransfer, Ranap.UplinkInformationExchangeRequest, Ranap.UplinkInformationExchangeResponse, Ranap.UplinkInformationExchangeFailure, Ranap.MBMSSessionStart, Ranap.MBMSSessionStartResponse, Ranap.MBMSSessionStartFailure, Ranap.MBMSSessionUpdate, Ranap.MBMSSessionUpdateResponse, Ranap.MBMSSessionUpdateFailure, Ranap.MBMSSessionStop, Ranap.MBMSSessionStopResponse, Ranap.MBMSUELinkingRequest, Ranap.MBMSUELinkingResponse, Ranap.MBMSRegistrationRequest, Ranap.MBMSRegistrationResponse, Ranap.MBMSRegistrationFailure, Ranap.MBMSCNDe_RegistrationRequest, Ranap.MBMSCNDe_RegistrationResponse, Ranap.MBMSRABEstablishmentIndication, Ranap.MBMSRABReleaseRequest, Ranap.MBMSRABRelease, Ranap.MBMSRABReleaseFailure, Ranap.SRVCC_CSKeysRequest, Ranap.SRVCC_CSKeysResponse, Ranap.UeRadioCapabilityMatchRequest, Ranap.UeRadioCapabilityMatchResponse,
  Rua.Connect, Rua.DirectTransfer, Rua.Disconnect, Rua.ConnectionlessTransfer, Rua.ErrorIndication,
  Hnbap.HNBRegisterRequest, Hnbap.HNBRegisterAccept, Hnbap.HNBRegisterReject, Hnbap.HNBDe_Register, Hnbap.UERegisterRequest, Hnbap.UERegisterAccept, Hnbap.UERegisterReject, Hnbap.UEDe_Register, Hnbap.CSGMembershipUpdate, Hnbap.TNLUpdateRequest, Hnbap.TNLUpdateResponse, Hnbap.TNLUpdateFailure, Hnbap.HNBConfigTransferRequest, Hnbap.HNBConfigTransferResponse, Hnbap.RelocationComplete, Hnbap.ErrorIndication, Hnbap.U_RNTIQueryRequest, Hnbap.U_RNTIQueryResponse,
  Sabp.Write_Replace, Sabp.Write_Replace_Complete, Sabp.Write_Replace_Failure, Sabp.Kill, Sabp.Kill_Complete, Sabp.Kill_Failure, Sabp.Load_Query, Sabp.Load_Query_Complete, Sabp.Load_Query_Failure, Sabp.Message_Status_Query, Sabp.Message_Status_Query_Complete, Sabp.Message_Status_Query_Failure, Sabp.Reset, Sabp.Reset_Complete, Sabp.Reset_Failure, Sabp.Restart, Sabp.Failure, Sabp.Error_Indication]

/-- Lists of items. -/
def lists : List NamedTy := [
  Ranap.RAB_DataVolumeReportList, Ranap.RAB_ReleasedList_IuRelComp, Ranap.RAB_RelocationReleaseList, Ranap.RAB_DataForwardingList, Ranap.RAB_SetupList_RelocReq, Ranap.RAB_SetupList_RelocReqAck, Ranap.RAB_FailedList, Ranap.RAB_DataForwardingList_SRNS_CtxReq, Ranap.RAB_ContextList, Ranap.RABs_ContextFailedtoTransferList, Ranap.RAB_DataVolumeReportRequestList, Ranap.RABs_failed_to_reportList, Ranap.ResetResourceList, Ranap.ResetResourceAckList, Ranap.RAB_ReleaseList, Ranap.RAB_SetupList_EnhancedRelocCompleteReq, Ranap.RAB_SetupList_EnhancedRelocCompleteRes, Ranap.RAB_ToBeReleasedList_EnhancedRelocCompleteRes, Ranap.RAB_SetupOrModifiedList, Ranap.RAB_ReleasedList, Ranap.RAB_QueuedList, Ranap.RAB_ReleaseFailedList, Ranap.GERAN_Iumode_RAB_FailedList_RABAssgntResponse, Ranap.RAB_ContextList_RANAP_RelocInf, Ranap.RAB_SetupList_EnhRelocInfoReq, Ranap.RAB_SetupList_EnhRelocInfoRes, Ranap.RAB_FailedList_EnhRelocInfoRes, Ranap.RAB_ModifyList]

/-- The rest. -/
def others : List NamedTy := [
  Ranap.RAB_SetupItem_EnhancedRelocCompleteRes, Ranap.RedirectionIndication, Ranap.PrivateMessage,
  Rua.PrivateMessage,
  Hnbap.PrivateMessage]

/-- The elements of each object set of asn1/ranap/RANAP-PDU-Contents.asn, with the type given for them. -/
def Ranap.elements : List (String × List (String × NamedTy)) := [
  ("Iu-ReleaseCommandIEs", [("id-Cause", Ranap.Cause)]),
  ("Iu-ReleaseCompleteIEs", [("id-RAB-DataVolumeReportList", Ranap.RAB_DataVolumeReportList), ("id-RAB-ReleasedList-IuRelComp", Ranap.RAB_ReleasedList_IuRelComp), ("id-CriticalityDiagnostics", Ranap.CriticalityDiagnostics)]),
  ("RAB-DataVolumeReportItemIEs", [("id-RAB-DataVolumeReportItem", Ranap.RAB_DataVolumeReportItem)]),
  ("RAB-ReleasedItem-IuRelComp-IEs", [("id-RAB-ReleasedItem-IuRelComp", Ranap.RAB_ReleasedItem_IuRelComp)]),
  ("RelocationRequiredIEs", [("id-RelocationType", Ranap.RelocationType), ("id-Cause", Ranap.Cause), ("id-SourceID", Ranap.SourceID), ("id-TargetID", Ranap.TargetID), ("id-ClassmarkInformation2", Ranap.ClassmarkInformation2), ("id-ClassmarkInformation3", Ranap.ClassmarkInformation3), ("id-Source-ToTarget-TransparentContainer", Ranap.Source_ToTarget_TransparentContainer), ("id-OldBSS-ToNewBSS-Information", Ranap.OldBSS_ToNewBSS_Information)]),
  ("RelocationCommandIEs", [("id-Target-ToSource-TransparentContainer", Ranap.Target_ToSource_TransparentContainer), ("id-L3-Information", Ranap.L3_Information), ("id-RAB-RelocationReleaseList", Ranap.RAB_RelocationReleaseList), ("id-RAB-DataForwardingList", Ranap.RAB_DataForwardingList), ("id-CriticalityDiagnostics", Ranap.CriticalityDiagnostics)]),
  ("RAB-RelocationReleaseItemIEs", [("id-RAB-RelocationReleaseItem", Ranap.RAB_RelocationReleaseItem)]),
  ("RAB-DataForwardingItemIEs", [("id-RAB-DataForwardingItem", Ranap.RAB_DataForwardingItem)]),
  ("RelocationPreparationFailureIEs", [("id-Cause", Ranap.Cause), ("id-CriticalityDiagnostics", Ranap.CriticalityDiagnostics)]),
  ("RelocationRequestIEs", [("id-PermanentNAS-UE-ID", Ranap.PermanentNAS_UE_ID), ("id-Cause", Ranap.Cause), ("id-CN-DomainIndicator", Ranap.CN_DomainIndicator), ("id-Source-ToTarget-TransparentContainer", Ranap.SourceRNC_ToTargetRNC_TransparentContainer), ("id-RAB-SetupList-RelocReq", Ranap.RAB_SetupList_RelocReq), ("id-IntegrityProtectionInformation", Ranap.IntegrityProtectionInformation), ("id-EncryptionInformation", Ranap.EncryptionInformation), ("id-IuSigConId", Ranap.IuSignallingConnectionIdentifier)]),
  ("RAB-SetupItem-RelocReq-IEs", [("id-RAB-SetupItem-RelocReq", Ranap.RAB_SetupItem_RelocReq)]),
  ("RelocationRequestAcknowledgeIEs", [("id-Target-ToSource-TransparentContainer", Ranap.TargetRNC_ToSourceRNC_TransparentContainer), ("id-RAB-SetupList-RelocReqAck", Ranap.RAB_SetupList_RelocReqAck), ("id-RAB-FailedList", Ranap.RAB_FailedList), ("id-ChosenIntegrityProtectionAlgorithm", Ranap.ChosenIntegrityProtectionAlgorithm), ("id-ChosenEncryptionAlgorithm", Ranap.ChosenEncryptionAlgorithm), ("id-CriticalityDiagnostics", Ranap.CriticalityDiagnostics)]),
  ("RAB-SetupItem-RelocReqAck-IEs", [("id-RAB-SetupItem-RelocReqAck", Ranap.RAB_SetupItem_RelocReqAck)]),
  ("RAB-FailedItemIEs", [("id-RAB-FailedItem", Ranap.RAB_FailedItem)]),
  ("RelocationFailureIEs", [("id-Cause", Ranap.Cause), ("id-CriticalityDiagnostics", Ranap.CriticalityDiagnostics)]),
  ("RelocationCancelIEs", [("id-Cause", Ranap.Cause)]),
  ("RelocationCancelAcknowledgeIEs", [("id-CriticalityDiagnostics", Ranap.CriticalityDiagnostics)]),
  ("SRNS-ContextRequestIEs", [("id-RAB-DataForwardingList-SRNS-CtxReq", Ranap.RAB_DataForwardingList_SRNS_CtxReq)]),
  ("RAB-DataForwardingItem-SRNS-CtxReq-IEs", [("id-RAB-DataForwardingItem-SRNS-CtxReq", Ranap.RAB_DataForwardingItem_SRNS_CtxReq)]),
  ("SRNS-ContextResponseIEs", [("id-RAB-ContextList", Ranap.RAB_ContextList), ("id-RAB-ContextFailedtoTransferList", Ranap.RABs_ContextFailedtoTransferList), ("id-CriticalityDiagnostics", Ranap.CriticalityDiagnostics)]),
  ("RAB-ContextItemIEs", [("id-RAB-ContextItem", Ranap.RAB_ContextItem)]),
  ("RABs-ContextFailedtoTransferItemIEs", [("id-RAB-ContextFailedtoTransferItem", Ranap.RABs_ContextFailedtoTransferItem)]),
  ("SecurityModeCommandIEs", [("id-IntegrityProtectionInformation", Ranap.IntegrityProtectionInformation), ("id-EncryptionInformation", Ranap.EncryptionInformation), ("id-KeyStatus", Ranap.KeyStatus)]),
  ("SecurityModeCompleteIEs", [("id-ChosenIntegrityProtectionAlgorithm", Ranap.ChosenIntegrityProtectionAlgorithm), ("id-ChosenEncryptionAlgorithm", Ranap.ChosenEncryptionAlgorithm), ("id-CriticalityDiagnostics", Ranap.CriticalityDiagnostics)]),
  ("SecurityModeRejectIEs", [("id-Cause", Ranap.Cause), ("id-CriticalityDiagnostics", Ranap.CriticalityDiagnostics)]),
  ("DataVolumeReportRequestIEs", [("id-RAB-DataVolumeReportRequestList", Ranap.RAB_DataVolumeReportRequestList)]),
  ("RAB-DataVolumeReportRequestItemIEs", [("id-RAB-DataVolumeReportRequestItem", Ranap.RAB_DataVolumeReportRequestItem)]),
  ("DataVolumeReportIEs", [("id-RAB-DataVolumeReportList", Ranap.RAB_DataVolumeReportList), ("id-RAB-FailedtoReportList", Ranap.RABs_failed_to_reportList), ("id-CriticalityDiagnostics", Ranap.CriticalityDiagnostics)]),
  ("RABs-failed-to-reportItemIEs", [("id-RAB-FailedtoReportItem", Ranap.RABs_failed_to_reportItem)]),
  ("ResetIEs", [("id-Cause", Ranap.Cause), ("id-CN-DomainIndicator", Ranap.CN_DomainIndicator), ("id-GlobalRNC-ID", Ranap.GlobalRNC_ID)]),
  ("ResetAcknowledgeIEs", [("id-CN-DomainIndicator", Ranap.CN_DomainIndicator), ("id-CriticalityDiagnostics", Ranap.CriticalityDiagnostics), ("id-GlobalRNC-ID", Ranap.GlobalRNC_ID)]),
  ("ResetResourceIEs", [("id-CN-DomainIndicator", Ranap.CN_DomainIndicator), ("id-Cause", Ranap.Cause), ("id-IuSigConIdList", Ranap.ResetResourceList), ("id-GlobalRNC-ID", Ranap.GlobalRNC_ID)]),
  ("ResetResourceItemIEs", [("id-IuSigConIdItem", Ranap.ResetResourceItem)]),
  ("ResetResourceAcknowledgeIEs", [("id-CN-DomainIndicator", Ranap.CN_DomainIndicator), ("id-IuSigConIdList", Ranap.ResetResourceAckList), ("id-GlobalRNC-ID", Ranap.GlobalRNC_ID), ("id-CriticalityDiagnostics", Ranap.CriticalityDiagnostics)]),
  ("ResetResourceAckItemIEs", [("id-IuSigConIdItem", Ranap.ResetResourceAckItem)]),
  ("RAB-ReleaseRequestIEs", [("id-RAB-ReleaseList", Ranap.RAB_ReleaseList)]),
  ("RAB-ReleaseItemIEs", [("id-RAB-ReleaseItem", Ranap.RAB_ReleaseItem)]),
  ("Iu-ReleaseRequestIEs", [("id-Cause", Ranap.Cause)]),
  ("EnhancedRelocationCompleteRequestIEs", [("id-OldIuSigConId", Ranap.IuSignallingConnectionIdentifier), ("id-IuSigConId", Ranap.IuSignallingConnectionIdentifier), ("id-Relocation-SourceRNC-ID", Ranap.GlobalRNC_ID), ("id-Relocation-SourceExtendedRNC-ID", Ranap.ExtendedRNC_ID), ("id-Relocation-TargetRNC-ID", Ranap.GlobalRNC_ID), ("id-Relocation-TargetExtendedRNC-ID", Ranap.ExtendedRNC_ID), ("id-RAB-SetupList-EnhancedRelocCompleteReq", Ranap.RAB_SetupList_EnhancedRelocCompleteReq)]),
  ("RAB-SetupItem-EnhancedRelocCompleteReq-IEs", [("id-RAB-SetupItem-EnhancedRelocCompleteReq", Ranap.RAB_SetupItem_EnhancedRelocCompleteReq)]),
  ("EnhancedRelocationCompleteResponseIEs", [("id-RAB-SetupList-EnhancedRelocCompleteRes", Ranap.RAB_SetupList_EnhancedRelocCompleteRes), ("id-RAB-ToBeReleasedList-EnhancedRelocCompleteRes", Ranap.RAB_ToBeReleasedList_EnhancedRelocCompleteRes), ("id-CriticalityDiagnostics", Ranap.CriticalityDiagnostics)]),
  ("RAB-SetupItem-EnhancedRelocCompleteRes-IEs", [("id-RAB-SetupItem-EnhancedRelocCompleteRes", Ranap.RAB_SetupItem_EnhancedRelocCompleteRes)]),
  ("RAB-ToBeReleasedItem-EnhancedRelocCompleteRes-IEs", [("id-RAB-ToBeReleasedItem-EnhancedRelocCompleteRes", Ranap.RAB_ToBeReleasedItem_EnhancedRelocCompleteRes)]),
  ("EnhancedRelocationCompleteFailureIEs", [("id-Cause", Ranap.Cause), ("id-CriticalityDiagnostics", Ranap.CriticalityDiagnostics)]),
  ("EnhancedRelocationCompleteConfirmIEs", [("id-RAB-FailedList", Ranap.RAB_FailedList)]),
  ("PagingIEs", [("id-CN-DomainIndicator", Ranap.CN_DomainIndicator), ("id-PermanentNAS-UE-ID", Ranap.PermanentNAS_UE_ID), ("id-TemporaryUE-ID", Ranap.TemporaryUE_ID), ("id-PagingAreaID", Ranap.PagingAreaID), ("id-PagingCause", Ranap.PagingCause), ("id-NonSearchingIndication", Ranap.NonSearchingIndication), ("id-DRX-CycleLengthCoefficient", Ranap.DRX_CycleLengthCoefficient)]),
  ("CommonID-IEs", [("id-PermanentNAS-UE-ID", Ranap.PermanentNAS_UE_ID)]),
  ("CN-InvokeTraceIEs", [("id-TraceType", Ranap.TraceType), ("id-TraceReference", Ranap.TraceReference), ("id-TriggerID", Ranap.TriggerID), ("id-UE-ID", Ranap.UE_ID), ("id-OMC-ID", Ranap.OMC_ID)]),
  ("CN-DeactivateTraceIEs", [("id-TraceReference", Ranap.TraceReference), ("id-TriggerID", Ranap.TriggerID)]),
  ("LocationReportingControlIEs", [("id-RequestType", Ranap.RequestType)]),
  ("LocationReportIEs", [("id-AreaIdentity", Ranap.AreaIdentity), ("id-Cause", Ranap.Cause), ("id-RequestType", Ranap.RequestType)]),
  ("InitialUE-MessageIEs", [("id-CN-DomainIndicator", Ranap.CN_DomainIndicator), ("id-LAI", Ranap.LAI), ("id-RAC", Ranap.RAC), ("id-SAI", Ranap.SAI), ("id-NAS-PDU", Ranap.NAS_PDU), ("id-IuSigConId", Ranap.IuSignallingConnectionIdentifier), ("id-GlobalRNC-ID", Ranap.GlobalRNC_ID)]),
  ("DirectTransferIEs", [("id-NAS-PDU", Ranap.NAS_PDU), ("id-LAI", Ranap.LAI), ("id-RAC", Ranap.RAC), ("id-SAI", Ranap.SAI), ("id-SAPI", Ranap.SAPI)]),
  ("RedirectionIndication-IEs", [("id-NAS-PDU", Ranap.NAS_PDU), ("id-RejectCauseValue", Ranap.RejectCauseValue), ("id-NAS-SequenceNumber", Ranap.NAS_SequenceNumber), ("id-PermanentNAS-UE-ID", Ranap.PermanentNAS_UE_ID)]),
  ("OverloadIEs", [("id-NumberOfSteps", Ranap.NumberOfSteps), ("id-GlobalRNC-ID", Ranap.GlobalRNC_ID)]),
  ("ErrorIndicationIEs", [("id-Cause", Ranap.Cause), ("id-CriticalityDiagnostics", Ranap.CriticalityDiagnostics), ("id-CN-DomainIndicator", Ranap.CN_DomainIndicator), ("id-GlobalRNC-ID", Ranap.GlobalRNC_ID)]),
  ("SRNS-DataForwardCommandIEs", [("id-RAB-DataForwardingList", Ranap.RAB_DataForwardingList)]),
  ("ForwardSRNS-ContextIEs", [("id-RAB-ContextList", Ranap.RAB_ContextList)]),
  ("RAB-AssignmentRequestIEs", [("id-RAB-SetupOrModifyList", Ranap.RAB_SetupOrModifyList), ("id-RAB-ReleaseList", Ranap.RAB_ReleaseList)]),
  ("RAB-AssignmentResponseIEs", [("id-RAB-SetupOrModifiedList", Ranap.RAB_SetupOrModifiedList), ("id-RAB-ReleasedList", Ranap.RAB_ReleasedList), ("id-RAB-QueuedList", Ranap.RAB_QueuedList), ("id-RAB-FailedList", Ranap.RAB_FailedList), ("id-RAB-ReleaseFailedList", Ranap.RAB_ReleaseFailedList), ("id-CriticalityDiagnostics", Ranap.CriticalityDiagnostics)]),
  ("RAB-SetupOrModifiedItemIEs", [("id-RAB-SetupOrModifiedItem", Ranap.RAB_SetupOrModifiedItem)]),
  ("RAB-ReleasedItemIEs", [("id-RAB-ReleasedItem", Ranap.RAB_ReleasedItem)]),
  ("RAB-QueuedItemIEs", [("id-RAB-QueuedItem", Ranap.RAB_QueuedItem)]),
  ("GERAN-Iumode-RAB-Failed-RABAssgntResponse-ItemIEs", [("id-GERAN-Iumode-RAB-Failed-RABAssgntResponse-Item", Ranap.GERAN_Iumode_RAB_Failed_RABAssgntResponse_Item)]),
  ("RANAP-RelocationInformationIEs", [("id-RAB-ContextList-RANAP-RelocInf", Ranap.RAB_ContextList_RANAP_RelocInf)]),
  ("DirectTransferInformationItemIEs-RANAP-RelocInf", [("id-DirectTransferInformationItem-RANAP-RelocInf", Ranap.DirectTransferInformationItem_RANAP_RelocInf)]),
  ("RAB-ContextItemIEs-RANAP-RelocInf", [("id-RAB-ContextItem-RANAP-RelocInf", Ranap.RAB_ContextItem_RANAP_RelocInf)]),
  ("RANAP-EnhancedRelocationInformationRequestIEs", [("id-Source-ToTarget-TransparentContainer", Ranap.SourceRNC_ToTargetRNC_TransparentContainer), ("id-OldIuSigConIdCS", Ranap.IuSignallingConnectionIdentifier), ("id-GlobalCN-IDCS", Ranap.GlobalCN_ID), ("id-OldIuSigConIdPS", Ranap.IuSignallingConnectionIdentifier), ("id-GlobalCN-IDPS", Ranap.GlobalCN_ID), ("id-RAB-SetupList-EnhRelocInfoReq", Ranap.RAB_SetupList_EnhRelocInfoReq), ("id-SNA-Access-Information", Ranap.SNA_Access_Information), ("id-UESBI-Iu", Ranap.UESBI_Iu), ("id-SelectedPLMN-ID", Ranap.PLMNidentity), ("id-CNMBMSLinkingInformation", Ranap.CNMBMSLinkingInformation)]),
  ("RAB-SetupItem-EnhRelocInfoReq-IEs", [("id-RAB-SetupItem-EnhRelocInfoReq", Ranap.RAB_SetupItem_EnhRelocInfoReq)]),
  ("RANAP-EnhancedRelocationInformationResponseIEs", [("id-Target-ToSource-TransparentContainer", Ranap.TargetRNC_ToSourceRNC_TransparentContainer), ("id-RAB-SetupList-EnhRelocInfoRes", Ranap.RAB_SetupList_EnhRelocInfoRes), ("id-RAB-FailedList-EnhRelocInfoRes", Ranap.RAB_FailedList_EnhRelocInfoRes), ("id-CriticalityDiagnostics", Ranap.CriticalityDiagnostics)]),
  ("RAB-SetupItem-EnhRelocInfoRes-IEs", [("id-RAB-SetupItem-EnhRelocInfoRes", Ranap.RAB_SetupItem_EnhRelocInfoRes)]),
  ("RAB-FailedItem-EnhRelocInfoRes-IEs", [("id-RAB-FailedItem-EnhRelocInfoRes", Ranap.RAB_FailedItem_EnhRelocInfoRes)]),
  ("RAB-ModifyRequestIEs", [("id-RAB-ModifyList", Ranap.RAB_ModifyList)]),
  ("RAB-ModifyItemIEs", [("id-RAB-ModifyItem", Ranap.RAB_ModifyItem)]),
  ("LocationRelatedDataRequestIEs", [("id-LocationRelatedDataRequestType", Ranap.LocationRelatedDataRequestType)]),
  ("LocationRelatedDataResponseIEs", [("id-BroadcastAssistanceDataDecipheringKeys", Ranap.BroadcastAssistanceDataDecipheringKeys)]),
  ("LocationRelatedDataFailureIEs", [("id-Cause", Ranap.Cause)]),
  ("InformationTransferIndicationIEs", [("id-InformationTransferID", Ranap.InformationTransferID), ("id-ProvidedData", Ranap.ProvidedData), ("id-CN-DomainIndicator", Ranap.CN_DomainIndicator), ("id-GlobalCN-ID", Ranap.GlobalCN_ID)]),
  ("InformationTransferConfirmationIEs", [("id-InformationTransferID", Ranap.InformationTransferID), ("id-CN-DomainIndicator", Ranap.CN_DomainIndicator), ("id-CriticalityDiagnostics", Ranap.CriticalityDiagnostics), ("id-GlobalRNC-ID", Ranap.GlobalRNC_ID)]),
  ("InformationTransferFailureIEs", [("id-InformationTransferID", Ranap.InformationTransferID), ("id-CN-DomainIndicator", Ranap.CN_DomainIndicator), ("id-Cause", Ranap.Cause), ("id-CriticalityDiagnostics", Ranap.CriticalityDiagnostics), ("id-GlobalRNC-ID", Ranap.GlobalRNC_ID)]),
  ("UESpecificInformationIndicationIEs", [("id-UESBI-Iu", Ranap.UESBI_Iu)]),
  ("DirectInformationTransferIEs", [("id-InterSystemInformationTransferType", Ranap.InterSystemInformationTransferType), ("id-CN-DomainIndicator", Ranap.CN_DomainIndicator), ("id-GlobalRNC-ID", Ranap.GlobalRNC_ID), ("id-GlobalCN-ID", Ranap.GlobalCN_ID)]),
  ("UplinkInformationExchangeRequestIEs", [("id-InformationExchangeID", Ranap.InformationExchangeID), ("id-InformationExchangeType", Ranap.InformationExchangeType), ("id-InformationTransferType", Ranap.InformationTransferType), ("id-InformationRequestType", Ranap.InformationRequestType), ("id-CN-DomainIndicator", Ranap.CN_DomainIndicator), ("id-GlobalRNC-ID", Ranap.GlobalRNC_ID)]),
  ("UplinkInformationExchangeResponseIEs", [("id-InformationExchangeID", Ranap.InformationExchangeID), ("id-InformationRequested", Ranap.InformationRequested), ("id-CN-DomainIndicator", Ranap.CN_DomainIndicator), ("id-GlobalCN-ID", Ranap.GlobalCN_ID), ("id-CriticalityDiagnostics", Ranap.CriticalityDiagnostics)]),
  ("UplinkInformationExchangeFailureIEs", [("id-InformationExchangeID", Ranap.InformationExchangeID), ("id-CN-DomainIndicator", Ranap.CN_DomainIndicator), ("id-GlobalCN-ID", Ranap.GlobalCN_ID), ("id-Cause", Ranap.Cause), ("id-CriticalityDiagnostics", Ranap.CriticalityDiagnostics)]),
  ("MBMSSessionStartIEs", [("id-TMGI", Ranap.TMGI), ("id-MBMSSessionIdentity", Ranap.MBMSSessionIdentity), ("id-MBMSBearerServiceType", Ranap.MBMSBearerServiceType), ("id-IuSigConId", Ranap.IuSignallingConnectionIdentifier), ("id-RAB-Parameters", Ranap.RAB_Parameters), ("id-PDP-TypeInformation", Ranap.PDP_TypeInformation), ("id-MBMSSessionDuration", Ranap.MBMSSessionDuration), ("id-MBMSServiceArea", Ranap.MBMSServiceArea), ("id-FrequenceLayerConvergenceFlag", Ranap.FrequenceLayerConvergenceFlag), ("id-RAListofIdleModeUEs", Ranap.RAListofIdleModeUEs), ("id-GlobalCN-ID", Ranap.GlobalCN_ID), ("id-MBMSSessionRepetitionNumber", Ranap.MBMSSessionRepetitionNumber), ("id-TimeToMBMSDataTransfer", Ranap.TimeToMBMSDataTransfer)]),
  ("MBMSSessionStartResponseIEs", [("id-TransportLayerInformation", Ranap.TransportLayerInformation), ("id-Cause", Ranap.Cause), ("id-CriticalityDiagnostics", Ranap.CriticalityDiagnostics)]),
  ("MBMSSessionStartFailureIEs", [("id-Cause", Ranap.Cause), ("id-CriticalityDiagnostics", Ranap.CriticalityDiagnostics)]),
  ("MBMSSessionUpdateIEs", [("id-SessionUpdateID", Ranap.SessionUpdateID), ("id-DeltaRAListofIdleModeUEs", Ranap.DeltaRAListofIdleModeUEs)]),
  ("MBMSSessionUpdateResponseIEs", [("id-SessionUpdateID", Ranap.SessionUpdateID), ("id-TransportLayerInformation", Ranap.TransportLayerInformation), ("id-Cause", Ranap.Cause), ("id-CriticalityDiagnostics", Ranap.CriticalityDiagnostics)]),
  ("MBMSSessionUpdateFailureIEs", [("id-SessionUpdateID", Ranap.SessionUpdateID), ("id-Cause", Ranap.Cause), ("id-CriticalityDiagnostics", Ranap.CriticalityDiagnostics)]),
  ("MBMSSessionStopIEs", [("id-MBMSCNDe-Registration", Ranap.MBMSCNDe_Registration)]),
  ("MBMSSessionStopResponseIEs", [("id-Cause", Ranap.Cause), ("id-CriticalityDiagnostics", Ranap.CriticalityDiagnostics)]),
  ("MBMSUELinkingRequestIEs", [("id-JoinedMBMSBearerServicesList", Ranap.JoinedMBMSBearerService_IEs), ("id-LeftMBMSBearerServicesList", Ranap.LeftMBMSBearerService_IEs)]),
  ("MBMSUELinkingResponseIEs", [("id-UnsuccessfulLinkingList", Ranap.UnsuccessfulLinking_IEs), ("id-CriticalityDiagnostics", Ranap.CriticalityDiagnostics)]),
  ("MBMSRegistrationRequestIEs", [("id-MBMSRegistrationRequestType", Ranap.MBMSRegistrationRequestType), ("id-TMGI", Ranap.TMGI), ("id-IPMulticastAddress", Ranap.IPMulticastAddress), ("id-APN", Ranap.APN), ("id-GlobalRNC-ID", Ranap.GlobalRNC_ID)]),
  ("MBMSRegistrationResponseIEs", [("id-TMGI", Ranap.TMGI), ("id-GlobalCN-ID", Ranap.GlobalCN_ID), ("id-CriticalityDiagnostics", Ranap.CriticalityDiagnostics)]),
  ("MBMSRegistrationFailureIEs", [("id-TMGI", Ranap.TMGI), ("id-GlobalCN-ID", Ranap.GlobalCN_ID), ("id-Cause", Ranap.Cause), ("id-CriticalityDiagnostics", Ranap.CriticalityDiagnostics)]),
  ("MBMSCNDe-RegistrationRequestIEs", [("id-TMGI", Ranap.TMGI), ("id-GlobalCN-ID", Ranap.GlobalCN_ID)]),
  ("MBMSCNDe-RegistrationResponseIEs", [("id-TMGI", Ranap.TMGI), ("id-GlobalRNC-ID", Ranap.GlobalRNC_ID), ("id-Cause", Ranap.Cause), ("id-CriticalityDiagnostics", Ranap.CriticalityDiagnostics)]),
  ("MBMSRABEstablishmentIndicationIEs", [("id-TransportLayerInformation", Ranap.TransportLayerInformation)]),
  ("MBMSRABReleaseRequestIEs", [("id-Cause", Ranap.Cause)]),
  ("MBMSRABReleaseIEs", [("id-Cause", Ranap.Cause), ("id-CriticalityDiagnostics", Ranap.CriticalityDiagnostics)]),
  ("MBMSRABReleaseFailureIEs", [("id-Cause", Ranap.Cause), ("id-CriticalityDiagnostics", Ranap.CriticalityDiagnostics)]),
  ("SRVCC-CSKeysResponseIEs", [("id-IntegrityProtectionKey", Ranap.IntegrityProtectionKey), ("id-EncryptionKey", Ranap.EncryptionKey), ("id-SRVCC-Information", Ranap.SRVCC_Information), ("id-CriticalityDiagnostics", Ranap.CriticalityDiagnostics)]),
  ("UeRadioCapabilityMatchResponseIEs", [("id-VoiceSupportMatchIndicator", Ranap.VoiceSupportMatchIndicator)])]

/-- The elements of each object set of asn1/rua/RUA-PDU-Contents.asn, with the type given for them. -/
def Rua.elements : List (String × List (String × NamedTy)) := [
  ("ConnectIEs", [("id-CN-DomainIndicator", Rua.CN_DomainIndicator), ("id-Context-ID", Rua.Context_ID), ("id-IntraDomainNasNodeSelector", Rua.IntraDomainNasNodeSelector), ("id-Establishment-Cause", Rua.Establishment_Cause), ("id-RANAP-Message", Rua.RANAP_Message)]),
  ("DirectTransferIEs", [("id-CN-DomainIndicator", Rua.CN_DomainIndicator), ("id-Context-ID", Rua.Context_ID), ("id-RANAP-Message", Rua.RANAP_Message)]),
  ("DisconnectIEs", [("id-CN-DomainIndicator", Rua.CN_DomainIndicator), ("id-Context-ID", Rua.Context_ID), ("id-Cause", Rua.Cause), ("id-RANAP-Message", Rua.RANAP_Message)]),
  ("ConnectionlessTransferIEs", [("id-RANAP-Message", Rua.RANAP_Message)]),
  ("ErrorIndicationIEs", [("id-Cause", Rua.Cause), ("id-CriticalityDiagnostics", Rua.CriticalityDiagnostics)])]

/-- The elements of each object set of asn1/hnbap/HNBAP-PDU-Contents.asn, with the type given for them. -/
def Hnbap.elements : List (String × List (String × NamedTy)) := [
  ("HNBRegisterRequestIEs", [("id-HNB-Identity", Hnbap.HNB_Identity), ("id-HNB-Location-Information", Hnbap.HNB_Location_Information), ("id-PLMNidentity", Hnbap.PLMNidentity), ("id-CellIdentity", Hnbap.CellIdentity), ("id-LAC", Hnbap.LAC), ("id-RAC", Hnbap.RAC), ("id-SAC", Hnbap.SAC), ("id-CSG-ID", Hnbap.CSG_ID)]),
  ("HNBRegisterAcceptIEs", [("id-RNC-ID", Hnbap.RNC_ID)]),
  ("HNBRegisterRejectIEs", [("id-Cause", Hnbap.Cause), ("id-CriticalityDiagnostics", Hnbap.CriticalityDiagnostics), ("id-BackoffTimer", Hnbap.BackoffTimer)]),
  ("HNBDe-RegisterIEs", [("id-Cause", Hnbap.Cause), ("id-BackoffTimer", Hnbap.BackoffTimer)]),
  ("UERegisterRequestIEs", [("id-UE-Identity", Hnbap.UE_Identity), ("id-Registration-Cause", Hnbap.Registration_Cause), ("id-UE-Capabilities", Hnbap.UE_Capabilities)]),
  ("UERegisterAcceptIEs", [("id-UE-Identity", Hnbap.UE_Identity), ("id-Context-ID", Hnbap.Context_ID)]),
  ("UERegisterRejectIEs", [("id-UE-Identity", Hnbap.UE_Identity), ("id-Cause", Hnbap.Cause), ("id-CriticalityDiagnostics", Hnbap.CriticalityDiagnostics)]),
  ("UEDe-RegisterIEs", [("id-Context-ID", Hnbap.Context_ID), ("id-Cause", Hnbap.Cause)]),
  ("CSGMembershipUpdateIEs", [("id-Context-ID", Hnbap.Context_ID), ("id-CSGMembershipStatus", Hnbap.CSGMembershipStatus)]),
  ("TNLUpdateRequestIEs", [("id-Context-ID", Hnbap.Context_ID), ("id-RABList", Hnbap.RABList), ("id-Update-cause", Hnbap.Update_cause)]),
  ("TNLUpdateResponseIEs", [("id-Context-ID", Hnbap.Context_ID)]),
  ("TNLUpdateFailureIEs", [("id-Context-ID", Hnbap.Context_ID), ("id-Cause", Hnbap.Cause), ("id-CriticalityDiagnostics", Hnbap.CriticalityDiagnostics)]),
  ("HNBConfigTransferRequestIEs", [("id-NeighbourInfoRequestList", Hnbap.NeighbourInfoRequestList)]),
  ("HNBConfigTransferResponseIEs", [("id-NeighbourInfoList", Hnbap.NeighbourInfoList)]),
  ("RelocationCompleteIEs", [("id-Context-ID", Hnbap.Context_ID)]),
  ("ErrorIndicationIEs", [("id-Cause", Hnbap.Cause), ("id-CriticalityDiagnostics", Hnbap.CriticalityDiagnostics)]),
  ("U-RNTIQueryRequestIEs", [("id-U-RNTI", Hnbap.U_RNTI)]),
  ("U-RNTIQueryResponseIEs", [("id-HNB-GWResponse", Hnbap.HNB_GWResponse)])]

/-- The elements of each object set of asn1/sabp/SABP-PDU-Contents.asn, with the type given for them. -/
def Sabp.elements : List (String × List (String × NamedTy)) := [
  ("Write-Replace-IEs", [("id-Message-Identifier", Sabp.Message_Identifier), ("id-New-Serial-Number", Sabp.New_Serial_Number), ("id-Old-Serial-Number", Sabp.Old_Serial_Number), ("id-Service-Areas-List", Sabp.Service_Areas_List), ("id-Category", Sabp.Category), ("id-Repetition-Period", Sabp.Repetition_Period), ("id-Number-of-Broadcasts-Requested", Sabp.Number_of_Broadcasts_Requested), ("id-Data-Coding-Scheme", Sabp.Data_Coding_Scheme), ("id-Broadcast-Message-Content", Sabp.Broadcast_Message_Content)]),
  ("Write-Replace-Complete-IEs", [("id-Message-Identifier", Sabp.Message_Identifier), ("id-New-Serial-Number", Sabp.New_Serial_Number), ("id-Number-of-Broadcasts-Completed-List", Sabp.Number_of_Broadcasts_Completed_List), ("id-Criticality-Diagnostics", Sabp.Criticality_Diagnostics)]),
  ("Write-Replace-Failure-IEs", [("id-Message-Identifier", Sabp.Message_Identifier), ("id-New-Serial-Number", Sabp.New_Serial_Number), ("id-Failure-List", Sabp.Failure_List), ("id-Number-of-Broadcasts-Completed-List", Sabp.Number_of_Broadcasts_Completed_List), ("id-Criticality-Diagnostics", Sabp.Criticality_Diagnostics)]),
  ("Kill-IEs", [("id-Message-Identifier", Sabp.Message_Identifier), ("id-Old-Serial-Number", Sabp.Old_Serial_Number), ("id-Service-Areas-List", Sabp.Service_Areas_List)]),
  ("Kill-Complete-IEs", [("id-Message-Identifier", Sabp.Message_Identifier), ("id-Old-Serial-Number", Sabp.Old_Serial_Number), ("id-Number-of-Broadcasts-Completed-List", Sabp.Number_of_Broadcasts_Completed_List), ("id-Criticality-Diagnostics", Sabp.Criticality_Diagnostics)]),
  ("Kill-Failure-IEs", [("id-Message-Identifier", Sabp.Message_Identifier), ("id-Old-Serial-Number", Sabp.Old_Serial_Number), ("id-Failure-List", Sabp.Failure_List), ("id-Number-of-Broadcasts-Completed-List", Sabp.Number_of_Broadcasts_Completed_List), ("id-Criticality-Diagnostics", Sabp.Criticality_Diagnostics)]),
  ("Load-Query-IEs", [("id-Service-Areas-List", Sabp.Service_Areas_List)]),
  ("Load-Query-Complete-IEs", [("id-Radio-Resource-Loading-List", Sabp.Radio_Resource_Loading_List), ("id-Criticality-Diagnostics", Sabp.Criticality_Diagnostics)]),
  ("Load-Query-Failure-IEs", [("id-Failure-List", Sabp.Failure_List), ("id-Radio-Resource-Loading-List", Sabp.Radio_Resource_Loading_List), ("id-Criticality-Diagnostics", Sabp.Criticality_Diagnostics)]),
  ("Message-Status-Query-IEs", [("id-Message-Identifier", Sabp.Message_Identifier), ("id-Old-Serial-Number", Sabp.Old_Serial_Number), ("id-Service-Areas-List", Sabp.Service_Areas_List)]),
  ("Message-Status-Query-Complete-IEs", [("id-Message-Identifier", Sabp.Message_Identifier), ("id-Old-Serial-Number", Sabp.Old_Serial_Number), ("id-Number-of-Broadcasts-Completed-List", Sabp.Number_of_Broadcasts_Completed_List), ("id-Criticality-Diagnostics", Sabp.Criticality_Diagnostics)]),
  ("Message-Status-Query-Failure-IEs", [("id-Message-Identifier", Sabp.Message_Identifier), ("id-Failure-List", Sabp.Failure_List), ("id-Old-Serial-Number", Sabp.Old_Serial_Number), ("id-Number-of-Broadcasts-Completed-List", Sabp.Number_of_Broadcasts_Completed_List), ("id-Criticality-Diagnostics", Sabp.Criticality_Diagnostics)]),
  ("Reset-IEs", [("id-Service-Areas-List", Sabp.Service_Areas_List)]),
  ("Reset-Complete-IEs", [("id-Service-Areas-List", Sabp.Service_Areas_List), ("id-Criticality-Diagnostics", Sabp.Criticality_Diagnostics)]),
  ("Reset-Failure-IEs", [("id-Failure-List", Sabp.Failure_List), ("id-Service-Areas-List", Sabp.Service_Areas_List), ("id-Criticality-Diagnostics", Sabp.Criticality_Diagnostics)]),
  ("Restart-IEs", [("id-Service-Areas-List", Sabp.Service_Areas_List), ("id-Recovery-Indication", Sabp.Recovery_Indication)]),
  ("Failure-IEs", [("id-Service-Areas-List", Sabp.Service_Areas_List)]),
  ("Error-Indication-IEs", [("id-Message-Identifier", Sabp.Message_Identifier), ("id-Serial-Number", Sabp.Serial_Number), ("id-Cause", Sabp.Cause), ("id-Criticality-Diagnostics", Sabp.Criticality_Diagnostics)])]

/-- The tables of each protocol, with its object sets. -/
def specElements : List (List Ie.MsgDef × List (String × List (String × NamedTy))) :=
  [(Gen.Ranap.all, Ranap.elements), (Gen.Rua.all, Rua.elements), (Gen.Hnbap.all, Hnbap.elements), (Gen.Sabp.all, Sabp.elements)]

end Verif.Gen.AsnTable
