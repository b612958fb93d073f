import Verif.Gen.RanapTypes

/-!
# The other type descriptors of RANAP

Those of `/repo/src/ranap/*.c` which `Verif/Gen/RanapTypes.lean` does not have, because no information element of
a message refers to them.
-/

namespace Verif.Gen.Ranap
open Verif.Aper

/-- `asn_DEF_RANAP_AccuracyFulfilmentIndicator`, src/ranap/RANAP_AccuracyFulfilmentIndicator.c:143 -/
def RANAP_AccuracyFulfilmentIndicator : Ty := .enum 2 2 true
/-- `asn_DEF_RANAP_ExtendedGuaranteedBitrate`, src/ranap/RANAP_ExtendedGuaranteedBitrate.c:141 -/
def RANAP_ExtendedGuaranteedBitrate : Ty := .int ⟨16000001, 256000000, false⟩
/-- `asn_DEF_RANAP_Alt_RAB_Parameter_ExtendedGuaranteedBitrateList`, src/ranap/RANAP_Alt-RAB-Parameter-ExtendedGuaranteedBitrateList.c:34 -/
def RANAP_Alt_RAB_Parameter_ExtendedGuaranteedBitrateList : Ty := .seqOf (some ⟨1, 2, false⟩) RANAP_ExtendedGuaranteedBitrate
/-- `asn_DEF_RANAP_Alt_RAB_Parameter_ExtendedGuaranteedBitrates`, src/ranap/RANAP_Alt-RAB-Parameter-ExtendedGuaranteedBitrates.c:34 -/
def RANAP_Alt_RAB_Parameter_ExtendedGuaranteedBitrates : Ty := .seqOf (some ⟨1, 16, false⟩) RANAP_Alt_RAB_Parameter_ExtendedGuaranteedBitrateList
/-- `asn_DEF_RANAP_Alt_RAB_Parameter_ExtendedGuaranteedBitrateInf`, src/ranap/RANAP_Alt-RAB-Parameter-ExtendedGuaranteedBitrateInf.c:48 -/
def RANAP_Alt_RAB_Parameter_ExtendedGuaranteedBitrateInf : Ty := .seq true (.cons false RANAP_Alt_RAB_Parameter_GuaranteedBitrateType (.cons true RANAP_Alt_RAB_Parameter_ExtendedGuaranteedBitrates .nil))
/-- `asn_DEF_RANAP_Alt_RAB_Parameter_ExtendedMaxBitrateList`, src/ranap/RANAP_Alt-RAB-Parameter-ExtendedMaxBitrateList.c:34 -/
def RANAP_Alt_RAB_Parameter_ExtendedMaxBitrateList : Ty := .seqOf (some ⟨1, 2, false⟩) RANAP_ExtendedMaxBitrate
/-- `asn_DEF_RANAP_Alt_RAB_Parameter_ExtendedMaxBitrates`, src/ranap/RANAP_Alt-RAB-Parameter-ExtendedMaxBitrates.c:34 -/
def RANAP_Alt_RAB_Parameter_ExtendedMaxBitrates : Ty := .seqOf (some ⟨1, 16, false⟩) RANAP_Alt_RAB_Parameter_ExtendedMaxBitrateList
/-- `asn_DEF_RANAP_Alt_RAB_Parameter_ExtendedMaxBitrateInf`, src/ranap/RANAP_Alt-RAB-Parameter-ExtendedMaxBitrateInf.c:48 -/
def RANAP_Alt_RAB_Parameter_ExtendedMaxBitrateInf : Ty := .seq true (.cons false RANAP_Alt_RAB_Parameter_MaxBitrateType (.cons true RANAP_Alt_RAB_Parameter_ExtendedMaxBitrates .nil))
/-- `asn_DEF_RANAP_SupportedBitrate`, src/ranap/RANAP_SupportedBitrate.c:141 -/
def RANAP_SupportedBitrate : Ty := .int ⟨1, 1000000000, true⟩
/-- `asn_DEF_RANAP_SupportedRAB_ParameterBitrateList`, src/ranap/RANAP_SupportedRAB-ParameterBitrateList.c:34 -/
def RANAP_SupportedRAB_ParameterBitrateList : Ty := .seqOf (some ⟨1, 2, false⟩) RANAP_SupportedBitrate
/-- `asn_DEF_RANAP_Alt_RAB_Parameter_SupportedGuaranteedBitrates`, src/ranap/RANAP_Alt-RAB-Parameter-SupportedGuaranteedBitrates.c:34 -/
def RANAP_Alt_RAB_Parameter_SupportedGuaranteedBitrates : Ty := .seqOf (some ⟨1, 16, false⟩) RANAP_SupportedRAB_ParameterBitrateList
/-- `asn_DEF_RANAP_Alt_RAB_Parameter_SupportedGuaranteedBitrateInf`, src/ranap/RANAP_Alt-RAB-Parameter-SupportedGuaranteedBitrateInf.c:58 -/
def RANAP_Alt_RAB_Parameter_SupportedGuaranteedBitrateInf : Ty := .seq true (.cons false RANAP_Alt_RAB_Parameter_GuaranteedBitrateType (.cons true RANAP_Alt_RAB_Parameter_SupportedGuaranteedBitrates (.cons true RANAP_IE_Extensions .nil)))
/-- `asn_DEF_RANAP_Alt_RAB_Parameter_SupportedMaxBitrates`, src/ranap/RANAP_Alt-RAB-Parameter-SupportedMaxBitrates.c:34 -/
def RANAP_Alt_RAB_Parameter_SupportedMaxBitrates : Ty := .seqOf (some ⟨1, 16, false⟩) RANAP_SupportedRAB_ParameterBitrateList
/-- `asn_DEF_RANAP_Alt_RAB_Parameter_SupportedMaxBitrateInf`, src/ranap/RANAP_Alt-RAB-Parameter-SupportedMaxBitrateInf.c:58 -/
def RANAP_Alt_RAB_Parameter_SupportedMaxBitrateInf : Ty := .seq true (.cons false RANAP_Alt_RAB_Parameter_MaxBitrateType (.cons true RANAP_Alt_RAB_Parameter_SupportedMaxBitrates (.cons true RANAP_IE_Extensions .nil)))
/-- `asn_DEF_RANAP_AlternativeRABConfigurationRequest`, src/ranap/RANAP_AlternativeRABConfigurationRequest.c:141 -/
def RANAP_AlternativeRABConfigurationRequest : Ty := .enum 1 1 true
/-- `asn_DEF_RANAP_Ass_RAB_Parameter_ExtendedGuaranteedBitrateList`, src/ranap/RANAP_Ass-RAB-Parameter-ExtendedGuaranteedBitrateList.c:34 -/
def RANAP_Ass_RAB_Parameter_ExtendedGuaranteedBitrateList : Ty := .seqOf (some ⟨1, 2, false⟩) RANAP_ExtendedGuaranteedBitrate
/-- `asn_DEF_RANAP_Ass_RAB_Parameter_ExtendedMaxBitrateList`, src/ranap/RANAP_Ass-RAB-Parameter-ExtendedMaxBitrateList.c:34 -/
def RANAP_Ass_RAB_Parameter_ExtendedMaxBitrateList : Ty := .seqOf (some ⟨1, 2, false⟩) RANAP_ExtendedMaxBitrate
/-- `asn_DEF_RANAP_CSFB_Information`, src/ranap/RANAP_CSFB-Information.c:143 -/
def RANAP_CSFB_Information : Ty := .enum 2 2 true
/-- `asn_DEF_RANAP_CSG_Id`, src/ranap/RANAP_CSG-Id.c:147 -/
def RANAP_CSG_Id : Ty := .bits (some ⟨27, 27, false⟩)
/-- `asn_DEF_RANAP_CSG_Id_List`, src/ranap/RANAP_CSG-Id-List.c:34 -/
def RANAP_CSG_Id_List : Ty := .seqOf (some ⟨1, 256, false⟩) RANAP_CSG_Id
/-- `asn_DEF_RANAP_CSG_Membership_Status`, src/ranap/RANAP_CSG-Membership-Status.c:143 -/
def RANAP_CSG_Membership_Status : Ty := .enum 2 2 true
/-- `asn_DEF_RANAP_Cell_Access_Mode`, src/ranap/RANAP_Cell-Access-Mode.c:141 -/
def RANAP_Cell_Access_Mode : Ty := .enum 1 1 true
/-- `asn_DEF_RANAP_Cell_Capacity_Class_Value`, src/ranap/RANAP_Cell-Capacity-Class-Value.c:141 -/
def RANAP_Cell_Capacity_Class_Value : Ty := .int ⟨1, 100, true⟩
/-- `asn_DEF_RANAP_Cell_Id`, src/ranap/RANAP_Cell-Id.c:141 -/
def RANAP_Cell_Id : Ty := .int ⟨0, 268435455, false⟩
/-- `asn_DEF_RANAP_CellIdList`, src/ranap/RANAP_CellIdList.c:34 -/
def RANAP_CellIdList : Ty := .seqOf (some ⟨1, 32, false⟩) RANAP_Cell_Id
/-- `asn_DEF_RANAP_CellBased`, src/ranap/RANAP_CellBased.c:48 -/
def RANAP_CellBased : Ty := .seq true (.cons false RANAP_CellIdList (.cons true RANAP_IE_Extensions .nil))
/-- `asn_DEF_RANAP_NRTLoadInformationValue`, src/ranap/RANAP_NRTLoadInformationValue.c:141 -/
def RANAP_NRTLoadInformationValue : Ty := .int ⟨0, 3, false⟩
/-- `asn_DEF_RANAP_RTLoadValue`, src/ranap/RANAP_RTLoadValue.c:141 -/
def RANAP_RTLoadValue : Ty := .int ⟨0, 100, false⟩
/-- `asn_DEF_RANAP_LoadValue`, src/ranap/RANAP_LoadValue.c:141 -/
def RANAP_LoadValue : Ty := .int ⟨0, 100, false⟩
/-- `asn_DEF_RANAP_CellLoadInformation`, src/ranap/RANAP_CellLoadInformation.c:78 -/
def RANAP_CellLoadInformation : Ty := .seq true (.cons false RANAP_Cell_Capacity_Class_Value (.cons false RANAP_LoadValue (.cons true RANAP_RTLoadValue (.cons true RANAP_NRTLoadInformationValue (.cons true RANAP_IE_Extensions .nil)))))
/-- `asn_DEF_RANAP_SourceUTRANCellID`, src/ranap/RANAP_SourceUTRANCellID.c:58 -/
def RANAP_SourceUTRANCellID : Ty := .seq false (.cons false RANAP_PLMNidentity (.cons false RANAP_TargetCellId (.cons true RANAP_IE_Extensions .nil)))
/-- `asn_DEF_RANAP_SourceCellID`, src/ranap/RANAP_SourceCellID.c:49 -/
def RANAP_SourceCellID : Ty := .choice true (.cons false RANAP_SourceUTRANCellID (.cons false RANAP_CGI .nil)) .nil
/-- `asn_DEF_RANAP_CellLoadInformationGroup`, src/ranap/RANAP_CellLoadInformationGroup.c:68 -/
def RANAP_CellLoadInformationGroup : Ty := .seq true (.cons false RANAP_SourceCellID (.cons true RANAP_CellLoadInformation (.cons true RANAP_CellLoadInformation (.cons true RANAP_IE_Extensions .nil))))
/-- `asn_DEF_RANAP_CellType`, src/ranap/RANAP_CellType.c:147 -/
def RANAP_CellType : Ty := .enum 4 4 true
/-- `asn_DEF_RANAP_ClassmarkInformation2`, src/ranap/RANAP_ClassmarkInformation2.c:119 -/
def RANAP_ClassmarkInformation2 : Ty := .octets none
/-- `asn_DEF_RANAP_ClassmarkInformation3`, src/ranap/RANAP_ClassmarkInformation3.c:119 -/
def RANAP_ClassmarkInformation3 : Ty := .octets none
/-- `asn_DEF_RANAP_ClientType`, src/ranap/RANAP_ClientType.c:155 -/
def RANAP_ClientType : Ty := .enum 8 8 true
/-- `asn_DEF_RANAP_Correlation_ID`, src/ranap/RANAP_Correlation-ID.c:142 -/
def RANAP_Correlation_ID : Ty := .octets (some ⟨4, 4, false⟩)
/-- `asn_DEF_RANAP_DataPDUType`, src/ranap/RANAP_DataPDUType.c:143 -/
def RANAP_DataPDUType : Ty := .enum 2 2 true
/-- `asn_DEF_dataVolumeReportListe_ies_2`, src/ranap/RANAP_DataVolumeReportList.c:67 -/
def RANAP_DataVolumeReportList__dataVolumeReportListe_ies_2 : Ty := .seqOf (some ⟨0, 65535, false⟩) RANAP_IE
/-- `asn_DEF_RANAP_DataVolumeReportList`, src/ranap/RANAP_DataVolumeReportList.c:120 -/
def RANAP_DataVolumeReportList : Ty := .seq true (.cons false RANAP_DataVolumeReportList__dataVolumeReportListe_ies_2 .nil)
/-- `asn_DEF_RANAP_DirectReportingIndicator`, src/ranap/RANAP_DirectReportingIndicator.c:143 -/
def RANAP_DirectReportingIndicator : Ty := .enum 2 2 true
/-- `asn_DEF_RANAP_ProtocolIE_Container`, src/ranap/RANAP_ProtocolIE-Container.c:34 -/
def RANAP_ProtocolIE_Container : Ty := .seqOf (some ⟨0, 65535, false⟩) RANAP_IE
/-- `asn_DEF_RANAP_DirectTransfer_IE_ContainerList`, src/ranap/RANAP_DirectTransfer-IE-ContainerList.c:34 -/
def RANAP_DirectTransfer_IE_ContainerList : Ty := .seqOf (some ⟨1, 15, false⟩) RANAP_ProtocolIE_Container
/-- `asn_DEF_RANAP_DirectTransferInformationItem_RANAP_RelocInf`, src/ranap/RANAP_DirectTransferInformationItem-RANAP-RelocInf.c:68 -/
def RANAP_DirectTransferInformationItem_RANAP_RelocInf : Ty := .seq true (.cons false RANAP_NAS_PDU (.cons false RANAP_SAPI (.cons false RANAP_CN_DomainIndicator (.cons true RANAP_ProtocolExtensionContainer .nil))))
/-- `asn_DEF_RANAP_E_DCH_MAC_d_Flow_ID`, src/ranap/RANAP_E-DCH-MAC-d-Flow-ID.c:141 -/
def RANAP_E_DCH_MAC_d_Flow_ID : Ty := .int ⟨0, 7, false⟩
/-- `asn_DEF_RANAP_E_UTRAN_Service_Handover`, src/ranap/RANAP_E-UTRAN-Service-Handover.c:141 -/
def RANAP_E_UTRAN_Service_Handover : Ty := .enum 1 1 true
/-- `asn_DEF_RANAP_EARFCN_Extended`, src/ranap/RANAP_EARFCN-Extended.c:141 -/
def RANAP_EARFCN_Extended : Ty := .int ⟨65536, 262143, true⟩
/-- `asn_DEF_RANAP_MeasBand`, src/ranap/RANAP_MeasBand.c:149 -/
def RANAP_MeasBand : Ty := .enum 6 6 false
/-- `asn_DEF_RANAP_EUTRANFrequencies_Value`, src/ranap/RANAP_EUTRANFrequencies-Value.c:88 -/
def RANAP_EUTRANFrequencies_Value : Ty := .seq false (.cons false (.int ⟨0, 65535, false⟩) (.cons true RANAP_MeasBand (.cons true RANAP_IE_Extensions .nil)))
/-- `asn_DEF_RANAP_EUTRANFrequencies`, src/ranap/RANAP_EUTRANFrequencies.c:34 -/
def RANAP_EUTRANFrequencies : Ty := .seqOf (some ⟨1, 8, false⟩) RANAP_EUTRANFrequencies_Value
/-- `asn_DEF_RANAP_End_Of_CSFB`, src/ranap/RANAP_End-Of-CSFB.c:141 -/
def RANAP_End_Of_CSFB : Ty := .enum 1 1 true
/-- `asn_DEF_RANAP_IMEISVGroup`, src/ranap/RANAP_IMEISVGroup.c:94 -/
def RANAP_IMEISVGroup : Ty := .seq false (.cons false RANAP_IMEISV (.cons false (.bits (some ⟨7, 7, false⟩)) (.cons true RANAP_IE_Extensions .nil)))
/-- `asn_DEF_RANAP_IMEIGroup`, src/ranap/RANAP_IMEIGroup.c:94 -/
def RANAP_IMEIGroup : Ty := .seq false (.cons false RANAP_IMEI (.cons false (.bits (some ⟨7, 7, false⟩)) (.cons true RANAP_IE_Extensions .nil)))
/-- `asn_DEF_RANAP_IMEISVList`, src/ranap/RANAP_IMEISVList.c:34 -/
def RANAP_IMEISVList : Ty := .seqOf (some ⟨1, 64, false⟩) RANAP_IMEISV
/-- `asn_DEF_RANAP_IMEIList`, src/ranap/RANAP_IMEIList.c:34 -/
def RANAP_IMEIList : Ty := .seqOf (some ⟨1, 64, false⟩) RANAP_IMEI
/-- `asn_DEF_RANAP_EquipmentsToBeTraced`, src/ranap/RANAP_EquipmentsToBeTraced.c:69 -/
def RANAP_EquipmentsToBeTraced : Ty := .choice true (.cons false RANAP_IMEIList (.cons false RANAP_IMEISVList (.cons false RANAP_IMEIGroup (.cons false RANAP_IMEISVGroup .nil)))) .nil
/-- `asn_DEF_RANAP_MeasurementQuantity`, src/ranap/RANAP_MeasurementQuantity.c:145 -/
def RANAP_MeasurementQuantity : Ty := .enum 3 3 true
/-- `asn_DEF_RANAP_Event1F_Parameters`, src/ranap/RANAP_Event1F-Parameters.c:76 -/
def RANAP_Event1F_Parameters : Ty := .seq true (.cons false RANAP_MeasurementQuantity (.cons false (.int ⟨-120, 165, false⟩) .nil))
/-- `asn_DEF_RANAP_Event1I_Parameters`, src/ranap/RANAP_Event1I-Parameters.c:66 -/
def RANAP_Event1I_Parameters : Ty := .seq true (.cons false (.int ⟨-120, -25, false⟩) .nil)
/-- `asn_DEF_RANAP_ForwardingIndication`, src/ranap/RANAP_ForwardingIndication.c:141 -/
def RANAP_ForwardingIndication : Ty := .enum 1 1 true
/-- `asn_DEF_RANAP_FrameSequenceNumber`, src/ranap/RANAP_FrameSequenceNumber.c:141 -/
def RANAP_FrameSequenceNumber : Ty := .int ⟨0, 15, false⟩
/-- `asn_DEF_RANAP_GANSS_PositioningMethodAndUsage`, src/ranap/RANAP_GANSS-PositioningMethodAndUsage.c:142 -/
def RANAP_GANSS_PositioningMethodAndUsage : Ty := .octets (some ⟨1, 1, false⟩)
/-- `asn_DEF_RANAP_GANSS_PositioningDataSet`, src/ranap/RANAP_GANSS-PositioningDataSet.c:34 -/
def RANAP_GANSS_PositioningDataSet : Ty := .seqOf (some ⟨1, 9, false⟩) RANAP_GANSS_PositioningMethodAndUsage
/-- `asn_DEF_RANAP_GERAN_BSC_Container`, src/ranap/RANAP_GERAN-BSC-Container.c:119 -/
def RANAP_GERAN_BSC_Container : Ty := .octets none
/-- `asn_DEF_RANAP_HS_DSCH_MAC_d_Flow_ID`, src/ranap/RANAP_HS-DSCH-MAC-d-Flow-ID.c:141 -/
def RANAP_HS_DSCH_MAC_d_Flow_ID : Ty := .int ⟨0, 7, false⟩
/-- `asn_DEF_RANAP_HigherBitratesThan16MbpsFlag`, src/ranap/RANAP_HigherBitratesThan16MbpsFlag.c:143 -/
def RANAP_HigherBitratesThan16MbpsFlag : Ty := .enum 2 2 true
/-- `asn_DEF_RANAP_HorizontalSpeedAndBearing`, src/ranap/RANAP_HorizontalSpeedAndBearing.c:106 -/
def RANAP_HorizontalSpeedAndBearing : Ty := .seq false (.cons false (.int ⟨0, 359, false⟩) (.cons false (.int ⟨0, 2047, false⟩) .nil))
/-- `asn_DEF_RANAP_HorizontalVelocity`, src/ranap/RANAP_HorizontalVelocity.c:48 -/
def RANAP_HorizontalVelocity : Ty := .seq true (.cons false RANAP_HorizontalSpeedAndBearing (.cons true RANAP_IE_Extensions .nil))
/-- `asn_DEF_RANAP_HorizontalVelocityWithUncertainty`, src/ranap/RANAP_HorizontalVelocityWithUncertainty.c:88 -/
def RANAP_HorizontalVelocityWithUncertainty : Ty := .seq true (.cons false RANAP_HorizontalSpeedAndBearing (.cons false (.int ⟨0, 255, false⟩) (.cons true RANAP_IE_Extensions .nil)))
/-- `asn_DEF_RANAP_VerticalSpeedDirection`, src/ranap/RANAP_VerticalSpeedDirection.c:141 -/
def RANAP_VerticalSpeedDirection : Ty := .enum 2 2 false
/-- `asn_DEF_RANAP_VerticalVelocity`, src/ranap/RANAP_VerticalVelocity.c:76 -/
def RANAP_VerticalVelocity : Ty := .seq false (.cons false (.int ⟨0, 255, false⟩) (.cons false RANAP_VerticalSpeedDirection .nil))
/-- `asn_DEF_RANAP_HorizontalWithVerticalVelocity`, src/ranap/RANAP_HorizontalWithVerticalVelocity.c:58 -/
def RANAP_HorizontalWithVerticalVelocity : Ty := .seq true (.cons false RANAP_HorizontalSpeedAndBearing (.cons false RANAP_VerticalVelocity (.cons true RANAP_IE_Extensions .nil)))
/-- `asn_DEF_RANAP_HorizontalWithVerticalVelocityAndUncertainty`, src/ranap/RANAP_HorizontalWithVerticalVelocityAndUncertainty.c:138 -/
def RANAP_HorizontalWithVerticalVelocityAndUncertainty : Ty := .seq true (.cons false RANAP_HorizontalSpeedAndBearing (.cons false RANAP_VerticalVelocity (.cons false (.int ⟨0, 255, false⟩) (.cons false (.int ⟨0, 255, false⟩) (.cons true RANAP_IE_Extensions .nil)))))
/-- `asn_DEF_RANAP_IRATmeasurementParameters`, src/ranap/RANAP_IRATmeasurementParameters.c:88 -/
def RANAP_IRATmeasurementParameters : Ty := .seq false (.cons false (.int ⟨1, 100, false⟩) (.cons true RANAP_EUTRANFrequencies (.cons true RANAP_IE_Extensions .nil)))
/-- `asn_DEF_RANAP_IRAT_Measurement_Configuration`, src/ranap/RANAP_IRAT-Measurement-Configuration.c:128 -/
def RANAP_IRAT_Measurement_Configuration : Ty := .seq false (.cons true (.int ⟨0, 97, false⟩) (.cons true (.int ⟨0, 34, false⟩) (.cons false RANAP_IRATmeasurementParameters (.cons true RANAP_IE_Extensions .nil))))
/-- `asn_DEF_RANAP_ReportAmount`, src/ranap/RANAP_ReportAmount.c:155 -/
def RANAP_ReportAmount : Ty := .enum 8 8 true
/-- `asn_DEF_RANAP_ReportInterval`, src/ranap/RANAP_ReportInterval.c:169 -/
def RANAP_ReportInterval : Ty := .enum 13 15 true
/-- `asn_DEF_RANAP_MDT_Report_Parameters`, src/ranap/RANAP_MDT-Report-Parameters.c:46 -/
def RANAP_MDT_Report_Parameters : Ty := .seq true (.cons false RANAP_ReportInterval (.cons false RANAP_ReportAmount .nil))
/-- `asn_DEF_RANAP_M2Report`, src/ranap/RANAP_M2Report.c:49 -/
def RANAP_M2Report : Ty := .choice true (.cons false RANAP_MDT_Report_Parameters (.cons false RANAP_Event1I_Parameters .nil)) .nil
/-- `asn_DEF_RANAP_M1Report`, src/ranap/RANAP_M1Report.c:49 -/
def RANAP_M1Report : Ty := .choice true (.cons false RANAP_MDT_Report_Parameters (.cons false RANAP_Event1F_Parameters .nil)) .nil
/-- `asn_DEF_RANAP_MeasurementsToActivate`, src/ranap/RANAP_MeasurementsToActivate.c:147 -/
def RANAP_MeasurementsToActivate : Ty := .bits (some ⟨8, 8, false⟩)
/-- `asn_DEF_RANAP_ImmediateMDT`, src/ranap/RANAP_ImmediateMDT.c:68 -/
def RANAP_ImmediateMDT : Ty := .seq true (.cons false RANAP_MeasurementsToActivate (.cons true RANAP_M1Report (.cons true RANAP_M2Report .nil)))
/-- `asn_DEF_RANAP_IncludeVelocity`, src/ranap/RANAP_IncludeVelocity.c:139 -/
def RANAP_IncludeVelocity : Ty := .enum 1 1 false
/-- `asn_DEF_RANAP_MBMSIPMulticastAddressandAPNRequest`, src/ranap/RANAP_MBMSIPMulticastAddressandAPNRequest.c:34 -/
def RANAP_MBMSIPMulticastAddressandAPNRequest : Ty := .seqOf (some ⟨1, 512, false⟩) RANAP_TMGI
/-- `asn_DEF_RANAP_InformationRequestType`, src/ranap/RANAP_InformationRequestType.c:49 -/
def RANAP_InformationRequestType : Ty := .choice true (.cons false RANAP_MBMSIPMulticastAddressandAPNRequest (.cons false RANAP_PermanentNAS_UE_ID .nil)) .nil
/-- `asn_DEF_traceActivationIndicato_3`, src/ranap/RANAP_RNCTraceInformation.c:143 -/
def RANAP_RNCTraceInformation__traceActivationIndicato_3 : Ty := .enum 2 2 false
/-- `asn_DEF_RANAP_RNCTraceInformation`, src/ranap/RANAP_RNCTraceInformation.c:227 -/
def RANAP_RNCTraceInformation : Ty := .seq false (.cons false RANAP_TraceReference (.cons false RANAP_RNCTraceInformation__traceActivationIndicato_3 (.cons true RANAP_EquipmentsToBeTraced (.cons true RANAP_IE_Extensions .nil))))
/-- `asn_DEF_RANAP_InformationTransferType`, src/ranap/RANAP_InformationTransferType.c:39 -/
def RANAP_InformationTransferType : Ty := .choice true (.cons false RANAP_RNCTraceInformation .nil) .nil
/-- `asn_DEF_RANAP_InterSystemInformation_TransparentContainer`, src/ranap/RANAP_InterSystemInformation-TransparentContainer.c:58 -/
def RANAP_InterSystemInformation_TransparentContainer : Ty := .seq true (.cons true RANAP_CellLoadInformation (.cons true RANAP_CellLoadInformation (.cons true RANAP_IE_Extensions .nil)))
/-- `asn_DEF_interface_2`, src/ranap/RANAP_InterfacesToTraceItem.c:151 -/
def RANAP_InterfacesToTraceItem__interface_2 : Ty := .enum 5 5 true
/-- `asn_DEF_RANAP_InterfacesToTraceItem`, src/ranap/RANAP_InterfacesToTraceItem.c:215 -/
def RANAP_InterfacesToTraceItem : Ty := .seq true (.cons false RANAP_InterfacesToTraceItem__interface_2 (.cons true RANAP_IE_Extensions .nil))
/-- `asn_DEF_RANAP_IuSigConId_IE_ContainerList`, src/ranap/RANAP_IuSigConId-IE-ContainerList.c:34 -/
def RANAP_IuSigConId_IE_ContainerList : Ty := .seqOf (some ⟨1, 250, false⟩) RANAP_ProtocolIE_Container
/-- `asn_DEF_RANAP_LAI_List`, src/ranap/RANAP_LAI-List.c:34 -/
def RANAP_LAI_List : Ty := .seqOf (some ⟨1, 8, false⟩) RANAP_LAI
/-- `asn_DEF_RANAP_LABased`, src/ranap/RANAP_LABased.c:48 -/
def RANAP_LABased : Ty := .seq true (.cons false RANAP_LAI_List (.cons true RANAP_IE_Extensions .nil))
/-- `asn_DEF_RANAP_LAListofIdleModeUEs`, src/ranap/RANAP_LAListofIdleModeUEs.c:34 -/
def RANAP_LAListofIdleModeUEs : Ty := .seqOf (some ⟨1, 65536, false⟩) RANAP_LAI
/-- `asn_DEF_RANAP_LHN_ID`, src/ranap/RANAP_LHN-ID.c:142 -/
def RANAP_LHN_ID : Ty := .octets (some ⟨32, 256, false⟩)
/-- `asn_DEF_RANAP_LastKnownServiceArea`, src/ranap/RANAP_LastKnownServiceArea.c:88 -/
def RANAP_LastKnownServiceArea : Ty := .seq true (.cons false RANAP_SAI (.cons false (.int ⟨0, 32767, false⟩) (.cons true RANAP_IE_Extensions .nil)))
/-- `asn_DEF_RANAP_Time_UE_StayedInCell`, src/ranap/RANAP_Time-UE-StayedInCell.c:141 -/
def RANAP_Time_UE_StayedInCell : Ty := .int ⟨0, 4095, false⟩
/-- `asn_DEF_RANAP_UTRAN_CellID`, src/ranap/RANAP_UTRAN-CellID.c:58 -/
def RANAP_UTRAN_CellID : Ty := .seq false (.cons false RANAP_PLMNidentity (.cons false RANAP_TargetCellId (.cons true RANAP_IE_Extensions .nil)))
/-- `asn_DEF_RANAP_LastVisitedUTRANCell_Item`, src/ranap/RANAP_LastVisitedUTRANCell-Item.c:68 -/
def RANAP_LastVisitedUTRANCell_Item : Ty := .seq true (.cons false RANAP_UTRAN_CellID (.cons false RANAP_CellType (.cons false RANAP_Time_UE_StayedInCell (.cons true RANAP_IE_Extensions .nil))))
/-- `asn_DEF_RANAP_Links_to_log`, src/ranap/RANAP_Links-to-log.c:145 -/
def RANAP_Links_to_log : Ty := .enum 3 3 true
/-- `asn_DEF_RANAP_ListOfInterfacesToTrace`, src/ranap/RANAP_ListOfInterfacesToTrace.c:34 -/
def RANAP_ListOfInterfacesToTrace : Ty := .seqOf (some ⟨1, 16, false⟩) RANAP_InterfacesToTraceItem
/-- `asn_DEF_RANAP_LocationRelatedDataRequestTypeSpecificToGERANIuMode`, src/ranap/RANAP_LocationRelatedDataRequestTypeSpecificToGERANIuMode.c:145 -/
def RANAP_LocationRelatedDataRequestTypeSpecificToGERANIuMode : Ty := .enum 3 3 true
/-- `asn_DEF_RANAP_PeriodicLocationInfo`, src/ranap/RANAP_PeriodicLocationInfo.c:118 -/
def RANAP_PeriodicLocationInfo : Ty := .seq true (.cons false (.int ⟨1, 8639999, true⟩) (.cons false (.int ⟨1, 8639999, true⟩) (.cons true RANAP_IE_Extensions .nil)))
/-- `asn_DEF_RANAP_ResponseTime`, src/ranap/RANAP_ResponseTime.c:143 -/
def RANAP_ResponseTime : Ty := .enum 2 2 true
/-- `asn_DEF_RANAP_PositioningPriority`, src/ranap/RANAP_PositioningPriority.c:143 -/
def RANAP_PositioningPriority : Ty := .enum 2 2 true
/-- `asn_DEF_RANAP_VerticalAccuracyCode`, src/ranap/RANAP_VerticalAccuracyCode.c:141 -/
def RANAP_VerticalAccuracyCode : Ty := .int ⟨0, 127, false⟩
/-- `asn_DEF_RANAP_PeriodicReportingIndicator`, src/ranap/RANAP_PeriodicReportingIndicator.c:143 -/
def RANAP_PeriodicReportingIndicator : Ty := .enum 2 2 true
/-- `asn_DEF_RANAP_ReportChangeOfSAI`, src/ranap/RANAP_ReportChangeOfSAI.c:141 -/
def RANAP_ReportChangeOfSAI : Ty := .enum 1 1 true
/-- `asn_DEF_RANAP_LocationReportingTransferInformation`, src/ranap/RANAP_LocationReportingTransferInformation.c:148 -/
def RANAP_LocationReportingTransferInformation : Ty := .seq true (.cons true RANAP_ReportChangeOfSAI (.cons true RANAP_PeriodicReportingIndicator (.cons true RANAP_DirectReportingIndicator (.cons true RANAP_VerticalAccuracyCode (.cons true RANAP_PositioningPriority (.cons true RANAP_PositioningPriority (.cons true RANAP_ClientType (.cons true RANAP_ClientType (.cons true RANAP_ResponseTime (.cons true RANAP_IncludeVelocity (.cons true RANAP_PeriodicLocationInfo (.cons true RANAP_IE_Extensions .nil))))))))))))
/-- `asn_DEF_RANAP_LoggingDuration`, src/ranap/RANAP_LoggingDuration.c:151 -/
def RANAP_LoggingDuration : Ty := .enum 6 6 true
/-- `asn_DEF_RANAP_LoggingInterval`, src/ranap/RANAP_LoggingInterval.c:155 -/
def RANAP_LoggingInterval : Ty := .enum 8 8 true
/-- `asn_DEF_RANAP_LoggedMDT`, src/ranap/RANAP_LoggedMDT.c:58 -/
def RANAP_LoggedMDT : Ty := .seq true (.cons false RANAP_LoggingInterval (.cons false RANAP_LoggingDuration (.cons true RANAP_IE_Extensions .nil)))
/-- `asn_DEF_RANAP_M4_Threshold`, src/ranap/RANAP_M4-Threshold.c:141 -/
def RANAP_M4_Threshold : Ty := .int ⟨0, 31, false⟩
/-- `asn_DEF_RANAP_M4_Period`, src/ranap/RANAP_M4-Period.c:155 -/
def RANAP_M4_Period : Ty := .enum 8 8 true
/-- `asn_DEF_RANAP_M4_Collection_Parameters`, src/ranap/RANAP_M4-Collection-Parameters.c:58 -/
def RANAP_M4_Collection_Parameters : Ty := .seq true (.cons false RANAP_M4_Period (.cons true RANAP_M4_Threshold (.cons true RANAP_IE_Extensions .nil)))
/-- `asn_DEF_RANAP_M4Report`, src/ranap/RANAP_M4Report.c:49 -/
def RANAP_M4Report : Ty := .choice true (.cons false (.null) (.cons false RANAP_M4_Collection_Parameters .nil)) .nil
/-- `asn_DEF_RANAP_M5_Period`, src/ranap/RANAP_M5-Period.c:155 -/
def RANAP_M5_Period : Ty := .enum 8 8 true
/-- `asn_DEF_RANAP_M5Report`, src/ranap/RANAP_M5Report.c:49 -/
def RANAP_M5Report : Ty := .choice true (.cons false (.null) (.cons false RANAP_M5_Period .nil)) .nil
/-- `asn_DEF_RANAP_M6_Period`, src/ranap/RANAP_M6-Period.c:165 -/
def RANAP_M6_Period : Ty := .enum 13 13 true
/-- `asn_DEF_RANAP_M6Report`, src/ranap/RANAP_M6Report.c:58 -/
def RANAP_M6Report : Ty := .seq true (.cons false RANAP_M6_Period (.cons false RANAP_Links_to_log (.cons true RANAP_IE_Extensions .nil)))
/-- `asn_DEF_RANAP_M7_Period`, src/ranap/RANAP_M7-Period.c:165 -/
def RANAP_M7_Period : Ty := .enum 13 13 true
/-- `asn_DEF_RANAP_M7Report`, src/ranap/RANAP_M7Report.c:58 -/
def RANAP_M7Report : Ty := .seq true (.cons false RANAP_M7_Period (.cons false RANAP_Links_to_log (.cons true RANAP_IE_Extensions .nil)))
/-- `asn_DEF_RANAP_MBMSCountingInformation`, src/ranap/RANAP_MBMSCountingInformation.c:143 -/
def RANAP_MBMSCountingInformation : Ty := .enum 2 2 true
/-- `asn_DEF_RANAP_MBMSHCIndicator`, src/ranap/RANAP_MBMSHCIndicator.c:143 -/
def RANAP_MBMSHCIndicator : Ty := .enum 2 2 true
/-- `asn_DEF_RANAP_MBMSLinkingInformation`, src/ranap/RANAP_MBMSLinkingInformation.c:141 -/
def RANAP_MBMSLinkingInformation : Ty := .enum 1 1 true
/-- `asn_DEF_RANAP_MBMSSynchronisationInformation`, src/ranap/RANAP_MBMSSynchronisationInformation.c:68 -/
def RANAP_MBMSSynchronisationInformation : Ty := .seq true (.cons false RANAP_MBMSHCIndicator (.cons false RANAP_IPMulticastAddress (.cons false RANAP_GTP_TEI (.cons true RANAP_ProtocolExtensionContainer .nil))))
/-- `asn_DEF_RANAP_MDT_Activation`, src/ranap/RANAP_MDT-Activation.c:145 -/
def RANAP_MDT_Activation : Ty := .enum 3 3 true
/-- `asn_DEF_RANAP_MDTMode`, src/ranap/RANAP_MDTMode.c:49 -/
def RANAP_MDTMode : Ty := .choice true (.cons false RANAP_ImmediateMDT (.cons false RANAP_LoggedMDT .nil)) .nil
/-- `asn_DEF_RANAP_RAI_List`, src/ranap/RANAP_RAI-List.c:34 -/
def RANAP_RAI_List : Ty := .seqOf (some ⟨1, 8, false⟩) RANAP_RAI
/-- `asn_DEF_RANAP_RABased`, src/ranap/RANAP_RABased.c:48 -/
def RANAP_RABased : Ty := .seq true (.cons false RANAP_RAI_List (.cons true RANAP_IE_Extensions .nil))
/-- `asn_DEF_RANAP_MDTAreaScope`, src/ranap/RANAP_MDTAreaScope.c:69 -/
def RANAP_MDTAreaScope : Ty := .choice true (.cons false RANAP_CellBased (.cons false RANAP_LABased (.cons false RANAP_RABased (.cons false (.null) .nil)))) .nil
/-- `asn_DEF_RANAP_MDT_Configuration`, src/ranap/RANAP_MDT-Configuration.c:68 -/
def RANAP_MDT_Configuration : Ty := .seq true (.cons false RANAP_MDT_Activation (.cons false RANAP_MDTAreaScope (.cons false RANAP_MDTMode (.cons true RANAP_IE_Extensions .nil))))
/-- `asn_DEF_RANAP_MDT_PLMN_List`, src/ranap/RANAP_MDT-PLMN-List.c:34 -/
def RANAP_MDT_PLMN_List : Ty := .seqOf (some ⟨1, 16, false⟩) RANAP_PLMNidentity
/-- `asn_DEF_RANAP_MSISDN`, src/ranap/RANAP_MSISDN.c:142 -/
def RANAP_MSISDN : Ty := .octets (some ⟨1, 9, false⟩)
/-- `asn_DEF_RANAP_Management_Based_MDT_Allowed`, src/ranap/RANAP_Management-Based-MDT-Allowed.c:141 -/
def RANAP_Management_Based_MDT_Allowed : Ty := .enum 1 1 true
/-- `asn_DEF_RANAP_RepetitionNumber1`, src/ranap/RANAP_RepetitionNumber1.c:141 -/
def RANAP_RepetitionNumber1 : Ty := .int ⟨1, 256, false⟩
/-- `asn_DEF_RANAP_MessageStructure_Value`, src/ranap/RANAP_MessageStructure-Value.c:58 -/
def RANAP_MessageStructure_Value : Ty := .seq true (.cons false RANAP_ProtocolIE_ID (.cons true RANAP_RepetitionNumber1 (.cons true RANAP_IE_Extensions .nil)))
/-- `asn_DEF_RANAP_MessageStructure`, src/ranap/RANAP_MessageStructure.c:34 -/
def RANAP_MessageStructure : Ty := .seqOf (some ⟨1, 256, false⟩) RANAP_MessageStructure_Value
/-- `asn_DEF_RANAP_NewBSS_To_OldBSS_Information`, src/ranap/RANAP_NewBSS-To-OldBSS-Information.c:119 -/
def RANAP_NewBSS_To_OldBSS_Information : Ty := .octets none
/-- `asn_DEF_RANAP_Offload_RAB_Parameters_APN`, src/ranap/RANAP_Offload-RAB-Parameters-APN.c:142 -/
def RANAP_Offload_RAB_Parameters_APN : Ty := .octets (some ⟨1, 255, false⟩)
/-- `asn_DEF_RANAP_Offload_RAB_Parameters_ChargingCharacteristics`, src/ranap/RANAP_Offload-RAB-Parameters-ChargingCharacteristics.c:142 -/
def RANAP_Offload_RAB_Parameters_ChargingCharacteristics : Ty := .octets (some ⟨2, 2, false⟩)
/-- `asn_DEF_RANAP_Offload_RAB_Parameters`, src/ranap/RANAP_Offload-RAB-Parameters.c:58 -/
def RANAP_Offload_RAB_Parameters : Ty := .seq true (.cons false RANAP_Offload_RAB_Parameters_APN (.cons false RANAP_Offload_RAB_Parameters_ChargingCharacteristics (.cons true RANAP_IE_Extensions .nil)))
/-- `asn_DEF_RANAP_Out_Of_UTRAN`, src/ranap/RANAP_Out-Of-UTRAN.c:141 -/
def RANAP_Out_Of_UTRAN : Ty := .enum 1 1 true
/-- `asn_DEF_RANAP_PDP_Type_extension`, src/ranap/RANAP_PDP-Type-extension.c:141 -/
def RANAP_PDP_Type_extension : Ty := .enum 1 1 true
/-- `asn_DEF_RANAP_PDP_TypeInformation_extension`, src/ranap/RANAP_PDP-TypeInformation-extension.c:34 -/
def RANAP_PDP_TypeInformation_extension : Ty := .seqOf (some ⟨1, 2, false⟩) RANAP_PDP_Type_extension
/-- `asn_DEF_RANAP_PDUType14FrameSequenceNumber`, src/ranap/RANAP_PDUType14FrameSequenceNumber.c:141 -/
def RANAP_PDUType14FrameSequenceNumber : Ty := .int ⟨0, 3, false⟩
/-- `asn_DEF_RANAP_Port_Number`, src/ranap/RANAP_Port-Number.c:142 -/
def RANAP_Port_Number : Ty := .octets (some ⟨2, 2, false⟩)
/-- `asn_DEF_RANAP_PositioningMethodAndUsage`, src/ranap/RANAP_PositioningMethodAndUsage.c:142 -/
def RANAP_PositioningMethodAndUsage : Ty := .octets (some ⟨1, 1, false⟩)
/-- `asn_DEF_RANAP_PositioningDataSet`, src/ranap/RANAP_PositioningDataSet.c:34 -/
def RANAP_PositioningDataSet : Ty := .seqOf (some ⟨1, 9, false⟩) RANAP_PositioningMethodAndUsage
/-- `asn_DEF_RANAP_PositioningDataDiscriminator`, src/ranap/RANAP_PositioningDataDiscriminator.c:147 -/
def RANAP_PositioningDataDiscriminator : Ty := .bits (some ⟨4, 4, false⟩)
/-- `asn_DEF_RANAP_PositionData`, src/ranap/RANAP_PositionData.c:58 -/
def RANAP_PositionData : Ty := .seq true (.cons false RANAP_PositioningDataDiscriminator (.cons true RANAP_PositioningDataSet (.cons true RANAP_IE_Extensions .nil)))
/-- `asn_DEF_RANAP_PositionDataSpecificToGERANIuMode`, src/ranap/RANAP_PositionDataSpecificToGERANIuMode.c:119 -/
def RANAP_PositionDataSpecificToGERANIuMode : Ty := .octets none
/-- `asn_DEF_RANAP_Presence`, src/ranap/RANAP_Presence.c:143 -/
def RANAP_Presence : Ty := .enum 3 3 false
/-- `asn_DEF_RANAP_Priority_Class_Indicator`, src/ranap/RANAP_Priority-Class-Indicator.c:147 -/
def RANAP_Priority_Class_Indicator : Ty := .bits (some ⟨8, 8, false⟩)
/-- `asn_DEF_RANAP_PrivateIE_ID`, src/ranap/RANAP_PrivateIE-ID.c:79 -/
def RANAP_PrivateIE_ID : Ty := .choice false (.cons false (.int ⟨0, 65535, false⟩) (.cons false (.oid) .nil)) .nil
/-- `asn_DEF_privateMessage_ies_2`, src/ranap/RANAP_PrivateMessage.c:67 -/
def RANAP_PrivateMessage__privateMessage_ies_2 : Ty := .seqOf (some ⟨0, 65535, false⟩) RANAP_IE
/-- `asn_DEF_RANAP_PrivateMessage`, src/ranap/RANAP_PrivateMessage.c:120 -/
def RANAP_PrivateMessage : Ty := .seq true (.cons false RANAP_PrivateMessage__privateMessage_ies_2 .nil)
/-- `asn_DEF_RANAP_ProtocolError_IE_ContainerList`, src/ranap/RANAP_ProtocolError-IE-ContainerList.c:34 -/
def RANAP_ProtocolError_IE_ContainerList : Ty := .seqOf (some ⟨1, 256, false⟩) RANAP_ProtocolIE_Container
/-- `asn_DEF_RANAP_ProtocolExtensionID`, src/ranap/RANAP_ProtocolExtensionID.c:141 -/
def RANAP_ProtocolExtensionID : Ty := .int ⟨0, 65535, false⟩
/-- `asn_DEF_RANAP_RAB_IE_ContainerList`, src/ranap/RANAP_RAB-IE-ContainerList.c:34 -/
def RANAP_RAB_IE_ContainerList : Ty := .seqOf (some ⟨1, 256, false⟩) RANAP_ProtocolIE_Container
/-- `asn_DEF_RANAP_RAB_Parameter_ExtendedGuaranteedBitrateList`, src/ranap/RANAP_RAB-Parameter-ExtendedGuaranteedBitrateList.c:34 -/
def RANAP_RAB_Parameter_ExtendedGuaranteedBitrateList : Ty := .seqOf (some ⟨1, 2, false⟩) RANAP_ExtendedGuaranteedBitrate
/-- `asn_DEF_RANAP_RABDataVolumeReport_Value`, src/ranap/RANAP_RABDataVolumeReport-Value.c:58 -/
def RANAP_RABDataVolumeReport_Value : Ty := .seq true (.cons false RANAP_UnsuccessfullyTransmittedDataVolume (.cons true RANAP_DataVolumeReference (.cons true RANAP_IE_Extensions .nil)))
/-- `asn_DEF_RANAP_RABDataVolumeReport`, src/ranap/RANAP_RABDataVolumeReport.c:34 -/
def RANAP_RABDataVolumeReport : Ty := .seqOf (some ⟨1, 2, false⟩) RANAP_RABDataVolumeReport_Value
/-- `asn_DEF_RANAP_UPInitialisationFrame`, src/ranap/RANAP_UPInitialisationFrame.c:119 -/
def RANAP_UPInitialisationFrame : Ty := .octets none
/-- `asn_DEF_RANAP_UPInformation`, src/ranap/RANAP_UPInformation.c:98 -/
def RANAP_UPInformation : Ty := .seq true (.cons false RANAP_FrameSequenceNumber (.cons false RANAP_FrameSequenceNumber (.cons false RANAP_PDUType14FrameSequenceNumber (.cons false RANAP_PDUType14FrameSequenceNumber (.cons false RANAP_DataPDUType (.cons false RANAP_UPInitialisationFrame (.cons true RANAP_IE_Extensions .nil)))))))
/-- `asn_DEF_RANAP_RABParametersList_Value`, src/ranap/RANAP_RABParametersList-Value.c:78 -/
def RANAP_RABParametersList_Value : Ty := .seq true (.cons false RANAP_RAB_ID (.cons false RANAP_CN_DomainIndicator (.cons true RANAP_RABDataVolumeReport (.cons true RANAP_UPInformation (.cons true RANAP_IE_Extensions .nil)))))
/-- `asn_DEF_RANAP_RABParametersList`, src/ranap/RANAP_RABParametersList.c:34 -/
def RANAP_RABParametersList : Ty := .seqOf (some ⟨1, 256, false⟩) RANAP_RABParametersList_Value
/-- `asn_DEF_RANAP_RAT_Type`, src/ranap/RANAP_RAT-Type.c:143 -/
def RANAP_RAT_Type : Ty := .enum 2 2 true
/-- `asn_DEF_RANAP_TraceDepth`, src/ranap/RANAP_TraceDepth.c:145 -/
def RANAP_TraceDepth : Ty := .enum 3 3 true
/-- `asn_DEF_RANAP_TraceRecordingSessionReference`, src/ranap/RANAP_TraceRecordingSessionReference.c:141 -/
def RANAP_TraceRecordingSessionReference : Ty := .int ⟨0, 65535, false⟩
/-- `asn_DEF_RANAP_TracePropagationParameters`, src/ranap/RANAP_TracePropagationParameters.c:68 -/
def RANAP_TracePropagationParameters : Ty := .seq true (.cons false RANAP_TraceRecordingSessionReference (.cons false RANAP_TraceDepth (.cons true RANAP_ListOfInterfacesToTrace (.cons true RANAP_IE_Extensions .nil))))
/-- `asn_DEF_RANAP_TraceInformation`, src/ranap/RANAP_TraceInformation.c:68 -/
def RANAP_TraceInformation : Ty := .seq true (.cons false RANAP_TraceReference (.cons false RANAP_UE_ID (.cons true RANAP_TracePropagationParameters (.cons true RANAP_IE_Extensions .nil))))
/-- `asn_DEF_RANAP_RNSAPRelocationParameters`, src/ranap/RANAP_RNSAPRelocationParameters.c:78 -/
def RANAP_RNSAPRelocationParameters : Ty := .seq true (.cons true RANAP_RABParametersList (.cons true RANAP_LocationReportingTransferInformation (.cons true RANAP_TraceInformation (.cons true RANAP_SAI (.cons true RANAP_IE_Extensions .nil)))))
/-- `asn_DEF_RANAP_RSRQ_Extension`, src/ranap/RANAP_RSRQ-Extension.c:141 -/
def RANAP_RSRQ_Extension : Ty := .int ⟨-30, 46, true⟩
/-- `asn_DEF_RANAP_RSRQ_Type`, src/ranap/RANAP_RSRQ-Type.c:46 -/
def RANAP_RSRQ_Type : Ty := .seq false (.cons false (.bool) (.cons false (.bool) .nil))
/-- `asn_DEF_RANAP_RSRVCC_HO_Indication`, src/ranap/RANAP_RSRVCC-HO-Indication.c:141 -/
def RANAP_RSRVCC_HO_Indication : Ty := .enum 1 1 true
/-- `asn_DEF_RANAP_RSRVCC_Information`, src/ranap/RANAP_RSRVCC-Information.c:125 -/
def RANAP_RSRVCC_Information : Ty := .seq true (.cons false (.bits (some ⟨128, 128, false⟩)) (.cons false (.octets (some ⟨1, 32, false⟩)) (.cons true RANAP_IE_Extensions .nil)))
/-- `asn_DEF_RANAP_RSRVCC_Operation_Possible`, src/ranap/RANAP_RSRVCC-Operation-Possible.c:141 -/
def RANAP_RSRVCC_Operation_Possible : Ty := .enum 1 1 true
/-- `asn_DEF_RANAP_RateControlAllowed`, src/ranap/RANAP_RateControlAllowed.c:141 -/
def RANAP_RateControlAllowed : Ty := .enum 2 2 false
/-- `asn_DEF_RANAP_RedirectAttemptFlag`, src/ranap/RANAP_RedirectAttemptFlag.c:119 -/
def RANAP_RedirectAttemptFlag : Ty := .null
/-- `asn_DEF_RANAP_RedirectionCompleted`, src/ranap/RANAP_RedirectionCompleted.c:141 -/
def RANAP_RedirectionCompleted : Ty := .enum 1 1 true
/-- `asn_DEF_relocationComplete_ies_2`, src/ranap/RANAP_RelocationComplete.c:67 -/
def RANAP_RelocationComplete__relocationComplete_ies_2 : Ty := .seqOf (some ⟨0, 65535, false⟩) RANAP_IE
/-- `asn_DEF_RANAP_RelocationComplete`, src/ranap/RANAP_RelocationComplete.c:120 -/
def RANAP_RelocationComplete : Ty := .seq true (.cons false RANAP_RelocationComplete__relocationComplete_ies_2 .nil)
/-- `asn_DEF_relocationDetect_ies_2`, src/ranap/RANAP_RelocationDetect.c:67 -/
def RANAP_RelocationDetect__relocationDetect_ies_2 : Ty := .seqOf (some ⟨0, 65535, false⟩) RANAP_IE
/-- `asn_DEF_RANAP_RelocationDetect`, src/ranap/RANAP_RelocationDetect.c:120 -/
def RANAP_RelocationDetect : Ty := .seq true (.cons false RANAP_RelocationDetect__relocationDetect_ies_2 .nil)
/-- `asn_DEF_RANAP_Requested_RAB_Parameter_ExtendedGuaranteedBitrateList`, src/ranap/RANAP_Requested-RAB-Parameter-ExtendedGuaranteedBitrateList.c:34 -/
def RANAP_Requested_RAB_Parameter_ExtendedGuaranteedBitrateList : Ty := .seqOf (some ⟨1, 2, false⟩) RANAP_ExtendedGuaranteedBitrate
/-- `asn_DEF_RANAP_Requested_RAB_Parameter_ExtendedMaxBitrateList`, src/ranap/RANAP_Requested-RAB-Parameter-ExtendedMaxBitrateList.c:34 -/
def RANAP_Requested_RAB_Parameter_ExtendedMaxBitrateList : Ty := .seqOf (some ⟨1, 2, false⟩) RANAP_ExtendedMaxBitrate
/-- `asn_DEF_RANAP_RequestedGANSSAssistanceData`, src/ranap/RANAP_RequestedGANSSAssistanceData.c:142 -/
def RANAP_RequestedGANSSAssistanceData : Ty := .octets (some ⟨1, 201, false⟩)
/-- `asn_DEF_RANAP_SRB_ID`, src/ranap/RANAP_SRB-ID.c:141 -/
def RANAP_SRB_ID : Ty := .int ⟨1, 32, false⟩
/-- `asn_DEF_RANAP_SRB_TrCH_MappingItem`, src/ranap/RANAP_SRB-TrCH-MappingItem.c:58 -/
def RANAP_SRB_TrCH_MappingItem : Ty := .seq true (.cons false RANAP_SRB_ID (.cons false RANAP_TrCH_ID (.cons true RANAP_IE_Extensions .nil)))
/-- `asn_DEF_RANAP_SRB_TrCH_Mapping`, src/ranap/RANAP_SRB-TrCH-Mapping.c:34 -/
def RANAP_SRB_TrCH_Mapping : Ty := .seqOf (some ⟨1, 8, false⟩) RANAP_SRB_TrCH_MappingItem
/-- `asn_DEF_srvcC_CSKeysRequest_ies_2`, src/ranap/RANAP_SRVCC-CSKeysRequest.c:67 -/
def RANAP_SRVCC_CSKeysRequest__srvcC_CSKeysRequest_ies_2 : Ty := .seqOf (some ⟨0, 65535, false⟩) RANAP_IE
/-- `asn_DEF_RANAP_SRVCC_CSKeysRequest`, src/ranap/RANAP_SRVCC-CSKeysRequest.c:120 -/
def RANAP_SRVCC_CSKeysRequest : Ty := .seq true (.cons false RANAP_SRVCC_CSKeysRequest__srvcC_CSKeysRequest_ies_2 .nil)
/-- `asn_DEF_RANAP_SRVCC_HO_Indication`, src/ranap/RANAP_SRVCC-HO-Indication.c:143 -/
def RANAP_SRVCC_HO_Indication : Ty := .enum 2 2 true
/-- `asn_DEF_RANAP_SRVCC_Operation_Possible`, src/ranap/RANAP_SRVCC-Operation-Possible.c:141 -/
def RANAP_SRVCC_Operation_Possible : Ty := .enum 1 1 true
/-- `asn_DEF_RANAP_Session_Re_establishment_Indicator`, src/ranap/RANAP_Session-Re-establishment-Indicator.c:141 -/
def RANAP_Session_Re_establishment_Indicator : Ty := .enum 1 1 true
/-- `asn_DEF_RANAP_SignallingIndication`, src/ranap/RANAP_SignallingIndication.c:141 -/
def RANAP_SignallingIndication : Ty := .enum 1 1 true
/-- `asn_DEF_RANAP_Source_ToTarget_TransparentContainer`, src/ranap/RANAP_Source-ToTarget-TransparentContainer.c:119 -/
def RANAP_Source_ToTarget_TransparentContainer : Ty := .octets none
/-- `asn_DEF_RANAP_SourceBSS_ToTargetBSS_TransparentContainer`, src/ranap/RANAP_SourceBSS-ToTargetBSS-TransparentContainer.c:119 -/
def RANAP_SourceBSS_ToTargetBSS_TransparentContainer : Ty := .octets none
/-- `asn_DEF_RANAP_SourceeNodeB_ToTargeteNodeB_TransparentContainer`, src/ranap/RANAP_SourceeNodeB-ToTargeteNodeB-TransparentContainer.c:119 -/
def RANAP_SourceeNodeB_ToTargeteNodeB_TransparentContainer : Ty := .octets none
/-- `asn_DEF_RANAP_SubscriberProfileIDforRFP`, src/ranap/RANAP_SubscriberProfileIDforRFP.c:141 -/
def RANAP_SubscriberProfileIDforRFP : Ty := .int ⟨1, 256, false⟩
/-- `asn_DEF_RANAP_TBCD_STRING`, src/ranap/RANAP_TBCD-STRING.c:119 -/
def RANAP_TBCD_STRING : Ty := .octets none
/-- `asn_DEF_RANAP_Target_ToSource_TransparentContainer`, src/ranap/RANAP_Target-ToSource-TransparentContainer.c:119 -/
def RANAP_Target_ToSource_TransparentContainer : Ty := .octets none
/-- `asn_DEF_RANAP_TargetBSS_ToSourceBSS_TransparentContainer`, src/ranap/RANAP_TargetBSS-ToSourceBSS-TransparentContainer.c:119 -/
def RANAP_TargetBSS_ToSourceBSS_TransparentContainer : Ty := .octets none
/-- `asn_DEF_RANAP_TargeteNodeB_ToSourceeNodeB_TransparentContainer`, src/ranap/RANAP_TargeteNodeB-ToSourceeNodeB-TransparentContainer.c:119 -/
def RANAP_TargeteNodeB_ToSourceeNodeB_TransparentContainer : Ty := .octets none
/-- `asn_DEF_RANAP_Time_UE_StayedInCell_EnhancedGranularity`, src/ranap/RANAP_Time-UE-StayedInCell-EnhancedGranularity.c:141 -/
def RANAP_Time_UE_StayedInCell_EnhancedGranularity : Ty := .int ⟨0, 40950, false⟩
/-- `asn_DEF_RANAP_TimingDifferenceULDL`, src/ranap/RANAP_TimingDifferenceULDL.c:142 -/
def RANAP_TimingDifferenceULDL : Ty := .octets (some ⟨1, 1, false⟩)
/-- `asn_DEF_RANAP_TraceRecordingSessionInformation`, src/ranap/RANAP_TraceRecordingSessionInformation.c:58 -/
def RANAP_TraceRecordingSessionInformation : Ty := .seq true (.cons false RANAP_TraceReference (.cons false RANAP_TraceRecordingSessionReference (.cons true RANAP_IE_Extensions .nil)))
/-- `asn_DEF_RANAP_TunnelInformation`, src/ranap/RANAP_TunnelInformation.c:58 -/
def RANAP_TunnelInformation : Ty := .seq true (.cons false RANAP_TransportLayerAddress (.cons true RANAP_Port_Number (.cons true RANAP_IE_Extensions .nil)))
/-- `asn_DEF_RANAP_TypeOfError`, src/ranap/RANAP_TypeOfError.c:143 -/
def RANAP_TypeOfError : Ty := .enum 2 2 true
/-- `asn_DEF_RANAP_UE_AggregateMaximumBitRateUplink`, src/ranap/RANAP_UE-AggregateMaximumBitRateUplink.c:141 -/
def RANAP_UE_AggregateMaximumBitRateUplink : Ty := .int ⟨1, 1000000000, false⟩
/-- `asn_DEF_RANAP_UE_AggregateMaximumBitRateDownlink`, src/ranap/RANAP_UE-AggregateMaximumBitRateDownlink.c:141 -/
def RANAP_UE_AggregateMaximumBitRateDownlink : Ty := .int ⟨1, 1000000000, false⟩
/-- `asn_DEF_RANAP_UE_AggregateMaximumBitRate`, src/ranap/RANAP_UE-AggregateMaximumBitRate.c:48 -/
def RANAP_UE_AggregateMaximumBitRate : Ty := .seq true (.cons true RANAP_UE_AggregateMaximumBitRateDownlink (.cons true RANAP_UE_AggregateMaximumBitRateUplink .nil))
/-- `asn_DEF_RANAP_UE_History_Information`, src/ranap/RANAP_UE-History-Information.c:119 -/
def RANAP_UE_History_Information : Ty := .octets none
/-- `asn_DEF_ueRadioCapabilityMatchRequest_ies_2`, src/ranap/RANAP_UeRadioCapabilityMatchRequest.c:67 -/
def RANAP_UeRadioCapabilityMatchRequest__ueRadioCapabilityMatchRequest_ies_2 : Ty := .seqOf (some ⟨0, 65535, false⟩) RANAP_IE
/-- `asn_DEF_RANAP_UeRadioCapabilityMatchRequest`, src/ranap/RANAP_UeRadioCapabilityMatchRequest.c:120 -/
def RANAP_UeRadioCapabilityMatchRequest : Ty := .seq true (.cons false RANAP_UeRadioCapabilityMatchRequest__ueRadioCapabilityMatchRequest_ies_2 .nil)
/-- `asn_DEF_RANAP_VelocityEstimate`, src/ranap/RANAP_VelocityEstimate.c:69 -/
def RANAP_VelocityEstimate : Ty := .choice true (.cons false RANAP_HorizontalVelocity (.cons false RANAP_HorizontalWithVerticalVelocity (.cons false RANAP_HorizontalVelocityWithUncertainty (.cons false RANAP_HorizontalWithVerticalVelocityAndUncertainty .nil)))) .nil

end Verif.Gen.Ranap
