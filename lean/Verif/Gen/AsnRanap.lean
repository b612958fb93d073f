import Verif.Model.Aper

/-!
# The types of the ASN.1 specification of RANAP

All types of `/repo/asn1/ranap/RANAP-CommonDataTypes.asn`, `-IEs.asn`, `-PDU-Contents.asn` and `-PDU-Descriptions.asn`, with
the parameterized types of `-Containers.asn` and the constants of `-Constants.asn`, read by a script which splits the text
into ASN.1 tokens.  It does not read `RANAP-PDU.asn`, the simplified version of `-PDU-Contents.asn` from which the C code was
generated (except for `IE`, to which `-IEs.asn` refers), nor the C code.  Tags are automatic: the order of the components and alternatives is that of the text.
-/

namespace Verif.Gen.Asn.Ranap
open Verif.Aper

/-- `Criticality`, asn1/ranap/RANAP-CommonDataTypes.asn:15 -/
def Criticality : Ty := .enum 3 3 false
/-- `Presence`, asn1/ranap/RANAP-CommonDataTypes.asn:17 -/
def Presence : Ty := .enum 3 3 false
/-- `PrivateIE-ID`, asn1/ranap/RANAP-CommonDataTypes.asn:19 -/
def PrivateIE_ID : Ty := .choice false (.cons false (.int ⟨0, 65535, false⟩) (.cons false .oid .nil)) .nil
/-- `ProcedureCode`, asn1/ranap/RANAP-CommonDataTypes.asn:24 -/
def ProcedureCode : Ty := .int ⟨0, 255, false⟩
/-- `ProtocolExtensionID`, asn1/ranap/RANAP-CommonDataTypes.asn:74 -/
def ProtocolExtensionID : Ty := .int ⟨0, 65535, false⟩
/-- `ProtocolIE-ID`, asn1/ranap/RANAP-CommonDataTypes.asn:76 -/
def ProtocolIE_ID : Ty := .int ⟨0, 65535, false⟩
/-- `TriggeringMessage`, asn1/ranap/RANAP-CommonDataTypes.asn:351 -/
def TriggeringMessage : Ty := .enum 4 4 false
/-- `IE`, asn1/ranap/RANAP-PDU.asn:527 -/
def IE : Ty := .seq false (.cons false ProtocolIE_ID (.cons false Criticality (.cons false .any .nil)))
/-- `IE-Extensions`, asn1/ranap/RANAP-IEs.asn:122 -/
def IE_Extensions : Ty := .seqOf (some ⟨1, 65535, false⟩) IE
/-- `AccuracyFulfilmentIndicator`, asn1/ranap/RANAP-IEs.asn:126 -/
def AccuracyFulfilmentIndicator : Ty := .enum 2 2 true
/-- `QueuingAllowed`, asn1/ranap/RANAP-IEs.asn:1400 -/
def QueuingAllowed : Ty := .enum 2 2 false
/-- `Pre-emptionVulnerability`, asn1/ranap/RANAP-IEs.asn:1382 -/
def Pre_emptionVulnerability : Ty := .enum 2 2 false
/-- `Pre-emptionCapability`, asn1/ranap/RANAP-IEs.asn:1377 -/
def Pre_emptionCapability : Ty := .enum 2 2 false
/-- `PriorityLevel`, asn1/ranap/RANAP-IEs.asn:1387 -/
def PriorityLevel : Ty := .int ⟨0, 15, false⟩
/-- `AllocationOrRetentionPriority`, asn1/ranap/RANAP-IEs.asn:132 -/
def AllocationOrRetentionPriority : Ty := .seq true (.cons false PriorityLevel (.cons false Pre_emptionCapability (.cons false Pre_emptionVulnerability (.cons false QueuingAllowed (.cons true IE_Extensions .nil)))))
/-- `GuaranteedBitrate`, asn1/ranap/RANAP-IEs.asn:801 -/
def GuaranteedBitrate : Ty := .int ⟨0, 16000000, false⟩
/-- `Alt-RAB-Parameter-GuaranteedBitrateList`, asn1/ranap/RANAP-IEs.asn:178 -/
def Alt_RAB_Parameter_GuaranteedBitrateList : Ty := .seqOf (some ⟨1, 2, false⟩) GuaranteedBitrate
/-- `Alt-RAB-Parameter-GuaranteedBitrates`, asn1/ranap/RANAP-IEs.asn:174 -/
def Alt_RAB_Parameter_GuaranteedBitrates : Ty := .seqOf (some ⟨1, 16, false⟩) Alt_RAB_Parameter_GuaranteedBitrateList
/-- `Alt-RAB-Parameter-GuaranteedBitrateType`, asn1/ranap/RANAP-IEs.asn:167 -/
def Alt_RAB_Parameter_GuaranteedBitrateType : Ty := .enum 3 3 true
/-- `Alt-RAB-Parameter-GuaranteedBitrateInf`, asn1/ranap/RANAP-IEs.asn:160 -/
def Alt_RAB_Parameter_GuaranteedBitrateInf : Ty := .seq true (.cons false Alt_RAB_Parameter_GuaranteedBitrateType (.cons true Alt_RAB_Parameter_GuaranteedBitrates .nil))
/-- `MaxBitrate`, asn1/ranap/RANAP-IEs.asn:1091 -/
def MaxBitrate : Ty := .int ⟨1, 16000000, false⟩
/-- `Alt-RAB-Parameter-MaxBitrateList`, asn1/ranap/RANAP-IEs.asn:222 -/
def Alt_RAB_Parameter_MaxBitrateList : Ty := .seqOf (some ⟨1, 2, false⟩) MaxBitrate
/-- `Alt-RAB-Parameter-MaxBitrates`, asn1/ranap/RANAP-IEs.asn:218 -/
def Alt_RAB_Parameter_MaxBitrates : Ty := .seqOf (some ⟨1, 16, false⟩) Alt_RAB_Parameter_MaxBitrateList
/-- `Alt-RAB-Parameter-MaxBitrateType`, asn1/ranap/RANAP-IEs.asn:211 -/
def Alt_RAB_Parameter_MaxBitrateType : Ty := .enum 3 3 true
/-- `Alt-RAB-Parameter-MaxBitrateInf`, asn1/ranap/RANAP-IEs.asn:204 -/
def Alt_RAB_Parameter_MaxBitrateInf : Ty := .seq true (.cons false Alt_RAB_Parameter_MaxBitrateType (.cons true Alt_RAB_Parameter_MaxBitrates .nil))
/-- `Alt-RAB-Parameters`, asn1/ranap/RANAP-IEs.asn:141 -/
def Alt_RAB_Parameters : Ty := .seq true (.cons true Alt_RAB_Parameter_MaxBitrateInf (.cons true Alt_RAB_Parameter_GuaranteedBitrateInf (.cons true IE_Extensions .nil)))
/-- `ExtendedGuaranteedBitrate`, asn1/ranap/RANAP-IEs.asn:663 -/
def ExtendedGuaranteedBitrate : Ty := .int ⟨16000001, 256000000, false⟩
/-- `Alt-RAB-Parameter-ExtendedGuaranteedBitrateList`, asn1/ranap/RANAP-IEs.asn:158 -/
def Alt_RAB_Parameter_ExtendedGuaranteedBitrateList : Ty := .seqOf (some ⟨1, 2, false⟩) ExtendedGuaranteedBitrate
/-- `Alt-RAB-Parameter-ExtendedGuaranteedBitrates`, asn1/ranap/RANAP-IEs.asn:155 -/
def Alt_RAB_Parameter_ExtendedGuaranteedBitrates : Ty := .seqOf (some ⟨1, 16, false⟩) Alt_RAB_Parameter_ExtendedGuaranteedBitrateList
/-- `Alt-RAB-Parameter-ExtendedGuaranteedBitrateInf`, asn1/ranap/RANAP-IEs.asn:148 -/
def Alt_RAB_Parameter_ExtendedGuaranteedBitrateInf : Ty := .seq true (.cons false Alt_RAB_Parameter_GuaranteedBitrateType (.cons true Alt_RAB_Parameter_ExtendedGuaranteedBitrates .nil))
/-- `SupportedBitrate`, asn1/ranap/RANAP-IEs.asn:1884 -/
def SupportedBitrate : Ty := .int ⟨1, 1000000000, true⟩
/-- `SupportedRAB-ParameterBitrateList`, asn1/ranap/RANAP-IEs.asn:1882 -/
def SupportedRAB_ParameterBitrateList : Ty := .seqOf (some ⟨1, 2, false⟩) SupportedBitrate
/-- `Alt-RAB-Parameter-SupportedGuaranteedBitrates`, asn1/ranap/RANAP-IEs.asn:188 -/
def Alt_RAB_Parameter_SupportedGuaranteedBitrates : Ty := .seqOf (some ⟨1, 16, false⟩) SupportedRAB_ParameterBitrateList
/-- `Alt-RAB-Parameter-SupportedGuaranteedBitrateInf`, asn1/ranap/RANAP-IEs.asn:180 -/
def Alt_RAB_Parameter_SupportedGuaranteedBitrateInf : Ty := .seq true (.cons false Alt_RAB_Parameter_GuaranteedBitrateType (.cons true Alt_RAB_Parameter_SupportedGuaranteedBitrates (.cons true IE_Extensions .nil)))
/-- `ExtendedMaxBitrate`, asn1/ranap/RANAP-IEs.asn:666 -/
def ExtendedMaxBitrate : Ty := .int ⟨16000001, 256000000, false⟩
/-- `Alt-RAB-Parameter-ExtendedMaxBitrateList`, asn1/ranap/RANAP-IEs.asn:202 -/
def Alt_RAB_Parameter_ExtendedMaxBitrateList : Ty := .seqOf (some ⟨1, 2, false⟩) ExtendedMaxBitrate
/-- `Alt-RAB-Parameter-ExtendedMaxBitrates`, asn1/ranap/RANAP-IEs.asn:199 -/
def Alt_RAB_Parameter_ExtendedMaxBitrates : Ty := .seqOf (some ⟨1, 16, false⟩) Alt_RAB_Parameter_ExtendedMaxBitrateList
/-- `Alt-RAB-Parameter-ExtendedMaxBitrateInf`, asn1/ranap/RANAP-IEs.asn:192 -/
def Alt_RAB_Parameter_ExtendedMaxBitrateInf : Ty := .seq true (.cons false Alt_RAB_Parameter_MaxBitrateType (.cons true Alt_RAB_Parameter_ExtendedMaxBitrates .nil))
/-- `Alt-RAB-Parameter-SupportedMaxBitrates`, asn1/ranap/RANAP-IEs.asn:234 -/
def Alt_RAB_Parameter_SupportedMaxBitrates : Ty := .seqOf (some ⟨1, 16, false⟩) SupportedRAB_ParameterBitrateList
/-- `Alt-RAB-Parameter-SupportedMaxBitrateInf`, asn1/ranap/RANAP-IEs.asn:225 -/
def Alt_RAB_Parameter_SupportedMaxBitrateInf : Ty := .seq true (.cons false Alt_RAB_Parameter_MaxBitrateType (.cons true Alt_RAB_Parameter_SupportedMaxBitrates (.cons true IE_Extensions .nil)))
/-- `AlternativeRABConfigurationRequest`, asn1/ranap/RANAP-IEs.asn:237 -/
def AlternativeRABConfigurationRequest : Ty := .enum 1 1 true
/-- `APN`, asn1/ranap/RANAP-IEs.asn:242 -/
def APN : Ty := .octets (some ⟨1, 255, false⟩)
/-- `GeographicalCoordinates`, asn1/ranap/RANAP-IEs.asn:697 -/
def GeographicalCoordinates : Ty := .seq true (.cons false (.enum 2 2 false) (.cons false (.int ⟨0, 8388607, false⟩) (.cons false (.int ⟨-8388608, 8388607, false⟩) (.cons true IE_Extensions .nil))))
/-- `GA-Polygon-Value`, asn1/ranap/RANAP-IEs.asn:760 -/
def GA_Polygon_Value : Ty := .seq true (.cons false GeographicalCoordinates (.cons true IE_Extensions .nil))
/-- `GA-Polygon`, asn1/ranap/RANAP-IEs.asn:759 -/
def GA_Polygon : Ty := .seqOf (some ⟨1, 15, false⟩) GA_Polygon_Value
/-- `GA-PointWithUnCertainty`, asn1/ranap/RANAP-IEs.asn:745 -/
def GA_PointWithUnCertainty : Ty := .seq false (.cons false GeographicalCoordinates (.cons true IE_Extensions (.cons false (.int ⟨0, 127, false⟩) .nil)))
/-- `GA-Point`, asn1/ranap/RANAP-IEs.asn:722 -/
def GA_Point : Ty := .seq true (.cons false GeographicalCoordinates (.cons true IE_Extensions .nil))
/-- `GA-EllipsoidArc`, asn1/ranap/RANAP-IEs.asn:711 -/
def GA_EllipsoidArc : Ty := .seq true (.cons false GeographicalCoordinates (.cons false (.int ⟨0, 65535, false⟩) (.cons false (.int ⟨0, 127, false⟩) (.cons false (.int ⟨0, 179, false⟩) (.cons false (.int ⟨0, 179, false⟩) (.cons false (.int ⟨0, 127, false⟩) (.cons true IE_Extensions .nil)))))))
/-- `GA-UncertaintyEllipse`, asn1/ranap/RANAP-IEs.asn:767 -/
def GA_UncertaintyEllipse : Ty := .seq true (.cons false (.int ⟨0, 127, false⟩) (.cons false (.int ⟨0, 127, false⟩) (.cons false (.int ⟨0, 179, false⟩) .nil)))
/-- `GA-AltitudeAndDirection`, asn1/ranap/RANAP-IEs.asn:705 -/
def GA_AltitudeAndDirection : Ty := .seq true (.cons false (.enum 2 2 false) (.cons false (.int ⟨0, 32767, false⟩) .nil))
/-- `GA-PointWithAltitudeAndUncertaintyEllipsoid`, asn1/ranap/RANAP-IEs.asn:735 -/
def GA_PointWithAltitudeAndUncertaintyEllipsoid : Ty := .seq true (.cons false GeographicalCoordinates (.cons false GA_AltitudeAndDirection (.cons false GA_UncertaintyEllipse (.cons false (.int ⟨0, 127, false⟩) (.cons false (.int ⟨0, 127, false⟩) (.cons true IE_Extensions .nil))))))
/-- `GA-PointWithAltitude`, asn1/ranap/RANAP-IEs.asn:728 -/
def GA_PointWithAltitude : Ty := .seq true (.cons false GeographicalCoordinates (.cons false GA_AltitudeAndDirection (.cons true IE_Extensions .nil)))
/-- `GA-PointWithUnCertaintyEllipse`, asn1/ranap/RANAP-IEs.asn:751 -/
def GA_PointWithUnCertaintyEllipse : Ty := .seq true (.cons false GeographicalCoordinates (.cons false GA_UncertaintyEllipse (.cons false (.int ⟨0, 127, false⟩) (.cons true IE_Extensions .nil))))
/-- `GeographicalArea`, asn1/ranap/RANAP-IEs.asn:686 -/
def GeographicalArea : Ty := .choice true (.cons false GA_Point (.cons false GA_PointWithUnCertainty (.cons false GA_Polygon .nil))) (.cons false GA_PointWithUnCertaintyEllipse (.cons false GA_PointWithAltitude (.cons false GA_PointWithAltitudeAndUncertaintyEllipsoid (.cons false GA_EllipsoidArc .nil))))
/-- `SAC`, asn1/ranap/RANAP-IEs.asn:1721 -/
def SAC : Ty := .octets (some ⟨2, 2, false⟩)
/-- `LAC`, asn1/ranap/RANAP-IEs.asn:939 -/
def LAC : Ty := .octets (some ⟨2, 2, false⟩)
/-- `PLMNidentity`, asn1/ranap/RANAP-IEs.asn:1342 -/
def PLMNidentity : Ty := .octets (some ⟨3, 3, false⟩)
/-- `SAI`, asn1/ranap/RANAP-IEs.asn:1722 -/
def SAI : Ty := .seq false (.cons false PLMNidentity (.cons false LAC (.cons false SAC (.cons true IE_Extensions .nil))))
/-- `AreaIdentity`, asn1/ranap/RANAP-IEs.asn:245 -/
def AreaIdentity : Ty := .choice true (.cons false SAI (.cons false GeographicalArea .nil)) .nil
/-- `Ass-RAB-Parameter-GuaranteedBitrateList`, asn1/ranap/RANAP-IEs.asn:263 -/
def Ass_RAB_Parameter_GuaranteedBitrateList : Ty := .seqOf (some ⟨1, 2, false⟩) GuaranteedBitrate
/-- `Ass-RAB-Parameter-MaxBitrateList`, asn1/ranap/RANAP-IEs.asn:266 -/
def Ass_RAB_Parameter_MaxBitrateList : Ty := .seqOf (some ⟨1, 2, false⟩) MaxBitrate
/-- `Ass-RAB-Parameters`, asn1/ranap/RANAP-IEs.asn:251 -/
def Ass_RAB_Parameters : Ty := .seq true (.cons true Ass_RAB_Parameter_MaxBitrateList (.cons true Ass_RAB_Parameter_GuaranteedBitrateList (.cons true IE_Extensions .nil)))
/-- `Ass-RAB-Parameter-ExtendedGuaranteedBitrateList`, asn1/ranap/RANAP-IEs.asn:258 -/
def Ass_RAB_Parameter_ExtendedGuaranteedBitrateList : Ty := .seqOf (some ⟨1, 2, false⟩) ExtendedGuaranteedBitrate
/-- `Ass-RAB-Parameter-ExtendedMaxBitrateList`, asn1/ranap/RANAP-IEs.asn:260 -/
def Ass_RAB_Parameter_ExtendedMaxBitrateList : Ty := .seqOf (some ⟨1, 2, false⟩) ExtendedMaxBitrate
/-- `SNAC`, asn1/ranap/RANAP-IEs.asn:1783 -/
def SNAC : Ty := .int ⟨0, 65535, false⟩
/-- `AuthorisedSNAs`, asn1/ranap/RANAP-IEs.asn:277 -/
def AuthorisedSNAs : Ty := .seqOf (some ⟨1, 65536, false⟩) SNAC
/-- `AuthorisedPLMNs-Value`, asn1/ranap/RANAP-IEs.asn:269 -/
def AuthorisedPLMNs_Value : Ty := .seq true (.cons false PLMNidentity (.cons true AuthorisedSNAs (.cons true IE_Extensions .nil)))
/-- `AuthorisedPLMNs`, asn1/ranap/RANAP-IEs.asn:268 -/
def AuthorisedPLMNs : Ty := .seqOf (some ⟨1, 32, false⟩) AuthorisedPLMNs_Value
/-- `BindingID`, asn1/ranap/RANAP-IEs.asn:282 -/
def BindingID : Ty := .octets (some ⟨4, 4, false⟩)
/-- `BroadcastAssistanceDataDecipheringKeys`, asn1/ranap/RANAP-IEs.asn:284 -/
def BroadcastAssistanceDataDecipheringKeys : Ty := .seq true (.cons false (.bits (some ⟨1, 1, false⟩)) (.cons false (.bits (some ⟨56, 56, false⟩)) (.cons false (.bits (some ⟨56, 56, false⟩)) .nil)))
/-- `CauseNon-Standard`, asn1/ranap/RANAP-IEs.asn:411 -/
def CauseNon_Standard : Ty := .int ⟨129, 256, false⟩
/-- `CauseMisc`, asn1/ranap/RANAP-IEs.asn:305 -/
def CauseMisc : Ty := .int ⟨113, 128, false⟩
/-- `CauseProtocol`, asn1/ranap/RANAP-IEs.asn:319 -/
def CauseProtocol : Ty := .int ⟨97, 112, false⟩
/-- `CauseNAS`, asn1/ranap/RANAP-IEs.asn:312 -/
def CauseNAS : Ty := .int ⟨81, 96, false⟩
/-- `CauseTransmissionNetwork`, asn1/ranap/RANAP-IEs.asn:414 -/
def CauseTransmissionNetwork : Ty := .int ⟨65, 80, false⟩
/-- `CauseRadioNetwork`, asn1/ranap/RANAP-IEs.asn:328 -/
def CauseRadioNetwork : Ty := .int ⟨1, 64, false⟩
/-- `CauseRadioNetworkExtension`, asn1/ranap/RANAP-IEs.asn:395 -/
def CauseRadioNetworkExtension : Ty := .int ⟨257, 512, false⟩
/-- `Cause`, asn1/ranap/RANAP-IEs.asn:294 -/
def Cause : Ty := .choice true (.cons false CauseRadioNetwork (.cons false CauseTransmissionNetwork (.cons false CauseNAS (.cons false CauseProtocol (.cons false CauseMisc (.cons false CauseNon_Standard .nil)))))) (.cons false CauseRadioNetworkExtension .nil)
/-- `Cell-Access-Mode`, asn1/ranap/RANAP-IEs.asn:419 -/
def Cell_Access_Mode : Ty := .enum 1 1 true
/-- `Cell-Id`, asn1/ranap/RANAP-IEs.asn:433 -/
def Cell_Id : Ty := .int ⟨0, 268435455, false⟩
/-- `CellIdList`, asn1/ranap/RANAP-IEs.asn:430 -/
def CellIdList : Ty := .seqOf (some ⟨1, 32, false⟩) Cell_Id
/-- `CellBased`, asn1/ranap/RANAP-IEs.asn:424 -/
def CellBased : Ty := .seq true (.cons false CellIdList (.cons true IE_Extensions .nil))
/-- `Cell-Capacity-Class-Value`, asn1/ranap/RANAP-IEs.asn:435 -/
def Cell_Capacity_Class_Value : Ty := .int ⟨1, 100, true⟩
/-- `NRTLoadInformationValue`, asn1/ranap/RANAP-IEs.asn:1214 -/
def NRTLoadInformationValue : Ty := .int ⟨0, 3, false⟩
/-- `RTLoadValue`, asn1/ranap/RANAP-IEs.asn:1699 -/
def RTLoadValue : Ty := .int ⟨0, 100, false⟩
/-- `LoadValue`, asn1/ranap/RANAP-IEs.asn:976 -/
def LoadValue : Ty := .int ⟨0, 100, false⟩
/-- `CellLoadInformation`, asn1/ranap/RANAP-IEs.asn:437 -/
def CellLoadInformation : Ty := .seq true (.cons false Cell_Capacity_Class_Value (.cons false LoadValue (.cons true RTLoadValue (.cons true NRTLoadInformationValue (.cons true IE_Extensions .nil)))))
/-- `CI`, asn1/ranap/RANAP-IEs.asn:513 -/
def CI : Ty := .octets (some ⟨2, 2, false⟩)
/-- `CGI`, asn1/ranap/RANAP-IEs.asn:502 -/
def CGI : Ty := .seq false (.cons false PLMNidentity (.cons false LAC (.cons false CI (.cons true IE_Extensions .nil))))
/-- `TargetCellId`, asn1/ranap/RANAP-IEs.asn:1946 -/
def TargetCellId : Ty := .int ⟨0, 268435455, false⟩
/-- `SourceUTRANCellID`, asn1/ranap/RANAP-IEs.asn:1887 -/
def SourceUTRANCellID : Ty := .seq false (.cons false PLMNidentity (.cons false TargetCellId (.cons true IE_Extensions .nil)))
/-- `SourceCellID`, asn1/ranap/RANAP-IEs.asn:1801 -/
def SourceCellID : Ty := .choice true (.cons false SourceUTRANCellID (.cons false CGI .nil)) .nil
/-- `CellLoadInformationGroup`, asn1/ranap/RANAP-IEs.asn:446 -/
def CellLoadInformationGroup : Ty := .seq true (.cons false SourceCellID (.cons true CellLoadInformation (.cons true CellLoadInformation (.cons true IE_Extensions .nil))))
/-- `CellType`, asn1/ranap/RANAP-IEs.asn:454 -/
def CellType : Ty := .enum 4 4 true
/-- `ClientType`, asn1/ranap/RANAP-IEs.asn:462 -/
def ClientType : Ty := .enum 8 8 true
/-- `RepetitionNumber0`, asn1/ranap/RANAP-IEs.asn:1558 -/
def RepetitionNumber0 : Ty := .int ⟨0, 255, false⟩
/-- `CriticalityDiagnostics-IE-List-Value`, asn1/ranap/RANAP-IEs.asn:484 -/
def CriticalityDiagnostics_IE_List_Value : Ty := .seq true (.cons false Criticality (.cons false ProtocolIE_ID (.cons true RepetitionNumber0 (.cons true IE_Extensions .nil))))
/-- `CriticalityDiagnostics-IE-List`, asn1/ranap/RANAP-IEs.asn:483 -/
def CriticalityDiagnostics_IE_List : Ty := .seqOf (some ⟨1, 256, false⟩) CriticalityDiagnostics_IE_List_Value
/-- `CriticalityDiagnostics`, asn1/ranap/RANAP-IEs.asn:474 -/
def CriticalityDiagnostics : Ty := .seq true (.cons true ProcedureCode (.cons true TriggeringMessage (.cons true Criticality (.cons true CriticalityDiagnostics_IE_List (.cons true IE_Extensions .nil)))))
/-- `RepetitionNumber1`, asn1/ranap/RANAP-IEs.asn:1560 -/
def RepetitionNumber1 : Ty := .int ⟨1, 256, false⟩
/-- `MessageStructure-Value`, asn1/ranap/RANAP-IEs.asn:494 -/
def MessageStructure_Value : Ty := .seq true (.cons false ProtocolIE_ID (.cons true RepetitionNumber1 (.cons true IE_Extensions .nil)))
/-- `MessageStructure`, asn1/ranap/RANAP-IEs.asn:493 -/
def MessageStructure : Ty := .seqOf (some ⟨1, 256, false⟩) MessageStructure_Value
/-- `EncryptionAlgorithm`, asn1/ranap/RANAP-IEs.asn:613 -/
def EncryptionAlgorithm : Ty := .int ⟨0, 15, false⟩
/-- `ChosenEncryptionAlgorithm`, asn1/ranap/RANAP-IEs.asn:509 -/
def ChosenEncryptionAlgorithm : Ty := EncryptionAlgorithm
/-- `IntegrityProtectionAlgorithm`, asn1/ranap/RANAP-IEs.asn:884 -/
def IntegrityProtectionAlgorithm : Ty := .int ⟨0, 15, false⟩
/-- `ChosenIntegrityProtectionAlgorithm`, asn1/ranap/RANAP-IEs.asn:511 -/
def ChosenIntegrityProtectionAlgorithm : Ty := IntegrityProtectionAlgorithm
/-- `ClassmarkInformation2`, asn1/ranap/RANAP-IEs.asn:515 -/
def ClassmarkInformation2 : Ty := .octets none
/-- `ClassmarkInformation3`, asn1/ranap/RANAP-IEs.asn:517 -/
def ClassmarkInformation3 : Ty := .octets none
/-- `CN-DomainIndicator`, asn1/ranap/RANAP-IEs.asn:519 -/
def CN_DomainIndicator : Ty := .enum 2 2 false
/-- `CN-ID`, asn1/ranap/RANAP-IEs.asn:524 -/
def CN_ID : Ty := .int ⟨0, 4095, false⟩
/-- `Correlation-ID`, asn1/ranap/RANAP-IEs.asn:526 -/
def Correlation_ID : Ty := .octets (some ⟨4, 4, false⟩)
/-- `CSFB-Information`, asn1/ranap/RANAP-IEs.asn:528 -/
def CSFB_Information : Ty := .enum 2 2 true
/-- `CSG-Id`, asn1/ranap/RANAP-IEs.asn:534 -/
def CSG_Id : Ty := .bits (some ⟨27, 27, false⟩)
/-- `CSG-Id-List`, asn1/ranap/RANAP-IEs.asn:536 -/
def CSG_Id_List : Ty := .seqOf (some ⟨1, 256, false⟩) CSG_Id
/-- `CSG-Membership-Status`, asn1/ranap/RANAP-IEs.asn:539 -/
def CSG_Membership_Status : Ty := .enum 2 2 true
/-- `DataPDUType`, asn1/ranap/RANAP-IEs.asn:547 -/
def DataPDUType : Ty := .enum 2 2 true
/-- `DataVolumeReference`, asn1/ranap/RANAP-IEs.asn:553 -/
def DataVolumeReference : Ty := .int ⟨0, 255, false⟩
/-- `DataVolumeReportingIndication`, asn1/ranap/RANAP-IEs.asn:555 -/
def DataVolumeReportingIndication : Ty := .enum 2 2 false
/-- `DCH-ID`, asn1/ranap/RANAP-IEs.asn:560 -/
def DCH_ID : Ty := .int ⟨0, 255, false⟩
/-- `DeliveryOfErroneousSDU`, asn1/ranap/RANAP-IEs.asn:562 -/
def DeliveryOfErroneousSDU : Ty := .enum 3 3 false
/-- `DeliveryOrder`, asn1/ranap/RANAP-IEs.asn:568 -/
def DeliveryOrder : Ty := .enum 2 2 false
/-- `RAC`, asn1/ranap/RANAP-IEs.asn:1488 -/
def RAC : Ty := .octets (some ⟨1, 1, false⟩)
/-- `RAListwithNoIdleModeUEsAnyMore`, asn1/ranap/RANAP-IEs.asn:582 -/
def RAListwithNoIdleModeUEsAnyMore : Ty := .seqOf (some ⟨1, 65536, false⟩) RAC
/-- `NewRAListofIdleModeUEs`, asn1/ranap/RANAP-IEs.asn:579 -/
def NewRAListofIdleModeUEs : Ty := .seqOf (some ⟨1, 65536, false⟩) RAC
/-- `DeltaRAListofIdleModeUEs`, asn1/ranap/RANAP-IEs.asn:573 -/
def DeltaRAListofIdleModeUEs : Ty := .seq false (.cons true NewRAListofIdleModeUEs (.cons true RAListwithNoIdleModeUEsAnyMore (.cons true IE_Extensions .nil)))
/-- `ForwardingIndication`, asn1/ranap/RANAP-IEs.asn:585 -/
def ForwardingIndication : Ty := .enum 1 1 true
/-- `DL-GTP-PDU-SequenceNumber`, asn1/ranap/RANAP-IEs.asn:590 -/
def DL_GTP_PDU_SequenceNumber : Ty := .int ⟨0, 65535, false⟩
/-- `DL-N-PDU-SequenceNumber`, asn1/ranap/RANAP-IEs.asn:592 -/
def DL_N_PDU_SequenceNumber : Ty := .int ⟨0, 65535, false⟩
/-- `D-RNTI`, asn1/ranap/RANAP-IEs.asn:594 -/
def D_RNTI : Ty := .int ⟨0, 1048575, false⟩
/-- `DRX-CycleLengthCoefficient`, asn1/ranap/RANAP-IEs.asn:596 -/
def DRX_CycleLengthCoefficient : Ty := .int ⟨6, 9, false⟩
/-- `DSCH-ID`, asn1/ranap/RANAP-IEs.asn:598 -/
def DSCH_ID : Ty := .int ⟨0, 255, false⟩
/-- `EARFCN-Extended`, asn1/ranap/RANAP-IEs.asn:603 -/
def EARFCN_Extended : Ty := .int ⟨65536, 262143, true⟩
/-- `E-DCH-MAC-d-Flow-ID`, asn1/ranap/RANAP-IEs.asn:605 -/
def E_DCH_MAC_d_Flow_ID : Ty := .int ⟨0, 7, false⟩
/-- `ENB-ID`, asn1/ranap/RANAP-IEs.asn:607 -/
def ENB_ID : Ty := .choice true (.cons false (.bits (some ⟨20, 20, false⟩)) (.cons false (.bits (some ⟨28, 28, false⟩)) .nil)) .nil
/-- `EncryptionKey`, asn1/ranap/RANAP-IEs.asn:621 -/
def EncryptionKey : Ty := .bits (some ⟨128, 128, false⟩)
/-- `PermittedEncryptionAlgorithms`, asn1/ranap/RANAP-IEs.asn:1295 -/
def PermittedEncryptionAlgorithms : Ty := .seqOf (some ⟨1, 16, false⟩) EncryptionAlgorithm
/-- `EncryptionInformation`, asn1/ranap/RANAP-IEs.asn:615 -/
def EncryptionInformation : Ty := .seq false (.cons false PermittedEncryptionAlgorithms (.cons false EncryptionKey (.cons true IE_Extensions .nil)))
/-- `End-Of-CSFB`, asn1/ranap/RANAP-IEs.asn:624 -/
def End_Of_CSFB : Ty := .enum 1 1 true
/-- `IMEISV`, asn1/ranap/RANAP-IEs.asn:828 -/
def IMEISV : Ty := .octets (some ⟨8, 8, false⟩)
/-- `IMEISVGroup`, asn1/ranap/RANAP-IEs.asn:831 -/
def IMEISVGroup : Ty := .seq false (.cons false IMEISV (.cons false (.bits (some ⟨7, 7, false⟩)) (.cons true IE_Extensions .nil)))
/-- `IMEI`, asn1/ranap/RANAP-IEs.asn:817 -/
def IMEI : Ty := .octets (some ⟨8, 8, false⟩)
/-- `IMEIGroup`, asn1/ranap/RANAP-IEs.asn:820 -/
def IMEIGroup : Ty := .seq false (.cons false IMEI (.cons false (.bits (some ⟨7, 7, false⟩)) (.cons true IE_Extensions .nil)))
/-- `IMEISVList`, asn1/ranap/RANAP-IEs.asn:837 -/
def IMEISVList : Ty := .seqOf (some ⟨1, 64, false⟩) IMEISV
/-- `IMEIList`, asn1/ranap/RANAP-IEs.asn:826 -/
def IMEIList : Ty := .seqOf (some ⟨1, 64, false⟩) IMEI
/-- `EquipmentsToBeTraced`, asn1/ranap/RANAP-IEs.asn:629 -/
def EquipmentsToBeTraced : Ty := .choice true (.cons false IMEIList (.cons false IMEISVList (.cons false IMEIGroup (.cons false IMEISVGroup .nil)))) .nil
/-- `E-UTRAN-Service-Handover`, asn1/ranap/RANAP-IEs.asn:637 -/
def E_UTRAN_Service_Handover : Ty := .enum 1 1 true
/-- `Event`, asn1/ranap/RANAP-IEs.asn:642 -/
def Event : Ty := .enum 3 6 true
/-- `MeasurementQuantity`, asn1/ranap/RANAP-IEs.asn:1186 -/
def MeasurementQuantity : Ty := .enum 3 3 true
/-- `Event1F-Parameters`, asn1/ranap/RANAP-IEs.asn:652 -/
def Event1F_Parameters : Ty := .seq true (.cons false MeasurementQuantity (.cons false (.int ⟨-120, 165, false⟩) .nil))
/-- `Event1I-Parameters`, asn1/ranap/RANAP-IEs.asn:658 -/
def Event1I_Parameters : Ty := .seq true (.cons false (.int ⟨-120, -25, false⟩) .nil)
/-- `ExtendedRNC-ID`, asn1/ranap/RANAP-IEs.asn:669 -/
def ExtendedRNC_ID : Ty := .int ⟨4096, 65535, false⟩
/-- `FrameSequenceNumber`, asn1/ranap/RANAP-IEs.asn:673 -/
def FrameSequenceNumber : Ty := .int ⟨0, 15, false⟩
/-- `FrequenceLayerConvergenceFlag`, asn1/ranap/RANAP-IEs.asn:675 -/
def FrequenceLayerConvergenceFlag : Ty := .enum 1 1 true
/-- `GANSS-PositioningMethodAndUsage`, asn1/ranap/RANAP-IEs.asn:684 -/
def GANSS_PositioningMethodAndUsage : Ty := .octets (some ⟨1, 1, false⟩)
/-- `GANSS-PositioningDataSet`, asn1/ranap/RANAP-IEs.asn:682 -/
def GANSS_PositioningDataSet : Ty := .seqOf (some ⟨1, 9, false⟩) GANSS_PositioningMethodAndUsage
/-- `GERAN-BSC-Container`, asn1/ranap/RANAP-IEs.asn:774 -/
def GERAN_BSC_Container : Ty := .octets none
/-- `LAI`, asn1/ranap/RANAP-IEs.asn:941 -/
def LAI : Ty := .seq false (.cons false PLMNidentity (.cons false LAC (.cons true IE_Extensions .nil)))
/-- `GERAN-Cell-ID`, asn1/ranap/RANAP-IEs.asn:778 -/
def GERAN_Cell_ID : Ty := .seq false (.cons false LAI (.cons false RAC (.cons false CI (.cons true IE_Extensions .nil))))
/-- `GERAN-Classmark`, asn1/ranap/RANAP-IEs.asn:785 -/
def GERAN_Classmark : Ty := .octets none
/-- `GlobalCN-ID`, asn1/ranap/RANAP-IEs.asn:788 -/
def GlobalCN_ID : Ty := .seq false (.cons false PLMNidentity (.cons false CN_ID .nil))
/-- `RNC-ID`, asn1/ranap/RANAP-IEs.asn:1675 -/
def RNC_ID : Ty := .int ⟨0, 4095, false⟩
/-- `GlobalRNC-ID`, asn1/ranap/RANAP-IEs.asn:794 -/
def GlobalRNC_ID : Ty := .seq false (.cons false PLMNidentity (.cons false RNC_ID .nil))
/-- `GTP-TEI`, asn1/ranap/RANAP-IEs.asn:799 -/
def GTP_TEI : Ty := .octets (some ⟨4, 4, false⟩)
/-- `HigherBitratesThan16MbpsFlag`, asn1/ranap/RANAP-IEs.asn:806 -/
def HigherBitratesThan16MbpsFlag : Ty := .enum 2 2 true
/-- `HS-DSCH-MAC-d-Flow-ID`, asn1/ranap/RANAP-IEs.asn:812 -/
def HS_DSCH_MAC_d_Flow_ID : Ty := .int ⟨0, 7, false⟩
/-- `ReportAmount`, asn1/ranap/RANAP-IEs.asn:1588 -/
def ReportAmount : Ty := .enum 8 8 true
/-- `ReportInterval`, asn1/ranap/RANAP-IEs.asn:1569 -/
def ReportInterval : Ty := .enum 13 15 true
/-- `MDT-Report-Parameters`, asn1/ranap/RANAP-IEs.asn:1180 -/
def MDT_Report_Parameters : Ty := .seq true (.cons false ReportInterval (.cons false ReportAmount .nil))
/-- `M2Report`, asn1/ranap/RANAP-IEs.asn:1036 -/
def M2Report : Ty := .choice true (.cons false MDT_Report_Parameters (.cons false Event1I_Parameters .nil)) .nil
/-- `M1Report`, asn1/ranap/RANAP-IEs.asn:1030 -/
def M1Report : Ty := .choice true (.cons false MDT_Report_Parameters (.cons false Event1F_Parameters .nil)) .nil
/-- `MeasurementsToActivate`, asn1/ranap/RANAP-IEs.asn:1193 -/
def MeasurementsToActivate : Ty := .bits (some ⟨8, 8, false⟩)
/-- `ImmediateMDT`, asn1/ranap/RANAP-IEs.asn:839 -/
def ImmediateMDT : Ty := .seq true (.cons false MeasurementsToActivate (.cons true M1Report (.cons true M2Report .nil)))
/-- `IMSI`, asn1/ranap/RANAP-IEs.asn:849 -/
def IMSI : Ty := .octets (some ⟨3, 8, false⟩)
/-- `IncludeVelocity`, asn1/ranap/RANAP-IEs.asn:852 -/
def IncludeVelocity : Ty := .enum 1 1 false
/-- `InformationExchangeID`, asn1/ranap/RANAP-IEs.asn:856 -/
def InformationExchangeID : Ty := .int ⟨0, 1048575, false⟩
/-- `InformationExchangeType`, asn1/ranap/RANAP-IEs.asn:858 -/
def InformationExchangeType : Ty := .enum 2 2 true
/-- `TMGI`, asn1/ranap/RANAP-IEs.asn:1995 -/
def TMGI : Ty := .seq false (.cons false PLMNidentity (.cons false (.octets (some ⟨3, 3, false⟩)) (.cons true IE_Extensions .nil)))
/-- `RequestedMulticastServiceList`, asn1/ranap/RANAP-IEs.asn:1620 -/
def RequestedMulticastServiceList : Ty := .seqOf (some ⟨1, 128, false⟩) TMGI
/-- `IPMulticastAddress`, asn1/ranap/RANAP-IEs.asn:909 -/
def IPMulticastAddress : Ty := .octets (some ⟨4, 16, false⟩)
/-- `MBMSIPMulticastAddressandAPNlist`, asn1/ranap/RANAP-IEs.asn:1612 -/
def MBMSIPMulticastAddressandAPNlist : Ty := .seq true (.cons false TMGI (.cons false IPMulticastAddress (.cons false APN (.cons true IE_Extensions .nil))))
/-- `RequestedMBMSIPMulticastAddressandAPNRequest`, asn1/ranap/RANAP-IEs.asn:1609 -/
def RequestedMBMSIPMulticastAddressandAPNRequest : Ty := .seqOf (some ⟨1, 512, false⟩) MBMSIPMulticastAddressandAPNlist
/-- `InformationRequested`, asn1/ranap/RANAP-IEs.asn:864 -/
def InformationRequested : Ty := .choice true (.cons false RequestedMBMSIPMulticastAddressandAPNRequest (.cons false RequestedMulticastServiceList .nil)) .nil
/-- `PermanentNAS-UE-ID`, asn1/ranap/RANAP-IEs.asn:1290 -/
def PermanentNAS_UE_ID : Ty := .choice true (.cons false IMSI .nil) .nil
/-- `MBMSIPMulticastAddressandAPNRequest`, asn1/ranap/RANAP-IEs.asn:1125 -/
def MBMSIPMulticastAddressandAPNRequest : Ty := .seqOf (some ⟨1, 512, false⟩) TMGI
/-- `InformationRequestType`, asn1/ranap/RANAP-IEs.asn:871 -/
def InformationRequestType : Ty := .choice true (.cons false MBMSIPMulticastAddressandAPNRequest (.cons false PermanentNAS_UE_ID .nil)) .nil
/-- `InformationTransferID`, asn1/ranap/RANAP-IEs.asn:877 -/
def InformationTransferID : Ty := .int ⟨0, 1048575, false⟩
/-- `TraceReference`, asn1/ranap/RANAP-IEs.asn:2035 -/
def TraceReference : Ty := .octets (some ⟨2, 3, false⟩)
/-- `RNCTraceInformation`, asn1/ranap/RANAP-IEs.asn:1680 -/
def RNCTraceInformation : Ty := .seq false (.cons false TraceReference (.cons false (.enum 2 2 false) (.cons true EquipmentsToBeTraced (.cons true IE_Extensions .nil))))
/-- `InformationTransferType`, asn1/ranap/RANAP-IEs.asn:879 -/
def InformationTransferType : Ty := .choice true (.cons false RNCTraceInformation .nil) .nil
/-- `IntegrityProtectionKey`, asn1/ranap/RANAP-IEs.asn:895 -/
def IntegrityProtectionKey : Ty := .bits (some ⟨128, 128, false⟩)
/-- `PermittedIntegrityProtectionAlgorithms`, asn1/ranap/RANAP-IEs.asn:1298 -/
def PermittedIntegrityProtectionAlgorithms : Ty := .seqOf (some ⟨1, 16, false⟩) IntegrityProtectionAlgorithm
/-- `IntegrityProtectionInformation`, asn1/ranap/RANAP-IEs.asn:889 -/
def IntegrityProtectionInformation : Ty := .seq false (.cons false PermittedIntegrityProtectionAlgorithms (.cons false IntegrityProtectionKey (.cons true IE_Extensions .nil)))
/-- `TargetRNC-ID`, asn1/ranap/RANAP-IEs.asn:1964 -/
def TargetRNC_ID : Ty := .seq false (.cons false LAI (.cons true RAC (.cons false RNC_ID (.cons true IE_Extensions .nil))))
/-- `TAC`, asn1/ranap/RANAP-IEs.asn:1928 -/
def TAC : Ty := .octets (some ⟨2, 2, false⟩)
/-- `TAI`, asn1/ranap/RANAP-IEs.asn:1930 -/
def TAI : Ty := .seq false (.cons false PLMNidentity (.cons false TAC (.cons true IE_Extensions .nil)))
/-- `TargetENB-ID`, asn1/ranap/RANAP-IEs.asn:1956 -/
def TargetENB_ID : Ty := .seq true (.cons false PLMNidentity (.cons false ENB_ID (.cons true IE_Extensions (.cons false TAI .nil))))
/-- `RIMRoutingAddress`, asn1/ranap/RANAP-IEs.asn:1667 -/
def RIMRoutingAddress : Ty := .choice true (.cons false TargetRNC_ID (.cons false GERAN_Cell_ID .nil)) (.cons false TargetENB_ID .nil)
/-- `RIMInformation`, asn1/ranap/RANAP-IEs.asn:1659 -/
def RIMInformation : Ty := .octets none
/-- `RIM-Transfer`, asn1/ranap/RANAP-IEs.asn:1661 -/
def RIM_Transfer : Ty := .seq false (.cons false RIMInformation (.cons true RIMRoutingAddress (.cons true IE_Extensions .nil)))
/-- `InterSystemInformationTransferType`, asn1/ranap/RANAP-IEs.asn:897 -/
def InterSystemInformationTransferType : Ty := .choice true (.cons false RIM_Transfer .nil) .nil
/-- `InterSystemInformation-TransparentContainer`, asn1/ranap/RANAP-IEs.asn:902 -/
def InterSystemInformation_TransparentContainer : Ty := .seq true (.cons true CellLoadInformation (.cons true CellLoadInformation (.cons true IE_Extensions .nil)))
/-- `IuSignallingConnectionIdentifier`, asn1/ranap/RANAP-IEs.asn:912 -/
def IuSignallingConnectionIdentifier : Ty := .bits (some ⟨24, 24, false⟩)
/-- `IuTransportAssociation`, asn1/ranap/RANAP-IEs.asn:914 -/
def IuTransportAssociation : Ty := .choice true (.cons false GTP_TEI (.cons false BindingID .nil)) .nil
/-- `KeyStatus`, asn1/ranap/RANAP-IEs.asn:923 -/
def KeyStatus : Ty := .enum 2 2 true
/-- `ListOF-SNAs`, asn1/ranap/RANAP-IEs.asn:966 -/
def ListOF_SNAs : Ty := .seqOf (some ⟨1, 65536, false⟩) SNAC
/-- `LA-LIST-Value`, asn1/ranap/RANAP-IEs.asn:931 -/
def LA_LIST_Value : Ty := .seq true (.cons false LAC (.cons false ListOF_SNAs (.cons true IE_Extensions .nil)))
/-- `LA-LIST`, asn1/ranap/RANAP-IEs.asn:930 -/
def LA_LIST : Ty := .seqOf (some ⟨1, 65536, false⟩) LA_LIST_Value
/-- `LastKnownServiceArea`, asn1/ranap/RANAP-IEs.asn:947 -/
def LastKnownServiceArea : Ty := .seq true (.cons false SAI (.cons false (.int ⟨0, 32767, false⟩) (.cons true IE_Extensions .nil)))
/-- `Time-UE-StayedInCell`, asn1/ranap/RANAP-IEs.asn:1987 -/
def Time_UE_StayedInCell : Ty := .int ⟨0, 4095, false⟩
/-- `UTRAN-CellID`, asn1/ranap/RANAP-IEs.asn:2148 -/
def UTRAN_CellID : Ty := .seq false (.cons false PLMNidentity (.cons false TargetCellId (.cons true IE_Extensions .nil)))
/-- `LastVisitedUTRANCell-Item`, asn1/ranap/RANAP-IEs.asn:954 -/
def LastVisitedUTRANCell_Item : Ty := .seq true (.cons false UTRAN_CellID (.cons false CellType (.cons false Time_UE_StayedInCell (.cons true IE_Extensions .nil))))
/-- `LHN-ID`, asn1/ranap/RANAP-IEs.asn:962 -/
def LHN_ID : Ty := .octets (some ⟨32, 256, false⟩)
/-- `Links-to-log`, asn1/ranap/RANAP-IEs.asn:964 -/
def Links_to_log : Ty := .enum 3 3 true
/-- `InterfacesToTraceItem`, asn1/ranap/RANAP-IEs.asn:970 -/
def InterfacesToTraceItem : Ty := .seq true (.cons false (.enum 5 5 true) (.cons true IE_Extensions .nil))
/-- `ListOfInterfacesToTrace`, asn1/ranap/RANAP-IEs.asn:968 -/
def ListOfInterfacesToTrace : Ty := .seqOf (some ⟨1, 16, false⟩) InterfacesToTraceItem
/-- `RequestedGPSAssistanceData`, asn1/ranap/RANAP-IEs.asn:1590 -/
def RequestedGPSAssistanceData : Ty := .octets (some ⟨1, 38, false⟩)
/-- `RequestedLocationRelatedDataType`, asn1/ranap/RANAP-IEs.asn:1596 -/
def RequestedLocationRelatedDataType : Ty := .enum 4 8 true
/-- `LocationRelatedDataRequestType`, asn1/ranap/RANAP-IEs.asn:978 -/
def LocationRelatedDataRequestType : Ty := .seq true (.cons false RequestedLocationRelatedDataType (.cons true RequestedGPSAssistanceData .nil))
/-- `LocationRelatedDataRequestTypeSpecificToGERANIuMode`, asn1/ranap/RANAP-IEs.asn:986 -/
def LocationRelatedDataRequestTypeSpecificToGERANIuMode : Ty := .enum 3 3 true
/-- `PeriodicLocationInfo`, asn1/ranap/RANAP-IEs.asn:1283 -/
def PeriodicLocationInfo : Ty := .seq true (.cons false (.int ⟨1, 8639999, true⟩) (.cons false (.int ⟨1, 8639999, true⟩) (.cons true IE_Extensions .nil)))
/-- `ResponseTime`, asn1/ranap/RANAP-IEs.asn:1653 -/
def ResponseTime : Ty := .enum 2 2 true
/-- `PositioningPriority`, asn1/ranap/RANAP-IEs.asn:1361 -/
def PositioningPriority : Ty := .enum 2 2 true
/-- `VerticalAccuracyCode`, asn1/ranap/RANAP-IEs.asn:2209 -/
def VerticalAccuracyCode : Ty := .int ⟨0, 127, false⟩
/-- `DirectReportingIndicator`, asn1/ranap/RANAP-IEs.asn:1020 -/
def DirectReportingIndicator : Ty := .enum 2 2 true
/-- `PeriodicReportingIndicator`, asn1/ranap/RANAP-IEs.asn:1014 -/
def PeriodicReportingIndicator : Ty := .enum 2 2 true
/-- `ReportChangeOfSAI`, asn1/ranap/RANAP-IEs.asn:1009 -/
def ReportChangeOfSAI : Ty := .enum 1 1 true
/-- `LocationReportingTransferInformation`, asn1/ranap/RANAP-IEs.asn:993 -/
def LocationReportingTransferInformation : Ty := .seq true (.cons true ReportChangeOfSAI (.cons true PeriodicReportingIndicator (.cons true DirectReportingIndicator (.cons true VerticalAccuracyCode (.cons true PositioningPriority (.cons true PositioningPriority (.cons true ClientType (.cons true ClientType (.cons true ResponseTime (.cons true IncludeVelocity (.cons true PeriodicLocationInfo (.cons true IE_Extensions .nil))))))))))))
/-- `L3-Information`, asn1/ranap/RANAP-IEs.asn:1026 -/
def L3_Information : Ty := .octets none
/-- `M4-Threshold`, asn1/ranap/RANAP-IEs.asn:1058 -/
def M4_Threshold : Ty := .int ⟨0, 31, false⟩
/-- `M4-Period`, asn1/ranap/RANAP-IEs.asn:1055 -/
def M4_Period : Ty := .enum 8 8 true
/-- `M4-Collection-Parameters`, asn1/ranap/RANAP-IEs.asn:1048 -/
def M4_Collection_Parameters : Ty := .seq true (.cons false M4_Period (.cons true M4_Threshold (.cons true IE_Extensions .nil)))
/-- `M4Report`, asn1/ranap/RANAP-IEs.asn:1042 -/
def M4Report : Ty := .choice true (.cons false .null (.cons false M4_Collection_Parameters .nil)) .nil
/-- `M5-Period`, asn1/ranap/RANAP-IEs.asn:1066 -/
def M5_Period : Ty := .enum 8 8 true
/-- `M5Report`, asn1/ranap/RANAP-IEs.asn:1061 -/
def M5Report : Ty := .choice true (.cons false .null (.cons false M5_Period .nil)) .nil
/-- `M6-Period`, asn1/ranap/RANAP-IEs.asn:1077 -/
def M6_Period : Ty := .enum 13 13 true
/-- `M6Report`, asn1/ranap/RANAP-IEs.asn:1070 -/
def M6Report : Ty := .seq true (.cons false M6_Period (.cons false Links_to_log (.cons true IE_Extensions .nil)))
/-- `M7-Period`, asn1/ranap/RANAP-IEs.asn:1086 -/
def M7_Period : Ty := .enum 13 13 true
/-- `M7Report`, asn1/ranap/RANAP-IEs.asn:1079 -/
def M7Report : Ty := .seq true (.cons false M7_Period (.cons false Links_to_log (.cons true IE_Extensions .nil)))
/-- `Management-Based-MDT-Allowed`, asn1/ranap/RANAP-IEs.asn:1088 -/
def Management_Based_MDT_Allowed : Ty := .enum 1 1 true
/-- `MaxSDU-Size`, asn1/ranap/RANAP-IEs.asn:1094 -/
def MaxSDU_Size : Ty := .int ⟨0, 32768, false⟩
/-- `MBMS-PTP-RAB-ID`, asn1/ranap/RANAP-IEs.asn:1098 -/
def MBMS_PTP_RAB_ID : Ty := .bits (some ⟨8, 8, false⟩)
/-- `MBMSBearerServiceType`, asn1/ranap/RANAP-IEs.asn:1100 -/
def MBMSBearerServiceType : Ty := .enum 2 2 true
/-- `MBMSCNDe-Registration`, asn1/ranap/RANAP-IEs.asn:1106 -/
def MBMSCNDe_Registration : Ty := .enum 2 2 true
/-- `MBMSCountingInformation`, asn1/ranap/RANAP-IEs.asn:1113 -/
def MBMSCountingInformation : Ty := .enum 2 2 true
/-- `MBMSHCIndicator`, asn1/ranap/RANAP-IEs.asn:1119 -/
def MBMSHCIndicator : Ty := .enum 2 2 true
/-- `MBMSLinkingInformation`, asn1/ranap/RANAP-IEs.asn:1128 -/
def MBMSLinkingInformation : Ty := .enum 1 1 true
/-- `MBMSRegistrationRequestType`, asn1/ranap/RANAP-IEs.asn:1133 -/
def MBMSRegistrationRequestType : Ty := .enum 2 2 true
/-- `MBMSServiceArea`, asn1/ranap/RANAP-IEs.asn:1139 -/
def MBMSServiceArea : Ty := .octets none
/-- `MBMSSessionDuration`, asn1/ranap/RANAP-IEs.asn:1141 -/
def MBMSSessionDuration : Ty := .octets (some ⟨3, 3, false⟩)
/-- `MBMSSessionIdentity`, asn1/ranap/RANAP-IEs.asn:1145 -/
def MBMSSessionIdentity : Ty := .octets (some ⟨1, 1, false⟩)
/-- `MBMSSessionRepetitionNumber`, asn1/ranap/RANAP-IEs.asn:1147 -/
def MBMSSessionRepetitionNumber : Ty := .octets (some ⟨1, 1, false⟩)
/-- `MDT-Activation`, asn1/ranap/RANAP-IEs.asn:1149 -/
def MDT_Activation : Ty := .enum 3 3 true
/-- `RAI`, asn1/ranap/RANAP-IEs.asn:1490 -/
def RAI : Ty := .seq true (.cons false LAI (.cons false RAC (.cons true IE_Extensions .nil)))
/-- `RAI-List`, asn1/ranap/RANAP-IEs.asn:1420 -/
def RAI_List : Ty := .seqOf (some ⟨1, 8, false⟩) RAI
/-- `RABased`, asn1/ranap/RANAP-IEs.asn:1414 -/
def RABased : Ty := .seq true (.cons false RAI_List (.cons true IE_Extensions .nil))
/-- `LAI-List`, asn1/ranap/RANAP-IEs.asn:1307 -/
def LAI_List : Ty := .seqOf (some ⟨1, 8, false⟩) LAI
/-- `LABased`, asn1/ranap/RANAP-IEs.asn:1301 -/
def LABased : Ty := .seq true (.cons false LAI_List (.cons true IE_Extensions .nil))
/-- `MDTAreaScope`, asn1/ranap/RANAP-IEs.asn:1156 -/
def MDTAreaScope : Ty := .choice true (.cons false CellBased (.cons false LABased (.cons false RABased (.cons false .null .nil)))) .nil
/-- `LoggingDuration`, asn1/ranap/RANAP-IEs.asn:1331 -/
def LoggingDuration : Ty := .enum 6 6 true
/-- `LoggingInterval`, asn1/ranap/RANAP-IEs.asn:1319 -/
def LoggingInterval : Ty := .enum 8 8 true
/-- `LoggedMDT`, asn1/ranap/RANAP-IEs.asn:1312 -/
def LoggedMDT : Ty := .seq true (.cons false LoggingInterval (.cons false LoggingDuration (.cons true IE_Extensions .nil)))
/-- `MDTMode`, asn1/ranap/RANAP-IEs.asn:1172 -/
def MDTMode : Ty := .choice true (.cons false ImmediateMDT (.cons false LoggedMDT .nil)) .nil
/-- `MDT-Configuration`, asn1/ranap/RANAP-IEs.asn:1164 -/
def MDT_Configuration : Ty := .seq true (.cons false MDT_Activation (.cons false MDTAreaScope (.cons false MDTMode (.cons true IE_Extensions .nil))))
/-- `MDT-PLMN-List`, asn1/ranap/RANAP-IEs.asn:1178 -/
def MDT_PLMN_List : Ty := .seqOf (some ⟨1, 16, false⟩) PLMNidentity
/-- `MSISDN`, asn1/ranap/RANAP-IEs.asn:1195 -/
def MSISDN : Ty := .octets (some ⟨1, 9, false⟩)
/-- `NAS-PDU`, asn1/ranap/RANAP-IEs.asn:1200 -/
def NAS_PDU : Ty := .octets none
/-- `NAS-SequenceNumber`, asn1/ranap/RANAP-IEs.asn:1202 -/
def NAS_SequenceNumber : Ty := .bits (some ⟨2, 2, false⟩)
/-- `NAS-SynchronisationIndicator`, asn1/ranap/RANAP-IEs.asn:1205 -/
def NAS_SynchronisationIndicator : Ty := .bits (some ⟨4, 4, false⟩)
/-- `NewBSS-To-OldBSS-Information`, asn1/ranap/RANAP-IEs.asn:1207 -/
def NewBSS_To_OldBSS_Information : Ty := .octets none
/-- `NonSearchingIndication`, asn1/ranap/RANAP-IEs.asn:1209 -/
def NonSearchingIndication : Ty := .enum 2 2 false
/-- `NumberOfIuInstances`, asn1/ranap/RANAP-IEs.asn:1216 -/
def NumberOfIuInstances : Ty := .int ⟨1, 2, false⟩
/-- `NumberOfSteps`, asn1/ranap/RANAP-IEs.asn:1218 -/
def NumberOfSteps : Ty := .int ⟨1, 16, false⟩
/-- `Offload-RAB-Parameters-ChargingCharacteristics`, asn1/ranap/RANAP-IEs.asn:1231 -/
def Offload_RAB_Parameters_ChargingCharacteristics : Ty := .octets (some ⟨2, 2, false⟩)
/-- `Offload-RAB-Parameters-APN`, asn1/ranap/RANAP-IEs.asn:1229 -/
def Offload_RAB_Parameters_APN : Ty := .octets (some ⟨1, 255, false⟩)
/-- `Offload-RAB-Parameters`, asn1/ranap/RANAP-IEs.asn:1222 -/
def Offload_RAB_Parameters : Ty := .seq true (.cons false Offload_RAB_Parameters_APN (.cons false Offload_RAB_Parameters_ChargingCharacteristics (.cons true IE_Extensions .nil)))
/-- `OldBSS-ToNewBSS-Information`, asn1/ranap/RANAP-IEs.asn:1233 -/
def OldBSS_ToNewBSS_Information : Ty := .octets none
/-- `OMC-ID`, asn1/ranap/RANAP-IEs.asn:1235 -/
def OMC_ID : Ty := .octets (some ⟨3, 22, false⟩)
/-- `Out-Of-UTRAN`, asn1/ranap/RANAP-IEs.asn:1238 -/
def Out_Of_UTRAN : Ty := .enum 1 1 true
/-- `PagingAreaID`, asn1/ranap/RANAP-IEs.asn:1245 -/
def PagingAreaID : Ty := .choice true (.cons false LAI (.cons false RAI .nil)) .nil
/-- `PagingCause`, asn1/ranap/RANAP-IEs.asn:1251 -/
def PagingCause : Ty := .enum 5 6 true
/-- `PDP-Type`, asn1/ranap/RANAP-IEs.asn:1264 -/
def PDP_Type : Ty := .enum 5 5 true
/-- `PDP-TypeInformation`, asn1/ranap/RANAP-IEs.asn:1261 -/
def PDP_TypeInformation : Ty := .seqOf (some ⟨1, 2, false⟩) PDP_Type
/-- `PDP-Type-extension`, asn1/ranap/RANAP-IEs.asn:1276 -/
def PDP_Type_extension : Ty := .enum 1 1 true
/-- `PDP-TypeInformation-extension`, asn1/ranap/RANAP-IEs.asn:1273 -/
def PDP_TypeInformation_extension : Ty := .seqOf (some ⟨1, 2, false⟩) PDP_Type_extension
/-- `PDUType14FrameSequenceNumber`, asn1/ranap/RANAP-IEs.asn:1281 -/
def PDUType14FrameSequenceNumber : Ty := .int ⟨0, 3, false⟩
/-- `PLMNs-in-shared-network-Value`, asn1/ranap/RANAP-IEs.asn:1345 -/
def PLMNs_in_shared_network_Value : Ty := .seq true (.cons false PLMNidentity (.cons false LA_LIST (.cons true IE_Extensions .nil)))
/-- `PLMNs-in-shared-network`, asn1/ranap/RANAP-IEs.asn:1344 -/
def PLMNs_in_shared_network : Ty := .seqOf (some ⟨1, 32, false⟩) PLMNs_in_shared_network_Value
/-- `Port-Number`, asn1/ranap/RANAP-IEs.asn:1353 -/
def Port_Number : Ty := .octets (some ⟨2, 2, false⟩)
/-- `PositioningDataDiscriminator`, asn1/ranap/RANAP-IEs.asn:1355 -/
def PositioningDataDiscriminator : Ty := .bits (some ⟨4, 4, false⟩)
/-- `PositioningMethodAndUsage`, asn1/ranap/RANAP-IEs.asn:1359 -/
def PositioningMethodAndUsage : Ty := .octets (some ⟨1, 1, false⟩)
/-- `PositioningDataSet`, asn1/ranap/RANAP-IEs.asn:1357 -/
def PositioningDataSet : Ty := .seqOf (some ⟨1, 9, false⟩) PositioningMethodAndUsage
/-- `PositionData`, asn1/ranap/RANAP-IEs.asn:1367 -/
def PositionData : Ty := .seq true (.cons false PositioningDataDiscriminator (.cons true PositioningDataSet (.cons true IE_Extensions .nil)))
/-- `PositionDataSpecificToGERANIuMode`, asn1/ranap/RANAP-IEs.asn:1375 -/
def PositionDataSpecificToGERANIuMode : Ty := .octets none
/-- `Priority-Class-Indicator`, asn1/ranap/RANAP-IEs.asn:1389 -/
def Priority_Class_Indicator : Ty := .bits (some ⟨8, 8, false⟩)
/-- `Shared-Network-Information`, asn1/ranap/RANAP-IEs.asn:1736 -/
def Shared_Network_Information : Ty := .seq true (.cons false PLMNs_in_shared_network (.cons true IE_Extensions .nil))
/-- `ProvidedData`, asn1/ranap/RANAP-IEs.asn:1391 -/
def ProvidedData : Ty := .choice true (.cons false Shared_Network_Information .nil) .nil
/-- `P-TMSI`, asn1/ranap/RANAP-IEs.asn:1396 -/
def P_TMSI : Ty := .octets (some ⟨4, 4, false⟩)
/-- `RAB-AsymmetryIndicator`, asn1/ranap/RANAP-IEs.asn:1406 -/
def RAB_AsymmetryIndicator : Ty := .enum 4 4 true
/-- `UnsuccessfullyTransmittedDataVolume`, asn1/ranap/RANAP-IEs.asn:2053 -/
def UnsuccessfullyTransmittedDataVolume : Ty := .int ⟨0, 4294967295, false⟩
/-- `RABDataVolumeReport-Value`, asn1/ranap/RANAP-IEs.asn:1424 -/
def RABDataVolumeReport_Value : Ty := .seq true (.cons false UnsuccessfullyTransmittedDataVolume (.cons true DataVolumeReference (.cons true IE_Extensions .nil)))
/-- `RABDataVolumeReport`, asn1/ranap/RANAP-IEs.asn:1423 -/
def RABDataVolumeReport : Ty := .seqOf (some ⟨1, 2, false⟩) RABDataVolumeReport_Value
/-- `RAB-ID`, asn1/ranap/RANAP-IEs.asn:1432 -/
def RAB_ID : Ty := .bits (some ⟨8, 8, false⟩)
/-- `RAB-Parameter-ExtendedGuaranteedBitrateList`, asn1/ranap/RANAP-IEs.asn:1434 -/
def RAB_Parameter_ExtendedGuaranteedBitrateList : Ty := .seqOf (some ⟨1, 2, false⟩) ExtendedGuaranteedBitrate
/-- `RAB-Parameter-ExtendedMaxBitrateList`, asn1/ranap/RANAP-IEs.asn:1436 -/
def RAB_Parameter_ExtendedMaxBitrateList : Ty := .seqOf (some ⟨1, 2, false⟩) ExtendedMaxBitrate
/-- `RAB-Parameter-GuaranteedBitrateList`, asn1/ranap/RANAP-IEs.asn:1439 -/
def RAB_Parameter_GuaranteedBitrateList : Ty := .seqOf (some ⟨1, 2, false⟩) GuaranteedBitrate
/-- `RAB-Parameter-MaxBitrateList`, asn1/ranap/RANAP-IEs.asn:1442 -/
def RAB_Parameter_MaxBitrateList : Ty := .seqOf (some ⟨1, 2, false⟩) MaxBitrate
/-- `RelocationRequirement`, asn1/ranap/RANAP-IEs.asn:1545 -/
def RelocationRequirement : Ty := .enum 2 3 true
/-- `SourceStatisticsDescriptor`, asn1/ranap/RANAP-IEs.asn:1876 -/
def SourceStatisticsDescriptor : Ty := .enum 2 2 true
/-- `TrafficHandlingPriority`, asn1/ranap/RANAP-IEs.asn:2048 -/
def TrafficHandlingPriority : Ty := .int ⟨0, 15, false⟩
/-- `TransferDelay`, asn1/ranap/RANAP-IEs.asn:2050 -/
def TransferDelay : Ty := .int ⟨0, 65535, false⟩
/-- `RAB-SubflowCombinationBitRate`, asn1/ranap/RANAP-IEs.asn:1476 -/
def RAB_SubflowCombinationBitRate : Ty := .int ⟨0, 16000000, false⟩
/-- `SubflowSDU-Size`, asn1/ranap/RANAP-IEs.asn:1923 -/
def SubflowSDU_Size : Ty := .int ⟨0, 4095, false⟩
/-- `SDU-FormatInformationParameterItem`, asn1/ranap/RANAP-IEs.asn:1757 -/
def SDU_FormatInformationParameterItem : Ty := .seq true (.cons true SubflowSDU_Size (.cons true RAB_SubflowCombinationBitRate (.cons true IE_Extensions .nil)))
/-- `SDU-FormatInformationParameters`, asn1/ranap/RANAP-IEs.asn:1756 -/
def SDU_FormatInformationParameters : Ty := .seqOf (some ⟨1, 64, false⟩) SDU_FormatInformationParameterItem
/-- `ResidualBitErrorRatio`, asn1/ranap/RANAP-IEs.asn:1646 -/
def ResidualBitErrorRatio : Ty := .seq false (.cons false (.int ⟨1, 9, false⟩) (.cons false (.int ⟨1, 8, false⟩) (.cons true IE_Extensions .nil)))
/-- `SDU-ErrorRatio`, asn1/ranap/RANAP-IEs.asn:1749 -/
def SDU_ErrorRatio : Ty := .seq false (.cons false (.int ⟨1, 9, false⟩) (.cons false (.int ⟨1, 6, false⟩) (.cons true IE_Extensions .nil)))
/-- `SDU-ParameterItem`, asn1/ranap/RANAP-IEs.asn:1766 -/
def SDU_ParameterItem : Ty := .seq true (.cons true SDU_ErrorRatio (.cons false ResidualBitErrorRatio (.cons false DeliveryOfErroneousSDU (.cons true SDU_FormatInformationParameters (.cons true IE_Extensions .nil)))))
/-- `SDU-Parameters`, asn1/ranap/RANAP-IEs.asn:1765 -/
def SDU_Parameters : Ty := .seqOf (some ⟨1, 7, false⟩) SDU_ParameterItem
/-- `TrafficClass`, asn1/ranap/RANAP-IEs.asn:2040 -/
def TrafficClass : Ty := .enum 4 4 true
/-- `RAB-Parameters`, asn1/ranap/RANAP-IEs.asn:1445 -/
def RAB_Parameters : Ty := .seq true (.cons false TrafficClass (.cons false RAB_AsymmetryIndicator (.cons false RAB_Parameter_MaxBitrateList (.cons true RAB_Parameter_GuaranteedBitrateList (.cons false DeliveryOrder (.cons false MaxSDU_Size (.cons false SDU_Parameters (.cons true TransferDelay (.cons true TrafficHandlingPriority (.cons true AllocationOrRetentionPriority (.cons true SourceStatisticsDescriptor (.cons true RelocationRequirement (.cons true IE_Extensions .nil)))))))))))))
/-- `UPInitialisationFrame`, asn1/ranap/RANAP-IEs.asn:2136 -/
def UPInitialisationFrame : Ty := .octets none
/-- `UPInformation`, asn1/ranap/RANAP-IEs.asn:2125 -/
def UPInformation : Ty := .seq true (.cons false FrameSequenceNumber (.cons false FrameSequenceNumber (.cons false PDUType14FrameSequenceNumber (.cons false PDUType14FrameSequenceNumber (.cons false DataPDUType (.cons false UPInitialisationFrame (.cons true IE_Extensions .nil)))))))
/-- `RABParametersList-Value`, asn1/ranap/RANAP-IEs.asn:1467 -/
def RABParametersList_Value : Ty := .seq true (.cons false RAB_ID (.cons false CN_DomainIndicator (.cons true RABDataVolumeReport (.cons true UPInformation (.cons true IE_Extensions .nil)))))
/-- `RABParametersList`, asn1/ranap/RANAP-IEs.asn:1466 -/
def RABParametersList : Ty := .seqOf (some ⟨1, 256, false⟩) RABParametersList_Value
/-- `USCH-ID`, asn1/ranap/RANAP-IEs.asn:2140 -/
def USCH_ID : Ty := .int ⟨0, 255, false⟩
/-- `TrCH-ID`, asn1/ranap/RANAP-IEs.asn:2057 -/
def TrCH_ID : Ty := .seq true (.cons true DCH_ID (.cons true DSCH_ID (.cons true USCH_ID (.cons true IE_Extensions .nil))))
/-- `TrCH-ID-List`, asn1/ranap/RANAP-IEs.asn:2065 -/
def TrCH_ID_List : Ty := .seqOf (some ⟨1, 7, false⟩) TrCH_ID
/-- `RAB-TrCH-MappingItem`, asn1/ranap/RANAP-IEs.asn:1481 -/
def RAB_TrCH_MappingItem : Ty := .seq true (.cons false RAB_ID (.cons false TrCH_ID_List (.cons true IE_Extensions .nil)))
/-- `RAB-TrCH-Mapping`, asn1/ranap/RANAP-IEs.asn:1478 -/
def RAB_TrCH_Mapping : Ty := .seqOf (some ⟨1, 256, false⟩) RAB_TrCH_MappingItem
/-- `RAofIdleModeUEs`, asn1/ranap/RANAP-IEs.asn:1508 -/
def RAofIdleModeUEs : Ty := .seqOf (some ⟨1, 65536, false⟩) RAC
/-- `NotEmptyRAListofIdleModeUEs`, asn1/ranap/RANAP-IEs.asn:1503 -/
def NotEmptyRAListofIdleModeUEs : Ty := .seq false (.cons false RAofIdleModeUEs (.cons true IE_Extensions .nil))
/-- `RAListofIdleModeUEs`, asn1/ranap/RANAP-IEs.asn:1497 -/
def RAListofIdleModeUEs : Ty := .choice true (.cons false NotEmptyRAListofIdleModeUEs (.cons false (.enum 2 2 true) .nil)) .nil
/-- `LAListofIdleModeUEs`, asn1/ranap/RANAP-IEs.asn:1511 -/
def LAListofIdleModeUEs : Ty := .seqOf (some ⟨1, 65536, false⟩) LAI
/-- `RAT-Type`, asn1/ranap/RANAP-IEs.asn:1514 -/
def RAT_Type : Ty := .enum 2 2 true
/-- `RateControlAllowed`, asn1/ranap/RANAP-IEs.asn:1520 -/
def RateControlAllowed : Ty := .enum 2 2 false
/-- `RedirectAttemptFlag`, asn1/ranap/RANAP-IEs.asn:1525 -/
def RedirectAttemptFlag : Ty := .null
/-- `RedirectionCompleted`, asn1/ranap/RANAP-IEs.asn:1527 -/
def RedirectionCompleted : Ty := .enum 1 1 true
/-- `RejectCauseValue`, asn1/ranap/RANAP-IEs.asn:1532 -/
def RejectCauseValue : Ty := .enum 6 8 true
/-- `RelocationType`, asn1/ranap/RANAP-IEs.asn:1552 -/
def RelocationType : Ty := .enum 2 2 true
/-- `ReportArea`, asn1/ranap/RANAP-IEs.asn:1563 -/
def ReportArea : Ty := .enum 2 2 true
/-- `RequestedGANSSAssistanceData`, asn1/ranap/RANAP-IEs.asn:1593 -/
def RequestedGANSSAssistanceData : Ty := .octets (some ⟨1, 201, false⟩)
/-- `Requested-RAB-Parameter-GuaranteedBitrateList`, asn1/ranap/RANAP-IEs.asn:1636 -/
def Requested_RAB_Parameter_GuaranteedBitrateList : Ty := .seqOf (some ⟨1, 2, false⟩) GuaranteedBitrate
/-- `Requested-RAB-Parameter-MaxBitrateList`, asn1/ranap/RANAP-IEs.asn:1634 -/
def Requested_RAB_Parameter_MaxBitrateList : Ty := .seqOf (some ⟨1, 2, false⟩) MaxBitrate
/-- `Requested-RAB-Parameter-Values`, asn1/ranap/RANAP-IEs.asn:1623 -/
def Requested_RAB_Parameter_Values : Ty := .seq true (.cons true Requested_RAB_Parameter_MaxBitrateList (.cons true Requested_RAB_Parameter_GuaranteedBitrateList (.cons true IE_Extensions .nil)))
/-- `Requested-RAB-Parameter-ExtendedMaxBitrateList`, asn1/ranap/RANAP-IEs.asn:1630 -/
def Requested_RAB_Parameter_ExtendedMaxBitrateList : Ty := .seqOf (some ⟨1, 2, false⟩) ExtendedMaxBitrate
/-- `Requested-RAB-Parameter-ExtendedGuaranteedBitrateList`, asn1/ranap/RANAP-IEs.asn:1632 -/
def Requested_RAB_Parameter_ExtendedGuaranteedBitrateList : Ty := .seqOf (some ⟨1, 2, false⟩) ExtendedGuaranteedBitrate
/-- `RequestType`, asn1/ranap/RANAP-IEs.asn:1639 -/
def RequestType : Ty := .seq true (.cons false Event (.cons false ReportArea (.cons true (.int ⟨0, 127, false⟩) .nil)))
/-- `TraceDepth`, asn1/ranap/RANAP-IEs.asn:2003 -/
def TraceDepth : Ty := .enum 3 3 true
/-- `TraceRecordingSessionReference`, asn1/ranap/RANAP-IEs.asn:2033 -/
def TraceRecordingSessionReference : Ty := .int ⟨0, 65535, false⟩
/-- `TracePropagationParameters`, asn1/ranap/RANAP-IEs.asn:2018 -/
def TracePropagationParameters : Ty := .seq true (.cons false TraceRecordingSessionReference (.cons false TraceDepth (.cons true ListOfInterfacesToTrace (.cons true IE_Extensions .nil))))
/-- `UE-ID`, asn1/ranap/RANAP-IEs.asn:2101 -/
def UE_ID : Ty := .choice true (.cons false IMSI (.cons false IMEI .nil)) (.cons false IMEISV .nil)
/-- `TraceInformation`, asn1/ranap/RANAP-IEs.asn:2010 -/
def TraceInformation : Ty := .seq true (.cons false TraceReference (.cons false UE_ID (.cons true TracePropagationParameters (.cons true IE_Extensions .nil))))
/-- `RNSAPRelocationParameters`, asn1/ranap/RANAP-IEs.asn:1688 -/
def RNSAPRelocationParameters : Ty := .seq true (.cons true RABParametersList (.cons true LocationReportingTransferInformation (.cons true TraceInformation (.cons true SAI (.cons true IE_Extensions .nil)))))
/-- `RRC-Container`, asn1/ranap/RANAP-IEs.asn:1697 -/
def RRC_Container : Ty := .octets none
/-- `RSRVCC-HO-Indication`, asn1/ranap/RANAP-IEs.asn:1701 -/
def RSRVCC_HO_Indication : Ty := .enum 1 1 true
/-- `RSRVCC-Information`, asn1/ranap/RANAP-IEs.asn:1706 -/
def RSRVCC_Information : Ty := .seq true (.cons false (.bits (some ⟨128, 128, false⟩)) (.cons false (.octets (some ⟨1, 32, false⟩)) (.cons true IE_Extensions .nil)))
/-- `RSRVCC-Operation-Possible`, asn1/ranap/RANAP-IEs.asn:1714 -/
def RSRVCC_Operation_Possible : Ty := .enum 1 1 true
/-- `SAPI`, asn1/ranap/RANAP-IEs.asn:1729 -/
def SAPI : Ty := .enum 2 2 true
/-- `SessionUpdateID`, asn1/ranap/RANAP-IEs.asn:1735 -/
def SessionUpdateID : Ty := .int ⟨0, 1048575, false⟩
/-- `Session-Re-establishment-Indicator`, asn1/ranap/RANAP-IEs.asn:1742 -/
def Session_Re_establishment_Indicator : Ty := .enum 1 1 true
/-- `SignallingIndication`, asn1/ranap/RANAP-IEs.asn:1744 -/
def SignallingIndication : Ty := .enum 1 1 true
/-- `SNA-Access-Information`, asn1/ranap/RANAP-IEs.asn:1777 -/
def SNA_Access_Information : Ty := .seq true (.cons false AuthorisedPLMNs (.cons true IE_Extensions .nil))
/-- `Service-Handover`, asn1/ranap/RANAP-IEs.asn:1785 -/
def Service_Handover : Ty := .enum 3 3 true
/-- `Source-ToTarget-TransparentContainer`, asn1/ranap/RANAP-IEs.asn:1792 -/
def Source_ToTarget_TransparentContainer : Ty := .octets none
/-- `SourceeNodeB-ToTargeteNodeB-TransparentContainer`, asn1/ranap/RANAP-IEs.asn:1798 -/
def SourceeNodeB_ToTargeteNodeB_TransparentContainer : Ty := .octets none
/-- `SourceBSS-ToTargetBSS-TransparentContainer`, asn1/ranap/RANAP-IEs.asn:1807 -/
def SourceBSS_ToTargetBSS_TransparentContainer : Ty := .octets none
/-- `SourceRNC-ID`, asn1/ranap/RANAP-IEs.asn:1816 -/
def SourceRNC_ID : Ty := .seq false (.cons false PLMNidentity (.cons false RNC_ID (.cons true IE_Extensions .nil)))
/-- `SourceID`, asn1/ranap/RANAP-IEs.asn:1809 -/
def SourceID : Ty := .choice true (.cons false SourceRNC_ID (.cons false SAI .nil)) .nil
/-- `SourceRNC-ToTargetRNC-TransparentContainer`, asn1/ranap/RANAP-IEs.asn:1822 -/
def SourceRNC_ToTargetRNC_TransparentContainer : Ty := .seq true (.cons false RRC_Container (.cons false NumberOfIuInstances (.cons false RelocationType (.cons true ChosenIntegrityProtectionAlgorithm (.cons true IntegrityProtectionKey (.cons true ChosenEncryptionAlgorithm (.cons true EncryptionKey (.cons true ChosenEncryptionAlgorithm (.cons true ChosenEncryptionAlgorithm (.cons true D_RNTI (.cons true TargetCellId (.cons true RAB_TrCH_Mapping (.cons true IE_Extensions .nil)))))))))))))
/-- `MeasBand`, asn1/ranap/RANAP-IEs.asn:1865 -/
def MeasBand : Ty := .enum 6 6 false
/-- `EUTRANFrequencies-Value`, asn1/ranap/RANAP-IEs.asn:1860 -/
def EUTRANFrequencies_Value : Ty := .seq false (.cons false (.int ⟨0, 65535, false⟩) (.cons true MeasBand (.cons true IE_Extensions .nil)))
/-- `EUTRANFrequencies`, asn1/ranap/RANAP-IEs.asn:1859 -/
def EUTRANFrequencies : Ty := .seqOf (some ⟨1, 8, false⟩) EUTRANFrequencies_Value
/-- `IRATmeasurementParameters`, asn1/ranap/RANAP-IEs.asn:1847 -/
def IRATmeasurementParameters : Ty := .seq false (.cons false (.int ⟨1, 100, false⟩) (.cons true EUTRANFrequencies (.cons true IE_Extensions .nil)))
/-- `IRAT-Measurement-Configuration`, asn1/ranap/RANAP-IEs.asn:1841 -/
def IRAT_Measurement_Configuration : Ty := .seq false (.cons true (.int ⟨0, 97, false⟩) (.cons true (.int ⟨0, 34, false⟩) (.cons false IRATmeasurementParameters (.cons true IE_Extensions .nil))))
/-- `RSRQ-Type`, asn1/ranap/RANAP-IEs.asn:1852 -/
def RSRQ_Type : Ty := .seq false (.cons false .bool (.cons false .bool .nil))
/-- `RSRQ-Extension`, asn1/ranap/RANAP-IEs.asn:1857 -/
def RSRQ_Extension : Ty := .int ⟨-30, 46, true⟩
/-- `SubscriberProfileIDforRFP`, asn1/ranap/RANAP-IEs.asn:1874 -/
def SubscriberProfileIDforRFP : Ty := .int ⟨1, 256, false⟩
/-- `SRB-ID`, asn1/ranap/RANAP-IEs.asn:1893 -/
def SRB_ID : Ty := .int ⟨1, 32, false⟩
/-- `SRB-TrCH-MappingItem`, asn1/ranap/RANAP-IEs.asn:1898 -/
def SRB_TrCH_MappingItem : Ty := .seq true (.cons false SRB_ID (.cons false TrCH_ID (.cons true IE_Extensions .nil)))
/-- `SRB-TrCH-Mapping`, asn1/ranap/RANAP-IEs.asn:1895 -/
def SRB_TrCH_Mapping : Ty := .seqOf (some ⟨1, 8, false⟩) SRB_TrCH_MappingItem
/-- `SRVCC-HO-Indication`, asn1/ranap/RANAP-IEs.asn:1906 -/
def SRVCC_HO_Indication : Ty := .enum 2 2 true
/-- `SRVCC-Information`, asn1/ranap/RANAP-IEs.asn:1912 -/
def SRVCC_Information : Ty := .seq true (.cons false (.bits (some ⟨128, 128, false⟩)) (.cons true IE_Extensions .nil))
/-- `SRVCC-Operation-Possible`, asn1/ranap/RANAP-IEs.asn:1918 -/
def SRVCC_Operation_Possible : Ty := .enum 1 1 true
/-- `Target-ToSource-TransparentContainer`, asn1/ranap/RANAP-IEs.asn:1936 -/
def Target_ToSource_TransparentContainer : Ty := .octets none
/-- `TargeteNodeB-ToSourceeNodeB-TransparentContainer`, asn1/ranap/RANAP-IEs.asn:1942 -/
def TargeteNodeB_ToSourceeNodeB_TransparentContainer : Ty := .octets none
/-- `TargetBSS-ToSourceBSS-TransparentContainer`, asn1/ranap/RANAP-IEs.asn:1944 -/
def TargetBSS_ToSourceBSS_TransparentContainer : Ty := .octets none
/-- `TargetID`, asn1/ranap/RANAP-IEs.asn:1948 -/
def TargetID : Ty := .choice true (.cons false TargetRNC_ID (.cons false CGI .nil)) (.cons false TargetENB_ID .nil)
/-- `TargetRNC-ToSourceRNC-TransparentContainer`, asn1/ranap/RANAP-IEs.asn:1971 -/
def TargetRNC_ToSourceRNC_TransparentContainer : Ty := .seq true (.cons false RRC_Container (.cons true D_RNTI (.cons true IE_Extensions .nil)))
/-- `TBCD-STRING`, asn1/ranap/RANAP-IEs.asn:1979 -/
def TBCD_STRING : Ty := .octets none
/-- `TMSI`, asn1/ranap/RANAP-IEs.asn:2001 -/
def TMSI : Ty := .octets (some ⟨4, 4, false⟩)
/-- `TemporaryUE-ID`, asn1/ranap/RANAP-IEs.asn:1981 -/
def TemporaryUE_ID : Ty := .choice true (.cons false TMSI (.cons false P_TMSI .nil)) .nil
/-- `Time-UE-StayedInCell-EnhancedGranularity`, asn1/ranap/RANAP-IEs.asn:1989 -/
def Time_UE_StayedInCell_EnhancedGranularity : Ty := .int ⟨0, 40950, false⟩
/-- `TimeToMBMSDataTransfer`, asn1/ranap/RANAP-IEs.asn:1991 -/
def TimeToMBMSDataTransfer : Ty := .octets (some ⟨1, 1, false⟩)
/-- `TimingDifferenceULDL`, asn1/ranap/RANAP-IEs.asn:1993 -/
def TimingDifferenceULDL : Ty := .octets (some ⟨1, 1, false⟩)
/-- `TraceRecordingSessionInformation`, asn1/ranap/RANAP-IEs.asn:2026 -/
def TraceRecordingSessionInformation : Ty := .seq true (.cons false TraceReference (.cons false TraceRecordingSessionReference (.cons true IE_Extensions .nil)))
/-- `TraceType`, asn1/ranap/RANAP-IEs.asn:2037 -/
def TraceType : Ty := .octets (some ⟨1, 1, false⟩)
/-- `TransportLayerAddress`, asn1/ranap/RANAP-IEs.asn:2055 -/
def TransportLayerAddress : Ty := .bits (some ⟨1, 160, true⟩)
/-- `TriggerID`, asn1/ranap/RANAP-IEs.asn:2068 -/
def TriggerID : Ty := .octets (some ⟨3, 22, false⟩)
/-- `TunnelInformation`, asn1/ranap/RANAP-IEs.asn:2070 -/
def TunnelInformation : Ty := .seq true (.cons false TransportLayerAddress (.cons true Port_Number (.cons true IE_Extensions .nil)))
/-- `TypeOfError`, asn1/ranap/RANAP-IEs.asn:2077 -/
def TypeOfError : Ty := .enum 2 2 true
/-- `UE-AggregateMaximumBitRateUplink`, asn1/ranap/RANAP-IEs.asn:2095 -/
def UE_AggregateMaximumBitRateUplink : Ty := .int ⟨1, 1000000000, false⟩
/-- `UE-AggregateMaximumBitRateDownlink`, asn1/ranap/RANAP-IEs.asn:2092 -/
def UE_AggregateMaximumBitRateDownlink : Ty := .int ⟨1, 1000000000, false⟩
/-- `UE-AggregateMaximumBitRate`, asn1/ranap/RANAP-IEs.asn:2086 -/
def UE_AggregateMaximumBitRate : Ty := .seq true (.cons true UE_AggregateMaximumBitRateDownlink (.cons true UE_AggregateMaximumBitRateUplink .nil))
/-- `UE-History-Information`, asn1/ranap/RANAP-IEs.asn:2099 -/
def UE_History_Information : Ty := .octets none
/-- `UESBI-IuB`, asn1/ranap/RANAP-IEs.asn:2118 -/
def UESBI_IuB : Ty := .bits (some ⟨1, 128, false⟩)
/-- `UESBI-IuA`, asn1/ranap/RANAP-IEs.asn:2116 -/
def UESBI_IuA : Ty := .bits (some ⟨1, 128, false⟩)
/-- `UESBI-Iu`, asn1/ranap/RANAP-IEs.asn:2109 -/
def UESBI_Iu : Ty := .seq true (.cons true UESBI_IuA (.cons true UESBI_IuB (.cons true IE_Extensions .nil)))
/-- `UL-GTP-PDU-SequenceNumber`, asn1/ranap/RANAP-IEs.asn:2121 -/
def UL_GTP_PDU_SequenceNumber : Ty := .int ⟨0, 65535, false⟩
/-- `UL-N-PDU-SequenceNumber`, asn1/ranap/RANAP-IEs.asn:2123 -/
def UL_N_PDU_SequenceNumber : Ty := .int ⟨0, 65535, false⟩
/-- `UP-ModeVersions`, asn1/ranap/RANAP-IEs.asn:2138 -/
def UP_ModeVersions : Ty := .bits (some ⟨16, 16, false⟩)
/-- `UserPlaneMode`, asn1/ranap/RANAP-IEs.asn:2142 -/
def UserPlaneMode : Ty := .enum 2 2 true
/-- `VerticalSpeedDirection`, asn1/ranap/RANAP-IEs.asn:2204 -/
def VerticalSpeedDirection : Ty := .enum 2 2 false
/-- `VerticalVelocity`, asn1/ranap/RANAP-IEs.asn:2199 -/
def VerticalVelocity : Ty := .seq false (.cons false (.int ⟨0, 255, false⟩) (.cons false VerticalSpeedDirection .nil))
/-- `HorizontalSpeedAndBearing`, asn1/ranap/RANAP-IEs.asn:2194 -/
def HorizontalSpeedAndBearing : Ty := .seq false (.cons false (.int ⟨0, 359, false⟩) (.cons false (.int ⟨0, 2047, false⟩) .nil))
/-- `HorizontalWithVerticalVelocityAndUncertainty`, asn1/ranap/RANAP-IEs.asn:2185 -/
def HorizontalWithVerticalVelocityAndUncertainty : Ty := .seq true (.cons false HorizontalSpeedAndBearing (.cons false VerticalVelocity (.cons false (.int ⟨0, 255, false⟩) (.cons false (.int ⟨0, 255, false⟩) (.cons true IE_Extensions .nil)))))
/-- `HorizontalVelocityWithUncertainty`, asn1/ranap/RANAP-IEs.asn:2178 -/
def HorizontalVelocityWithUncertainty : Ty := .seq true (.cons false HorizontalSpeedAndBearing (.cons false (.int ⟨0, 255, false⟩) (.cons true IE_Extensions .nil)))
/-- `HorizontalWithVerticalVelocity`, asn1/ranap/RANAP-IEs.asn:2171 -/
def HorizontalWithVerticalVelocity : Ty := .seq true (.cons false HorizontalSpeedAndBearing (.cons false VerticalVelocity (.cons true IE_Extensions .nil)))
/-- `HorizontalVelocity`, asn1/ranap/RANAP-IEs.asn:2165 -/
def HorizontalVelocity : Ty := .seq true (.cons false HorizontalSpeedAndBearing (.cons true IE_Extensions .nil))
/-- `VelocityEstimate`, asn1/ranap/RANAP-IEs.asn:2157 -/
def VelocityEstimate : Ty := .choice true (.cons false HorizontalVelocity (.cons false HorizontalWithVerticalVelocity (.cons false HorizontalVelocityWithUncertainty (.cons false HorizontalWithVerticalVelocityAndUncertainty .nil)))) .nil
/-- `VoiceSupportMatchIndicator`, asn1/ranap/RANAP-IEs.asn:2211 -/
def VoiceSupportMatchIndicator : Ty := .enum 2 2 true
/-- `Iu-ReleaseCommand`, asn1/ranap/RANAP-PDU-Contents.asn:446 -/
def Iu_ReleaseCommand : Ty := .seq true (.cons false (.seqOf (some ⟨0, 65535, false⟩) (.seq false (.cons false ProtocolIE_ID (.cons false Criticality (.cons false .any .nil))))) (.cons true (.seqOf (some ⟨1, 65535, false⟩) (.seq false (.cons false ProtocolExtensionID (.cons false Criticality (.cons false .any .nil))))) .nil))
/-- `Iu-ReleaseComplete`, asn1/ranap/RANAP-PDU-Contents.asn:470 -/
def Iu_ReleaseComplete : Ty := .seq true (.cons false (.seqOf (some ⟨0, 65535, false⟩) (.seq false (.cons false ProtocolIE_ID (.cons false Criticality (.cons false .any .nil))))) (.cons true (.seqOf (some ⟨1, 65535, false⟩) (.seq false (.cons false ProtocolExtensionID (.cons false Criticality (.cons false .any .nil))))) .nil))
/-- `RAB-DataVolumeReportList`, asn1/ranap/RANAP-PDU-Contents.asn:483 -/
def RAB_DataVolumeReportList : Ty := .seqOf (some ⟨1, 256, false⟩) (.seqOf (some ⟨0, 65535, false⟩) (.seq false (.cons false ProtocolIE_ID (.cons false Criticality (.cons false .any .nil)))))
/-- `DataVolumeList-Value`, asn1/ranap/RANAP-PDU-Contents.asn:2306 -/
def DataVolumeList_Value : Ty := .seq true (.cons false UnsuccessfullyTransmittedDataVolume (.cons true DataVolumeReference (.cons true (.seqOf (some ⟨1, 65535, false⟩) (.seq false (.cons false ProtocolExtensionID (.cons false Criticality (.cons false .any .nil))))) .nil)))
/-- `DataVolumeList`, asn1/ranap/RANAP-PDU-Contents.asn:2305 -/
def DataVolumeList : Ty := .seqOf (some ⟨1, 2, false⟩) DataVolumeList_Value
/-- `RAB-DataVolumeReportItem`, asn1/ranap/RANAP-PDU-Contents.asn:490 -/
def RAB_DataVolumeReportItem : Ty := .seq true (.cons false RAB_ID (.cons true DataVolumeList (.cons true (.seqOf (some ⟨1, 65535, false⟩) (.seq false (.cons false ProtocolExtensionID (.cons false Criticality (.cons false .any .nil))))) .nil)))
/-- `RAB-ReleasedList-IuRelComp`, asn1/ranap/RANAP-PDU-Contents.asn:502 -/
def RAB_ReleasedList_IuRelComp : Ty := .seqOf (some ⟨1, 256, false⟩) (.seqOf (some ⟨0, 65535, false⟩) (.seq false (.cons false ProtocolIE_ID (.cons false Criticality (.cons false .any .nil)))))
/-- `RAB-ReleasedItem-IuRelComp`, asn1/ranap/RANAP-PDU-Contents.asn:509 -/
def RAB_ReleasedItem_IuRelComp : Ty := .seq true (.cons false RAB_ID (.cons true DL_GTP_PDU_SequenceNumber (.cons true UL_GTP_PDU_SequenceNumber (.cons true (.seqOf (some ⟨1, 65535, false⟩) (.seq false (.cons false ProtocolExtensionID (.cons false Criticality (.cons false .any .nil))))) .nil))))
/-- `RelocationRequired`, asn1/ranap/RANAP-PDU-Contents.asn:538 -/
def RelocationRequired : Ty := .seq true (.cons false (.seqOf (some ⟨0, 65535, false⟩) (.seq false (.cons false ProtocolIE_ID (.cons false Criticality (.cons false .any .nil))))) (.cons true (.seqOf (some ⟨1, 65535, false⟩) (.seq false (.cons false ProtocolExtensionID (.cons false Criticality (.cons false .any .nil))))) .nil))
/-- `RelocationCommand`, asn1/ranap/RANAP-PDU-Contents.asn:581 -/
def RelocationCommand : Ty := .seq true (.cons false (.seqOf (some ⟨0, 65535, false⟩) (.seq false (.cons false ProtocolIE_ID (.cons false Criticality (.cons false .any .nil))))) (.cons true (.seqOf (some ⟨1, 65535, false⟩) (.seq false (.cons false ProtocolExtensionID (.cons false Criticality (.cons false .any .nil))))) .nil))
/-- `RAB-RelocationReleaseList`, asn1/ranap/RANAP-PDU-Contents.asn:597 -/
def RAB_RelocationReleaseList : Ty := .seqOf (some ⟨1, 256, false⟩) (.seqOf (some ⟨0, 65535, false⟩) (.seq false (.cons false ProtocolIE_ID (.cons false Criticality (.cons false .any .nil)))))
/-- `RAB-RelocationReleaseItem`, asn1/ranap/RANAP-PDU-Contents.asn:604 -/
def RAB_RelocationReleaseItem : Ty := .seq true (.cons false RAB_ID (.cons true (.seqOf (some ⟨1, 65535, false⟩) (.seq false (.cons false ProtocolExtensionID (.cons false Criticality (.cons false .any .nil))))) .nil))
/-- `RAB-DataForwardingList`, asn1/ranap/RANAP-PDU-Contents.asn:614 -/
def RAB_DataForwardingList : Ty := .seqOf (some ⟨1, 256, false⟩) (.seqOf (some ⟨0, 65535, false⟩) (.seq false (.cons false ProtocolIE_ID (.cons false Criticality (.cons false .any .nil)))))
/-- `RAB-DataForwardingItem`, asn1/ranap/RANAP-PDU-Contents.asn:621 -/
def RAB_DataForwardingItem : Ty := .seq true (.cons false RAB_ID (.cons false TransportLayerAddress (.cons false IuTransportAssociation (.cons true (.seqOf (some ⟨1, 65535, false⟩) (.seq false (.cons false ProtocolExtensionID (.cons false Criticality (.cons false .any .nil))))) .nil))))
/-- `RelocationPreparationFailure`, asn1/ranap/RANAP-PDU-Contents.asn:654 -/
def RelocationPreparationFailure : Ty := .seq true (.cons false (.seqOf (some ⟨0, 65535, false⟩) (.seq false (.cons false ProtocolIE_ID (.cons false Criticality (.cons false .any .nil))))) (.cons true (.seqOf (some ⟨1, 65535, false⟩) (.seq false (.cons false ProtocolExtensionID (.cons false Criticality (.cons false .any .nil))))) .nil))
/-- `RelocationRequest`, asn1/ranap/RANAP-PDU-Contents.asn:684 -/
def RelocationRequest : Ty := .seq true (.cons false (.seqOf (some ⟨0, 65535, false⟩) (.seq false (.cons false ProtocolIE_ID (.cons false Criticality (.cons false .any .nil))))) (.cons true (.seqOf (some ⟨1, 65535, false⟩) (.seq false (.cons false ProtocolExtensionID (.cons false Criticality (.cons false .any .nil))))) .nil))
/-- `RAB-SetupList-RelocReq`, asn1/ranap/RANAP-PDU-Contents.asn:702 -/
def RAB_SetupList_RelocReq : Ty := .seqOf (some ⟨1, 256, false⟩) (.seqOf (some ⟨0, 65535, false⟩) (.seq false (.cons false ProtocolIE_ID (.cons false Criticality (.cons false .any .nil)))))
/-- `UserPlaneInformation`, asn1/ranap/RANAP-PDU-Contents.asn:739 -/
def UserPlaneInformation : Ty := .seq true (.cons false UserPlaneMode (.cons false UP_ModeVersions (.cons true (.seqOf (some ⟨1, 65535, false⟩) (.seq false (.cons false ProtocolExtensionID (.cons false Criticality (.cons false .any .nil))))) .nil)))
/-- `RAB-SetupItem-RelocReq`, asn1/ranap/RANAP-PDU-Contents.asn:709 -/
def RAB_SetupItem_RelocReq : Ty := .seq true (.cons false RAB_ID (.cons true NAS_SynchronisationIndicator (.cons false RAB_Parameters (.cons true DataVolumeReportingIndication (.cons true PDP_TypeInformation (.cons false UserPlaneInformation (.cons false TransportLayerAddress (.cons false IuTransportAssociation (.cons true Service_Handover (.cons true (.seqOf (some ⟨1, 65535, false⟩) (.seq false (.cons false ProtocolExtensionID (.cons false Criticality (.cons false .any .nil))))) .nil))))))))))
/-- `JoinedMBMSBearerService-IEs-Value`, asn1/ranap/RANAP-PDU-Contents.asn:784 -/
def JoinedMBMSBearerService_IEs_Value : Ty := .seq true (.cons false TMGI (.cons false MBMS_PTP_RAB_ID (.cons true (.seqOf (some ⟨1, 65535, false⟩) (.seq false (.cons false ProtocolExtensionID (.cons false Criticality (.cons false .any .nil))))) .nil)))
/-- `JoinedMBMSBearerService-IEs`, asn1/ranap/RANAP-PDU-Contents.asn:783 -/
def JoinedMBMSBearerService_IEs : Ty := .seqOf (some ⟨1, 128, false⟩) JoinedMBMSBearerService_IEs_Value
/-- `CNMBMSLinkingInformation`, asn1/ranap/RANAP-PDU-Contents.asn:773 -/
def CNMBMSLinkingInformation : Ty := .seq true (.cons false JoinedMBMSBearerService_IEs (.cons true (.seqOf (some ⟨1, 65535, false⟩) (.seq false (.cons false ProtocolExtensionID (.cons false Criticality (.cons false .any .nil))))) .nil))
/-- `RelocationRequestAcknowledge`, asn1/ranap/RANAP-PDU-Contents.asn:802 -/
def RelocationRequestAcknowledge : Ty := .seq true (.cons false (.seqOf (some ⟨0, 65535, false⟩) (.seq false (.cons false ProtocolIE_ID (.cons false Criticality (.cons false .any .nil))))) (.cons true (.seqOf (some ⟨1, 65535, false⟩) (.seq false (.cons false ProtocolExtensionID (.cons false Criticality (.cons false .any .nil))))) .nil))
/-- `RAB-SetupList-RelocReqAck`, asn1/ranap/RANAP-PDU-Contents.asn:818 -/
def RAB_SetupList_RelocReqAck : Ty := .seqOf (some ⟨1, 256, false⟩) (.seqOf (some ⟨0, 65535, false⟩) (.seq false (.cons false ProtocolIE_ID (.cons false Criticality (.cons false .any .nil)))))
/-- `RAB-SetupItem-RelocReqAck`, asn1/ranap/RANAP-PDU-Contents.asn:825 -/
def RAB_SetupItem_RelocReqAck : Ty := .seq true (.cons false RAB_ID (.cons true TransportLayerAddress (.cons true IuTransportAssociation (.cons true (.seqOf (some ⟨1, 65535, false⟩) (.seq false (.cons false ProtocolExtensionID (.cons false Criticality (.cons false .any .nil))))) .nil))))
/-- `RAB-FailedList`, asn1/ranap/RANAP-PDU-Contents.asn:842 -/
def RAB_FailedList : Ty := .seqOf (some ⟨1, 256, false⟩) (.seqOf (some ⟨0, 65535, false⟩) (.seq false (.cons false ProtocolIE_ID (.cons false Criticality (.cons false .any .nil)))))
/-- `RAB-FailedItem`, asn1/ranap/RANAP-PDU-Contents.asn:849 -/
def RAB_FailedItem : Ty := .seq true (.cons false RAB_ID (.cons false Cause (.cons true (.seqOf (some ⟨1, 65535, false⟩) (.seq false (.cons false ProtocolExtensionID (.cons false Criticality (.cons false .any .nil))))) .nil)))
/-- `RelocationFailure`, asn1/ranap/RANAP-PDU-Contents.asn:873 -/
def RelocationFailure : Ty := .seq true (.cons false (.seqOf (some ⟨0, 65535, false⟩) (.seq false (.cons false ProtocolIE_ID (.cons false Criticality (.cons false .any .nil))))) (.cons true (.seqOf (some ⟨1, 65535, false⟩) (.seq false (.cons false ProtocolExtensionID (.cons false Criticality (.cons false .any .nil))))) .nil))
/-- `RelocationCancel`, asn1/ranap/RANAP-PDU-Contents.asn:905 -/
def RelocationCancel : Ty := .seq true (.cons false (.seqOf (some ⟨0, 65535, false⟩) (.seq false (.cons false ProtocolIE_ID (.cons false Criticality (.cons false .any .nil))))) (.cons true (.seqOf (some ⟨1, 65535, false⟩) (.seq false (.cons false ProtocolExtensionID (.cons false Criticality (.cons false .any .nil))))) .nil))
/-- `RelocationCancelAcknowledge`, asn1/ranap/RANAP-PDU-Contents.asn:926 -/
def RelocationCancelAcknowledge : Ty := .seq true (.cons false (.seqOf (some ⟨0, 65535, false⟩) (.seq false (.cons false ProtocolIE_ID (.cons false Criticality (.cons false .any .nil))))) (.cons true (.seqOf (some ⟨1, 65535, false⟩) (.seq false (.cons false ProtocolExtensionID (.cons false Criticality (.cons false .any .nil))))) .nil))
/-- `SRNS-ContextRequest`, asn1/ranap/RANAP-PDU-Contents.asn:953 -/
def SRNS_ContextRequest : Ty := .seq true (.cons false (.seqOf (some ⟨0, 65535, false⟩) (.seq false (.cons false ProtocolIE_ID (.cons false Criticality (.cons false .any .nil))))) (.cons true (.seqOf (some ⟨1, 65535, false⟩) (.seq false (.cons false ProtocolExtensionID (.cons false Criticality (.cons false .any .nil))))) .nil))
/-- `RAB-DataForwardingList-SRNS-CtxReq`, asn1/ranap/RANAP-PDU-Contents.asn:964 -/
def RAB_DataForwardingList_SRNS_CtxReq : Ty := .seqOf (some ⟨1, 256, false⟩) (.seqOf (some ⟨0, 65535, false⟩) (.seq false (.cons false ProtocolIE_ID (.cons false Criticality (.cons false .any .nil)))))
/-- `RAB-DataForwardingItem-SRNS-CtxReq`, asn1/ranap/RANAP-PDU-Contents.asn:971 -/
def RAB_DataForwardingItem_SRNS_CtxReq : Ty := .seq true (.cons false RAB_ID (.cons true (.seqOf (some ⟨1, 65535, false⟩) (.seq false (.cons false ProtocolExtensionID (.cons false Criticality (.cons false .any .nil))))) .nil))
/-- `SRNS-ContextResponse`, asn1/ranap/RANAP-PDU-Contents.asn:993 -/
def SRNS_ContextResponse : Ty := .seq true (.cons false (.seqOf (some ⟨0, 65535, false⟩) (.seq false (.cons false ProtocolIE_ID (.cons false Criticality (.cons false .any .nil))))) (.cons true (.seqOf (some ⟨1, 65535, false⟩) (.seq false (.cons false ProtocolExtensionID (.cons false Criticality (.cons false .any .nil))))) .nil))
/-- `RAB-ContextList`, asn1/ranap/RANAP-PDU-Contents.asn:1006 -/
def RAB_ContextList : Ty := .seqOf (some ⟨1, 256, false⟩) (.seqOf (some ⟨0, 65535, false⟩) (.seq false (.cons false ProtocolIE_ID (.cons false Criticality (.cons false .any .nil)))))
/-- `RAB-ContextItem`, asn1/ranap/RANAP-PDU-Contents.asn:1013 -/
def RAB_ContextItem : Ty := .seq true (.cons false RAB_ID (.cons true DL_GTP_PDU_SequenceNumber (.cons true UL_GTP_PDU_SequenceNumber (.cons true DL_N_PDU_SequenceNumber (.cons true UL_N_PDU_SequenceNumber (.cons true (.seqOf (some ⟨1, 65535, false⟩) (.seq false (.cons false ProtocolExtensionID (.cons false Criticality (.cons false .any .nil))))) .nil))))))
/-- `RABs-ContextFailedtoTransferList`, asn1/ranap/RANAP-PDU-Contents.asn:1027 -/
def RABs_ContextFailedtoTransferList : Ty := .seqOf (some ⟨1, 256, false⟩) (.seqOf (some ⟨0, 65535, false⟩) (.seq false (.cons false ProtocolIE_ID (.cons false Criticality (.cons false .any .nil)))))
/-- `RABs-ContextFailedtoTransferItem`, asn1/ranap/RANAP-PDU-Contents.asn:1034 -/
def RABs_ContextFailedtoTransferItem : Ty := .seq true (.cons false RAB_ID (.cons false Cause (.cons true (.seqOf (some ⟨1, 65535, false⟩) (.seq false (.cons false ProtocolExtensionID (.cons false Criticality (.cons false .any .nil))))) .nil)))
/-- `SecurityModeCommand`, asn1/ranap/RANAP-PDU-Contents.asn:1062 -/
def SecurityModeCommand : Ty := .seq true (.cons false (.seqOf (some ⟨0, 65535, false⟩) (.seq false (.cons false ProtocolIE_ID (.cons false Criticality (.cons false .any .nil))))) (.cons true (.seqOf (some ⟨1, 65535, false⟩) (.seq false (.cons false ProtocolExtensionID (.cons false Criticality (.cons false .any .nil))))) .nil))
/-- `SecurityModeComplete`, asn1/ranap/RANAP-PDU-Contents.asn:1085 -/
def SecurityModeComplete : Ty := .seq true (.cons false (.seqOf (some ⟨0, 65535, false⟩) (.seq false (.cons false ProtocolIE_ID (.cons false Criticality (.cons false .any .nil))))) (.cons true (.seqOf (some ⟨1, 65535, false⟩) (.seq false (.cons false ProtocolExtensionID (.cons false Criticality (.cons false .any .nil))))) .nil))
/-- `SecurityModeReject`, asn1/ranap/RANAP-PDU-Contents.asn:1108 -/
def SecurityModeReject : Ty := .seq true (.cons false (.seqOf (some ⟨0, 65535, false⟩) (.seq false (.cons false ProtocolIE_ID (.cons false Criticality (.cons false .any .nil))))) (.cons true (.seqOf (some ⟨1, 65535, false⟩) (.seq false (.cons false ProtocolExtensionID (.cons false Criticality (.cons false .any .nil))))) .nil))
/-- `DataVolumeReportRequest`, asn1/ranap/RANAP-PDU-Contents.asn:1136 -/
def DataVolumeReportRequest : Ty := .seq true (.cons false (.seqOf (some ⟨0, 65535, false⟩) (.seq false (.cons false ProtocolIE_ID (.cons false Criticality (.cons false .any .nil))))) (.cons true (.seqOf (some ⟨1, 65535, false⟩) (.seq false (.cons false ProtocolExtensionID (.cons false Criticality (.cons false .any .nil))))) .nil))
/-- `RAB-DataVolumeReportRequestList`, asn1/ranap/RANAP-PDU-Contents.asn:1147 -/
def RAB_DataVolumeReportRequestList : Ty := .seqOf (some ⟨1, 256, false⟩) (.seqOf (some ⟨0, 65535, false⟩) (.seq false (.cons false ProtocolIE_ID (.cons false Criticality (.cons false .any .nil)))))
/-- `RAB-DataVolumeReportRequestItem`, asn1/ranap/RANAP-PDU-Contents.asn:1154 -/
def RAB_DataVolumeReportRequestItem : Ty := .seq true (.cons false RAB_ID (.cons true (.seqOf (some ⟨1, 65535, false⟩) (.seq false (.cons false ProtocolExtensionID (.cons false Criticality (.cons false .any .nil))))) .nil))
/-- `DataVolumeReport`, asn1/ranap/RANAP-PDU-Contents.asn:1174 -/
def DataVolumeReport : Ty := .seq true (.cons false (.seqOf (some ⟨0, 65535, false⟩) (.seq false (.cons false ProtocolIE_ID (.cons false Criticality (.cons false .any .nil))))) (.cons true (.seqOf (some ⟨1, 65535, false⟩) (.seq false (.cons false ProtocolExtensionID (.cons false Criticality (.cons false .any .nil))))) .nil))
/-- `RABs-failed-to-reportList`, asn1/ranap/RANAP-PDU-Contents.asn:1191 -/
def RABs_failed_to_reportList : Ty := .seqOf (some ⟨1, 256, false⟩) (.seqOf (some ⟨0, 65535, false⟩) (.seq false (.cons false ProtocolIE_ID (.cons false Criticality (.cons false .any .nil)))))
/-- `RABs-failed-to-reportItem`, asn1/ranap/RANAP-PDU-Contents.asn:1198 -/
def RABs_failed_to_reportItem : Ty := .seq true (.cons false RAB_ID (.cons false Cause (.cons true (.seqOf (some ⟨1, 65535, false⟩) (.seq false (.cons false ProtocolExtensionID (.cons false Criticality (.cons false .any .nil))))) .nil)))
/-- `Reset`, asn1/ranap/RANAP-PDU-Contents.asn:1223 -/
def Reset : Ty := .seq true (.cons false (.seqOf (some ⟨0, 65535, false⟩) (.seq false (.cons false ProtocolIE_ID (.cons false Criticality (.cons false .any .nil))))) (.cons true (.seqOf (some ⟨1, 65535, false⟩) (.seq false (.cons false ProtocolExtensionID (.cons false Criticality (.cons false .any .nil))))) .nil))
/-- `ResetAcknowledge`, asn1/ranap/RANAP-PDU-Contents.asn:1250 -/
def ResetAcknowledge : Ty := .seq true (.cons false (.seqOf (some ⟨0, 65535, false⟩) (.seq false (.cons false ProtocolIE_ID (.cons false Criticality (.cons false .any .nil))))) (.cons true (.seqOf (some ⟨1, 65535, false⟩) (.seq false (.cons false ProtocolExtensionID (.cons false Criticality (.cons false .any .nil))))) .nil))
/-- `ResetResource`, asn1/ranap/RANAP-PDU-Contents.asn:1283 -/
def ResetResource : Ty := .seq true (.cons false (.seqOf (some ⟨0, 65535, false⟩) (.seq false (.cons false ProtocolIE_ID (.cons false Criticality (.cons false .any .nil))))) (.cons true (.seqOf (some ⟨1, 65535, false⟩) (.seq false (.cons false ProtocolExtensionID (.cons false Criticality (.cons false .any .nil))))) .nil))
/-- `ResetResourceList`, asn1/ranap/RANAP-PDU-Contents.asn:1297 -/
def ResetResourceList : Ty := .seqOf (some ⟨1, 250, false⟩) (.seqOf (some ⟨0, 65535, false⟩) (.seq false (.cons false ProtocolIE_ID (.cons false Criticality (.cons false .any .nil)))))
/-- `ResetResourceItem`, asn1/ranap/RANAP-PDU-Contents.asn:1304 -/
def ResetResourceItem : Ty := .seq true (.cons false IuSignallingConnectionIdentifier (.cons true (.seqOf (some ⟨1, 65535, false⟩) (.seq false (.cons false ProtocolExtensionID (.cons false Criticality (.cons false .any .nil))))) .nil))
/-- `ResetResourceAcknowledge`, asn1/ranap/RANAP-PDU-Contents.asn:1328 -/
def ResetResourceAcknowledge : Ty := .seq true (.cons false (.seqOf (some ⟨0, 65535, false⟩) (.seq false (.cons false ProtocolIE_ID (.cons false Criticality (.cons false .any .nil))))) (.cons true (.seqOf (some ⟨1, 65535, false⟩) (.seq false (.cons false ProtocolExtensionID (.cons false Criticality (.cons false .any .nil))))) .nil))
/-- `ResetResourceAckList`, asn1/ranap/RANAP-PDU-Contents.asn:1341 -/
def ResetResourceAckList : Ty := .seqOf (some ⟨1, 250, false⟩) (.seqOf (some ⟨0, 65535, false⟩) (.seq false (.cons false ProtocolIE_ID (.cons false Criticality (.cons false .any .nil)))))
/-- `ResetResourceAckItem`, asn1/ranap/RANAP-PDU-Contents.asn:1348 -/
def ResetResourceAckItem : Ty := .seq true (.cons false IuSignallingConnectionIdentifier (.cons true (.seqOf (some ⟨1, 65535, false⟩) (.seq false (.cons false ProtocolExtensionID (.cons false Criticality (.cons false .any .nil))))) .nil))
/-- `RAB-ReleaseRequest`, asn1/ranap/RANAP-PDU-Contents.asn:1378 -/
def RAB_ReleaseRequest : Ty := .seq true (.cons false (.seqOf (some ⟨0, 65535, false⟩) (.seq false (.cons false ProtocolIE_ID (.cons false Criticality (.cons false .any .nil))))) (.cons true (.seqOf (some ⟨1, 65535, false⟩) (.seq false (.cons false ProtocolExtensionID (.cons false Criticality (.cons false .any .nil))))) .nil))
/-- `RAB-ReleaseList`, asn1/ranap/RANAP-PDU-Contents.asn:1389 -/
def RAB_ReleaseList : Ty := .seqOf (some ⟨1, 256, false⟩) (.seqOf (some ⟨0, 65535, false⟩) (.seq false (.cons false ProtocolIE_ID (.cons false Criticality (.cons false .any .nil)))))
/-- `RAB-ReleaseItem`, asn1/ranap/RANAP-PDU-Contents.asn:1396 -/
def RAB_ReleaseItem : Ty := .seq true (.cons false RAB_ID (.cons false Cause (.cons true (.seqOf (some ⟨1, 65535, false⟩) (.seq false (.cons false ProtocolExtensionID (.cons false Criticality (.cons false .any .nil))))) .nil)))
/-- `Iu-ReleaseRequest`, asn1/ranap/RANAP-PDU-Contents.asn:1423 -/
def Iu_ReleaseRequest : Ty := .seq true (.cons false (.seqOf (some ⟨0, 65535, false⟩) (.seq false (.cons false ProtocolIE_ID (.cons false Criticality (.cons false .any .nil))))) (.cons true (.seqOf (some ⟨1, 65535, false⟩) (.seq false (.cons false ProtocolExtensionID (.cons false Criticality (.cons false .any .nil))))) .nil))
/-- `RelocationDetect`, asn1/ranap/RANAP-PDU-Contents.asn:1450 -/
def RelocationDetect : Ty := .seq true (.cons false (.seqOf (some ⟨0, 65535, false⟩) (.seq false (.cons false ProtocolIE_ID (.cons false Criticality (.cons false .any .nil))))) (.cons true (.seqOf (some ⟨1, 65535, false⟩) (.seq false (.cons false ProtocolExtensionID (.cons false Criticality (.cons false .any .nil))))) .nil))
/-- `RelocationComplete`, asn1/ranap/RANAP-PDU-Contents.asn:1476 -/
def RelocationComplete : Ty := .seq true (.cons false (.seqOf (some ⟨0, 65535, false⟩) (.seq false (.cons false ProtocolIE_ID (.cons false Criticality (.cons false .any .nil))))) (.cons true (.seqOf (some ⟨1, 65535, false⟩) (.seq false (.cons false ProtocolExtensionID (.cons false Criticality (.cons false .any .nil))))) .nil))
/-- `EnhancedRelocationCompleteRequest`, asn1/ranap/RANAP-PDU-Contents.asn:1508 -/
def EnhancedRelocationCompleteRequest : Ty := .seq true (.cons false (.seqOf (some ⟨0, 65535, false⟩) (.seq false (.cons false ProtocolIE_ID (.cons false Criticality (.cons false .any .nil))))) (.cons true (.seqOf (some ⟨1, 65535, false⟩) (.seq false (.cons false ProtocolExtensionID (.cons false Criticality (.cons false .any .nil))))) .nil))
/-- `RAB-SetupList-EnhancedRelocCompleteReq`, asn1/ranap/RANAP-PDU-Contents.asn:1525 -/
def RAB_SetupList_EnhancedRelocCompleteReq : Ty := .seqOf (some ⟨1, 256, false⟩) (.seqOf (some ⟨0, 65535, false⟩) (.seq false (.cons false ProtocolIE_ID (.cons false Criticality (.cons false .any .nil)))))
/-- `RAB-SetupItem-EnhancedRelocCompleteReq`, asn1/ranap/RANAP-PDU-Contents.asn:1532 -/
def RAB_SetupItem_EnhancedRelocCompleteReq : Ty := .seq true (.cons false RAB_ID (.cons true TransportLayerAddress (.cons true IuTransportAssociation (.cons true Ass_RAB_Parameters (.cons true (.seqOf (some ⟨1, 65535, false⟩) (.seq false (.cons false ProtocolExtensionID (.cons false Criticality (.cons false .any .nil))))) .nil)))))
/-- `EnhancedRelocationCompleteResponse`, asn1/ranap/RANAP-PDU-Contents.asn:1566 -/
def EnhancedRelocationCompleteResponse : Ty := .seq true (.cons false (.seqOf (some ⟨0, 65535, false⟩) (.seq false (.cons false ProtocolIE_ID (.cons false Criticality (.cons false .any .nil))))) (.cons true (.seqOf (some ⟨1, 65535, false⟩) (.seq false (.cons false ProtocolExtensionID (.cons false Criticality (.cons false .any .nil))))) .nil))
/-- `RAB-SetupList-EnhancedRelocCompleteRes`, asn1/ranap/RANAP-PDU-Contents.asn:1579 -/
def RAB_SetupList_EnhancedRelocCompleteRes : Ty := .seqOf (some ⟨1, 256, false⟩) (.seqOf (some ⟨0, 65535, false⟩) (.seq false (.cons false ProtocolIE_ID (.cons false Criticality (.cons false .any .nil)))))
/-- `RAB-ToBeReleasedList-EnhancedRelocCompleteRes`, asn1/ranap/RANAP-PDU-Contents.asn:1603 -/
def RAB_ToBeReleasedList_EnhancedRelocCompleteRes : Ty := .seqOf (some ⟨1, 256, false⟩) (.seqOf (some ⟨0, 65535, false⟩) (.seq false (.cons false ProtocolIE_ID (.cons false Criticality (.cons false .any .nil)))))
/-- `RAB-SetupItem-EnhancedRelocCompleteRes`, asn1/ranap/RANAP-PDU-Contents.asn:1586 -/
def RAB_SetupItem_EnhancedRelocCompleteRes : Ty := .seq true (.cons false RAB_ID (.cons true RAB_Parameters (.cons false UserPlaneInformation (.cons true TransportLayerAddress (.cons true IuTransportAssociation (.cons true RAB_ToBeReleasedList_EnhancedRelocCompleteRes (.cons true (.seqOf (some ⟨1, 65535, false⟩) (.seq false (.cons false ProtocolExtensionID (.cons false Criticality (.cons false .any .nil))))) .nil)))))))
/-- `RAB-ToBeReleasedItem-EnhancedRelocCompleteRes`, asn1/ranap/RANAP-PDU-Contents.asn:1610 -/
def RAB_ToBeReleasedItem_EnhancedRelocCompleteRes : Ty := .seq true (.cons false RAB_ID (.cons false Cause (.cons true (.seqOf (some ⟨1, 65535, false⟩) (.seq false (.cons false ProtocolExtensionID (.cons false Criticality (.cons false .any .nil))))) .nil)))
/-- `EnhancedRelocationCompleteFailure`, asn1/ranap/RANAP-PDU-Contents.asn:1636 -/
def EnhancedRelocationCompleteFailure : Ty := .seq true (.cons false (.seqOf (some ⟨0, 65535, false⟩) (.seq false (.cons false ProtocolIE_ID (.cons false Criticality (.cons false .any .nil))))) (.cons true (.seqOf (some ⟨1, 65535, false⟩) (.seq false (.cons false ProtocolExtensionID (.cons false Criticality (.cons false .any .nil))))) .nil))
/-- `EnhancedRelocationCompleteConfirm`, asn1/ranap/RANAP-PDU-Contents.asn:1658 -/
def EnhancedRelocationCompleteConfirm : Ty := .seq true (.cons false (.seqOf (some ⟨0, 65535, false⟩) (.seq false (.cons false ProtocolIE_ID (.cons false Criticality (.cons false .any .nil))))) (.cons true (.seqOf (some ⟨1, 65535, false⟩) (.seq false (.cons false ProtocolExtensionID (.cons false Criticality (.cons false .any .nil))))) .nil))
/-- `Paging`, asn1/ranap/RANAP-PDU-Contents.asn:1686 -/
def Paging : Ty := .seq true (.cons false (.seqOf (some ⟨0, 65535, false⟩) (.seq false (.cons false ProtocolIE_ID (.cons false Criticality (.cons false .any .nil))))) (.cons true (.seqOf (some ⟨1, 65535, false⟩) (.seq false (.cons false ProtocolExtensionID (.cons false Criticality (.cons false .any .nil))))) .nil))
/-- `CommonID`, asn1/ranap/RANAP-PDU-Contents.asn:1723 -/
def CommonID : Ty := .seq true (.cons false (.seqOf (some ⟨0, 65535, false⟩) (.seq false (.cons false ProtocolIE_ID (.cons false Criticality (.cons false .any .nil))))) (.cons true (.seqOf (some ⟨1, 65535, false⟩) (.seq false (.cons false ProtocolExtensionID (.cons false Criticality (.cons false .any .nil))))) .nil))
/-- `CN-InvokeTrace`, asn1/ranap/RANAP-PDU-Contents.asn:1770 -/
def CN_InvokeTrace : Ty := .seq true (.cons false (.seqOf (some ⟨0, 65535, false⟩) (.seq false (.cons false ProtocolIE_ID (.cons false Criticality (.cons false .any .nil))))) (.cons true (.seqOf (some ⟨1, 65535, false⟩) (.seq false (.cons false ProtocolExtensionID (.cons false Criticality (.cons false .any .nil))))) .nil))
/-- `CN-DeactivateTrace`, asn1/ranap/RANAP-PDU-Contents.asn:1811 -/
def CN_DeactivateTrace : Ty := .seq true (.cons false (.seqOf (some ⟨0, 65535, false⟩) (.seq false (.cons false ProtocolIE_ID (.cons false Criticality (.cons false .any .nil))))) (.cons true (.seqOf (some ⟨1, 65535, false⟩) (.seq false (.cons false ProtocolExtensionID (.cons false Criticality (.cons false .any .nil))))) .nil))
/-- `LocationReportingControl`, asn1/ranap/RANAP-PDU-Contents.asn:1840 -/
def LocationReportingControl : Ty := .seq true (.cons false (.seqOf (some ⟨0, 65535, false⟩) (.seq false (.cons false ProtocolIE_ID (.cons false Criticality (.cons false .any .nil))))) (.cons true (.seqOf (some ⟨1, 65535, false⟩) (.seq false (.cons false ProtocolExtensionID (.cons false Criticality (.cons false .any .nil))))) .nil))
/-- `LocationReport`, asn1/ranap/RANAP-PDU-Contents.asn:1879 -/
def LocationReport : Ty := .seq true (.cons false (.seqOf (some ⟨0, 65535, false⟩) (.seq false (.cons false ProtocolIE_ID (.cons false Criticality (.cons false .any .nil))))) (.cons true (.seqOf (some ⟨1, 65535, false⟩) (.seq false (.cons false ProtocolExtensionID (.cons false Criticality (.cons false .any .nil))))) .nil))
/-- `InitialUE-Message`, asn1/ranap/RANAP-PDU-Contents.asn:1919 -/
def InitialUE_Message : Ty := .seq true (.cons false (.seqOf (some ⟨0, 65535, false⟩) (.seq false (.cons false ProtocolIE_ID (.cons false Criticality (.cons false .any .nil))))) (.cons true (.seqOf (some ⟨1, 65535, false⟩) (.seq false (.cons false ProtocolExtensionID (.cons false Criticality (.cons false .any .nil))))) .nil))
/-- `DirectTransfer`, asn1/ranap/RANAP-PDU-Contents.asn:1979 -/
def DirectTransfer : Ty := .seq true (.cons false (.seqOf (some ⟨0, 65535, false⟩) (.seq false (.cons false ProtocolIE_ID (.cons false Criticality (.cons false .any .nil))))) (.cons true (.seqOf (some ⟨1, 65535, false⟩) (.seq false (.cons false ProtocolExtensionID (.cons false Criticality (.cons false .any .nil))))) .nil))
/-- `RedirectionIndication`, asn1/ranap/RANAP-PDU-Contents.asn:2010 -/
def RedirectionIndication : Ty := .seqOf (some ⟨0, 65535, false⟩) (.seq false (.cons false ProtocolIE_ID (.cons false Criticality (.cons false .any .nil))))
/-- `Overload`, asn1/ranap/RANAP-PDU-Contents.asn:2032 -/
def Overload : Ty := .seq true (.cons false (.seqOf (some ⟨0, 65535, false⟩) (.seq false (.cons false ProtocolIE_ID (.cons false Criticality (.cons false .any .nil))))) (.cons true (.seqOf (some ⟨1, 65535, false⟩) (.seq false (.cons false ProtocolExtensionID (.cons false Criticality (.cons false .any .nil))))) .nil))
/-- `ErrorIndication`, asn1/ranap/RANAP-PDU-Contents.asn:2068 -/
def ErrorIndication : Ty := .seq true (.cons false (.seqOf (some ⟨0, 65535, false⟩) (.seq false (.cons false ProtocolIE_ID (.cons false Criticality (.cons false .any .nil))))) (.cons true (.seqOf (some ⟨1, 65535, false⟩) (.seq false (.cons false ProtocolExtensionID (.cons false Criticality (.cons false .any .nil))))) .nil))
/-- `SRNS-DataForwardCommand`, asn1/ranap/RANAP-PDU-Contents.asn:2102 -/
def SRNS_DataForwardCommand : Ty := .seq true (.cons false (.seqOf (some ⟨0, 65535, false⟩) (.seq false (.cons false ProtocolIE_ID (.cons false Criticality (.cons false .any .nil))))) (.cons true (.seqOf (some ⟨1, 65535, false⟩) (.seq false (.cons false ProtocolExtensionID (.cons false Criticality (.cons false .any .nil))))) .nil))
/-- `ForwardSRNS-Context`, asn1/ranap/RANAP-PDU-Contents.asn:2129 -/
def ForwardSRNS_Context : Ty := .seq true (.cons false (.seqOf (some ⟨0, 65535, false⟩) (.seq false (.cons false ProtocolIE_ID (.cons false Criticality (.cons false .any .nil))))) (.cons true (.seqOf (some ⟨1, 65535, false⟩) (.seq false (.cons false ProtocolExtensionID (.cons false Criticality (.cons false .any .nil))))) .nil))
/-- `RAB-AssignmentRequest`, asn1/ranap/RANAP-PDU-Contents.asn:2158 -/
def RAB_AssignmentRequest : Ty := .seq true (.cons false (.seqOf (some ⟨0, 65535, false⟩) (.seq false (.cons false ProtocolIE_ID (.cons false Criticality (.cons false .any .nil))))) (.cons true (.seqOf (some ⟨1, 65535, false⟩) (.seq false (.cons false ProtocolExtensionID (.cons false Criticality (.cons false .any .nil))))) .nil))
/-- `RAB-SetupOrModifyList`, asn1/ranap/RANAP-PDU-Contents.asn:2170 -/
def RAB_SetupOrModifyList : Ty := .seqOf (some ⟨1, 256, false⟩) (.seqOf (some ⟨0, 65535, false⟩) (.seq false (.cons false ProtocolIE_ID (.cons false Criticality (.cons false .any (.cons false Criticality (.cons false .any .nil)))))))
/-- `TransportLayerInformation`, asn1/ranap/RANAP-PDU-Contents.asn:2190 -/
def TransportLayerInformation : Ty := .seq true (.cons false TransportLayerAddress (.cons false IuTransportAssociation (.cons true (.seqOf (some ⟨1, 65535, false⟩) (.seq false (.cons false ProtocolExtensionID (.cons false Criticality (.cons false .any .nil))))) .nil)))
/-- `RAB-SetupOrModifyItemFirst`, asn1/ranap/RANAP-PDU-Contents.asn:2179 -/
def RAB_SetupOrModifyItemFirst : Ty := .seq true (.cons false RAB_ID (.cons true NAS_SynchronisationIndicator (.cons true RAB_Parameters (.cons true UserPlaneInformation (.cons true TransportLayerInformation (.cons true Service_Handover (.cons true (.seqOf (some ⟨1, 65535, false⟩) (.seq false (.cons false ProtocolExtensionID (.cons false Criticality (.cons false .any .nil))))) .nil)))))))
/-- `RAB-SetupOrModifyItemSecond`, asn1/ranap/RANAP-PDU-Contents.asn:2211 -/
def RAB_SetupOrModifyItemSecond : Ty := .seq true (.cons true PDP_TypeInformation (.cons true DataVolumeReportingIndication (.cons true DL_GTP_PDU_SequenceNumber (.cons true UL_GTP_PDU_SequenceNumber (.cons true DL_N_PDU_SequenceNumber (.cons true UL_N_PDU_SequenceNumber (.cons true (.seqOf (some ⟨1, 65535, false⟩) (.seq false (.cons false ProtocolExtensionID (.cons false Criticality (.cons false .any .nil))))) .nil)))))))
/-- `RAB-AssignmentResponse`, asn1/ranap/RANAP-PDU-Contents.asn:2247 -/
def RAB_AssignmentResponse : Ty := .seq true (.cons false (.seqOf (some ⟨0, 65535, false⟩) (.seq false (.cons false ProtocolIE_ID (.cons false Criticality (.cons false .any .nil))))) (.cons true (.seqOf (some ⟨1, 65535, false⟩) (.seq false (.cons false ProtocolExtensionID (.cons false Criticality (.cons false .any .nil))))) .nil))
/-- `RAB-SetupOrModifiedList`, asn1/ranap/RANAP-PDU-Contents.asn:2263 -/
def RAB_SetupOrModifiedList : Ty := .seqOf (some ⟨1, 256, false⟩) (.seqOf (some ⟨0, 65535, false⟩) (.seq false (.cons false ProtocolIE_ID (.cons false Criticality (.cons false .any .nil)))))
/-- `RAB-SetupOrModifiedItem`, asn1/ranap/RANAP-PDU-Contents.asn:2270 -/
def RAB_SetupOrModifiedItem : Ty := .seq true (.cons false RAB_ID (.cons true TransportLayerAddress (.cons true IuTransportAssociation (.cons true DataVolumeList (.cons true (.seqOf (some ⟨1, 65535, false⟩) (.seq false (.cons false ProtocolExtensionID (.cons false Criticality (.cons false .any .nil))))) .nil)))))
/-- `RAB-ReleasedList`, asn1/ranap/RANAP-PDU-Contents.asn:2285 -/
def RAB_ReleasedList : Ty := .seqOf (some ⟨1, 256, false⟩) (.seqOf (some ⟨0, 65535, false⟩) (.seq false (.cons false ProtocolIE_ID (.cons false Criticality (.cons false .any .nil)))))
/-- `RAB-ReleasedItem`, asn1/ranap/RANAP-PDU-Contents.asn:2292 -/
def RAB_ReleasedItem : Ty := .seq true (.cons false RAB_ID (.cons true DataVolumeList (.cons true DL_GTP_PDU_SequenceNumber (.cons true UL_GTP_PDU_SequenceNumber (.cons true (.seqOf (some ⟨1, 65535, false⟩) (.seq false (.cons false ProtocolExtensionID (.cons false Criticality (.cons false .any .nil))))) .nil)))))
/-- `RAB-QueuedList`, asn1/ranap/RANAP-PDU-Contents.asn:2318 -/
def RAB_QueuedList : Ty := .seqOf (some ⟨1, 256, false⟩) (.seqOf (some ⟨0, 65535, false⟩) (.seq false (.cons false ProtocolIE_ID (.cons false Criticality (.cons false .any .nil)))))
/-- `RAB-QueuedItem`, asn1/ranap/RANAP-PDU-Contents.asn:2325 -/
def RAB_QueuedItem : Ty := .seq true (.cons false RAB_ID (.cons true (.seqOf (some ⟨1, 65535, false⟩) (.seq false (.cons false ProtocolExtensionID (.cons false Criticality (.cons false .any .nil))))) .nil))
/-- `RAB-ReleaseFailedList`, asn1/ranap/RANAP-PDU-Contents.asn:2335 -/
def RAB_ReleaseFailedList : Ty := RAB_FailedList
/-- `GERAN-Iumode-RAB-FailedList-RABAssgntResponse`, asn1/ranap/RANAP-PDU-Contents.asn:2343 -/
def GERAN_Iumode_RAB_FailedList_RABAssgntResponse : Ty := .seqOf (some ⟨1, 256, false⟩) (.seqOf (some ⟨0, 65535, false⟩) (.seq false (.cons false ProtocolIE_ID (.cons false Criticality (.cons false .any .nil)))))
/-- `GERAN-Iumode-RAB-Failed-RABAssgntResponse-Item`, asn1/ranap/RANAP-PDU-Contents.asn:2350 -/
def GERAN_Iumode_RAB_Failed_RABAssgntResponse_Item : Ty := .seq true (.cons false RAB_ID (.cons false Cause (.cons true GERAN_Classmark (.cons true (.seqOf (some ⟨1, 65535, false⟩) (.seq false (.cons false ProtocolExtensionID (.cons false Criticality (.cons false .any .nil))))) .nil))))
/-- `PrivateMessage`, asn1/ranap/RANAP-PDU-Contents.asn:2368 -/
def PrivateMessage : Ty := .seq true (.cons false (.seqOf (some ⟨1, 65535, false⟩) (.seq false (.cons false PrivateIE_ID (.cons false Criticality (.cons false .any .nil))))) .nil)
/-- `RANAP-RelocationInformation`, asn1/ranap/RANAP-PDU-Contents.asn:2383 -/
def RANAP_RelocationInformation : Ty := .seq true (.cons false (.seqOf (some ⟨0, 65535, false⟩) (.seq false (.cons false ProtocolIE_ID (.cons false Criticality (.cons false .any .nil))))) (.cons true (.seqOf (some ⟨1, 65535, false⟩) (.seq false (.cons false ProtocolExtensionID (.cons false Criticality (.cons false .any .nil))))) .nil))
/-- `DirectTransferInformationList-RANAP-RelocInf`, asn1/ranap/RANAP-PDU-Contents.asn:2397 -/
def DirectTransferInformationList_RANAP_RelocInf : Ty := .seqOf (some ⟨1, 15, false⟩) (.seqOf (some ⟨0, 65535, false⟩) (.seq false (.cons false ProtocolIE_ID (.cons false Criticality (.cons false .any .nil)))))
/-- `DirectTransferInformationItem-RANAP-RelocInf`, asn1/ranap/RANAP-PDU-Contents.asn:2406 -/
def DirectTransferInformationItem_RANAP_RelocInf : Ty := .seq true (.cons false NAS_PDU (.cons false SAPI (.cons false CN_DomainIndicator (.cons true (.seqOf (some ⟨1, 65535, false⟩) (.seq false (.cons false ProtocolExtensionID (.cons false Criticality (.cons false .any .nil))))) .nil))))
/-- `RAB-ContextList-RANAP-RelocInf`, asn1/ranap/RANAP-PDU-Contents.asn:2418 -/
def RAB_ContextList_RANAP_RelocInf : Ty := .seqOf (some ⟨1, 256, false⟩) (.seqOf (some ⟨0, 65535, false⟩) (.seq false (.cons false ProtocolIE_ID (.cons false Criticality (.cons false .any .nil)))))
/-- `RAB-ContextItem-RANAP-RelocInf`, asn1/ranap/RANAP-PDU-Contents.asn:2425 -/
def RAB_ContextItem_RANAP_RelocInf : Ty := .seq true (.cons false RAB_ID (.cons true DL_GTP_PDU_SequenceNumber (.cons true UL_GTP_PDU_SequenceNumber (.cons true DL_N_PDU_SequenceNumber (.cons true UL_N_PDU_SequenceNumber (.cons true (.seqOf (some ⟨1, 65535, false⟩) (.seq false (.cons false ProtocolExtensionID (.cons false Criticality (.cons false .any .nil))))) .nil))))))
/-- `RANAP-EnhancedRelocationInformationRequest`, asn1/ranap/RANAP-PDU-Contents.asn:2459 -/
def RANAP_EnhancedRelocationInformationRequest : Ty := .seq true (.cons false (.seqOf (some ⟨0, 65535, false⟩) (.seq false (.cons false ProtocolIE_ID (.cons false Criticality (.cons false .any .nil))))) (.cons true (.seqOf (some ⟨1, 65535, false⟩) (.seq false (.cons false ProtocolExtensionID (.cons false Criticality (.cons false .any .nil))))) .nil))
/-- `RAB-SetupList-EnhRelocInfoReq`, asn1/ranap/RANAP-PDU-Contents.asn:2479 -/
def RAB_SetupList_EnhRelocInfoReq : Ty := .seqOf (some ⟨1, 256, false⟩) (.seqOf (some ⟨0, 65535, false⟩) (.seq false (.cons false ProtocolIE_ID (.cons false Criticality (.cons false .any .nil)))))
/-- `TNLInformationEnhRelInfoReq`, asn1/ranap/RANAP-PDU-Contents.asn:2512 -/
def TNLInformationEnhRelInfoReq : Ty := .seq true (.cons false TransportLayerAddress (.cons false IuTransportAssociation (.cons true (.seqOf (some ⟨1, 65535, false⟩) (.seq false (.cons false ProtocolExtensionID (.cons false Criticality (.cons false .any .nil))))) .nil)))
/-- `RAB-SetupItem-EnhRelocInfoReq`, asn1/ranap/RANAP-PDU-Contents.asn:2486 -/
def RAB_SetupItem_EnhRelocInfoReq : Ty := .seq true (.cons false RAB_ID (.cons false CN_DomainIndicator (.cons false RAB_Parameters (.cons true DataVolumeReportingIndication (.cons true PDP_TypeInformation (.cons false UserPlaneInformation (.cons true TNLInformationEnhRelInfoReq (.cons true TNLInformationEnhRelInfoReq (.cons true Service_Handover (.cons true Alt_RAB_Parameters (.cons true (.seqOf (some ⟨1, 65535, false⟩) (.seq false (.cons false ProtocolExtensionID (.cons false Criticality (.cons false .any .nil))))) .nil)))))))))))
/-- `RANAP-EnhancedRelocationInformationResponse`, asn1/ranap/RANAP-PDU-Contents.asn:2543 -/
def RANAP_EnhancedRelocationInformationResponse : Ty := .seq true (.cons false (.seqOf (some ⟨0, 65535, false⟩) (.seq false (.cons false ProtocolIE_ID (.cons false Criticality (.cons false .any .nil))))) (.cons true (.seqOf (some ⟨1, 65535, false⟩) (.seq false (.cons false ProtocolExtensionID (.cons false Criticality (.cons false .any .nil))))) .nil))
/-- `RAB-SetupList-EnhRelocInfoRes`, asn1/ranap/RANAP-PDU-Contents.asn:2557 -/
def RAB_SetupList_EnhRelocInfoRes : Ty := .seqOf (some ⟨1, 256, false⟩) (.seqOf (some ⟨0, 65535, false⟩) (.seq false (.cons false ProtocolIE_ID (.cons false Criticality (.cons false .any .nil)))))
/-- `TNLInformationEnhRelInfoRes`, asn1/ranap/RANAP-PDU-Contents.asn:2595 -/
def TNLInformationEnhRelInfoRes : Ty := .seq true (.cons false TransportLayerAddress (.cons false IuTransportAssociation (.cons true (.seqOf (some ⟨1, 65535, false⟩) (.seq false (.cons false ProtocolExtensionID (.cons false Criticality (.cons false .any .nil))))) .nil)))
/-- `RAB-SetupItem-EnhRelocInfoRes`, asn1/ranap/RANAP-PDU-Contents.asn:2564 -/
def RAB_SetupItem_EnhRelocInfoRes : Ty := .seq true (.cons false CN_DomainIndicator (.cons false RAB_ID (.cons true TNLInformationEnhRelInfoRes (.cons true Ass_RAB_Parameters (.cons true (.seqOf (some ⟨1, 65535, false⟩) (.seq false (.cons false ProtocolExtensionID (.cons false Criticality (.cons false .any .nil))))) .nil)))))
/-- `RAB-FailedList-EnhRelocInfoRes`, asn1/ranap/RANAP-PDU-Contents.asn:2577 -/
def RAB_FailedList_EnhRelocInfoRes : Ty := .seqOf (some ⟨1, 256, false⟩) (.seqOf (some ⟨0, 65535, false⟩) (.seq false (.cons false ProtocolIE_ID (.cons false Criticality (.cons false .any .nil)))))
/-- `RAB-FailedItem-EnhRelocInfoRes`, asn1/ranap/RANAP-PDU-Contents.asn:2584 -/
def RAB_FailedItem_EnhRelocInfoRes : Ty := .seq true (.cons false CN_DomainIndicator (.cons false RAB_ID (.cons false Cause (.cons true (.seqOf (some ⟨1, 65535, false⟩) (.seq false (.cons false ProtocolExtensionID (.cons false Criticality (.cons false .any .nil))))) .nil))))
/-- `RAB-ModifyRequest`, asn1/ranap/RANAP-PDU-Contents.asn:2621 -/
def RAB_ModifyRequest : Ty := .seq true (.cons false (.seqOf (some ⟨0, 65535, false⟩) (.seq false (.cons false ProtocolIE_ID (.cons false Criticality (.cons false .any .nil))))) (.cons true (.seqOf (some ⟨1, 65535, false⟩) (.seq false (.cons false ProtocolExtensionID (.cons false Criticality (.cons false .any .nil))))) .nil))
/-- `RAB-ModifyList`, asn1/ranap/RANAP-PDU-Contents.asn:2632 -/
def RAB_ModifyList : Ty := .seqOf (some ⟨1, 256, false⟩) (.seqOf (some ⟨0, 65535, false⟩) (.seq false (.cons false ProtocolIE_ID (.cons false Criticality (.cons false .any .nil)))))
/-- `RAB-ModifyItem`, asn1/ranap/RANAP-PDU-Contents.asn:2639 -/
def RAB_ModifyItem : Ty := .seq true (.cons false RAB_ID (.cons false Requested_RAB_Parameter_Values (.cons true (.seqOf (some ⟨1, 65535, false⟩) (.seq false (.cons false ProtocolExtensionID (.cons false Criticality (.cons false .any .nil))))) .nil)))
/-- `LocationRelatedDataRequest`, asn1/ranap/RANAP-PDU-Contents.asn:2666 -/
def LocationRelatedDataRequest : Ty := .seq true (.cons false (.seqOf (some ⟨0, 65535, false⟩) (.seq false (.cons false ProtocolIE_ID (.cons false Criticality (.cons false .any .nil))))) (.cons true (.seqOf (some ⟨1, 65535, false⟩) (.seq false (.cons false ProtocolExtensionID (.cons false Criticality (.cons false .any .nil))))) .nil))
/-- `LocationRelatedDataResponse`, asn1/ranap/RANAP-PDU-Contents.asn:2694 -/
def LocationRelatedDataResponse : Ty := .seq true (.cons false (.seqOf (some ⟨0, 65535, false⟩) (.seq false (.cons false ProtocolIE_ID (.cons false Criticality (.cons false .any .nil))))) (.cons true (.seqOf (some ⟨1, 65535, false⟩) (.seq false (.cons false ProtocolExtensionID (.cons false Criticality (.cons false .any .nil))))) .nil))
/-- `LocationRelatedDataFailure`, asn1/ranap/RANAP-PDU-Contents.asn:2718 -/
def LocationRelatedDataFailure : Ty := .seq true (.cons false (.seqOf (some ⟨0, 65535, false⟩) (.seq false (.cons false ProtocolIE_ID (.cons false Criticality (.cons false .any .nil))))) (.cons true (.seqOf (some ⟨1, 65535, false⟩) (.seq false (.cons false ProtocolExtensionID (.cons false Criticality (.cons false .any .nil))))) .nil))
/-- `InformationTransferIndication`, asn1/ranap/RANAP-PDU-Contents.asn:2747 -/
def InformationTransferIndication : Ty := .seq true (.cons false (.seqOf (some ⟨0, 65535, false⟩) (.seq false (.cons false ProtocolIE_ID (.cons false Criticality (.cons false .any .nil))))) (.cons true (.seqOf (some ⟨1, 65535, false⟩) (.seq false (.cons false ProtocolExtensionID (.cons false Criticality (.cons false .any .nil))))) .nil))
/-- `InformationTransferConfirmation`, asn1/ranap/RANAP-PDU-Contents.asn:2771 -/
def InformationTransferConfirmation : Ty := .seq true (.cons false (.seqOf (some ⟨0, 65535, false⟩) (.seq false (.cons false ProtocolIE_ID (.cons false Criticality (.cons false .any .nil))))) (.cons true (.seqOf (some ⟨1, 65535, false⟩) (.seq false (.cons false ProtocolExtensionID (.cons false Criticality (.cons false .any .nil))))) .nil))
/-- `InformationTransferFailure`, asn1/ranap/RANAP-PDU-Contents.asn:2797 -/
def InformationTransferFailure : Ty := .seq true (.cons false (.seqOf (some ⟨0, 65535, false⟩) (.seq false (.cons false ProtocolIE_ID (.cons false Criticality (.cons false .any .nil))))) (.cons true (.seqOf (some ⟨1, 65535, false⟩) (.seq false (.cons false ProtocolExtensionID (.cons false Criticality (.cons false .any .nil))))) .nil))
/-- `UESpecificInformationIndication`, asn1/ranap/RANAP-PDU-Contents.asn:2830 -/
def UESpecificInformationIndication : Ty := .seq true (.cons false (.seqOf (some ⟨0, 65535, false⟩) (.seq false (.cons false ProtocolIE_ID (.cons false Criticality (.cons false .any .nil))))) (.cons true (.seqOf (some ⟨1, 65535, false⟩) (.seq false (.cons false ProtocolExtensionID (.cons false Criticality (.cons false .any .nil))))) .nil))
/-- `DirectInformationTransfer`, asn1/ranap/RANAP-PDU-Contents.asn:2857 -/
def DirectInformationTransfer : Ty := .seq true (.cons false (.seqOf (some ⟨0, 65535, false⟩) (.seq false (.cons false ProtocolIE_ID (.cons false Criticality (.cons false .any .nil))))) (.cons true (.seqOf (some ⟨1, 65535, false⟩) (.seq false (.cons false ProtocolExtensionID (.cons false Criticality (.cons false .any .nil))))) .nil))
/-- `UplinkInformationExchangeRequest`, asn1/ranap/RANAP-PDU-Contents.asn:2889 -/
def UplinkInformationExchangeRequest : Ty := .seq true (.cons false (.seqOf (some ⟨0, 65535, false⟩) (.seq false (.cons false ProtocolIE_ID (.cons false Criticality (.cons false .any .nil))))) (.cons true (.seqOf (some ⟨1, 65535, false⟩) (.seq false (.cons false ProtocolExtensionID (.cons false Criticality (.cons false .any .nil))))) .nil))
/-- `UplinkInformationExchangeResponse`, asn1/ranap/RANAP-PDU-Contents.asn:2919 -/
def UplinkInformationExchangeResponse : Ty := .seq true (.cons false (.seqOf (some ⟨0, 65535, false⟩) (.seq false (.cons false ProtocolIE_ID (.cons false Criticality (.cons false .any .nil))))) (.cons true (.seqOf (some ⟨1, 65535, false⟩) (.seq false (.cons false ProtocolExtensionID (.cons false Criticality (.cons false .any .nil))))) .nil))
/-- `UplinkInformationExchangeFailure`, asn1/ranap/RANAP-PDU-Contents.asn:2944 -/
def UplinkInformationExchangeFailure : Ty := .seq true (.cons false (.seqOf (some ⟨0, 65535, false⟩) (.seq false (.cons false ProtocolIE_ID (.cons false Criticality (.cons false .any .nil))))) (.cons true (.seqOf (some ⟨1, 65535, false⟩) (.seq false (.cons false ProtocolExtensionID (.cons false Criticality (.cons false .any .nil))))) .nil))
/-- `MBMSSessionStart`, asn1/ranap/RANAP-PDU-Contents.asn:2975 -/
def MBMSSessionStart : Ty := .seq true (.cons false (.seqOf (some ⟨0, 65535, false⟩) (.seq false (.cons false ProtocolIE_ID (.cons false Criticality (.cons false .any .nil))))) (.cons true (.seqOf (some ⟨1, 65535, false⟩) (.seq false (.cons false ProtocolExtensionID (.cons false Criticality (.cons false .any .nil))))) .nil))
/-- `MBMSSynchronisationInformation`, asn1/ranap/RANAP-PDU-Contents.asn:3009 -/
def MBMSSynchronisationInformation : Ty := .seq true (.cons false MBMSHCIndicator (.cons false IPMulticastAddress (.cons false GTP_TEI (.cons true (.seqOf (some ⟨1, 65535, false⟩) (.seq false (.cons false ProtocolExtensionID (.cons false Criticality (.cons false .any .nil))))) .nil))))
/-- `MBMSSessionStartResponse`, asn1/ranap/RANAP-PDU-Contents.asn:3028 -/
def MBMSSessionStartResponse : Ty := .seq true (.cons false (.seqOf (some ⟨0, 65535, false⟩) (.seq false (.cons false ProtocolIE_ID (.cons false Criticality (.cons false .any .nil))))) (.cons true (.seqOf (some ⟨1, 65535, false⟩) (.seq false (.cons false ProtocolExtensionID (.cons false Criticality (.cons false .any .nil))))) .nil))
/-- `MBMSSessionStartFailure`, asn1/ranap/RANAP-PDU-Contents.asn:3051 -/
def MBMSSessionStartFailure : Ty := .seq true (.cons false (.seqOf (some ⟨0, 65535, false⟩) (.seq false (.cons false ProtocolIE_ID (.cons false Criticality (.cons false .any .nil))))) (.cons true (.seqOf (some ⟨1, 65535, false⟩) (.seq false (.cons false ProtocolExtensionID (.cons false Criticality (.cons false .any .nil))))) .nil))
/-- `MBMSSessionUpdate`, asn1/ranap/RANAP-PDU-Contents.asn:3079 -/
def MBMSSessionUpdate : Ty := .seq true (.cons false (.seqOf (some ⟨0, 65535, false⟩) (.seq false (.cons false ProtocolIE_ID (.cons false Criticality (.cons false .any .nil))))) (.cons true (.seqOf (some ⟨1, 65535, false⟩) (.seq false (.cons false ProtocolExtensionID (.cons false Criticality (.cons false .any .nil))))) .nil))
/-- `MBMSSessionUpdateResponse`, asn1/ranap/RANAP-PDU-Contents.asn:3101 -/
def MBMSSessionUpdateResponse : Ty := .seq true (.cons false (.seqOf (some ⟨0, 65535, false⟩) (.seq false (.cons false ProtocolIE_ID (.cons false Criticality (.cons false .any .nil))))) (.cons true (.seqOf (some ⟨1, 65535, false⟩) (.seq false (.cons false ProtocolExtensionID (.cons false Criticality (.cons false .any .nil))))) .nil))
/-- `MBMSSessionUpdateFailure`, asn1/ranap/RANAP-PDU-Contents.asn:3125 -/
def MBMSSessionUpdateFailure : Ty := .seq true (.cons false (.seqOf (some ⟨0, 65535, false⟩) (.seq false (.cons false ProtocolIE_ID (.cons false Criticality (.cons false .any .nil))))) (.cons true (.seqOf (some ⟨1, 65535, false⟩) (.seq false (.cons false ProtocolExtensionID (.cons false Criticality (.cons false .any .nil))))) .nil))
/-- `MBMSSessionStop`, asn1/ranap/RANAP-PDU-Contents.asn:3154 -/
def MBMSSessionStop : Ty := .seq true (.cons false (.seqOf (some ⟨0, 65535, false⟩) (.seq false (.cons false ProtocolIE_ID (.cons false Criticality (.cons false .any .nil))))) (.cons true (.seqOf (some ⟨1, 65535, false⟩) (.seq false (.cons false ProtocolExtensionID (.cons false Criticality (.cons false .any .nil))))) .nil))
/-- `MBMSSessionStopResponse`, asn1/ranap/RANAP-PDU-Contents.asn:3175 -/
def MBMSSessionStopResponse : Ty := .seq true (.cons false (.seqOf (some ⟨0, 65535, false⟩) (.seq false (.cons false ProtocolIE_ID (.cons false Criticality (.cons false .any .nil))))) (.cons true (.seqOf (some ⟨1, 65535, false⟩) (.seq false (.cons false ProtocolExtensionID (.cons false Criticality (.cons false .any .nil))))) .nil))
/-- `MBMSUELinkingRequest`, asn1/ranap/RANAP-PDU-Contents.asn:3203 -/
def MBMSUELinkingRequest : Ty := .seq true (.cons false (.seqOf (some ⟨0, 65535, false⟩) (.seq false (.cons false ProtocolIE_ID (.cons false Criticality (.cons false .any .nil))))) (.cons true (.seqOf (some ⟨1, 65535, false⟩) (.seq false (.cons false ProtocolExtensionID (.cons false Criticality (.cons false .any .nil))))) .nil))
/-- `LeftMBMSBearerService-IEs-Value`, asn1/ranap/RANAP-PDU-Contents.asn:3216 -/
def LeftMBMSBearerService_IEs_Value : Ty := .seq true (.cons false TMGI (.cons true (.seqOf (some ⟨1, 65535, false⟩) (.seq false (.cons false ProtocolExtensionID (.cons false Criticality (.cons false .any .nil))))) .nil))
/-- `LeftMBMSBearerService-IEs`, asn1/ranap/RANAP-PDU-Contents.asn:3215 -/
def LeftMBMSBearerService_IEs : Ty := .seqOf (some ⟨1, 128, false⟩) LeftMBMSBearerService_IEs_Value
/-- `MBMSUELinkingResponse`, asn1/ranap/RANAP-PDU-Contents.asn:3237 -/
def MBMSUELinkingResponse : Ty := .seq true (.cons false (.seqOf (some ⟨0, 65535, false⟩) (.seq false (.cons false ProtocolIE_ID (.cons false Criticality (.cons false .any .nil))))) (.cons true (.seqOf (some ⟨1, 65535, false⟩) (.seq false (.cons false ProtocolExtensionID (.cons false Criticality (.cons false .any .nil))))) .nil))
/-- `UnsuccessfulLinking-IEs-Value`, asn1/ranap/RANAP-PDU-Contents.asn:3250 -/
def UnsuccessfulLinking_IEs_Value : Ty := .seq true (.cons false TMGI (.cons false Cause (.cons true (.seqOf (some ⟨1, 65535, false⟩) (.seq false (.cons false ProtocolExtensionID (.cons false Criticality (.cons false .any .nil))))) .nil)))
/-- `UnsuccessfulLinking-IEs`, asn1/ranap/RANAP-PDU-Contents.asn:3249 -/
def UnsuccessfulLinking_IEs : Ty := .seqOf (some ⟨1, 128, false⟩) UnsuccessfulLinking_IEs_Value
/-- `MBMSRegistrationRequest`, asn1/ranap/RANAP-PDU-Contents.asn:3278 -/
def MBMSRegistrationRequest : Ty := .seq true (.cons false (.seqOf (some ⟨0, 65535, false⟩) (.seq false (.cons false ProtocolIE_ID (.cons false Criticality (.cons false .any .nil))))) (.cons true (.seqOf (some ⟨1, 65535, false⟩) (.seq false (.cons false ProtocolExtensionID (.cons false Criticality (.cons false .any .nil))))) .nil))
/-- `MBMSRegistrationResponse`, asn1/ranap/RANAP-PDU-Contents.asn:3307 -/
def MBMSRegistrationResponse : Ty := .seq true (.cons false (.seqOf (some ⟨0, 65535, false⟩) (.seq false (.cons false ProtocolIE_ID (.cons false Criticality (.cons false .any .nil))))) (.cons true (.seqOf (some ⟨1, 65535, false⟩) (.seq false (.cons false ProtocolExtensionID (.cons false Criticality (.cons false .any .nil))))) .nil))
/-- `MBMSRegistrationFailure`, asn1/ranap/RANAP-PDU-Contents.asn:3330 -/
def MBMSRegistrationFailure : Ty := .seq true (.cons false (.seqOf (some ⟨0, 65535, false⟩) (.seq false (.cons false ProtocolIE_ID (.cons false Criticality (.cons false .any .nil))))) (.cons true (.seqOf (some ⟨1, 65535, false⟩) (.seq false (.cons false ProtocolExtensionID (.cons false Criticality (.cons false .any .nil))))) .nil))
/-- `MBMSCNDe-RegistrationRequest`, asn1/ranap/RANAP-PDU-Contents.asn:3360 -/
def MBMSCNDe_RegistrationRequest : Ty := .seq true (.cons false (.seqOf (some ⟨0, 65535, false⟩) (.seq false (.cons false ProtocolIE_ID (.cons false Criticality (.cons false .any .nil))))) (.cons true (.seqOf (some ⟨1, 65535, false⟩) (.seq false (.cons false ProtocolExtensionID (.cons false Criticality (.cons false .any .nil))))) .nil))
/-- `MBMSCNDe-RegistrationResponse`, asn1/ranap/RANAP-PDU-Contents.asn:3382 -/
def MBMSCNDe_RegistrationResponse : Ty := .seq true (.cons false (.seqOf (some ⟨0, 65535, false⟩) (.seq false (.cons false ProtocolIE_ID (.cons false Criticality (.cons false .any .nil))))) (.cons true (.seqOf (some ⟨1, 65535, false⟩) (.seq false (.cons false ProtocolExtensionID (.cons false Criticality (.cons false .any .nil))))) .nil))
/-- `MBMSRABEstablishmentIndication`, asn1/ranap/RANAP-PDU-Contents.asn:3414 -/
def MBMSRABEstablishmentIndication : Ty := .seq true (.cons false (.seqOf (some ⟨0, 65535, false⟩) (.seq false (.cons false ProtocolIE_ID (.cons false Criticality (.cons false .any .nil))))) (.cons true (.seqOf (some ⟨1, 65535, false⟩) (.seq false (.cons false ProtocolExtensionID (.cons false Criticality (.cons false .any .nil))))) .nil))
/-- `MBMSRABReleaseRequest`, asn1/ranap/RANAP-PDU-Contents.asn:3441 -/
def MBMSRABReleaseRequest : Ty := .seq true (.cons false (.seqOf (some ⟨0, 65535, false⟩) (.seq false (.cons false ProtocolIE_ID (.cons false Criticality (.cons false .any .nil))))) (.cons true (.seqOf (some ⟨1, 65535, false⟩) (.seq false (.cons false ProtocolExtensionID (.cons false Criticality (.cons false .any .nil))))) .nil))
/-- `MBMSRABRelease`, asn1/ranap/RANAP-PDU-Contents.asn:3463 -/
def MBMSRABRelease : Ty := .seq true (.cons false (.seqOf (some ⟨0, 65535, false⟩) (.seq false (.cons false ProtocolIE_ID (.cons false Criticality (.cons false .any .nil))))) (.cons true (.seqOf (some ⟨1, 65535, false⟩) (.seq false (.cons false ProtocolExtensionID (.cons false Criticality (.cons false .any .nil))))) .nil))
/-- `MBMSRABReleaseFailure`, asn1/ranap/RANAP-PDU-Contents.asn:3485 -/
def MBMSRABReleaseFailure : Ty := .seq true (.cons false (.seqOf (some ⟨0, 65535, false⟩) (.seq false (.cons false ProtocolIE_ID (.cons false Criticality (.cons false .any .nil))))) (.cons true (.seqOf (some ⟨1, 65535, false⟩) (.seq false (.cons false ProtocolExtensionID (.cons false Criticality (.cons false .any .nil))))) .nil))
/-- `SRVCC-CSKeysRequest`, asn1/ranap/RANAP-PDU-Contents.asn:3513 -/
def SRVCC_CSKeysRequest : Ty := .seq true (.cons false (.seqOf (some ⟨0, 65535, false⟩) (.seq false (.cons false ProtocolIE_ID (.cons false Criticality (.cons false .any .nil))))) (.cons true (.seqOf (some ⟨1, 65535, false⟩) (.seq false (.cons false ProtocolExtensionID (.cons false Criticality (.cons false .any .nil))))) .nil))
/-- `SRVCC-CSKeysResponse`, asn1/ranap/RANAP-PDU-Contents.asn:3533 -/
def SRVCC_CSKeysResponse : Ty := .seq true (.cons false (.seqOf (some ⟨0, 65535, false⟩) (.seq false (.cons false ProtocolIE_ID (.cons false Criticality (.cons false .any .nil))))) (.cons true (.seqOf (some ⟨1, 65535, false⟩) (.seq false (.cons false ProtocolExtensionID (.cons false Criticality (.cons false .any .nil))))) .nil))
/-- `UeRadioCapabilityMatchRequest`, asn1/ranap/RANAP-PDU-Contents.asn:3564 -/
def UeRadioCapabilityMatchRequest : Ty := .seq true (.cons false (.seqOf (some ⟨0, 65535, false⟩) (.seq false (.cons false ProtocolIE_ID (.cons false Criticality (.cons false .any .nil))))) (.cons true (.seqOf (some ⟨1, 65535, false⟩) (.seq false (.cons false ProtocolExtensionID (.cons false Criticality (.cons false .any .nil))))) .nil))
/-- `UeRadioCapabilityMatchResponse`, asn1/ranap/RANAP-PDU-Contents.asn:3584 -/
def UeRadioCapabilityMatchResponse : Ty := .seq true (.cons false (.seqOf (some ⟨0, 65535, false⟩) (.seq false (.cons false ProtocolIE_ID (.cons false Criticality (.cons false .any .nil))))) (.cons true (.seqOf (some ⟨1, 65535, false⟩) (.seq false (.cons false ProtocolExtensionID (.cons false Criticality (.cons false .any .nil))))) .nil))
/-- `Outcome`, asn1/ranap/RANAP-PDU-Descriptions.asn:215 -/
def Outcome : Ty := .seq false (.cons false ProcedureCode (.cons false Criticality (.cons false .any .nil)))
/-- `UnsuccessfulOutcome`, asn1/ranap/RANAP-PDU-Descriptions.asn:209 -/
def UnsuccessfulOutcome : Ty := .seq false (.cons false ProcedureCode (.cons false Criticality (.cons false .any .nil)))
/-- `SuccessfulOutcome`, asn1/ranap/RANAP-PDU-Descriptions.asn:203 -/
def SuccessfulOutcome : Ty := .seq false (.cons false ProcedureCode (.cons false Criticality (.cons false .any .nil)))
/-- `InitiatingMessage`, asn1/ranap/RANAP-PDU-Descriptions.asn:197 -/
def InitiatingMessage : Ty := .seq false (.cons false ProcedureCode (.cons false Criticality (.cons false .any .nil)))
/-- `RANAP-PDU`, asn1/ranap/RANAP-PDU-Descriptions.asn:189 -/
def RANAP_PDU : Ty := .choice true (.cons false InitiatingMessage (.cons false SuccessfulOutcome (.cons false UnsuccessfulOutcome (.cons false Outcome .nil)))) .nil

end Verif.Gen.Asn.Ranap
