import Verif.Model.Aper

/-!
# The types of the ASN.1 specification of HNBAP

All types of `/repo/asn1/hnbap/HNBAP-CommonDataTypes.asn`, `-IEs.asn`, `-PDU-Contents.asn` and `-PDU-Descriptions.asn`, with
the parameterized types of `-Containers.asn` and the constants of `-Constants.asn`, read by a script which splits the text
into ASN.1 tokens.  It does not read `HNBAP-PDU.asn`, the simplified version of `-PDU-Contents.asn` from which the C code was
generated (except for `IE`, to which `-IEs.asn` refers), nor the C code.  Tags are automatic: the order of the components and alternatives is that of the text.
-/

namespace Verif.Gen.Asn.Hnbap
open Verif.Aper

/-- `Criticality`, asn1/hnbap/HNBAP-CommonDataTypes.asn:30 -/
def Criticality : Ty := .enum 3 3 false
/-- `Presence`, asn1/hnbap/HNBAP-CommonDataTypes.asn:32 -/
def Presence : Ty := .enum 3 3 false
/-- `PrivateIE-ID`, asn1/hnbap/HNBAP-CommonDataTypes.asn:34 -/
def PrivateIE_ID : Ty := .choice false (.cons false (.int ⟨0, 65535, false⟩) (.cons false .oid .nil)) .nil
/-- `ProcedureCode`, asn1/hnbap/HNBAP-CommonDataTypes.asn:40 -/
def ProcedureCode : Ty := .int ⟨0, 255, false⟩
/-- `ProtocolIE-ID`, asn1/hnbap/HNBAP-CommonDataTypes.asn:55 -/
def ProtocolIE_ID : Ty := .int ⟨0, 65535, false⟩
/-- `TriggeringMessage`, asn1/hnbap/HNBAP-CommonDataTypes.asn:100 -/
def TriggeringMessage : Ty := .enum 3 3 false
/-- `IE`, asn1/hnbap/HNBAP-PDU.asn:140 -/
def IE : Ty := .seq false (.cons false ProtocolIE_ID (.cons false Criticality (.cons false .any .nil)))
/-- `IE-Extensions`, asn1/hnbap/HNBAP-IEs.asn:39 -/
def IE_Extensions : Ty := .seqOf (some ⟨1, 65535, false⟩) IE
/-- `Access-stratum-release-indicator`, asn1/hnbap/HNBAP-IEs.asn:42 -/
def Access_stratum_release_indicator : Ty := .enum 6 6 true
/-- `AccessResult`, asn1/hnbap/HNBAP-IEs.asn:46 -/
def AccessResult : Ty := .enum 2 2 true
/-- `AltitudeAndDirection`, asn1/hnbap/HNBAP-IEs.asn:48 -/
def AltitudeAndDirection : Ty := .seq true (.cons false (.enum 2 2 false) (.cons false (.int ⟨0, 32767, false⟩) .nil))
/-- `BackoffTimer`, asn1/hnbap/HNBAP-IEs.asn:55 -/
def BackoffTimer : Ty := .int ⟨0, 3600, false⟩
/-- `BindingID`, asn1/hnbap/HNBAP-IEs.asn:57 -/
def BindingID : Ty := .octets (some ⟨1, 4, true⟩)
/-- `CauseMisc`, asn1/hnbap/HNBAP-IEs.asn:104 -/
def CauseMisc : Ty := .enum 4 4 true
/-- `CauseProtocol`, asn1/hnbap/HNBAP-IEs.asn:93 -/
def CauseProtocol : Ty := .enum 7 7 true
/-- `CauseTransport`, asn1/hnbap/HNBAP-IEs.asn:87 -/
def CauseTransport : Ty := .enum 2 2 true
/-- `CauseRadioNetwork`, asn1/hnbap/HNBAP-IEs.asn:67 -/
def CauseRadioNetwork : Ty := .enum 14 16 true
/-- `Cause`, asn1/hnbap/HNBAP-IEs.asn:60 -/
def Cause : Ty := .choice true (.cons false CauseRadioNetwork (.cons false CauseTransport (.cons false CauseProtocol (.cons false CauseMisc .nil)))) .nil
/-- `CellIdentity`, asn1/hnbap/HNBAP-IEs.asn:112 -/
def CellIdentity : Ty := .bits (some ⟨28, 28, false⟩)
/-- `CELL-FACHMobilitySupport`, asn1/hnbap/HNBAP-IEs.asn:114 -/
def CELL_FACHMobilitySupport : Ty := .enum 1 1 true
/-- `Context-ID`, asn1/hnbap/HNBAP-IEs.asn:119 -/
def Context_ID : Ty := .bits (some ⟨24, 24, false⟩)
/-- `TypeOfError`, asn1/hnbap/HNBAP-IEs.asn:425 -/
def TypeOfError : Ty := .enum 2 2 true
/-- `CriticalityDiagnostics-IE-List-Value`, asn1/hnbap/HNBAP-IEs.asn:131 -/
def CriticalityDiagnostics_IE_List_Value : Ty := .seq true (.cons false Criticality (.cons false ProtocolIE_ID (.cons false TypeOfError (.cons true IE_Extensions .nil))))
/-- `CriticalityDiagnostics-IE-List`, asn1/hnbap/HNBAP-IEs.asn:130 -/
def CriticalityDiagnostics_IE_List : Ty := .seqOf (some ⟨1, 256, false⟩) CriticalityDiagnostics_IE_List_Value
/-- `CriticalityDiagnostics`, asn1/hnbap/HNBAP-IEs.asn:121 -/
def CriticalityDiagnostics : Ty := .seq true (.cons true ProcedureCode (.cons true TriggeringMessage (.cons true Criticality (.cons true CriticalityDiagnostics_IE_List (.cons true IE_Extensions .nil)))))
/-- `CSG-ID`, asn1/hnbap/HNBAP-IEs.asn:140 -/
def CSG_ID : Ty := .bits (some ⟨27, 27, false⟩)
/-- `CSG-Capability`, asn1/hnbap/HNBAP-IEs.asn:142 -/
def CSG_Capability : Ty := .enum 2 2 true
/-- `CSGMembershipStatus`, asn1/hnbap/HNBAP-IEs.asn:148 -/
def CSGMembershipStatus : Ty := .enum 2 2 true
/-- `CI`, asn1/hnbap/HNBAP-IEs.asn:161 -/
def CI : Ty := .octets (some ⟨2, 2, false⟩)
/-- `LAC`, asn1/hnbap/HNBAP-IEs.asn:296 -/
def LAC : Ty := .octets (some ⟨2, 2, false⟩)
/-- `PLMNidentity`, asn1/hnbap/HNBAP-IEs.asn:344 -/
def PLMNidentity : Ty := .octets (some ⟨3, 3, false⟩)
/-- `CGI`, asn1/hnbap/HNBAP-IEs.asn:154 -/
def CGI : Ty := .seq false (.cons false PLMNidentity (.cons false LAC (.cons false CI (.cons true IE_Extensions .nil))))
/-- `CN-DomainIndicator`, asn1/hnbap/HNBAP-IEs.asn:164 -/
def CN_DomainIndicator : Ty := .enum 2 2 false
/-- `ESN`, asn1/hnbap/HNBAP-IEs.asn:170 -/
def ESN : Ty := .bits (some ⟨32, 32, false⟩)
/-- `GeographicalCoordinates`, asn1/hnbap/HNBAP-IEs.asn:180 -/
def GeographicalCoordinates : Ty := .seq true (.cons false (.enum 2 2 false) (.cons false (.int ⟨0, 8388607, false⟩) (.cons false (.int ⟨-8388608, 8388607, false⟩) (.cons true IE_Extensions .nil))))
/-- `GeographicalLocation`, asn1/hnbap/HNBAP-IEs.asn:173 -/
def GeographicalLocation : Ty := .seq true (.cons false GeographicalCoordinates (.cons false AltitudeAndDirection (.cons true IE_Extensions .nil)))
/-- `GTP-TEI`, asn1/hnbap/HNBAP-IEs.asn:188 -/
def GTP_TEI : Ty := .octets (some ⟨4, 4, false⟩)
/-- `HNBCapacity`, asn1/hnbap/HNBAP-IEs.asn:192 -/
def HNBCapacity : Ty := .int ⟨0, 1000, false⟩
/-- `HNB-Cell-Access-Mode`, asn1/hnbap/HNBAP-IEs.asn:194 -/
def HNB_Cell_Access_Mode : Ty := .enum 3 3 true
/-- `HNB-Cell-Identifier`, asn1/hnbap/HNBAP-IEs.asn:201 -/
def HNB_Cell_Identifier : Ty := .seq true (.cons false PLMNidentity (.cons false CellIdentity (.cons true IE_Extensions .nil)))
/-- `UnknownU-RNTIIndication`, asn1/hnbap/HNBAP-IEs.asn:474 -/
def UnknownU_RNTIIndication : Ty := .enum 1 1 true
/-- `RNC-ID`, asn1/hnbap/HNBAP-IEs.asn:389 -/
def RNC_ID : Ty := .int ⟨0, 65535, false⟩
/-- `HNBConfigurationInformationMissing`, asn1/hnbap/HNBAP-IEs.asn:242 -/
def HNBConfigurationInformationMissing : Ty := .seq true (.cons false Cause (.cons true IE_Extensions .nil))
/-- `Ipv6Address`, asn1/hnbap/HNBAP-IEs.asn:288 -/
def Ipv6Address : Ty := .octets (some ⟨16, 16, false⟩)
/-- `Ipv4Address`, asn1/hnbap/HNBAP-IEs.asn:286 -/
def Ipv4Address : Ty := .octets (some ⟨4, 4, false⟩)
/-- `IP-Address`, asn1/hnbap/HNBAP-IEs.asn:276 -/
def IP_Address : Ty := .seq true (.cons false (.choice true (.cons false Ipv4Address (.cons false Ipv6Address .nil)) .nil) (.cons true IE_Extensions .nil))
/-- `Iurh-Signalling-TNL-AddressList`, asn1/hnbap/HNBAP-IEs.asn:290 -/
def Iurh_Signalling_TNL_AddressList : Ty := .seqOf (some ⟨1, 3, false⟩) IP_Address
/-- `PSC`, asn1/hnbap/HNBAP-IEs.asn:346 -/
def PSC : Ty := .bits (some ⟨9, 9, false⟩)
/-- `HNBConfigurationInformationProvided`, asn1/hnbap/HNBAP-IEs.asn:233 -/
def HNBConfigurationInformationProvided : Ty := .seq true (.cons true PSC (.cons true CSG_ID (.cons false HNB_Cell_Access_Mode (.cons false Iurh_Signalling_TNL_AddressList (.cons true IE_Extensions .nil)))))
/-- `ConfigurationInformation`, asn1/hnbap/HNBAP-IEs.asn:227 -/
def ConfigurationInformation : Ty := .choice true (.cons false HNBConfigurationInformationProvided (.cons false HNBConfigurationInformationMissing .nil)) .nil
/-- `HNB-RNL-Identity`, asn1/hnbap/HNBAP-IEs.asn:215 -/
def HNB_RNL_Identity : Ty := .choice true (.cons false HNB_Cell_Identifier .nil) .nil
/-- `HNBConfigInfo`, asn1/hnbap/HNBAP-IEs.asn:220 -/
def HNBConfigInfo : Ty := .seq true (.cons false HNB_RNL_Identity (.cons false ConfigurationInformation (.cons true IE_Extensions .nil)))
/-- `HNB-GWResponse`, asn1/hnbap/HNBAP-IEs.asn:208 -/
def HNB_GWResponse : Ty := .choice true (.cons false HNBConfigInfo (.cons false RNC_ID (.cons false UnknownU_RNTIIndication .nil))) .nil
/-- `RAC`, asn1/hnbap/HNBAP-IEs.asn:373 -/
def RAC : Ty := .octets (some ⟨1, 1, false⟩)
/-- `UTRANCellID`, asn1/hnbap/HNBAP-IEs.asn:441 -/
def UTRANCellID : Ty := .seq false (.cons false LAC (.cons false RAC (.cons false PLMNidentity (.cons false CellIdentity (.cons true IE_Extensions .nil)))))
/-- `MacroCellID`, asn1/hnbap/HNBAP-IEs.asn:312 -/
def MacroCellID : Ty := .choice true (.cons false UTRANCellID (.cons false CGI .nil)) .nil
/-- `MacroCoverageInformation`, asn1/hnbap/HNBAP-IEs.asn:306 -/
def MacroCoverageInformation : Ty := .seq true (.cons false MacroCellID (.cons true IE_Extensions .nil))
/-- `HNB-Location-Information`, asn1/hnbap/HNBAP-IEs.asn:248 -/
def HNB_Location_Information : Ty := .seq true (.cons true MacroCoverageInformation (.cons true GeographicalLocation (.cons true IE_Extensions .nil)))
/-- `HNB-Identity-Info`, asn1/hnbap/HNBAP-IEs.asn:261 -/
def HNB_Identity_Info : Ty := .octets (some ⟨1, 255, false⟩)
/-- `HNB-Identity`, asn1/hnbap/HNBAP-IEs.asn:255 -/
def HNB_Identity : Ty := .seq true (.cons false HNB_Identity_Info (.cons true IE_Extensions .nil))
/-- `IMEI`, asn1/hnbap/HNBAP-IEs.asn:265 -/
def IMEI : Ty := .bits (some ⟨60, 60, false⟩)
/-- `IMSI`, asn1/hnbap/HNBAP-IEs.asn:267 -/
def IMSI : Ty := .octets (some ⟨3, 8, false⟩)
/-- `IMSIDS41`, asn1/hnbap/HNBAP-IEs.asn:269 -/
def IMSIDS41 : Ty := .octets (some ⟨5, 7, false⟩)
/-- `IMSIESN`, asn1/hnbap/HNBAP-IEs.asn:271 -/
def IMSIESN : Ty := .seq false (.cons false IMSIDS41 (.cons false ESN .nil))
/-- `LAI`, asn1/hnbap/HNBAP-IEs.asn:298 -/
def LAI : Ty := .seq true (.cons false PLMNidentity (.cons false LAC .nil))
/-- `MuxPortNumber`, asn1/hnbap/HNBAP-IEs.asn:318 -/
def MuxPortNumber : Ty := .int ⟨1024, 65535, false⟩
/-- `NeighbourIdentity`, asn1/hnbap/HNBAP-IEs.asn:324 -/
def NeighbourIdentity : Ty := .choice true (.cons false HNB_RNL_Identity (.cons false CellIdentity .nil)) .nil
/-- `NeighbourCellIdentityList`, asn1/hnbap/HNBAP-IEs.asn:322 -/
def NeighbourCellIdentityList : Ty := .seqOf (some ⟨0, 128, false⟩) NeighbourIdentity
/-- `NeighbourInfoList`, asn1/hnbap/HNBAP-IEs.asn:330 -/
def NeighbourInfoList : Ty := .seqOf (some ⟨1, 32, false⟩) HNBConfigInfo
/-- `AdditionalNeighbourInfoList`, asn1/hnbap/HNBAP-IEs.asn:332 -/
def AdditionalNeighbourInfoList : Ty := .seqOf (some ⟨1, 128, false⟩) HNBConfigInfo
/-- `NeighbourInfoRequestItem`, asn1/hnbap/HNBAP-IEs.asn:336 -/
def NeighbourInfoRequestItem : Ty := .seq true (.cons false HNB_RNL_Identity (.cons true IE_Extensions .nil))
/-- `NeighbourInfoRequestList`, asn1/hnbap/HNBAP-IEs.asn:334 -/
def NeighbourInfoRequestList : Ty := .seqOf (some ⟨1, 32, false⟩) NeighbourInfoRequestItem
/-- `PTMSI`, asn1/hnbap/HNBAP-IEs.asn:348 -/
def PTMSI : Ty := .bits (some ⟨32, 32, false⟩)
/-- `RAI`, asn1/hnbap/HNBAP-IEs.asn:375 -/
def RAI : Ty := .seq true (.cons false LAI (.cons false RAC .nil))
/-- `PTMSIRAI`, asn1/hnbap/HNBAP-IEs.asn:350 -/
def PTMSIRAI : Ty := .seq true (.cons false PTMSI (.cons false RAI .nil))
/-- `RAB-ID`, asn1/hnbap/HNBAP-IEs.asn:360 -/
def RAB_ID : Ty := .bits (some ⟨8, 8, false⟩)
/-- `TransportLayerAddress`, asn1/hnbap/HNBAP-IEs.asn:416 -/
def TransportLayerAddress : Ty := .bits (some ⟨1, 160, true⟩)
/-- `TransportInfo`, asn1/hnbap/HNBAP-IEs.asn:405 -/
def TransportInfo : Ty := .seq true (.cons false TransportLayerAddress (.cons false (.choice true (.cons false GTP_TEI (.cons false BindingID .nil)) .nil) (.cons true IE_Extensions .nil)))
/-- `RABListItem`, asn1/hnbap/HNBAP-IEs.asn:364 -/
def RABListItem : Ty := .seq true (.cons false RAB_ID (.cons false TransportInfo (.cons false TransportInfo (.cons false CN_DomainIndicator (.cons true IE_Extensions .nil)))))
/-- `RABList`, asn1/hnbap/HNBAP-IEs.asn:362 -/
def RABList : Ty := .seqOf (some ⟨1, 256, false⟩) RABListItem
/-- `Registration-Cause`, asn1/hnbap/HNBAP-IEs.asn:382 -/
def Registration_Cause : Ty := .enum 2 3 true
/-- `SAC`, asn1/hnbap/HNBAP-IEs.asn:393 -/
def SAC : Ty := .octets (some ⟨2, 2, false⟩)
/-- `S-RNTIPrefix`, asn1/hnbap/HNBAP-IEs.asn:395 -/
def S_RNTIPrefix : Ty := .bits (some ⟨1, 16, true⟩)
/-- `TMSILAI`, asn1/hnbap/HNBAP-IEs.asn:398 -/
def TMSILAI : Ty := .seq false (.cons false (.bits (some ⟨32, 32, false⟩)) (.cons false LAI .nil))
/-- `TMSIDS41`, asn1/hnbap/HNBAP-IEs.asn:403 -/
def TMSIDS41 : Ty := .octets (some ⟨2, 17, false⟩)
/-- `UDP-Port-Number`, asn1/hnbap/HNBAP-IEs.asn:432 -/
def UDP_Port_Number : Ty := .octets (some ⟨2, 2, false⟩)
/-- `Tunnel-Information`, asn1/hnbap/HNBAP-IEs.asn:418 -/
def Tunnel_Information : Ty := .seq true (.cons false IP_Address (.cons true UDP_Port_Number (.cons true IE_Extensions .nil)))
/-- `UE-Capabilities`, asn1/hnbap/HNBAP-IEs.asn:434 -/
def UE_Capabilities : Ty := .seq true (.cons false Access_stratum_release_indicator (.cons false CSG_Capability (.cons true IE_Extensions .nil)))
/-- `UE-Identity`, asn1/hnbap/HNBAP-IEs.asn:451 -/
def UE_Identity : Ty := .choice true (.cons false IMSI (.cons false TMSILAI (.cons false PTMSIRAI (.cons false IMEI (.cons false ESN (.cons false IMSIDS41 (.cons false IMSIESN (.cons false TMSIDS41 .nil)))))))) .nil
/-- `Update-cause`, asn1/hnbap/HNBAP-IEs.asn:463 -/
def Update_cause : Ty := .enum 1 1 true
/-- `URAIdentity`, asn1/hnbap/HNBAP-IEs.asn:470 -/
def URAIdentity : Ty := .int ⟨0, 65535, false⟩
/-- `URAIdentityList`, asn1/hnbap/HNBAP-IEs.asn:468 -/
def URAIdentityList : Ty := .seqOf (some ⟨0, 8, false⟩) URAIdentity
/-- `U-RNTI`, asn1/hnbap/HNBAP-IEs.asn:472 -/
def U_RNTI : Ty := .bits (some ⟨32, 32, false⟩)
/-- `HNBRegisterRequest`, asn1/hnbap/HNBAP-PDU-Contents.asn:129 -/
def HNBRegisterRequest : Ty := .seq true (.cons false (.seqOf (some ⟨0, 65535, false⟩) (.seq false (.cons false ProtocolIE_ID (.cons false Criticality (.cons false .any .nil))))) (.cons true (.seqOf (some ⟨1, 65535, false⟩) (.seq false (.cons false ProtocolIE_ID (.cons false Criticality (.cons false .any .nil))))) .nil))
/-- `HNBRegisterAccept`, asn1/hnbap/HNBAP-PDU-Contents.asn:166 -/
def HNBRegisterAccept : Ty := .seq true (.cons false (.seqOf (some ⟨0, 65535, false⟩) (.seq false (.cons false ProtocolIE_ID (.cons false Criticality (.cons false .any .nil))))) (.cons true (.seqOf (some ⟨1, 65535, false⟩) (.seq false (.cons false ProtocolIE_ID (.cons false Criticality (.cons false .any .nil))))) .nil))
/-- `HNBRegisterReject`, asn1/hnbap/HNBAP-PDU-Contents.asn:191 -/
def HNBRegisterReject : Ty := .seq true (.cons false (.seqOf (some ⟨0, 65535, false⟩) (.seq false (.cons false ProtocolIE_ID (.cons false Criticality (.cons false .any .nil))))) (.cons true (.seqOf (some ⟨1, 65535, false⟩) (.seq false (.cons false ProtocolIE_ID (.cons false Criticality (.cons false .any .nil))))) .nil))
/-- `HNBDe-Register`, asn1/hnbap/HNBAP-PDU-Contents.asn:217 -/
def HNBDe_Register : Ty := .seq true (.cons false (.seqOf (some ⟨0, 65535, false⟩) (.seq false (.cons false ProtocolIE_ID (.cons false Criticality (.cons false .any .nil))))) (.cons true (.seqOf (some ⟨1, 65535, false⟩) (.seq false (.cons false ProtocolIE_ID (.cons false Criticality (.cons false .any .nil))))) .nil))
/-- `UERegisterRequest`, asn1/hnbap/HNBAP-PDU-Contents.asn:241 -/
def UERegisterRequest : Ty := .seq true (.cons false (.seqOf (some ⟨0, 65535, false⟩) (.seq false (.cons false ProtocolIE_ID (.cons false Criticality (.cons false .any .nil))))) (.cons true (.seqOf (some ⟨1, 65535, false⟩) (.seq false (.cons false ProtocolIE_ID (.cons false Criticality (.cons false .any .nil))))) .nil))
/-- `UERegisterAccept`, asn1/hnbap/HNBAP-PDU-Contents.asn:264 -/
def UERegisterAccept : Ty := .seq true (.cons false (.seqOf (some ⟨0, 65535, false⟩) (.seq false (.cons false ProtocolIE_ID (.cons false Criticality (.cons false .any .nil))))) (.cons true (.seqOf (some ⟨1, 65535, false⟩) (.seq false (.cons false ProtocolIE_ID (.cons false Criticality (.cons false .any .nil))))) .nil))
/-- `UERegisterReject`, asn1/hnbap/HNBAP-PDU-Contents.asn:288 -/
def UERegisterReject : Ty := .seq true (.cons false (.seqOf (some ⟨0, 65535, false⟩) (.seq false (.cons false ProtocolIE_ID (.cons false Criticality (.cons false .any .nil))))) (.cons true (.seqOf (some ⟨1, 65535, false⟩) (.seq false (.cons false ProtocolIE_ID (.cons false Criticality (.cons false .any .nil))))) .nil))
/-- `UEDe-Register`, asn1/hnbap/HNBAP-PDU-Contents.asn:312 -/
def UEDe_Register : Ty := .seq true (.cons false (.seqOf (some ⟨0, 65535, false⟩) (.seq false (.cons false ProtocolIE_ID (.cons false Criticality (.cons false .any .nil))))) (.cons true (.seqOf (some ⟨1, 65535, false⟩) (.seq false (.cons false ProtocolIE_ID (.cons false Criticality (.cons false .any .nil))))) .nil))
/-- `CSGMembershipUpdate`, asn1/hnbap/HNBAP-PDU-Contents.asn:334 -/
def CSGMembershipUpdate : Ty := .seq true (.cons false (.seqOf (some ⟨0, 65535, false⟩) (.seq false (.cons false ProtocolIE_ID (.cons false Criticality (.cons false .any .nil))))) (.cons true (.seqOf (some ⟨1, 65535, false⟩) (.seq false (.cons false ProtocolIE_ID (.cons false Criticality (.cons false .any .nil))))) .nil))
/-- `TNLUpdateRequest`, asn1/hnbap/HNBAP-PDU-Contents.asn:356 -/
def TNLUpdateRequest : Ty := .seq true (.cons false (.seqOf (some ⟨0, 65535, false⟩) (.seq false (.cons false ProtocolIE_ID (.cons false Criticality (.cons false .any .nil))))) (.cons true (.seqOf (some ⟨1, 65535, false⟩) (.seq false (.cons false ProtocolIE_ID (.cons false Criticality (.cons false .any .nil))))) .nil))
/-- `TNLUpdateResponse`, asn1/hnbap/HNBAP-PDU-Contents.asn:379 -/
def TNLUpdateResponse : Ty := .seq true (.cons false (.seqOf (some ⟨0, 65535, false⟩) (.seq false (.cons false ProtocolIE_ID (.cons false Criticality (.cons false .any .nil))))) (.cons true (.seqOf (some ⟨1, 65535, false⟩) (.seq false (.cons false ProtocolIE_ID (.cons false Criticality (.cons false .any .nil))))) .nil))
/-- `TNLUpdateFailure`, asn1/hnbap/HNBAP-PDU-Contents.asn:400 -/
def TNLUpdateFailure : Ty := .seq true (.cons false (.seqOf (some ⟨0, 65535, false⟩) (.seq false (.cons false ProtocolIE_ID (.cons false Criticality (.cons false .any .nil))))) (.cons true (.seqOf (some ⟨1, 65535, false⟩) (.seq false (.cons false ProtocolIE_ID (.cons false Criticality (.cons false .any .nil))))) .nil))
/-- `HNBConfigTransferRequest`, asn1/hnbap/HNBAP-PDU-Contents.asn:423 -/
def HNBConfigTransferRequest : Ty := .seq true (.cons false (.seqOf (some ⟨0, 65535, false⟩) (.seq false (.cons false ProtocolIE_ID (.cons false Criticality (.cons false .any .nil))))) (.cons true (.seqOf (some ⟨1, 65535, false⟩) (.seq false (.cons false ProtocolIE_ID (.cons false Criticality (.cons false .any .nil))))) .nil))
/-- `HNBConfigTransferResponse`, asn1/hnbap/HNBAP-PDU-Contents.asn:444 -/
def HNBConfigTransferResponse : Ty := .seq true (.cons false (.seqOf (some ⟨0, 65535, false⟩) (.seq false (.cons false ProtocolIE_ID (.cons false Criticality (.cons false .any .nil))))) (.cons true (.seqOf (some ⟨1, 65535, false⟩) (.seq false (.cons false ProtocolIE_ID (.cons false Criticality (.cons false .any .nil))))) .nil))
/-- `RelocationComplete`, asn1/hnbap/HNBAP-PDU-Contents.asn:466 -/
def RelocationComplete : Ty := .seq true (.cons false (.seqOf (some ⟨0, 65535, false⟩) (.seq false (.cons false ProtocolIE_ID (.cons false Criticality (.cons false .any .nil))))) (.cons true (.seqOf (some ⟨1, 65535, false⟩) (.seq false (.cons false ProtocolIE_ID (.cons false Criticality (.cons false .any .nil))))) .nil))
/-- `ErrorIndication`, asn1/hnbap/HNBAP-PDU-Contents.asn:488 -/
def ErrorIndication : Ty := .seq true (.cons false (.seqOf (some ⟨0, 65535, false⟩) (.seq false (.cons false ProtocolIE_ID (.cons false Criticality (.cons false .any .nil))))) (.cons true (.seqOf (some ⟨1, 65535, false⟩) (.seq false (.cons false ProtocolIE_ID (.cons false Criticality (.cons false .any .nil))))) .nil))
/-- `PrivateMessage`, asn1/hnbap/HNBAP-PDU-Contents.asn:510 -/
def PrivateMessage : Ty := .seq true (.cons false (.seqOf (some ⟨1, 65535, false⟩) (.seq false (.cons false PrivateIE_ID (.cons false Criticality (.cons false .any .nil))))) .nil)
/-- `U-RNTIQueryRequest`, asn1/hnbap/HNBAP-PDU-Contents.asn:525 -/
def U_RNTIQueryRequest : Ty := .seq true (.cons false (.seqOf (some ⟨0, 65535, false⟩) (.seq false (.cons false ProtocolIE_ID (.cons false Criticality (.cons false .any .nil))))) (.cons true (.seqOf (some ⟨1, 65535, false⟩) (.seq false (.cons false ProtocolIE_ID (.cons false Criticality (.cons false .any .nil))))) .nil))
/-- `U-RNTIQueryResponse`, asn1/hnbap/HNBAP-PDU-Contents.asn:546 -/
def U_RNTIQueryResponse : Ty := .seq true (.cons false (.seqOf (some ⟨0, 65535, false⟩) (.seq false (.cons false ProtocolIE_ID (.cons false Criticality (.cons false .any .nil))))) (.cons true (.seqOf (some ⟨1, 65535, false⟩) (.seq false (.cons false ProtocolIE_ID (.cons false Criticality (.cons false .any .nil))))) .nil))
/-- `UnsuccessfulOutcome`, asn1/hnbap/HNBAP-PDU-Descriptions.asn:109 -/
def UnsuccessfulOutcome : Ty := .seq false (.cons false ProcedureCode (.cons false Criticality (.cons false .any .nil)))
/-- `SuccessfulOutcome`, asn1/hnbap/HNBAP-PDU-Descriptions.asn:103 -/
def SuccessfulOutcome : Ty := .seq false (.cons false ProcedureCode (.cons false Criticality (.cons false .any .nil)))
/-- `InitiatingMessage`, asn1/hnbap/HNBAP-PDU-Descriptions.asn:97 -/
def InitiatingMessage : Ty := .seq false (.cons false ProcedureCode (.cons false Criticality (.cons false .any .nil)))
/-- `HNBAP-PDU`, asn1/hnbap/HNBAP-PDU-Descriptions.asn:89 -/
def HNBAP_PDU : Ty := .choice true (.cons false InitiatingMessage (.cons false SuccessfulOutcome (.cons false UnsuccessfulOutcome .nil))) .nil

end Verif.Gen.Asn.Hnbap
