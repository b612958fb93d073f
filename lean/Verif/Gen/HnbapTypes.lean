import Verif.Model.Aper

/-!
# Type descriptors of HNBAP

Transcribed by a script from the descriptors `asn_DEF_*` in `/repo/src/hnbap/*.c` (per-descriptor
citation in front of each definition): the PDU, the message containers and the types of all
information elements in the tables of `Verif/Gen/HnbapIes.lean`, with what they refer to.
-/

namespace Verif.Gen.Hnbap
open Verif.Aper

/-- `asn_DEF_HNBAP_Criticality`, src/hnbap/HNBAP_Criticality.c:143 -/
def HNBAP_Criticality : Ty := .enum 3 3 false
/-- `asn_DEF_HNBAP_ProcedureCode`, src/hnbap/HNBAP_ProcedureCode.c:141 -/
def HNBAP_ProcedureCode : Ty := .int ⟨0, 255, false⟩
/-- `asn_DEF_HNBAP_UnsuccessfulOutcome`, src/hnbap/HNBAP_UnsuccessfulOutcome.c:56 -/
def HNBAP_UnsuccessfulOutcome : Ty := .seq false (.cons false HNBAP_ProcedureCode (.cons false HNBAP_Criticality (.cons false (.any) .nil)))
/-- `asn_DEF_HNBAP_SuccessfulOutcome`, src/hnbap/HNBAP_SuccessfulOutcome.c:56 -/
def HNBAP_SuccessfulOutcome : Ty := .seq false (.cons false HNBAP_ProcedureCode (.cons false HNBAP_Criticality (.cons false (.any) .nil)))
/-- `asn_DEF_HNBAP_InitiatingMessage`, src/hnbap/HNBAP_InitiatingMessage.c:56 -/
def HNBAP_InitiatingMessage : Ty := .seq false (.cons false HNBAP_ProcedureCode (.cons false HNBAP_Criticality (.cons false (.any) .nil)))
/-- `asn_DEF_HNBAP_HNBAP_PDU`, src/hnbap/HNBAP_HNBAP-PDU.c:59 -/
def HNBAP_HNBAP_PDU : Ty := .choice true (.cons false HNBAP_InitiatingMessage (.cons false HNBAP_SuccessfulOutcome (.cons false HNBAP_UnsuccessfulOutcome .nil))) .nil
/-- `asn_DEF_HNBAP_ProtocolIE_ID`, src/hnbap/HNBAP_ProtocolIE-ID.c:141 -/
def HNBAP_ProtocolIE_ID : Ty := .int ⟨0, 65535, false⟩
/-- `asn_DEF_HNBAP_IE`, src/hnbap/HNBAP_IE.c:56 -/
def HNBAP_IE : Ty := .seq false (.cons false HNBAP_ProtocolIE_ID (.cons false HNBAP_Criticality (.cons false (.any) .nil)))
/-- `asn_DEF_hnbRegisterRequest_ies_2`, src/hnbap/HNBAP_HNBRegisterRequest.c:67 -/
def HNBAP_HNBRegisterRequest__hnbRegisterRequest_ies_2 : Ty := .seqOf (some ⟨0, 65535, false⟩) HNBAP_IE
/-- `asn_DEF_HNBAP_HNBRegisterRequest`, src/hnbap/HNBAP_HNBRegisterRequest.c:120 -/
def HNBAP_HNBRegisterRequest : Ty := .seq true (.cons false HNBAP_HNBRegisterRequest__hnbRegisterRequest_ies_2 .nil)
/-- `asn_DEF_HNBAP_IE_Extensions`, src/hnbap/HNBAP_IE-Extensions.c:34 -/
def HNBAP_IE_Extensions : Ty := .seqOf (some ⟨1, 65535, false⟩) HNBAP_IE
/-- `asn_DEF_HNBAP_HNB_Identity_Info`, src/hnbap/HNBAP_HNB-Identity-Info.c:142 -/
def HNBAP_HNB_Identity_Info : Ty := .octets (some ⟨1, 255, false⟩)
/-- `asn_DEF_HNBAP_HNB_Identity`, src/hnbap/HNBAP_HNB-Identity.c:48 -/
def HNBAP_HNB_Identity : Ty := .seq true (.cons false HNBAP_HNB_Identity_Info (.cons true HNBAP_IE_Extensions .nil))
/-- `asn_DEF_directionOfAltitude_2`, src/hnbap/HNBAP_AltitudeAndDirection.c:173 -/
def HNBAP_AltitudeAndDirection__directionOfAltitude_2 : Ty := .enum 2 2 false
/-- `asn_DEF_HNBAP_AltitudeAndDirection`, src/hnbap/HNBAP_AltitudeAndDirection.c:235 -/
def HNBAP_AltitudeAndDirection : Ty := .seq true (.cons false HNBAP_AltitudeAndDirection__directionOfAltitude_2 (.cons false (.int ⟨0, 32767, false⟩) .nil))
/-- `asn_DEF_latitudeSign_2`, src/hnbap/HNBAP_GeographicalCoordinates.c:203 -/
def HNBAP_GeographicalCoordinates__latitudeSign_2 : Ty := .enum 2 2 false
/-- `asn_DEF_HNBAP_GeographicalCoordinates`, src/hnbap/HNBAP_GeographicalCoordinates.c:287 -/
def HNBAP_GeographicalCoordinates : Ty := .seq true (.cons false HNBAP_GeographicalCoordinates__latitudeSign_2 (.cons false (.int ⟨0, 8388607, false⟩) (.cons false (.int ⟨-8388608, 8388607, false⟩) (.cons true HNBAP_IE_Extensions .nil))))
/-- `asn_DEF_HNBAP_GeographicalLocation`, src/hnbap/HNBAP_GeographicalLocation.c:58 -/
def HNBAP_GeographicalLocation : Ty := .seq true (.cons false HNBAP_GeographicalCoordinates (.cons false HNBAP_AltitudeAndDirection (.cons true HNBAP_IE_Extensions .nil)))
/-- `asn_DEF_HNBAP_CI`, src/hnbap/HNBAP_CI.c:142 -/
def HNBAP_CI : Ty := .octets (some ⟨2, 2, false⟩)
/-- `asn_DEF_HNBAP_LAC`, src/hnbap/HNBAP_LAC.c:142 -/
def HNBAP_LAC : Ty := .octets (some ⟨2, 2, false⟩)
/-- `asn_DEF_HNBAP_PLMNidentity`, src/hnbap/HNBAP_PLMNidentity.c:142 -/
def HNBAP_PLMNidentity : Ty := .octets (some ⟨3, 3, false⟩)
/-- `asn_DEF_HNBAP_CGI`, src/hnbap/HNBAP_CGI.c:68 -/
def HNBAP_CGI : Ty := .seq false (.cons false HNBAP_PLMNidentity (.cons false HNBAP_LAC (.cons false HNBAP_CI (.cons true HNBAP_IE_Extensions .nil))))
/-- `asn_DEF_HNBAP_CellIdentity`, src/hnbap/HNBAP_CellIdentity.c:147 -/
def HNBAP_CellIdentity : Ty := .bits (some ⟨28, 28, false⟩)
/-- `asn_DEF_HNBAP_RAC`, src/hnbap/HNBAP_RAC.c:142 -/
def HNBAP_RAC : Ty := .octets (some ⟨1, 1, false⟩)
/-- `asn_DEF_HNBAP_UTRANCellID`, src/hnbap/HNBAP_UTRANCellID.c:78 -/
def HNBAP_UTRANCellID : Ty := .seq false (.cons false HNBAP_LAC (.cons false HNBAP_RAC (.cons false HNBAP_PLMNidentity (.cons false HNBAP_CellIdentity (.cons true HNBAP_IE_Extensions .nil)))))
/-- `asn_DEF_HNBAP_MacroCellID`, src/hnbap/HNBAP_MacroCellID.c:49 -/
def HNBAP_MacroCellID : Ty := .choice true (.cons false HNBAP_UTRANCellID (.cons false HNBAP_CGI .nil)) .nil
/-- `asn_DEF_HNBAP_MacroCoverageInformation`, src/hnbap/HNBAP_MacroCoverageInformation.c:48 -/
def HNBAP_MacroCoverageInformation : Ty := .seq true (.cons false HNBAP_MacroCellID (.cons true HNBAP_IE_Extensions .nil))
/-- `asn_DEF_HNBAP_HNB_Location_Information`, src/hnbap/HNBAP_HNB-Location-Information.c:58 -/
def HNBAP_HNB_Location_Information : Ty := .seq true (.cons true HNBAP_MacroCoverageInformation (.cons true HNBAP_GeographicalLocation (.cons true HNBAP_IE_Extensions .nil)))
/-- `asn_DEF_HNBAP_SAC`, src/hnbap/HNBAP_SAC.c:142 -/
def HNBAP_SAC : Ty := .octets (some ⟨2, 2, false⟩)
/-- `asn_DEF_HNBAP_CSG_ID`, src/hnbap/HNBAP_CSG-ID.c:147 -/
def HNBAP_CSG_ID : Ty := .bits (some ⟨27, 27, false⟩)
/-- `asn_DEF_hnbRegisterAccept_ies_2`, src/hnbap/HNBAP_HNBRegisterAccept.c:67 -/
def HNBAP_HNBRegisterAccept__hnbRegisterAccept_ies_2 : Ty := .seqOf (some ⟨0, 65535, false⟩) HNBAP_IE
/-- `asn_DEF_HNBAP_HNBRegisterAccept`, src/hnbap/HNBAP_HNBRegisterAccept.c:120 -/
def HNBAP_HNBRegisterAccept : Ty := .seq true (.cons false HNBAP_HNBRegisterAccept__hnbRegisterAccept_ies_2 .nil)
/-- `asn_DEF_HNBAP_RNC_ID`, src/hnbap/HNBAP_RNC-ID.c:141 -/
def HNBAP_RNC_ID : Ty := .int ⟨0, 65535, false⟩
/-- `asn_DEF_hnbRegisterReject_ies_2`, src/hnbap/HNBAP_HNBRegisterReject.c:67 -/
def HNBAP_HNBRegisterReject__hnbRegisterReject_ies_2 : Ty := .seqOf (some ⟨0, 65535, false⟩) HNBAP_IE
/-- `asn_DEF_HNBAP_HNBRegisterReject`, src/hnbap/HNBAP_HNBRegisterReject.c:120 -/
def HNBAP_HNBRegisterReject : Ty := .seq true (.cons false HNBAP_HNBRegisterReject__hnbRegisterReject_ies_2 .nil)
/-- `asn_DEF_HNBAP_CauseMisc`, src/hnbap/HNBAP_CauseMisc.c:147 -/
def HNBAP_CauseMisc : Ty := .enum 4 4 true
/-- `asn_DEF_HNBAP_CauseProtocol`, src/hnbap/HNBAP_CauseProtocol.c:153 -/
def HNBAP_CauseProtocol : Ty := .enum 7 7 true
/-- `asn_DEF_HNBAP_CauseTransport`, src/hnbap/HNBAP_CauseTransport.c:143 -/
def HNBAP_CauseTransport : Ty := .enum 2 2 true
/-- `asn_DEF_HNBAP_CauseRadioNetwork`, src/hnbap/HNBAP_CauseRadioNetwork.c:171 -/
def HNBAP_CauseRadioNetwork : Ty := .enum 14 16 true
/-- `asn_DEF_HNBAP_Cause`, src/hnbap/HNBAP_Cause.c:69 -/
def HNBAP_Cause : Ty := .choice true (.cons false HNBAP_CauseRadioNetwork (.cons false HNBAP_CauseTransport (.cons false HNBAP_CauseProtocol (.cons false HNBAP_CauseMisc .nil)))) .nil
/-- `asn_DEF_HNBAP_TypeOfError`, src/hnbap/HNBAP_TypeOfError.c:143 -/
def HNBAP_TypeOfError : Ty := .enum 2 2 true
/-- `asn_DEF_HNBAP_CriticalityDiagnostics_IE_List_Value`, src/hnbap/HNBAP_CriticalityDiagnostics-IE-List-Value.c:68 -/
def HNBAP_CriticalityDiagnostics_IE_List_Value : Ty := .seq true (.cons false HNBAP_Criticality (.cons false HNBAP_ProtocolIE_ID (.cons false HNBAP_TypeOfError (.cons true HNBAP_IE_Extensions .nil))))
/-- `asn_DEF_HNBAP_CriticalityDiagnostics_IE_List`, src/hnbap/HNBAP_CriticalityDiagnostics-IE-List.c:34 -/
def HNBAP_CriticalityDiagnostics_IE_List : Ty := .seqOf (some ⟨1, 256, false⟩) HNBAP_CriticalityDiagnostics_IE_List_Value
/-- `asn_DEF_HNBAP_TriggeringMessage`, src/hnbap/HNBAP_TriggeringMessage.c:143 -/
def HNBAP_TriggeringMessage : Ty := .enum 3 3 false
/-- `asn_DEF_HNBAP_CriticalityDiagnostics`, src/hnbap/HNBAP_CriticalityDiagnostics.c:78 -/
def HNBAP_CriticalityDiagnostics : Ty := .seq true (.cons true HNBAP_ProcedureCode (.cons true HNBAP_TriggeringMessage (.cons true HNBAP_Criticality (.cons true HNBAP_CriticalityDiagnostics_IE_List (.cons true HNBAP_IE_Extensions .nil)))))
/-- `asn_DEF_HNBAP_BackoffTimer`, src/hnbap/HNBAP_BackoffTimer.c:141 -/
def HNBAP_BackoffTimer : Ty := .int ⟨0, 3600, false⟩
/-- `asn_DEF_hnbDe_Register_ies_2`, src/hnbap/HNBAP_HNBDe-Register.c:67 -/
def HNBAP_HNBDe_Register__hnbDe_Register_ies_2 : Ty := .seqOf (some ⟨0, 65535, false⟩) HNBAP_IE
/-- `asn_DEF_HNBAP_HNBDe_Register`, src/hnbap/HNBAP_HNBDe-Register.c:120 -/
def HNBAP_HNBDe_Register : Ty := .seq true (.cons false HNBAP_HNBDe_Register__hnbDe_Register_ies_2 .nil)
/-- `asn_DEF_ueRegisterRequest_ies_2`, src/hnbap/HNBAP_UERegisterRequest.c:67 -/
def HNBAP_UERegisterRequest__ueRegisterRequest_ies_2 : Ty := .seqOf (some ⟨0, 65535, false⟩) HNBAP_IE
/-- `asn_DEF_HNBAP_UERegisterRequest`, src/hnbap/HNBAP_UERegisterRequest.c:120 -/
def HNBAP_UERegisterRequest : Ty := .seq true (.cons false HNBAP_UERegisterRequest__ueRegisterRequest_ies_2 .nil)
/-- `asn_DEF_HNBAP_TMSIDS41`, src/hnbap/HNBAP_TMSIDS41.c:142 -/
def HNBAP_TMSIDS41 : Ty := .octets (some ⟨2, 17, false⟩)
/-- `asn_DEF_HNBAP_ESN`, src/hnbap/HNBAP_ESN.c:147 -/
def HNBAP_ESN : Ty := .bits (some ⟨32, 32, false⟩)
/-- `asn_DEF_HNBAP_IMSIDS41`, src/hnbap/HNBAP_IMSIDS41.c:142 -/
def HNBAP_IMSIDS41 : Ty := .octets (some ⟨5, 7, false⟩)
/-- `asn_DEF_HNBAP_IMSIESN`, src/hnbap/HNBAP_IMSIESN.c:46 -/
def HNBAP_IMSIESN : Ty := .seq false (.cons false HNBAP_IMSIDS41 (.cons false HNBAP_ESN .nil))
/-- `asn_DEF_HNBAP_IMEI`, src/hnbap/HNBAP_IMEI.c:147 -/
def HNBAP_IMEI : Ty := .bits (some ⟨60, 60, false⟩)
/-- `asn_DEF_HNBAP_LAI`, src/hnbap/HNBAP_LAI.c:46 -/
def HNBAP_LAI : Ty := .seq true (.cons false HNBAP_PLMNidentity (.cons false HNBAP_LAC .nil))
/-- `asn_DEF_HNBAP_RAI`, src/hnbap/HNBAP_RAI.c:46 -/
def HNBAP_RAI : Ty := .seq true (.cons false HNBAP_LAI (.cons false HNBAP_RAC .nil))
/-- `asn_DEF_HNBAP_PTMSI`, src/hnbap/HNBAP_PTMSI.c:147 -/
def HNBAP_PTMSI : Ty := .bits (some ⟨32, 32, false⟩)
/-- `asn_DEF_HNBAP_PTMSIRAI`, src/hnbap/HNBAP_PTMSIRAI.c:46 -/
def HNBAP_PTMSIRAI : Ty := .seq true (.cons false HNBAP_PTMSI (.cons false HNBAP_RAI .nil))
/-- `asn_DEF_HNBAP_TMSILAI`, src/hnbap/HNBAP_TMSILAI.c:82 -/
def HNBAP_TMSILAI : Ty := .seq false (.cons false (.bits (some ⟨32, 32, false⟩)) (.cons false HNBAP_LAI .nil))
/-- `asn_DEF_HNBAP_IMSI`, src/hnbap/HNBAP_IMSI.c:142 -/
def HNBAP_IMSI : Ty := .octets (some ⟨3, 8, false⟩)
/-- `asn_DEF_HNBAP_UE_Identity`, src/hnbap/HNBAP_UE-Identity.c:109 -/
def HNBAP_UE_Identity : Ty := .choice true (.cons false HNBAP_IMSI (.cons false HNBAP_TMSILAI (.cons false HNBAP_PTMSIRAI (.cons false HNBAP_IMEI (.cons false HNBAP_ESN (.cons false HNBAP_IMSIDS41 (.cons false HNBAP_IMSIESN (.cons false HNBAP_TMSIDS41 .nil)))))))) .nil
/-- `asn_DEF_HNBAP_Registration_Cause`, src/hnbap/HNBAP_Registration-Cause.c:145 -/
def HNBAP_Registration_Cause : Ty := .enum 2 3 true
/-- `asn_DEF_HNBAP_CSG_Capability`, src/hnbap/HNBAP_CSG-Capability.c:143 -/
def HNBAP_CSG_Capability : Ty := .enum 2 2 true
/-- `asn_DEF_HNBAP_Access_stratum_release_indicator`, src/hnbap/HNBAP_Access-stratum-release-indicator.c:151 -/
def HNBAP_Access_stratum_release_indicator : Ty := .enum 6 6 true
/-- `asn_DEF_HNBAP_UE_Capabilities`, src/hnbap/HNBAP_UE-Capabilities.c:58 -/
def HNBAP_UE_Capabilities : Ty := .seq true (.cons false HNBAP_Access_stratum_release_indicator (.cons false HNBAP_CSG_Capability (.cons true HNBAP_IE_Extensions .nil)))
/-- `asn_DEF_ueRegisterAccept_ies_2`, src/hnbap/HNBAP_UERegisterAccept.c:67 -/
def HNBAP_UERegisterAccept__ueRegisterAccept_ies_2 : Ty := .seqOf (some ⟨0, 65535, false⟩) HNBAP_IE
/-- `asn_DEF_HNBAP_UERegisterAccept`, src/hnbap/HNBAP_UERegisterAccept.c:120 -/
def HNBAP_UERegisterAccept : Ty := .seq true (.cons false HNBAP_UERegisterAccept__ueRegisterAccept_ies_2 .nil)
/-- `asn_DEF_HNBAP_Context_ID`, src/hnbap/HNBAP_Context-ID.c:147 -/
def HNBAP_Context_ID : Ty := .bits (some ⟨24, 24, false⟩)
/-- `asn_DEF_ueRegisterReject_ies_2`, src/hnbap/HNBAP_UERegisterReject.c:67 -/
def HNBAP_UERegisterReject__ueRegisterReject_ies_2 : Ty := .seqOf (some ⟨0, 65535, false⟩) HNBAP_IE
/-- `asn_DEF_HNBAP_UERegisterReject`, src/hnbap/HNBAP_UERegisterReject.c:120 -/
def HNBAP_UERegisterReject : Ty := .seq true (.cons false HNBAP_UERegisterReject__ueRegisterReject_ies_2 .nil)
/-- `asn_DEF_ueDe_Register_ies_2`, src/hnbap/HNBAP_UEDe-Register.c:67 -/
def HNBAP_UEDe_Register__ueDe_Register_ies_2 : Ty := .seqOf (some ⟨0, 65535, false⟩) HNBAP_IE
/-- `asn_DEF_HNBAP_UEDe_Register`, src/hnbap/HNBAP_UEDe-Register.c:120 -/
def HNBAP_UEDe_Register : Ty := .seq true (.cons false HNBAP_UEDe_Register__ueDe_Register_ies_2 .nil)
/-- `asn_DEF_csgMembershipUpdate_ies_2`, src/hnbap/HNBAP_CSGMembershipUpdate.c:67 -/
def HNBAP_CSGMembershipUpdate__csgMembershipUpdate_ies_2 : Ty := .seqOf (some ⟨0, 65535, false⟩) HNBAP_IE
/-- `asn_DEF_HNBAP_CSGMembershipUpdate`, src/hnbap/HNBAP_CSGMembershipUpdate.c:120 -/
def HNBAP_CSGMembershipUpdate : Ty := .seq true (.cons false HNBAP_CSGMembershipUpdate__csgMembershipUpdate_ies_2 .nil)
/-- `asn_DEF_HNBAP_CSGMembershipStatus`, src/hnbap/HNBAP_CSGMembershipStatus.c:143 -/
def HNBAP_CSGMembershipStatus : Ty := .enum 2 2 true
/-- `asn_DEF_tnlUpdateRequest_ies_2`, src/hnbap/HNBAP_TNLUpdateRequest.c:67 -/
def HNBAP_TNLUpdateRequest__tnlUpdateRequest_ies_2 : Ty := .seqOf (some ⟨0, 65535, false⟩) HNBAP_IE
/-- `asn_DEF_HNBAP_TNLUpdateRequest`, src/hnbap/HNBAP_TNLUpdateRequest.c:120 -/
def HNBAP_TNLUpdateRequest : Ty := .seq true (.cons false HNBAP_TNLUpdateRequest__tnlUpdateRequest_ies_2 .nil)
/-- `asn_DEF_HNBAP_CN_DomainIndicator`, src/hnbap/HNBAP_CN-DomainIndicator.c:141 -/
def HNBAP_CN_DomainIndicator : Ty := .enum 2 2 false
/-- `asn_DEF_HNBAP_BindingID`, src/hnbap/HNBAP_BindingID.c:142 -/
def HNBAP_BindingID : Ty := .octets (some ⟨1, 4, true⟩)
/-- `asn_DEF_HNBAP_GTP_TEI`, src/hnbap/HNBAP_GTP-TEI.c:142 -/
def HNBAP_GTP_TEI : Ty := .octets (some ⟨4, 4, false⟩)
/-- `asn_DEF_transportAssociation_3`, src/hnbap/HNBAP_TransportInfo.c:50 -/
def HNBAP_TransportInfo__transportAssociation_3 : Ty := .choice true (.cons false HNBAP_GTP_TEI (.cons false HNBAP_BindingID .nil)) .nil
/-- `asn_DEF_HNBAP_TransportLayerAddress`, src/hnbap/HNBAP_TransportLayerAddress.c:147 -/
def HNBAP_TransportLayerAddress : Ty := .bits (some ⟨1, 160, true⟩)
/-- `asn_DEF_HNBAP_TransportInfo`, src/hnbap/HNBAP_TransportInfo.c:123 -/
def HNBAP_TransportInfo : Ty := .seq true (.cons false HNBAP_TransportLayerAddress (.cons false HNBAP_TransportInfo__transportAssociation_3 (.cons true HNBAP_IE_Extensions .nil)))
/-- `asn_DEF_HNBAP_RAB_ID`, src/hnbap/HNBAP_RAB-ID.c:147 -/
def HNBAP_RAB_ID : Ty := .bits (some ⟨8, 8, false⟩)
/-- `asn_DEF_HNBAP_RABListItem`, src/hnbap/HNBAP_RABListItem.c:78 -/
def HNBAP_RABListItem : Ty := .seq true (.cons false HNBAP_RAB_ID (.cons false HNBAP_TransportInfo (.cons false HNBAP_TransportInfo (.cons false HNBAP_CN_DomainIndicator (.cons true HNBAP_IE_Extensions .nil)))))
/-- `asn_DEF_HNBAP_RABList`, src/hnbap/HNBAP_RABList.c:34 -/
def HNBAP_RABList : Ty := .seqOf (some ⟨1, 256, false⟩) HNBAP_RABListItem
/-- `asn_DEF_HNBAP_Update_cause`, src/hnbap/HNBAP_Update-cause.c:141 -/
def HNBAP_Update_cause : Ty := .enum 1 1 true
/-- `asn_DEF_tnlUpdateResponse_ies_2`, src/hnbap/HNBAP_TNLUpdateResponse.c:67 -/
def HNBAP_TNLUpdateResponse__tnlUpdateResponse_ies_2 : Ty := .seqOf (some ⟨0, 65535, false⟩) HNBAP_IE
/-- `asn_DEF_HNBAP_TNLUpdateResponse`, src/hnbap/HNBAP_TNLUpdateResponse.c:120 -/
def HNBAP_TNLUpdateResponse : Ty := .seq true (.cons false HNBAP_TNLUpdateResponse__tnlUpdateResponse_ies_2 .nil)
/-- `asn_DEF_tnlUpdateFailure_ies_2`, src/hnbap/HNBAP_TNLUpdateFailure.c:67 -/
def HNBAP_TNLUpdateFailure__tnlUpdateFailure_ies_2 : Ty := .seqOf (some ⟨0, 65535, false⟩) HNBAP_IE
/-- `asn_DEF_HNBAP_TNLUpdateFailure`, src/hnbap/HNBAP_TNLUpdateFailure.c:120 -/
def HNBAP_TNLUpdateFailure : Ty := .seq true (.cons false HNBAP_TNLUpdateFailure__tnlUpdateFailure_ies_2 .nil)
/-- `asn_DEF_hnbConfigTransferRequest_ies_2`, src/hnbap/HNBAP_HNBConfigTransferRequest.c:67 -/
def HNBAP_HNBConfigTransferRequest__hnbConfigTransferRequest_ies_2 : Ty := .seqOf (some ⟨0, 65535, false⟩) HNBAP_IE
/-- `asn_DEF_HNBAP_HNBConfigTransferRequest`, src/hnbap/HNBAP_HNBConfigTransferRequest.c:120 -/
def HNBAP_HNBConfigTransferRequest : Ty := .seq true (.cons false HNBAP_HNBConfigTransferRequest__hnbConfigTransferRequest_ies_2 .nil)
/-- `asn_DEF_HNBAP_HNB_Cell_Identifier`, src/hnbap/HNBAP_HNB-Cell-Identifier.c:58 -/
def HNBAP_HNB_Cell_Identifier : Ty := .seq true (.cons false HNBAP_PLMNidentity (.cons false HNBAP_CellIdentity (.cons true HNBAP_IE_Extensions .nil)))
/-- `asn_DEF_HNBAP_HNB_RNL_Identity`, src/hnbap/HNBAP_HNB-RNL-Identity.c:39 -/
def HNBAP_HNB_RNL_Identity : Ty := .choice true (.cons false HNBAP_HNB_Cell_Identifier .nil) .nil
/-- `asn_DEF_HNBAP_NeighbourInfoRequestItem`, src/hnbap/HNBAP_NeighbourInfoRequestItem.c:48 -/
def HNBAP_NeighbourInfoRequestItem : Ty := .seq true (.cons false HNBAP_HNB_RNL_Identity (.cons true HNBAP_IE_Extensions .nil))
/-- `asn_DEF_HNBAP_NeighbourInfoRequestList`, src/hnbap/HNBAP_NeighbourInfoRequestList.c:34 -/
def HNBAP_NeighbourInfoRequestList : Ty := .seqOf (some ⟨1, 32, false⟩) HNBAP_NeighbourInfoRequestItem
/-- `asn_DEF_hnbConfigTransferResponse_ies_2`, src/hnbap/HNBAP_HNBConfigTransferResponse.c:67 -/
def HNBAP_HNBConfigTransferResponse__hnbConfigTransferResponse_ies_2 : Ty := .seqOf (some ⟨0, 65535, false⟩) HNBAP_IE
/-- `asn_DEF_HNBAP_HNBConfigTransferResponse`, src/hnbap/HNBAP_HNBConfigTransferResponse.c:120 -/
def HNBAP_HNBConfigTransferResponse : Ty := .seq true (.cons false HNBAP_HNBConfigTransferResponse__hnbConfigTransferResponse_ies_2 .nil)
/-- `asn_DEF_HNBAP_HNBConfigurationInformationMissing`, src/hnbap/HNBAP_HNBConfigurationInformationMissing.c:48 -/
def HNBAP_HNBConfigurationInformationMissing : Ty := .seq true (.cons false HNBAP_Cause (.cons true HNBAP_IE_Extensions .nil))
/-- `asn_DEF_HNBAP_Ipv6Address`, src/hnbap/HNBAP_Ipv6Address.c:142 -/
def HNBAP_Ipv6Address : Ty := .octets (some ⟨16, 16, false⟩)
/-- `asn_DEF_HNBAP_Ipv4Address`, src/hnbap/HNBAP_Ipv4Address.c:142 -/
def HNBAP_Ipv4Address : Ty := .octets (some ⟨4, 4, false⟩)
/-- `asn_DEF_ipaddress_2`, src/hnbap/HNBAP_IP-Address.c:50 -/
def HNBAP_IP_Address__ipaddress_2 : Ty := .choice true (.cons false HNBAP_Ipv4Address (.cons false HNBAP_Ipv6Address .nil)) .nil
/-- `asn_DEF_HNBAP_IP_Address`, src/hnbap/HNBAP_IP-Address.c:113 -/
def HNBAP_IP_Address : Ty := .seq true (.cons false HNBAP_IP_Address__ipaddress_2 (.cons true HNBAP_IE_Extensions .nil))
/-- `asn_DEF_HNBAP_Iurh_Signalling_TNL_AddressList`, src/hnbap/HNBAP_Iurh-Signalling-TNL-AddressList.c:34 -/
def HNBAP_Iurh_Signalling_TNL_AddressList : Ty := .seqOf (some ⟨1, 3, false⟩) HNBAP_IP_Address
/-- `asn_DEF_HNBAP_HNB_Cell_Access_Mode`, src/hnbap/HNBAP_HNB-Cell-Access-Mode.c:145 -/
def HNBAP_HNB_Cell_Access_Mode : Ty := .enum 3 3 true
/-- `asn_DEF_HNBAP_PSC`, src/hnbap/HNBAP_PSC.c:147 -/
def HNBAP_PSC : Ty := .bits (some ⟨9, 9, false⟩)
/-- `asn_DEF_HNBAP_HNBConfigurationInformationProvided`, src/hnbap/HNBAP_HNBConfigurationInformationProvided.c:78 -/
def HNBAP_HNBConfigurationInformationProvided : Ty := .seq true (.cons true HNBAP_PSC (.cons true HNBAP_CSG_ID (.cons false HNBAP_HNB_Cell_Access_Mode (.cons false HNBAP_Iurh_Signalling_TNL_AddressList (.cons true HNBAP_IE_Extensions .nil)))))
/-- `asn_DEF_HNBAP_ConfigurationInformation`, src/hnbap/HNBAP_ConfigurationInformation.c:49 -/
def HNBAP_ConfigurationInformation : Ty := .choice true (.cons false HNBAP_HNBConfigurationInformationProvided (.cons false HNBAP_HNBConfigurationInformationMissing .nil)) .nil
/-- `asn_DEF_HNBAP_HNBConfigInfo`, src/hnbap/HNBAP_HNBConfigInfo.c:58 -/
def HNBAP_HNBConfigInfo : Ty := .seq true (.cons false HNBAP_HNB_RNL_Identity (.cons false HNBAP_ConfigurationInformation (.cons true HNBAP_IE_Extensions .nil)))
/-- `asn_DEF_HNBAP_NeighbourInfoList`, src/hnbap/HNBAP_NeighbourInfoList.c:34 -/
def HNBAP_NeighbourInfoList : Ty := .seqOf (some ⟨1, 32, false⟩) HNBAP_HNBConfigInfo
/-- `asn_DEF_relocationComplete_ies_2`, src/hnbap/HNBAP_RelocationComplete.c:67 -/
def HNBAP_RelocationComplete__relocationComplete_ies_2 : Ty := .seqOf (some ⟨0, 65535, false⟩) HNBAP_IE
/-- `asn_DEF_HNBAP_RelocationComplete`, src/hnbap/HNBAP_RelocationComplete.c:120 -/
def HNBAP_RelocationComplete : Ty := .seq true (.cons false HNBAP_RelocationComplete__relocationComplete_ies_2 .nil)
/-- `asn_DEF_errorIndication_ies_2`, src/hnbap/HNBAP_ErrorIndication.c:67 -/
def HNBAP_ErrorIndication__errorIndication_ies_2 : Ty := .seqOf (some ⟨0, 65535, false⟩) HNBAP_IE
/-- `asn_DEF_HNBAP_ErrorIndication`, src/hnbap/HNBAP_ErrorIndication.c:120 -/
def HNBAP_ErrorIndication : Ty := .seq true (.cons false HNBAP_ErrorIndication__errorIndication_ies_2 .nil)
/-- `asn_DEF_u_RNTIQueryRequest_ies_2`, src/hnbap/HNBAP_U-RNTIQueryRequest.c:67 -/
def HNBAP_U_RNTIQueryRequest__u_RNTIQueryRequest_ies_2 : Ty := .seqOf (some ⟨0, 65535, false⟩) HNBAP_IE
/-- `asn_DEF_HNBAP_U_RNTIQueryRequest`, src/hnbap/HNBAP_U-RNTIQueryRequest.c:120 -/
def HNBAP_U_RNTIQueryRequest : Ty := .seq true (.cons false HNBAP_U_RNTIQueryRequest__u_RNTIQueryRequest_ies_2 .nil)
/-- `asn_DEF_HNBAP_U_RNTI`, src/hnbap/HNBAP_U-RNTI.c:147 -/
def HNBAP_U_RNTI : Ty := .bits (some ⟨32, 32, false⟩)
/-- `asn_DEF_u_RNTIQueryResponse_ies_2`, src/hnbap/HNBAP_U-RNTIQueryResponse.c:67 -/
def HNBAP_U_RNTIQueryResponse__u_RNTIQueryResponse_ies_2 : Ty := .seqOf (some ⟨0, 65535, false⟩) HNBAP_IE
/-- `asn_DEF_HNBAP_U_RNTIQueryResponse`, src/hnbap/HNBAP_U-RNTIQueryResponse.c:120 -/
def HNBAP_U_RNTIQueryResponse : Ty := .seq true (.cons false HNBAP_U_RNTIQueryResponse__u_RNTIQueryResponse_ies_2 .nil)
/-- `asn_DEF_HNBAP_UnknownU_RNTIIndication`, src/hnbap/HNBAP_UnknownU-RNTIIndication.c:141 -/
def HNBAP_UnknownU_RNTIIndication : Ty := .enum 1 1 true
/-- `asn_DEF_HNBAP_HNB_GWResponse`, src/hnbap/HNBAP_HNB-GWResponse.c:59 -/
def HNBAP_HNB_GWResponse : Ty := .choice true (.cons false HNBAP_HNBConfigInfo (.cons false HNBAP_RNC_ID (.cons false HNBAP_UnknownU_RNTIIndication .nil))) .nil

end Verif.Gen.Hnbap
