import Verif.Gen.HnbapTypesMore
import Verif.Gen.TextFlat
import Verif.Proofs.TypesHnbap
import Verif.Model.AsnToC

/-!
# The descriptors of HNBAP are those of the simplified module
-/

namespace Verif.Gen.Text
open Verif.AsnToStruct Verif.AsnToStruct.Spec

/-- Of `hnbapFlat`. -/
noncomputable def hnbapFlatAssignments : List Assignment := [
  .type (text% "HNBAP-PDU") (.choice (.cons (text% "initiatingMessage") (.ref (text% "InitiatingMessage")) false (.cons (text% "successfulOutcome") (.ref (text% "SuccessfulOutcome")) false (.cons (text% "unsuccessfulOutcome") (.ref (text% "UnsuccessfulOutcome")) false .nil))) (some .nil)),
  .type (text% "InitiatingMessage") (.seq (.cons (text% "procedureCode") (.ref (text% "ProcedureCode")) false (.cons (text% "criticality") (.ref (text% "Criticality")) false (.cons (text% "value") .any false .nil))) none),
  .type (text% "SuccessfulOutcome") (.seq (.cons (text% "procedureCode") (.ref (text% "ProcedureCode")) false (.cons (text% "criticality") (.ref (text% "Criticality")) false (.cons (text% "value") .any false .nil))) none),
  .type (text% "UnsuccessfulOutcome") (.seq (.cons (text% "procedureCode") (.ref (text% "ProcedureCode")) false (.cons (text% "criticality") (.ref (text% "Criticality")) false (.cons (text% "value") .any false .nil))) none),
  .type (text% "HNBRegisterRequest") (.seq (.cons (text% "hnbRegisterRequest-ies") (.seqOf (some ⟨text% "0", text% "maxProtocolIEs", false⟩) (.ref (text% "IE"))) false .nil) (some .nil)),
  .type (text% "HNBRegisterAccept") (.seq (.cons (text% "hnbRegisterAccept-ies") (.seqOf (some ⟨text% "0", text% "maxProtocolIEs", false⟩) (.ref (text% "IE"))) false .nil) (some .nil)),
  .type (text% "HNBRegisterReject") (.seq (.cons (text% "hnbRegisterReject-ies") (.seqOf (some ⟨text% "0", text% "maxProtocolIEs", false⟩) (.ref (text% "IE"))) false .nil) (some .nil)),
  .type (text% "UERegisterRequest") (.seq (.cons (text% "ueRegisterRequest-ies") (.seqOf (some ⟨text% "0", text% "maxProtocolIEs", false⟩) (.ref (text% "IE"))) false .nil) (some .nil)),
  .type (text% "UERegisterAccept") (.seq (.cons (text% "ueRegisterAccept-ies") (.seqOf (some ⟨text% "0", text% "maxProtocolIEs", false⟩) (.ref (text% "IE"))) false .nil) (some .nil)),
  .type (text% "UERegisterReject") (.seq (.cons (text% "ueRegisterReject-ies") (.seqOf (some ⟨text% "0", text% "maxProtocolIEs", false⟩) (.ref (text% "IE"))) false .nil) (some .nil)),
  .type (text% "UEDe-Register") (.seq (.cons (text% "ueDe-Register-ies") (.seqOf (some ⟨text% "0", text% "maxProtocolIEs", false⟩) (.ref (text% "IE"))) false .nil) (some .nil)),
  .type (text% "HNBDe-Register") (.seq (.cons (text% "hnbDe-Register-ies") (.seqOf (some ⟨text% "0", text% "maxProtocolIEs", false⟩) (.ref (text% "IE"))) false .nil) (some .nil)),
  .type (text% "ErrorIndication") (.seq (.cons (text% "errorIndication-ies") (.seqOf (some ⟨text% "0", text% "maxProtocolIEs", false⟩) (.ref (text% "IE"))) false .nil) (some .nil)),
  .type (text% "CSGMembershipUpdate") (.seq (.cons (text% "csgMembershipUpdate-ies") (.seqOf (some ⟨text% "0", text% "maxProtocolIEs", false⟩) (.ref (text% "IE"))) false .nil) (some .nil)),
  .type (text% "TNLUpdateRequest") (.seq (.cons (text% "tnlUpdateRequest-ies") (.seqOf (some ⟨text% "0", text% "maxProtocolIEs", false⟩) (.ref (text% "IE"))) false .nil) (some .nil)),
  .type (text% "TNLUpdateResponse") (.seq (.cons (text% "tnlUpdateResponse-ies") (.seqOf (some ⟨text% "0", text% "maxProtocolIEs", false⟩) (.ref (text% "IE"))) false .nil) (some .nil)),
  .type (text% "TNLUpdateFailure") (.seq (.cons (text% "tnlUpdateFailure-ies") (.seqOf (some ⟨text% "0", text% "maxProtocolIEs", false⟩) (.ref (text% "IE"))) false .nil) (some .nil)),
  .type (text% "HNBConfigTransferRequest") (.seq (.cons (text% "hnbConfigTransferRequest-ies") (.seqOf (some ⟨text% "0", text% "maxProtocolIEs", false⟩) (.ref (text% "IE"))) false .nil) (some .nil)),
  .type (text% "HNBConfigTransferResponse") (.seq (.cons (text% "hnbConfigTransferResponse-ies") (.seqOf (some ⟨text% "0", text% "maxProtocolIEs", false⟩) (.ref (text% "IE"))) false .nil) (some .nil)),
  .type (text% "RelocationComplete") (.seq (.cons (text% "relocationComplete-ies") (.seqOf (some ⟨text% "0", text% "maxProtocolIEs", false⟩) (.ref (text% "IE"))) false .nil) (some .nil)),
  .type (text% "U-RNTIQueryRequest") (.seq (.cons (text% "u-RNTIQueryRequest-ies") (.seqOf (some ⟨text% "0", text% "maxProtocolIEs", false⟩) (.ref (text% "IE"))) false .nil) (some .nil)),
  .type (text% "U-RNTIQueryResponse") (.seq (.cons (text% "u-RNTIQueryResponse-ies") (.seqOf (some ⟨text% "0", text% "maxProtocolIEs", false⟩) (.ref (text% "IE"))) false .nil) (some .nil)),
  .type (text% "PrivateMessage") (.seq (.cons (text% "privateMessage-ies") (.seqOf (some ⟨text% "0", text% "maxProtocolIEs", false⟩) (.ref (text% "IE"))) false .nil) (some .nil)),
  .type (text% "IE") (.seq (.cons (text% "id") (.ref (text% "ProtocolIE-ID")) false (.cons (text% "criticality") (.ref (text% "Criticality")) false (.cons (text% "value") .any false .nil))) none)]

/-- The types of the C code by name. -/
noncomputable def hnbapDescriptors : List (Text × Aper.Ty) := [
  (text% "Criticality", Hnbap.HNBAP_Criticality),
  (text% "Presence", Hnbap.HNBAP_Presence),
  (text% "PrivateIE-ID", Hnbap.HNBAP_PrivateIE_ID),
  (text% "ProcedureCode", Hnbap.HNBAP_ProcedureCode),
  (text% "ProtocolIE-ID", Hnbap.HNBAP_ProtocolIE_ID),
  (text% "TriggeringMessage", Hnbap.HNBAP_TriggeringMessage),
  (text% "IE-Extensions", Hnbap.HNBAP_IE_Extensions),
  (text% "Access-stratum-release-indicator", Hnbap.HNBAP_Access_stratum_release_indicator),
  (text% "AccessResult", Hnbap.HNBAP_AccessResult),
  (text% "AltitudeAndDirection", Hnbap.HNBAP_AltitudeAndDirection),
  (text% "BackoffTimer", Hnbap.HNBAP_BackoffTimer),
  (text% "BindingID", Hnbap.HNBAP_BindingID),
  (text% "Cause", Hnbap.HNBAP_Cause),
  (text% "CauseRadioNetwork", Hnbap.HNBAP_CauseRadioNetwork),
  (text% "CauseTransport", Hnbap.HNBAP_CauseTransport),
  (text% "CauseProtocol", Hnbap.HNBAP_CauseProtocol),
  (text% "CauseMisc", Hnbap.HNBAP_CauseMisc),
  (text% "CellIdentity", Hnbap.HNBAP_CellIdentity),
  (text% "CELL-FACHMobilitySupport", Hnbap.HNBAP_CELL_FACHMobilitySupport),
  (text% "Context-ID", Hnbap.HNBAP_Context_ID),
  (text% "CriticalityDiagnostics", Hnbap.HNBAP_CriticalityDiagnostics),
  (text% "CriticalityDiagnostics-IE-List", Hnbap.HNBAP_CriticalityDiagnostics_IE_List),
  (text% "CriticalityDiagnostics-IE-List-Value", Hnbap.HNBAP_CriticalityDiagnostics_IE_List_Value),
  (text% "CSG-ID", Hnbap.HNBAP_CSG_ID),
  (text% "CSG-Capability", Hnbap.HNBAP_CSG_Capability),
  (text% "CSGMembershipStatus", Hnbap.HNBAP_CSGMembershipStatus),
  (text% "CGI", Hnbap.HNBAP_CGI),
  (text% "CI", Hnbap.HNBAP_CI),
  (text% "CN-DomainIndicator", Hnbap.HNBAP_CN_DomainIndicator),
  (text% "ESN", Hnbap.HNBAP_ESN),
  (text% "GeographicalLocation", Hnbap.HNBAP_GeographicalLocation),
  (text% "GeographicalCoordinates", Hnbap.HNBAP_GeographicalCoordinates),
  (text% "GTP-TEI", Hnbap.HNBAP_GTP_TEI),
  (text% "HNBCapacity", Hnbap.HNBAP_HNBCapacity),
  (text% "HNB-Cell-Access-Mode", Hnbap.HNBAP_HNB_Cell_Access_Mode),
  (text% "HNB-Cell-Identifier", Hnbap.HNBAP_HNB_Cell_Identifier),
  (text% "HNB-GWResponse", Hnbap.HNBAP_HNB_GWResponse),
  (text% "HNB-RNL-Identity", Hnbap.HNBAP_HNB_RNL_Identity),
  (text% "HNBConfigInfo", Hnbap.HNBAP_HNBConfigInfo),
  (text% "ConfigurationInformation", Hnbap.HNBAP_ConfigurationInformation),
  (text% "HNBConfigurationInformationProvided", Hnbap.HNBAP_HNBConfigurationInformationProvided),
  (text% "HNBConfigurationInformationMissing", Hnbap.HNBAP_HNBConfigurationInformationMissing),
  (text% "HNB-Location-Information", Hnbap.HNBAP_HNB_Location_Information),
  (text% "HNB-Identity", Hnbap.HNBAP_HNB_Identity),
  (text% "HNB-Identity-Info", Hnbap.HNBAP_HNB_Identity_Info),
  (text% "IMEI", Hnbap.HNBAP_IMEI),
  (text% "IMSI", Hnbap.HNBAP_IMSI),
  (text% "IMSIDS41", Hnbap.HNBAP_IMSIDS41),
  (text% "IMSIESN", Hnbap.HNBAP_IMSIESN),
  (text% "IP-Address", Hnbap.HNBAP_IP_Address),
  (text% "Ipv4Address", Hnbap.HNBAP_Ipv4Address),
  (text% "Ipv6Address", Hnbap.HNBAP_Ipv6Address),
  (text% "Iurh-Signalling-TNL-AddressList", Hnbap.HNBAP_Iurh_Signalling_TNL_AddressList),
  (text% "LAC", Hnbap.HNBAP_LAC),
  (text% "LAI", Hnbap.HNBAP_LAI),
  (text% "MacroCoverageInformation", Hnbap.HNBAP_MacroCoverageInformation),
  (text% "MacroCellID", Hnbap.HNBAP_MacroCellID),
  (text% "MuxPortNumber", Hnbap.HNBAP_MuxPortNumber),
  (text% "NeighbourCellIdentityList", Hnbap.HNBAP_NeighbourCellIdentityList),
  (text% "NeighbourIdentity", Hnbap.HNBAP_NeighbourIdentity),
  (text% "NeighbourInfoList", Hnbap.HNBAP_NeighbourInfoList),
  (text% "AdditionalNeighbourInfoList", Hnbap.HNBAP_AdditionalNeighbourInfoList),
  (text% "NeighbourInfoRequestList", Hnbap.HNBAP_NeighbourInfoRequestList),
  (text% "NeighbourInfoRequestItem", Hnbap.HNBAP_NeighbourInfoRequestItem),
  (text% "PLMNidentity", Hnbap.HNBAP_PLMNidentity),
  (text% "PSC", Hnbap.HNBAP_PSC),
  (text% "PTMSI", Hnbap.HNBAP_PTMSI),
  (text% "PTMSIRAI", Hnbap.HNBAP_PTMSIRAI),
  (text% "RAB-ID", Hnbap.HNBAP_RAB_ID),
  (text% "RABList", Hnbap.HNBAP_RABList),
  (text% "RABListItem", Hnbap.HNBAP_RABListItem),
  (text% "RAC", Hnbap.HNBAP_RAC),
  (text% "RAI", Hnbap.HNBAP_RAI),
  (text% "Registration-Cause", Hnbap.HNBAP_Registration_Cause),
  (text% "RNC-ID", Hnbap.HNBAP_RNC_ID),
  (text% "SAC", Hnbap.HNBAP_SAC),
  (text% "S-RNTIPrefix", Hnbap.HNBAP_S_RNTIPrefix),
  (text% "TMSILAI", Hnbap.HNBAP_TMSILAI),
  (text% "TMSIDS41", Hnbap.HNBAP_TMSIDS41),
  (text% "TransportInfo", Hnbap.HNBAP_TransportInfo),
  (text% "TransportLayerAddress", Hnbap.HNBAP_TransportLayerAddress),
  (text% "Tunnel-Information", Hnbap.HNBAP_Tunnel_Information),
  (text% "TypeOfError", Hnbap.HNBAP_TypeOfError),
  (text% "UDP-Port-Number", Hnbap.HNBAP_UDP_Port_Number),
  (text% "UE-Capabilities", Hnbap.HNBAP_UE_Capabilities),
  (text% "UTRANCellID", Hnbap.HNBAP_UTRANCellID),
  (text% "UE-Identity", Hnbap.HNBAP_UE_Identity),
  (text% "Update-cause", Hnbap.HNBAP_Update_cause),
  (text% "URAIdentityList", Hnbap.HNBAP_URAIdentityList),
  (text% "URAIdentity", Hnbap.HNBAP_URAIdentity),
  (text% "U-RNTI", Hnbap.HNBAP_U_RNTI),
  (text% "UnknownU-RNTIIndication", Hnbap.HNBAP_UnknownU_RNTIIndication),
  (text% "HNBAP-PDU", Hnbap.HNBAP_HNBAP_PDU),
  (text% "InitiatingMessage", Hnbap.HNBAP_InitiatingMessage),
  (text% "SuccessfulOutcome", Hnbap.HNBAP_SuccessfulOutcome),
  (text% "UnsuccessfulOutcome", Hnbap.HNBAP_UnsuccessfulOutcome),
  (text% "HNBRegisterRequest", Hnbap.HNBAP_HNBRegisterRequest),
  (text% "HNBRegisterAccept", Hnbap.HNBAP_HNBRegisterAccept),
  (text% "HNBRegisterReject", Hnbap.HNBAP_HNBRegisterReject),
  (text% "UERegisterRequest", Hnbap.HNBAP_UERegisterRequest),
  (text% "UERegisterAccept", Hnbap.HNBAP_UERegisterAccept),
  (text% "UERegisterReject", Hnbap.HNBAP_UERegisterReject),
  (text% "UEDe-Register", Hnbap.HNBAP_UEDe_Register),
  (text% "HNBDe-Register", Hnbap.HNBAP_HNBDe_Register),
  (text% "ErrorIndication", Hnbap.HNBAP_ErrorIndication),
  (text% "CSGMembershipUpdate", Hnbap.HNBAP_CSGMembershipUpdate),
  (text% "TNLUpdateRequest", Hnbap.HNBAP_TNLUpdateRequest),
  (text% "TNLUpdateResponse", Hnbap.HNBAP_TNLUpdateResponse),
  (text% "TNLUpdateFailure", Hnbap.HNBAP_TNLUpdateFailure),
  (text% "HNBConfigTransferRequest", Hnbap.HNBAP_HNBConfigTransferRequest),
  (text% "HNBConfigTransferResponse", Hnbap.HNBAP_HNBConfigTransferResponse),
  (text% "RelocationComplete", Hnbap.HNBAP_RelocationComplete),
  (text% "U-RNTIQueryRequest", Hnbap.HNBAP_U_RNTIQueryRequest),
  (text% "U-RNTIQueryResponse", Hnbap.HNBAP_U_RNTIQueryResponse),
  (text% "PrivateMessage", Hnbap.HNBAP_PrivateMessage),
  (text% "IE", Hnbap.HNBAP_IE)]

theorem hnbap_flat : moduleItems (hnbapFlat.flatMap (tokens false [])) = some hnbapFlatAssignments := by kernel_rfl

/-- The modules. -/
noncomputable def hnbapFlatModules : List (List Text) := [hnbapCommon, hnbapConstants, hnbapIes, hnbapFlat]

/-- All assignments. -/
noncomputable def hnbapAllFlat : List Assignment :=
  [hnbapCommonAssignments, hnbapConstantsAssignments, hnbapIesAssignments, hnbapFlatAssignments].flatten ++ []

theorem hnbap_flatAssignments : assignments hnbapFlatModules [] = some hnbapAllFlat := by
  unfold assignments hnbapFlatModules
  simp only [List.mapM_cons, List.mapM_nil, hnbap_common, hnbap_constants, hnbap_ies, hnbap_flat]
  rfl

/-- The types in an order in which each uses only those in front of it. -/
noncomputable def hnbapDescriptorOrder : List (Text × Aper.Ty) := [
  (text% "Criticality", Hnbap.HNBAP_Criticality),
  (text% "ProcedureCode", Hnbap.HNBAP_ProcedureCode),
  (text% "UnsuccessfulOutcome", Hnbap.HNBAP_UnsuccessfulOutcome),
  (text% "SuccessfulOutcome", Hnbap.HNBAP_SuccessfulOutcome),
  (text% "InitiatingMessage", Hnbap.HNBAP_InitiatingMessage),
  (text% "HNBAP-PDU", Hnbap.HNBAP_HNBAP_PDU),
  (text% "ProtocolIE-ID", Hnbap.HNBAP_ProtocolIE_ID),
  (text% "IE", Hnbap.HNBAP_IE),
  (text% "HNBRegisterRequest", Hnbap.HNBAP_HNBRegisterRequest),
  (text% "IE-Extensions", Hnbap.HNBAP_IE_Extensions),
  (text% "HNB-Identity-Info", Hnbap.HNBAP_HNB_Identity_Info),
  (text% "HNB-Identity", Hnbap.HNBAP_HNB_Identity),
  (text% "AltitudeAndDirection", Hnbap.HNBAP_AltitudeAndDirection),
  (text% "GeographicalCoordinates", Hnbap.HNBAP_GeographicalCoordinates),
  (text% "GeographicalLocation", Hnbap.HNBAP_GeographicalLocation),
  (text% "CI", Hnbap.HNBAP_CI),
  (text% "LAC", Hnbap.HNBAP_LAC),
  (text% "PLMNidentity", Hnbap.HNBAP_PLMNidentity),
  (text% "CGI", Hnbap.HNBAP_CGI),
  (text% "CellIdentity", Hnbap.HNBAP_CellIdentity),
  (text% "RAC", Hnbap.HNBAP_RAC),
  (text% "UTRANCellID", Hnbap.HNBAP_UTRANCellID),
  (text% "MacroCellID", Hnbap.HNBAP_MacroCellID),
  (text% "MacroCoverageInformation", Hnbap.HNBAP_MacroCoverageInformation),
  (text% "HNB-Location-Information", Hnbap.HNBAP_HNB_Location_Information),
  (text% "SAC", Hnbap.HNBAP_SAC),
  (text% "CSG-ID", Hnbap.HNBAP_CSG_ID),
  (text% "HNBRegisterAccept", Hnbap.HNBAP_HNBRegisterAccept),
  (text% "RNC-ID", Hnbap.HNBAP_RNC_ID),
  (text% "HNBRegisterReject", Hnbap.HNBAP_HNBRegisterReject),
  (text% "CauseMisc", Hnbap.HNBAP_CauseMisc),
  (text% "CauseProtocol", Hnbap.HNBAP_CauseProtocol),
  (text% "CauseTransport", Hnbap.HNBAP_CauseTransport),
  (text% "CauseRadioNetwork", Hnbap.HNBAP_CauseRadioNetwork),
  (text% "Cause", Hnbap.HNBAP_Cause),
  (text% "TypeOfError", Hnbap.HNBAP_TypeOfError),
  (text% "CriticalityDiagnostics-IE-List-Value", Hnbap.HNBAP_CriticalityDiagnostics_IE_List_Value),
  (text% "CriticalityDiagnostics-IE-List", Hnbap.HNBAP_CriticalityDiagnostics_IE_List),
  (text% "TriggeringMessage", Hnbap.HNBAP_TriggeringMessage),
  (text% "CriticalityDiagnostics", Hnbap.HNBAP_CriticalityDiagnostics),
  (text% "BackoffTimer", Hnbap.HNBAP_BackoffTimer),
  (text% "HNBDe-Register", Hnbap.HNBAP_HNBDe_Register),
  (text% "UERegisterRequest", Hnbap.HNBAP_UERegisterRequest),
  (text% "TMSIDS41", Hnbap.HNBAP_TMSIDS41),
  (text% "ESN", Hnbap.HNBAP_ESN),
  (text% "IMSIDS41", Hnbap.HNBAP_IMSIDS41),
  (text% "IMSIESN", Hnbap.HNBAP_IMSIESN),
  (text% "IMEI", Hnbap.HNBAP_IMEI),
  (text% "LAI", Hnbap.HNBAP_LAI),
  (text% "RAI", Hnbap.HNBAP_RAI),
  (text% "PTMSI", Hnbap.HNBAP_PTMSI),
  (text% "PTMSIRAI", Hnbap.HNBAP_PTMSIRAI),
  (text% "TMSILAI", Hnbap.HNBAP_TMSILAI),
  (text% "IMSI", Hnbap.HNBAP_IMSI),
  (text% "UE-Identity", Hnbap.HNBAP_UE_Identity),
  (text% "Registration-Cause", Hnbap.HNBAP_Registration_Cause),
  (text% "CSG-Capability", Hnbap.HNBAP_CSG_Capability),
  (text% "Access-stratum-release-indicator", Hnbap.HNBAP_Access_stratum_release_indicator),
  (text% "UE-Capabilities", Hnbap.HNBAP_UE_Capabilities),
  (text% "UERegisterAccept", Hnbap.HNBAP_UERegisterAccept),
  (text% "Context-ID", Hnbap.HNBAP_Context_ID),
  (text% "UERegisterReject", Hnbap.HNBAP_UERegisterReject),
  (text% "UEDe-Register", Hnbap.HNBAP_UEDe_Register),
  (text% "CSGMembershipUpdate", Hnbap.HNBAP_CSGMembershipUpdate),
  (text% "CSGMembershipStatus", Hnbap.HNBAP_CSGMembershipStatus),
  (text% "TNLUpdateRequest", Hnbap.HNBAP_TNLUpdateRequest),
  (text% "CN-DomainIndicator", Hnbap.HNBAP_CN_DomainIndicator),
  (text% "BindingID", Hnbap.HNBAP_BindingID),
  (text% "GTP-TEI", Hnbap.HNBAP_GTP_TEI),
  (text% "TransportLayerAddress", Hnbap.HNBAP_TransportLayerAddress),
  (text% "TransportInfo", Hnbap.HNBAP_TransportInfo),
  (text% "RAB-ID", Hnbap.HNBAP_RAB_ID),
  (text% "RABListItem", Hnbap.HNBAP_RABListItem),
  (text% "RABList", Hnbap.HNBAP_RABList),
  (text% "Update-cause", Hnbap.HNBAP_Update_cause),
  (text% "TNLUpdateResponse", Hnbap.HNBAP_TNLUpdateResponse),
  (text% "TNLUpdateFailure", Hnbap.HNBAP_TNLUpdateFailure),
  (text% "HNBConfigTransferRequest", Hnbap.HNBAP_HNBConfigTransferRequest),
  (text% "HNB-Cell-Identifier", Hnbap.HNBAP_HNB_Cell_Identifier),
  (text% "HNB-RNL-Identity", Hnbap.HNBAP_HNB_RNL_Identity),
  (text% "NeighbourInfoRequestItem", Hnbap.HNBAP_NeighbourInfoRequestItem),
  (text% "NeighbourInfoRequestList", Hnbap.HNBAP_NeighbourInfoRequestList),
  (text% "HNBConfigTransferResponse", Hnbap.HNBAP_HNBConfigTransferResponse),
  (text% "HNBConfigurationInformationMissing", Hnbap.HNBAP_HNBConfigurationInformationMissing),
  (text% "Ipv6Address", Hnbap.HNBAP_Ipv6Address),
  (text% "Ipv4Address", Hnbap.HNBAP_Ipv4Address),
  (text% "IP-Address", Hnbap.HNBAP_IP_Address),
  (text% "Iurh-Signalling-TNL-AddressList", Hnbap.HNBAP_Iurh_Signalling_TNL_AddressList),
  (text% "HNB-Cell-Access-Mode", Hnbap.HNBAP_HNB_Cell_Access_Mode),
  (text% "PSC", Hnbap.HNBAP_PSC),
  (text% "HNBConfigurationInformationProvided", Hnbap.HNBAP_HNBConfigurationInformationProvided),
  (text% "ConfigurationInformation", Hnbap.HNBAP_ConfigurationInformation),
  (text% "HNBConfigInfo", Hnbap.HNBAP_HNBConfigInfo),
  (text% "NeighbourInfoList", Hnbap.HNBAP_NeighbourInfoList),
  (text% "RelocationComplete", Hnbap.HNBAP_RelocationComplete),
  (text% "ErrorIndication", Hnbap.HNBAP_ErrorIndication),
  (text% "U-RNTIQueryRequest", Hnbap.HNBAP_U_RNTIQueryRequest),
  (text% "U-RNTI", Hnbap.HNBAP_U_RNTI),
  (text% "U-RNTIQueryResponse", Hnbap.HNBAP_U_RNTIQueryResponse),
  (text% "UnknownU-RNTIIndication", Hnbap.HNBAP_UnknownU_RNTIIndication),
  (text% "HNB-GWResponse", Hnbap.HNBAP_HNB_GWResponse),
  (text% "AccessResult", Hnbap.HNBAP_AccessResult),
  (text% "AdditionalNeighbourInfoList", Hnbap.HNBAP_AdditionalNeighbourInfoList),
  (text% "CELL-FACHMobilitySupport", Hnbap.HNBAP_CELL_FACHMobilitySupport),
  (text% "HNBCapacity", Hnbap.HNBAP_HNBCapacity),
  (text% "MuxPortNumber", Hnbap.HNBAP_MuxPortNumber),
  (text% "NeighbourIdentity", Hnbap.HNBAP_NeighbourIdentity),
  (text% "NeighbourCellIdentityList", Hnbap.HNBAP_NeighbourCellIdentityList),
  (text% "Presence", Hnbap.HNBAP_Presence),
  (text% "PrivateIE-ID", Hnbap.HNBAP_PrivateIE_ID),
  (text% "PrivateMessage", Hnbap.HNBAP_PrivateMessage),
  (text% "S-RNTIPrefix", Hnbap.HNBAP_S_RNTIPrefix),
  (text% "UDP-Port-Number", Hnbap.HNBAP_UDP_Port_Number),
  (text% "Tunnel-Information", Hnbap.HNBAP_Tunnel_Information),
  (text% "URAIdentity", Hnbap.HNBAP_URAIdentity),
  (text% "URAIdentityList", Hnbap.HNBAP_URAIdentityList)]

theorem hnbap_flatDefines : TypesOf hnbapAllFlat hnbapDescriptors :=
  typesOf_of_stages (order := hnbapDescriptorOrder) (by kernel_rfl) (by kernel_rfl) (by kernel_rfl)

theorem hnbap_typeNames : hnbapNames.type.map (fun x => find x.1 hnbapDescriptors) = hnbapNames.type.map (fun x => some x.2) := by
  kernel_rfl

theorem hnbap_containerNames : hnbapNames.container.map (fun x => find (containerType [] x.1)
    (hnbapDescriptors.map fun d => (underscore d.1, d.2))) = hnbapNames.container.map (fun x => some x.2) := by kernel_rfl

end Verif.Gen.Text
