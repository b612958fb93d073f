import Verif.Gen.AsnTypesHnbap
import Verif.Gen.TextTypesHnbap
import Verif.Gen.TextConstants
import Verif.Gen.AsnNames
import Verif.Gen.AsnNamed
import Verif.Proofs.ReadHnbap
import Verif.Proofs.AsnTypes
import Verif.Proofs.TextHnbapAll

/-!
# The types of HNBAP are those of the text
-/

namespace Verif.Gen.Text
open Verif.AsnToStruct Verif.AsnToStruct.Spec

theorem hnbap_common : moduleItems (hnbapCommon.flatMap (tokens false [])) = some hnbapCommonAssignments := by kernel_rfl

theorem hnbap_constants : moduleItems (hnbapConstants.flatMap (tokens false [])) = some hnbapConstantsAssignments := by kernel_rfl

theorem hnbap_containers : moduleItems (hnbapContainers.flatMap (tokens false [])) = some hnbapContainersAssignments := by kernel_rfl

theorem hnbap_ies : moduleItems (hnbapIes.flatMap (tokens false [])) = some hnbapIesAssignments := by kernel_rfl

theorem hnbap_contents : moduleItems (hnbap.flatMap (tokens false [])) = some hnbapContentsAssignments := by kernel_rfl

theorem hnbap_descriptions : moduleItems (hnbapDescriptions.flatMap (tokens false [])) = some hnbapDescriptionsAssignments := by kernel_rfl

theorem hnbap_ie : items 10000 (hnbapIe.flatMap (tokens false [])) = some hnbapIeAssignments := by kernel_rfl

/-- The modules. -/
noncomputable def hnbapModules : List (List Text) :=
  [hnbapCommon, hnbapConstants, hnbapContainers, hnbapIes, hnbap, hnbapDescriptions]

/-- All assignments. -/
noncomputable def hnbapAssignments : List Assignment :=
  [hnbapCommonAssignments, hnbapConstantsAssignments, hnbapContainersAssignments, hnbapIesAssignments, hnbapContentsAssignments, hnbapDescriptionsAssignments].flatten ++ hnbapIeAssignments

theorem hnbap_assignments : assignments hnbapModules hnbapIe = some hnbapAssignments := by
  unfold assignments hnbapModules
  simp only [List.mapM_cons, List.mapM_nil, hnbap_common, hnbap_constants, hnbap_containers, hnbap_ies, hnbap_contents, hnbap_descriptions, hnbap_ie]
  rfl

/-- The types in an order in which each uses only those in front of it. -/
noncomputable def hnbapOrder : List (Text × Aper.Ty) := [
  (text% "Criticality", Asn.Hnbap.Criticality),
  (text% "Presence", Asn.Hnbap.Presence),
  (text% "PrivateIE-ID", Asn.Hnbap.PrivateIE_ID),
  (text% "ProcedureCode", Asn.Hnbap.ProcedureCode),
  (text% "ProtocolIE-ID", Asn.Hnbap.ProtocolIE_ID),
  (text% "TriggeringMessage", Asn.Hnbap.TriggeringMessage),
  (text% "IE", Asn.Hnbap.IE),
  (text% "IE-Extensions", Asn.Hnbap.IE_Extensions),
  (text% "Access-stratum-release-indicator", Asn.Hnbap.Access_stratum_release_indicator),
  (text% "AccessResult", Asn.Hnbap.AccessResult),
  (text% "AltitudeAndDirection", Asn.Hnbap.AltitudeAndDirection),
  (text% "BackoffTimer", Asn.Hnbap.BackoffTimer),
  (text% "BindingID", Asn.Hnbap.BindingID),
  (text% "CauseMisc", Asn.Hnbap.CauseMisc),
  (text% "CauseProtocol", Asn.Hnbap.CauseProtocol),
  (text% "CauseTransport", Asn.Hnbap.CauseTransport),
  (text% "CauseRadioNetwork", Asn.Hnbap.CauseRadioNetwork),
  (text% "Cause", Asn.Hnbap.Cause),
  (text% "CellIdentity", Asn.Hnbap.CellIdentity),
  (text% "CELL-FACHMobilitySupport", Asn.Hnbap.CELL_FACHMobilitySupport),
  (text% "Context-ID", Asn.Hnbap.Context_ID),
  (text% "TypeOfError", Asn.Hnbap.TypeOfError),
  (text% "CriticalityDiagnostics-IE-List-Value", Asn.Hnbap.CriticalityDiagnostics_IE_List_Value),
  (text% "CriticalityDiagnostics-IE-List", Asn.Hnbap.CriticalityDiagnostics_IE_List),
  (text% "CriticalityDiagnostics", Asn.Hnbap.CriticalityDiagnostics),
  (text% "CSG-ID", Asn.Hnbap.CSG_ID),
  (text% "CSG-Capability", Asn.Hnbap.CSG_Capability),
  (text% "CSGMembershipStatus", Asn.Hnbap.CSGMembershipStatus),
  (text% "CI", Asn.Hnbap.CI),
  (text% "LAC", Asn.Hnbap.LAC),
  (text% "PLMNidentity", Asn.Hnbap.PLMNidentity),
  (text% "CGI", Asn.Hnbap.CGI),
  (text% "CN-DomainIndicator", Asn.Hnbap.CN_DomainIndicator),
  (text% "ESN", Asn.Hnbap.ESN),
  (text% "GeographicalCoordinates", Asn.Hnbap.GeographicalCoordinates),
  (text% "GeographicalLocation", Asn.Hnbap.GeographicalLocation),
  (text% "GTP-TEI", Asn.Hnbap.GTP_TEI),
  (text% "HNBCapacity", Asn.Hnbap.HNBCapacity),
  (text% "HNB-Cell-Access-Mode", Asn.Hnbap.HNB_Cell_Access_Mode),
  (text% "HNB-Cell-Identifier", Asn.Hnbap.HNB_Cell_Identifier),
  (text% "UnknownU-RNTIIndication", Asn.Hnbap.UnknownU_RNTIIndication),
  (text% "RNC-ID", Asn.Hnbap.RNC_ID),
  (text% "HNBConfigurationInformationMissing", Asn.Hnbap.HNBConfigurationInformationMissing),
  (text% "Ipv6Address", Asn.Hnbap.Ipv6Address),
  (text% "Ipv4Address", Asn.Hnbap.Ipv4Address),
  (text% "IP-Address", Asn.Hnbap.IP_Address),
  (text% "Iurh-Signalling-TNL-AddressList", Asn.Hnbap.Iurh_Signalling_TNL_AddressList),
  (text% "PSC", Asn.Hnbap.PSC),
  (text% "HNBConfigurationInformationProvided", Asn.Hnbap.HNBConfigurationInformationProvided),
  (text% "ConfigurationInformation", Asn.Hnbap.ConfigurationInformation),
  (text% "HNB-RNL-Identity", Asn.Hnbap.HNB_RNL_Identity),
  (text% "HNBConfigInfo", Asn.Hnbap.HNBConfigInfo),
  (text% "HNB-GWResponse", Asn.Hnbap.HNB_GWResponse),
  (text% "RAC", Asn.Hnbap.RAC),
  (text% "UTRANCellID", Asn.Hnbap.UTRANCellID),
  (text% "MacroCellID", Asn.Hnbap.MacroCellID),
  (text% "MacroCoverageInformation", Asn.Hnbap.MacroCoverageInformation),
  (text% "HNB-Location-Information", Asn.Hnbap.HNB_Location_Information),
  (text% "HNB-Identity-Info", Asn.Hnbap.HNB_Identity_Info),
  (text% "HNB-Identity", Asn.Hnbap.HNB_Identity),
  (text% "IMEI", Asn.Hnbap.IMEI),
  (text% "IMSI", Asn.Hnbap.IMSI),
  (text% "IMSIDS41", Asn.Hnbap.IMSIDS41),
  (text% "IMSIESN", Asn.Hnbap.IMSIESN),
  (text% "LAI", Asn.Hnbap.LAI),
  (text% "MuxPortNumber", Asn.Hnbap.MuxPortNumber),
  (text% "NeighbourIdentity", Asn.Hnbap.NeighbourIdentity),
  (text% "NeighbourCellIdentityList", Asn.Hnbap.NeighbourCellIdentityList),
  (text% "NeighbourInfoList", Asn.Hnbap.NeighbourInfoList),
  (text% "AdditionalNeighbourInfoList", Asn.Hnbap.AdditionalNeighbourInfoList),
  (text% "NeighbourInfoRequestItem", Asn.Hnbap.NeighbourInfoRequestItem),
  (text% "NeighbourInfoRequestList", Asn.Hnbap.NeighbourInfoRequestList),
  (text% "PTMSI", Asn.Hnbap.PTMSI),
  (text% "RAI", Asn.Hnbap.RAI),
  (text% "PTMSIRAI", Asn.Hnbap.PTMSIRAI),
  (text% "RAB-ID", Asn.Hnbap.RAB_ID),
  (text% "TransportLayerAddress", Asn.Hnbap.TransportLayerAddress),
  (text% "TransportInfo", Asn.Hnbap.TransportInfo),
  (text% "RABListItem", Asn.Hnbap.RABListItem),
  (text% "RABList", Asn.Hnbap.RABList),
  (text% "Registration-Cause", Asn.Hnbap.Registration_Cause),
  (text% "SAC", Asn.Hnbap.SAC),
  (text% "S-RNTIPrefix", Asn.Hnbap.S_RNTIPrefix),
  (text% "TMSILAI", Asn.Hnbap.TMSILAI),
  (text% "TMSIDS41", Asn.Hnbap.TMSIDS41),
  (text% "UDP-Port-Number", Asn.Hnbap.UDP_Port_Number),
  (text% "Tunnel-Information", Asn.Hnbap.Tunnel_Information),
  (text% "UE-Capabilities", Asn.Hnbap.UE_Capabilities),
  (text% "UE-Identity", Asn.Hnbap.UE_Identity),
  (text% "Update-cause", Asn.Hnbap.Update_cause),
  (text% "URAIdentity", Asn.Hnbap.URAIdentity),
  (text% "URAIdentityList", Asn.Hnbap.URAIdentityList),
  (text% "U-RNTI", Asn.Hnbap.U_RNTI),
  (text% "HNBRegisterRequest", Asn.Hnbap.HNBRegisterRequest),
  (text% "HNBRegisterAccept", Asn.Hnbap.HNBRegisterAccept),
  (text% "HNBRegisterReject", Asn.Hnbap.HNBRegisterReject),
  (text% "HNBDe-Register", Asn.Hnbap.HNBDe_Register),
  (text% "UERegisterRequest", Asn.Hnbap.UERegisterRequest),
  (text% "UERegisterAccept", Asn.Hnbap.UERegisterAccept),
  (text% "UERegisterReject", Asn.Hnbap.UERegisterReject),
  (text% "UEDe-Register", Asn.Hnbap.UEDe_Register),
  (text% "CSGMembershipUpdate", Asn.Hnbap.CSGMembershipUpdate),
  (text% "TNLUpdateRequest", Asn.Hnbap.TNLUpdateRequest),
  (text% "TNLUpdateResponse", Asn.Hnbap.TNLUpdateResponse),
  (text% "TNLUpdateFailure", Asn.Hnbap.TNLUpdateFailure),
  (text% "HNBConfigTransferRequest", Asn.Hnbap.HNBConfigTransferRequest),
  (text% "HNBConfigTransferResponse", Asn.Hnbap.HNBConfigTransferResponse),
  (text% "RelocationComplete", Asn.Hnbap.RelocationComplete),
  (text% "ErrorIndication", Asn.Hnbap.ErrorIndication),
  (text% "PrivateMessage", Asn.Hnbap.PrivateMessage),
  (text% "U-RNTIQueryRequest", Asn.Hnbap.U_RNTIQueryRequest),
  (text% "U-RNTIQueryResponse", Asn.Hnbap.U_RNTIQueryResponse),
  (text% "UnsuccessfulOutcome", Asn.Hnbap.UnsuccessfulOutcome),
  (text% "SuccessfulOutcome", Asn.Hnbap.SuccessfulOutcome),
  (text% "InitiatingMessage", Asn.Hnbap.InitiatingMessage),
  (text% "HNBAP-PDU", Asn.Hnbap.HNBAP_PDU)]

theorem hnbap_typeNameList : typeNames hnbapAssignments = hnbapTypes.map (·.1) := by kernel_rfl

theorem hnbap_stages : stages hnbapAssignments [] hnbapOrder = some (hnbapOrder.map (·.2)) := by kernel_rfl

theorem hnbap_ordered : hnbapTypes.map (fun x => findF (key x.1) hnbapOrder) = hnbapTypes.map fun x => some x.2 := by kernel_rfl

theorem hnbap_defines : TypesOf hnbapAssignments hnbapTypes :=
  typesOf_of_stages hnbap_typeNameList hnbap_stages hnbap_ordered

theorem hnbap_nameTable : nameTable hnbapAssignments = AsnNames.hnbapAsn ++ [("IE", [("id", 0), ("criticality", 1), ("value", 2)])] := by
  kernel_rfl

theorem hnbap_named : (hnbapTypes.filter fun x => x.1 ≠ text% "DirectTransferInformationList-RANAP-RelocInf").map
    (fun x => (String.ofList x.1, x.2)) = AsnTable.hnbapNamed.map fun t => (t.2.name, t.2.asn) := by kernel_rfl

theorem hnbap_elementTypes : hnbapSets.map (fun s => (String.ofList s.1, (s.2.filter fun r => r.ty ≠ text% "DirectTransferInformationList-RANAP-RelocInf").map fun r =>
      (String.ofList r.id, String.ofList r.ty))) =
    AsnTable.Hnbap.elements.map fun s => (s.1, s.2.map fun e => (e.1, e.2.name)) := by kernel_rfl

theorem hnbap_elementNamed : AsnTable.Hnbap.elements.map (fun s => s.2.map fun e => some e.2) =
    AsnTable.hnbapIndices.map fun l => l.map fun i => AsnTable.hnbapNamed[i]?.map (·.2) := by kernel_rfl

end Verif.Gen.Text
