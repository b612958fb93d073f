import Verif.Gen.AsnTypesRua
import Verif.Gen.TextTypesRua
import Verif.Gen.TextConstants
import Verif.Gen.AsnNames
import Verif.Gen.AsnNamed
import Verif.Proofs.ReadRua
import Verif.Proofs.AsnTypes
import Verif.Proofs.TextRuaAll

/-!
# The types of RUA are those of the text
-/

namespace Verif.Gen.Text
open Verif.AsnToStruct Verif.AsnToStruct.Spec

theorem rua_common : moduleItems (ruaCommon.flatMap (tokens false [])) = some ruaCommonAssignments := by kernel_rfl

theorem rua_constants : moduleItems (ruaConstants.flatMap (tokens false [])) = some ruaConstantsAssignments := by kernel_rfl

theorem rua_containers : moduleItems (ruaContainers.flatMap (tokens false [])) = some ruaContainersAssignments := by kernel_rfl

theorem rua_ies : moduleItems (ruaIes.flatMap (tokens false [])) = some ruaIesAssignments := by kernel_rfl

theorem rua_contents : moduleItems (rua.flatMap (tokens false [])) = some ruaContentsAssignments := by kernel_rfl

theorem rua_descriptions : moduleItems (ruaDescriptions.flatMap (tokens false [])) = some ruaDescriptionsAssignments := by kernel_rfl

theorem rua_ie : items 10000 (ruaIe.flatMap (tokens false [])) = some ruaIeAssignments := by kernel_rfl

/-- The modules. -/
noncomputable def ruaModules : List (List Text) :=
  [ruaCommon, ruaConstants, ruaContainers, ruaIes, rua, ruaDescriptions]

/-- All assignments. -/
noncomputable def ruaAssignments : List Assignment :=
  [ruaCommonAssignments, ruaConstantsAssignments, ruaContainersAssignments, ruaIesAssignments, ruaContentsAssignments, ruaDescriptionsAssignments].flatten ++ ruaIeAssignments

theorem rua_assignments : assignments ruaModules ruaIe = some ruaAssignments := by
  unfold assignments ruaModules
  simp only [List.mapM_cons, List.mapM_nil, rua_common, rua_constants, rua_containers, rua_ies, rua_contents, rua_descriptions, rua_ie]
  rfl

/-- The types in an order in which each uses only those in front of it. -/
noncomputable def ruaOrder : List (Text × Aper.Ty) := [
  (text% "Criticality", Asn.Rua.Criticality),
  (text% "Presence", Asn.Rua.Presence),
  (text% "ProcedureCode", Asn.Rua.ProcedureCode),
  (text% "PrivateIE-ID", Asn.Rua.PrivateIE_ID),
  (text% "ProtocolIE-ID", Asn.Rua.ProtocolIE_ID),
  (text% "TriggeringMessage", Asn.Rua.TriggeringMessage),
  (text% "IE", Asn.Rua.IE),
  (text% "IE-Extensions", Asn.Rua.IE_Extensions),
  (text% "CN-DomainIndicator", Asn.Rua.CN_DomainIndicator),
  (text% "CSGMembershipStatus", Asn.Rua.CSGMembershipStatus),
  (text% "Establishment-Cause", Asn.Rua.Establishment_Cause),
  (text% "Context-ID", Asn.Rua.Context_ID),
  (text% "Ansi-41-IDNNS", Asn.Rua.Ansi_41_IDNNS),
  (text% "RoutingParameter", Asn.Rua.RoutingParameter),
  (text% "Gsm-map-IDNNS", Asn.Rua.Gsm_map_IDNNS),
  (text% "IntraDomainNasNodeSelector", Asn.Rua.IntraDomainNasNodeSelector),
  (text% "RANAP-Message", Asn.Rua.RANAP_Message),
  (text% "CauseMisc", Asn.Rua.CauseMisc),
  (text% "CauseProtocol", Asn.Rua.CauseProtocol),
  (text% "CauseTransport", Asn.Rua.CauseTransport),
  (text% "CauseRadioNetwork", Asn.Rua.CauseRadioNetwork),
  (text% "Cause", Asn.Rua.Cause),
  (text% "TypeOfError", Asn.Rua.TypeOfError),
  (text% "CriticalityDiagnostics-IE-List-Value", Asn.Rua.CriticalityDiagnostics_IE_List_Value),
  (text% "CriticalityDiagnostics-IE-List", Asn.Rua.CriticalityDiagnostics_IE_List),
  (text% "CriticalityDiagnostics", Asn.Rua.CriticalityDiagnostics),
  (text% "Connect", Asn.Rua.Connect),
  (text% "DirectTransfer", Asn.Rua.DirectTransfer),
  (text% "Disconnect", Asn.Rua.Disconnect),
  (text% "ConnectionlessTransfer", Asn.Rua.ConnectionlessTransfer),
  (text% "ErrorIndication", Asn.Rua.ErrorIndication),
  (text% "PrivateMessage", Asn.Rua.PrivateMessage),
  (text% "UnsuccessfulOutcome", Asn.Rua.UnsuccessfulOutcome),
  (text% "SuccessfulOutcome", Asn.Rua.SuccessfulOutcome),
  (text% "InitiatingMessage", Asn.Rua.InitiatingMessage),
  (text% "RUA-PDU", Asn.Rua.RUA_PDU)]

theorem rua_typeNameList : typeNames ruaAssignments = ruaTypes.map (·.1) := by kernel_rfl

theorem rua_stages : stages ruaAssignments [] ruaOrder = some (ruaOrder.map (·.2)) := by kernel_rfl

theorem rua_ordered : ruaTypes.map (fun x => findF (key x.1) ruaOrder) = ruaTypes.map fun x => some x.2 := by kernel_rfl

theorem rua_defines : TypesOf ruaAssignments ruaTypes :=
  typesOf_of_stages rua_typeNameList rua_stages rua_ordered

theorem rua_nameTable : nameTable ruaAssignments = AsnNames.ruaAsn ++ [("IE", [("id", 0), ("criticality", 1), ("value", 2)])] := by
  kernel_rfl

theorem rua_named : (ruaTypes.filter fun x => x.1 ≠ text% "DirectTransferInformationList-RANAP-RelocInf").map
    (fun x => (String.ofList x.1, x.2)) = AsnTable.ruaNamed.map fun t => (t.2.name, t.2.asn) := by kernel_rfl

theorem rua_elementTypes : ruaSets.map (fun s => (String.ofList s.1, (s.2.filter fun r => r.ty ≠ text% "DirectTransferInformationList-RANAP-RelocInf").map fun r =>
      (String.ofList r.id, String.ofList r.ty))) =
    AsnTable.Rua.elements.map fun s => (s.1, s.2.map fun e => (e.1, e.2.name)) := by kernel_rfl

theorem rua_elementNamed : AsnTable.Rua.elements.map (fun s => s.2.map fun e => some e.2) =
    AsnTable.ruaIndices.map fun l => l.map fun i => AsnTable.ruaNamed[i]?.map (·.2) := by kernel_rfl

end Verif.Gen.Text
