import Verif.Gen.AsnTypesSabp
import Verif.Gen.TextTypesSabp
import Verif.Gen.TextConstants
import Verif.Gen.AsnNames
import Verif.Gen.AsnNamed
import Verif.Proofs.ReadSabp
import Verif.Proofs.AsnTypes
import Verif.Proofs.TextSabpAll

/-!
# The types of SABP are those of the text
-/

namespace Verif.Gen.Text
open Verif.AsnToStruct Verif.AsnToStruct.Spec

theorem sabp_common : moduleItems (sabpCommon.flatMap (tokens false [])) = some sabpCommonAssignments := by kernel_rfl

theorem sabp_constants : moduleItems (sabpConstants.flatMap (tokens false [])) = some sabpConstantsAssignments := by kernel_rfl

theorem sabp_containers : moduleItems (sabpContainers.flatMap (tokens false [])) = some sabpContainersAssignments := by kernel_rfl

theorem sabp_ies : moduleItems (sabpIes.flatMap (tokens false [])) = some sabpIesAssignments := by kernel_rfl

theorem sabp_contents : moduleItems (sabp.flatMap (tokens false [])) = some sabpContentsAssignments := by kernel_rfl

theorem sabp_descriptions : moduleItems (sabpDescriptions.flatMap (tokens false [])) = some sabpDescriptionsAssignments := by kernel_rfl

theorem sabp_ie : items 10000 (sabpIe.flatMap (tokens false [])) = some sabpIeAssignments := by kernel_rfl

/-- The modules. -/
noncomputable def sabpModules : List (List Text) :=
  [sabpCommon, sabpConstants, sabpContainers, sabpIes, sabp, sabpDescriptions]

/-- All assignments. -/
noncomputable def sabpAssignments : List Assignment :=
  [sabpCommonAssignments, sabpConstantsAssignments, sabpContainersAssignments, sabpIesAssignments, sabpContentsAssignments, sabpDescriptionsAssignments].flatten ++ sabpIeAssignments

theorem sabp_assignments : assignments sabpModules sabpIe = some sabpAssignments := by
  unfold assignments sabpModules
  simp only [List.mapM_cons, List.mapM_nil, sabp_common, sabp_constants, sabp_containers, sabp_ies, sabp_contents, sabp_descriptions, sabp_ie]
  rfl

/-- The types in an order in which each uses only those in front of it. -/
noncomputable def sabpOrder : List (Text × Aper.Ty) := [
  (text% "Criticality", Asn.Sabp.Criticality),
  (text% "Presence", Asn.Sabp.Presence),
  (text% "ProcedureCode", Asn.Sabp.ProcedureCode),
  (text% "ProtocolExtensionID", Asn.Sabp.ProtocolExtensionID),
  (text% "ProtocolIE-ID", Asn.Sabp.ProtocolIE_ID),
  (text% "TriggeringMessage", Asn.Sabp.TriggeringMessage),
  (text% "IE", Asn.Sabp.IE),
  (text% "IE-Extensions", Asn.Sabp.IE_Extensions),
  (text% "Available-Bandwidth", Asn.Sabp.Available_Bandwidth),
  (text% "Broadcast-Message-Content", Asn.Sabp.Broadcast_Message_Content),
  (text% "Broadcast-Message-Content-Validity-Indicator", Asn.Sabp.Broadcast_Message_Content_Validity_Indicator),
  (text% "Category", Asn.Sabp.Category),
  (text% "Cause", Asn.Sabp.Cause),
  (text% "RepetitionNumber0", Asn.Sabp.RepetitionNumber0),
  (text% "CriticalityDiagnostics-IE-List-Value", Asn.Sabp.CriticalityDiagnostics_IE_List_Value),
  (text% "CriticalityDiagnostics-IE-List", Asn.Sabp.CriticalityDiagnostics_IE_List),
  (text% "Criticality-Diagnostics", Asn.Sabp.Criticality_Diagnostics),
  (text% "RepetitionNumber1", Asn.Sabp.RepetitionNumber1),
  (text% "MessageStructure-Value", Asn.Sabp.MessageStructure_Value),
  (text% "MessageStructure", Asn.Sabp.MessageStructure),
  (text% "Data-Coding-Scheme", Asn.Sabp.Data_Coding_Scheme),
  (text% "Service-Area-Identifier", Asn.Sabp.Service_Area_Identifier),
  (text% "Failure-List-Item", Asn.Sabp.Failure_List_Item),
  (text% "Failure-List", Asn.Sabp.Failure_List),
  (text% "Message-Identifier", Asn.Sabp.Message_Identifier),
  (text% "Serial-Number", Asn.Sabp.Serial_Number),
  (text% "New-Serial-Number", Asn.Sabp.New_Serial_Number),
  (text% "Number-Of-Broadcasts-Completed-Info", Asn.Sabp.Number_Of_Broadcasts_Completed_Info),
  (text% "Number-of-Broadcasts-Completed-List-Item", Asn.Sabp.Number_of_Broadcasts_Completed_List_Item),
  (text% "Number-of-Broadcasts-Completed-List", Asn.Sabp.Number_of_Broadcasts_Completed_List),
  (text% "Number-of-Broadcasts-Requested", Asn.Sabp.Number_of_Broadcasts_Requested),
  (text% "Old-Serial-Number", Asn.Sabp.Old_Serial_Number),
  (text% "Paging-ETWS-Indicator", Asn.Sabp.Paging_ETWS_Indicator),
  (text% "Radio-Resource-Loading-List-Item", Asn.Sabp.Radio_Resource_Loading_List_Item),
  (text% "Radio-Resource-Loading-List", Asn.Sabp.Radio_Resource_Loading_List),
  (text% "Recovery-Indication", Asn.Sabp.Recovery_Indication),
  (text% "Repetition-Period", Asn.Sabp.Repetition_Period),
  (text% "Service-Areas-List", Asn.Sabp.Service_Areas_List),
  (text% "TypeOfError", Asn.Sabp.TypeOfError),
  (text% "WarningSecurityInfo", Asn.Sabp.WarningSecurityInfo),
  (text% "Warning-Type", Asn.Sabp.Warning_Type),
  (text% "Write-Replace", Asn.Sabp.Write_Replace),
  (text% "Write-Replace-Complete", Asn.Sabp.Write_Replace_Complete),
  (text% "Write-Replace-Failure", Asn.Sabp.Write_Replace_Failure),
  (text% "Kill", Asn.Sabp.Kill),
  (text% "Kill-Complete", Asn.Sabp.Kill_Complete),
  (text% "Kill-Failure", Asn.Sabp.Kill_Failure),
  (text% "Load-Query", Asn.Sabp.Load_Query),
  (text% "Load-Query-Complete", Asn.Sabp.Load_Query_Complete),
  (text% "Load-Query-Failure", Asn.Sabp.Load_Query_Failure),
  (text% "Message-Status-Query", Asn.Sabp.Message_Status_Query),
  (text% "Message-Status-Query-Complete", Asn.Sabp.Message_Status_Query_Complete),
  (text% "Message-Status-Query-Failure", Asn.Sabp.Message_Status_Query_Failure),
  (text% "Reset", Asn.Sabp.Reset),
  (text% "Reset-Complete", Asn.Sabp.Reset_Complete),
  (text% "Reset-Failure", Asn.Sabp.Reset_Failure),
  (text% "Restart", Asn.Sabp.Restart),
  (text% "Failure", Asn.Sabp.Failure),
  (text% "Error-Indication", Asn.Sabp.Error_Indication),
  (text% "UnsuccessfulOutcome", Asn.Sabp.UnsuccessfulOutcome),
  (text% "SuccessfulOutcome", Asn.Sabp.SuccessfulOutcome),
  (text% "InitiatingMessage", Asn.Sabp.InitiatingMessage),
  (text% "SABP-PDU", Asn.Sabp.SABP_PDU)]

theorem sabp_typeNameList : typeNames sabpAssignments = sabpTypes.map (·.1) := by kernel_rfl

theorem sabp_stages : stages sabpAssignments [] sabpOrder = some (sabpOrder.map (·.2)) := by kernel_rfl

theorem sabp_ordered : sabpTypes.map (fun x => findF (key x.1) sabpOrder) = sabpTypes.map fun x => some x.2 := by kernel_rfl

theorem sabp_defines : TypesOf sabpAssignments sabpTypes :=
  typesOf_of_stages sabp_typeNameList sabp_stages sabp_ordered

theorem sabp_nameTable : nameTable sabpAssignments = AsnNames.sabpAsn ++ [("IE", [("id", 0), ("criticality", 1), ("value", 2)])] := by
  kernel_rfl

theorem sabp_named : (sabpTypes.filter fun x => x.1 ≠ text% "DirectTransferInformationList-RANAP-RelocInf").map
    (fun x => (String.ofList x.1, x.2)) = AsnTable.sabpNamed.map fun t => (t.2.name, t.2.asn) := by kernel_rfl

theorem sabp_elementTypes : sabpSets.map (fun s => (String.ofList s.1, (s.2.filter fun r => r.ty ≠ text% "DirectTransferInformationList-RANAP-RelocInf").map fun r =>
      (String.ofList r.id, String.ofList r.ty))) =
    AsnTable.Sabp.elements.map fun s => (s.1, s.2.map fun e => (e.1, e.2.name)) := by kernel_rfl

theorem sabp_elementNamed : AsnTable.Sabp.elements.map (fun s => s.2.map fun e => some e.2) =
    AsnTable.sabpIndices.map fun l => l.map fun i => AsnTable.sabpNamed[i]?.map (·.2) := by kernel_rfl

end Verif.Gen.Text
