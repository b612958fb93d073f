import Verif.Gen.SabpTypesMore
import Verif.Gen.TextFlat
import Verif.Proofs.TypesSabp
import Verif.Model.AsnToC

/-!
# The descriptors of SABP are those of the simplified module
-/

namespace Verif.Gen.Text
open Verif.AsnToStruct Verif.AsnToStruct.Spec

/-- Of `sabpFlat`. -/
noncomputable def sabpFlatAssignments : List Assignment := [
  .type (text% "SABP-PDU") (.choice (.cons (text% "initiatingMessage") (.ref (text% "InitiatingMessage")) false (.cons (text% "successfulOutcome") (.ref (text% "SuccessfulOutcome")) false (.cons (text% "unsuccessfulOutcome") (.ref (text% "UnsuccessfulOutcome")) false .nil))) (some .nil)),
  .type (text% "InitiatingMessage") (.seq (.cons (text% "procedureCode") (.ref (text% "ProcedureCode")) false (.cons (text% "criticality") (.ref (text% "Criticality")) false (.cons (text% "value") .any false .nil))) none),
  .type (text% "SuccessfulOutcome") (.seq (.cons (text% "procedureCode") (.ref (text% "ProcedureCode")) false (.cons (text% "criticality") (.ref (text% "Criticality")) false (.cons (text% "value") .any false .nil))) none),
  .type (text% "UnsuccessfulOutcome") (.seq (.cons (text% "procedureCode") (.ref (text% "ProcedureCode")) false (.cons (text% "criticality") (.ref (text% "Criticality")) false (.cons (text% "value") .any false .nil))) none),
  .type (text% "Write-Replace") (.seq (.cons (text% "write-Replace-ies") (.seqOf (some ⟨text% "0", text% "maxProtocolIEs", false⟩) (.ref (text% "IE"))) false .nil) (some .nil)),
  .type (text% "Write-Replace-Complete") (.seq (.cons (text% "write-Replace-Complete-ies") (.seqOf (some ⟨text% "0", text% "maxProtocolIEs", false⟩) (.ref (text% "IE"))) false .nil) (some .nil)),
  .type (text% "Write-Replace-Failure") (.seq (.cons (text% "write-Replace-Failure-ies") (.seqOf (some ⟨text% "0", text% "maxProtocolIEs", false⟩) (.ref (text% "IE"))) false .nil) (some .nil)),
  .type (text% "Kill") (.seq (.cons (text% "kill-ies") (.seqOf (some ⟨text% "0", text% "maxProtocolIEs", false⟩) (.ref (text% "IE"))) false .nil) (some .nil)),
  .type (text% "Kill-Complete") (.seq (.cons (text% "kill-Complete-ies") (.seqOf (some ⟨text% "0", text% "maxProtocolIEs", false⟩) (.ref (text% "IE"))) false .nil) (some .nil)),
  .type (text% "Kill-Failure") (.seq (.cons (text% "kill-Failure-ies") (.seqOf (some ⟨text% "0", text% "maxProtocolIEs", false⟩) (.ref (text% "IE"))) false .nil) (some .nil)),
  .type (text% "Load-Query") (.seq (.cons (text% "load-Query-ies") (.seqOf (some ⟨text% "0", text% "maxProtocolIEs", false⟩) (.ref (text% "IE"))) false .nil) (some .nil)),
  .type (text% "Load-Query-Complete") (.seq (.cons (text% "load-Query-Complete-ies") (.seqOf (some ⟨text% "0", text% "maxProtocolIEs", false⟩) (.ref (text% "IE"))) false .nil) (some .nil)),
  .type (text% "Load-Query-Failure") (.seq (.cons (text% "load-Query-Failure-ies") (.seqOf (some ⟨text% "0", text% "maxProtocolIEs", false⟩) (.ref (text% "IE"))) false .nil) (some .nil)),
  .type (text% "Message-Status-Query") (.seq (.cons (text% "message-Status-Query-ies") (.seqOf (some ⟨text% "0", text% "maxProtocolIEs", false⟩) (.ref (text% "IE"))) false .nil) (some .nil)),
  .type (text% "Message-Status-Query-Complete") (.seq (.cons (text% "message-Status-Query-Complete-ies") (.seqOf (some ⟨text% "0", text% "maxProtocolIEs", false⟩) (.ref (text% "IE"))) false .nil) (some .nil)),
  .type (text% "Message-Status-Query-Failure") (.seq (.cons (text% "message-Status-Query-Failure-ies") (.seqOf (some ⟨text% "0", text% "maxProtocolIEs", false⟩) (.ref (text% "IE"))) false .nil) (some .nil)),
  .type (text% "Reset") (.seq (.cons (text% "reset-ies") (.seqOf (some ⟨text% "0", text% "maxProtocolIEs", false⟩) (.ref (text% "IE"))) false .nil) (some .nil)),
  .type (text% "Reset-Complete") (.seq (.cons (text% "reset-Complete-ies") (.seqOf (some ⟨text% "0", text% "maxProtocolIEs", false⟩) (.ref (text% "IE"))) false .nil) (some .nil)),
  .type (text% "Reset-Failure") (.seq (.cons (text% "reset-Failure-ies") (.seqOf (some ⟨text% "0", text% "maxProtocolIEs", false⟩) (.ref (text% "IE"))) false .nil) (some .nil)),
  .type (text% "Restart") (.seq (.cons (text% "restart-ies") (.seqOf (some ⟨text% "0", text% "maxProtocolIEs", false⟩) (.ref (text% "IE"))) false .nil) (some .nil)),
  .type (text% "Failure") (.seq (.cons (text% "failure-ies") (.seqOf (some ⟨text% "0", text% "maxProtocolIEs", false⟩) (.ref (text% "IE"))) false .nil) (some .nil)),
  .type (text% "Error-Indication") (.seq (.cons (text% "error-Indication-ies") (.seqOf (some ⟨text% "0", text% "maxProtocolIEs", false⟩) (.ref (text% "IE"))) false .nil) (some .nil)),
  .type (text% "IE") (.seq (.cons (text% "id") (.ref (text% "ProtocolIE-ID")) false (.cons (text% "criticality") (.ref (text% "Criticality")) false (.cons (text% "value") .any false .nil))) none)]

/-- The types of the C code by name. -/
noncomputable def sabpDescriptors : List (Text × Aper.Ty) := [
  (text% "Criticality", Sabp.SABP_Criticality),
  (text% "Presence", Sabp.SABP_Presence),
  (text% "ProcedureCode", Sabp.SABP_ProcedureCode),
  (text% "ProtocolExtensionID", Sabp.SABP_ProtocolExtensionID),
  (text% "ProtocolIE-ID", Sabp.SABP_ProtocolIE_ID),
  (text% "TriggeringMessage", Sabp.SABP_TriggeringMessage),
  (text% "IE-Extensions", Sabp.SABP_IE_Extensions),
  (text% "Available-Bandwidth", Sabp.SABP_Available_Bandwidth),
  (text% "Broadcast-Message-Content", Sabp.SABP_Broadcast_Message_Content),
  (text% "Broadcast-Message-Content-Validity-Indicator", Sabp.SABP_Broadcast_Message_Content_Validity_Indicator),
  (text% "Category", Sabp.SABP_Category),
  (text% "Cause", Sabp.SABP_Cause),
  (text% "Criticality-Diagnostics", Sabp.SABP_Criticality_Diagnostics),
  (text% "CriticalityDiagnostics-IE-List", Sabp.SABP_CriticalityDiagnostics_IE_List),
  (text% "CriticalityDiagnostics-IE-List-Value", Sabp.SABP_CriticalityDiagnostics_IE_List_Value),
  (text% "MessageStructure", Sabp.SABP_MessageStructure),
  (text% "MessageStructure-Value", Sabp.SABP_MessageStructure_Value),
  (text% "Data-Coding-Scheme", Sabp.SABP_Data_Coding_Scheme),
  (text% "Failure-List", Sabp.SABP_Failure_List),
  (text% "Failure-List-Item", Sabp.SABP_Failure_List_Item),
  (text% "Message-Identifier", Sabp.SABP_Message_Identifier),
  (text% "New-Serial-Number", Sabp.SABP_New_Serial_Number),
  (text% "Number-of-Broadcasts-Completed-List", Sabp.SABP_Number_of_Broadcasts_Completed_List),
  (text% "Number-of-Broadcasts-Completed-List-Item", Sabp.SABP_Number_of_Broadcasts_Completed_List_Item),
  (text% "Number-Of-Broadcasts-Completed-Info", Sabp.SABP_Number_Of_Broadcasts_Completed_Info),
  (text% "Number-of-Broadcasts-Requested", Sabp.SABP_Number_of_Broadcasts_Requested),
  (text% "Old-Serial-Number", Sabp.SABP_Old_Serial_Number),
  (text% "Paging-ETWS-Indicator", Sabp.SABP_Paging_ETWS_Indicator),
  (text% "Radio-Resource-Loading-List", Sabp.SABP_Radio_Resource_Loading_List),
  (text% "Radio-Resource-Loading-List-Item", Sabp.SABP_Radio_Resource_Loading_List_Item),
  (text% "Recovery-Indication", Sabp.SABP_Recovery_Indication),
  (text% "RepetitionNumber0", Sabp.SABP_RepetitionNumber0),
  (text% "RepetitionNumber1", Sabp.SABP_RepetitionNumber1),
  (text% "Repetition-Period", Sabp.SABP_Repetition_Period),
  (text% "Serial-Number", Sabp.SABP_Serial_Number),
  (text% "Service-Area-Identifier", Sabp.SABP_Service_Area_Identifier),
  (text% "Service-Areas-List", Sabp.SABP_Service_Areas_List),
  (text% "TypeOfError", Sabp.SABP_TypeOfError),
  (text% "WarningSecurityInfo", Sabp.SABP_WarningSecurityInfo),
  (text% "Warning-Type", Sabp.SABP_Warning_Type),
  (text% "SABP-PDU", Sabp.SABP_SABP_PDU),
  (text% "InitiatingMessage", Sabp.SABP_InitiatingMessage),
  (text% "SuccessfulOutcome", Sabp.SABP_SuccessfulOutcome),
  (text% "UnsuccessfulOutcome", Sabp.SABP_UnsuccessfulOutcome),
  (text% "Write-Replace", Sabp.SABP_Write_Replace),
  (text% "Write-Replace-Complete", Sabp.SABP_Write_Replace_Complete),
  (text% "Write-Replace-Failure", Sabp.SABP_Write_Replace_Failure),
  (text% "Kill", Sabp.SABP_Kill),
  (text% "Kill-Complete", Sabp.SABP_Kill_Complete),
  (text% "Kill-Failure", Sabp.SABP_Kill_Failure),
  (text% "Load-Query", Sabp.SABP_Load_Query),
  (text% "Load-Query-Complete", Sabp.SABP_Load_Query_Complete),
  (text% "Load-Query-Failure", Sabp.SABP_Load_Query_Failure),
  (text% "Message-Status-Query", Sabp.SABP_Message_Status_Query),
  (text% "Message-Status-Query-Complete", Sabp.SABP_Message_Status_Query_Complete),
  (text% "Message-Status-Query-Failure", Sabp.SABP_Message_Status_Query_Failure),
  (text% "Reset", Sabp.SABP_Reset),
  (text% "Reset-Complete", Sabp.SABP_Reset_Complete),
  (text% "Reset-Failure", Sabp.SABP_Reset_Failure),
  (text% "Restart", Sabp.SABP_Restart),
  (text% "Failure", Sabp.SABP_Failure),
  (text% "Error-Indication", Sabp.SABP_Error_Indication),
  (text% "IE", Sabp.SABP_IE)]

theorem sabp_flat : moduleItems (sabpFlat.flatMap (tokens false [])) = some sabpFlatAssignments := by kernel_rfl

/-- The modules. -/
noncomputable def sabpFlatModules : List (List Text) := [sabpCommon, sabpConstants, sabpIes, sabpFlat]

/-- All assignments. -/
noncomputable def sabpAllFlat : List Assignment :=
  [sabpCommonAssignments, sabpConstantsAssignments, sabpIesAssignments, sabpFlatAssignments].flatten ++ []

theorem sabp_flatAssignments : assignments sabpFlatModules [] = some sabpAllFlat := by
  unfold assignments sabpFlatModules
  simp only [List.mapM_cons, List.mapM_nil, sabp_common, sabp_constants, sabp_ies, sabp_flat]
  rfl

/-- The types in an order in which each uses only those in front of it. -/
noncomputable def sabpDescriptorOrder : List (Text × Aper.Ty) := [
  (text% "Criticality", Sabp.SABP_Criticality),
  (text% "ProcedureCode", Sabp.SABP_ProcedureCode),
  (text% "UnsuccessfulOutcome", Sabp.SABP_UnsuccessfulOutcome),
  (text% "SuccessfulOutcome", Sabp.SABP_SuccessfulOutcome),
  (text% "InitiatingMessage", Sabp.SABP_InitiatingMessage),
  (text% "SABP-PDU", Sabp.SABP_SABP_PDU),
  (text% "ProtocolIE-ID", Sabp.SABP_ProtocolIE_ID),
  (text% "IE", Sabp.SABP_IE),
  (text% "Write-Replace", Sabp.SABP_Write_Replace),
  (text% "Message-Identifier", Sabp.SABP_Message_Identifier),
  (text% "Serial-Number", Sabp.SABP_Serial_Number),
  (text% "New-Serial-Number", Sabp.SABP_New_Serial_Number),
  (text% "Old-Serial-Number", Sabp.SABP_Old_Serial_Number),
  (text% "Service-Area-Identifier", Sabp.SABP_Service_Area_Identifier),
  (text% "Service-Areas-List", Sabp.SABP_Service_Areas_List),
  (text% "Category", Sabp.SABP_Category),
  (text% "Repetition-Period", Sabp.SABP_Repetition_Period),
  (text% "Data-Coding-Scheme", Sabp.SABP_Data_Coding_Scheme),
  (text% "Write-Replace-Complete", Sabp.SABP_Write_Replace_Complete),
  (text% "Write-Replace-Failure", Sabp.SABP_Write_Replace_Failure),
  (text% "IE-Extensions", Sabp.SABP_IE_Extensions),
  (text% "Cause", Sabp.SABP_Cause),
  (text% "Failure-List-Item", Sabp.SABP_Failure_List_Item),
  (text% "Failure-List", Sabp.SABP_Failure_List),
  (text% "Kill", Sabp.SABP_Kill),
  (text% "Kill-Complete", Sabp.SABP_Kill_Complete),
  (text% "Kill-Failure", Sabp.SABP_Kill_Failure),
  (text% "Load-Query", Sabp.SABP_Load_Query),
  (text% "Load-Query-Failure", Sabp.SABP_Load_Query_Failure),
  (text% "Message-Status-Query", Sabp.SABP_Message_Status_Query),
  (text% "Message-Status-Query-Complete", Sabp.SABP_Message_Status_Query_Complete),
  (text% "Message-Status-Query-Failure", Sabp.SABP_Message_Status_Query_Failure),
  (text% "Reset", Sabp.SABP_Reset),
  (text% "Reset-Complete", Sabp.SABP_Reset_Complete),
  (text% "Reset-Failure", Sabp.SABP_Reset_Failure),
  (text% "Restart", Sabp.SABP_Restart),
  (text% "Recovery-Indication", Sabp.SABP_Recovery_Indication),
  (text% "Error-Indication", Sabp.SABP_Error_Indication),
  (text% "Available-Bandwidth", Sabp.SABP_Available_Bandwidth),
  (text% "Broadcast-Message-Content-Validity-Indicator", Sabp.SABP_Broadcast_Message_Content_Validity_Indicator),
  (text% "Broadcast-Message-Content", Sabp.SABP_Broadcast_Message_Content),
  (text% "RepetitionNumber0", Sabp.SABP_RepetitionNumber0),
  (text% "CriticalityDiagnostics-IE-List-Value", Sabp.SABP_CriticalityDiagnostics_IE_List_Value),
  (text% "CriticalityDiagnostics-IE-List", Sabp.SABP_CriticalityDiagnostics_IE_List),
  (text% "TriggeringMessage", Sabp.SABP_TriggeringMessage),
  (text% "Criticality-Diagnostics", Sabp.SABP_Criticality_Diagnostics),
  (text% "Failure", Sabp.SABP_Failure),
  (text% "Load-Query-Complete", Sabp.SABP_Load_Query_Complete),
  (text% "RepetitionNumber1", Sabp.SABP_RepetitionNumber1),
  (text% "MessageStructure-Value", Sabp.SABP_MessageStructure_Value),
  (text% "MessageStructure", Sabp.SABP_MessageStructure),
  (text% "Number-Of-Broadcasts-Completed-Info", Sabp.SABP_Number_Of_Broadcasts_Completed_Info),
  (text% "Number-of-Broadcasts-Completed-List-Item", Sabp.SABP_Number_of_Broadcasts_Completed_List_Item),
  (text% "Number-of-Broadcasts-Completed-List", Sabp.SABP_Number_of_Broadcasts_Completed_List),
  (text% "Number-of-Broadcasts-Requested", Sabp.SABP_Number_of_Broadcasts_Requested),
  (text% "Paging-ETWS-Indicator", Sabp.SABP_Paging_ETWS_Indicator),
  (text% "Presence", Sabp.SABP_Presence),
  (text% "ProtocolExtensionID", Sabp.SABP_ProtocolExtensionID),
  (text% "Radio-Resource-Loading-List-Item", Sabp.SABP_Radio_Resource_Loading_List_Item),
  (text% "Radio-Resource-Loading-List", Sabp.SABP_Radio_Resource_Loading_List),
  (text% "TypeOfError", Sabp.SABP_TypeOfError),
  (text% "Warning-Type", Sabp.SABP_Warning_Type),
  (text% "WarningSecurityInfo", Sabp.SABP_WarningSecurityInfo)]

theorem sabp_flatDefines : TypesOf sabpAllFlat sabpDescriptors :=
  typesOf_of_stages (order := sabpDescriptorOrder) (by kernel_rfl) (by kernel_rfl) (by kernel_rfl)

theorem sabp_typeNames : sabpNames.type.map (fun x => find x.1 sabpDescriptors) = sabpNames.type.map (fun x => some x.2) := by
  kernel_rfl

theorem sabp_containerNames : sabpNames.container.map (fun x => find (containerType [] x.1)
    (sabpDescriptors.map fun d => (underscore d.1, d.2))) = sabpNames.container.map (fun x => some x.2) := by kernel_rfl

end Verif.Gen.Text
