import Verif.Gen.RuaTypesMore
import Verif.Gen.TextFlat
import Verif.Proofs.TypesRua
import Verif.Model.AsnToC

/-!
# The descriptors of RUA are those of the simplified module
-/

namespace Verif.Gen.Text
open Verif.AsnToStruct Verif.AsnToStruct.Spec

/-- Of `ruaFlat`. -/
noncomputable def ruaFlatAssignments : List Assignment := [
  .type (text% "RUA-PDU") (.choice (.cons (text% "initiatingMessage") (.ref (text% "InitiatingMessage")) false (.cons (text% "successfulOutcome") (.ref (text% "SuccessfulOutcome")) false (.cons (text% "unsuccessfulOutcome") (.ref (text% "UnsuccessfulOutcome")) false .nil))) (some .nil)),
  .type (text% "InitiatingMessage") (.seq (.cons (text% "procedureCode") (.ref (text% "ProcedureCode")) false (.cons (text% "criticality") (.ref (text% "Criticality")) false (.cons (text% "value") .any false .nil))) none),
  .type (text% "SuccessfulOutcome") (.seq (.cons (text% "procedureCode") (.ref (text% "ProcedureCode")) false (.cons (text% "criticality") (.ref (text% "Criticality")) false (.cons (text% "value") .any false .nil))) none),
  .type (text% "UnsuccessfulOutcome") (.seq (.cons (text% "procedureCode") (.ref (text% "ProcedureCode")) false (.cons (text% "criticality") (.ref (text% "Criticality")) false (.cons (text% "value") .any false .nil))) none),
  .type (text% "Connect") (.seq (.cons (text% "connect-ies") (.seqOf (some ⟨text% "0", text% "maxProtocolIEs", false⟩) (.ref (text% "IE"))) false .nil) (some .nil)),
  .type (text% "DirectTransfer") (.seq (.cons (text% "directTransfer-ies") (.seqOf (some ⟨text% "0", text% "maxProtocolIEs", false⟩) (.ref (text% "IE"))) false .nil) (some .nil)),
  .type (text% "Disconnect") (.seq (.cons (text% "disconnect-ies") (.seqOf (some ⟨text% "0", text% "maxProtocolIEs", false⟩) (.ref (text% "IE"))) false .nil) (some .nil)),
  .type (text% "ConnectionlessTransfer") (.seq (.cons (text% "connectionlessTransfer-ies") (.seqOf (some ⟨text% "0", text% "maxProtocolIEs", false⟩) (.ref (text% "IE"))) false .nil) (some .nil)),
  .type (text% "ErrorIndication") (.seq (.cons (text% "errorIndication-ies") (.seqOf (some ⟨text% "0", text% "maxProtocolIEs", false⟩) (.ref (text% "IE"))) false .nil) (some .nil)),
  .type (text% "PrivateMessage") (.seq (.cons (text% "privateMessage-ies") (.seqOf (some ⟨text% "0", text% "maxProtocolIEs", false⟩) (.ref (text% "IE"))) false .nil) (some .nil)),
  .type (text% "IE") (.seq (.cons (text% "id") (.ref (text% "ProtocolIE-ID")) false (.cons (text% "criticality") (.ref (text% "Criticality")) false (.cons (text% "value") .any false .nil))) none)]

/-- The types of the C code by name. -/
noncomputable def ruaDescriptors : List (Text × Aper.Ty) := [
  (text% "Criticality", Rua.RUA_Criticality),
  (text% "Presence", Rua.RUA_Presence),
  (text% "ProcedureCode", Rua.RUA_ProcedureCode),
  (text% "PrivateIE-ID", Rua.RUA_PrivateIE_ID),
  (text% "ProtocolIE-ID", Rua.RUA_ProtocolIE_ID),
  (text% "TriggeringMessage", Rua.RUA_TriggeringMessage),
  (text% "IE-Extensions", Rua.RUA_IE_Extensions),
  (text% "CN-DomainIndicator", Rua.RUA_CN_DomainIndicator),
  (text% "CSGMembershipStatus", Rua.RUA_CSGMembershipStatus),
  (text% "Establishment-Cause", Rua.RUA_Establishment_Cause),
  (text% "Context-ID", Rua.RUA_Context_ID),
  (text% "IntraDomainNasNodeSelector", Rua.RUA_IntraDomainNasNodeSelector),
  (text% "Gsm-map-IDNNS", Rua.RUA_Gsm_map_IDNNS),
  (text% "Ansi-41-IDNNS", Rua.RUA_Ansi_41_IDNNS),
  (text% "RANAP-Message", Rua.RUA_RANAP_Message),
  (text% "RoutingParameter", Rua.RUA_RoutingParameter),
  (text% "Cause", Rua.RUA_Cause),
  (text% "CauseRadioNetwork", Rua.RUA_CauseRadioNetwork),
  (text% "CauseTransport", Rua.RUA_CauseTransport),
  (text% "CauseProtocol", Rua.RUA_CauseProtocol),
  (text% "CauseMisc", Rua.RUA_CauseMisc),
  (text% "CriticalityDiagnostics", Rua.RUA_CriticalityDiagnostics),
  (text% "CriticalityDiagnostics-IE-List", Rua.RUA_CriticalityDiagnostics_IE_List),
  (text% "CriticalityDiagnostics-IE-List-Value", Rua.RUA_CriticalityDiagnostics_IE_List_Value),
  (text% "TypeOfError", Rua.RUA_TypeOfError),
  (text% "RUA-PDU", Rua.RUA_RUA_PDU),
  (text% "InitiatingMessage", Rua.RUA_InitiatingMessage),
  (text% "SuccessfulOutcome", Rua.RUA_SuccessfulOutcome),
  (text% "UnsuccessfulOutcome", Rua.RUA_UnsuccessfulOutcome),
  (text% "Connect", Rua.RUA_Connect),
  (text% "DirectTransfer", Rua.RUA_DirectTransfer),
  (text% "Disconnect", Rua.RUA_Disconnect),
  (text% "ConnectionlessTransfer", Rua.RUA_ConnectionlessTransfer),
  (text% "ErrorIndication", Rua.RUA_ErrorIndication),
  (text% "PrivateMessage", Rua.RUA_PrivateMessage),
  (text% "IE", Rua.RUA_IE)]

theorem rua_flat : moduleItems (ruaFlat.flatMap (tokens false [])) = some ruaFlatAssignments := by kernel_rfl

/-- The modules. -/
noncomputable def ruaFlatModules : List (List Text) := [ruaCommon, ruaConstants, ruaIes, ruaFlat]

/-- All assignments. -/
noncomputable def ruaAllFlat : List Assignment :=
  [ruaCommonAssignments, ruaConstantsAssignments, ruaIesAssignments, ruaFlatAssignments].flatten ++ []

theorem rua_flatAssignments : assignments ruaFlatModules [] = some ruaAllFlat := by
  unfold assignments ruaFlatModules
  simp only [List.mapM_cons, List.mapM_nil, rua_common, rua_constants, rua_ies, rua_flat]
  rfl

/-- The types in an order in which each uses only those in front of it. -/
noncomputable def ruaDescriptorOrder : List (Text × Aper.Ty) := [
  (text% "Criticality", Rua.RUA_Criticality),
  (text% "ProcedureCode", Rua.RUA_ProcedureCode),
  (text% "UnsuccessfulOutcome", Rua.RUA_UnsuccessfulOutcome),
  (text% "SuccessfulOutcome", Rua.RUA_SuccessfulOutcome),
  (text% "InitiatingMessage", Rua.RUA_InitiatingMessage),
  (text% "RUA-PDU", Rua.RUA_RUA_PDU),
  (text% "ProtocolIE-ID", Rua.RUA_ProtocolIE_ID),
  (text% "IE", Rua.RUA_IE),
  (text% "Connect", Rua.RUA_Connect),
  (text% "CN-DomainIndicator", Rua.RUA_CN_DomainIndicator),
  (text% "Context-ID", Rua.RUA_Context_ID),
  (text% "Ansi-41-IDNNS", Rua.RUA_Ansi_41_IDNNS),
  (text% "RoutingParameter", Rua.RUA_RoutingParameter),
  (text% "Gsm-map-IDNNS", Rua.RUA_Gsm_map_IDNNS),
  (text% "IntraDomainNasNodeSelector", Rua.RUA_IntraDomainNasNodeSelector),
  (text% "Establishment-Cause", Rua.RUA_Establishment_Cause),
  (text% "RANAP-Message", Rua.RUA_RANAP_Message),
  (text% "DirectTransfer", Rua.RUA_DirectTransfer),
  (text% "Disconnect", Rua.RUA_Disconnect),
  (text% "CauseMisc", Rua.RUA_CauseMisc),
  (text% "CauseProtocol", Rua.RUA_CauseProtocol),
  (text% "CauseTransport", Rua.RUA_CauseTransport),
  (text% "CauseRadioNetwork", Rua.RUA_CauseRadioNetwork),
  (text% "Cause", Rua.RUA_Cause),
  (text% "ConnectionlessTransfer", Rua.RUA_ConnectionlessTransfer),
  (text% "ErrorIndication", Rua.RUA_ErrorIndication),
  (text% "IE-Extensions", Rua.RUA_IE_Extensions),
  (text% "TypeOfError", Rua.RUA_TypeOfError),
  (text% "CriticalityDiagnostics-IE-List-Value", Rua.RUA_CriticalityDiagnostics_IE_List_Value),
  (text% "CriticalityDiagnostics-IE-List", Rua.RUA_CriticalityDiagnostics_IE_List),
  (text% "TriggeringMessage", Rua.RUA_TriggeringMessage),
  (text% "CriticalityDiagnostics", Rua.RUA_CriticalityDiagnostics),
  (text% "CSGMembershipStatus", Rua.RUA_CSGMembershipStatus),
  (text% "Presence", Rua.RUA_Presence),
  (text% "PrivateIE-ID", Rua.RUA_PrivateIE_ID),
  (text% "PrivateMessage", Rua.RUA_PrivateMessage)]

theorem rua_flatDefines : TypesOf ruaAllFlat ruaDescriptors :=
  typesOf_of_stages (order := ruaDescriptorOrder) (by kernel_rfl) (by kernel_rfl) (by kernel_rfl)

theorem rua_typeNames : ruaNames.type.map (fun x => find x.1 ruaDescriptors) = ruaNames.type.map (fun x => some x.2) := by
  kernel_rfl

theorem rua_containerNames : ruaNames.container.map (fun x => find (containerType [] x.1)
    (ruaDescriptors.map fun d => (underscore d.1, d.2))) = ruaNames.container.map (fun x => some x.2) := by kernel_rfl

end Verif.Gen.Text
