import Verif.Gen.SabpTypes

/-!
# The other type descriptors of SABP

Those of `/repo/src/sabp/*.c` which `Verif/Gen/SabpTypes.lean` does not have, because no information element of
a message refers to them.
-/

namespace Verif.Gen.Sabp
open Verif.Aper

/-- `asn_DEF_SABP_Available_Bandwidth`, src/sabp/SABP_Available-Bandwidth.c:141 -/
def SABP_Available_Bandwidth : Ty := .int ⟨0, 20480, false⟩
/-- `asn_DEF_SABP_Broadcast_Message_Content_Validity_Indicator`, src/sabp/SABP_Broadcast-Message-Content-Validity-Indicator.c:141 -/
def SABP_Broadcast_Message_Content_Validity_Indicator : Ty := .enum 1 1 true
/-- `asn_DEF_SABP_Broadcast_Message_Content`, src/sabp/SABP_Broadcast-Message-Content.c:147 -/
def SABP_Broadcast_Message_Content : Ty := .bits (some ⟨1, 9968, false⟩)
/-- `asn_DEF_SABP_RepetitionNumber0`, src/sabp/SABP_RepetitionNumber0.c:141 -/
def SABP_RepetitionNumber0 : Ty := .int ⟨0, 255, false⟩
/-- `asn_DEF_SABP_CriticalityDiagnostics_IE_List_Value`, src/sabp/SABP_CriticalityDiagnostics-IE-List-Value.c:68 -/
def SABP_CriticalityDiagnostics_IE_List_Value : Ty := .seq true (.cons false SABP_Criticality (.cons false SABP_ProtocolIE_ID (.cons true SABP_RepetitionNumber0 (.cons true SABP_IE_Extensions .nil))))
/-- `asn_DEF_SABP_CriticalityDiagnostics_IE_List`, src/sabp/SABP_CriticalityDiagnostics-IE-List.c:34 -/
def SABP_CriticalityDiagnostics_IE_List : Ty := .seqOf (some ⟨1, 256, false⟩) SABP_CriticalityDiagnostics_IE_List_Value
/-- `asn_DEF_SABP_TriggeringMessage`, src/sabp/SABP_TriggeringMessage.c:145 -/
def SABP_TriggeringMessage : Ty := .enum 4 4 false
/-- `asn_DEF_SABP_Criticality_Diagnostics`, src/sabp/SABP_Criticality-Diagnostics.c:78 -/
def SABP_Criticality_Diagnostics : Ty := .seq true (.cons true SABP_ProcedureCode (.cons true SABP_TriggeringMessage (.cons true SABP_Criticality (.cons true SABP_CriticalityDiagnostics_IE_List (.cons true SABP_IE_Extensions .nil)))))
/-- `asn_DEF_failure_ies_2`, src/sabp/SABP_Failure.c:67 -/
def SABP_Failure__failure_ies_2 : Ty := .seqOf (some ⟨0, 65535, false⟩) SABP_IE
/-- `asn_DEF_SABP_Failure`, src/sabp/SABP_Failure.c:120 -/
def SABP_Failure : Ty := .seq true (.cons false SABP_Failure__failure_ies_2 .nil)
/-- `asn_DEF_load_Query_Complete_ies_2`, src/sabp/SABP_Load-Query-Complete.c:67 -/
def SABP_Load_Query_Complete__load_Query_Complete_ies_2 : Ty := .seqOf (some ⟨0, 65535, false⟩) SABP_IE
/-- `asn_DEF_SABP_Load_Query_Complete`, src/sabp/SABP_Load-Query-Complete.c:120 -/
def SABP_Load_Query_Complete : Ty := .seq true (.cons false SABP_Load_Query_Complete__load_Query_Complete_ies_2 .nil)
/-- `asn_DEF_SABP_RepetitionNumber1`, src/sabp/SABP_RepetitionNumber1.c:141 -/
def SABP_RepetitionNumber1 : Ty := .int ⟨1, 256, false⟩
/-- `asn_DEF_SABP_MessageStructure_Value`, src/sabp/SABP_MessageStructure-Value.c:58 -/
def SABP_MessageStructure_Value : Ty := .seq true (.cons false SABP_ProtocolIE_ID (.cons true SABP_RepetitionNumber1 (.cons true SABP_IE_Extensions .nil)))
/-- `asn_DEF_SABP_MessageStructure`, src/sabp/SABP_MessageStructure.c:34 -/
def SABP_MessageStructure : Ty := .seqOf (some ⟨1, 256, false⟩) SABP_MessageStructure_Value
/-- `asn_DEF_SABP_Number_Of_Broadcasts_Completed_Info`, src/sabp/SABP_Number-Of-Broadcasts-Completed-Info.c:143 -/
def SABP_Number_Of_Broadcasts_Completed_Info : Ty := .enum 2 2 true
/-- `asn_DEF_SABP_Number_of_Broadcasts_Completed_List_Item`, src/sabp/SABP_Number-of-Broadcasts-Completed-List-Item.c:98 -/
def SABP_Number_of_Broadcasts_Completed_List_Item : Ty := .seq true (.cons false SABP_Service_Area_Identifier (.cons false (.int ⟨0, 65535, false⟩) (.cons true SABP_Number_Of_Broadcasts_Completed_Info (.cons true SABP_IE_Extensions .nil))))
/-- `asn_DEF_SABP_Number_of_Broadcasts_Completed_List`, src/sabp/SABP_Number-of-Broadcasts-Completed-List.c:34 -/
def SABP_Number_of_Broadcasts_Completed_List : Ty := .seqOf (some ⟨1, 65535, false⟩) SABP_Number_of_Broadcasts_Completed_List_Item
/-- `asn_DEF_SABP_Number_of_Broadcasts_Requested`, src/sabp/SABP_Number-of-Broadcasts-Requested.c:141 -/
def SABP_Number_of_Broadcasts_Requested : Ty := .int ⟨0, 65535, false⟩
/-- `asn_DEF_SABP_Paging_ETWS_Indicator`, src/sabp/SABP_Paging-ETWS-Indicator.c:141 -/
def SABP_Paging_ETWS_Indicator : Ty := .enum 1 1 true
/-- `asn_DEF_SABP_Presence`, src/sabp/SABP_Presence.c:143 -/
def SABP_Presence : Ty := .enum 3 3 false
/-- `asn_DEF_SABP_ProtocolExtensionID`, src/sabp/SABP_ProtocolExtensionID.c:141 -/
def SABP_ProtocolExtensionID : Ty := .int ⟨0, 65535, false⟩
/-- `asn_DEF_SABP_Radio_Resource_Loading_List_Item`, src/sabp/SABP_Radio-Resource-Loading-List-Item.c:58 -/
def SABP_Radio_Resource_Loading_List_Item : Ty := .seq true (.cons false SABP_Service_Area_Identifier (.cons false SABP_Available_Bandwidth (.cons true SABP_IE_Extensions .nil)))
/-- `asn_DEF_SABP_Radio_Resource_Loading_List`, src/sabp/SABP_Radio-Resource-Loading-List.c:34 -/
def SABP_Radio_Resource_Loading_List : Ty := .seqOf (some ⟨1, 65535, false⟩) SABP_Radio_Resource_Loading_List_Item
/-- `asn_DEF_SABP_TypeOfError`, src/sabp/SABP_TypeOfError.c:143 -/
def SABP_TypeOfError : Ty := .enum 2 2 true
/-- `asn_DEF_SABP_Warning_Type`, src/sabp/SABP_Warning-Type.c:142 -/
def SABP_Warning_Type : Ty := .octets (some ⟨2, 2, false⟩)
/-- `asn_DEF_SABP_WarningSecurityInfo`, src/sabp/SABP_WarningSecurityInfo.c:142 -/
def SABP_WarningSecurityInfo : Ty := .octets (some ⟨50, 50, false⟩)

end Verif.Gen.Sabp
