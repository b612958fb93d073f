import Verif.Model.Aper

/-!
# Type descriptors of SABP

Transcribed by a script from the descriptors `asn_DEF_*` in `/repo/src/sabp/*.c` (per-descriptor
citation in front of each definition): the PDU, the message containers and the types of all
information elements in the tables of `Verif/Gen/SabpIes.lean`, with what they refer to.
-/

namespace Verif.Gen.Sabp
open Verif.Aper

/-- `asn_DEF_SABP_Criticality`, src/sabp/SABP_Criticality.c:143 -/
def SABP_Criticality : Ty := .enum 3 3 false
/-- `asn_DEF_SABP_ProcedureCode`, src/sabp/SABP_ProcedureCode.c:141 -/
def SABP_ProcedureCode : Ty := .int ⟨0, 255, false⟩
/-- `asn_DEF_SABP_UnsuccessfulOutcome`, src/sabp/SABP_UnsuccessfulOutcome.c:56 -/
def SABP_UnsuccessfulOutcome : Ty := .seq false (.cons false SABP_ProcedureCode (.cons false SABP_Criticality (.cons false (.any) .nil)))
/-- `asn_DEF_SABP_SuccessfulOutcome`, src/sabp/SABP_SuccessfulOutcome.c:56 -/
def SABP_SuccessfulOutcome : Ty := .seq false (.cons false SABP_ProcedureCode (.cons false SABP_Criticality (.cons false (.any) .nil)))
/-- `asn_DEF_SABP_InitiatingMessage`, src/sabp/SABP_InitiatingMessage.c:56 -/
def SABP_InitiatingMessage : Ty := .seq false (.cons false SABP_ProcedureCode (.cons false SABP_Criticality (.cons false (.any) .nil)))
/-- `asn_DEF_SABP_SABP_PDU`, src/sabp/SABP_SABP-PDU.c:59 -/
def SABP_SABP_PDU : Ty := .choice true (.cons false SABP_InitiatingMessage (.cons false SABP_SuccessfulOutcome (.cons false SABP_UnsuccessfulOutcome .nil))) .nil
/-- `asn_DEF_SABP_ProtocolIE_ID`, src/sabp/SABP_ProtocolIE-ID.c:141 -/
def SABP_ProtocolIE_ID : Ty := .int ⟨0, 65535, false⟩
/-- `asn_DEF_SABP_IE`, src/sabp/SABP_IE.c:56 -/
def SABP_IE : Ty := .seq false (.cons false SABP_ProtocolIE_ID (.cons false SABP_Criticality (.cons false (.any) .nil)))
/-- `asn_DEF_write_Replace_ies_2`, src/sabp/SABP_Write-Replace.c:67 -/
def SABP_Write_Replace__write_Replace_ies_2 : Ty := .seqOf (some ⟨0, 65535, false⟩) SABP_IE
/-- `asn_DEF_SABP_Write_Replace`, src/sabp/SABP_Write-Replace.c:120 -/
def SABP_Write_Replace : Ty := .seq true (.cons false SABP_Write_Replace__write_Replace_ies_2 .nil)
/-- `asn_DEF_SABP_Message_Identifier`, src/sabp/SABP_Message-Identifier.c:147 -/
def SABP_Message_Identifier : Ty := .bits (some ⟨16, 16, false⟩)
/-- `asn_DEF_SABP_Serial_Number`, src/sabp/SABP_Serial-Number.c:147 -/
def SABP_Serial_Number : Ty := .bits (some ⟨16, 16, false⟩)
/-- `asn_DEF_SABP_New_Serial_Number`, src/sabp/SABP_New-Serial-Number.c:135 -/
def SABP_New_Serial_Number : Ty := SABP_Serial_Number
/-- `asn_DEF_SABP_Old_Serial_Number`, src/sabp/SABP_Old-Serial-Number.c:135 -/
def SABP_Old_Serial_Number : Ty := SABP_Serial_Number
/-- `asn_DEF_SABP_Service_Area_Identifier`, src/sabp/SABP_Service-Area-Identifier.c:149 -/
def SABP_Service_Area_Identifier : Ty := .seq false (.cons false (.octets (some ⟨3, 3, false⟩)) (.cons false (.octets (some ⟨2, 2, false⟩)) (.cons false (.octets (some ⟨2, 2, false⟩)) .nil)))
/-- `asn_DEF_SABP_Service_Areas_List`, src/sabp/SABP_Service-Areas-List.c:34 -/
def SABP_Service_Areas_List : Ty := .seqOf (some ⟨1, 65535, false⟩) SABP_Service_Area_Identifier
/-- `asn_DEF_SABP_Category`, src/sabp/SABP_Category.c:147 -/
def SABP_Category : Ty := .enum 4 4 true
/-- `asn_DEF_SABP_Repetition_Period`, src/sabp/SABP_Repetition-Period.c:141 -/
def SABP_Repetition_Period : Ty := .int ⟨1, 4096, false⟩
/-- `asn_DEF_SABP_Data_Coding_Scheme`, src/sabp/SABP_Data-Coding-Scheme.c:147 -/
def SABP_Data_Coding_Scheme : Ty := .bits (some ⟨8, 8, false⟩)
/-- `asn_DEF_write_Replace_Complete_ies_2`, src/sabp/SABP_Write-Replace-Complete.c:67 -/
def SABP_Write_Replace_Complete__write_Replace_Complete_ies_2 : Ty := .seqOf (some ⟨0, 65535, false⟩) SABP_IE
/-- `asn_DEF_SABP_Write_Replace_Complete`, src/sabp/SABP_Write-Replace-Complete.c:120 -/
def SABP_Write_Replace_Complete : Ty := .seq true (.cons false SABP_Write_Replace_Complete__write_Replace_Complete_ies_2 .nil)
/-- `asn_DEF_write_Replace_Failure_ies_2`, src/sabp/SABP_Write-Replace-Failure.c:67 -/
def SABP_Write_Replace_Failure__write_Replace_Failure_ies_2 : Ty := .seqOf (some ⟨0, 65535, false⟩) SABP_IE
/-- `asn_DEF_SABP_Write_Replace_Failure`, src/sabp/SABP_Write-Replace-Failure.c:120 -/
def SABP_Write_Replace_Failure : Ty := .seq true (.cons false SABP_Write_Replace_Failure__write_Replace_Failure_ies_2 .nil)
/-- `asn_DEF_SABP_IE_Extensions`, src/sabp/SABP_IE-Extensions.c:34 -/
def SABP_IE_Extensions : Ty := .seqOf (some ⟨1, 65535, false⟩) SABP_IE
/-- `asn_DEF_SABP_Cause`, src/sabp/SABP_Cause.c:141 -/
def SABP_Cause : Ty := .int ⟨0, 255, false⟩
/-- `asn_DEF_SABP_Failure_List_Item`, src/sabp/SABP_Failure-List-Item.c:58 -/
def SABP_Failure_List_Item : Ty := .seq true (.cons false SABP_Service_Area_Identifier (.cons false SABP_Cause (.cons true SABP_IE_Extensions .nil)))
/-- `asn_DEF_SABP_Failure_List`, src/sabp/SABP_Failure-List.c:34 -/
def SABP_Failure_List : Ty := .seqOf (some ⟨1, 65535, false⟩) SABP_Failure_List_Item
/-- `asn_DEF_kill_ies_2`, src/sabp/SABP_Kill.c:67 -/
def SABP_Kill__kill_ies_2 : Ty := .seqOf (some ⟨0, 65535, false⟩) SABP_IE
/-- `asn_DEF_SABP_Kill`, src/sabp/SABP_Kill.c:120 -/
def SABP_Kill : Ty := .seq true (.cons false SABP_Kill__kill_ies_2 .nil)
/-- `asn_DEF_kill_Complete_ies_2`, src/sabp/SABP_Kill-Complete.c:67 -/
def SABP_Kill_Complete__kill_Complete_ies_2 : Ty := .seqOf (some ⟨0, 65535, false⟩) SABP_IE
/-- `asn_DEF_SABP_Kill_Complete`, src/sabp/SABP_Kill-Complete.c:120 -/
def SABP_Kill_Complete : Ty := .seq true (.cons false SABP_Kill_Complete__kill_Complete_ies_2 .nil)
/-- `asn_DEF_kill_Failure_ies_2`, src/sabp/SABP_Kill-Failure.c:67 -/
def SABP_Kill_Failure__kill_Failure_ies_2 : Ty := .seqOf (some ⟨0, 65535, false⟩) SABP_IE
/-- `asn_DEF_SABP_Kill_Failure`, src/sabp/SABP_Kill-Failure.c:120 -/
def SABP_Kill_Failure : Ty := .seq true (.cons false SABP_Kill_Failure__kill_Failure_ies_2 .nil)
/-- `asn_DEF_load_Query_ies_2`, src/sabp/SABP_Load-Query.c:67 -/
def SABP_Load_Query__load_Query_ies_2 : Ty := .seqOf (some ⟨0, 65535, false⟩) SABP_IE
/-- `asn_DEF_SABP_Load_Query`, src/sabp/SABP_Load-Query.c:120 -/
def SABP_Load_Query : Ty := .seq true (.cons false SABP_Load_Query__load_Query_ies_2 .nil)
/-- `asn_DEF_load_Query_Failure_ies_2`, src/sabp/SABP_Load-Query-Failure.c:67 -/
def SABP_Load_Query_Failure__load_Query_Failure_ies_2 : Ty := .seqOf (some ⟨0, 65535, false⟩) SABP_IE
/-- `asn_DEF_SABP_Load_Query_Failure`, src/sabp/SABP_Load-Query-Failure.c:120 -/
def SABP_Load_Query_Failure : Ty := .seq true (.cons false SABP_Load_Query_Failure__load_Query_Failure_ies_2 .nil)
/-- `asn_DEF_message_Status_Query_ies_2`, src/sabp/SABP_Message-Status-Query.c:67 -/
def SABP_Message_Status_Query__message_Status_Query_ies_2 : Ty := .seqOf (some ⟨0, 65535, false⟩) SABP_IE
/-- `asn_DEF_SABP_Message_Status_Query`, src/sabp/SABP_Message-Status-Query.c:120 -/
def SABP_Message_Status_Query : Ty := .seq true (.cons false SABP_Message_Status_Query__message_Status_Query_ies_2 .nil)
/-- `asn_DEF_message_Status_Query_Complete_ies_2`, src/sabp/SABP_Message-Status-Query-Complete.c:67 -/
def SABP_Message_Status_Query_Complete__message_Status_Query_Complete_ies_2 : Ty := .seqOf (some ⟨0, 65535, false⟩) SABP_IE
/-- `asn_DEF_SABP_Message_Status_Query_Complete`, src/sabp/SABP_Message-Status-Query-Complete.c:120 -/
def SABP_Message_Status_Query_Complete : Ty := .seq true (.cons false SABP_Message_Status_Query_Complete__message_Status_Query_Complete_ies_2 .nil)
/-- `asn_DEF_message_Status_Query_Failure_ies_2`, src/sabp/SABP_Message-Status-Query-Failure.c:67 -/
def SABP_Message_Status_Query_Failure__message_Status_Query_Failure_ies_2 : Ty := .seqOf (some ⟨0, 65535, false⟩) SABP_IE
/-- `asn_DEF_SABP_Message_Status_Query_Failure`, src/sabp/SABP_Message-Status-Query-Failure.c:120 -/
def SABP_Message_Status_Query_Failure : Ty := .seq true (.cons false SABP_Message_Status_Query_Failure__message_Status_Query_Failure_ies_2 .nil)
/-- `asn_DEF_reset_ies_2`, src/sabp/SABP_Reset.c:67 -/
def SABP_Reset__reset_ies_2 : Ty := .seqOf (some ⟨0, 65535, false⟩) SABP_IE
/-- `asn_DEF_SABP_Reset`, src/sabp/SABP_Reset.c:120 -/
def SABP_Reset : Ty := .seq true (.cons false SABP_Reset__reset_ies_2 .nil)
/-- `asn_DEF_reset_Complete_ies_2`, src/sabp/SABP_Reset-Complete.c:67 -/
def SABP_Reset_Complete__reset_Complete_ies_2 : Ty := .seqOf (some ⟨0, 65535, false⟩) SABP_IE
/-- `asn_DEF_SABP_Reset_Complete`, src/sabp/SABP_Reset-Complete.c:120 -/
def SABP_Reset_Complete : Ty := .seq true (.cons false SABP_Reset_Complete__reset_Complete_ies_2 .nil)
/-- `asn_DEF_reset_Failure_ies_2`, src/sabp/SABP_Reset-Failure.c:67 -/
def SABP_Reset_Failure__reset_Failure_ies_2 : Ty := .seqOf (some ⟨0, 65535, false⟩) SABP_IE
/-- `asn_DEF_SABP_Reset_Failure`, src/sabp/SABP_Reset-Failure.c:120 -/
def SABP_Reset_Failure : Ty := .seq true (.cons false SABP_Reset_Failure__reset_Failure_ies_2 .nil)
/-- `asn_DEF_restart_ies_2`, src/sabp/SABP_Restart.c:67 -/
def SABP_Restart__restart_ies_2 : Ty := .seqOf (some ⟨0, 65535, false⟩) SABP_IE
/-- `asn_DEF_SABP_Restart`, src/sabp/SABP_Restart.c:120 -/
def SABP_Restart : Ty := .seq true (.cons false SABP_Restart__restart_ies_2 .nil)
/-- `asn_DEF_SABP_Recovery_Indication`, src/sabp/SABP_Recovery-Indication.c:141 -/
def SABP_Recovery_Indication : Ty := .enum 2 2 false
/-- `asn_DEF_error_Indication_ies_2`, src/sabp/SABP_Error-Indication.c:67 -/
def SABP_Error_Indication__error_Indication_ies_2 : Ty := .seqOf (some ⟨0, 65535, false⟩) SABP_IE
/-- `asn_DEF_SABP_Error_Indication`, src/sabp/SABP_Error-Indication.c:120 -/
def SABP_Error_Indication : Ty := .seq true (.cons false SABP_Error_Indication__error_Indication_ies_2 .nil)

end Verif.Gen.Sabp
