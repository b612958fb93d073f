import Verif.Model.Aper

/-!
# The types of the ASN.1 specification of SABP

All types of `/repo/asn1/sabp/SABP-CommonDataTypes.asn`, `-IEs.asn`, `-PDU-Contents.asn` and `-PDU-Descriptions.asn`, with
the parameterized types of `-Containers.asn` and the constants of `-Constants.asn`, read by a script which splits the text
into ASN.1 tokens.  It does not read `SABP-PDU.asn`, the simplified version of `-PDU-Contents.asn` from which the C code was
generated (except for `IE`, to which `-IEs.asn` refers), nor the C code.  Tags are automatic: the order of the components and alternatives is that of the text.
-/

namespace Verif.Gen.Asn.Sabp
open Verif.Aper

/-- `Criticality`, asn1/sabp/SABP-CommonDataTypes.asn:10 -/
def Criticality : Ty := .enum 3 3 false
/-- `Presence`, asn1/sabp/SABP-CommonDataTypes.asn:11 -/
def Presence : Ty := .enum 3 3 false
/-- `ProcedureCode`, asn1/sabp/SABP-CommonDataTypes.asn:13 -/
def ProcedureCode : Ty := .int ⟨0, 255, false⟩
/-- `ProtocolExtensionID`, asn1/sabp/SABP-CommonDataTypes.asn:23 -/
def ProtocolExtensionID : Ty := .int ⟨0, 65535, false⟩
/-- `ProtocolIE-ID`, asn1/sabp/SABP-CommonDataTypes.asn:24 -/
def ProtocolIE_ID : Ty := .int ⟨0, 65535, false⟩
/-- `TriggeringMessage`, asn1/sabp/SABP-CommonDataTypes.asn:48 -/
def TriggeringMessage : Ty := .enum 4 4 false
/-- `IE`, asn1/sabp/SABP-PDU.asn:135 -/
def IE : Ty := .seq false (.cons false ProtocolIE_ID (.cons false Criticality (.cons false .any .nil)))
/-- `IE-Extensions`, asn1/sabp/SABP-IEs.asn:27 -/
def IE_Extensions : Ty := .seqOf (some ⟨1, 65535, false⟩) IE
/-- `Available-Bandwidth`, asn1/sabp/SABP-IEs.asn:30 -/
def Available_Bandwidth : Ty := .int ⟨0, 20480, false⟩
/-- `Broadcast-Message-Content`, asn1/sabp/SABP-IEs.asn:33 -/
def Broadcast_Message_Content : Ty := .bits (some ⟨1, 9968, false⟩)
/-- `Broadcast-Message-Content-Validity-Indicator`, asn1/sabp/SABP-IEs.asn:35 -/
def Broadcast_Message_Content_Validity_Indicator : Ty := .enum 1 1 true
/-- `Category`, asn1/sabp/SABP-IEs.asn:40 -/
def Category : Ty := .enum 4 4 true
/-- `Cause`, asn1/sabp/SABP-IEs.asn:47 -/
def Cause : Ty := .int ⟨0, 255, false⟩
/-- `RepetitionNumber0`, asn1/sabp/SABP-IEs.asn:171 -/
def RepetitionNumber0 : Ty := .int ⟨0, 255, false⟩
/-- `CriticalityDiagnostics-IE-List-Value`, asn1/sabp/SABP-IEs.asn:79 -/
def CriticalityDiagnostics_IE_List_Value : Ty := .seq true (.cons false Criticality (.cons false ProtocolIE_ID (.cons true RepetitionNumber0 (.cons true IE_Extensions .nil))))
/-- `CriticalityDiagnostics-IE-List`, asn1/sabp/SABP-IEs.asn:78 -/
def CriticalityDiagnostics_IE_List : Ty := .seqOf (some ⟨1, 256, false⟩) CriticalityDiagnostics_IE_List_Value
/-- `Criticality-Diagnostics`, asn1/sabp/SABP-IEs.asn:67 -/
def Criticality_Diagnostics : Ty := .seq true (.cons true ProcedureCode (.cons true TriggeringMessage (.cons true Criticality (.cons true CriticalityDiagnostics_IE_List (.cons true IE_Extensions .nil)))))
/-- `RepetitionNumber1`, asn1/sabp/SABP-IEs.asn:172 -/
def RepetitionNumber1 : Ty := .int ⟨1, 256, false⟩
/-- `MessageStructure-Value`, asn1/sabp/SABP-IEs.asn:93 -/
def MessageStructure_Value : Ty := .seq true (.cons false ProtocolIE_ID (.cons true RepetitionNumber1 (.cons true IE_Extensions .nil)))
/-- `MessageStructure`, asn1/sabp/SABP-IEs.asn:92 -/
def MessageStructure : Ty := .seqOf (some ⟨1, 256, false⟩) MessageStructure_Value
/-- `Data-Coding-Scheme`, asn1/sabp/SABP-IEs.asn:104 -/
def Data_Coding_Scheme : Ty := .bits (some ⟨8, 8, false⟩)
/-- `Service-Area-Identifier`, asn1/sabp/SABP-IEs.asn:178 -/
def Service_Area_Identifier : Ty := .seq false (.cons false (.octets (some ⟨3, 3, false⟩)) (.cons false (.octets (some ⟨2, 2, false⟩)) (.cons false (.octets (some ⟨2, 2, false⟩)) .nil)))
/-- `Failure-List-Item`, asn1/sabp/SABP-IEs.asn:108 -/
def Failure_List_Item : Ty := .seq true (.cons false Service_Area_Identifier (.cons false Cause (.cons true IE_Extensions .nil)))
/-- `Failure-List`, asn1/sabp/SABP-IEs.asn:107 -/
def Failure_List : Ty := .seqOf (some ⟨1, 65535, false⟩) Failure_List_Item
/-- `Message-Identifier`, asn1/sabp/SABP-IEs.asn:124 -/
def Message_Identifier : Ty := .bits (some ⟨16, 16, false⟩)
/-- `Serial-Number`, asn1/sabp/SABP-IEs.asn:177 -/
def Serial_Number : Ty := .bits (some ⟨16, 16, false⟩)
/-- `New-Serial-Number`, asn1/sabp/SABP-IEs.asn:126 -/
def New_Serial_Number : Ty := Serial_Number
/-- `Number-Of-Broadcasts-Completed-Info`, asn1/sabp/SABP-IEs.asn:139 -/
def Number_Of_Broadcasts_Completed_Info : Ty := .enum 2 2 true
/-- `Number-of-Broadcasts-Completed-List-Item`, asn1/sabp/SABP-IEs.asn:129 -/
def Number_of_Broadcasts_Completed_List_Item : Ty := .seq true (.cons false Service_Area_Identifier (.cons false (.int ⟨0, 65535, false⟩) (.cons true Number_Of_Broadcasts_Completed_Info (.cons true IE_Extensions .nil))))
/-- `Number-of-Broadcasts-Completed-List`, asn1/sabp/SABP-IEs.asn:127 -/
def Number_of_Broadcasts_Completed_List : Ty := .seqOf (some ⟨1, 65535, false⟩) Number_of_Broadcasts_Completed_List_Item
/-- `Number-of-Broadcasts-Requested`, asn1/sabp/SABP-IEs.asn:144 -/
def Number_of_Broadcasts_Requested : Ty := .int ⟨0, 65535, false⟩
/-- `Old-Serial-Number`, asn1/sabp/SABP-IEs.asn:148 -/
def Old_Serial_Number : Ty := Serial_Number
/-- `Paging-ETWS-Indicator`, asn1/sabp/SABP-IEs.asn:150 -/
def Paging_ETWS_Indicator : Ty := .enum 1 1 true
/-- `Radio-Resource-Loading-List-Item`, asn1/sabp/SABP-IEs.asn:158 -/
def Radio_Resource_Loading_List_Item : Ty := .seq true (.cons false Service_Area_Identifier (.cons false Available_Bandwidth (.cons true IE_Extensions .nil)))
/-- `Radio-Resource-Loading-List`, asn1/sabp/SABP-IEs.asn:156 -/
def Radio_Resource_Loading_List : Ty := .seqOf (some ⟨1, 65535, false⟩) Radio_Resource_Loading_List_Item
/-- `Recovery-Indication`, asn1/sabp/SABP-IEs.asn:167 -/
def Recovery_Indication : Ty := .enum 2 2 false
/-- `Repetition-Period`, asn1/sabp/SABP-IEs.asn:173 -/
def Repetition_Period : Ty := .int ⟨1, 4096, false⟩
/-- `Service-Areas-List`, asn1/sabp/SABP-IEs.asn:194 -/
def Service_Areas_List : Ty := .seqOf (some ⟨1, 65535, false⟩) Service_Area_Identifier
/-- `TypeOfError`, asn1/sabp/SABP-IEs.asn:196 -/
def TypeOfError : Ty := .enum 2 2 true
/-- `WarningSecurityInfo`, asn1/sabp/SABP-IEs.asn:204 -/
def WarningSecurityInfo : Ty := .octets (some ⟨50, 50, false⟩)
/-- `Warning-Type`, asn1/sabp/SABP-IEs.asn:205 -/
def Warning_Type : Ty := .octets (some ⟨2, 2, false⟩)
/-- `Write-Replace`, asn1/sabp/SABP-PDU-Contents.asn:69 -/
def Write_Replace : Ty := .seq true (.cons false (.seqOf (some ⟨0, 65535, false⟩) (.seq false (.cons false ProtocolIE_ID (.cons false Criticality (.cons false .any .nil))))) (.cons true (.seqOf (some ⟨1, 65535, false⟩) (.seq false (.cons false ProtocolExtensionID (.cons false Criticality (.cons false .any .nil))))) .nil))
/-- `Write-Replace-Complete`, asn1/sabp/SABP-PDU-Contents.asn:101 -/
def Write_Replace_Complete : Ty := .seq true (.cons false (.seqOf (some ⟨0, 65535, false⟩) (.seq false (.cons false ProtocolIE_ID (.cons false Criticality (.cons false .any .nil))))) (.cons true (.seqOf (some ⟨1, 65535, false⟩) (.seq false (.cons false ProtocolExtensionID (.cons false Criticality (.cons false .any .nil))))) .nil))
/-- `Write-Replace-Failure`, asn1/sabp/SABP-PDU-Contents.asn:124 -/
def Write_Replace_Failure : Ty := .seq true (.cons false (.seqOf (some ⟨0, 65535, false⟩) (.seq false (.cons false ProtocolIE_ID (.cons false Criticality (.cons false .any .nil))))) (.cons true (.seqOf (some ⟨1, 65535, false⟩) (.seq false (.cons false ProtocolExtensionID (.cons false Criticality (.cons false .any .nil))))) .nil))
/-- `Kill`, asn1/sabp/SABP-PDU-Contents.asn:148 -/
def Kill : Ty := .seq true (.cons false (.seqOf (some ⟨0, 65535, false⟩) (.seq false (.cons false ProtocolIE_ID (.cons false Criticality (.cons false .any .nil))))) (.cons true (.seqOf (some ⟨1, 65535, false⟩) (.seq false (.cons false ProtocolExtensionID (.cons false Criticality (.cons false .any .nil))))) .nil))
/-- `Kill-Complete`, asn1/sabp/SABP-PDU-Contents.asn:167 -/
def Kill_Complete : Ty := .seq true (.cons false (.seqOf (some ⟨0, 65535, false⟩) (.seq false (.cons false ProtocolIE_ID (.cons false Criticality (.cons false .any .nil))))) (.cons true (.seqOf (some ⟨1, 65535, false⟩) (.seq false (.cons false ProtocolExtensionID (.cons false Criticality (.cons false .any .nil))))) .nil))
/-- `Kill-Failure`, asn1/sabp/SABP-PDU-Contents.asn:190 -/
def Kill_Failure : Ty := .seq true (.cons false (.seqOf (some ⟨0, 65535, false⟩) (.seq false (.cons false ProtocolIE_ID (.cons false Criticality (.cons false .any .nil))))) (.cons true (.seqOf (some ⟨1, 65535, false⟩) (.seq false (.cons false ProtocolExtensionID (.cons false Criticality (.cons false .any .nil))))) .nil))
/-- `Load-Query`, asn1/sabp/SABP-PDU-Contents.asn:214 -/
def Load_Query : Ty := .seq true (.cons false (.seqOf (some ⟨0, 65535, false⟩) (.seq false (.cons false ProtocolIE_ID (.cons false Criticality (.cons false .any .nil))))) (.cons true (.seqOf (some ⟨1, 65535, false⟩) (.seq false (.cons false ProtocolExtensionID (.cons false Criticality (.cons false .any .nil))))) .nil))
/-- `Load-Query-Complete`, asn1/sabp/SABP-PDU-Contents.asn:231 -/
def Load_Query_Complete : Ty := .seq true (.cons false (.seqOf (some ⟨0, 65535, false⟩) (.seq false (.cons false ProtocolIE_ID (.cons false Criticality (.cons false .any .nil))))) (.cons true (.seqOf (some ⟨1, 65535, false⟩) (.seq false (.cons false ProtocolExtensionID (.cons false Criticality (.cons false .any .nil))))) .nil))
/-- `Load-Query-Failure`, asn1/sabp/SABP-PDU-Contents.asn:252 -/
def Load_Query_Failure : Ty := .seq true (.cons false (.seqOf (some ⟨0, 65535, false⟩) (.seq false (.cons false ProtocolIE_ID (.cons false Criticality (.cons false .any .nil))))) (.cons true (.seqOf (some ⟨1, 65535, false⟩) (.seq false (.cons false ProtocolExtensionID (.cons false Criticality (.cons false .any .nil))))) .nil))
/-- `Message-Status-Query`, asn1/sabp/SABP-PDU-Contents.asn:274 -/
def Message_Status_Query : Ty := .seq true (.cons false (.seqOf (some ⟨0, 65535, false⟩) (.seq false (.cons false ProtocolIE_ID (.cons false Criticality (.cons false .any .nil))))) (.cons true (.seqOf (some ⟨1, 65535, false⟩) (.seq false (.cons false ProtocolExtensionID (.cons false Criticality (.cons false .any .nil))))) .nil))
/-- `Message-Status-Query-Complete`, asn1/sabp/SABP-PDU-Contents.asn:293 -/
def Message_Status_Query_Complete : Ty := .seq true (.cons false (.seqOf (some ⟨0, 65535, false⟩) (.seq false (.cons false ProtocolIE_ID (.cons false Criticality (.cons false .any .nil))))) (.cons true (.seqOf (some ⟨1, 65535, false⟩) (.seq false (.cons false ProtocolExtensionID (.cons false Criticality (.cons false .any .nil))))) .nil))
/-- `Message-Status-Query-Failure`, asn1/sabp/SABP-PDU-Contents.asn:316 -/
def Message_Status_Query_Failure : Ty := .seq true (.cons false (.seqOf (some ⟨0, 65535, false⟩) (.seq false (.cons false ProtocolIE_ID (.cons false Criticality (.cons false .any .nil))))) (.cons true (.seqOf (some ⟨1, 65535, false⟩) (.seq false (.cons false ProtocolExtensionID (.cons false Criticality (.cons false .any .nil))))) .nil))
/-- `Reset`, asn1/sabp/SABP-PDU-Contents.asn:340 -/
def Reset : Ty := .seq true (.cons false (.seqOf (some ⟨0, 65535, false⟩) (.seq false (.cons false ProtocolIE_ID (.cons false Criticality (.cons false .any .nil))))) (.cons true (.seqOf (some ⟨1, 65535, false⟩) (.seq false (.cons false ProtocolExtensionID (.cons false Criticality (.cons false .any .nil))))) .nil))
/-- `Reset-Complete`, asn1/sabp/SABP-PDU-Contents.asn:357 -/
def Reset_Complete : Ty := .seq true (.cons false (.seqOf (some ⟨0, 65535, false⟩) (.seq false (.cons false ProtocolIE_ID (.cons false Criticality (.cons false .any .nil))))) (.cons true (.seqOf (some ⟨1, 65535, false⟩) (.seq false (.cons false ProtocolExtensionID (.cons false Criticality (.cons false .any .nil))))) .nil))
/-- `Reset-Failure`, asn1/sabp/SABP-PDU-Contents.asn:376 -/
def Reset_Failure : Ty := .seq true (.cons false (.seqOf (some ⟨0, 65535, false⟩) (.seq false (.cons false ProtocolIE_ID (.cons false Criticality (.cons false .any .nil))))) (.cons true (.seqOf (some ⟨1, 65535, false⟩) (.seq false (.cons false ProtocolExtensionID (.cons false Criticality (.cons false .any .nil))))) .nil))
/-- `Restart`, asn1/sabp/SABP-PDU-Contents.asn:396 -/
def Restart : Ty := .seq true (.cons false (.seqOf (some ⟨0, 65535, false⟩) (.seq false (.cons false ProtocolIE_ID (.cons false Criticality (.cons false .any .nil))))) (.cons true (.seqOf (some ⟨1, 65535, false⟩) (.seq false (.cons false ProtocolExtensionID (.cons false Criticality (.cons false .any .nil))))) .nil))
/-- `Failure`, asn1/sabp/SABP-PDU-Contents.asn:414 -/
def Failure : Ty := .seq true (.cons false (.seqOf (some ⟨0, 65535, false⟩) (.seq false (.cons false ProtocolIE_ID (.cons false Criticality (.cons false .any .nil))))) (.cons true (.seqOf (some ⟨1, 65535, false⟩) (.seq false (.cons false ProtocolExtensionID (.cons false Criticality (.cons false .any .nil))))) .nil))
/-- `Error-Indication`, asn1/sabp/SABP-PDU-Contents.asn:431 -/
def Error_Indication : Ty := .seq true (.cons false (.seqOf (some ⟨0, 65535, false⟩) (.seq false (.cons false ProtocolIE_ID (.cons false Criticality (.cons false .any .nil))))) (.cons true (.seqOf (some ⟨1, 65535, false⟩) (.seq false (.cons false ProtocolExtensionID (.cons false Criticality (.cons false .any .nil))))) .nil))
/-- `UnsuccessfulOutcome`, asn1/sabp/SABP-PDU-Descriptions.asn:89 -/
def UnsuccessfulOutcome : Ty := .seq false (.cons false ProcedureCode (.cons false Criticality (.cons false .any .nil)))
/-- `SuccessfulOutcome`, asn1/sabp/SABP-PDU-Descriptions.asn:84 -/
def SuccessfulOutcome : Ty := .seq false (.cons false ProcedureCode (.cons false Criticality (.cons false .any .nil)))
/-- `InitiatingMessage`, asn1/sabp/SABP-PDU-Descriptions.asn:79 -/
def InitiatingMessage : Ty := .seq false (.cons false ProcedureCode (.cons false Criticality (.cons false .any .nil)))
/-- `SABP-PDU`, asn1/sabp/SABP-PDU-Descriptions.asn:73 -/
def SABP_PDU : Ty := .choice true (.cons false InitiatingMessage (.cons false SuccessfulOutcome (.cons false UnsuccessfulOutcome .nil))) .nil

end Verif.Gen.Asn.Sabp
