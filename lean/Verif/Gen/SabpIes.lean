import Verif.Model.Ie
import Verif.Gen.SabpTypes

/-!
# Information elements of the SABP messages

The tables that `/repo/asn1/utils/asn1tostruct.py` (lines 135-160) extracts from
`/repo/asn1/sabp/SABP-PDU-Contents.asn`, computed with the script's own regular expressions.  From each
table the script generates one structure and one encode, decode and free function.
-/

namespace Verif.Gen.Sabp
open Verif.Ie

/-- `Write-Replace-IEs`, asn1/sabp/SABP-PDU-Contents.asn:74 -/
def write_Replace_IEs : MsgDef where
  name := "Write-Replace-IEs"
  ty := SABP_Write_Replace
  ies := [
    ⟨"id-Message-Identifier", 6, 0, SABP_Message_Identifier, false⟩,
    ⟨"id-New-Serial-Number", 7, 0, SABP_New_Serial_Number, false⟩,
    ⟨"id-Old-Serial-Number", 10, 1, SABP_Old_Serial_Number, true⟩,
    ⟨"id-Service-Areas-List", 15, 0, SABP_Service_Areas_List, false⟩,
    ⟨"id-Category", 1, 1, SABP_Category, true⟩,
    ⟨"id-Repetition-Period", 13, 0, SABP_Repetition_Period, false⟩,
    ⟨"id-Data-Coding-Scheme", 4, 0, SABP_Data_Coding_Scheme, false⟩]

/-- `Write-Replace-Complete-IEs`, asn1/sabp/SABP-PDU-Contents.asn:106 -/
def write_Replace_Complete_IEs : MsgDef where
  name := "Write-Replace-Complete-IEs"
  ty := SABP_Write_Replace_Complete
  ies := [
    ⟨"id-Message-Identifier", 6, 0, SABP_Message_Identifier, false⟩,
    ⟨"id-New-Serial-Number", 7, 0, SABP_New_Serial_Number, false⟩]

/-- `Write-Replace-Failure-IEs`, asn1/sabp/SABP-PDU-Contents.asn:129 -/
def write_Replace_Failure_IEs : MsgDef where
  name := "Write-Replace-Failure-IEs"
  ty := SABP_Write_Replace_Failure
  ies := [
    ⟨"id-Message-Identifier", 6, 0, SABP_Message_Identifier, false⟩,
    ⟨"id-New-Serial-Number", 7, 0, SABP_New_Serial_Number, false⟩,
    ⟨"id-Failure-List", 5, 0, SABP_Failure_List, false⟩]

/-- `Kill-IEs`, asn1/sabp/SABP-PDU-Contents.asn:153 -/
def kill_IEs : MsgDef where
  name := "Kill-IEs"
  ty := SABP_Kill
  ies := [
    ⟨"id-Message-Identifier", 6, 0, SABP_Message_Identifier, false⟩,
    ⟨"id-Old-Serial-Number", 10, 0, SABP_Old_Serial_Number, false⟩,
    ⟨"id-Service-Areas-List", 15, 0, SABP_Service_Areas_List, false⟩]

/-- `Kill-Complete-IEs`, asn1/sabp/SABP-PDU-Contents.asn:172 -/
def kill_Complete_IEs : MsgDef where
  name := "Kill-Complete-IEs"
  ty := SABP_Kill_Complete
  ies := [
    ⟨"id-Message-Identifier", 6, 0, SABP_Message_Identifier, false⟩,
    ⟨"id-Old-Serial-Number", 10, 0, SABP_Old_Serial_Number, false⟩]

/-- `Kill-Failure-IEs`, asn1/sabp/SABP-PDU-Contents.asn:195 -/
def kill_Failure_IEs : MsgDef where
  name := "Kill-Failure-IEs"
  ty := SABP_Kill_Failure
  ies := [
    ⟨"id-Message-Identifier", 6, 0, SABP_Message_Identifier, false⟩,
    ⟨"id-Old-Serial-Number", 10, 0, SABP_Old_Serial_Number, false⟩,
    ⟨"id-Failure-List", 5, 0, SABP_Failure_List, false⟩]

/-- `Load-Query-IEs`, asn1/sabp/SABP-PDU-Contents.asn:219 -/
def load_Query_IEs : MsgDef where
  name := "Load-Query-IEs"
  ty := SABP_Load_Query
  ies := [
    ⟨"id-Service-Areas-List", 15, 0, SABP_Service_Areas_List, false⟩]

/-- `Load-Query-Failure-IEs`, asn1/sabp/SABP-PDU-Contents.asn:257 -/
def load_Query_Failure_IEs : MsgDef where
  name := "Load-Query-Failure-IEs"
  ty := SABP_Load_Query_Failure
  ies := [
    ⟨"id-Failure-List", 5, 0, SABP_Failure_List, false⟩]

/-- `Message-Status-Query-IEs`, asn1/sabp/SABP-PDU-Contents.asn:279 -/
def message_Status_Query_IEs : MsgDef where
  name := "Message-Status-Query-IEs"
  ty := SABP_Message_Status_Query
  ies := [
    ⟨"id-Message-Identifier", 6, 0, SABP_Message_Identifier, false⟩,
    ⟨"id-Old-Serial-Number", 10, 0, SABP_Old_Serial_Number, false⟩,
    ⟨"id-Service-Areas-List", 15, 0, SABP_Service_Areas_List, false⟩]

/-- `Message-Status-Query-Complete-IEs`, asn1/sabp/SABP-PDU-Contents.asn:298 -/
def message_Status_Query_Complete_IEs : MsgDef where
  name := "Message-Status-Query-Complete-IEs"
  ty := SABP_Message_Status_Query_Complete
  ies := [
    ⟨"id-Message-Identifier", 6, 0, SABP_Message_Identifier, false⟩,
    ⟨"id-Old-Serial-Number", 10, 0, SABP_Old_Serial_Number, false⟩]

/-- `Message-Status-Query-Failure-IEs`, asn1/sabp/SABP-PDU-Contents.asn:321 -/
def message_Status_Query_Failure_IEs : MsgDef where
  name := "Message-Status-Query-Failure-IEs"
  ty := SABP_Message_Status_Query_Failure
  ies := [
    ⟨"id-Message-Identifier", 6, 0, SABP_Message_Identifier, false⟩,
    ⟨"id-Failure-List", 5, 0, SABP_Failure_List, false⟩,
    ⟨"id-Old-Serial-Number", 10, 0, SABP_Old_Serial_Number, false⟩]

/-- `Reset-IEs`, asn1/sabp/SABP-PDU-Contents.asn:345 -/
def reset_IEs : MsgDef where
  name := "Reset-IEs"
  ty := SABP_Reset
  ies := [
    ⟨"id-Service-Areas-List", 15, 0, SABP_Service_Areas_List, false⟩]

/-- `Reset-Complete-IEs`, asn1/sabp/SABP-PDU-Contents.asn:362 -/
def reset_Complete_IEs : MsgDef where
  name := "Reset-Complete-IEs"
  ty := SABP_Reset_Complete
  ies := [
    ⟨"id-Service-Areas-List", 15, 0, SABP_Service_Areas_List, false⟩]

/-- `Reset-Failure-IEs`, asn1/sabp/SABP-PDU-Contents.asn:381 -/
def reset_Failure_IEs : MsgDef where
  name := "Reset-Failure-IEs"
  ty := SABP_Reset_Failure
  ies := [
    ⟨"id-Failure-List", 5, 0, SABP_Failure_List, false⟩,
    ⟨"id-Service-Areas-List", 15, 0, SABP_Service_Areas_List, true⟩]

/-- `Restart-IEs`, asn1/sabp/SABP-PDU-Contents.asn:401 -/
def restart_IEs : MsgDef where
  name := "Restart-IEs"
  ty := SABP_Restart
  ies := [
    ⟨"id-Service-Areas-List", 15, 1, SABP_Service_Areas_List, false⟩,
    ⟨"id-Recovery-Indication", 12, 1, SABP_Recovery_Indication, true⟩]

/-- `Error-Indication-IEs`, asn1/sabp/SABP-PDU-Contents.asn:436 -/
def error_Indication_IEs : MsgDef where
  name := "Error-Indication-IEs"
  ty := SABP_Error_Indication
  ies := [
    ⟨"id-Message-Identifier", 6, 1, SABP_Message_Identifier, true⟩,
    ⟨"id-Serial-Number", 14, 1, SABP_Serial_Number, true⟩,
    ⟨"id-Cause", 2, 1, SABP_Cause, true⟩]

/-- All tables. -/
def all : List MsgDef :=
  [write_Replace_IEs,
   write_Replace_Complete_IEs,
   write_Replace_Failure_IEs,
   kill_IEs,
   kill_Complete_IEs,
   kill_Failure_IEs,
   load_Query_IEs,
   load_Query_Failure_IEs,
   message_Status_Query_IEs,
   message_Status_Query_Complete_IEs,
   message_Status_Query_Failure_IEs,
   reset_IEs,
   reset_Complete_IEs,
   reset_Failure_IEs,
   restart_IEs,
   error_Indication_IEs]

end Verif.Gen.Sabp
