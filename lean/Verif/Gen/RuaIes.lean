import Verif.Model.Ie
import Verif.Gen.RuaTypes

/-!
# Information elements of the RUA messages

The tables that `/repo/asn1/utils/asn1tostruct.py` (lines 135-160) extracts from
`/repo/asn1/rua/RUA-PDU-Contents.asn`, computed with the script's own regular expressions.  From each
table the script generates one structure and one encode, decode and free function.
-/

namespace Verif.Gen.Rua
open Verif.Ie

/-- `ConnectIEs`, asn1/rua/RUA-PDU-Contents.asn:68 -/
def connectIEs : MsgDef where
  name := "ConnectIEs"
  ty := RUA_Connect
  ies := [
    ⟨"id-CN-DomainIndicator", 7, 0, RUA_CN_DomainIndicator, false⟩,
    ⟨"id-Context-ID", 3, 0, RUA_Context_ID, false⟩,
    ⟨"id-IntraDomainNasNodeSelector", 5, 1, RUA_IntraDomainNasNodeSelector, true⟩,
    ⟨"id-Establishment-Cause", 6, 0, RUA_Establishment_Cause, false⟩,
    ⟨"id-RANAP-Message", 4, 0, RUA_RANAP_Message, false⟩]

/-- `DirectTransferIEs`, asn1/rua/RUA-PDU-Contents.asn:95 -/
def directTransferIEs : MsgDef where
  name := "DirectTransferIEs"
  ty := RUA_DirectTransfer
  ies := [
    ⟨"id-CN-DomainIndicator", 7, 0, RUA_CN_DomainIndicator, false⟩,
    ⟨"id-Context-ID", 3, 0, RUA_Context_ID, false⟩,
    ⟨"id-RANAP-Message", 4, 0, RUA_RANAP_Message, false⟩]

/-- `DisconnectIEs`, asn1/rua/RUA-PDU-Contents.asn:120 -/
def disconnectIEs : MsgDef where
  name := "DisconnectIEs"
  ty := RUA_Disconnect
  ies := [
    ⟨"id-CN-DomainIndicator", 7, 0, RUA_CN_DomainIndicator, false⟩,
    ⟨"id-Context-ID", 3, 0, RUA_Context_ID, false⟩,
    ⟨"id-Cause", 1, 0, RUA_Cause, false⟩,
    ⟨"id-RANAP-Message", 4, 0, RUA_RANAP_Message, true⟩]

/-- `ConnectionlessTransferIEs`, asn1/rua/RUA-PDU-Contents.asn:145 -/
def connectionlessTransferIEs : MsgDef where
  name := "ConnectionlessTransferIEs"
  ty := RUA_ConnectionlessTransfer
  ies := [
    ⟨"id-RANAP-Message", 4, 0, RUA_RANAP_Message, false⟩]

/-- `ErrorIndicationIEs`, asn1/rua/RUA-PDU-Contents.asn:169 -/
def errorIndicationIEs : MsgDef where
  name := "ErrorIndicationIEs"
  ty := RUA_ErrorIndication
  ies := [
    ⟨"id-Cause", 1, 1, RUA_Cause, false⟩,
    ⟨"id-CriticalityDiagnostics", 2, 1, RUA_CriticalityDiagnostics, true⟩]

/-- All tables. -/
def all : List MsgDef :=
  [connectIEs,
   directTransferIEs,
   disconnectIEs,
   connectionlessTransferIEs,
   errorIndicationIEs]

end Verif.Gen.Rua
