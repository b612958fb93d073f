import Verif.Model.Aper

/-!
# The types of the ASN.1 specification of RUA

All types of `/repo/asn1/rua/RUA-CommonDataTypes.asn`, `-IEs.asn`, `-PDU-Contents.asn` and `-PDU-Descriptions.asn`, with
the parameterized types of `-Containers.asn` and the constants of `-Constants.asn`, read by a script which splits the text
into ASN.1 tokens.  It does not read `RUA-PDU.asn`, the simplified version of `-PDU-Contents.asn` from which the C code was
generated (except for `IE`, to which `-IEs.asn` refers), nor the C code.  Tags are automatic: the order of the components and alternatives is that of the text.
-/

namespace Verif.Gen.Asn.Rua
open Verif.Aper

/-- `Criticality`, asn1/rua/RUA-CommonDataTypes.asn:30 -/
def Criticality : Ty := .enum 3 3 false
/-- `Presence`, asn1/rua/RUA-CommonDataTypes.asn:32 -/
def Presence : Ty := .enum 3 3 false
/-- `ProcedureCode`, asn1/rua/RUA-CommonDataTypes.asn:35 -/
def ProcedureCode : Ty := .int ⟨0, 255, false⟩
/-- `PrivateIE-ID`, asn1/rua/RUA-CommonDataTypes.asn:44 -/
def PrivateIE_ID : Ty := .choice false (.cons false (.int ⟨0, 65535, false⟩) (.cons false .oid .nil)) .nil
/-- `ProtocolIE-ID`, asn1/rua/RUA-CommonDataTypes.asn:49 -/
def ProtocolIE_ID : Ty := .int ⟨0, 65535, false⟩
/-- `TriggeringMessage`, asn1/rua/RUA-CommonDataTypes.asn:60 -/
def TriggeringMessage : Ty := .enum 3 3 false
/-- `IE`, asn1/rua/RUA-PDU.asn:74 -/
def IE : Ty := .seq false (.cons false ProtocolIE_ID (.cons false Criticality (.cons false .any .nil)))
/-- `IE-Extensions`, asn1/rua/RUA-IEs.asn:29 -/
def IE_Extensions : Ty := .seqOf (some ⟨1, 65535, false⟩) IE
/-- `CN-DomainIndicator`, asn1/rua/RUA-IEs.asn:31 -/
def CN_DomainIndicator : Ty := .enum 2 2 false
/-- `CSGMembershipStatus`, asn1/rua/RUA-IEs.asn:36 -/
def CSGMembershipStatus : Ty := .enum 2 2 true
/-- `Establishment-Cause`, asn1/rua/RUA-IEs.asn:42 -/
def Establishment_Cause : Ty := .enum 2 2 true
/-- `Context-ID`, asn1/rua/RUA-IEs.asn:52 -/
def Context_ID : Ty := .bits (some ⟨24, 24, false⟩)
/-- `Ansi-41-IDNNS`, asn1/rua/RUA-IEs.asn:101 -/
def Ansi_41_IDNNS : Ty := .bits (some ⟨14, 14, false⟩)
/-- `RoutingParameter`, asn1/rua/RUA-IEs.asn:105 -/
def RoutingParameter : Ty := .bits (some ⟨10, 10, false⟩)
/-- `Gsm-map-IDNNS`, asn1/rua/RUA-IEs.asn:68 -/
def Gsm_map_IDNNS : Ty := .seq false (.cons false (.choice false (.cons false (.seq false (.cons false RoutingParameter .nil)) (.cons false (.seq false (.cons false RoutingParameter .nil)) (.cons false (.seq false (.cons false RoutingParameter .nil)) (.cons false (.seq false (.cons false RoutingParameter .nil)) (.cons false (.seq false (.cons false RoutingParameter .nil)) (.cons false (.seq false (.cons false RoutingParameter .nil)) (.cons false (.seq false (.cons false RoutingParameter .nil)) (.cons false (.seq false (.cons false RoutingParameter .nil)) .nil)))))))) .nil) (.cons false .bool .nil))
/-- `IntraDomainNasNodeSelector`, asn1/rua/RUA-IEs.asn:54 -/
def IntraDomainNasNodeSelector : Ty := .seq false (.cons false (.choice false (.cons false (.seq false (.cons false (.choice false (.cons false Gsm_map_IDNNS (.cons false Ansi_41_IDNNS .nil)) .nil) .nil)) (.cons false (.seq false (.cons false (.bits (some ⟨15, 15, false⟩)) .nil)) .nil)) .nil) .nil)
/-- `RANAP-Message`, asn1/rua/RUA-IEs.asn:103 -/
def RANAP_Message : Ty := .octets none
/-- `CauseMisc`, asn1/rua/RUA-IEs.asn:145 -/
def CauseMisc : Ty := .enum 4 4 true
/-- `CauseProtocol`, asn1/rua/RUA-IEs.asn:134 -/
def CauseProtocol : Ty := .enum 7 7 true
/-- `CauseTransport`, asn1/rua/RUA-IEs.asn:128 -/
def CauseTransport : Ty := .enum 2 2 true
/-- `CauseRadioNetwork`, asn1/rua/RUA-IEs.asn:121 -/
def CauseRadioNetwork : Ty := .enum 4 4 true
/-- `Cause`, asn1/rua/RUA-IEs.asn:114 -/
def Cause : Ty := .choice true (.cons false CauseRadioNetwork (.cons false CauseTransport (.cons false CauseProtocol (.cons false CauseMisc .nil)))) .nil
/-- `TypeOfError`, asn1/rua/RUA-IEs.asn:178 -/
def TypeOfError : Ty := .enum 2 2 true
/-- `CriticalityDiagnostics-IE-List-Value`, asn1/rua/RUA-IEs.asn:169 -/
def CriticalityDiagnostics_IE_List_Value : Ty := .seq true (.cons false Criticality (.cons false ProtocolIE_ID (.cons false TypeOfError (.cons true IE_Extensions .nil))))
/-- `CriticalityDiagnostics-IE-List`, asn1/rua/RUA-IEs.asn:168 -/
def CriticalityDiagnostics_IE_List : Ty := .seqOf (some ⟨1, 256, false⟩) CriticalityDiagnostics_IE_List_Value
/-- `CriticalityDiagnostics`, asn1/rua/RUA-IEs.asn:159 -/
def CriticalityDiagnostics : Ty := .seq true (.cons true ProcedureCode (.cons true TriggeringMessage (.cons true Criticality (.cons true CriticalityDiagnostics_IE_List (.cons true IE_Extensions .nil)))))
/-- `Connect`, asn1/rua/RUA-PDU-Contents.asn:62 -/
def Connect : Ty := .seq true (.cons false (.seqOf (some ⟨0, 65535, false⟩) (.seq false (.cons false ProtocolIE_ID (.cons false Criticality (.cons false .any .nil))))) (.cons true (.seqOf (some ⟨1, 65535, false⟩) (.seq false (.cons false ProtocolIE_ID (.cons false Criticality (.cons false .any .nil))))) .nil))
/-- `DirectTransfer`, asn1/rua/RUA-PDU-Contents.asn:89 -/
def DirectTransfer : Ty := .seq true (.cons false (.seqOf (some ⟨0, 65535, false⟩) (.seq false (.cons false ProtocolIE_ID (.cons false Criticality (.cons false .any .nil))))) (.cons true (.seqOf (some ⟨1, 65535, false⟩) (.seq false (.cons false ProtocolIE_ID (.cons false Criticality (.cons false .any .nil))))) .nil))
/-- `Disconnect`, asn1/rua/RUA-PDU-Contents.asn:114 -/
def Disconnect : Ty := .seq true (.cons false (.seqOf (some ⟨0, 65535, false⟩) (.seq false (.cons false ProtocolIE_ID (.cons false Criticality (.cons false .any .nil))))) (.cons true (.seqOf (some ⟨1, 65535, false⟩) (.seq false (.cons false ProtocolIE_ID (.cons false Criticality (.cons false .any .nil))))) .nil))
/-- `ConnectionlessTransfer`, asn1/rua/RUA-PDU-Contents.asn:139 -/
def ConnectionlessTransfer : Ty := .seq true (.cons false (.seqOf (some ⟨0, 65535, false⟩) (.seq false (.cons false ProtocolIE_ID (.cons false Criticality (.cons false .any .nil))))) (.cons true (.seqOf (some ⟨1, 65535, false⟩) (.seq false (.cons false ProtocolIE_ID (.cons false Criticality (.cons false .any .nil))))) .nil))
/-- `ErrorIndication`, asn1/rua/RUA-PDU-Contents.asn:163 -/
def ErrorIndication : Ty := .seq true (.cons false (.seqOf (some ⟨0, 65535, false⟩) (.seq false (.cons false ProtocolIE_ID (.cons false Criticality (.cons false .any .nil))))) (.cons true (.seqOf (some ⟨1, 65535, false⟩) (.seq false (.cons false ProtocolIE_ID (.cons false Criticality (.cons false .any .nil))))) .nil))
/-- `PrivateMessage`, asn1/rua/RUA-PDU-Contents.asn:185 -/
def PrivateMessage : Ty := .seq true (.cons false (.seqOf (some ⟨1, 65535, false⟩) (.seq false (.cons false PrivateIE_ID (.cons false Criticality (.cons false .any .nil))))) .nil)
/-- `UnsuccessfulOutcome`, asn1/rua/RUA-PDU-Descriptions.asn:90 -/
def UnsuccessfulOutcome : Ty := .seq false (.cons false ProcedureCode (.cons false Criticality (.cons false .any .nil)))
/-- `SuccessfulOutcome`, asn1/rua/RUA-PDU-Descriptions.asn:84 -/
def SuccessfulOutcome : Ty := .seq false (.cons false ProcedureCode (.cons false Criticality (.cons false .any .nil)))
/-- `InitiatingMessage`, asn1/rua/RUA-PDU-Descriptions.asn:78 -/
def InitiatingMessage : Ty := .seq false (.cons false ProcedureCode (.cons false Criticality (.cons false .any .nil)))
/-- `RUA-PDU`, asn1/rua/RUA-PDU-Descriptions.asn:70 -/
def RUA_PDU : Ty := .choice true (.cons false InitiatingMessage (.cons false SuccessfulOutcome (.cons false UnsuccessfulOutcome .nil))) .nil

end Verif.Gen.Asn.Rua
