import Verif.Model.Aper

/-!
# Type descriptors of RUA

Transcribed by a script from the descriptors `asn_DEF_*` in `/repo/src/rua/*.c` (per-descriptor
citation in front of each definition): the PDU, the message containers and the types of all
information elements in the tables of `Verif/Gen/RuaIes.lean`, with what they refer to.
-/

namespace Verif.Gen.Rua
open Verif.Aper

/-- `asn_DEF_RUA_Criticality`, src/rua/RUA_Criticality.c:143 -/
def RUA_Criticality : Ty := .enum 3 3 false
/-- `asn_DEF_RUA_ProcedureCode`, src/rua/RUA_ProcedureCode.c:141 -/
def RUA_ProcedureCode : Ty := .int ⟨0, 255, false⟩
/-- `asn_DEF_RUA_UnsuccessfulOutcome`, src/rua/RUA_UnsuccessfulOutcome.c:56 -/
def RUA_UnsuccessfulOutcome : Ty := .seq false (.cons false RUA_ProcedureCode (.cons false RUA_Criticality (.cons false (.any) .nil)))
/-- `asn_DEF_RUA_SuccessfulOutcome`, src/rua/RUA_SuccessfulOutcome.c:56 -/
def RUA_SuccessfulOutcome : Ty := .seq false (.cons false RUA_ProcedureCode (.cons false RUA_Criticality (.cons false (.any) .nil)))
/-- `asn_DEF_RUA_InitiatingMessage`, src/rua/RUA_InitiatingMessage.c:56 -/
def RUA_InitiatingMessage : Ty := .seq false (.cons false RUA_ProcedureCode (.cons false RUA_Criticality (.cons false (.any) .nil)))
/-- `asn_DEF_RUA_RUA_PDU`, src/rua/RUA_RUA-PDU.c:59 -/
def RUA_RUA_PDU : Ty := .choice true (.cons false RUA_InitiatingMessage (.cons false RUA_SuccessfulOutcome (.cons false RUA_UnsuccessfulOutcome .nil))) .nil
/-- `asn_DEF_RUA_ProtocolIE_ID`, src/rua/RUA_ProtocolIE-ID.c:141 -/
def RUA_ProtocolIE_ID : Ty := .int ⟨0, 65535, false⟩
/-- `asn_DEF_RUA_IE`, src/rua/RUA_IE.c:56 -/
def RUA_IE : Ty := .seq false (.cons false RUA_ProtocolIE_ID (.cons false RUA_Criticality (.cons false (.any) .nil)))
/-- `asn_DEF_connect_ies_2`, src/rua/RUA_Connect.c:67 -/
def RUA_Connect__connect_ies_2 : Ty := .seqOf (some ⟨0, 65535, false⟩) RUA_IE
/-- `asn_DEF_RUA_Connect`, src/rua/RUA_Connect.c:120 -/
def RUA_Connect : Ty := .seq true (.cons false RUA_Connect__connect_ies_2 .nil)
/-- `asn_DEF_RUA_CN_DomainIndicator`, src/rua/RUA_CN-DomainIndicator.c:141 -/
def RUA_CN_DomainIndicator : Ty := .enum 2 2 false
/-- `asn_DEF_RUA_Context_ID`, src/rua/RUA_Context-ID.c:147 -/
def RUA_Context_ID : Ty := .bits (some ⟨24, 24, false⟩)
/-- `asn_DEF_later_7`, src/rua/RUA_IntraDomainNasNodeSelector.c:199 -/
def RUA_IntraDomainNasNodeSelector__later_7 : Ty := .seq false (.cons false (.bits (some ⟨15, 15, false⟩)) .nil)
/-- `asn_DEF_RUA_Ansi_41_IDNNS`, src/rua/RUA_Ansi-41-IDNNS.c:147 -/
def RUA_Ansi_41_IDNNS : Ty := .bits (some ⟨14, 14, false⟩)
/-- `asn_DEF_RUA_RoutingParameter`, src/rua/RUA_RoutingParameter.c:147 -/
def RUA_RoutingParameter : Ty := .bits (some ⟨10, 10, false⟩)
/-- `asn_DEF_spare1_17`, src/rua/RUA_Gsm-map-IDNNS.c:428 -/
def RUA_Gsm_map_IDNNS__spare1_17 : Ty := .seq false (.cons false RUA_RoutingParameter .nil)
/-- `asn_DEF_spare2_15`, src/rua/RUA_Gsm-map-IDNNS.c:373 -/
def RUA_Gsm_map_IDNNS__spare2_15 : Ty := .seq false (.cons false RUA_RoutingParameter .nil)
/-- `asn_DEF_iMEI_13`, src/rua/RUA_Gsm-map-IDNNS.c:318 -/
def RUA_Gsm_map_IDNNS__iMEI_13 : Ty := .seq false (.cons false RUA_RoutingParameter .nil)
/-- `asn_DEF_iMSIcauseUEinitiatedEvent_11`, src/rua/RUA_Gsm-map-IDNNS.c:263 -/
def RUA_Gsm_map_IDNNS__iMSIcauseUEinitiatedEvent_11 : Ty := .seq false (.cons false RUA_RoutingParameter .nil)
/-- `asn_DEF_iMSIresponsetopaging_9`, src/rua/RUA_Gsm-map-IDNNS.c:208 -/
def RUA_Gsm_map_IDNNS__iMSIresponsetopaging_9 : Ty := .seq false (.cons false RUA_RoutingParameter .nil)
/-- `asn_DEF_tMSIofdifferentPLMN_7`, src/rua/RUA_Gsm-map-IDNNS.c:153 -/
def RUA_Gsm_map_IDNNS__tMSIofdifferentPLMN_7 : Ty := .seq false (.cons false RUA_RoutingParameter .nil)
/-- `asn_DEF_tMSIofsamePLMN_5`, src/rua/RUA_Gsm-map-IDNNS.c:98 -/
def RUA_Gsm_map_IDNNS__tMSIofsamePLMN_5 : Ty := .seq false (.cons false RUA_RoutingParameter .nil)
/-- `asn_DEF_localPTMSI_3`, src/rua/RUA_Gsm-map-IDNNS.c:43 -/
def RUA_Gsm_map_IDNNS__localPTMSI_3 : Ty := .seq false (.cons false RUA_RoutingParameter .nil)
/-- `asn_DEF_routingbasis_2`, src/rua/RUA_Gsm-map-IDNNS.c:550 -/
def RUA_Gsm_map_IDNNS__routingbasis_2 : Ty := .choice false (.cons false RUA_Gsm_map_IDNNS__localPTMSI_3 (.cons false RUA_Gsm_map_IDNNS__tMSIofsamePLMN_5 (.cons false RUA_Gsm_map_IDNNS__tMSIofdifferentPLMN_7 (.cons false RUA_Gsm_map_IDNNS__iMSIresponsetopaging_9 (.cons false RUA_Gsm_map_IDNNS__iMSIcauseUEinitiatedEvent_11 (.cons false RUA_Gsm_map_IDNNS__iMEI_13 (.cons false RUA_Gsm_map_IDNNS__spare2_15 (.cons false RUA_Gsm_map_IDNNS__spare1_17 .nil)))))))) .nil
/-- `asn_DEF_RUA_Gsm_map_IDNNS`, src/rua/RUA_Gsm-map-IDNNS.c:611 -/
def RUA_Gsm_map_IDNNS : Ty := .seq false (.cons false RUA_Gsm_map_IDNNS__routingbasis_2 (.cons false (.bool) .nil))
/-- `asn_DEF_cn_Type_4`, src/rua/RUA_IntraDomainNasNodeSelector.c:91 -/
def RUA_IntraDomainNasNodeSelector__cn_Type_4 : Ty := .choice false (.cons false RUA_Gsm_map_IDNNS (.cons false RUA_Ansi_41_IDNNS .nil)) .nil
/-- `asn_DEF_release99_3`, src/rua/RUA_IntraDomainNasNodeSelector.c:144 -/
def RUA_IntraDomainNasNodeSelector__release99_3 : Ty := .seq false (.cons false RUA_IntraDomainNasNodeSelector__cn_Type_4 .nil)
/-- `asn_DEF_version_2`, src/rua/RUA_IntraDomainNasNodeSelector.c:261 -/
def RUA_IntraDomainNasNodeSelector__version_2 : Ty := .choice false (.cons false RUA_IntraDomainNasNodeSelector__release99_3 (.cons false RUA_IntraDomainNasNodeSelector__later_7 .nil)) .nil
/-- `asn_DEF_RUA_IntraDomainNasNodeSelector`, src/rua/RUA_IntraDomainNasNodeSelector.c:312 -/
def RUA_IntraDomainNasNodeSelector : Ty := .seq false (.cons false RUA_IntraDomainNasNodeSelector__version_2 .nil)
/-- `asn_DEF_RUA_Establishment_Cause`, src/rua/RUA_Establishment-Cause.c:143 -/
def RUA_Establishment_Cause : Ty := .enum 2 2 true
/-- `asn_DEF_RUA_RANAP_Message`, src/rua/RUA_RANAP-Message.c:119 -/
def RUA_RANAP_Message : Ty := .octets none
/-- `asn_DEF_directTransfer_ies_2`, src/rua/RUA_DirectTransfer.c:67 -/
def RUA_DirectTransfer__directTransfer_ies_2 : Ty := .seqOf (some ⟨0, 65535, false⟩) RUA_IE
/-- `asn_DEF_RUA_DirectTransfer`, src/rua/RUA_DirectTransfer.c:120 -/
def RUA_DirectTransfer : Ty := .seq true (.cons false RUA_DirectTransfer__directTransfer_ies_2 .nil)
/-- `asn_DEF_disconnect_ies_2`, src/rua/RUA_Disconnect.c:67 -/
def RUA_Disconnect__disconnect_ies_2 : Ty := .seqOf (some ⟨0, 65535, false⟩) RUA_IE
/-- `asn_DEF_RUA_Disconnect`, src/rua/RUA_Disconnect.c:120 -/
def RUA_Disconnect : Ty := .seq true (.cons false RUA_Disconnect__disconnect_ies_2 .nil)
/-- `asn_DEF_RUA_CauseMisc`, src/rua/RUA_CauseMisc.c:147 -/
def RUA_CauseMisc : Ty := .enum 4 4 true
/-- `asn_DEF_RUA_CauseProtocol`, src/rua/RUA_CauseProtocol.c:153 -/
def RUA_CauseProtocol : Ty := .enum 7 7 true
/-- `asn_DEF_RUA_CauseTransport`, src/rua/RUA_CauseTransport.c:143 -/
def RUA_CauseTransport : Ty := .enum 2 2 true
/-- `asn_DEF_RUA_CauseRadioNetwork`, src/rua/RUA_CauseRadioNetwork.c:147 -/
def RUA_CauseRadioNetwork : Ty := .enum 4 4 true
/-- `asn_DEF_RUA_Cause`, src/rua/RUA_Cause.c:69 -/
def RUA_Cause : Ty := .choice true (.cons false RUA_CauseRadioNetwork (.cons false RUA_CauseTransport (.cons false RUA_CauseProtocol (.cons false RUA_CauseMisc .nil)))) .nil
/-- `asn_DEF_connectionlessTransfer_ies_2`, src/rua/RUA_ConnectionlessTransfer.c:67 -/
def RUA_ConnectionlessTransfer__connectionlessTransfer_ies_2 : Ty := .seqOf (some ⟨0, 65535, false⟩) RUA_IE
/-- `asn_DEF_RUA_ConnectionlessTransfer`, src/rua/RUA_ConnectionlessTransfer.c:120 -/
def RUA_ConnectionlessTransfer : Ty := .seq true (.cons false RUA_ConnectionlessTransfer__connectionlessTransfer_ies_2 .nil)
/-- `asn_DEF_errorIndication_ies_2`, src/rua/RUA_ErrorIndication.c:67 -/
def RUA_ErrorIndication__errorIndication_ies_2 : Ty := .seqOf (some ⟨0, 65535, false⟩) RUA_IE
/-- `asn_DEF_RUA_ErrorIndication`, src/rua/RUA_ErrorIndication.c:120 -/
def RUA_ErrorIndication : Ty := .seq true (.cons false RUA_ErrorIndication__errorIndication_ies_2 .nil)
/-- `asn_DEF_RUA_IE_Extensions`, src/rua/RUA_IE-Extensions.c:34 -/
def RUA_IE_Extensions : Ty := .seqOf (some ⟨1, 65535, false⟩) RUA_IE
/-- `asn_DEF_RUA_TypeOfError`, src/rua/RUA_TypeOfError.c:143 -/
def RUA_TypeOfError : Ty := .enum 2 2 true
/-- `asn_DEF_RUA_CriticalityDiagnostics_IE_List_Value`, src/rua/RUA_CriticalityDiagnostics-IE-List-Value.c:68 -/
def RUA_CriticalityDiagnostics_IE_List_Value : Ty := .seq true (.cons false RUA_Criticality (.cons false RUA_ProtocolIE_ID (.cons false RUA_TypeOfError (.cons true RUA_IE_Extensions .nil))))
/-- `asn_DEF_RUA_CriticalityDiagnostics_IE_List`, src/rua/RUA_CriticalityDiagnostics-IE-List.c:34 -/
def RUA_CriticalityDiagnostics_IE_List : Ty := .seqOf (some ⟨1, 256, false⟩) RUA_CriticalityDiagnostics_IE_List_Value
/-- `asn_DEF_RUA_TriggeringMessage`, src/rua/RUA_TriggeringMessage.c:143 -/
def RUA_TriggeringMessage : Ty := .enum 3 3 false
/-- `asn_DEF_RUA_CriticalityDiagnostics`, src/rua/RUA_CriticalityDiagnostics.c:78 -/
def RUA_CriticalityDiagnostics : Ty := .seq true (.cons true RUA_ProcedureCode (.cons true RUA_TriggeringMessage (.cons true RUA_Criticality (.cons true RUA_CriticalityDiagnostics_IE_List (.cons true RUA_IE_Extensions .nil)))))

end Verif.Gen.Rua
