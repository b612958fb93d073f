import Verif.Gen.AsnRua
import Verif.Spec.AsnTypes

/-!
# The assignments of the RUA modules

What the modules of `/repo/asn1/rua` assign, in a form of its own for each kind, and the types of `Gen/AsnRua.lean` by name.
Nothing is taken from here on trust: see `Proofs/TypesRua.lean`.
-/

namespace Verif.Gen.Text
open Verif.AsnToStruct Verif.AsnToStruct.Spec

/-- Of `ruaCommon`. -/
noncomputable def ruaCommonAssignments : List Assignment := [
  .number (text% "maxPrivateIEs") 65535,
  .number (text% "maxProtocolExtensions") 65535,
  .number (text% "maxProtocolIEs") 65535,
  .type (text% "Criticality") (.enum [text% "reject", text% "ignore", text% "notify"] none),
  .type (text% "Presence") (.enum [text% "optional", text% "conditional", text% "mandatory"] none),
  .type (text% "ProcedureCode") (.int [(text% "id-Connect", text% "1"), (text% "id-DirectTransfer", text% "2"), (text% "id-Disconnect", text% "3"), (text% "id-ConnectionlessTransfer", text% "4"), (text% "id-ErrorIndication", text% "5"), (text% "id-privateMessage", text% "6")] (some ⟨text% "0", text% "255", false⟩)),
  .type (text% "PrivateIE-ID") (.choice (.cons (text% "local") (.int [] (some ⟨text% "0", text% "65535", false⟩)) false (.cons (text% "global") .oid false .nil)) none),
  .type (text% "ProtocolIE-ID") (.int [(text% "id-Cause", text% "1"), (text% "id-CriticalityDiagnostics", text% "2"), (text% "id-Context-ID", text% "3"), (text% "id-RANAP-Message", text% "4"), (text% "id-IntraDomainNasNodeSelector", text% "5"), (text% "id-Establishment-Cause", text% "6"), (text% "id-CN-DomainIndicator", text% "7"), (text% "id-CSGMembershipStatus", text% "9")] (some ⟨text% "0", text% "maxProtocolIEs", false⟩)),
  .type (text% "TriggeringMessage") (.enum [text% "initiating-message", text% "successful-outcome", text% "unsuccessful-outcome"] none)]

/-- Of `ruaConstants`. -/
noncomputable def ruaConstantsAssignments : List Assignment := [
  .number (text% "id-Connect") 1,
  .number (text% "id-DirectTransfer") 2,
  .number (text% "id-Disconnect") 3,
  .number (text% "id-ConnectionlessTransfer") 4,
  .number (text% "id-ErrorIndication") 5,
  .number (text% "id-privateMessage") 6,
  .number (text% "maxNrOfErrors") 256,
  .number (text% "id-Cause") 1,
  .number (text% "id-CriticalityDiagnostics") 2,
  .number (text% "id-Context-ID") 3,
  .number (text% "id-RANAP-Message") 4,
  .number (text% "id-IntraDomainNasNodeSelector") 5,
  .number (text% "id-Establishment-Cause") 6,
  .number (text% "id-CN-DomainIndicator") 7,
  .number (text% "id-CSGMembershipStatus") 9]

/-- Of `ruaContainers`. -/
noncomputable def ruaContainersAssignments : List Assignment := [
  .cls (text% "RUA-PRIVATE-IES") [(text% "id", text% "PrivateIE-ID"), (text% "criticality", text% "Criticality"), (text% "presence", text% "Presence")],
  .cls (text% "RUA-PROTOCOL-IES") [(text% "id", text% "ProtocolIE-ID"), (text% "criticality", text% "Criticality"), (text% "presence", text% "Presence")],
  .cls (text% "RUA-PROTOCOL-EXTENSION") [(text% "id", text% "ProtocolIE-ID"), (text% "criticality", text% "Criticality"), (text% "presence", text% "Presence")],
  .template (text% "ProtocolIE-Container") [text% "IEsSetParam"] (.seqOf (some ⟨text% "0", text% "maxProtocolIEs", false⟩) (.app (text% "ProtocolIE-Field") [text% "IEsSetParam"])),
  .template (text% "ProtocolIE-Single-Container") [text% "IEsSetParam"] (.app (text% "ProtocolIE-Field") [text% "IEsSetParam"]),
  .template (text% "ProtocolIE-Field") [text% "IEsSetParam"] (.seq (.cons (text% "id") (.field (text% "RUA-PROTOCOL-IES") (text% "id")) false (.cons (text% "criticality") (.field (text% "RUA-PROTOCOL-IES") (text% "criticality")) false (.cons (text% "value") (.field (text% "RUA-PROTOCOL-IES") (text% "Value")) false .nil))) none),
  .template (text% "ProtocolIE-ContainerList") [text% "lowerBound", text% "upperBound", text% "IEsSetParam"] (.seqOf (some ⟨text% "lowerBound", text% "upperBound", false⟩) (.app (text% "ProtocolIE-Container") [text% "IEsSetParam"])),
  .template (text% "ProtocolExtensionContainer") [text% "ExtensionSetParam"] (.seqOf (some ⟨text% "1", text% "maxProtocolExtensions", false⟩) (.app (text% "ProtocolExtensionField") [text% "ExtensionSetParam"])),
  .template (text% "ProtocolExtensionField") [text% "ExtensionSetParam"] (.seq (.cons (text% "id") (.field (text% "RUA-PROTOCOL-EXTENSION") (text% "id")) false (.cons (text% "criticality") (.field (text% "RUA-PROTOCOL-EXTENSION") (text% "criticality")) false (.cons (text% "extensionValue") (.field (text% "RUA-PROTOCOL-EXTENSION") (text% "Extension")) false .nil))) none),
  .template (text% "PrivateIE-Container") [text% "IEsSetParam"] (.seqOf (some ⟨text% "1", text% "maxPrivateIEs", false⟩) (.app (text% "PrivateIE-Field") [text% "IEsSetParam"])),
  .template (text% "PrivateIE-Field") [text% "IEsSetParam"] (.seq (.cons (text% "id") (.field (text% "RUA-PRIVATE-IES") (text% "id")) false (.cons (text% "criticality") (.field (text% "RUA-PRIVATE-IES") (text% "criticality")) false (.cons (text% "value") (.field (text% "RUA-PRIVATE-IES") (text% "Value")) false .nil))) none)]

/-- Of `ruaIes`. -/
noncomputable def ruaIesAssignments : List Assignment := [
  .type (text% "IE-Extensions") (.seqOf (some ⟨text% "1", text% "maxProtocolExtensions", false⟩) (.ref (text% "IE"))),
  .type (text% "CN-DomainIndicator") (.enum [text% "cs-domain", text% "ps-domain"] none),
  .type (text% "CSGMembershipStatus") (.enum [text% "member", text% "non-member"] (some [])),
  .type (text% "Establishment-Cause") (.enum [text% "emergency-call", text% "normal-call"] (some [])),
  .type (text% "Context-ID") (.bits (some ⟨text% "24", text% "24", false⟩)),
  .type (text% "IntraDomainNasNodeSelector") (.seq (.cons (text% "version") (.choice (.cons (text% "release99") (.seq (.cons (text% "cn-Type") (.choice (.cons (text% "gsm-Map-IDNNS") (.ref (text% "Gsm-map-IDNNS")) false (.cons (text% "ansi-41-IDNNS") (.ref (text% "Ansi-41-IDNNS")) false .nil)) none) false .nil) none) false (.cons (text% "later") (.seq (.cons (text% "futurecoding") (.bits (some ⟨text% "15", text% "15", false⟩)) false .nil) none) false .nil)) none) false .nil) none),
  .type (text% "Gsm-map-IDNNS") (.seq (.cons (text% "routingbasis") (.choice (.cons (text% "localPTMSI") (.seq (.cons (text% "routingparameter") (.ref (text% "RoutingParameter")) false .nil) none) false (.cons (text% "tMSIofsamePLMN") (.seq (.cons (text% "routingparameter") (.ref (text% "RoutingParameter")) false .nil) none) false (.cons (text% "tMSIofdifferentPLMN") (.seq (.cons (text% "routingparameter") (.ref (text% "RoutingParameter")) false .nil) none) false (.cons (text% "iMSIresponsetopaging") (.seq (.cons (text% "routingparameter") (.ref (text% "RoutingParameter")) false .nil) none) false (.cons (text% "iMSIcauseUEinitiatedEvent") (.seq (.cons (text% "routingparameter") (.ref (text% "RoutingParameter")) false .nil) none) false (.cons (text% "iMEI") (.seq (.cons (text% "routingparameter") (.ref (text% "RoutingParameter")) false .nil) none) false (.cons (text% "spare2") (.seq (.cons (text% "routingparameter") (.ref (text% "RoutingParameter")) false .nil) none) false (.cons (text% "spare1") (.seq (.cons (text% "routingparameter") (.ref (text% "RoutingParameter")) false .nil) none) false .nil)))))))) none) false (.cons (text% "dummy") .bool false .nil)) none),
  .type (text% "Ansi-41-IDNNS") (.bits (some ⟨text% "14", text% "14", false⟩)),
  .type (text% "RANAP-Message") (.octets none),
  .type (text% "RoutingParameter") (.bits (some ⟨text% "10", text% "10", false⟩)),
  .type (text% "Cause") (.choice (.cons (text% "radioNetwork") (.ref (text% "CauseRadioNetwork")) false (.cons (text% "transport") (.ref (text% "CauseTransport")) false (.cons (text% "protocol") (.ref (text% "CauseProtocol")) false (.cons (text% "misc") (.ref (text% "CauseMisc")) false .nil)))) (some .nil)),
  .type (text% "CauseRadioNetwork") (.enum [text% "normal", text% "connect-failed", text% "network-release", text% "unspecified"] (some [])),
  .type (text% "CauseTransport") (.enum [text% "transport-resource-unavailable", text% "unspecified"] (some [])),
  .type (text% "CauseProtocol") (.enum [text% "transfer-syntax-error", text% "abstract-syntax-error-reject", text% "abstract-syntax-error-ignore-and-notify", text% "message-not-compatible-with-receiver-state", text% "semantic-error", text% "unspecified", text% "abstract-syntax-error-falsely-constructed-message"] (some [])),
  .type (text% "CauseMisc") (.enum [text% "processing-overload", text% "hardware-failure", text% "o-and-m-intervention", text% "unspecified"] (some [])),
  .type (text% "CriticalityDiagnostics") (.seq (.cons (text% "procedureCode") (.ref (text% "ProcedureCode")) true (.cons (text% "triggeringMessage") (.ref (text% "TriggeringMessage")) true (.cons (text% "procedureCriticality") (.ref (text% "Criticality")) true (.cons (text% "iEsCriticalityDiagnostics") (.ref (text% "CriticalityDiagnostics-IE-List")) true (.cons (text% "iE-Extensions") (.ref (text% "IE-Extensions")) true .nil))))) (some .nil)),
  .type (text% "CriticalityDiagnostics-IE-List") (.seqOf (some ⟨text% "1", text% "maxNrOfErrors", false⟩) (.ref (text% "CriticalityDiagnostics-IE-List-Value"))),
  .type (text% "CriticalityDiagnostics-IE-List-Value") (.seq (.cons (text% "iECriticality") (.ref (text% "Criticality")) false (.cons (text% "iE-ID") (.ref (text% "ProtocolIE-ID")) false (.cons (text% "typeOfError") (.ref (text% "TypeOfError")) false (.cons (text% "iE-Extensions") (.ref (text% "IE-Extensions")) true .nil)))) (some .nil)),
  .type (text% "TypeOfError") (.enum [text% "not-understood", text% "missing"] (some []))]

/-- Of `rua`. -/
noncomputable def ruaContentsAssignments : List Assignment := [
  .type (text% "Connect") (.seq (.cons (text% "protocolIEs") (.app (text% "ProtocolIE-Container") [text% "ConnectIEs"]) false (.cons (text% "protocolExtensions") (.app (text% "ProtocolExtensionContainer") [text% "ConnectExtensions"]) true .nil)) (some .nil)),
  .object (text% "ConnectIEs"),
  .object (text% "ConnectExtensions"),
  .type (text% "DirectTransfer") (.seq (.cons (text% "protocolIEs") (.app (text% "ProtocolIE-Container") [text% "DirectTransferIEs"]) false (.cons (text% "protocolExtensions") (.app (text% "ProtocolExtensionContainer") [text% "DirectTransferExtensions"]) true .nil)) (some .nil)),
  .object (text% "DirectTransferIEs"),
  .object (text% "DirectTransferExtensions"),
  .type (text% "Disconnect") (.seq (.cons (text% "protocolIEs") (.app (text% "ProtocolIE-Container") [text% "DisconnectIEs"]) false (.cons (text% "protocolExtensions") (.app (text% "ProtocolExtensionContainer") [text% "DisconnectExtensions"]) true .nil)) (some .nil)),
  .object (text% "DisconnectIEs"),
  .object (text% "DisconnectExtensions"),
  .type (text% "ConnectionlessTransfer") (.seq (.cons (text% "protocolIEs") (.app (text% "ProtocolIE-Container") [text% "ConnectionlessTransferIEs"]) false (.cons (text% "protocolExtensions") (.app (text% "ProtocolExtensionContainer") [text% "ConnectionlessTransferExtensions"]) true .nil)) (some .nil)),
  .object (text% "ConnectionlessTransferIEs"),
  .object (text% "ConnectionlessTransferExtensions"),
  .type (text% "ErrorIndication") (.seq (.cons (text% "protocolIEs") (.app (text% "ProtocolIE-Container") [text% "ErrorIndicationIEs"]) false (.cons (text% "protocolExtensions") (.app (text% "ProtocolExtensionContainer") [text% "ErrorIndicationExtensions"]) true .nil)) (some .nil)),
  .object (text% "ErrorIndicationIEs"),
  .object (text% "ErrorIndicationExtensions"),
  .type (text% "PrivateMessage") (.seq (.cons (text% "privateIEs") (.app (text% "PrivateIE-Container") [text% "PrivateMessage-IEs"]) false .nil) (some .nil)),
  .object (text% "PrivateMessage-IEs")]

/-- Of `ruaDescriptions`. -/
noncomputable def ruaDescriptionsAssignments : List Assignment := [
  .cls (text% "RUA-ELEMENTARY-PROCEDURE") [(text% "procedureCode", text% "ProcedureCode"), (text% "criticality", text% "Criticality")],
  .type (text% "RUA-PDU") (.choice (.cons (text% "initiatingMessage") (.ref (text% "InitiatingMessage")) false (.cons (text% "successfulOutcome") (.ref (text% "SuccessfulOutcome")) false (.cons (text% "unsuccessfulOutcome") (.ref (text% "UnsuccessfulOutcome")) false .nil))) (some .nil)),
  .type (text% "InitiatingMessage") (.seq (.cons (text% "procedureCode") (.field (text% "RUA-ELEMENTARY-PROCEDURE") (text% "procedureCode")) false (.cons (text% "criticality") (.field (text% "RUA-ELEMENTARY-PROCEDURE") (text% "criticality")) false (.cons (text% "value") (.field (text% "RUA-ELEMENTARY-PROCEDURE") (text% "InitiatingMessage")) false .nil))) none),
  .type (text% "SuccessfulOutcome") (.seq (.cons (text% "procedureCode") (.field (text% "RUA-ELEMENTARY-PROCEDURE") (text% "procedureCode")) false (.cons (text% "criticality") (.field (text% "RUA-ELEMENTARY-PROCEDURE") (text% "criticality")) false (.cons (text% "value") (.field (text% "RUA-ELEMENTARY-PROCEDURE") (text% "SuccessfulOutcome")) false .nil))) none),
  .type (text% "UnsuccessfulOutcome") (.seq (.cons (text% "procedureCode") (.field (text% "RUA-ELEMENTARY-PROCEDURE") (text% "procedureCode")) false (.cons (text% "criticality") (.field (text% "RUA-ELEMENTARY-PROCEDURE") (text% "criticality")) false (.cons (text% "value") (.field (text% "RUA-ELEMENTARY-PROCEDURE") (text% "UnsuccessfulOutcome")) false .nil))) none),
  .object (text% "RUA-ELEMENTARY-PROCEDURES"),
  .object (text% "RUA-ELEMENTARY-PROCEDURES-CLASS-1"),
  .object (text% "RUA-ELEMENTARY-PROCEDURES-CLASS-2"),
  .object (text% "connectionRequest"),
  .object (text% "directTransfer"),
  .object (text% "disconnectRequest"),
  .object (text% "connectionlessTransfer"),
  .object (text% "errorIndication"),
  .object (text% "privateMessage")]

/-- Of `ruaIe`. -/
noncomputable def ruaIeAssignments : List Assignment := [
  .type (text% "IE") (.seq (.cons (text% "id") (.ref (text% "ProtocolIE-ID")) false (.cons (text% "criticality") (.ref (text% "Criticality")) false (.cons (text% "value") .any false .nil))) none)]

/-- The types by name. -/
noncomputable def ruaTypes : List (Text × Aper.Ty) := [
  (text% "Criticality", Asn.Rua.Criticality),
  (text% "Presence", Asn.Rua.Presence),
  (text% "ProcedureCode", Asn.Rua.ProcedureCode),
  (text% "PrivateIE-ID", Asn.Rua.PrivateIE_ID),
  (text% "ProtocolIE-ID", Asn.Rua.ProtocolIE_ID),
  (text% "TriggeringMessage", Asn.Rua.TriggeringMessage),
  (text% "IE-Extensions", Asn.Rua.IE_Extensions),
  (text% "CN-DomainIndicator", Asn.Rua.CN_DomainIndicator),
  (text% "CSGMembershipStatus", Asn.Rua.CSGMembershipStatus),
  (text% "Establishment-Cause", Asn.Rua.Establishment_Cause),
  (text% "Context-ID", Asn.Rua.Context_ID),
  (text% "IntraDomainNasNodeSelector", Asn.Rua.IntraDomainNasNodeSelector),
  (text% "Gsm-map-IDNNS", Asn.Rua.Gsm_map_IDNNS),
  (text% "Ansi-41-IDNNS", Asn.Rua.Ansi_41_IDNNS),
  (text% "RANAP-Message", Asn.Rua.RANAP_Message),
  (text% "RoutingParameter", Asn.Rua.RoutingParameter),
  (text% "Cause", Asn.Rua.Cause),
  (text% "CauseRadioNetwork", Asn.Rua.CauseRadioNetwork),
  (text% "CauseTransport", Asn.Rua.CauseTransport),
  (text% "CauseProtocol", Asn.Rua.CauseProtocol),
  (text% "CauseMisc", Asn.Rua.CauseMisc),
  (text% "CriticalityDiagnostics", Asn.Rua.CriticalityDiagnostics),
  (text% "CriticalityDiagnostics-IE-List", Asn.Rua.CriticalityDiagnostics_IE_List),
  (text% "CriticalityDiagnostics-IE-List-Value", Asn.Rua.CriticalityDiagnostics_IE_List_Value),
  (text% "TypeOfError", Asn.Rua.TypeOfError),
  (text% "Connect", Asn.Rua.Connect),
  (text% "DirectTransfer", Asn.Rua.DirectTransfer),
  (text% "Disconnect", Asn.Rua.Disconnect),
  (text% "ConnectionlessTransfer", Asn.Rua.ConnectionlessTransfer),
  (text% "ErrorIndication", Asn.Rua.ErrorIndication),
  (text% "PrivateMessage", Asn.Rua.PrivateMessage),
  (text% "RUA-PDU", Asn.Rua.RUA_PDU),
  (text% "InitiatingMessage", Asn.Rua.InitiatingMessage),
  (text% "SuccessfulOutcome", Asn.Rua.SuccessfulOutcome),
  (text% "UnsuccessfulOutcome", Asn.Rua.UnsuccessfulOutcome),
  (text% "IE", Asn.Rua.IE)]

end Verif.Gen.Text
