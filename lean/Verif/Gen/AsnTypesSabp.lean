import Verif.Gen.AsnSabp
import Verif.Spec.AsnTypes

/-!
# The assignments of the SABP modules

What the modules of `/repo/asn1/sabp` assign, in a form of its own for each kind, and the types of `Gen/AsnSabp.lean` by name.
Nothing is taken from here on trust: see `Proofs/TypesSabp.lean`.
-/

namespace Verif.Gen.Text
open Verif.AsnToStruct Verif.AsnToStruct.Spec

/-- Of `sabpCommon`. -/
noncomputable def sabpCommonAssignments : List Assignment := [
  .type (text% "Criticality") (.enum [text% "reject", text% "ignore", text% "notify"] none),
  .type (text% "Presence") (.enum [text% "optional", text% "conditional", text% "mandatory"] none),
  .type (text% "ProcedureCode") (.int [(text% "id-Write-Replace", text% "0"), (text% "id-Kill", text% "1"), (text% "id-Load-Status-Enquiry", text% "2"), (text% "id-Message-Status-Query", text% "3"), (text% "id-Restart-Indication", text% "4"), (text% "id-Reset", text% "5"), (text% "id-Failure-Indication", text% "6"), (text% "id-Error-Indication", text% "7")] (some ⟨text% "0", text% "255", false⟩)),
  .type (text% "ProtocolExtensionID") (.int [] (some ⟨text% "0", text% "65535", false⟩)),
  .type (text% "ProtocolIE-ID") (.int [(text% "id-Broadcast-Message-Content", text% "0"), (text% "id-Category", text% "1"), (text% "id-Cause", text% "2"), (text% "id-Data-Coding-Scheme", text% "4"), (text% "id-Failure-List", text% "5"), (text% "id-Message-Identifier", text% "6"), (text% "id-New-Serial-Number", text% "7"), (text% "id-Number-of-Broadcasts-Completed-List", text% "8"), (text% "id-Number-of-Broadcasts-Requested", text% "9"), (text% "id-Old-Serial-Number", text% "10"), (text% "id-Radio-Resource-Loading-List", text% "11"), (text% "id-Recovery-Indication", text% "12"), (text% "id-Repetition-Period", text% "13"), (text% "id-Serial-Number", text% "14"), (text% "id-Service-Areas-List", text% "15"), (text% "id-MessageStructure", text% "16"), (text% "id-TypeOfError", text% "17"), (text% "id-Paging-ETWS-Indicator", text% "18"), (text% "id-Warning-Type", text% "19"), (text% "id-WarningSecurityInfo", text% "20"), (text% "id-Broadcast-Message-Content-Validity-Indicator", text% "21")] (some ⟨text% "0", text% "65535", false⟩)),
  .type (text% "TriggeringMessage") (.enum [text% "initiating-message", text% "successful-outcome", text% "unsuccessful-outcome", text% "outcome"] none)]

/-- Of `sabpConstants`. -/
noncomputable def sabpConstantsAssignments : List Assignment := [
  .number (text% "id-Write-Replace") 0,
  .number (text% "id-Kill") 1,
  .number (text% "id-Load-Status-Enquiry") 2,
  .number (text% "id-Message-Status-Query") 3,
  .number (text% "id-Restart-Indication") 4,
  .number (text% "id-Reset") 5,
  .number (text% "id-Failure-Indication") 6,
  .number (text% "id-Error-Indication") 7,
  .number (text% "id-Broadcast-Message-Content") 0,
  .number (text% "id-Category") 1,
  .number (text% "id-Cause") 2,
  .number (text% "id-Criticality-Diagnostics") 3,
  .number (text% "id-Data-Coding-Scheme") 4,
  .number (text% "id-Failure-List") 5,
  .number (text% "id-Message-Identifier") 6,
  .number (text% "id-New-Serial-Number") 7,
  .number (text% "id-Number-of-Broadcasts-Completed-List") 8,
  .number (text% "id-Number-of-Broadcasts-Requested") 9,
  .number (text% "id-Old-Serial-Number") 10,
  .number (text% "id-Radio-Resource-Loading-List") 11,
  .number (text% "id-Recovery-Indication") 12,
  .number (text% "id-Repetition-Period") 13,
  .number (text% "id-Serial-Number") 14,
  .number (text% "id-Service-Areas-List") 15,
  .number (text% "id-MessageStructure") 16,
  .number (text% "id-TypeOfError") 17,
  .number (text% "id-Paging-ETWS-Indicator") 18,
  .number (text% "id-Warning-Type") 19,
  .number (text% "id-WarningSecurityInfo") 20,
  .number (text% "id-Broadcast-Message-Content-Validity-Indicator") 21,
  .number (text% "maxNrOfErrors") 256,
  .number (text% "maxnoofSAI") 65535,
  .number (text% "maxProtocolExtensions") 65535,
  .number (text% "maxProtocolIEs") 65535,
  .number (text% "maxNrOfLevels") 256]

/-- Of `sabpContainers`. -/
noncomputable def sabpContainersAssignments : List Assignment := [
  .cls (text% "SABP-PROTOCOL-IES") [(text% "id", text% "ProtocolIE-ID"), (text% "criticality", text% "Criticality"), (text% "presence", text% "Presence")],
  .cls (text% "SABP-PROTOCOL-EXTENSION") [(text% "id", text% "ProtocolExtensionID"), (text% "criticality", text% "Criticality"), (text% "presence", text% "Presence")],
  .template (text% "ProtocolIE-Container") [text% "IEsSetParam"] (.seqOf (some ⟨text% "0", text% "maxProtocolIEs", false⟩) (.app (text% "ProtocolIE-Field") [text% "IEsSetParam"])),
  .template (text% "ProtocolIE-Field") [text% "IEsSetParam"] (.seq (.cons (text% "id") (.field (text% "SABP-PROTOCOL-IES") (text% "id")) false (.cons (text% "criticality") (.field (text% "SABP-PROTOCOL-IES") (text% "criticality")) false (.cons (text% "value") (.field (text% "SABP-PROTOCOL-IES") (text% "Value")) false .nil))) none),
  .template (text% "ProtocolIE-ContainerList") [text% "lowerBound", text% "upperBound", text% "IEsSetParam"] (.seqOf (some ⟨text% "lowerBound", text% "upperBound", false⟩) (.app (text% "ProtocolIE-Container") [text% "IEsSetParam"])),
  .template (text% "ProtocolExtensionContainer") [text% "ExtensionSetParam"] (.seqOf (some ⟨text% "1", text% "maxProtocolExtensions", false⟩) (.app (text% "ProtocolExtensionField") [text% "ExtensionSetParam"])),
  .template (text% "ProtocolExtensionField") [text% "ExtensionSetParam"] (.seq (.cons (text% "id") (.field (text% "SABP-PROTOCOL-EXTENSION") (text% "id")) false (.cons (text% "criticality") (.field (text% "SABP-PROTOCOL-EXTENSION") (text% "criticality")) false (.cons (text% "extensionValue") (.field (text% "SABP-PROTOCOL-EXTENSION") (text% "Extension")) false .nil))) none)]

/-- Of `sabpIes`. -/
noncomputable def sabpIesAssignments : List Assignment := [
  .type (text% "IE-Extensions") (.seqOf (some ⟨text% "1", text% "maxProtocolExtensions", false⟩) (.ref (text% "IE"))),
  .type (text% "Available-Bandwidth") (.int [] (some ⟨text% "0", text% "20480", false⟩)),
  .type (text% "Broadcast-Message-Content") (.bits (some ⟨text% "1", text% "9968", false⟩)),
  .type (text% "Broadcast-Message-Content-Validity-Indicator") (.enum [text% "broadcast-Message-Content-not-valid"] (some [])),
  .type (text% "Category") (.enum [text% "high-priority", text% "background-priority", text% "normal-priority", text% "default-priority"] (some [])),
  .type (text% "Cause") (.int [(text% "parameter-not-recognised", text% "0"), (text% "parameter-value-invalid", text% "1"), (text% "valid-CN-message-not-identified", text% "2"), (text% "service-area-identity-not-valid", text% "3"), (text% "unrecognised-message", text% "4"), (text% "missing-mandatory-element", text% "5"), (text% "rNC-capacity-exceeded", text% "6"), (text% "rNC-memory-exceeded", text% "7"), (text% "service-area-broadcast-not-supported", text% "8"), (text% "service-area-broadcast-not-operational", text% "9"), (text% "message-reference-already-used", text% "10"), (text% "unspecifed-error", text% "11"), (text% "transfer-syntax-error", text% "12"), (text% "semantic-error", text% "13"), (text% "message-not-compatible-with-receiver-state", text% "14"), (text% "abstract-syntax-error-reject", text% "15"), (text% "abstract-syntax-error-ignore-and-notify", text% "16"), (text% "abstract-syntax-error-falsely-constructed-message", text% "17")] (some ⟨text% "0", text% "255", false⟩)),
  .type (text% "Criticality-Diagnostics") (.seq (.cons (text% "procedureCode") (.ref (text% "ProcedureCode")) true (.cons (text% "triggeringMessage") (.ref (text% "TriggeringMessage")) true (.cons (text% "procedureCriticality") (.ref (text% "Criticality")) true (.cons (text% "iEsCriticalityDiagnostics") (.ref (text% "CriticalityDiagnostics-IE-List")) true (.cons (text% "iE-Extensions") (.ref (text% "IE-Extensions")) true .nil))))) (some .nil)),
  .object (text% "CriticalityDiagnostics-ExtIEs"),
  .type (text% "CriticalityDiagnostics-IE-List") (.seqOf (some ⟨text% "1", text% "maxNrOfErrors", false⟩) (.ref (text% "CriticalityDiagnostics-IE-List-Value"))),
  .type (text% "CriticalityDiagnostics-IE-List-Value") (.seq (.cons (text% "iECriticality") (.ref (text% "Criticality")) false (.cons (text% "iE-ID") (.ref (text% "ProtocolIE-ID")) false (.cons (text% "repetitionNumber") (.ref (text% "RepetitionNumber0")) true (.cons (text% "iE-Extensions") (.ref (text% "IE-Extensions")) true .nil)))) (some .nil)),
  .object (text% "CriticalityDiagnostics-IE-List-ExtIEs"),
  .type (text% "MessageStructure") (.seqOf (some ⟨text% "1", text% "maxNrOfLevels", false⟩) (.ref (text% "MessageStructure-Value"))),
  .type (text% "MessageStructure-Value") (.seq (.cons (text% "iE-ID") (.ref (text% "ProtocolIE-ID")) false (.cons (text% "repetitionNumber") (.ref (text% "RepetitionNumber1")) true (.cons (text% "iE-Extensions") (.ref (text% "IE-Extensions")) true .nil))) (some .nil)),
  .object (text% "MessageStructure-ExtIEs"),
  .type (text% "Data-Coding-Scheme") (.bits (some ⟨text% "8", text% "8", false⟩)),
  .type (text% "Failure-List") (.seqOf (some ⟨text% "1", text% "maxnoofSAI", false⟩) (.ref (text% "Failure-List-Item"))),
  .type (text% "Failure-List-Item") (.seq (.cons (text% "service-area-identifier") (.ref (text% "Service-Area-Identifier")) false (.cons (text% "cause") (.ref (text% "Cause")) false (.cons (text% "iE-Extensions") (.ref (text% "IE-Extensions")) true .nil))) (some .nil)),
  .object (text% "FailureListItemIE-ExtIEs"),
  .type (text% "Message-Identifier") (.bits (some ⟨text% "16", text% "16", false⟩)),
  .type (text% "New-Serial-Number") (.ref (text% "Serial-Number")),
  .type (text% "Number-of-Broadcasts-Completed-List") (.seqOf (some ⟨text% "1", text% "maxnoofSAI", false⟩) (.ref (text% "Number-of-Broadcasts-Completed-List-Item"))),
  .type (text% "Number-of-Broadcasts-Completed-List-Item") (.seq (.cons (text% "service-area-identifier") (.ref (text% "Service-Area-Identifier")) false (.cons (text% "number-of-broadcasts-completed") (.int [] (some ⟨text% "0", text% "65535", false⟩)) false (.cons (text% "number-of-broadcasts-completed-info") (.ref (text% "Number-Of-Broadcasts-Completed-Info")) true (.cons (text% "iE-Extensions") (.ref (text% "IE-Extensions")) true .nil)))) (some .nil)),
  .object (text% "NoOfBroadcastsCompletedListItemIE-ExtIEs"),
  .type (text% "Number-Of-Broadcasts-Completed-Info") (.enum [text% "overflow", text% "unknown"] (some [])),
  .type (text% "Number-of-Broadcasts-Requested") (.int [(text% "broadcast-indefinitely", text% "0")] (some ⟨text% "0", text% "65535", false⟩)),
  .type (text% "Old-Serial-Number") (.ref (text% "Serial-Number")),
  .type (text% "Paging-ETWS-Indicator") (.enum [text% "paging"] (some [])),
  .type (text% "Radio-Resource-Loading-List") (.seqOf (some ⟨text% "1", text% "maxnoofSAI", false⟩) (.ref (text% "Radio-Resource-Loading-List-Item"))),
  .type (text% "Radio-Resource-Loading-List-Item") (.seq (.cons (text% "service-area-identifier") (.ref (text% "Service-Area-Identifier")) false (.cons (text% "available-bandwidth") (.ref (text% "Available-Bandwidth")) false (.cons (text% "iE-Extensions") (.ref (text% "IE-Extensions")) true .nil))) (some .nil)),
  .object (text% "RadioResourceLoadingListItemIE-ExtIEs"),
  .type (text% "Recovery-Indication") (.enum [text% "data-lost", text% "data-available"] none),
  .type (text% "RepetitionNumber0") (.int [] (some ⟨text% "0", text% "255", false⟩)),
  .type (text% "RepetitionNumber1") (.int [] (some ⟨text% "1", text% "256", false⟩)),
  .type (text% "Repetition-Period") (.int [] (some ⟨text% "1", text% "4096", false⟩)),
  .type (text% "Serial-Number") (.bits (some ⟨text% "16", text% "16", false⟩)),
  .type (text% "Service-Area-Identifier") (.seq (.cons (text% "pLMNidentity") (.octets (some ⟨text% "3", text% "3", false⟩)) false (.cons (text% "lac") (.octets (some ⟨text% "2", text% "2", false⟩)) false (.cons (text% "sac") (.octets (some ⟨text% "2", text% "2", false⟩)) false .nil))) none),
  .type (text% "Service-Areas-List") (.seqOf (some ⟨text% "1", text% "maxnoofSAI", false⟩) (.ref (text% "Service-Area-Identifier"))),
  .type (text% "TypeOfError") (.enum [text% "not-understood", text% "missing"] (some [])),
  .type (text% "WarningSecurityInfo") (.octets (some ⟨text% "50", text% "50", false⟩)),
  .type (text% "Warning-Type") (.octets (some ⟨text% "2", text% "2", false⟩))]

/-- Of `sabp`. -/
noncomputable def sabpContentsAssignments : List Assignment := [
  .type (text% "Write-Replace") (.seq (.cons (text% "protocolIEs") (.app (text% "ProtocolIE-Container") [text% "Write-Replace-IEs"]) false (.cons (text% "protocolExtensions") (.app (text% "ProtocolExtensionContainer") [text% "Write-Replace-Extensions"]) true .nil)) (some .nil)),
  .object (text% "Write-Replace-IEs"),
  .object (text% "Write-Replace-Extensions"),
  .type (text% "Write-Replace-Complete") (.seq (.cons (text% "protocolIEs") (.app (text% "ProtocolIE-Container") [text% "Write-Replace-Complete-IEs"]) false (.cons (text% "protocolExtensions") (.app (text% "ProtocolExtensionContainer") [text% "Write-Replace-Complete-Extensions"]) true .nil)) (some .nil)),
  .object (text% "Write-Replace-Complete-IEs"),
  .object (text% "Write-Replace-Complete-Extensions"),
  .type (text% "Write-Replace-Failure") (.seq (.cons (text% "protocolIEs") (.app (text% "ProtocolIE-Container") [text% "Write-Replace-Failure-IEs"]) false (.cons (text% "protocolExtensions") (.app (text% "ProtocolExtensionContainer") [text% "Write-Replace-Failure-Extensions"]) true .nil)) (some .nil)),
  .object (text% "Write-Replace-Failure-IEs"),
  .object (text% "Write-Replace-Failure-Extensions"),
  .type (text% "Kill") (.seq (.cons (text% "protocolIEs") (.app (text% "ProtocolIE-Container") [text% "Kill-IEs"]) false (.cons (text% "protocolExtensions") (.app (text% "ProtocolExtensionContainer") [text% "Kill-Extensions"]) true .nil)) (some .nil)),
  .object (text% "Kill-IEs"),
  .object (text% "Kill-Extensions"),
  .type (text% "Kill-Complete") (.seq (.cons (text% "protocolIEs") (.app (text% "ProtocolIE-Container") [text% "Kill-Complete-IEs"]) false (.cons (text% "protocolExtensions") (.app (text% "ProtocolExtensionContainer") [text% "Kill-Complete-Extensions"]) true .nil)) (some .nil)),
  .object (text% "Kill-Complete-IEs"),
  .object (text% "Kill-Complete-Extensions"),
  .type (text% "Kill-Failure") (.seq (.cons (text% "protocolIEs") (.app (text% "ProtocolIE-Container") [text% "Kill-Failure-IEs"]) false (.cons (text% "protocolExtensions") (.app (text% "ProtocolExtensionContainer") [text% "Kill-Failure-Extensions"]) true .nil)) (some .nil)),
  .object (text% "Kill-Failure-IEs"),
  .object (text% "Kill-Failure-Extensions"),
  .type (text% "Load-Query") (.seq (.cons (text% "protocolIEs") (.app (text% "ProtocolIE-Container") [text% "Load-Query-IEs"]) false (.cons (text% "protocolExtensions") (.app (text% "ProtocolExtensionContainer") [text% "Load-Query-Extensions"]) true .nil)) (some .nil)),
  .object (text% "Load-Query-IEs"),
  .object (text% "Load-Query-Extensions"),
  .type (text% "Load-Query-Complete") (.seq (.cons (text% "protocolIEs") (.app (text% "ProtocolIE-Container") [text% "Load-Query-Complete-IEs"]) false (.cons (text% "protocolExtensions") (.app (text% "ProtocolExtensionContainer") [text% "Load-Query-Complete-Extensions"]) true .nil)) (some .nil)),
  .object (text% "Load-Query-Complete-IEs"),
  .object (text% "Load-Query-Complete-Extensions"),
  .type (text% "Load-Query-Failure") (.seq (.cons (text% "protocolIEs") (.app (text% "ProtocolIE-Container") [text% "Load-Query-Failure-IEs"]) false (.cons (text% "protocolExtensions") (.app (text% "ProtocolExtensionContainer") [text% "Load-Query-Failure-Extensions"]) true .nil)) (some .nil)),
  .object (text% "Load-Query-Failure-IEs"),
  .object (text% "Load-Query-Failure-Extensions"),
  .type (text% "Message-Status-Query") (.seq (.cons (text% "protocolIEs") (.app (text% "ProtocolIE-Container") [text% "Message-Status-Query-IEs"]) false (.cons (text% "protocolExtensions") (.app (text% "ProtocolExtensionContainer") [text% "Message-Status-Query-Extensions"]) true .nil)) (some .nil)),
  .object (text% "Message-Status-Query-IEs"),
  .object (text% "Message-Status-Query-Extensions"),
  .type (text% "Message-Status-Query-Complete") (.seq (.cons (text% "protocolIEs") (.app (text% "ProtocolIE-Container") [text% "Message-Status-Query-Complete-IEs"]) false (.cons (text% "protocolExtensions") (.app (text% "ProtocolExtensionContainer") [text% "Message-Status-Query-Complete-Extensions"]) true .nil)) (some .nil)),
  .object (text% "Message-Status-Query-Complete-IEs"),
  .object (text% "Message-Status-Query-Complete-Extensions"),
  .type (text% "Message-Status-Query-Failure") (.seq (.cons (text% "protocolIEs") (.app (text% "ProtocolIE-Container") [text% "Message-Status-Query-Failure-IEs"]) false (.cons (text% "protocolExtensions") (.app (text% "ProtocolExtensionContainer") [text% "Message-Status-Query-Failure-Extensions"]) true .nil)) (some .nil)),
  .object (text% "Message-Status-Query-Failure-IEs"),
  .object (text% "Message-Status-Query-Failure-Extensions"),
  .type (text% "Reset") (.seq (.cons (text% "protocolIEs") (.app (text% "ProtocolIE-Container") [text% "Reset-IEs"]) false (.cons (text% "protocolExtensions") (.app (text% "ProtocolExtensionContainer") [text% "Reset-Extensions"]) true .nil)) (some .nil)),
  .object (text% "Reset-IEs"),
  .object (text% "Reset-Extensions"),
  .type (text% "Reset-Complete") (.seq (.cons (text% "protocolIEs") (.app (text% "ProtocolIE-Container") [text% "Reset-Complete-IEs"]) false (.cons (text% "protocolExtensions") (.app (text% "ProtocolExtensionContainer") [text% "Reset-Complete-Extensions"]) true .nil)) (some .nil)),
  .object (text% "Reset-Complete-IEs"),
  .object (text% "Reset-Complete-Extensions"),
  .type (text% "Reset-Failure") (.seq (.cons (text% "protocolIEs") (.app (text% "ProtocolIE-Container") [text% "Reset-Failure-IEs"]) false (.cons (text% "protocolExtensions") (.app (text% "ProtocolExtensionContainer") [text% "Reset-Failure-Extensions"]) true .nil)) (some .nil)),
  .object (text% "Reset-Failure-IEs"),
  .object (text% "Reset-Failure-Extensions"),
  .type (text% "Restart") (.seq (.cons (text% "protocolIEs") (.app (text% "ProtocolIE-Container") [text% "Restart-IEs"]) false (.cons (text% "protocolExtensions") (.app (text% "ProtocolExtensionContainer") [text% "Restart-Extensions"]) true .nil)) (some .nil)),
  .object (text% "Restart-IEs"),
  .object (text% "Restart-Extensions"),
  .type (text% "Failure") (.seq (.cons (text% "protocolIEs") (.app (text% "ProtocolIE-Container") [text% "Failure-IEs"]) false (.cons (text% "protocolExtensions") (.app (text% "ProtocolExtensionContainer") [text% "Failure-Extensions"]) true .nil)) (some .nil)),
  .object (text% "Failure-IEs"),
  .object (text% "Failure-Extensions"),
  .type (text% "Error-Indication") (.seq (.cons (text% "protocolIEs") (.app (text% "ProtocolIE-Container") [text% "Error-Indication-IEs"]) false (.cons (text% "protocolExtensions") (.app (text% "ProtocolExtensionContainer") [text% "Error-Indication-Extensions"]) true .nil)) (some .nil)),
  .object (text% "Error-Indication-IEs"),
  .object (text% "Error-Indication-Extensions")]

/-- Of `sabpDescriptions`. -/
noncomputable def sabpDescriptionsAssignments : List Assignment := [
  .cls (text% "SABP-ELEMENTARY-PROCEDURE") [(text% "procedureCode", text% "ProcedureCode"), (text% "criticality", text% "Criticality")],
  .type (text% "SABP-PDU") (.choice (.cons (text% "initiatingMessage") (.ref (text% "InitiatingMessage")) false (.cons (text% "successfulOutcome") (.ref (text% "SuccessfulOutcome")) false (.cons (text% "unsuccessfulOutcome") (.ref (text% "UnsuccessfulOutcome")) false .nil))) (some .nil)),
  .type (text% "InitiatingMessage") (.seq (.cons (text% "procedureCode") (.field (text% "SABP-ELEMENTARY-PROCEDURE") (text% "procedureCode")) false (.cons (text% "criticality") (.field (text% "SABP-ELEMENTARY-PROCEDURE") (text% "criticality")) false (.cons (text% "value") (.field (text% "SABP-ELEMENTARY-PROCEDURE") (text% "InitiatingMessage")) false .nil))) none),
  .type (text% "SuccessfulOutcome") (.seq (.cons (text% "procedureCode") (.field (text% "SABP-ELEMENTARY-PROCEDURE") (text% "procedureCode")) false (.cons (text% "criticality") (.field (text% "SABP-ELEMENTARY-PROCEDURE") (text% "criticality")) false (.cons (text% "value") (.field (text% "SABP-ELEMENTARY-PROCEDURE") (text% "SuccessfulOutcome")) false .nil))) none),
  .type (text% "UnsuccessfulOutcome") (.seq (.cons (text% "procedureCode") (.field (text% "SABP-ELEMENTARY-PROCEDURE") (text% "procedureCode")) false (.cons (text% "criticality") (.field (text% "SABP-ELEMENTARY-PROCEDURE") (text% "criticality")) false (.cons (text% "value") (.field (text% "SABP-ELEMENTARY-PROCEDURE") (text% "UnsuccessfulOutcome")) false .nil))) none),
  .object (text% "SABP-ELEMENTARY-PROCEDURES"),
  .object (text% "SABP-ELEMENTARY-PROCEDURES-CLASS-1"),
  .object (text% "SABP-ELEMENTARY-PROCEDURES-CLASS-2"),
  .object (text% "write-Replace"),
  .object (text% "kill"),
  .object (text% "load-Status-Enquiry"),
  .object (text% "message-Status-Query"),
  .object (text% "reset"),
  .object (text% "restart-Indication"),
  .object (text% "failure-Indication"),
  .object (text% "error-Indication")]

/-- Of `sabpIe`. -/
noncomputable def sabpIeAssignments : List Assignment := [
  .type (text% "IE") (.seq (.cons (text% "id") (.ref (text% "ProtocolIE-ID")) false (.cons (text% "criticality") (.ref (text% "Criticality")) false (.cons (text% "value") .any false .nil))) none)]

/-- The types by name. -/
noncomputable def sabpTypes : List (Text × Aper.Ty) := [
  (text% "Criticality", Asn.Sabp.Criticality),
  (text% "Presence", Asn.Sabp.Presence),
  (text% "ProcedureCode", Asn.Sabp.ProcedureCode),
  (text% "ProtocolExtensionID", Asn.Sabp.ProtocolExtensionID),
  (text% "ProtocolIE-ID", Asn.Sabp.ProtocolIE_ID),
  (text% "TriggeringMessage", Asn.Sabp.TriggeringMessage),
  (text% "IE-Extensions", Asn.Sabp.IE_Extensions),
  (text% "Available-Bandwidth", Asn.Sabp.Available_Bandwidth),
  (text% "Broadcast-Message-Content", Asn.Sabp.Broadcast_Message_Content),
  (text% "Broadcast-Message-Content-Validity-Indicator", Asn.Sabp.Broadcast_Message_Content_Validity_Indicator),
  (text% "Category", Asn.Sabp.Category),
  (text% "Cause", Asn.Sabp.Cause),
  (text% "Criticality-Diagnostics", Asn.Sabp.Criticality_Diagnostics),
  (text% "CriticalityDiagnostics-IE-List", Asn.Sabp.CriticalityDiagnostics_IE_List),
  (text% "CriticalityDiagnostics-IE-List-Value", Asn.Sabp.CriticalityDiagnostics_IE_List_Value),
  (text% "MessageStructure", Asn.Sabp.MessageStructure),
  (text% "MessageStructure-Value", Asn.Sabp.MessageStructure_Value),
  (text% "Data-Coding-Scheme", Asn.Sabp.Data_Coding_Scheme),
  (text% "Failure-List", Asn.Sabp.Failure_List),
  (text% "Failure-List-Item", Asn.Sabp.Failure_List_Item),
  (text% "Message-Identifier", Asn.Sabp.Message_Identifier),
  (text% "New-Serial-Number", Asn.Sabp.New_Serial_Number),
  (text% "Number-of-Broadcasts-Completed-List", Asn.Sabp.Number_of_Broadcasts_Completed_List),
  (text% "Number-of-Broadcasts-Completed-List-Item", Asn.Sabp.Number_of_Broadcasts_Completed_List_Item),
  (text% "Number-Of-Broadcasts-Completed-Info", Asn.Sabp.Number_Of_Broadcasts_Completed_Info),
  (text% "Number-of-Broadcasts-Requested", Asn.Sabp.Number_of_Broadcasts_Requested),
  (text% "Old-Serial-Number", Asn.Sabp.Old_Serial_Number),
  (text% "Paging-ETWS-Indicator", Asn.Sabp.Paging_ETWS_Indicator),
  (text% "Radio-Resource-Loading-List", Asn.Sabp.Radio_Resource_Loading_List),
  (text% "Radio-Resource-Loading-List-Item", Asn.Sabp.Radio_Resource_Loading_List_Item),
  (text% "Recovery-Indication", Asn.Sabp.Recovery_Indication),
  (text% "RepetitionNumber0", Asn.Sabp.RepetitionNumber0),
  (text% "RepetitionNumber1", Asn.Sabp.RepetitionNumber1),
  (text% "Repetition-Period", Asn.Sabp.Repetition_Period),
  (text% "Serial-Number", Asn.Sabp.Serial_Number),
  (text% "Service-Area-Identifier", Asn.Sabp.Service_Area_Identifier),
  (text% "Service-Areas-List", Asn.Sabp.Service_Areas_List),
  (text% "TypeOfError", Asn.Sabp.TypeOfError),
  (text% "WarningSecurityInfo", Asn.Sabp.WarningSecurityInfo),
  (text% "Warning-Type", Asn.Sabp.Warning_Type),
  (text% "Write-Replace", Asn.Sabp.Write_Replace),
  (text% "Write-Replace-Complete", Asn.Sabp.Write_Replace_Complete),
  (text% "Write-Replace-Failure", Asn.Sabp.Write_Replace_Failure),
  (text% "Kill", Asn.Sabp.Kill),
  (text% "Kill-Complete", Asn.Sabp.Kill_Complete),
  (text% "Kill-Failure", Asn.Sabp.Kill_Failure),
  (text% "Load-Query", Asn.Sabp.Load_Query),
  (text% "Load-Query-Complete", Asn.Sabp.Load_Query_Complete),
  (text% "Load-Query-Failure", Asn.Sabp.Load_Query_Failure),
  (text% "Message-Status-Query", Asn.Sabp.Message_Status_Query),
  (text% "Message-Status-Query-Complete", Asn.Sabp.Message_Status_Query_Complete),
  (text% "Message-Status-Query-Failure", Asn.Sabp.Message_Status_Query_Failure),
  (text% "Reset", Asn.Sabp.Reset),
  (text% "Reset-Complete", Asn.Sabp.Reset_Complete),
  (text% "Reset-Failure", Asn.Sabp.Reset_Failure),
  (text% "Restart", Asn.Sabp.Restart),
  (text% "Failure", Asn.Sabp.Failure),
  (text% "Error-Indication", Asn.Sabp.Error_Indication),
  (text% "SABP-PDU", Asn.Sabp.SABP_PDU),
  (text% "InitiatingMessage", Asn.Sabp.InitiatingMessage),
  (text% "SuccessfulOutcome", Asn.Sabp.SuccessfulOutcome),
  (text% "UnsuccessfulOutcome", Asn.Sabp.UnsuccessfulOutcome),
  (text% "IE", Asn.Sabp.IE)]

end Verif.Gen.Text
