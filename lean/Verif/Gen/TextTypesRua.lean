import Verif.Gen.TextLit
import Verif.Model.AsnToStruct

/-!
# Text of the RUA types

The lines of `/repo/asn1/rua/RUA-CommonDataTypes.asn`, `-Containers.asn`, `-IEs.asn`, `-PDU-Descriptions.asn` as they are, and
those of `IE` in `-PDU.asn`, to which `-IEs.asn` refers.
-/

namespace Verif.Gen.Text
open Verif.AsnToStruct

/-- asn1/rua/RUA-CommonDataTypes.asn -/
noncomputable def ruaCommon : List Text := [
  text% "-- **************************************************************\n",
  text% "--\n",
  text% "-- Common definitions\n",
  text% "--\n",
  text% "-- **************************************************************\n",
  text% "\n",
  text% "RUA-CommonDataTypes {\n",
  text% "itu-t (0) identified-organization (4) etsi (0) mobileDomain (0) \n",
  text% "umts-Access (20) modules (3) rua(5) version1 (1) rUA-CommonDataTypes (3)  }\n",
  text% "\n",
  text% "DEFINITIONS AUTOMATIC TAGS ::= \n",
  text% "\n",
  text% "BEGIN\n",
  text% "\n",
  text% "-- **************************************************************\n",
  text% "--\n",
  text% "-- Extension constants\n",
  text% "--\n",
  text% "-- **************************************************************\n",
  text% "\n",
  text% "maxPrivateIEs \t\tINTEGER ::= 65535\n",
  text% "maxProtocolExtensions \tINTEGER ::= 65535\n",
  text% "maxProtocolIEs\t\tINTEGER ::= 65535\n",
  text% "\n",
  text% "-- **************************************************************\n",
  text% "--\n",
  text% "-- Common Data Types\n",
  text% "--\n",
  text% "-- **************************************************************\n",
  text% "Criticality\t\t::= ENUMERATED { reject, ignore, notify }\n",
  text% "\n",
  text% "Presence\t\t::= ENUMERATED { optional, conditional, mandatory }\n",
  text% "\n",
  text% "\n",
  text% "ProcedureCode\t\t::= INTEGER {\n",
  text% "\tid-Connect(1),\n",
  text% "\tid-DirectTransfer(2),\n",
  text% "\tid-Disconnect(3),\n",
  text% "\tid-ConnectionlessTransfer(4),\n",
  text% "\tid-ErrorIndication(5),\n",
  text% "\tid-privateMessage(6)\n",
  text% "} (0..255)\n",
  text% "\n",
  text% "PrivateIE-ID\t::= CHOICE {\n",
  text% "\tlocal\t\tINTEGER (0..65535),\n",
  text% "\tglobal\t\tOBJECT IDENTIFIER\n",
  text% "}\n",
  text% "\n",
  text% "ProtocolIE-ID\t\t::= INTEGER {\n",
  text% "\tid-Cause(1),\n",
  text% "\tid-CriticalityDiagnostics(2),\n",
  text% "\tid-Context-ID(3),\n",
  text% "\tid-RANAP-Message(4),\n",
  text% "\tid-IntraDomainNasNodeSelector(5),\n",
  text% "\tid-Establishment-Cause(6),\n",
  text% "\tid-CN-DomainIndicator(7),\n",
  text% "\tid-CSGMembershipStatus(9)\n",
  text% "} (0..maxProtocolIEs)\n",
  text% "\n",
  text% "TriggeringMessage\t::= ENUMERATED { initiating-message, successful-outcome, unsuccessful-outcome }\n",
  text% "\n",
  text% "END\n"]

/-- asn1/rua/RUA-Containers.asn -/
noncomputable def ruaContainers : List Text := [
  text% "-- **************************************************************\n",
  text% "--\n",
  text% "-- Container definitions\n",
  text% "--\n",
  text% "-- **************************************************************\n",
  text% "\n",
  text% "RUA-Containers {\n",
  text% "itu-t (0) identified-organization (4) etsi (0) mobileDomain (0) \n",
  text% "umts-Access (20) modules (3) rua(5) version1 (1) rUA-Containers (5) }\n",
  text% "\n",
  text% "DEFINITIONS AUTOMATIC TAGS ::= \n",
  text% "\n",
  text% "BEGIN\n",
  text% "\n",
  text% "-- **************************************************************\n",
  text% "--\n",
  text% "-- IE parameter types from other modules.\n",
  text% "--\n",
  text% "-- **************************************************************\n",
  text% "\n",
  text% "IMPORTS\n",
  text% "\tCriticality,\n",
  text% "\tPresence,\n",
  text% "\tPrivateIE-ID,\n",
  text% "\tProtocolIE-ID,\n",
  text% "\tmaxPrivateIEs,\n",
  text% "\tmaxProtocolExtensions,\n",
  text% "\tmaxProtocolIEs\n",
  text% "FROM RUA-CommonDataTypes;\n",
  text% "\n",
  text% "-- **************************************************************\n",
  text% "--\n",
  text% "-- Class Definition for Private IEs\n",
  text% "--\n",
  text% "-- **************************************************************\n",
  text% "\n",
  text% "RUA-PRIVATE-IES ::= CLASS {\n",
  text% "\t&id\t\t\tPrivateIE-ID,\n",
  text% "\t&criticality\t\tCriticality,\n",
  text% "\t&Value,\n",
  text% "\t&presence\t\tPresence\n",
  text% "}\n",
  text% "WITH SYNTAX {\n",
  text% "\tID\t\t\t&id\n",
  text% "\tCRITICALITY\t\t&criticality\n",
  text% "\tTYPE\t\t\t&Value\n",
  text% "\tPRESENCE\t\t&presence\n",
  text% "}\n",
  text% "\n",
  text% "\n",
  text% "-- **************************************************************\n",
  text% "--\n",
  text% "-- Class Definition for Protocol IEs\n",
  text% "--\n",
  text% "-- **************************************************************\n",
  text% "\n",
  text% "RUA-PROTOCOL-IES ::= CLASS {\n",
  text% "\t&id\t\t\tProtocolIE-ID\t\tUNIQUE,\n",
  text% "\t&criticality\t\tCriticality,\n",
  text% "\t&Value,\n",
  text% "\t&presence\t\tPresence\n",
  text% "}\n",
  text% "WITH SYNTAX {\n",
  text% "\tID\t\t\t&id\n",
  text% "\tCRITICALITY\t\t&criticality\n",
  text% "\tTYPE\t\t\t&Value\n",
  text% "\tPRESENCE\t\t&presence\n",
  text% "}\n",
  text% "\n",
  text% "-- **************************************************************\n",
  text% "--\n",
  text% "-- Class Definition for Protocol Extensions\n",
  text% "--\n",
  text% "-- **************************************************************\n",
  text% "\n",
  text% "RUA-PROTOCOL-EXTENSION ::= CLASS {\n",
  text% "\t&id\t\t\tProtocolIE-ID UNIQUE,\n",
  text% "\t&criticality\t\tCriticality,\n",
  text% "\t&Extension,\n",
  text% "\t&presence\t\tPresence\n",
  text% "}\n",
  text% "WITH SYNTAX {\n",
  text% "\tID\t\t\t&id\n",
  text% "\tCRITICALITY\t\t&criticality\n",
  text% "\tEXTENSION\t\t&Extension\n",
  text% "\tPRESENCE\t\t&presence\n",
  text% "}\n",
  text% "\n",
  text% "\n",
  text% "-- **************************************************************\n",
  text% "--\n",
  text% "-- Container for Protocol IEs\n",
  text% "--\n",
  text% "-- **************************************************************\n",
  text% "\n",
  text% "ProtocolIE-Container {RUA-PROTOCOL-IES : IEsSetParam} ::= \n",
  text% "\tSEQUENCE (SIZE (0..maxProtocolIEs)) OF\n",
  text% "\t\tProtocolIE-Field {{IEsSetParam}}\n",
  text% "\n",
  text% "ProtocolIE-Single-Container {RUA-PROTOCOL-IES : IEsSetParam} ::= \n",
  text% "\tProtocolIE-Field {{IEsSetParam}}\n",
  text% "\n",
  text% "ProtocolIE-Field {RUA-PROTOCOL-IES : IEsSetParam} ::= SEQUENCE {\n",
  text% "\tid\t\tRUA-PROTOCOL-IES.&id\t\t({IEsSetParam}),\n",
  text% "\tcriticality\tRUA-PROTOCOL-IES.&criticality\t({IEsSetParam}{@id}),\n",
  text% "\tvalue\t\tRUA-PROTOCOL-IES.&Value\t\t({IEsSetParam}{@id})\n",
  text% "}\n",
  text% "\n",
  text% "-- **************************************************************\n",
  text% "--\n",
  text% "-- Container Lists for Protocol IE Containers\n",
  text% "--\n",
  text% "-- **************************************************************\n",
  text% "\n",
  text% "ProtocolIE-ContainerList {INTEGER : lowerBound, INTEGER : upperBound, RUA-PROTOCOL-IES : IEsSetParam} ::=\n",
  text% "\tSEQUENCE (SIZE (lowerBound..upperBound)) OF\n",
  text% "\t\tProtocolIE-Container {{IEsSetParam}}\n",
  text% "\n",
  text% "-- **************************************************************\n",
  text% "--\n",
  text% "-- Container for Protocol Extensions\n",
  text% "--\n",
  text% "-- **************************************************************\n",
  text% "\n",
  text% "ProtocolExtensionContainer {RUA-PROTOCOL-EXTENSION : ExtensionSetParam} ::= \n",
  text% "\tSEQUENCE (SIZE (1..maxProtocolExtensions)) OF\n",
  text% "\t\tProtocolExtensionField {{ExtensionSetParam}}\n",
  text% "\n",
  text% "ProtocolExtensionField {RUA-PROTOCOL-EXTENSION : ExtensionSetParam} ::= SEQUENCE {\n",
  text% "\tid\t\tRUA-PROTOCOL-EXTENSION.&id\t\t({ExtensionSetParam}),\n",
  text% "\tcriticality\tRUA-PROTOCOL-EXTENSION.&criticality\t({ExtensionSetParam}{@id}),\n",
  text% "\textensionValue\tRUA-PROTOCOL-EXTENSION.&Extension\t({ExtensionSetParam}{@id})\n",
  text% "}\n",
  text% "\n",
  text% "\n",
  text% "-- **************************************************************\n",
  text% "--\n",
  text% "-- Container for Private IEs\n",
  text% "--\n",
  text% "-- **************************************************************\n",
  text% "\n",
  text% "PrivateIE-Container {RUA-PRIVATE-IES : IEsSetParam } ::= \n",
  text% "\tSEQUENCE (SIZE (1.. maxPrivateIEs)) OF\n",
  text% "\t\tPrivateIE-Field {{IEsSetParam}}\n",
  text% "\n",
  text% "PrivateIE-Field {RUA-PRIVATE-IES : IEsSetParam} ::= SEQUENCE {\n",
  text% "\tid\t\tRUA-PRIVATE-IES.&id\t\t\t({IEsSetParam}),\n",
  text% "\tcriticality\tRUA-PRIVATE-IES.&criticality\t\t({IEsSetParam}{@id}),\n",
  text% "\tvalue\t\tRUA-PRIVATE-IES.&Value\t\t\t({IEsSetParam}{@id})\n",
  text% "}\n",
  text% "\n",
  text% "\n",
  text% "END\n"]

/-- asn1/rua/RUA-IEs.asn -/
noncomputable def ruaIes : List Text := [
  text% "-- **************************************************************\n",
  text% "--\n",
  text% "-- Information Element Definitions\n",
  text% "--\n",
  text% "-- **************************************************************\n",
  text% "\n",
  text% "RUA-IEs {\n",
  text% "itu-t (0) identified-organization (4) etsi (0) mobileDomain (0) \n",
  text% "umts-Access (20) modules (3) rua(5) version1 (1) rUA-IEs (2) }\n",
  text% "\n",
  text% "DEFINITIONS AUTOMATIC TAGS ::= \n",
  text% "\n",
  text% "BEGIN\n",
  text% "\n",
  text% "IMPORTS\n",
  text% "\tmaxNrOfErrors\n",
  text% "FROM RUA-Constants\n",
  text% "\n",
  text% "\tmaxProtocolExtensions,\n",
  text% "\tCriticality,\n",
  text% "\tProcedureCode,\n",
  text% "\tProtocolIE-ID,\n",
  text% "\tTriggeringMessage\n",
  text% "FROM RUA-CommonDataTypes\n",
  text% "\n",
  text% "\tIE\n",
  text% "FROM RUA-PDU;\n",
  text% "\n",
  text% "IE-Extensions ::= SEQUENCE (SIZE (1..maxProtocolExtensions)) OF IE\n",
  text% "\n",
  text% "CN-DomainIndicator ::= ENUMERATED { \n",
  text% "\tcs-domain, \n",
  text% "\tps-domain \n",
  text% "}\n",
  text% "\n",
  text% "CSGMembershipStatus ::= ENUMERATED { \n",
  text% "\tmember, \n",
  text% "\tnon-member,\n",
  text% "\t...\n",
  text% "}\n",
  text% "\n",
  text% "Establishment-Cause ::= ENUMERATED {\n",
  text% "\temergency-call,\n",
  text% "\tnormal-call,\n",
  text% "\t... \n",
  text% "}\n",
  text% "\n",
  text% "\n",
  text% "\n",
  text% "\n",
  text% "\n",
  text% "Context-ID\t::=\t BIT STRING (SIZE(24))\n",
  text% "\n",
  text% "IntraDomainNasNodeSelector ::=\tSEQUENCE {\n",
  text% "\tversion\tCHOICE {\n",
  text% "\t\trelease99\tSEQUENCE {\n",
  text% "\t\t\tcn-Type\t\tCHOICE {\n",
  text% "\t\t\t\tgsm-Map-IDNNS\tGsm-map-IDNNS,\n",
  text% "\t\t\t\tansi-41-IDNNS\tAnsi-41-IDNNS\n",
  text% "\t\t\t}\n",
  text% "\t\t},\n",
  text% "\t\tlater\tSEQUENCE {\n",
  text% "\t\t\tfuturecoding\tBIT STRING (SIZE (15))\n",
  text% "\t\t}\n",
  text% "\t}\n",
  text% "}\n",
  text% "\n",
  text% "Gsm-map-IDNNS ::= SEQUENCE {\n",
  text% "\troutingbasis\tCHOICE {\n",
  text% "\t\tlocalPTMSI\tSEQUENCE {\n",
  text% "\t\t\troutingparameter\tRoutingParameter\n",
  text% "\t\t},\n",
  text% "\t\ttMSIofsamePLMN\tSEQUENCE {\n",
  text% "\t\t\troutingparameter\tRoutingParameter\n",
  text% "\t\t},\n",
  text% "\t\ttMSIofdifferentPLMN\tSEQUENCE {\n",
  text% "\t\t\troutingparameter\tRoutingParameter\n",
  text% "\t\t},\n",
  text% "\t\tiMSIresponsetopaging\tSEQUENCE {\n",
  text% "\t\t\troutingparameter\tRoutingParameter\n",
  text% "\t\t},\n",
  text% "\t\tiMSIcauseUEinitiatedEvent SEQUENCE {\n",
  text% "\t\t\troutingparameter\tRoutingParameter\n",
  text% "\t\t},\n",
  text% "\t\tiMEI\tSEQUENCE {\n",
  text% "\t\t\troutingparameter\tRoutingParameter\n",
  text% "\t\t},\n",
  text% "\t\tspare2\tSEQUENCE {\n",
  text% "\t\t\troutingparameter\tRoutingParameter\n",
  text% "\t\t},\n",
  text% "\t\tspare1\tSEQUENCE {\n",
  text% "\t\t\troutingparameter\tRoutingParameter\n",
  text% "\t\t}\n",
  text% "\t},\n",
  text% "\t-- dummy is not used in this version of the specification and\n",
  text% "\t-- it should be ignored by the receiver.\n",
  text% "\tdummy\tBOOLEAN\n",
  text% "}\n",
  text% "\n",
  text% "\n",
  text% "Ansi-41-IDNNS ::= BIT STRING (SIZE (14))\n",
  text% "\n",
  text% "RANAP-Message\t::= OCTET STRING\n",
  text% "\n",
  text% "RoutingParameter ::= BIT STRING (SIZE (10))\n",
  text% "\n",
  text% "\n",
  text% "-- **************************************************************\n",
  text% "--\n",
  text% "-- Cause IE\n",
  text% "--\n",
  text% "-- **************************************************************\n",
  text% "\n",
  text% "Cause ::= CHOICE {\n",
  text% "\tradioNetwork\tCauseRadioNetwork,\n",
  text% "\ttransport\tCauseTransport,\n",
  text% "\tprotocol\tCauseProtocol,\n",
  text% "\tmisc\t\tCauseMisc,\n",
  text% "\t...\n",
  text% "}\n",
  text% "CauseRadioNetwork ::= ENUMERATED {\n",
  text% "\tnormal,\n",
  text% "\tconnect-failed,\n",
  text% "\tnetwork-release,\n",
  text% "\tunspecified,\n",
  text% "\t...\n",
  text% "}\n",
  text% "CauseTransport ::= ENUMERATED {\n",
  text% "\ttransport-resource-unavailable,\n",
  text% "\tunspecified,\n",
  text% "\t...\n",
  text% "}\n",
  text% "\n",
  text% "CauseProtocol ::= ENUMERATED {\n",
  text% "\ttransfer-syntax-error,\n",
  text% "\tabstract-syntax-error-reject,\n",
  text% "\tabstract-syntax-error-ignore-and-notify,\n",
  text% "\tmessage-not-compatible-with-receiver-state,\n",
  text% "\tsemantic-error,\n",
  text% "\tunspecified,\n",
  text% "\tabstract-syntax-error-falsely-constructed-message,\n",
  text% "\t...\n",
  text% "}\n",
  text% "\n",
  text% "CauseMisc ::= ENUMERATED {\n",
  text% "\tprocessing-overload,\n",
  text% "\thardware-failure,\n",
  text% "\to-and-m-intervention,\n",
  text% "\tunspecified,\n",
  text% "\t...\n",
  text% "}\n",
  text% "\n",
  text% "-- **************************************************************\n",
  text% "--\n",
  text% "-- CriticalityDiagnostics\n",
  text% "--\n",
  text% "-- **************************************************************\n",
  text% "\n",
  text% "CriticalityDiagnostics ::= SEQUENCE {\n",
  text% "\tprocedureCode\t\t\tProcedureCode\tOPTIONAL,\n",
  text% "\ttriggeringMessage\t\tTriggeringMessage\tOPTIONAL,\n",
  text% "\tprocedureCriticality\t\tCriticality\tOPTIONAL,\n",
  text% "\tiEsCriticalityDiagnostics\tCriticalityDiagnostics-IE-List\tOPTIONAL,\n",
  text% "\tiE-Extensions\t\t\tIE-Extensions\tOPTIONAL,\n",
  text% "\t...\n",
  text% "}\n",
  text% "\n",
  text% "CriticalityDiagnostics-IE-List ::= SEQUENCE (SIZE (1..maxNrOfErrors)) OF CriticalityDiagnostics-IE-List-Value\n",
  text% "CriticalityDiagnostics-IE-List-Value ::=\n",
  text% "\tSEQUENCE {\n",
  text% "\t\tiECriticality\t\t\tCriticality,\n",
  text% "\t\tiE-ID\t\t\t\tProtocolIE-ID,\n",
  text% "\t\ttypeOfError\t\t\tTypeOfError,\n",
  text% "\t\tiE-Extensions\t\t\tIE-Extensions\tOPTIONAL,\n",
  text% "\t\t...\n",
  text% "\t}\n",
  text% "\n",
  text% "TypeOfError ::= ENUMERATED {\n",
  text% "\tnot-understood,\n",
  text% "\tmissing,\n",
  text% "\t...\n",
  text% "}\n",
  text% "\n",
  text% "END\n"]

/-- asn1/rua/RUA-PDU-Descriptions.asn -/
noncomputable def ruaDescriptions : List Text := [
  text% "-- **************************************************************\n",
  text% "--\n",
  text% "-- Elementary Procedure definitions\n",
  text% "--\n",
  text% "-- **************************************************************\n",
  text% "\n",
  text% "RUA-PDU-Descriptions  { \n",
  text% "itu-t (0) identified-organization (4) etsi (0) mobileDomain (0) \n",
  text% "umts-Access (20) modules (3) rua(5) version1 (1) rUA-PDU-Descriptions (0)}\n",
  text% "\n",
  text% "DEFINITIONS AUTOMATIC TAGS ::= \n",
  text% "\n",
  text% "BEGIN\n",
  text% "\n",
  text% "-- **************************************************************\n",
  text% "--\n",
  text% "-- IE parameter types from other modules.\n",
  text% "--\n",
  text% "-- **************************************************************\n",
  text% "\n",
  text% "IMPORTS\n",
  text% "\tCriticality,\n",
  text% "\tProcedureCode\n",
  text% "FROM RUA-CommonDataTypes\n",
  text% "\tConnect,\n",
  text% "\tDirectTransfer,\n",
  text% "\tDisconnect,\n",
  text% "\tConnectionlessTransfer,\t\t\n",
  text% "\tErrorIndication,\n",
  text% "\tPrivateMessage\n",
  text% "\n",
  text% "\n",
  text% "FROM RUA-PDU-Contents\n",
  text% "\tid-Connect,\n",
  text% "\tid-DirectTransfer,\n",
  text% "\tid-Disconnect,\n",
  text% "\tid-ConnectionlessTransfer,\n",
  text% "\tid-ErrorIndication,\n",
  text% "\tid-privateMessage\n",
  text% "FROM RUA-Constants;\n",
  text% "\n",
  text% "-- **************************************************************\n",
  text% "--\n",
  text% "-- Interface Elementary Procedure Class\n",
  text% "--\n",
  text% "-- **************************************************************\n",
  text% "\n",
  text% "RUA-ELEMENTARY-PROCEDURE ::= CLASS {\n",
  text% "\t&InitiatingMessage\t\t,\n",
  text% "\t&SuccessfulOutcome\t\tOPTIONAL,\n",
  text% "\t&UnsuccessfulOutcome\t\tOPTIONAL,\n",
  text% "\t&procedureCode\t\t\tProcedureCode \tUNIQUE,\n",
  text% "\t&criticality\t\t\tCriticality \tDEFAULT ignore\n",
  text% "}\n",
  text% "\n",
  text% "WITH SYNTAX {\n",
  text% "\tINITIATING MESSAGE\t\t&InitiatingMessage\n",
  text% "\t[SUCCESSFUL OUTCOME\t\t&SuccessfulOutcome]\n",
  text% "\t[UNSUCCESSFUL OUTCOME\t\t&UnsuccessfulOutcome]\n",
  text% "\tPROCEDURE CODE\t\t\t&procedureCode\n",
  text% "\t[CRITICALITY\t\t\t&criticality]\n",
  text% "}\n",
  text% "\n",
  text% "-- **************************************************************\n",
  text% "--\n",
  text% "-- Interface PDU definitions\n",
  text% "--\n",
  text% "-- **************************************************************\n",
  text% "\n",
  text% "RUA-PDU ::= CHOICE {\n",
  text% "\tinitiatingMessage\t\tInitiatingMessage,\n",
  text% "\tsuccessfulOutcome\t\tSuccessfulOutcome,\n",
  text% "\tunsuccessfulOutcome\t\tUnsuccessfulOutcome,\n",
  text% "\t...\n",
  text% "}\n",
  text% "\n",
  text% "\n",
  text% "InitiatingMessage ::= SEQUENCE {\n",
  text% "\tprocedureCode\tRUA-ELEMENTARY-PROCEDURE.&procedureCode\t\t({RUA-ELEMENTARY-PROCEDURES}),\n",
  text% "\tcriticality\tRUA-ELEMENTARY-PROCEDURE.&criticality\t\t({RUA-ELEMENTARY-PROCEDURES}{@procedureCode}),\n",
  text% "\tvalue\t\tRUA-ELEMENTARY-PROCEDURE.&InitiatingMessage\t({RUA-ELEMENTARY-PROCEDURES}{@procedureCode})\n",
  text% "}\n",
  text% "\n",
  text% "SuccessfulOutcome ::= SEQUENCE {\n",
  text% "\tprocedureCode\tRUA-ELEMENTARY-PROCEDURE.&procedureCode\t\t({RUA-ELEMENTARY-PROCEDURES}),\n",
  text% "\tcriticality\tRUA-ELEMENTARY-PROCEDURE.&criticality\t\t({RUA-ELEMENTARY-PROCEDURES}{@procedureCode}),\n",
  text% "\tvalue\t\tRUA-ELEMENTARY-PROCEDURE.&SuccessfulOutcome\t({RUA-ELEMENTARY-PROCEDURES}{@procedureCode})\n",
  text% "}\n",
  text% "\n",
  text% "UnsuccessfulOutcome ::= SEQUENCE {\n",
  text% "\tprocedureCode\tRUA-ELEMENTARY-PROCEDURE.&procedureCode\t\t\t({RUA-ELEMENTARY-PROCEDURES}),\n",
  text% "\tcriticality\tRUA-ELEMENTARY-PROCEDURE.&criticality\t\t\t({RUA-ELEMENTARY-PROCEDURES}{@procedureCode}),\n",
  text% "\tvalue\t\tRUA-ELEMENTARY-PROCEDURE.&UnsuccessfulOutcome\t({RUA-ELEMENTARY-PROCEDURES}{@procedureCode})\n",
  text% "}\n",
  text% "\n",
  text% "-- **************************************************************\n",
  text% "--\n",
  text% "-- Interface Elementary Procedure List\n",
  text% "--\n",
  text% "-- **************************************************************\n",
  text% "\n",
  text% "RUA-ELEMENTARY-PROCEDURES RUA-ELEMENTARY-PROCEDURE ::= {\n",
  text% "\tRUA-ELEMENTARY-PROCEDURES-CLASS-1\t|\n",
  text% "\tRUA-ELEMENTARY-PROCEDURES-CLASS-2\t,\n",
  text% "\t...\n",
  text% "}\n",
  text% "\n",
  text% "RUA-ELEMENTARY-PROCEDURES-CLASS-1 RUA-ELEMENTARY-PROCEDURE ::= {\n",
  text% "\t...\n",
  text% "}\n",
  text% "\n",
  text% "\n",
  text% "RUA-ELEMENTARY-PROCEDURES-CLASS-2 RUA-ELEMENTARY-PROCEDURE ::= {\n",
  text% "\tconnectionRequest |\n",
  text% "\tdirectTransfer |\n",
  text% "\tdisconnectRequest |\n",
  text% "\tconnectionlessTransfer |\t\n",
  text% "\terrorIndication |\n",
  text% "\tprivateMessage,\n",
  text% "\t...\n",
  text% "}\n",
  text% "\n",
  text% "-- **************************************************************\n",
  text% "--\n",
  text% "-- Interface Elementary Procedures\n",
  text% "--\n",
  text% "-- **************************************************************\n",
  text% "\n",
  text% "\n",
  text% "connectionRequest RUA-ELEMENTARY-PROCEDURE ::= {\n",
  text% "\tINITIATING MESSAGE\t\tConnect\n",
  text% "\tPROCEDURE CODE\t\t\tid-Connect\n",
  text% "\tCRITICALITY\t\t\tignore\n",
  text% "}\n",
  text% "\n",
  text% "directTransfer RUA-ELEMENTARY-PROCEDURE ::= {\n",
  text% "\tINITIATING MESSAGE\t\tDirectTransfer\n",
  text% "\tPROCEDURE CODE\t\t\tid-DirectTransfer\n",
  text% "\tCRITICALITY\t\t\tignore\n",
  text% "}\n",
  text% "\n",
  text% "disconnectRequest RUA-ELEMENTARY-PROCEDURE ::= {\n",
  text% "\tINITIATING MESSAGE\t\tDisconnect\n",
  text% "\tPROCEDURE CODE\t\t\tid-Disconnect\n",
  text% "\tCRITICALITY\t\t\tignore\n",
  text% "}\n",
  text% "connectionlessTransfer RUA-ELEMENTARY-PROCEDURE ::= {\n",
  text% "\tINITIATING MESSAGE\t\tConnectionlessTransfer\n",
  text% "\tPROCEDURE CODE\t\t\tid-ConnectionlessTransfer\n",
  text% "\tCRITICALITY\t\t\tignore\n",
  text% "}\n",
  text% "\n",
  text% "errorIndication RUA-ELEMENTARY-PROCEDURE ::= {\n",
  text% "\tINITIATING MESSAGE\t\tErrorIndication\n",
  text% "\tPROCEDURE CODE\t\t\tid-ErrorIndication\n",
  text% "\tCRITICALITY\t\t\tignore\n",
  text% "}\n",
  text% "\n",
  text% "privateMessage RUA-ELEMENTARY-PROCEDURE ::= {\n",
  text% "\tINITIATING MESSAGE\t\tPrivateMessage\n",
  text% "\tPROCEDURE CODE\t\t\tid-privateMessage\n",
  text% "\tCRITICALITY\t\t\tignore\n",
  text% "}\n",
  text% "\n",
  text% "\n",
  text% "END\n"]

/-- asn1/rua/RUA-PDU.asn:74-78 -/
noncomputable def ruaIe : List Text := [
  text% "IE ::= SEQUENCE {\n",
  text% "    id ProtocolIE-ID,\n",
  text% "    criticality Criticality,\n",
  text% "    value ANY\n",
  text% "}\n"]

end Verif.Gen.Text
