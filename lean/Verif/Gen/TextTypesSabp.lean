import Verif.Gen.TextLit
import Verif.Model.AsnToStruct

/-!
# Text of the SABP types

The lines of `/repo/asn1/sabp/SABP-CommonDataTypes.asn`, `-Containers.asn`, `-IEs.asn`, `-PDU-Descriptions.asn` as they are, and
those of `IE` in `-PDU.asn`, to which `-IEs.asn` refers.
-/

namespace Verif.Gen.Text
open Verif.AsnToStruct

/-- asn1/sabp/SABP-CommonDataTypes.asn -/
noncomputable def sabpCommon : List Text := [
  text% "--\n",
  text% "-- Common definitions\n",
  text% "--\n",
  text% "-- **************************************************************\n",
  text% "SABP-CommonDataTypes {\n",
  text% "itu-t (0) identified-organization (4) etsi (0) mobileDomain (0)\n",
  text% "umts-Access (20) modules (3) sabp (3) version1 (1) sabp-CommonDataTypes (3) }\n",
  text% "DEFINITIONS AUTOMATIC TAGS ::=\n",
  text% "BEGIN\n",
  text% "Criticality ::= ENUMERATED { reject, ignore, notify }\n",
  text% "Presence ::= ENUMERATED { optional, conditional, mandatory }\n",
  text% "\n",
  text% "ProcedureCode ::= INTEGER {\n",
  text% "\tid-Write-Replace(0),\n",
  text% "\tid-Kill(1),\n",
  text% "\tid-Load-Status-Enquiry(2),\n",
  text% "\tid-Message-Status-Query(3),\n",
  text% "\tid-Restart-Indication(4),\n",
  text% "\tid-Reset(5),\n",
  text% "\tid-Failure-Indication(6),\n",
  text% "\tid-Error-Indication(7)\n",
  text% "} (0..255)\n",
  text% "ProtocolExtensionID ::= INTEGER (0..65535)\n",
  text% "ProtocolIE-ID ::= INTEGER {\n",
  text% "\tid-Broadcast-Message-Content(0),\n",
  text% "\tid-Category(1),\n",
  text% "\tid-Cause(2),\n",
  text% "\tid-Data-Coding-Scheme(4),\n",
  text% "\tid-Failure-List(5),\n",
  text% "\tid-Message-Identifier(6),\n",
  text% "\tid-New-Serial-Number(7),\n",
  text% "\tid-Number-of-Broadcasts-Completed-List(8),\n",
  text% "\tid-Number-of-Broadcasts-Requested(9),\n",
  text% "\tid-Old-Serial-Number(10),\n",
  text% "\tid-Radio-Resource-Loading-List(11),\n",
  text% "\tid-Recovery-Indication(12),\n",
  text% "\tid-Repetition-Period(13),\n",
  text% "\tid-Serial-Number(14),\n",
  text% "\tid-Service-Areas-List(15),\n",
  text% "\tid-MessageStructure(16),\n",
  text% "\tid-TypeOfError(17),\n",
  text% "\tid-Paging-ETWS-Indicator(18),\n",
  text% "\tid-Warning-Type(19),\n",
  text% "\tid-WarningSecurityInfo(20),\n",
  text% "\tid-Broadcast-Message-Content-Validity-Indicator(21)\n",
  text% "} (0..65535)\n",
  text% "\n",
  text% "TriggeringMessage ::= ENUMERATED {initiating-message, successful-outcome, unsuccessful-outcome, outcome}\n",
  text% "END \n"]

/-- asn1/sabp/SABP-Containers.asn -/
noncomputable def sabpContainers : List Text := [
  text% "-- **************************************************************\n",
  text% "--\n",
  text% "-- Container definitions\n",
  text% "--\n",
  text% "-- **************************************************************\n",
  text% "SABP-Containers {\n",
  text% "itu-t (0) identified-organization (4) etsi (0) mobileDomain (0)\n",
  text% "umts-Access (20) modules (3) sabp (3) version1 (1) sabp-Containers (5) }\n",
  text% "DEFINITIONS AUTOMATIC TAGS ::=\n",
  text% "BEGIN\n",
  text% "-- **************************************************************\n",
  text% "--\n",
  text% "-- IE parameter types from other modules.\n",
  text% "--\n",
  text% "-- **************************************************************\n",
  text% "IMPORTS\n",
  text% " Criticality,\n",
  text% " Presence,\n",
  text% " ProtocolExtensionID,\n",
  text% " ProtocolIE-ID\n",
  text% "FROM SABP-CommonDataTypes\n",
  text% " maxProtocolExtensions,\n",
  text% " maxProtocolIEs\n",
  text% "FROM SABP-Constants;\n",
  text% "-- **************************************************************\n",
  text% "--\n",
  text% "-- Class Definition for Protocol IEs\n",
  text% "--\n",
  text% "-- **************************************************************\n",
  text% "SABP-PROTOCOL-IES ::= CLASS {\n",
  text% " &id ProtocolIE-ID UNIQUE,\n",
  text% " &criticality Criticality DEFAULT ignore,\n",
  text% " &Value,\n",
  text% " &presence Presence\n",
  text% "}\n",
  text% "WITH SYNTAX {\n",
  text% " ID &id\n",
  text% " CRITICALITY &criticality\n",
  text% " TYPE &Value\n",
  text% " PRESENCE &presence\n",
  text% "} \n",
  text% "\n",
  text% "-- **************************************************************\n",
  text% "--\n",
  text% "-- Class Definition for Protocol Extensions\n",
  text% "--\n",
  text% "-- **************************************************************\n",
  text% "SABP-PROTOCOL-EXTENSION ::= CLASS {\n",
  text% " &id ProtocolExtensionID UNIQUE,\n",
  text% " &criticality Criticality DEFAULT ignore,\n",
  text% " &Extension,\n",
  text% " &presence Presence\n",
  text% "}\n",
  text% "WITH SYNTAX {\n",
  text% " ID &id\n",
  text% " CRITICALITY &criticality\n",
  text% " EXTENSION &Extension\n",
  text% " PRESENCE &presence\n",
  text% "}\n",
  text% "-- **************************************************************\n",
  text% "--\n",
  text% "-- Container for Protocol IEs\n",
  text% "--\n",
  text% "-- **************************************************************\n",
  text% "ProtocolIE-Container {SABP-PROTOCOL-IES : IEsSetParam} ::=\n",
  text% " SEQUENCE (SIZE (0..maxProtocolIEs)) OF\n",
  text% " ProtocolIE-Field {{IEsSetParam}}\n",
  text% "ProtocolIE-Field {SABP-PROTOCOL-IES : IEsSetParam} ::= SEQUENCE {\n",
  text% " id SABP-PROTOCOL-IES.&id ({IEsSetParam}),\n",
  text% " criticality SABP-PROTOCOL-IES.&criticality ({IEsSetParam}{@id}),\n",
  text% " value SABP-PROTOCOL-IES.&Value ({IEsSetParam}{@id})\n",
  text% "}\n",
  text% "-- **************************************************************\n",
  text% "--\n",
  text% "-- Container Lists for Protocol IE Containers\n",
  text% "--\n",
  text% "-- **************************************************************\n",
  text% "ProtocolIE-ContainerList {INTEGER : lowerBound, INTEGER : upperBound, SABP-PROTOCOL-IES : IEsSetParam} ::=\n",
  text% " SEQUENCE (SIZE (lowerBound..upperBound)) OF\n",
  text% " ProtocolIE-Container {{IEsSetParam}}\n",
  text% "-- **************************************************************\n",
  text% "--\n",
  text% "-- Container for Protocol Extensions\n",
  text% "--\n",
  text% "-- **************************************************************\n",
  text% "ProtocolExtensionContainer {SABP-PROTOCOL-EXTENSION : ExtensionSetParam} ::=\n",
  text% " SEQUENCE (SIZE (1..maxProtocolExtensions)) OF\n",
  text% " ProtocolExtensionField {{ExtensionSetParam}} \n",
  text% "ProtocolExtensionField {SABP-PROTOCOL-EXTENSION : ExtensionSetParam} ::= SEQUENCE {\n",
  text% " id SABP-PROTOCOL-EXTENSION.&id ({ExtensionSetParam}),\n",
  text% " criticality SABP-PROTOCOL-EXTENSION.&criticality ({ExtensionSetParam}{@id}),\n",
  text% " extensionValue SABP-PROTOCOL-EXTENSION.&Extension ({ExtensionSetParam}{@id})\n",
  text% "}\n",
  text% "END \n"]

/-- asn1/sabp/SABP-IEs.asn -/
noncomputable def sabpIes : List Text := [
  text% "-- **************************************************************\n",
  text% "--\n",
  text% "-- Information Element Definitions\n",
  text% "--\n",
  text% "-- **************************************************************\n",
  text% "SABP-IEs {\n",
  text% "itu-t (0) identified-organization (4) etsi (0) mobileDomain (0)\n",
  text% "umts-Access (20) modules (3) sabp (3) version1 (1) sabp-IEs (2) }\n",
  text% "DEFINITIONS AUTOMATIC TAGS ::=\n",
  text% "BEGIN\n",
  text% "IMPORTS\n",
  text% " maxNrOfErrors,\n",
  text% " maxnoofSAI,\n",
  text% " maxNrOfLevels,\n",
  text% " maxProtocolExtensions,\n",
  text% " id-MessageStructure,\n",
  text% " id-TypeOfError\n",
  text% "FROM SABP-Constants\n",
  text% " Criticality,\n",
  text% " ProcedureCode,\n",
  text% " TriggeringMessage,\n",
  text% " ProtocolIE-ID\n",
  text% "FROM SABP-CommonDataTypes\n",
  text% " IE\n",
  text% "FROM SABP-PDU;\n",
  text% "\n",
  text% "IE-Extensions ::= SEQUENCE (SIZE (1..maxProtocolExtensions)) OF IE\n",
  text% "\n",
  text% "-- A\n",
  text% "Available-Bandwidth ::= INTEGER (0..20480)\n",
  text% "-- bits/sec\n",
  text% "-- B\n",
  text% "Broadcast-Message-Content ::= BIT STRING (SIZE (1..9968))-- This IE is sent from the CN to the RNC containing user information i.e.\n",
  text% "-- the message.\n",
  text% "Broadcast-Message-Content-Validity-Indicator ::= ENUMERATED {\n",
  text% " broadcast-Message-Content-not-valid,\n",
  text% " ...\n",
  text% "}\n",
  text% "-- C\n",
  text% "Category ::= ENUMERATED {\n",
  text% " high-priority,\n",
  text% " background-priority,\n",
  text% " normal-priority,\n",
  text% " default-priority,\n",
  text% " ...\n",
  text% "}\n",
  text% "Cause ::= INTEGER {\n",
  text% " parameter-not-recognised (0),\n",
  text% " parameter-value-invalid (1),\n",
  text% " valid-CN-message-not-identified (2),\n",
  text% " service-area-identity-not-valid (3),\n",
  text% " unrecognised-message (4),\n",
  text% " missing-mandatory-element (5),\n",
  text% " rNC-capacity-exceeded (6),\n",
  text% " rNC-memory-exceeded (7),\n",
  text% " service-area-broadcast-not-supported (8), \n",
  text% " service-area-broadcast-not-operational (9),\n",
  text% " message-reference-already-used (10),\n",
  text% " unspecifed-error (11),\n",
  text% " transfer-syntax-error (12),\n",
  text% " semantic-error (13),\n",
  text% " message-not-compatible-with-receiver-state (14),\n",
  text% " abstract-syntax-error-reject (15),\n",
  text% " abstract-syntax-error-ignore-and-notify (16),\n",
  text% " abstract-syntax-error-falsely-constructed-message (17)\n",
  text% "} (0..255)\n",
  text% "Criticality-Diagnostics ::= SEQUENCE {\n",
  text% " procedureCode ProcedureCode OPTIONAL,\n",
  text% " triggeringMessage TriggeringMessage OPTIONAL,\n",
  text% " procedureCriticality Criticality OPTIONAL,\n",
  text% " iEsCriticalityDiagnostics CriticalityDiagnostics-IE-List OPTIONAL,\n",
  text% " iE-Extensions IE-Extensions OPTIONAL,\n",
  text% " ...\n",
  text% "}\n",
  text% "CriticalityDiagnostics-ExtIEs SABP-PROTOCOL-EXTENSION ::= {\n",
  text% " ...\n",
  text% "}\n",
  text% "CriticalityDiagnostics-IE-List ::= SEQUENCE (SIZE (1..maxNrOfErrors)) OF CriticalityDiagnostics-IE-List-Value\n",
  text% "CriticalityDiagnostics-IE-List-Value ::=\n",
  text% " SEQUENCE {\n",
  text% " iECriticality Criticality,\n",
  text% " iE-ID ProtocolIE-ID,\n",
  text% " repetitionNumber RepetitionNumber0 OPTIONAL,\n",
  text% " iE-Extensions IE-Extensions OPTIONAL,\n",
  text% " ...\n",
  text% " }\n",
  text% "CriticalityDiagnostics-IE-List-ExtIEs SABP-PROTOCOL-EXTENSION ::= {\n",
  text% " -- { ID id-MessageStructure CRITICALITY ignore EXTENSION MessageStructure PRESENCE optional }|\n",
  text% " -- { ID id-TypeOfError CRITICALITY ignore EXTENSION TypeOfError PRESENCE mandatory },\n",
  text% " ...\n",
  text% "}\n",
  text% "MessageStructure ::= SEQUENCE (SIZE (1..maxNrOfLevels)) OF MessageStructure-Value\n",
  text% "MessageStructure-Value ::=\n",
  text% " SEQUENCE {\n",
  text% " iE-ID ProtocolIE-ID,\n",
  text% " repetitionNumber RepetitionNumber1 OPTIONAL,\n",
  text% " iE-Extensions IE-Extensions OPTIONAL,\n",
  text% " ...\n",
  text% " }\n",
  text% "MessageStructure-ExtIEs SABP-PROTOCOL-EXTENSION ::= {\n",
  text% " ...\n",
  text% "} \n",
  text% "-- D\n",
  text% "Data-Coding-Scheme ::= BIT STRING (SIZE (8))\n",
  text% "-- E\n",
  text% "-- F\n",
  text% "Failure-List ::= SEQUENCE (SIZE (1..maxnoofSAI)) OF Failure-List-Item\n",
  text% "Failure-List-Item ::= SEQUENCE {\n",
  text% " service-area-identifier Service-Area-Identifier,\n",
  text% " cause Cause,\n",
  text% " iE-Extensions IE-Extensions OPTIONAL,\n",
  text% " ...\n",
  text% "}\n",
  text% "FailureListItemIE-ExtIEs SABP-PROTOCOL-EXTENSION ::= {\n",
  text% "...\n",
  text% "}\n",
  text% "-- G\n",
  text% "-- H\n",
  text% "-- I\n",
  text% "-- J\n",
  text% "-- K\n",
  text% "-- L\n",
  text% "-- M\n",
  text% "Message-Identifier ::= BIT STRING (SIZE (16))\n",
  text% "-- N\n",
  text% "New-Serial-Number ::= Serial-Number\n",
  text% "Number-of-Broadcasts-Completed-List ::= SEQUENCE (SIZE (1..maxnoofSAI)) OF\n",
  text% " Number-of-Broadcasts-Completed-List-Item\n",
  text% "Number-of-Broadcasts-Completed-List-Item ::= SEQUENCE {\n",
  text% " service-area-identifier Service-Area-Identifier,\n",
  text% " number-of-broadcasts-completed INTEGER (0..65535),\n",
  text% " number-of-broadcasts-completed-info Number-Of-Broadcasts-Completed-Info OPTIONAL,\n",
  text% " iE-Extensions IE-Extensions OPTIONAL,\n",
  text% " ...\n",
  text% "}\n",
  text% "NoOfBroadcastsCompletedListItemIE-ExtIEs SABP-PROTOCOL-EXTENSION ::= {\n",
  text% "... \n",
  text% "}\n",
  text% "Number-Of-Broadcasts-Completed-Info ::= ENUMERATED {\n",
  text% " overflow,\n",
  text% " unknown,\n",
  text% " ...\n",
  text% "}\n",
  text% "Number-of-Broadcasts-Requested ::= INTEGER {\n",
  text% " broadcast-indefinitely (0)\n",
  text% "} (0..65535)\n",
  text% "-- O\n",
  text% "Old-Serial-Number ::= Serial-Number\n",
  text% "-- P\n",
  text% "Paging-ETWS-Indicator ::= ENUMERATED {\n",
  text% " paging,\n",
  text% " ...\n",
  text% "}\n",
  text% "-- Q\n",
  text% "-- R\n",
  text% "Radio-Resource-Loading-List ::= SEQUENCE (SIZE (1..maxnoofSAI)) OF\n",
  text% " Radio-Resource-Loading-List-Item\n",
  text% "Radio-Resource-Loading-List-Item ::= SEQUENCE {\n",
  text% " service-area-identifier Service-Area-Identifier,\n",
  text% " available-bandwidth Available-Bandwidth,\n",
  text% " iE-Extensions IE-Extensions OPTIONAL,\n",
  text% " ...\n",
  text% "}\n",
  text% "RadioResourceLoadingListItemIE-ExtIEs SABP-PROTOCOL-EXTENSION ::= {\n",
  text% "...\n",
  text% "}\n",
  text% "Recovery-Indication ::= ENUMERATED {\n",
  text% " data-lost,\n",
  text% " data-available\n",
  text% "}\n",
  text% "RepetitionNumber0 ::= INTEGER(0..255)\n",
  text% "RepetitionNumber1 ::= INTEGER(1..256)\n",
  text% "Repetition-Period ::= INTEGER (1..4096)\n",
  text% "-- Each unit represents a repetition of one second to a maximum of\n",
  text% "-- once per 4096 seconds (~1 hour). \n",
  text% "-- S\n",
  text% "Serial-Number ::= BIT STRING (SIZE (16))\n",
  text% "Service-Area-Identifier ::= SEQUENCE {\n",
  text% " pLMNidentity OCTET STRING (SIZE (3))\n",
  text% " -- Digits 0 to 9, two digits per octet. --\n",
  text% " -- Each octet encoded 0000 to 1001. --\n",
  text% " -- 1111 used as filler --\n",
  text% " -- Bit 4 to 1 of octet n encoding digit 2n-1. --\n",
  text% " -- Bit 8 to 5 of octet n encoding digit 2n. --\n",
  text% " -- The PLMN identity consists of 3 digits from MCC --\n",
  text% " -- followed by either a filler plus 2 digits --\n",
  text% " -- from MNC (in case of 2 digit MNC) or 3 digits --\n",
  text% " -- from MNC (in case of 3 digit MNC). -- ,\n",
  text% " lac OCTET STRING (SIZE (2))\n",
  text% " -- 0000 and FFFE not allowed -- ,\n",
  text% " sac OCTET STRING (SIZE (2))\n",
  text% "}\n",
  text% "-- **TODO** The IE type for these parameters is not known as yet\n",
  text% "Service-Areas-List ::= SEQUENCE (SIZE (1..maxnoofSAI)) OF Service-Area-Identifier\n",
  text% "-- T\n",
  text% "TypeOfError ::= ENUMERATED {\n",
  text% " not-understood,\n",
  text% " missing,\n",
  text% " ...\n",
  text% "}\n",
  text% "-- U\n",
  text% "-- V\n",
  text% "-- W\n",
  text% "WarningSecurityInfo ::= OCTET STRING (SIZE (50))\n",
  text% "Warning-Type ::= OCTET STRING (SIZE(2))\n",
  text% "-- X\n",
  text% "-- Y\n",
  text% "END \n"]

/-- asn1/sabp/SABP-PDU-Descriptions.asn -/
noncomputable def sabpDescriptions : List Text := [
  text% "-- **************************************************************\n",
  text% "--\n",
  text% "-- Elementary Procedure definitions\n",
  text% "--\n",
  text% "-- **************************************************************\n",
  text% "SABP-PDU-Descriptions {\n",
  text% "itu-t (0) identified-organization (4) etsi (0) mobileDomain (0)\n",
  text% "umts-Access (20) modules (3) sabp (3) version1 (1) sabp-PDU-Descriptions (0)}\n",
  text% "DEFINITIONS AUTOMATIC TAGS ::=\n",
  text% "BEGIN\n",
  text% "-- **************************************************************\n",
  text% "--\n",
  text% "-- IE parameter types from other modules.\n",
  text% "--\n",
  text% "-- **************************************************************\n",
  text% "IMPORTS\n",
  text% " Criticality,\n",
  text% " ProcedureCode\n",
  text% "FROM SABP-CommonDataTypes\n",
  text% " Error-Indication,\n",
  text% " Failure,\n",
  text% " Kill,\n",
  text% " Kill-Complete,\n",
  text% " Kill-Failure,\n",
  text% " Load-Query,\n",
  text% " Load-Query-Complete,\n",
  text% " Load-Query-Failure,\n",
  text% " Reset,\n",
  text% " Reset-Complete,\n",
  text% " Reset-Failure,\n",
  text% " Restart,\n",
  text% " Message-Status-Query,\n",
  text% " Message-Status-Query-Complete,\n",
  text% " Message-Status-Query-Failure,\n",
  text% " Write-Replace,\n",
  text% " Write-Replace-Complete,\n",
  text% " Write-Replace-Failure\n",
  text% "FROM SABP-PDU-Contents\n",
  text% " id-Error-Indication,\n",
  text% " id-Failure-Indication,\n",
  text% " id-Kill,\n",
  text% " id-Reset, \n",
  text% " id-Restart-Indication,\n",
  text% " id-Load-Status-Enquiry,\n",
  text% " id-Message-Status-Query,\n",
  text% " id-Write-Replace\n",
  text% "FROM SABP-Constants;\n",
  text% "-- **************************************************************\n",
  text% "--\n",
  text% "-- Interface Elementary Procedure Class\n",
  text% "--\n",
  text% "-- **************************************************************\n",
  text% "SABP-ELEMENTARY-PROCEDURE ::= CLASS {\n",
  text% " &InitiatingMessage ,\n",
  text% " &SuccessfulOutcome OPTIONAL,\n",
  text% " &UnsuccessfulOutcome OPTIONAL,\n",
  text% " &procedureCode ProcedureCode UNIQUE,\n",
  text% " &criticality Criticality DEFAULT ignore\n",
  text% "}\n",
  text% "WITH SYNTAX {\n",
  text% " INITIATING MESSAGE &InitiatingMessage\n",
  text% " [SUCCESSFUL OUTCOME\n",
  text% "&SuccessfulOutcome]\n",
  text% " [UNSUCCESSFUL OUTCOME &UnsuccessfulOutcome]\n",
  text% " PROCEDURE CODE &procedureCode\n",
  text% " [CRITICALITY &criticality]\n",
  text% "}\n",
  text% "-- **************************************************************\n",
  text% "--\n",
  text% "-- Interface PDU Definition\n",
  text% "--\n",
  text% "-- **************************************************************\n",
  text% "SABP-PDU ::= CHOICE {\n",
  text% " initiatingMessage InitiatingMessage,\n",
  text% " successfulOutcome SuccessfulOutcome,\n",
  text% " unsuccessfulOutcome UnsuccessfulOutcome,\n",
  text% " ...\n",
  text% "}\n",
  text% "InitiatingMessage ::= SEQUENCE {\n",
  text% " procedureCode SABP-ELEMENTARY-PROCEDURE.&procedureCode ({SABP-ELEMENTARY-PROCEDURES}),\n",
  text% " criticality SABP-ELEMENTARY-PROCEDURE.&criticality ({SABP-ELEMENTARY-PROCEDURES}{@procedureCode}),\n",
  text% " value SABP-ELEMENTARY-PROCEDURE.&InitiatingMessage ({SABP-ELEMENTARY-PROCEDURES}{@procedureCode})\n",
  text% "}\n",
  text% "SuccessfulOutcome ::= SEQUENCE {\n",
  text% " procedureCode SABP-ELEMENTARY-PROCEDURE.&procedureCode ({SABP-ELEMENTARY-PROCEDURES}),\n",
  text% " criticality SABP-ELEMENTARY-PROCEDURE.&criticality ({SABP-ELEMENTARY-PROCEDURES}{@procedureCode}),\n",
  text% " value SABP-ELEMENTARY-PROCEDURE.&SuccessfulOutcome ({SABP-ELEMENTARY-PROCEDURES}{@procedureCode})\n",
  text% "} \n",
  text% "UnsuccessfulOutcome ::= SEQUENCE {\n",
  text% " procedureCode SABP-ELEMENTARY-PROCEDURE.&procedureCode ({SABP-ELEMENTARY-PROCEDURES}),\n",
  text% " criticality SABP-ELEMENTARY-PROCEDURE.&criticality ({SABP-ELEMENTARY-PROCEDURES}{@procedureCode}),\n",
  text% " value SABP-ELEMENTARY-PROCEDURE.&UnsuccessfulOutcome ({SABP-ELEMENTARY-PROCEDURES}{@procedureCode})\n",
  text% "}\n",
  text% "-- **************************************************************\n",
  text% "--\n",
  text% "-- Interface Elementary Procedure List\n",
  text% "--\n",
  text% "-- **************************************************************\n",
  text% "SABP-ELEMENTARY-PROCEDURES SABP-ELEMENTARY-PROCEDURE ::= {\n",
  text% " SABP-ELEMENTARY-PROCEDURES-CLASS-1 |\n",
  text% " SABP-ELEMENTARY-PROCEDURES-CLASS-2 ,\n",
  text% " ...\n",
  text% "}\n",
  text% "SABP-ELEMENTARY-PROCEDURES-CLASS-1 SABP-ELEMENTARY-PROCEDURE ::= {\n",
  text% " write-Replace |\n",
  text% " kill |\n",
  text% " load-Status-Enquiry |\n",
  text% " message-Status-Query |\n",
  text% " reset ,\n",
  text% " ...\n",
  text% "}\n",
  text% "SABP-ELEMENTARY-PROCEDURES-CLASS-2 SABP-ELEMENTARY-PROCEDURE ::= {\n",
  text% " restart-Indication |\n",
  text% " failure-Indication |\n",
  text% " error-Indication ,\n",
  text% " ...\n",
  text% "}\n",
  text% "write-Replace SABP-ELEMENTARY-PROCEDURE ::= {\n",
  text% " INITIATING MESSAGE Write-Replace\n",
  text% " SUCCESSFUL OUTCOME Write-Replace-Complete\n",
  text% " UNSUCCESSFUL OUTCOME Write-Replace-Failure\n",
  text% " PROCEDURE CODE id-Write-Replace\n",
  text% " CRITICALITY reject\n",
  text% "}\n",
  text% "kill SABP-ELEMENTARY-PROCEDURE ::= {\n",
  text% " INITIATING MESSAGE Kill\n",
  text% " SUCCESSFUL OUTCOME Kill-Complete\n",
  text% " UNSUCCESSFUL OUTCOME Kill-Failure\n",
  text% " PROCEDURE CODE id-Kill\n",
  text% " CRITICALITY reject\n",
  text% "}\n",
  text% "load-Status-Enquiry SABP-ELEMENTARY-PROCEDURE ::= {\n",
  text% " INITIATING MESSAGE Load-Query\n",
  text% " SUCCESSFUL OUTCOME Load-Query-Complete\n",
  text% " UNSUCCESSFUL OUTCOME Load-Query-Failure \n",
  text% " PROCEDURE CODE id-Load-Status-Enquiry\n",
  text% " CRITICALITY reject\n",
  text% "}\n",
  text% "message-Status-Query SABP-ELEMENTARY-PROCEDURE ::= {\n",
  text% " INITIATING MESSAGE Message-Status-Query\n",
  text% " SUCCESSFUL OUTCOME Message-Status-Query-Complete\n",
  text% " UNSUCCESSFUL OUTCOME Message-Status-Query-Failure\n",
  text% " PROCEDURE CODE id-Message-Status-Query\n",
  text% " CRITICALITY reject\n",
  text% "}\n",
  text% "reset SABP-ELEMENTARY-PROCEDURE ::= {\n",
  text% " INITIATING MESSAGE Reset\n",
  text% " SUCCESSFUL OUTCOME Reset-Complete\n",
  text% " UNSUCCESSFUL OUTCOME Reset-Failure\n",
  text% " PROCEDURE CODE id-Reset\n",
  text% " CRITICALITY reject\n",
  text% "}\n",
  text% "restart-Indication SABP-ELEMENTARY-PROCEDURE ::= {\n",
  text% " INITIATING MESSAGE Restart\n",
  text% " PROCEDURE CODE id-Restart-Indication\n",
  text% " CRITICALITY ignore\n",
  text% "}\n",
  text% "failure-Indication SABP-ELEMENTARY-PROCEDURE ::= {\n",
  text% " INITIATING MESSAGE Failure\n",
  text% " PROCEDURE CODE id-Failure-Indication\n",
  text% " CRITICALITY ignore\n",
  text% "}\n",
  text% "error-Indication SABP-ELEMENTARY-PROCEDURE ::= {\n",
  text% " INITIATING MESSAGE Error-Indication\n",
  text% " PROCEDURE CODE id-Error-Indication\n",
  text% " CRITICALITY ignore\n",
  text% "}\n",
  text% "END\n"]

/-- asn1/sabp/SABP-PDU.asn:135-139 -/
noncomputable def sabpIe : List Text := [
  text% "IE ::= SEQUENCE {\n",
  text% "    id ProtocolIE-ID,\n",
  text% "    criticality Criticality,\n",
  text% "    value ANY\n",
  text% "}\n"]

end Verif.Gen.Text
