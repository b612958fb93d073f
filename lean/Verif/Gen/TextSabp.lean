import Verif.Gen.TextLit
import Verif.Model.AsnToStruct

/-!
# Text of the SABP messages

The lines 1-447 of `/repo/asn1/sabp/SABP-PDU-Contents.asn` as they are, in parts, each with the tables of
elements that are expected for it.
-/

namespace Verif.Gen.Text
open Verif.AsnToStruct

/-- asn1/sabp/SABP-PDU-Contents.asn:1-69 -/
noncomputable def sabp0 : List Text := [
  text% "-- **************************************************************\n",
  text% "--\n",
  text% "-- PDU definitions for SABP.\n",
  text% "--\n",
  text% "-- **************************************************************\n",
  text% "SABP-PDU-Contents {\n",
  text% "itu-t (0) identified-organization (4) etsi (0) mobileDomain (0)\n",
  text% "umts-Access (20) modules (3) sabp (3) version1 (1) sabp-PDU-Contents (1) }\n",
  text% "DEFINITIONS AUTOMATIC TAGS ::= \n",
  text% "BEGIN\n",
  text% "-- **************************************************************\n",
  text% "--\n",
  text% "-- IE parameter types from other modules.\n",
  text% "--\n",
  text% "-- **************************************************************\n",
  text% "IMPORTS\n",
  text% " Broadcast-Message-Content,\n",
  text% " Category,\n",
  text% " Cause,\n",
  text% "Criticality-Diagnostics,\n",
  text% " Data-Coding-Scheme,\n",
  text% " Failure-List,\n",
  text% " Message-Identifier,\n",
  text% " New-Serial-Number,\n",
  text% " Number-of-Broadcasts-Completed-List,\n",
  text% " Number-of-Broadcasts-Requested,\n",
  text% " Old-Serial-Number,\n",
  text% " Paging-ETWS-Indicator,\n",
  text% " Radio-Resource-Loading-List,\n",
  text% " Recovery-Indication,\n",
  text% " Repetition-Period,\n",
  text% " Serial-Number,\n",
  text% " Service-Areas-List,\n",
  text% " WarningSecurityInfo,\n",
  text% " Warning-Type,\n",
  text% " Broadcast-Message-Content-Validity-Indicator\n",
  text% "FROM SABP-IEs\n",
  text% " ProtocolExtensionContainer{},\n",
  text% " ProtocolIE-Container{},\n",
  text% " SABP-PROTOCOL-EXTENSION,\n",
  text% " SABP-PROTOCOL-IES\n",
  text% "FROM SABP-Containers\n",
  text% " id-Broadcast-Message-Content,\n",
  text% " id-Category,\n",
  text% " id-Criticality-Diagnostics,\n",
  text% " id-Cause,\n",
  text% " id-Data-Coding-Scheme,\n",
  text% " id-Failure-List,\n",
  text% " id-Message-Identifier,\n",
  text% " id-New-Serial-Number,\n",
  text% " id-Number-of-Broadcasts-Completed-List,\n",
  text% " id-Number-of-Broadcasts-Requested,\n",
  text% " id-Old-Serial-Number,\n",
  text% " id-Paging-ETWS-Indicator,\n",
  text% " id-Radio-Resource-Loading-List,\n",
  text% " id-Recovery-Indication,\n",
  text% " id-Repetition-Period,\n",
  text% " id-Serial-Number, \n",
  text% " id-Service-Areas-List,\n",
  text% " id-WarningSecurityInfo,\n",
  text% " id-Warning-Type,\n",
  text% " id-Broadcast-Message-Content-Validity-Indicator\n",
  text% "FROM SABP-Constants;\n",
  text% "-- **************************************************************\n",
  text% "--\n",
  text% "-- Write-Replace\n",
  text% "--\n",
  text% "-- **************************************************************\n",
  text% "Write-Replace ::= SEQUENCE {\n"]

/-- The tables of `sabp0`. -/
noncomputable def sabp0Tables : List (Text × List Row) := []

/-- asn1/sabp/SABP-PDU-Contents.asn:70-101 -/
noncomputable def sabp1 : List Text := [
  text% " protocolIEs ProtocolIE-Container { {Write-Replace-IEs} },\n",
  text% " protocolExtensions ProtocolExtensionContainer { {Write-Replace-Extensions} } OPTIONAL,\n",
  text% " ...\n",
  text% "}\n",
  text% "Write-Replace-IEs SABP-PROTOCOL-IES ::= {\n",
  text% " { ID id-Message-Identifier CRITICALITY reject TYPE Message-Identifier PRESENCE mandatory } |\n",
  text% " { ID id-New-Serial-Number CRITICALITY reject TYPE New-Serial-Number PRESENCE mandatory } |\n",
  text% " { ID id-Old-Serial-Number CRITICALITY ignore TYPE Old-Serial-Number PRESENCE optional } |\n",
  text% " { ID id-Service-Areas-List CRITICALITY reject TYPE Service-Areas-List PRESENCE mandatory } |\n",
  text% " { ID id-Category CRITICALITY ignore TYPE Category PRESENCE optional } |\n",
  text% " { ID id-Repetition-Period CRITICALITY reject TYPE Repetition-Period PRESENCE mandatory } |\n",
  text% " { ID id-Number-of-Broadcasts-Requested\n",
  text% " CRITICALITY reject TYPE Number-of-Broadcasts-Requested PRESENCE mandatory } |\n",
  text% " { ID id-Data-Coding-Scheme CRITICALITY reject TYPE Data-Coding-Scheme PRESENCE mandatory } |\n",
  text% " { ID id-Broadcast-Message-Content\n",
  text% " CRITICALITY reject TYPE Broadcast-Message-Content PRESENCE mandatory },\n",
  text% " ...\n",
  text% "}\n",
  text% "Write-Replace-Extensions SABP-PROTOCOL-EXTENSION ::= {\n",
  text% " { ID id-WarningSecurityInfo CRITICALITY ignore EXTENSION WarningSecurityInfo PRESENCE optional } |\n",
  text% " { ID id-Paging-ETWS-Indicator CRITICALITY ignore EXTENSION Paging-ETWS-Indicator PRESENCE optional } |\n",
  text% " { ID id-Warning-Type CRITICALITY ignore EXTENSION Warning-Type PRESENCE optional } |\n",
  text% " { ID id-Broadcast-Message-Content-Validity-Indicator CRITICALITY ignore EXTENSION Broadcast-Message-Content-Validity-Indicator PRESENCE\n",
  text% "optional },\n",
  text% " ...\n",
  text% "}\n",
  text% "-- **************************************************************\n",
  text% "--\n",
  text% "-- Write-Replace-Complete\n",
  text% "--\n",
  text% "-- **************************************************************\n",
  text% "Write-Replace-Complete ::= SEQUENCE {\n"]

/-- The tables of `sabp1`. -/
noncomputable def sabp1Tables : List (Text × List Row) := [
  (text% "Write-Replace-IEs", [
    ⟨text% "id-Message-Identifier", text% "reject", text% "Message-Identifier", text% "mandatory"⟩,
    ⟨text% "id-New-Serial-Number", text% "reject", text% "New-Serial-Number", text% "mandatory"⟩,
    ⟨text% "id-Old-Serial-Number", text% "ignore", text% "Old-Serial-Number", text% "optional"⟩,
    ⟨text% "id-Service-Areas-List", text% "reject", text% "Service-Areas-List", text% "mandatory"⟩,
    ⟨text% "id-Category", text% "ignore", text% "Category", text% "optional"⟩,
    ⟨text% "id-Repetition-Period", text% "reject", text% "Repetition-Period", text% "mandatory"⟩,
    ⟨text% "id-Data-Coding-Scheme", text% "reject", text% "Data-Coding-Scheme", text% "mandatory"⟩])]

/-- asn1/sabp/SABP-PDU-Contents.asn:102-148 -/
noncomputable def sabp2 : List Text := [
  text% " protocolIEs ProtocolIE-Container { {Write-Replace-Complete-IEs} },\n",
  text% " protocolExtensions ProtocolExtensionContainer { {Write-Replace-Complete-Extensions} } OPTIONAL,\n",
  text% " ...\n",
  text% "} \n",
  text% "Write-Replace-Complete-IEs SABP-PROTOCOL-IES ::= {\n",
  text% " { ID id-Message-Identifier CRITICALITY reject TYPE Message-Identifier PRESENCE mandatory } |\n",
  text% " { ID id-New-Serial-Number CRITICALITY reject TYPE New-Serial-Number PRESENCE mandatory } |\n",
  text% " { ID id-Number-of-Broadcasts-Completed-List\n",
  text% " CRITICALITY reject TYPE Number-of-Broadcasts-Completed-List\n",
  text% " PRESENCE mandatory }|\n",
  text% "{ ID id-Criticality-Diagnostics\n",
  text% "CRITICALITY ignore TYPE Criticality-Diagnostics PRESENCE optional },\n",
  text% " ...\n",
  text% "}\n",
  text% "Write-Replace-Complete-Extensions SABP-PROTOCOL-EXTENSION ::= {\n",
  text% " ...\n",
  text% "}\n",
  text% "-- **************************************************************\n",
  text% "--\n",
  text% "-- Write-Replace-Failure\n",
  text% "--\n",
  text% "-- **************************************************************\n",
  text% "Write-Replace-Failure ::= SEQUENCE {\n",
  text% " protocolIEs ProtocolIE-Container { {Write-Replace-Failure-IEs} },\n",
  text% " protocolExtensions ProtocolExtensionContainer { {Write-Replace-Failure-Extensions} } OPTIONAL,\n",
  text% " ...\n",
  text% "}\n",
  text% "Write-Replace-Failure-IEs SABP-PROTOCOL-IES ::= {\n",
  text% " { ID id-Message-Identifier CRITICALITY reject TYPE Message-Identifier PRESENCE mandatory } |\n",
  text% " { ID id-New-Serial-Number CRITICALITY reject TYPE New-Serial-Number PRESENCE mandatory } |\n",
  text% " { ID id-Failure-List CRITICALITY reject TYPE Failure-List PRESENCE mandatory } |\n",
  text% " { ID id-Number-of-Broadcasts-Completed-List\n",
  text% " CRITICALITY ignore TYPE Number-of-Broadcasts-Completed-List\n",
  text% " PRESENCE optional } |\n",
  text% "{ ID id-Criticality-Diagnostics\n",
  text% "CRITICALITY ignore TYPE Criticality-Diagnostics PRESENCE optional },\n",
  text% " ...\n",
  text% "}\n",
  text% "Write-Replace-Failure-Extensions SABP-PROTOCOL-EXTENSION ::= {\n",
  text% " ...\n",
  text% "}\n",
  text% "-- **************************************************************\n",
  text% "--\n",
  text% "-- Kill\n",
  text% "--\n",
  text% "-- **************************************************************\n",
  text% "Kill ::= SEQUENCE {\n"]

/-- The tables of `sabp2`. -/
noncomputable def sabp2Tables : List (Text × List Row) := [
  (text% "Write-Replace-Complete-IEs", [
    ⟨text% "id-Message-Identifier", text% "reject", text% "Message-Identifier", text% "mandatory"⟩,
    ⟨text% "id-New-Serial-Number", text% "reject", text% "New-Serial-Number", text% "mandatory"⟩]),
  (text% "Write-Replace-Failure-IEs", [
    ⟨text% "id-Message-Identifier", text% "reject", text% "Message-Identifier", text% "mandatory"⟩,
    ⟨text% "id-New-Serial-Number", text% "reject", text% "New-Serial-Number", text% "mandatory"⟩,
    ⟨text% "id-Failure-List", text% "reject", text% "Failure-List", text% "mandatory"⟩])]

/-- asn1/sabp/SABP-PDU-Contents.asn:149-190 -/
noncomputable def sabp3 : List Text := [
  text% " protocolIEs ProtocolIE-Container {{Kill-IEs}},\n",
  text% " protocolExtensions ProtocolExtensionContainer {{Kill-Extensions}} OPTIONAL,\n",
  text% " ...\n",
  text% "} \n",
  text% "Kill-IEs SABP-PROTOCOL-IES ::= {\n",
  text% " { ID id-Message-Identifier CRITICALITY reject TYPE Message-Identifier PRESENCE mandatory } |\n",
  text% " { ID id-Old-Serial-Number CRITICALITY reject TYPE Old-Serial-Number PRESENCE mandatory } |\n",
  text% " { ID id-Service-Areas-List CRITICALITY reject TYPE Service-Areas-List PRESENCE mandatory } ,\n",
  text% " ...\n",
  text% "}\n",
  text% "Kill-Extensions SABP-PROTOCOL-EXTENSION ::= {\n",
  text% " ...\n",
  text% "}\n",
  text% "-- **************************************************************\n",
  text% "--\n",
  text% "-- Kill-Complete\n",
  text% "--\n",
  text% "-- **************************************************************\n",
  text% "Kill-Complete ::= SEQUENCE {\n",
  text% " protocolIEs ProtocolIE-Container {{Kill-Complete-IEs}},\n",
  text% " protocolExtensions ProtocolExtensionContainer {{Kill-Complete-Extensions}} OPTIONAL,\n",
  text% " ...\n",
  text% "}\n",
  text% "Kill-Complete-IEs SABP-PROTOCOL-IES ::= {\n",
  text% " { ID id-Message-Identifier CRITICALITY reject TYPE Message-Identifier PRESENCE mandatory } |\n",
  text% " { ID id-Old-Serial-Number CRITICALITY reject TYPE Old-Serial-Number PRESENCE mandatory } |\n",
  text% " { ID id-Number-of-Broadcasts-Completed-List\n",
  text% " CRITICALITY reject TYPE Number-of-Broadcasts-Completed-List\n",
  text% " PRESENCE mandatory }|\n",
  text% "{ ID id-Criticality-Diagnostics\n",
  text% "CRITICALITY ignore TYPE Criticality-Diagnostics PRESENCE optional },\n",
  text% " ...\n",
  text% "}\n",
  text% "Kill-Complete-Extensions SABP-PROTOCOL-EXTENSION ::= {\n",
  text% " ...\n",
  text% "}\n",
  text% "-- **************************************************************\n",
  text% "--\n",
  text% "-- Kill-Failure\n",
  text% "--\n",
  text% "-- **************************************************************\n",
  text% "Kill-Failure ::= SEQUENCE {\n"]

/-- The tables of `sabp3`. -/
noncomputable def sabp3Tables : List (Text × List Row) := [
  (text% "Kill-IEs", [
    ⟨text% "id-Message-Identifier", text% "reject", text% "Message-Identifier", text% "mandatory"⟩,
    ⟨text% "id-Old-Serial-Number", text% "reject", text% "Old-Serial-Number", text% "mandatory"⟩,
    ⟨text% "id-Service-Areas-List", text% "reject", text% "Service-Areas-List", text% "mandatory"⟩]),
  (text% "Kill-Complete-IEs", [
    ⟨text% "id-Message-Identifier", text% "reject", text% "Message-Identifier", text% "mandatory"⟩,
    ⟨text% "id-Old-Serial-Number", text% "reject", text% "Old-Serial-Number", text% "mandatory"⟩])]

/-- asn1/sabp/SABP-PDU-Contents.asn:191-252 -/
noncomputable def sabp4 : List Text := [
  text% " protocolIEs ProtocolIE-Container {{Kill-Failure-IEs}},\n",
  text% " protocolExtensions ProtocolExtensionContainer {{Kill-Failure-Extensions}} OPTIONAL,\n",
  text% " ...\n",
  text% "}\n",
  text% "Kill-Failure-IEs SABP-PROTOCOL-IES ::= {\n",
  text% " { ID id-Message-Identifier CRITICALITY reject TYPE Message-Identifier PRESENCE mandatory } |\n",
  text% " { ID id-Old-Serial-Number CRITICALITY reject TYPE Old-Serial-Number PRESENCE mandatory } |\n",
  text% " { ID id-Failure-List CRITICALITY reject TYPE Failure-List PRESENCE mandatory } | \n",
  text% " { ID id-Number-of-Broadcasts-Completed-List\n",
  text% " CRITICALITY ignore TYPE Number-of-Broadcasts-Completed-List\n",
  text% " PRESENCE optional } |\n",
  text% "{ ID id-Criticality-Diagnostics\n",
  text% "CRITICALITY ignore TYPE Criticality-Diagnostics PRESENCE optional },\n",
  text% " ...\n",
  text% "}\n",
  text% "Kill-Failure-Extensions SABP-PROTOCOL-EXTENSION ::= {\n",
  text% " ...\n",
  text% "}\n",
  text% "-- **************************************************************\n",
  text% "--\n",
  text% "-- Load-Query\n",
  text% "--\n",
  text% "-- **************************************************************\n",
  text% "Load-Query ::= SEQUENCE {\n",
  text% " protocolIEs ProtocolIE-Container {{Load-Query-IEs}},\n",
  text% " protocolExtensions ProtocolExtensionContainer {{Load-Query-Extensions}} OPTIONAL,\n",
  text% " ...\n",
  text% "}\n",
  text% "Load-Query-IEs SABP-PROTOCOL-IES ::= {\n",
  text% " { ID id-Service-Areas-List CRITICALITY reject TYPE Service-Areas-List PRESENCE mandatory } ,\n",
  text% " ...\n",
  text% "}\n",
  text% "Load-Query-Extensions SABP-PROTOCOL-EXTENSION ::= {\n",
  text% " ...\n",
  text% "}\n",
  text% "-- **************************************************************\n",
  text% "--\n",
  text% "-- Load-Query-Complete\n",
  text% "--\n",
  text% "-- **************************************************************\n",
  text% "Load-Query-Complete ::= SEQUENCE {\n",
  text% " protocolIEs ProtocolIE-Container {{Load-Query-Complete-IEs}},\n",
  text% " protocolExtensions ProtocolExtensionContainer {{Load-Query-Complete-Extensions}} OPTIONAL,\n",
  text% " ...\n",
  text% "}\n",
  text% "Load-Query-Complete-IEs SABP-PROTOCOL-IES ::= {\n",
  text% " { ID id-Radio-Resource-Loading-List\n",
  text% " CRITICALITY reject TYPE Radio-Resource-Loading-List\n",
  text% " PRESENCE mandatory } |\n",
  text% "{ ID id-Criticality-Diagnostics\n",
  text% "CRITICALITY ignore TYPE Criticality-Diagnostics PRESENCE optional },\n",
  text% " ...\n",
  text% "} \n",
  text% "Load-Query-Complete-Extensions SABP-PROTOCOL-EXTENSION ::= {\n",
  text% " ...\n",
  text% "}\n",
  text% "-- **************************************************************\n",
  text% "--\n",
  text% "-- Load-Query-Failure\n",
  text% "--\n",
  text% "-- **************************************************************\n",
  text% "Load-Query-Failure ::= SEQUENCE {\n"]

/-- The tables of `sabp4`. -/
noncomputable def sabp4Tables : List (Text × List Row) := [
  (text% "Kill-Failure-IEs", [
    ⟨text% "id-Message-Identifier", text% "reject", text% "Message-Identifier", text% "mandatory"⟩,
    ⟨text% "id-Old-Serial-Number", text% "reject", text% "Old-Serial-Number", text% "mandatory"⟩,
    ⟨text% "id-Failure-List", text% "reject", text% "Failure-List", text% "mandatory"⟩]),
  (text% "Load-Query-IEs", [
    ⟨text% "id-Service-Areas-List", text% "reject", text% "Service-Areas-List", text% "mandatory"⟩])]

/-- asn1/sabp/SABP-PDU-Contents.asn:253-293 -/
noncomputable def sabp5 : List Text := [
  text% " protocolIEs ProtocolIE-Container {{Load-Query-Failure-IEs}},\n",
  text% " protocolExtensions ProtocolExtensionContainer {{Load-Query-Failure-Extensions}} OPTIONAL,\n",
  text% " ...\n",
  text% "}\n",
  text% "Load-Query-Failure-IEs SABP-PROTOCOL-IES ::= {\n",
  text% " { ID id-Failure-List CRITICALITY reject TYPE Failure-List PRESENCE mandatory } |\n",
  text% " { ID id-Radio-Resource-Loading-List\n",
  text% " CRITICALITY ignore TYPE Radio-Resource-Loading-List\n",
  text% " PRESENCE optional } |\n",
  text% "{ ID id-Criticality-Diagnostics\n",
  text% "CRITICALITY ignore TYPE Criticality-Diagnostics PRESENCE optional },\n",
  text% " ...\n",
  text% "}\n",
  text% "Load-Query-Failure-Extensions SABP-PROTOCOL-EXTENSION ::= {\n",
  text% " ...\n",
  text% "}\n",
  text% "-- **************************************************************\n",
  text% "--\n",
  text% "-- Message-Status-Query\n",
  text% "--\n",
  text% "-- **************************************************************\n",
  text% "Message-Status-Query ::= SEQUENCE {\n",
  text% " protocolIEs ProtocolIE-Container {{Message-Status-Query-IEs}},\n",
  text% " protocolExtensions ProtocolExtensionContainer {{Message-Status-Query-Extensions}} OPTIONAL,\n",
  text% " ...\n",
  text% "}\n",
  text% "Message-Status-Query-IEs SABP-PROTOCOL-IES ::= {\n",
  text% " { ID id-Message-Identifier CRITICALITY reject TYPE Message-Identifier PRESENCE mandatory } |\n",
  text% " { ID id-Old-Serial-Number CRITICALITY reject TYPE Old-Serial-Number PRESENCE mandatory } |\n",
  text% " { ID id-Service-Areas-List CRITICALITY reject TYPE Service-Areas-List PRESENCE mandatory } ,\n",
  text% " ...\n",
  text% "}\n",
  text% "Message-Status-Query-Extensions SABP-PROTOCOL-EXTENSION ::= {\n",
  text% " ...\n",
  text% "} \n",
  text% "-- **************************************************************\n",
  text% "--\n",
  text% "-- Message-Status-Query-Complete\n",
  text% "--\n",
  text% "-- **************************************************************\n",
  text% "Message-Status-Query-Complete ::= SEQUENCE {\n"]

/-- The tables of `sabp5`. -/
noncomputable def sabp5Tables : List (Text × List Row) := [
  (text% "Load-Query-Failure-IEs", [
    ⟨text% "id-Failure-List", text% "reject", text% "Failure-List", text% "mandatory"⟩]),
  (text% "Message-Status-Query-IEs", [
    ⟨text% "id-Message-Identifier", text% "reject", text% "Message-Identifier", text% "mandatory"⟩,
    ⟨text% "id-Old-Serial-Number", text% "reject", text% "Old-Serial-Number", text% "mandatory"⟩,
    ⟨text% "id-Service-Areas-List", text% "reject", text% "Service-Areas-List", text% "mandatory"⟩])]

/-- asn1/sabp/SABP-PDU-Contents.asn:294-340 -/
noncomputable def sabp6 : List Text := [
  text% " protocolIEs ProtocolIE-Container {{Message-Status-Query-Complete-IEs}},\n",
  text% " protocolExtensions ProtocolExtensionContainer {{Message-Status-Query-Complete-Extensions}} OPTIONAL,\n",
  text% " ...\n",
  text% "}\n",
  text% "Message-Status-Query-Complete-IEs SABP-PROTOCOL-IES ::= {\n",
  text% " { ID id-Message-Identifier CRITICALITY reject TYPE Message-Identifier PRESENCE mandatory } |\n",
  text% " { ID id-Old-Serial-Number CRITICALITY reject TYPE Old-Serial-Number PRESENCE mandatory } |\n",
  text% " { ID id-Number-of-Broadcasts-Completed-List\n",
  text% " CRITICALITY reject TYPE Number-of-Broadcasts-Completed-List\n",
  text% " PRESENCE mandatory } |\n",
  text% "{ ID id-Criticality-Diagnostics\n",
  text% "CRITICALITY ignore TYPE Criticality-Diagnostics PRESENCE optional },\n",
  text% " ...\n",
  text% "}\n",
  text% "Message-Status-Query-Complete-Extensions SABP-PROTOCOL-EXTENSION ::= {\n",
  text% " ...\n",
  text% "}\n",
  text% "-- **************************************************************\n",
  text% "--\n",
  text% "-- Message-Status-Query-Failure\n",
  text% "--\n",
  text% "-- **************************************************************\n",
  text% "Message-Status-Query-Failure ::= SEQUENCE {\n",
  text% " protocolIEs ProtocolIE-Container {{Message-Status-Query-Failure-IEs}},\n",
  text% " protocolExtensions ProtocolExtensionContainer {{Message-Status-Query-Failure-Extensions}} OPTIONAL,\n",
  text% " ...\n",
  text% "}\n",
  text% "Message-Status-Query-Failure-IEs SABP-PROTOCOL-IES ::= {\n",
  text% " { ID id-Message-Identifier CRITICALITY reject TYPE Message-Identifier PRESENCE mandatory } |\n",
  text% " { ID id-Failure-List CRITICALITY reject TYPE Failure-List PRESENCE mandatory } |\n",
  text% " { ID id-Old-Serial-Number CRITICALITY reject TYPE Old-Serial-Number PRESENCE mandatory } |\n",
  text% " { ID id-Number-of-Broadcasts-Completed-List\n",
  text% " CRITICALITY ignore TYPE Number-of-Broadcasts-Completed-List\n",
  text% " PRESENCE optional } |\n",
  text% "{ ID id-Criticality-Diagnostics\n",
  text% "CRITICALITY ignore TYPE Criticality-Diagnostics PRESENCE optional },\n",
  text% " ...\n",
  text% "}\n",
  text% "Message-Status-Query-Failure-Extensions SABP-PROTOCOL-EXTENSION ::= {\n",
  text% " ...\n",
  text% "} \n",
  text% "-- **************************************************************\n",
  text% "--\n",
  text% "-- Reset\n",
  text% "--\n",
  text% "-- **************************************************************\n",
  text% "Reset ::= SEQUENCE {\n"]

/-- The tables of `sabp6`. -/
noncomputable def sabp6Tables : List (Text × List Row) := [
  (text% "Message-Status-Query-Complete-IEs", [
    ⟨text% "id-Message-Identifier", text% "reject", text% "Message-Identifier", text% "mandatory"⟩,
    ⟨text% "id-Old-Serial-Number", text% "reject", text% "Old-Serial-Number", text% "mandatory"⟩]),
  (text% "Message-Status-Query-Failure-IEs", [
    ⟨text% "id-Message-Identifier", text% "reject", text% "Message-Identifier", text% "mandatory"⟩,
    ⟨text% "id-Failure-List", text% "reject", text% "Failure-List", text% "mandatory"⟩,
    ⟨text% "id-Old-Serial-Number", text% "reject", text% "Old-Serial-Number", text% "mandatory"⟩])]

/-- asn1/sabp/SABP-PDU-Contents.asn:341-396 -/
noncomputable def sabp7 : List Text := [
  text% " protocolIEs ProtocolIE-Container {{Reset-IEs}},\n",
  text% " protocolExtensions ProtocolExtensionContainer {{Reset-Extensions}} OPTIONAL,\n",
  text% " ...\n",
  text% "}\n",
  text% "Reset-IEs SABP-PROTOCOL-IES ::= {\n",
  text% " { ID id-Service-Areas-List CRITICALITY reject TYPE Service-Areas-List PRESENCE mandatory } ,\n",
  text% " ...\n",
  text% "}\n",
  text% "Reset-Extensions SABP-PROTOCOL-EXTENSION ::= {\n",
  text% " ...\n",
  text% "}\n",
  text% "-- **************************************************************\n",
  text% "--\n",
  text% "-- Reset-Complete\n",
  text% "--\n",
  text% "-- **************************************************************\n",
  text% "Reset-Complete ::= SEQUENCE {\n",
  text% " protocolIEs ProtocolIE-Container {{Reset-Complete-IEs}},\n",
  text% " protocolExtensions ProtocolExtensionContainer {{Reset-Complete-Extensions}} OPTIONAL,\n",
  text% " ...\n",
  text% "}\n",
  text% "Reset-Complete-IEs SABP-PROTOCOL-IES ::= {\n",
  text% " { ID id-Service-Areas-List CRITICALITY reject TYPE Service-Areas-List PRESENCE mandatory } |\n",
  text% "{ ID id-Criticality-Diagnostics\n",
  text% "CRITICALITY ignore TYPE Criticality-Diagnostics PRESENCE optional },\n",
  text% " ...\n",
  text% "}\n",
  text% "Reset-Complete-Extensions SABP-PROTOCOL-EXTENSION ::= {\n",
  text% " ...\n",
  text% "}\n",
  text% "-- **************************************************************\n",
  text% "--\n",
  text% "-- Reset-Failure\n",
  text% "--\n",
  text% "-- **************************************************************\n",
  text% "Reset-Failure ::= SEQUENCE {\n",
  text% " protocolIEs ProtocolIE-Container {{Reset-Failure-IEs}},\n",
  text% " protocolExtensions ProtocolExtensionContainer {{Reset-Failure-Extensions}} OPTIONAL, \n",
  text% " ...\n",
  text% "}\n",
  text% "Reset-Failure-IEs SABP-PROTOCOL-IES ::= {\n",
  text% " { ID id-Failure-List CRITICALITY reject TYPE Failure-List PRESENCE mandatory } |\n",
  text% " { ID id-Service-Areas-List CRITICALITY reject TYPE Service-Areas-List PRESENCE optional } |\n",
  text% "{ ID id-Criticality-Diagnostics\n",
  text% "CRITICALITY ignore TYPE Criticality-Diagnostics PRESENCE optional } ,\n",
  text% " ...\n",
  text% "}\n",
  text% "Reset-Failure-Extensions SABP-PROTOCOL-EXTENSION ::= {\n",
  text% " ...\n",
  text% "}\n",
  text% "-- **************************************************************\n",
  text% "--\n",
  text% "-- Restart\n",
  text% "--\n",
  text% "-- **************************************************************\n",
  text% "Restart ::= SEQUENCE {\n"]

/-- The tables of `sabp7`. -/
noncomputable def sabp7Tables : List (Text × List Row) := [
  (text% "Reset-IEs", [
    ⟨text% "id-Service-Areas-List", text% "reject", text% "Service-Areas-List", text% "mandatory"⟩]),
  (text% "Reset-Complete-IEs", [
    ⟨text% "id-Service-Areas-List", text% "reject", text% "Service-Areas-List", text% "mandatory"⟩]),
  (text% "Reset-Failure-IEs", [
    ⟨text% "id-Failure-List", text% "reject", text% "Failure-List", text% "mandatory"⟩,
    ⟨text% "id-Service-Areas-List", text% "reject", text% "Service-Areas-List", text% "optional"⟩])]

/-- asn1/sabp/SABP-PDU-Contents.asn:397-447 -/
noncomputable def sabp8 : List Text := [
  text% " protocolIEs ProtocolIE-Container {{Restart-IEs}},\n",
  text% " protocolExtensions ProtocolExtensionContainer {{Restart-Extensions}} OPTIONAL,\n",
  text% " ...\n",
  text% "}\n",
  text% "Restart-IEs SABP-PROTOCOL-IES ::= {\n",
  text% " { ID id-Service-Areas-List CRITICALITY ignore TYPE Service-Areas-List PRESENCE mandatory } |\n",
  text% " { ID id-Recovery-Indication CRITICALITY ignore TYPE Recovery-Indication PRESENCE optional } ,\n",
  text% " ...\n",
  text% "}\n",
  text% "Restart-Extensions SABP-PROTOCOL-EXTENSION ::= {\n",
  text% " ...\n",
  text% "}\n",
  text% "-- **************************************************************\n",
  text% "--\n",
  text% "-- Failure\n",
  text% "--\n",
  text% "-- **************************************************************\n",
  text% "Failure ::= SEQUENCE {\n",
  text% " protocolIEs ProtocolIE-Container {{Failure-IEs}},\n",
  text% " protocolExtensions ProtocolExtensionContainer {{Failure-Extensions}} OPTIONAL,\n",
  text% " ...\n",
  text% "}\n",
  text% "Failure-IEs SABP-PROTOCOL-IES ::= {\n",
  text% " { ID id-Service-Areas-List CRITICALITY ignore TYPE Service-Areas-List PRESENCE mandatory } , \n",
  text% " ...\n",
  text% "} \n",
  text% "Failure-Extensions SABP-PROTOCOL-EXTENSION ::= {\n",
  text% " ...\n",
  text% "}\n",
  text% "-- **************************************************************\n",
  text% "--\n",
  text% "-- Error-Indication\n",
  text% "--\n",
  text% "-- **************************************************************\n",
  text% "Error-Indication ::= SEQUENCE {\n",
  text% " protocolIEs ProtocolIE-Container {{Error-Indication-IEs}},\n",
  text% " protocolExtensions ProtocolExtensionContainer {{Error-Indication-Extensions}} OPTIONAL,\n",
  text% " ...\n",
  text% "}\n",
  text% "Error-Indication-IEs SABP-PROTOCOL-IES ::= {\n",
  text% " { ID id-Message-Identifier CRITICALITY ignore TYPE Message-Identifier PRESENCE optional } |\n",
  text% " { ID id-Serial-Number CRITICALITY ignore TYPE Serial-Number PRESENCE optional } |\n",
  text% " { ID id-Cause CRITICALITY ignore TYPE Cause PRESENCE optional } |\n",
  text% "{ ID id-Criticality-Diagnostics\n",
  text% "CRITICALITY ignore TYPE Criticality-Diagnostics PRESENCE optional },\n",
  text% " ...\n",
  text% "}\n",
  text% "Error-Indication-Extensions SABP-PROTOCOL-EXTENSION ::= {\n",
  text% " ...\n",
  text% "}\n",
  text% "END \n"]

/-- The tables of `sabp8`. -/
noncomputable def sabp8Tables : List (Text × List Row) := [
  (text% "Restart-IEs", [
    ⟨text% "id-Service-Areas-List", text% "ignore", text% "Service-Areas-List", text% "mandatory"⟩,
    ⟨text% "id-Recovery-Indication", text% "ignore", text% "Recovery-Indication", text% "optional"⟩]),
  (text% "Error-Indication-IEs", [
    ⟨text% "id-Message-Identifier", text% "ignore", text% "Message-Identifier", text% "optional"⟩,
    ⟨text% "id-Serial-Number", text% "ignore", text% "Serial-Number", text% "optional"⟩,
    ⟨text% "id-Cause", text% "ignore", text% "Cause", text% "optional"⟩])]

end Verif.Gen.Text
