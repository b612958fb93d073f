import Verif.Gen.TextLit
import Verif.Model.AsnToStruct

/-!
# Text of the RUA messages

The lines 1-195 of `/repo/asn1/rua/RUA-PDU-Contents.asn` as they are, in parts, each with the tables of
elements that are expected for it.
-/

namespace Verif.Gen.Text
open Verif.AsnToStruct

/-- asn1/rua/RUA-PDU-Contents.asn:1-89 -/
noncomputable def rua0 : List Text := [
  text% "-- **************************************************************\n",
  text% "--\n",
  text% "-- PDU definitions for RUA.\n",
  text% "--\n",
  text% "-- **************************************************************\n",
  text% "\n",
  text% "RUA-PDU-Contents {\n",
  text% "itu-t (0) identified-organization (4) etsi (0) mobileDomain (0) \n",
  text% "umts-Access (20) modules (3) rua(5) version1 (1) rUA-PDU-Contents (1) }\n",
  text% "\n",
  text% "DEFINITIONS AUTOMATIC TAGS ::= \n",
  text% "\n",
  text% "BEGIN\n",
  text% "\n",
  text% "-- **************************************************************\n",
  text% "--\n",
  text% "-- IE parameter types from other modules.\n",
  text% "--\n",
  text% "-- **************************************************************\n",
  text% "\n",
  text% "IMPORTS\n",
  text% "\tCause,\n",
  text% "\tCriticalityDiagnostics,\n",
  text% "\tContext-ID,\n",
  text% "\tCN-DomainIndicator, \n",
  text% "\tCSGMembershipStatus,\n",
  text% "\tIntraDomainNasNodeSelector,\n",
  text% "\tRANAP-Message,\n",
  text% "\tEstablishment-Cause\n",
  text% "\n",
  text% "FROM RUA-IEs\n",
  text% "\n",
  text% "\n",
  text% "\tProtocolExtensionContainer{},\n",
  text% "\tProtocolIE-ContainerList{},\n",
  text% "\tProtocolIE-Container{},\n",
  text% "\tProtocolIE-Single-Container{},\n",
  text% "\tPrivateIE-Container{},\n",
  text% "\tRUA-PRIVATE-IES,\n",
  text% "\tRUA-PROTOCOL-EXTENSION,\n",
  text% "\tRUA-PROTOCOL-IES\n",
  text% "FROM RUA-Containers\n",
  text% "\n",
  text% "\tid-Cause,\n",
  text% "\tid-CriticalityDiagnostics,\n",
  text% "\tid-Context-ID,\n",
  text% "\tid-CN-DomainIndicator, \n",
  text% " \tid-CSGMembershipStatus,\n",
  text% "\tid-RANAP-Message,\n",
  text% "\tid-IntraDomainNasNodeSelector,\n",
  text% "\tid-Establishment-Cause\n",
  text% "\n",
  text% "FROM RUA-Constants;\n",
  text% "\n",
  text% "\n",
  text% "-- **************************************************************\n",
  text% "--\n",
  text% "-- Connect\n",
  text% "--\n",
  text% "-- **************************************************************\n",
  text% "\n",
  text% "Connect ::= SEQUENCE {\n",
  text% "\tprotocolIEs\t\tProtocolIE-Container       { {ConnectIEs} },\n",
  text% "\tprotocolExtensions\tProtocolExtensionContainer { {ConnectExtensions} } \tOPTIONAL,\n",
  text% "\t...\n",
  text% "}\n",
  text% "\n",
  text% "ConnectIEs RUA-PROTOCOL-IES ::= {\n",
  text% "\t{ ID id-CN-DomainIndicator\t\tCRITICALITY reject\tTYPE CN-DomainIndicator\t\t\tPRESENCE mandatory } |\n",
  text% "\t{ ID id-Context-ID\t\t\tCRITICALITY reject\tTYPE Context-ID\t\t\t\tPRESENCE mandatory } |\n",
  text% "\t{ ID id-IntraDomainNasNodeSelector \tCRITICALITY ignore\tTYPE IntraDomainNasNodeSelector\t\tPRESENCE optional } |\n",
  text% "\t{ ID id-Establishment-Cause\t\tCRITICALITY reject\tTYPE Establishment-Cause\t\tPRESENCE mandatory } |\n",
  text% "\t{ ID id-RANAP-Message\t\t\tCRITICALITY reject\tTYPE RANAP-Message\t\t\tPRESENCE mandatory },\n",
  text% "\t...\n",
  text% "}\n",
  text% "\n",
  text% "ConnectExtensions RUA-PROTOCOL-EXTENSION ::= {\n",
  text% "\t{ ID id-CSGMembershipStatus\t\tCRITICALITY ignore\tEXTENSION CSGMembershipStatus\t\tPRESENCE optional }, \n",
  text% "\t...\n",
  text% "}\n",
  text% "\n",
  text% "\n",
  text% "-- **************************************************************\n",
  text% "--\n",
  text% "-- Direct Transfer\n",
  text% "--\n",
  text% "-- **************************************************************\n",
  text% "\n",
  text% "DirectTransfer ::= SEQUENCE {\n"]

/-- The tables of `rua0`. -/
noncomputable def rua0Tables : List (Text × List Row) := [
  (text% "ConnectIEs", [
    ⟨text% "id-CN-DomainIndicator", text% "reject", text% "CN-DomainIndicator", text% "mandatory"⟩,
    ⟨text% "id-Context-ID", text% "reject", text% "Context-ID", text% "mandatory"⟩,
    ⟨text% "id-IntraDomainNasNodeSelector", text% "ignore", text% "IntraDomainNasNodeSelector", text% "optional"⟩,
    ⟨text% "id-Establishment-Cause", text% "reject", text% "Establishment-Cause", text% "mandatory"⟩,
    ⟨text% "id-RANAP-Message", text% "reject", text% "RANAP-Message", text% "mandatory"⟩])]

/-- asn1/rua/RUA-PDU-Contents.asn:90-139 -/
noncomputable def rua1 : List Text := [
  text% "\tprotocolIEs\t\tProtocolIE-Container       { {DirectTransferIEs} },\n",
  text% "\tprotocolExtensions\tProtocolExtensionContainer { {DirectTransferExtensions} } \tOPTIONAL,\n",
  text% "\t...\n",
  text% "}\n",
  text% "\n",
  text% "DirectTransferIEs RUA-PROTOCOL-IES ::= {\n",
  text% "\t{ ID id-CN-DomainIndicator\tCRITICALITY reject\tTYPE CN-DomainIndicator\t\tPRESENCE mandatory } |\n",
  text% "\t{ ID id-Context-ID\t\tCRITICALITY reject\tTYPE Context-ID\t\t\tPRESENCE mandatory } |\n",
  text% "\t{ ID id-RANAP-Message\t\tCRITICALITY reject\tTYPE RANAP-Message\t\tPRESENCE mandatory },\n",
  text% "\t...\n",
  text% "}\n",
  text% "\n",
  text% "DirectTransferExtensions RUA-PROTOCOL-EXTENSION ::= {\n",
  text% "\t...\n",
  text% "}\n",
  text% "\n",
  text% "\n",
  text% "\n",
  text% "-- **************************************************************\n",
  text% "--\n",
  text% "-- Disconnect\n",
  text% "--\n",
  text% "-- **************************************************************\n",
  text% "\n",
  text% "Disconnect ::= SEQUENCE {\n",
  text% "\tprotocolIEs\t\tProtocolIE-Container       { {DisconnectIEs} },\n",
  text% "\tprotocolExtensions\tProtocolExtensionContainer { {DisconnectExtensions} } \tOPTIONAL,\n",
  text% "\t...\n",
  text% "}\n",
  text% "\n",
  text% "DisconnectIEs RUA-PROTOCOL-IES ::= {\n",
  text% "\t{ ID id-CN-DomainIndicator\tCRITICALITY reject\tTYPE CN-DomainIndicator\tPRESENCE mandatory } |\n",
  text% "\t{ ID id-Context-ID\t\tCRITICALITY reject\tTYPE Context-ID\t\tPRESENCE mandatory } |\n",
  text% "\t{ ID id-Cause\t\t\tCRITICALITY reject\tTYPE Cause\t\tPRESENCE mandatory } |\n",
  text% "\t{ ID id-RANAP-Message\t\tCRITICALITY reject\tTYPE RANAP-Message\tPRESENCE conditional },\n",
  text% "\t-- RANAP message shall be included if Cause value is \"normal\"\n",
  text% "\t...\n",
  text% "}\n",
  text% "\n",
  text% "DisconnectExtensions RUA-PROTOCOL-EXTENSION ::= {\n",
  text% "\t...\n",
  text% "}\n",
  text% "\n",
  text% "-- **************************************************************\n",
  text% "--\n",
  text% "-- Connectionless Transfer\n",
  text% "--\n",
  text% "-- **************************************************************\n",
  text% "\n",
  text% "ConnectionlessTransfer ::= SEQUENCE {\n"]

/-- The tables of `rua1`. -/
noncomputable def rua1Tables : List (Text × List Row) := [
  (text% "DirectTransferIEs", [
    ⟨text% "id-CN-DomainIndicator", text% "reject", text% "CN-DomainIndicator", text% "mandatory"⟩,
    ⟨text% "id-Context-ID", text% "reject", text% "Context-ID", text% "mandatory"⟩,
    ⟨text% "id-RANAP-Message", text% "reject", text% "RANAP-Message", text% "mandatory"⟩]),
  (text% "DisconnectIEs", [
    ⟨text% "id-CN-DomainIndicator", text% "reject", text% "CN-DomainIndicator", text% "mandatory"⟩,
    ⟨text% "id-Context-ID", text% "reject", text% "Context-ID", text% "mandatory"⟩,
    ⟨text% "id-Cause", text% "reject", text% "Cause", text% "mandatory"⟩,
    ⟨text% "id-RANAP-Message", text% "reject", text% "RANAP-Message", text% "conditional"⟩])]

/-- asn1/rua/RUA-PDU-Contents.asn:140-195 -/
noncomputable def rua2 : List Text := [
  text% "\tprotocolIEs\t\tProtocolIE-Container       { {ConnectionlessTransferIEs} },\n",
  text% "\tprotocolExtensions\tProtocolExtensionContainer { {ConnectionlessTransferExtensions} } \tOPTIONAL,\n",
  text% "\t...\n",
  text% "}\n",
  text% "\n",
  text% "ConnectionlessTransferIEs RUA-PROTOCOL-IES ::= {\n",
  text% "\t{ ID id-RANAP-Message\tCRITICALITY reject\tTYPE RANAP-Message\tPRESENCE mandatory  },\n",
  text% "\t...\n",
  text% "}\n",
  text% "\n",
  text% "ConnectionlessTransferExtensions RUA-PROTOCOL-EXTENSION ::= {\n",
  text% "\t...\n",
  text% "}\n",
  text% "\n",
  text% "\n",
  text% "\n",
  text% "\n",
  text% "-- **************************************************************\n",
  text% "--\n",
  text% "-- ERROR INDICATION\n",
  text% "--\n",
  text% "-- **************************************************************\n",
  text% "\n",
  text% "ErrorIndication ::= SEQUENCE {\n",
  text% "\tprotocolIEs\t\tProtocolIE-Container       { {ErrorIndicationIEs} },\n",
  text% "\tprotocolExtensions\tProtocolExtensionContainer { {ErrorIndicationExtensions} } \tOPTIONAL,\n",
  text% "\t...\n",
  text% "}\n",
  text% "\n",
  text% "ErrorIndicationIEs RUA-PROTOCOL-IES ::= {\n",
  text% "\t{ ID id-Cause\t\t\tCRITICALITY ignore\tTYPE Cause\t\t\tPRESENCE mandatory } |\n",
  text% "\t{ ID id-CriticalityDiagnostics\tCRITICALITY ignore\tTYPE CriticalityDiagnostics\tPRESENCE optional },\n",
  text% "\t\t...\n",
  text% "}\n",
  text% "\n",
  text% "ErrorIndicationExtensions RUA-PROTOCOL-EXTENSION ::= {\n",
  text% "\t...\n",
  text% "}\n",
  text% "\n",
  text% "-- **************************************************************\n",
  text% "--\n",
  text% "-- PRIVATE MESSAGE\n",
  text% "--\n",
  text% "-- **************************************************************\n",
  text% "\n",
  text% "PrivateMessage ::= SEQUENCE {\n",
  text% "\tprivateIEs\t\tPrivateIE-Container  {{PrivateMessage-IEs}},\n",
  text% "\t...\n",
  text% "}\n",
  text% "\n",
  text% "PrivateMessage-IEs RUA-PRIVATE-IES ::= {\n",
  text% "\t...\n",
  text% "}\n",
  text% "\n",
  text% "\n",
  text% "END\n"]

/-- The tables of `rua2`. -/
noncomputable def rua2Tables : List (Text × List Row) := [
  (text% "ConnectionlessTransferIEs", [
    ⟨text% "id-RANAP-Message", text% "reject", text% "RANAP-Message", text% "mandatory"⟩]),
  (text% "ErrorIndicationIEs", [
    ⟨text% "id-Cause", text% "ignore", text% "Cause", text% "mandatory"⟩,
    ⟨text% "id-CriticalityDiagnostics", text% "ignore", text% "CriticalityDiagnostics", text% "optional"⟩])]

end Verif.Gen.Text
