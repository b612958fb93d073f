import Verif.Gen.TextLit
import Verif.Model.AsnToStruct

/-!
# Text of the HNBAP types

The lines of `/repo/asn1/hnbap/HNBAP-CommonDataTypes.asn`, `-Containers.asn`, `-IEs.asn`, `-PDU-Descriptions.asn` as they are, and
those of `IE` in `-PDU.asn`, to which `-IEs.asn` refers.
-/

namespace Verif.Gen.Text
open Verif.AsnToStruct

/-- asn1/hnbap/HNBAP-CommonDataTypes.asn -/
noncomputable def hnbapCommon : List Text := [
  text% "-- **************************************************************\n",
  text% "--\n",
  text% "-- Common definitions\n",
  text% "--\n",
  text% "-- **************************************************************\n",
  text% "\n",
  text% "HNBAP-CommonDataTypes {\n",
  text% "itu-t (0) identified-organization (4) etsi (0) mobileDomain (0) \n",
  text% "umts-Access (20) modules (3) hnbap(6) version1 (1) hnbap-CommonDataTypes (3)  }\n",
  text% "\n",
  text% "DEFINITIONS AUTOMATIC TAGS ::= \n",
  text% "\n",
  text% "BEGIN\n",
  text% "\n",
  text% "-- **************************************************************\n",
  text% "--\n",
  text% "-- Extension constants\n",
  text% "--\n",
  text% "-- **************************************************************\n",
  text% "\n",
  text% "maxPrivateIEs \t\tINTEGER ::= 65535\n",
  text% "maxProtocolExtensions \tINTEGER ::= 65535\n",
  text% "maxProtocolIEs\t\tINTEGER ::= 65535\n",
  text% "\n",
  text% "-- **************************************************************\n",
  text% "--\n",
  text% "-- Common Data Types\n",
  text% "--\n",
  text% "-- **************************************************************\n",
  text% "Criticality\t\t::= ENUMERATED { reject, ignore, notify }\n",
  text% "\n",
  text% "Presence\t\t::= ENUMERATED { optional, conditional, mandatory }\n",
  text% "\n",
  text% "PrivateIE-ID\t::= CHOICE {\n",
  text% "\tlocal\t\tINTEGER (0..65535),\n",
  text% "\tglobal\t\tOBJECT IDENTIFIER\n",
  text% "}\n",
  text% "\n",
  text% "\n",
  text% "ProcedureCode\t\t::= INTEGER {\n",
  text% "\tid-HNBRegister(1),\n",
  text% "\tid-HNBDe-Register(2),\n",
  text% "\tid-UERegister(3),\n",
  text% "\tid-UEDe-Register(4),\n",
  text% "\tid-ErrorIndication(5),\n",
  text% "\tid-privateMessage(6),\n",
  text% "\tid-CSGMembershipUpdate(7),\n",
  text% "\tid-TNLUpdate(9),\n",
  text% "\tid-HNBConfigTransfer(10),\n",
  text% "\tid-RelocationComplete(11),\n",
  text% "\tid-U-RNTIQuery(14)\n",
  text% "} (0..255)\n",
  text% "\n",
  text% "\n",
  text% "ProtocolIE-ID\t\t::= INTEGER {\n",
  text% "\tid-Cause(1),\n",
  text% "\tid-CriticalityDiagnostics(2),\n",
  text% "\tid-HNB-Identity(3),\n",
  text% "\tid-Context-ID(4),\n",
  text% "\tid-UE-Identity(5),\n",
  text% "\tid-LAC(6),\n",
  text% "\tid-RAC(7),\n",
  text% "\tid-HNB-Location-Information(8),\n",
  text% "\tid-PLMNidentity(9),\n",
  text% "\tid-SAC(10),\n",
  text% "\tid-CellIdentity(11),\n",
  text% "\tid-Registration-Cause(12),\n",
  text% "\tid-UE-Capabilities(13),\n",
  text% "\tid-RNC-ID(14),\n",
  text% "\tid-CSG-ID(15),\n",
  text% "\tid-BackoffTimer(16),\n",
  text% "\tid-HNB-Internet-Information(17),\n",
  text% "\tid-HNB-Cell-Access-Mode(18),\n",
  text% "\tid-MuxPortNumber(19),\n",
  text% "\tid-Service-Area-For-Broadcast(20),\n",
  text% "\tid-CSGMembershipStatus(21),\n",
  text% "\tid-RABList(22),\n",
  text% "\tid-HNBConfigInfo(23),\n",
  text% "\tid-AccessResult(25),\n",
  text% "\tid-Update-cause(26),\n",
  text% "\tid-NeighbourInfoList(27),\n",
  text% "\tid-NeighbourInfoRequestList(28),\n",
  text% "\tid-Iurh-Signalling-TNL-Address(29),\n",
  text% "\tid-PSC(30),\n",
  text% "\tid-HNB-Cell-Identifier(31),\n",
  text% "\tid-Tunnel-Information(41),\n",
  text% "\tid-CELL-FACHMobilitySupport(42),\n",
  text% "\tid-S-RNTIPrefix(43),\n",
  text% "\tid-URAIdentity(44),\n",
  text% "\tid-NeighbourIdentity(45),\n",
  text% "\tid-HNBCapacity(46),\n",
  text% "\tid-NeighbourCellIdentityList(47),\n",
  text% "\tid-AdditionalNeighbourInfoList(48),\n",
  text% "\tid-U-RNTI(49),\n",
  text% "\tid-UnknownU-RNTIIndication(50),\n",
  text% "\tid-HNB-GWResponse(51),\n",
  text% "\tid-URAIdentityList(52)\n",
  text% "} (0..maxProtocolIEs)\n",
  text% "\n",
  text% "TriggeringMessage\t::= ENUMERATED { initiating-message, successful-outcome, unsuccessful-outcome }\n",
  text% "\n",
  text% "END\n"]

/-- asn1/hnbap/HNBAP-Containers.asn -/
noncomputable def hnbapContainers : List Text := [
  text% "-- **************************************************************\n",
  text% "--\n",
  text% "-- Container definitions\n",
  text% "--\n",
  text% "-- **************************************************************\n",
  text% "\n",
  text% "HNBAP-Containers {\n",
  text% "itu-t (0) identified-organization (4) etsi (0) mobileDomain (0) \n",
  text% "umts-Access (20) modules (3) hnbap(6) version1 (1) hnbap-Containers (5) }\n",
  text% "\n",
  text% "DEFINITIONS AUTOMATIC TAGS ::= \n",
  text% "\n",
  text% "BEGIN\n",
  text% "\n",
  text% "-- **************************************************************\n",
  text% "--\n",
  text% "-- IE parameter types from other modules.\n",
  text% "--\n",
  text% "-- **************************************************************\n",
  text% "\n",
  text% "IMPORTS\n",
  text% "\tCriticality,\n",
  text% "\tPresence,\n",
  text% "\tPrivateIE-ID,\n",
  text% "\tProtocolIE-ID,\n",
  text% "\tmaxPrivateIEs,\n",
  text% "\tmaxProtocolExtensions,\n",
  text% "\tmaxProtocolIEs\n",
  text% "FROM HNBAP-CommonDataTypes;\n",
  text% "\n",
  text% "-- **************************************************************\n",
  text% "--\n",
  text% "-- Class Definition for Protocol IEs\n",
  text% "--\n",
  text% "-- **************************************************************\n",
  text% "\n",
  text% "HNBAP-PROTOCOL-IES ::= CLASS {\n",
  text% "\t&id\t\t\t\t\tProtocolIE-ID \t\tUNIQUE,\n",
  text% "\t&criticality\t\tCriticality,\n",
  text% "\t&Value,\n",
  text% "\t&presence\t\t\tPresence\n",
  text% "}\n",
  text% "WITH SYNTAX {\n",
  text% "\tID\t\t\t\t\t&id\n",
  text% "\tCRITICALITY\t\t\t&criticality\n",
  text% "\tTYPE\t\t\t\t&Value\n",
  text% "\tPRESENCE\t\t\t&presence\n",
  text% "}\n",
  text% "\n",
  text% "-- **************************************************************\n",
  text% "--\n",
  text% "-- Class Definition for Protocol Extensions\n",
  text% "--\n",
  text% "-- **************************************************************\n",
  text% "\n",
  text% "HNBAP-PROTOCOL-EXTENSION ::= CLASS {\n",
  text% "\t&id\t\t\t\t\tProtocolIE-ID UNIQUE,\n",
  text% "\t&criticality\t\tCriticality,\n",
  text% "\t&Extension,\n",
  text% "\t&presence\t\t\tPresence\n",
  text% "}\n",
  text% "WITH SYNTAX {\n",
  text% "\tID\t\t\t\t\t&id\n",
  text% "\tCRITICALITY\t\t\t&criticality\n",
  text% "\tEXTENSION\t\t\t&Extension\n",
  text% "\tPRESENCE\t\t\t&presence\n",
  text% "}\n",
  text% "\n",
  text% "-- **************************************************************\n",
  text% "--\n",
  text% "-- Class Definition for Private IEs\n",
  text% "--\n",
  text% "-- **************************************************************\n",
  text% "\n",
  text% "HNBAP-PRIVATE-IES ::= CLASS {\n",
  text% "\t&id\t\t\t\t\tPrivateIE-ID,\n",
  text% "\t&criticality\t\tCriticality,\n",
  text% "\t&Value,\n",
  text% "\t&presence\t\t\tPresence\n",
  text% "}\n",
  text% "WITH SYNTAX {\n",
  text% "\tID\t\t\t\t\t&id\n",
  text% "\tCRITICALITY\t\t\t&criticality\n",
  text% "\tTYPE\t\t\t\t&Value\n",
  text% "\tPRESENCE\t\t\t&presence\n",
  text% "}\n",
  text% "\n",
  text% "-- **************************************************************\n",
  text% "--\n",
  text% "-- Container for Protocol IEs\n",
  text% "--\n",
  text% "-- **************************************************************\n",
  text% "\n",
  text% "ProtocolIE-Container {HNBAP-PROTOCOL-IES : IEsSetParam} ::= \n",
  text% "\tSEQUENCE (SIZE (0..maxProtocolIEs)) OF\n",
  text% "\t\tProtocolIE-Field {{IEsSetParam}}\n",
  text% "\n",
  text% "ProtocolIE-Single-Container {HNBAP-PROTOCOL-IES : IEsSetParam} ::= \n",
  text% "\tProtocolIE-Field {{IEsSetParam}}\n",
  text% "\n",
  text% "ProtocolIE-Field {HNBAP-PROTOCOL-IES : IEsSetParam} ::= SEQUENCE {\n",
  text% "\tid\t\t\t\t\tHNBAP-PROTOCOL-IES.&id\t\t\t\t({IEsSetParam}),\n",
  text% "\tcriticality\t\t\tHNBAP-PROTOCOL-IES.&criticality\t\t({IEsSetParam}{@id}),\n",
  text% "\tvalue\t\t\t\tHNBAP-PROTOCOL-IES.&Value\t\t\t({IEsSetParam}{@id})\n",
  text% "}\n",
  text% "\n",
  text% "-- **************************************************************\n",
  text% "--\n",
  text% "-- Container Lists for Protocol IE Containers\n",
  text% "--\n",
  text% "-- **************************************************************\n",
  text% "\n",
  text% "ProtocolIE-ContainerList {INTEGER : lowerBound, INTEGER : upperBound, HNBAP-PROTOCOL-IES : IEsSetParam} ::=\n",
  text% "\tSEQUENCE (SIZE (lowerBound..upperBound)) OF\n",
  text% "\t\tProtocolIE-Container {{IEsSetParam}}\n",
  text% "\n",
  text% "-- **************************************************************\n",
  text% "--\n",
  text% "-- Container for Protocol Extensions\n",
  text% "--\n",
  text% "-- **************************************************************\n",
  text% "\n",
  text% "ProtocolExtensionContainer {HNBAP-PROTOCOL-EXTENSION : ExtensionSetParam} ::= \n",
  text% "\tSEQUENCE (SIZE (1..maxProtocolExtensions)) OF\n",
  text% "\t\tProtocolExtensionField {{ExtensionSetParam}}\n",
  text% "\n",
  text% "ProtocolExtensionField {HNBAP-PROTOCOL-EXTENSION : ExtensionSetParam} ::= SEQUENCE {\n",
  text% "\tid\t\tHNBAP-PROTOCOL-EXTENSION.&id\t\t({ExtensionSetParam}),\n",
  text% "\tcriticality\tHNBAP-PROTOCOL-EXTENSION.&criticality\t({ExtensionSetParam}{@id}),\n",
  text% "\textensionValue\tHNBAP-PROTOCOL-EXTENSION.&Extension\t({ExtensionSetParam}{@id})\n",
  text% "}\n",
  text% "\n",
  text% "-- **************************************************************\n",
  text% "--\n",
  text% "-- Container for Private IEs\n",
  text% "--\n",
  text% "-- **************************************************************\n",
  text% "\n",
  text% "PrivateIE-Container {HNBAP-PRIVATE-IES : IEsSetParam } ::= \n",
  text% "\tSEQUENCE (SIZE (1.. maxPrivateIEs)) OF\n",
  text% "\t\tPrivateIE-Field {{IEsSetParam}}\n",
  text% "\n",
  text% "PrivateIE-Field {HNBAP-PRIVATE-IES : IEsSetParam} ::= SEQUENCE {\n",
  text% "\tid\t\tHNBAP-PRIVATE-IES.&id\t\t\t({IEsSetParam}),\n",
  text% "\tcriticality\tHNBAP-PRIVATE-IES.&criticality\t\t({IEsSetParam}{@id}),\n",
  text% "\tvalue\t\tHNBAP-PRIVATE-IES.&Value\t\t({IEsSetParam}{@id})\n",
  text% "}\n",
  text% "\n",
  text% "END\n"]

/-- asn1/hnbap/HNBAP-IEs.asn -/
noncomputable def hnbapIes : List Text := [
  text% "-- **************************************************************\n",
  text% "--\n",
  text% "-- Information Element Definitions\n",
  text% "--\n",
  text% "-- **************************************************************\n",
  text% "\n",
  text% "HNBAP-IEs {\n",
  text% "itu-t (0) identified-organization (4) etsi (0) mobileDomain (0) \n",
  text% "umts-Access (20) modules (3) hnbap(6) version1 (1) hnbap-IEs (2) }\n",
  text% "\n",
  text% "DEFINITIONS AUTOMATIC TAGS ::= \n",
  text% "\n",
  text% "BEGIN\n",
  text% "\n",
  text% "IMPORTS\n",
  text% "\tmaxNrOfErrors,\n",
  text% "\tmaxnoofRABs,\n",
  text% "\tmaxnoofNeighbours,\n",
  text% "\tmaxnoofIurhAddresses,\n",
  text% "\tmaxnoofAdditionalNeighbours,\n",
  text% "\tmaxnoofURAIdentities,\n",
  text% "\tid-HNB-Internet-Information,\n",
  text% "\tid-HNB-Cell-Identifier,\n",
  text% "\tid-S-RNTIPrefix,\n",
  text% "\tid-URAIdentityList\n",
  text% "\t\n",
  text% "FROM HNBAP-Constants\n",
  text% "\n",
  text% "\tIE\n",
  text% "FROM HNBAP-PDU\n",
  text% "\n",
  text% "\tmaxProtocolExtensions,\n",
  text% "\tCriticality,\n",
  text% "\tProcedureCode,\n",
  text% "\tProtocolIE-ID,\n",
  text% "\tTriggeringMessage\n",
  text% "FROM HNBAP-CommonDataTypes;\n",
  text% "\n",
  text% "IE-Extensions ::= SEQUENCE (SIZE (1..maxProtocolExtensions)) OF IE\n",
  text% "\n",
  text% "--A\n",
  text% "Access-stratum-release-indicator ::=\tENUMERATED {r99,\n",
  text% "\t\t\t\trel-4, rel-5, rel-6, rel-7, rel-8-and-beyond,\n",
  text% "\t\t\t\t...}\n",
  text% "\n",
  text% "AccessResult\t::=\t\tENUMERATED {allowed, notAllowed, ...}\n",
  text% "\n",
  text% "AltitudeAndDirection ::= SEQUENCE {\n",
  text% "\tdirectionOfAltitude\tENUMERATED {height, depth},\n",
  text% "\taltitude\t\tINTEGER (0..32767),\n",
  text% "\t...\n",
  text% "}\n",
  text% "\n",
  text% "--B\n",
  text% "BackoffTimer ::= INTEGER(0..3600)\n",
  text% "\n",
  text% "BindingID\t::= OCTET STRING(SIZE(1..4,...))\n",
  text% "\n",
  text% "--C\n",
  text% "Cause ::= CHOICE {\n",
  text% "\tradioNetwork\t\tCauseRadioNetwork,\n",
  text% "\ttransport\t\tCauseTransport,\n",
  text% "\tprotocol\t\tCauseProtocol,\n",
  text% "\tmisc\t\t\tCauseMisc,\n",
  text% "\t...\n",
  text% "}\n",
  text% "CauseRadioNetwork ::= ENUMERATED {\n",
  text% "\toverload,\n",
  text% "\tunauthorised-Location,\n",
  text% "\tunauthorised-HNB,\n",
  text% "\thNB-parameter-mismatch,\n",
  text% "\tinvalid-UE-identity,\n",
  text% "\tuE-not-allowed-on-this-HNB,\n",
  text% "\tuE-unauthorised,\n",
  text% "\tconnection-with-UE-lost,\n",
  text% "\tue-RRC-release,\n",
  text% "\thNB-not-registered,\n",
  text% "\tunspecified,\n",
  text% "\tnormal,\n",
  text% "\tuE-relocated,\n",
  text% "\tue-registered-in-another-HNB,\n",
  text% "\t...,\n",
  text% "\tno-neighbour-information-available,\n",
  text% "\tiurh-connection-to-that-neighbour-not-Allowed\n",
  text% "}\n",
  text% "\n",
  text% "CauseTransport ::= ENUMERATED {\n",
  text% "\ttransport-resource-unavailable,\n",
  text% "\tunspecified,\n",
  text% "\t...\n",
  text% "}\n",
  text% "\n",
  text% "CauseProtocol ::= ENUMERATED {\n",
  text% "\ttransfer-syntax-error,\n",
  text% "\tabstract-syntax-error-reject,\n",
  text% "\tabstract-syntax-error-ignore-and-notify,\n",
  text% "\tmessage-not-compatible-with-receiver-state,\n",
  text% "\tsemantic-error,\n",
  text% "\tunspecified,\n",
  text% "\tabstract-syntax-error-falsely-constructed-message,\n",
  text% "\t...\n",
  text% "}\n",
  text% "\n",
  text% "CauseMisc ::= ENUMERATED {\n",
  text% "\tprocessing-overload,\n",
  text% "\thardware-failure,\n",
  text% "\to-and-m-intervention,\n",
  text% "\tunspecified,\n",
  text% "\t...\n",
  text% "}\n",
  text% "\n",
  text% "CellIdentity ::=\t\tBIT STRING (SIZE (28))\n",
  text% "\n",
  text% "CELL-FACHMobilitySupport\t::= ENUMERATED {\n",
  text% "\tsupported, \n",
  text% "\t...\n",
  text% "}\n",
  text% "\n",
  text% "Context-ID\t::=\t BIT STRING (SIZE(24))\n",
  text% "\n",
  text% "CriticalityDiagnostics ::= SEQUENCE {\n",
  text% "\tprocedureCode\t\t\tProcedureCode\t\t\tOPTIONAL,\n",
  text% "\ttriggeringMessage\t\tTriggeringMessage\t\tOPTIONAL,\n",
  text% "\tprocedureCriticality\t\tCriticality\t\t\tOPTIONAL,\n",
  text% "\tiEsCriticalityDiagnostics\tCriticalityDiagnostics-IE-List\tOPTIONAL,\n",
  text% "\tiE-Extensions\t\t\tIE-Extensions\t\t\tOPTIONAL,\n",
  text% "\t...\n",
  text% "}\n",
  text% "\n",
  text% "CriticalityDiagnostics-IE-List ::= SEQUENCE (SIZE (1..maxNrOfErrors)) OF CriticalityDiagnostics-IE-List-Value\n",
  text% "CriticalityDiagnostics-IE-List-Value ::=\n",
  text% "\tSEQUENCE {\n",
  text% "\t\tiECriticality\t\tCriticality,\n",
  text% "\t\tiE-ID\t\t\tProtocolIE-ID,\n",
  text% "\t\ttypeOfError\t\tTypeOfError,\n",
  text% "\t\tiE-Extensions\t\tIE-Extensions\t\t\tOPTIONAL,\n",
  text% "\t\t...\n",
  text% "\t}\n",
  text% "\n",
  text% "CSG-ID\t\t\t::=\tBIT STRING (SIZE (27))\n",
  text% "\n",
  text% "CSG-Capability\t::=\tENUMERATED {\n",
  text% "\tcsg-capable,\n",
  text% "\tnot-csg-capable,\n",
  text% "\t...\n",
  text% "}\n",
  text% "\n",
  text% "CSGMembershipStatus ::= ENUMERATED { \n",
  text% "\tmember,\n",
  text% "\tnon-member,\n",
  text% "\t...\n",
  text% "}\n",
  text% "\n",
  text% "CGI ::= SEQUENCE {\n",
  text% "\tpLMNidentity\tPLMNidentity,\n",
  text% "\tlAC\t\tLAC,\n",
  text% "\tcI\t\tCI,\n",
  text% "\tiE-Extensions\tIE-Extensions\t\t\tOPTIONAL\n",
  text% "}\n",
  text% "\n",
  text% "CI\t::= OCTET STRING (SIZE (2))\n",
  text% "\n",
  text% "\n",
  text% "CN-DomainIndicator ::= ENUMERATED {\n",
  text% "\tcs-domain,\n",
  text% "\tps-domain\n",
  text% "}\n",
  text% "--D\n",
  text% "--E\n",
  text% "ESN\t\t::=\tBIT STRING (SIZE(32))\n",
  text% "--F\n",
  text% "--G\n",
  text% "GeographicalLocation ::= SEQUENCE {\n",
  text% "\tgeographicalCoordinates\t\tGeographicalCoordinates,\n",
  text% "\taltitudeAndDirection\t\tAltitudeAndDirection,\n",
  text% "\tiE-Extensions\t\t\tIE-Extensions\t\t\tOPTIONAL,\n",
  text% "\t...\n",
  text% "}\n",
  text% "\n",
  text% "GeographicalCoordinates ::= SEQUENCE {\n",
  text% "\tlatitudeSign\t\t\tENUMERATED {north, south},\n",
  text% "\tlatitude\t\t\tINTEGER (0..8388607),\n",
  text% "\tlongitude\t\t\tINTEGER (-8388608..8388607),\n",
  text% "\tiE-Extensions\t\t\tIE-Extensions\t\t\tOPTIONAL,\n",
  text% "\t...\n",
  text% "}\n",
  text% "\n",
  text% "GTP-TEI\t::= OCTET STRING (SIZE (4))\n",
  text% "\n",
  text% "--H\n",
  text% "\n",
  text% "HNBCapacity ::= INTEGER(0..1000)\n",
  text% "\n",
  text% "HNB-Cell-Access-Mode::= ENUMERATED {\n",
  text% "\tclosed,\n",
  text% "\thybrid,\n",
  text% "\topen,\n",
  text% "\t...\n",
  text% "}\n",
  text% "\n",
  text% "HNB-Cell-Identifier\t::= \tSEQUENCE\t{\n",
  text% "\tpLMNidentity\tPLMNidentity,\n",
  text% "\tcellIdentity\tCellIdentity,\n",
  text% "\tiE-Extensions\tIE-Extensions\t\t\tOPTIONAL,\n",
  text% "\t...\n",
  text% "}\n",
  text% "\n",
  text% "HNB-GWResponse ::= CHOICE {\n",
  text% "\thNB\t\t\tHNBConfigInfo,\n",
  text% "\tmacroRNC\t\tRNC-ID,\n",
  text% "\tunknownU-RNTIIndication\tUnknownU-RNTIIndication,\n",
  text% "\t...\n",
  text% "}\n",
  text% "\n",
  text% "HNB-RNL-Identity\t::= \tCHOICE\t{\n",
  text% "\thNB-Identity-as-Cell-Identifier\tHNB-Cell-Identifier,\n",
  text% "\t...\n",
  text% "}\n",
  text% "\n",
  text% "HNBConfigInfo\t::= SEQUENCE {\n",
  text% "\thnb-RNL-Identity\t\tHNB-RNL-Identity,\n",
  text% "\tconfigurationInformation\tConfigurationInformation,\n",
  text% "\tiE-Extensions\t\t\tIE-Extensions\t\t\tOPTIONAL,\n",
  text% "\t...\n",
  text% "}\n",
  text% "\n",
  text% "ConfigurationInformation ::= CHOICE {\n",
  text% "\tprovided\tHNBConfigurationInformationProvided,\n",
  text% "\tmissing\t\tHNBConfigurationInformationMissing,\n",
  text% "\t...\n",
  text% "}\n",
  text% "\n",
  text% "HNBConfigurationInformationProvided ::= SEQUENCE {\n",
  text% "\tpsc\t\t\t\tPSC\tOPTIONAL,\n",
  text% "\tcSG-ID\t\t\t\tCSG-ID\tOPTIONAL,\n",
  text% "\thNB-Cell-Access-Mode\t\tHNB-Cell-Access-Mode,\n",
  text% "\tiurh-Signalling-TNL-AddressList\tIurh-Signalling-TNL-AddressList,\n",
  text% "\tiE-Extensions\t\t\tIE-Extensions\t\t\tOPTIONAL,\n",
  text% "\t...\n",
  text% "}\n",
  text% "\n",
  text% "HNBConfigurationInformationMissing ::= SEQUENCE {\n",
  text% "\tcause\t\tCause,\n",
  text% "\tiE-Extensions\tIE-Extensions\t\t\tOPTIONAL,\n",
  text% "\t...\n",
  text% "}\n",
  text% "\n",
  text% "HNB-Location-Information ::= SEQUENCE {\n",
  text% "\tmacroCoverageInfo\tMacroCoverageInformation OPTIONAL,\n",
  text% "\tgeographicalCoordinates\tGeographicalLocation\t OPTIONAL,\n",
  text% "\tiE-Extensions\t\tIE-Extensions\t\t OPTIONAL,\n",
  text% "\t...\n",
  text% "}\n",
  text% "\n",
  text% "HNB-Identity\t::=\t\tSEQUENCE {\n",
  text% "\thNB-Identity-Info\tHNB-Identity-Info,\n",
  text% "\tiE-Extensions\t\tIE-Extensions\t\t OPTIONAL,\n",
  text% "\t...\n",
  text% "}\n",
  text% "\n",
  text% "HNB-Identity-Info ::= OCTET STRING (SIZE (1..255))\n",
  text% "\n",
  text% "--I\n",
  text% "\n",
  text% "IMEI\t\t::= BIT STRING (SIZE(60))\n",
  text% "\n",
  text% "IMSI\t\t::= OCTET STRING (SIZE (3..8))\n",
  text% "-- Reference: 23.003\n",
  text% "IMSIDS41\t::= OCTET STRING (SIZE (5..7))\n",
  text% "\n",
  text% "IMSIESN\t::= SEQUENCE {\n",
  text% "\tiMSIDS41\tIMSIDS41,\n",
  text% "\teSN\t\tESN\n",
  text% "}\n",
  text% "\n",
  text% "IP-Address\t::= SEQUENCE {\n",
  text% "\tipaddress CHOICE {\n",
  text% "\t\tipv4info\tIpv4Address,\n",
  text% "\t\tipv6info\tIpv6Address,\n",
  text% "\t\t...\n",
  text% "\t},\n",
  text% "\tiE-Extensions\tIE-Extensions\t\t OPTIONAL,\n",
  text% "\t...\n",
  text% "}\n",
  text% "\n",
  text% "Ipv4Address\t::= OCTET STRING (SIZE (4))\n",
  text% "\n",
  text% "Ipv6Address\t::= OCTET STRING (SIZE (16))\n",
  text% "\n",
  text% "Iurh-Signalling-TNL-AddressList ::= SEQUENCE (SIZE(1..maxnoofIurhAddresses)) OF\tIP-Address\n",
  text% "\n",
  text% "\n",
  text% "--J\n",
  text% "--K\n",
  text% "--L\n",
  text% "LAC ::= OCTET STRING(SIZE(2))\n",
  text% "\n",
  text% "LAI ::= SEQUENCE {\n",
  text% "\tpLMNID\tPLMNidentity,\n",
  text% "\tlAC\tLAC,\n",
  text% "\t...\n",
  text% "}\n",
  text% "\n",
  text% "-- M\n",
  text% "\n",
  text% "MacroCoverageInformation ::= SEQUENCE {\n",
  text% "\tcellIdentity\tMacroCellID,\n",
  text% "\tiE-Extensions\tIE-Extensions\t\t OPTIONAL,\n",
  text% "\t...\n",
  text% "}\n",
  text% "\n",
  text% "MacroCellID ::= CHOICE {\n",
  text% "\tuTRANCellID\tUTRANCellID,\n",
  text% "\tgERANCellID\tCGI,\n",
  text% "\t...\n",
  text% "}\n",
  text% "\n",
  text% "MuxPortNumber ::= INTEGER (1024..65535)\n",
  text% "\n",
  text% "--N\n",
  text% "\n",
  text% "NeighbourCellIdentityList\t::= SEQUENCE (SIZE(0..maxnoofAdditionalNeighbours)) OF \tNeighbourIdentity\n",
  text% "\n",
  text% "NeighbourIdentity\t::= CHOICE {\n",
  text% "\thNB-RNL-Identity\tHNB-RNL-Identity,\n",
  text% "\tcell-ID\t\t\tCellIdentity,\n",
  text% "\t...\n",
  text% "}\n",
  text% "\n",
  text% "NeighbourInfoList\t\t::= SEQUENCE (SIZE(1..maxnoofNeighbours)) OF\tHNBConfigInfo\n",
  text% "\n",
  text% "AdditionalNeighbourInfoList\t::= SEQUENCE (SIZE(1..maxnoofAdditionalNeighbours)) OF HNBConfigInfo\n",
  text% "\n",
  text% "NeighbourInfoRequestList\t::= SEQUENCE (SIZE(1..maxnoofNeighbours)) OF\tNeighbourInfoRequestItem\n",
  text% "\n",
  text% "NeighbourInfoRequestItem ::= SEQUENCE {\n",
  text% "\thnb-RNL-Identity\tHNB-RNL-Identity,\n",
  text% "\tiE-Extensions\t\tIE-Extensions\t\t OPTIONAL,\n",
  text% "\t...\n",
  text% "}\n",
  text% "\n",
  text% "--O\n",
  text% "--P\n",
  text% "PLMNidentity \t::= OCTET STRING (SIZE (3))\n",
  text% "\n",
  text% "PSC\t\t::= BIT STRING (SIZE(9))\n",
  text% "\n",
  text% "PTMSI\t\t::=\tBIT STRING (SIZE(32))\n",
  text% "\n",
  text% "PTMSIRAI ::= SEQUENCE {\n",
  text% "\tpTMSI\tPTMSI,\n",
  text% "\trAI\tRAI,\n",
  text% "\t...\n",
  text% "}\n",
  text% "\n",
  text% "\n",
  text% "--Q\n",
  text% "--R\n",
  text% "\n",
  text% "RAB-ID\t\t::= BIT STRING (SIZE (8))\n",
  text% "\n",
  text% "RABList\t\t::= SEQUENCE (SIZE(1..maxnoofRABs)) OF RABListItem\n",
  text% "\n",
  text% "RABListItem\t::= SEQUENCE {\n",
  text% "\trAB-ID\t\t\tRAB-ID,\n",
  text% "\told-transport-Info\tTransportInfo,\n",
  text% "\tnew-transport-Info\tTransportInfo,\n",
  text% "\tcn-domain-indicator\tCN-DomainIndicator,\n",
  text% "\tiE-Extensions\t\tIE-Extensions\t\t OPTIONAL,\n",
  text% "...\n",
  text% "}\n",
  text% "\n",
  text% "RAC\t::= OCTET STRING(SIZE(1))\n",
  text% "\n",
  text% "RAI ::= SEQUENCE {\n",
  text% "\tlAI\tLAI,\n",
  text% "\trAC\tRAC,\n",
  text% "\t...\n",
  text% "}\n",
  text% "\n",
  text% "\n",
  text% "Registration-Cause\t::= ENUMERATED {\n",
  text% "\temergency-call,\n",
  text% "\tnormal,\n",
  text% "\t...,\n",
  text% "\tue-relocation\n",
  text% "}\n",
  text% "\n",
  text% "RNC-ID\t::=\tINTEGER(0..65535)\n",
  text% "\n",
  text% "--S\n",
  text% "\n",
  text% "SAC\t\t::= OCTET STRING(SIZE(2)) \n",
  text% "\n",
  text% "S-RNTIPrefix\t::= BIT STRING(SIZE(1..16, ...))\n",
  text% "\n",
  text% "--T\n",
  text% "TMSILAI\t::= SEQUENCE {\n",
  text% "\ttMSI\tBIT STRING(SIZE (32)),\n",
  text% "\tlAI\tLAI\n",
  text% "}\n",
  text% "\n",
  text% "TMSIDS41\t::= OCTET STRING (SIZE (2..17))\n",
  text% "\n",
  text% "TransportInfo\t::= SEQUENCE {\n",
  text% "\ttransportLayerAddress\tTransportLayerAddress,\n",
  text% "\ttransportAssociation\tCHOICE\t{\n",
  text% "\tgtp-TEI\t\t\t\tGTP-TEI,\n",
  text% "\t\t\t\t\tbindingID\tBindingID,\n",
  text% "\t\t\t\t\t...\n",
  text% "\t\t\t\t},\n",
  text% "\tiE-Extensions\t\tIE-Extensions\t\t OPTIONAL,\n",
  text% "...\n",
  text% "}\n",
  text% "\n",
  text% "TransportLayerAddress\t::= BIT STRING(SIZE(1..160,...))\n",
  text% "\n",
  text% "Tunnel-Information ::= SEQUENCE {\n",
  text% "\tiP-Address\t\tIP-Address,\n",
  text% "\tuDP-Port-Number\t\tUDP-Port-Number\tOPTIONAL,\n",
  text% "\tiE-Extensions\t\tIE-Extensions\t\t OPTIONAL,\n",
  text% "\t...\n",
  text% "}\n",
  text% "\n",
  text% "TypeOfError ::= ENUMERATED {\n",
  text% "\tnot-understood,\n",
  text% "\tmissing,\n",
  text% "\t...\n",
  text% "}\n",
  text% "--U\n",
  text% "\n",
  text% "UDP-Port-Number ::= OCTET STRING(SIZE(2))\n",
  text% "\n",
  text% "UE-Capabilities ::= SEQUENCE {\n",
  text% "\taccess-stratum-release-indicator\tAccess-stratum-release-indicator,\n",
  text% "\tcsg-capability\t\t\t\tCSG-Capability,\n",
  text% "\tiE-Extensions\t\t\t\tIE-Extensions\t\t OPTIONAL,\n",
  text% "...\n",
  text% "}\n",
  text% "\n",
  text% "UTRANCellID ::= SEQUENCE {\n",
  text% "\tlAC\t\tLAC,\n",
  text% "\trAC\t\tRAC,\n",
  text% "\tpLMNidentity\tPLMNidentity,\n",
  text% "\tuTRANcellID\tCellIdentity,\n",
  text% "\tiE-Extensions\tIE-Extensions\t\t OPTIONAL\n",
  text% "}\n",
  text% "\n",
  text% "\n",
  text% "\n",
  text% "UE-Identity\t::=\tCHOICE {\n",
  text% "\tiMSI\t\tIMSI,\n",
  text% "\ttMSILAI\t\tTMSILAI,\n",
  text% "\tpTMSIRAI\tPTMSIRAI,\n",
  text% "\tiMEI\t\tIMEI,\n",
  text% "\teSN\t\tESN,\n",
  text% "\tiMSIDS41\tIMSIDS41,\n",
  text% "\tiMSIESN\t\tIMSIESN,\n",
  text% "\ttMSIDS41\tTMSIDS41,\n",
  text% "\t...\n",
  text% "}\n",
  text% "\n",
  text% "Update-cause ::=\tENUMERATED {\n",
  text% "\trelocation-preparation,\n",
  text% "\t...\n",
  text% "}\n",
  text% "\n",
  text% "URAIdentityList ::= SEQUENCE (SIZE (0..maxnoofURAIdentities)) OF URAIdentity\n",
  text% "\n",
  text% "URAIdentity\t::= INTEGER(0..65535)\n",
  text% "\n",
  text% "U-RNTI ::= BIT STRING (SIZE (32))\n",
  text% "\n",
  text% "UnknownU-RNTIIndication ::= ENUMERATED {\n",
  text% "\tunknown,\n",
  text% "\t...\n",
  text% "}\n",
  text% "\n",
  text% "--V\n",
  text% "--W\n",
  text% "--X\n",
  text% "--Y\n",
  text% "--Z\n",
  text% "\n",
  text% "\n",
  text% "END\n"]

/-- asn1/hnbap/HNBAP-PDU-Descriptions.asn -/
noncomputable def hnbapDescriptions : List Text := [
  text% "-- **************************************************************\n",
  text% "--\n",
  text% "-- Elementary Procedure definitions\n",
  text% "--\n",
  text% "-- **************************************************************\n",
  text% "HNBAP-PDU-Descriptions  { \n",
  text% "itu-t (0) identified-organization (4) etsi (0) mobileDomain (0) \n",
  text% "umts-Access (20) modules (3) hnbap(6) version1 (1) hnbap-PDU-Descriptions (0)}\n",
  text% "\n",
  text% "DEFINITIONS AUTOMATIC TAGS ::= \n",
  text% "\n",
  text% "BEGIN\n",
  text% "\n",
  text% "-- **************************************************************\n",
  text% "--\n",
  text% "-- IE parameter types from other modules.\n",
  text% "--\n",
  text% "-- **************************************************************\n",
  text% "\n",
  text% "IMPORTS\n",
  text% "\tCriticality,\n",
  text% "\tProcedureCode\n",
  text% "FROM HNBAP-CommonDataTypes\n",
  text% "\n",
  text% "\tHNBRegisterRequest,\n",
  text% "\tHNBRegisterAccept,\n",
  text% "\tHNBRegisterReject,\n",
  text% "\tHNBDe-Register,\n",
  text% "\tUERegisterRequest,\n",
  text% "\tUERegisterAccept,\n",
  text% "\tUERegisterReject,\n",
  text% "\tUEDe-Register,\n",
  text% "\tErrorIndication,\n",
  text% "\tPrivateMessage,\n",
  text% "\tCSGMembershipUpdate,\n",
  text% "\tTNLUpdateRequest,\n",
  text% "\tTNLUpdateResponse,\n",
  text% "\tTNLUpdateFailure,\n",
  text% "\tHNBConfigTransferRequest,\n",
  text% "\tHNBConfigTransferResponse,\n",
  text% "\tRelocationComplete,\n",
  text% "\tU-RNTIQueryRequest,\n",
  text% "\tU-RNTIQueryResponse\n",
  text% "\n",
  text% "\n",
  text% "FROM HNBAP-PDU-Contents\n",
  text% "\tid-HNBRegister,\n",
  text% "\tid-UERegister,\n",
  text% "\tid-UEDe-Register,\n",
  text% "\tid-HNBDe-Register,\n",
  text% "\tid-ErrorIndication,\n",
  text% "\tid-privateMessage,\n",
  text% "\tid-CSGMembershipUpdate,\n",
  text% "\tid-TNLUpdate,\n",
  text% "\tid-HNBConfigTransfer,\n",
  text% "\tid-RelocationComplete,\n",
  text% "\tid-U-RNTIQuery\n",
  text% "\n",
  text% "FROM HNBAP-Constants;\n",
  text% "\n",
  text% "-- **************************************************************\n",
  text% "--\n",
  text% "-- Interface Elementary Procedure Class\n",
  text% "--\n",
  text% "-- **************************************************************\n",
  text% "\n",
  text% "HNBAP-ELEMENTARY-PROCEDURE ::= CLASS {\n",
  text% "\t&InitiatingMessage,\n",
  text% "\t&SuccessfulOutcome\tOPTIONAL,\n",
  text% "\t&UnsuccessfulOutcome\tOPTIONAL,\n",
  text% "\t&procedureCode\t\tProcedureCode \tUNIQUE,\n",
  text% "\t&criticality\t\tCriticality \tDEFAULT ignore\n",
  text% "}\n",
  text% "\n",
  text% "WITH SYNTAX {\n",
  text% "\tINITIATING MESSAGE\t&InitiatingMessage\n",
  text% "\t[SUCCESSFUL OUTCOME\t&SuccessfulOutcome]\n",
  text% "\t[UNSUCCESSFUL OUTCOME\t&UnsuccessfulOutcome]\n",
  text% "\tPROCEDURE CODE\t\t&procedureCode\n",
  text% "\t[CRITICALITY\t\t&criticality]\n",
  text% "}\n",
  text% "\n",
  text% "-- **************************************************************\n",
  text% "--\n",
  text% "-- Interface PDU definitions\n",
  text% "--\n",
  text% "-- **************************************************************\n",
  text% "\n",
  text% "HNBAP-PDU ::= CHOICE {\n",
  text% "\tinitiatingMessage\tInitiatingMessage,\n",
  text% "\tsuccessfulOutcome\tSuccessfulOutcome,\n",
  text% "\tunsuccessfulOutcome\tUnsuccessfulOutcome,\n",
  text% "\t...\n",
  text% "}\n",
  text% "\n",
  text% "\n",
  text% "InitiatingMessage ::= SEQUENCE {\n",
  text% "\tprocedureCode\tHNBAP-ELEMENTARY-PROCEDURE.&procedureCode\t({HNBAP-ELEMENTARY-PROCEDURES}),\n",
  text% "\tcriticality\tHNBAP-ELEMENTARY-PROCEDURE.&criticality\t\t({HNBAP-ELEMENTARY-PROCEDURES}{@procedureCode}),\n",
  text% "\tvalue\t\tHNBAP-ELEMENTARY-PROCEDURE.&InitiatingMessage\t({HNBAP-ELEMENTARY-PROCEDURES}{@procedureCode})\n",
  text% "}\n",
  text% "\n",
  text% "SuccessfulOutcome ::= SEQUENCE {\n",
  text% "\tprocedureCode\tHNBAP-ELEMENTARY-PROCEDURE.&procedureCode\t({HNBAP-ELEMENTARY-PROCEDURES}),\n",
  text% "\tcriticality\tHNBAP-ELEMENTARY-PROCEDURE.&criticality\t\t({HNBAP-ELEMENTARY-PROCEDURES}{@procedureCode}),\n",
  text% "\tvalue\t\tHNBAP-ELEMENTARY-PROCEDURE.&SuccessfulOutcome\t({HNBAP-ELEMENTARY-PROCEDURES}{@procedureCode})\n",
  text% "}\n",
  text% "\n",
  text% "UnsuccessfulOutcome ::= SEQUENCE {\n",
  text% "\tprocedureCode\tHNBAP-ELEMENTARY-PROCEDURE.&procedureCode\t({HNBAP-ELEMENTARY-PROCEDURES}),\n",
  text% "\tcriticality\tHNBAP-ELEMENTARY-PROCEDURE.&criticality\t\t({HNBAP-ELEMENTARY-PROCEDURES}{@procedureCode}),\n",
  text% "\tvalue\t\tHNBAP-ELEMENTARY-PROCEDURE.&UnsuccessfulOutcome\t({HNBAP-ELEMENTARY-PROCEDURES}{@procedureCode})\n",
  text% "}\n",
  text% "\n",
  text% "-- **************************************************************\n",
  text% "--\n",
  text% "-- Interface Elementary Procedure List\n",
  text% "--\n",
  text% "-- **************************************************************\n",
  text% "\n",
  text% "HNBAP-ELEMENTARY-PROCEDURES HNBAP-ELEMENTARY-PROCEDURE ::= {\n",
  text% "\tHNBAP-ELEMENTARY-PROCEDURES-CLASS-1\t|\n",
  text% "\tHNBAP-ELEMENTARY-PROCEDURES-CLASS-2\t,\n",
  text% "\t...\n",
  text% "}\n",
  text% "\n",
  text% "HNBAP-ELEMENTARY-PROCEDURES-CLASS-1 HNBAP-ELEMENTARY-PROCEDURE ::= {\n",
  text% "\thNBRegister|\n",
  text% "\tuERegister,\n",
  text% "\t...,\n",
  text% "\ttnlUpdate|\n",
  text% "\thNBConfigTransfer|\n",
  text% "\tu-RNTIQuery\n",
  text% "}\n",
  text% "\n",
  text% "\n",
  text% "HNBAP-ELEMENTARY-PROCEDURES-CLASS-2 HNBAP-ELEMENTARY-PROCEDURE ::= {\n",
  text% "\tuEDe-Register |\n",
  text% "\thNBDe-Register |\n",
  text% "\terrorIndication\t|\n",
  text% "\tprivateMessage,\n",
  text% "\t...,\n",
  text% "\tcsg-membership-update|\n",
  text% "\trelocationComplete\n",
  text% "}\n",
  text% "\n",
  text% "-- **************************************************************\n",
  text% "--\n",
  text% "-- Interface Elementary Procedures\n",
  text% "--\n",
  text% "-- **************************************************************\n",
  text% "\n",
  text% "\n",
  text% "hNBRegister HNBAP-ELEMENTARY-PROCEDURE ::= {\n",
  text% "\tINITIATING MESSAGE\tHNBRegisterRequest\n",
  text% "\tSUCCESSFUL OUTCOME\tHNBRegisterAccept\n",
  text% "\tUNSUCCESSFUL OUTCOME\tHNBRegisterReject\n",
  text% "\tPROCEDURE CODE\t\tid-HNBRegister\n",
  text% "\tCRITICALITY\t\treject\n",
  text% "}\n",
  text% "\n",
  text% "uERegister HNBAP-ELEMENTARY-PROCEDURE ::= {\n",
  text% "\tINITIATING MESSAGE\tUERegisterRequest\n",
  text% "\tSUCCESSFUL OUTCOME\tUERegisterAccept\n",
  text% "\tUNSUCCESSFUL OUTCOME\tUERegisterReject\n",
  text% "\tPROCEDURE CODE\t\tid-UERegister\n",
  text% "\tCRITICALITY\t\treject\n",
  text% "}\n",
  text% "\n",
  text% "uEDe-Register HNBAP-ELEMENTARY-PROCEDURE ::= {\n",
  text% "\tINITIATING MESSAGE\tUEDe-Register\n",
  text% "\tPROCEDURE CODE\t\tid-UEDe-Register\n",
  text% "\tCRITICALITY\t\tignore\n",
  text% "}\n",
  text% "\n",
  text% "hNBDe-Register HNBAP-ELEMENTARY-PROCEDURE ::= {\n",
  text% "\tINITIATING MESSAGE\tHNBDe-Register\n",
  text% "\tPROCEDURE CODE\t\tid-HNBDe-Register\n",
  text% "\tCRITICALITY\t\tignore\n",
  text% "}\n",
  text% "\n",
  text% "errorIndication HNBAP-ELEMENTARY-PROCEDURE ::= {\n",
  text% "\tINITIATING MESSAGE\tErrorIndication\n",
  text% "\tPROCEDURE CODE\t\tid-ErrorIndication\n",
  text% "\tCRITICALITY\t\tignore\n",
  text% "}\n",
  text% "\n",
  text% "csg-membership-update HNBAP-ELEMENTARY-PROCEDURE ::= {\n",
  text% "\tINITIATING MESSAGE\tCSGMembershipUpdate\n",
  text% "\tPROCEDURE CODE\t\tid-CSGMembershipUpdate\n",
  text% "\tCRITICALITY\t\tignore\n",
  text% "}\n",
  text% "\n",
  text% "tnlUpdate HNBAP-ELEMENTARY-PROCEDURE ::= {\n",
  text% "\tINITIATING MESSAGE\tTNLUpdateRequest\n",
  text% "\tSUCCESSFUL OUTCOME\tTNLUpdateResponse\n",
  text% "\tUNSUCCESSFUL OUTCOME\tTNLUpdateFailure\n",
  text% "\tPROCEDURE CODE\t\tid-TNLUpdate\n",
  text% "\tCRITICALITY\t\treject\n",
  text% "}\n",
  text% "\n",
  text% "hNBConfigTransfer HNBAP-ELEMENTARY-PROCEDURE ::= {\n",
  text% "\tINITIATING MESSAGE\tHNBConfigTransferRequest\n",
  text% "\tSUCCESSFUL OUTCOME\tHNBConfigTransferResponse\n",
  text% "\tPROCEDURE CODE\t\tid-HNBConfigTransfer\n",
  text% "\tCRITICALITY\t\treject\n",
  text% "}\n",
  text% "\n",
  text% "relocationComplete HNBAP-ELEMENTARY-PROCEDURE ::= {\n",
  text% "\tINITIATING MESSAGE\tRelocationComplete\n",
  text% "\tPROCEDURE CODE\t\tid-RelocationComplete\n",
  text% "\tCRITICALITY\t\tignore\n",
  text% "}\n",
  text% "\n",
  text% "u-RNTIQuery HNBAP-ELEMENTARY-PROCEDURE ::= {\n",
  text% "\tINITIATING MESSAGE\tU-RNTIQueryRequest\n",
  text% "\tSUCCESSFUL OUTCOME\tU-RNTIQueryResponse\n",
  text% "\tPROCEDURE CODE\t\tid-U-RNTIQuery\n",
  text% "\tCRITICALITY\t\treject\n",
  text% "}\n",
  text% "\n",
  text% "privateMessage HNBAP-ELEMENTARY-PROCEDURE ::= {\n",
  text% "\tINITIATING MESSAGE\tPrivateMessage\n",
  text% "\tPROCEDURE CODE\t\tid-privateMessage\n",
  text% "\tCRITICALITY\t\tignore\n",
  text% "}\n",
  text% "\n",
  text% "END\n"]

/-- asn1/hnbap/HNBAP-PDU.asn:140-144 -/
noncomputable def hnbapIe : List Text := [
  text% "IE ::= SEQUENCE {\n",
  text% "    id ProtocolIE-ID,\n",
  text% "    criticality Criticality,\n",
  text% "    value ANY\n",
  text% "}\n"]

end Verif.Gen.Text
