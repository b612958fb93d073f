import Verif.Gen.TextLit
import Verif.Model.AsnToStruct

/-!
# Text of the HNBAP messages

The lines 1-561 of `/repo/asn1/hnbap/HNBAP-PDU-Contents.asn` as they are, in parts, each with the tables of
elements that are expected for it.
-/

namespace Verif.Gen.Text
open Verif.AsnToStruct

/-- asn1/hnbap/HNBAP-PDU-Contents.asn:1-129 -/
noncomputable def hnbap0 : List Text := [
  text% "-- **************************************************************\n",
  text% "--\n",
  text% "-- PDU definitions for HNBAP.\n",
  text% "--\n",
  text% "-- **************************************************************\n",
  text% "\n",
  text% "HNBAP-PDU-Contents {\n",
  text% "itu-t (0) identified-organization (4) etsi (0) mobileDomain (0) \n",
  text% "umts-Access (20) modules (3) hnbap(6) version1 (1) hnbap-PDU-Contents (1) }\n",
  text% "\n",
  text% "DEFINITIONS AUTOMATIC TAGS ::= \n",
  text% "\n",
  text% "BEGIN\n",
  text% "\n",
  text% "-- **************************************************************\n",
  text% "--\n",
  text% "-- IE parameter types from other modules.\n",
  text% "--\n",
  text% "-- **************************************************************\n",
  text% "\n",
  text% "IMPORTS\n",
  text% "\tCause,\n",
  text% "\tCriticalityDiagnostics, \n",
  text% "\tCSGMembershipStatus,\n",
  text% "\tHNB-Location-Information,\n",
  text% "\tHNB-Identity,\n",
  text% "\tContext-ID,\n",
  text% "\tUE-Identity,\n",
  text% "\tLAC,\n",
  text% "\tRAC,\n",
  text% "\tSAC,\n",
  text% "\tCN-DomainIndicator,\n",
  text% "\tIP-Address,\n",
  text% "\tRegistration-Cause,\n",
  text% "\tUE-Capabilities,\n",
  text% "\tPLMNidentity,\n",
  text% "\tCellIdentity,\n",
  text% "\tRNC-ID,\n",
  text% "\tCSG-ID,\n",
  text% "\tHNB-Cell-Access-Mode,\n",
  text% "\tBackoffTimer,\n",
  text% "\tMuxPortNumber,\n",
  text% "\tRABList,\n",
  text% "\tHNBConfigInfo,\n",
  text% "\tAccessResult,\n",
  text% "\tUpdate-cause,\n",
  text% "\tNeighbourInfoList,\n",
  text% "\tNeighbourInfoRequestList,\n",
  text% "\tPSC,\n",
  text% "\tTunnel-Information,\n",
  text% "\tCELL-FACHMobilitySupport,\n",
  text% "\tS-RNTIPrefix,\n",
  text% "\tNeighbourIdentity,\n",
  text% "\tNeighbourCellIdentityList,\n",
  text% "\tURAIdentity,\n",
  text% "\tURAIdentityList,\n",
  text% "\tHNBCapacity,\n",
  text% "\tAdditionalNeighbourInfoList,\n",
  text% "\tU-RNTI,\n",
  text% "\tUnknownU-RNTIIndication,\n",
  text% "\tHNB-GWResponse\n",
  text% "\n",
  text% "\n",
  text% "\n",
  text% "FROM HNBAP-IEs\n",
  text% "\n",
  text% "\n",
  text% "\tProtocolExtensionContainer{},\n",
  text% "\tProtocolIE-ContainerList{},\n",
  text% "\tProtocolIE-Container{},\n",
  text% "\tProtocolIE-Single-Container{},\n",
  text% "\tPrivateIE-Container{},\n",
  text% "\tHNBAP-PRIVATE-IES,\n",
  text% "\tHNBAP-PROTOCOL-EXTENSION,\n",
  text% "\tHNBAP-PROTOCOL-IES\n",
  text% "\n",
  text% "FROM HNBAP-Containers\n",
  text% "\n",
  text% "\tid-Cause,\n",
  text% "\tid-CriticalityDiagnostics, \n",
  text% "\tid-CSGMembershipStatus,\n",
  text% "\tid-HNB-Location-Information,\n",
  text% "\tid-HNB-Identity,\n",
  text% "\tid-Context-ID,\n",
  text% "\tid-PLMNidentity,\n",
  text% "\tid-UE-Identity,\n",
  text% "\tid-LAC,\n",
  text% "\tid-RAC,\n",
  text% "\tid-SAC,\n",
  text% "\tid-UE-Capabilities,\n",
  text% "\tid-Registration-Cause,\n",
  text% "\tid-CellIdentity,\n",
  text% "\tid-RNC-ID,\n",
  text% "\tid-CSG-ID,\n",
  text% "\tid-HNB-Cell-Access-Mode,\n",
  text% "\tid-BackoffTimer,\n",
  text% "\tid-Service-Area-For-Broadcast,\n",
  text% "\tid-MuxPortNumber,\n",
  text% "\tid-RABList,\n",
  text% "\tid-HNBConfigInfo,\n",
  text% "\tid-AccessResult,\n",
  text% "\tid-Update-cause,\n",
  text% "\tid-NeighbourInfoList,\n",
  text% "\tid-NeighbourInfoRequestList,\n",
  text% "\tid-Iurh-Signalling-TNL-Address,\n",
  text% "\tid-PSC,\n",
  text% "\tid-Tunnel-Information,\n",
  text% "\tid-CELL-FACHMobilitySupport,\n",
  text% "\tid-S-RNTIPrefix,\n",
  text% "\tid-URAIdentity,\n",
  text% "\tid-URAIdentityList,\n",
  text% "\tid-NeighbourIdentity, \n",
  text% "\tid-NeighbourCellIdentityList,\n",
  text% "\tid-HNBCapacity,\n",
  text% "\tid-AdditionalNeighbourInfoList,\n",
  text% "\tid-U-RNTI,\n",
  text% "\tid-UnknownU-RNTIIndication,\n",
  text% "\tid-HNB-GWResponse\n",
  text% "\n",
  text% "\n",
  text% "FROM HNBAP-Constants;\n",
  text% "\n",
  text% "-- **************************************************************\n",
  text% "--\n",
  text% "-- HNB Register REQUEST\n",
  text% "--\n",
  text% "-- **************************************************************\n",
  text% "\n",
  text% "HNBRegisterRequest ::= SEQUENCE {\n"]

/-- The tables of `hnbap0`. -/
noncomputable def hnbap0Tables : List (Text × List Row) := []

/-- asn1/hnbap/HNBAP-PDU-Contents.asn:130-166 -/
noncomputable def hnbap1 : List Text := [
  text% "\tprotocolIEs\t\tProtocolIE-Container       { {HNBRegisterRequestIEs} },\n",
  text% "\tprotocolExtensions\tProtocolExtensionContainer { {HNBRegisterRequestExtensions} } \tOPTIONAL,\n",
  text% "\t...\n",
  text% "}\n",
  text% "\n",
  text% "HNBRegisterRequestIEs HNBAP-PROTOCOL-IES ::= {\n",
  text% "\t{ ID id-HNB-Identity\t\tCRITICALITY reject\tTYPE HNB-Identity\tPRESENCE mandatory } |\n",
  text% "\t{ ID id-HNB-Location-Information CRITICALITY reject\tTYPE HNB-Location-Information\tPRESENCE mandatory } |\n",
  text% "\t{ ID id-PLMNidentity\t\tCRITICALITY reject\tTYPE PLMNidentity\tPRESENCE mandatory } |\n",
  text% "\t{ ID id-CellIdentity\t\tCRITICALITY reject\tTYPE CellIdentity\tPRESENCE mandatory } |\n",
  text% "\t{ ID id-LAC\t\t\tCRITICALITY reject\tTYPE LAC\t\tPRESENCE mandatory } |\n",
  text% "\t{ ID id-RAC\t\t\tCRITICALITY reject\tTYPE RAC\t\tPRESENCE mandatory } |\n",
  text% "\t{ ID id-SAC\t\t\tCRITICALITY reject\tTYPE SAC\t\tPRESENCE mandatory } |\n",
  text% "\t{ ID id-CSG-ID\t\t\tCRITICALITY reject\tTYPE CSG-ID\t\tPRESENCE optional } ,\n",
  text% "\t...\n",
  text% "}\n",
  text% "\n",
  text% "HNBRegisterRequestExtensions HNBAP-PROTOCOL-EXTENSION ::= {\n",
  text% "\t{ ID id-Service-Area-For-Broadcast\tCRITICALITY ignore\tEXTENSION SAC\t\t\tPRESENCE optional }|\n",
  text% "\t{ ID id-HNB-Cell-Access-Mode\t\tCRITICALITY reject\tEXTENSION HNB-Cell-Access-Mode\tPRESENCE optional }|\n",
  text% "\t{ ID id-PSC\t\t\t\tCRITICALITY ignore\tEXTENSION PSC\t\t\tPRESENCE optional }|\n",
  text% "\t{ ID id-Iurh-Signalling-TNL-Address\tCRITICALITY ignore\tEXTENSION IP-Address\t\tPRESENCE optional }|\n",
  text% "\t{ ID id-Tunnel-Information\t\tCRITICALITY ignore\tEXTENSION Tunnel-Information\tPRESENCE optional }|\n",
  text% "\t{ ID id-CELL-FACHMobilitySupport\tCRITICALITY ignore\tEXTENSION CELL-FACHMobilitySupport\tPRESENCE optional }|\n",
  text% "\t{ ID id-NeighbourCellIdentityList\tCRITICALITY ignore\tEXTENSION NeighbourCellIdentityList\tPRESENCE optional }|\n",
  text% "\t{ ID id-URAIdentityList\t\t\tCRITICALITY ignore\tEXTENSION URAIdentityList\tPRESENCE optional }|\n",
  text% "\t{ ID id-HNBCapacity\t\t\tCRITICALITY ignore\tEXTENSION HNBCapacity\t\tPRESENCE optional },\n",
  text% "\t...\n",
  text% "}\n",
  text% "\n",
  text% "-- **************************************************************\n",
  text% "--\n",
  text% "-- HNB Register Accept\n",
  text% "--\n",
  text% "-- **************************************************************\n",
  text% "\n",
  text% "HNBRegisterAccept ::= SEQUENCE {\n"]

/-- The tables of `hnbap1`. -/
noncomputable def hnbap1Tables : List (Text × List Row) := [
  (text% "HNBRegisterRequestIEs", [
    ⟨text% "id-HNB-Identity", text% "reject", text% "HNB-Identity", text% "mandatory"⟩,
    ⟨text% "id-HNB-Location-Information", text% "reject", text% "HNB-Location-Information", text% "mandatory"⟩,
    ⟨text% "id-PLMNidentity", text% "reject", text% "PLMNidentity", text% "mandatory"⟩,
    ⟨text% "id-CellIdentity", text% "reject", text% "CellIdentity", text% "mandatory"⟩,
    ⟨text% "id-LAC", text% "reject", text% "LAC", text% "mandatory"⟩,
    ⟨text% "id-RAC", text% "reject", text% "RAC", text% "mandatory"⟩,
    ⟨text% "id-SAC", text% "reject", text% "SAC", text% "mandatory"⟩,
    ⟨text% "id-CSG-ID", text% "reject", text% "CSG-ID", text% "optional"⟩])]

/-- asn1/hnbap/HNBAP-PDU-Contents.asn:167-217 -/
noncomputable def hnbap2 : List Text := [
  text% "\tprotocolIEs\t\tProtocolIE-Container\t\t{ {HNBRegisterAcceptIEs} },\n",
  text% "\tprotocolExtensions\tProtocolExtensionContainer\t{ {HNBRegisterAcceptExtensions} }\tOPTIONAL,\n",
  text% "\t...\n",
  text% "}\n",
  text% "\n",
  text% "HNBRegisterAcceptIEs HNBAP-PROTOCOL-IES ::= {\n",
  text% "\t{ ID id-RNC-ID\t\tCRITICALITY reject\tTYPE RNC-ID\t\tPRESENCE mandatory },\n",
  text% "\t...\n",
  text% "}\n",
  text% "\n",
  text% "HNBRegisterAcceptExtensions HNBAP-PROTOCOL-EXTENSION ::= {\n",
  text% "-- Extension for Release 9 to support CS Multiplexing --\n",
  text% "\t{ ID id-MuxPortNumber\t\t\tCRITICALITY ignore\tEXTENSION MuxPortNumber\t\tPRESENCE optional}|\n",
  text% "\t{ ID id-Iurh-Signalling-TNL-Address\tCRITICALITY ignore\tEXTENSION IP-Address\t\tPRESENCE optional}|\n",
  text% "\t{ ID id-S-RNTIPrefix\t\t\tCRITICALITY ignore\tEXTENSION S-RNTIPrefix\t\tPRESENCE optional},\n",
  text% "\t...\n",
  text% "}\n",
  text% "\n",
  text% "-- **************************************************************\n",
  text% "--\n",
  text% "-- HNB Register REJECT\n",
  text% "--\n",
  text% "-- **************************************************************\n",
  text% "\n",
  text% "HNBRegisterReject ::= SEQUENCE {\n",
  text% "\tprotocolIEs\t\tProtocolIE-Container       { {HNBRegisterRejectIEs} },\n",
  text% "\tprotocolExtensions\tProtocolExtensionContainer { {HNBRegisterRejectExtensions} } \tOPTIONAL,\n",
  text% "\t...\n",
  text% "}\n",
  text% "\n",
  text% "HNBRegisterRejectIEs HNBAP-PROTOCOL-IES ::= {\n",
  text% "\t{ ID id-Cause\t\t\tCRITICALITY ignore\tTYPE Cause\t\t\tPRESENCE mandatory} |\n",
  text% "\t{ ID id-CriticalityDiagnostics\tCRITICALITY ignore\tTYPE CriticalityDiagnostics\tPRESENCE optional } |\n",
  text% "\t{ ID id-BackoffTimer\t\tCRITICALITY reject\tTYPE BackoffTimer\t\tPRESENCE conditional },\n",
  text% "\t-- This IE shall be present if the Cause IE is set to \"Overload\".\n",
  text% "\t...\n",
  text% "}\n",
  text% "\n",
  text% "HNBRegisterRejectExtensions HNBAP-PROTOCOL-EXTENSION ::= {\n",
  text% "\t...\n",
  text% "}\n",
  text% "\n",
  text% "\n",
  text% "\n",
  text% "-- **************************************************************\n",
  text% "--\n",
  text% "-- HNB De- Register\n",
  text% "--\n",
  text% "-- **************************************************************\n",
  text% "\n",
  text% "HNBDe-Register ::= SEQUENCE {\n"]

/-- The tables of `hnbap2`. -/
noncomputable def hnbap2Tables : List (Text × List Row) := [
  (text% "HNBRegisterAcceptIEs", [
    ⟨text% "id-RNC-ID", text% "reject", text% "RNC-ID", text% "mandatory"⟩]),
  (text% "HNBRegisterRejectIEs", [
    ⟨text% "id-Cause", text% "ignore", text% "Cause", text% "mandatory"⟩,
    ⟨text% "id-CriticalityDiagnostics", text% "ignore", text% "CriticalityDiagnostics", text% "optional"⟩,
    ⟨text% "id-BackoffTimer", text% "reject", text% "BackoffTimer", text% "conditional"⟩])]

/-- asn1/hnbap/HNBAP-PDU-Contents.asn:218-288 -/
noncomputable def hnbap3 : List Text := [
  text% "\tprotocolIEs\t\tProtocolIE-Container       { {HNBDe-RegisterIEs} },\n",
  text% "\tprotocolExtensions\tProtocolExtensionContainer { {HNBDe-RegisterExtensions} } \tOPTIONAL,\n",
  text% "\t...\n",
  text% "}\n",
  text% "\n",
  text% "HNBDe-RegisterIEs HNBAP-PROTOCOL-IES ::= {\n",
  text% "\t{ ID id-Cause\t\t\tCRITICALITY ignore\tTYPE Cause\t\tPRESENCE mandatory } |\n",
  text% "\t{ ID id-BackoffTimer\t\tCRITICALITY reject\tTYPE BackoffTimer\tPRESENCE conditional },\n",
  text% "\t-- This IE shall be present if the Cause IE is set to \"Overload\".\n",
  text% "\t...\n",
  text% "}\n",
  text% "\n",
  text% "HNBDe-RegisterExtensions HNBAP-PROTOCOL-EXTENSION ::= {\n",
  text% "\t...\n",
  text% "}\n",
  text% "\n",
  text% "\n",
  text% "-- **************************************************************\n",
  text% "--\n",
  text% "-- UE Register REQUEST\n",
  text% "--\n",
  text% "-- **************************************************************\n",
  text% "\n",
  text% "UERegisterRequest ::= SEQUENCE {\n",
  text% "\tprotocolIEs\t\tProtocolIE-Container       { {UERegisterRequestIEs} },\n",
  text% "\tprotocolExtensions\tProtocolExtensionContainer { {UERegisterRequestExtensions} } \tOPTIONAL,\n",
  text% "\t...\n",
  text% "}\n",
  text% "\n",
  text% "UERegisterRequestIEs HNBAP-PROTOCOL-IES ::= {\n",
  text% "\t{ ID id-UE-Identity\t\tCRITICALITY reject\tTYPE UE-Identity\t\tPRESENCE mandatory } |\n",
  text% "\t{ ID id-Registration-Cause\tCRITICALITY ignore\tTYPE Registration-Cause\t\tPRESENCE mandatory } |\n",
  text% "\t{ ID id-UE-Capabilities\t\tCRITICALITY reject\tTYPE UE-Capabilities\t\tPRESENCE mandatory },\n",
  text% "\t...\n",
  text% "}\n",
  text% "\n",
  text% "UERegisterRequestExtensions HNBAP-PROTOCOL-EXTENSION ::= {\n",
  text% "\t...\n",
  text% "}\n",
  text% "\n",
  text% "-- **************************************************************\n",
  text% "--\n",
  text% "-- UE Register ACCEPT\n",
  text% "--\n",
  text% "-- **************************************************************\n",
  text% "\n",
  text% "UERegisterAccept ::= SEQUENCE {\n",
  text% "\tprotocolIEs\t\tProtocolIE-Container\t\t{ {UERegisterAcceptIEs} },\n",
  text% "\tprotocolExtensions\tProtocolExtensionContainer\t{ {UERegisterAcceptExtensions} } \tOPTIONAL,\n",
  text% "\t...\n",
  text% "}\n",
  text% "\n",
  text% "UERegisterAcceptIEs HNBAP-PROTOCOL-IES ::= {\n",
  text% "\t{ ID id-UE-Identity\tCRITICALITY reject\tTYPE UE-Identity\tPRESENCE mandatory } |\n",
  text% "\t{ ID id-Context-ID\tCRITICALITY reject\tTYPE Context-ID\t\tPRESENCE mandatory },\n",
  text% "\t...\n",
  text% "}\n",
  text% "\n",
  text% "\n",
  text% "UERegisterAcceptExtensions HNBAP-PROTOCOL-EXTENSION ::= {\n",
  text% "\t{ ID id-CSGMembershipStatus\tCRITICALITY reject\tEXTENSION CSGMembershipStatus\tPRESENCE optional },\n",
  text% "\t...\n",
  text% "}\n",
  text% "\n",
  text% "-- **************************************************************\n",
  text% "--\n",
  text% "-- UE Register REJECT\n",
  text% "--\n",
  text% "-- **************************************************************\n",
  text% "\n",
  text% "UERegisterReject ::= SEQUENCE {\n"]

/-- The tables of `hnbap3`. -/
noncomputable def hnbap3Tables : List (Text × List Row) := [
  (text% "HNBDe-RegisterIEs", [
    ⟨text% "id-Cause", text% "ignore", text% "Cause", text% "mandatory"⟩,
    ⟨text% "id-BackoffTimer", text% "reject", text% "BackoffTimer", text% "conditional"⟩]),
  (text% "UERegisterRequestIEs", [
    ⟨text% "id-UE-Identity", text% "reject", text% "UE-Identity", text% "mandatory"⟩,
    ⟨text% "id-Registration-Cause", text% "ignore", text% "Registration-Cause", text% "mandatory"⟩,
    ⟨text% "id-UE-Capabilities", text% "reject", text% "UE-Capabilities", text% "mandatory"⟩]),
  (text% "UERegisterAcceptIEs", [
    ⟨text% "id-UE-Identity", text% "reject", text% "UE-Identity", text% "mandatory"⟩,
    ⟨text% "id-Context-ID", text% "reject", text% "Context-ID", text% "mandatory"⟩])]

/-- asn1/hnbap/HNBAP-PDU-Contents.asn:289-356 -/
noncomputable def hnbap4 : List Text := [
  text% "\tprotocolIEs\t\tProtocolIE-Container\t\t{ {UERegisterRejectIEs} },\n",
  text% "\tprotocolExtensions\tProtocolExtensionContainer\t{ {UERegisterRejectExtensions} } OPTIONAL,\n",
  text% "\t...\n",
  text% "}\n",
  text% "\n",
  text% "UERegisterRejectIEs HNBAP-PROTOCOL-IES ::= {\n",
  text% "\t{ ID id-UE-Identity\t\tCRITICALITY reject\tTYPE UE-Identity\t\tPRESENCE mandatory } |\n",
  text% "\t{ ID id-Cause\t\t\tCRITICALITY ignore\tTYPE Cause\t\t\tPRESENCE mandatory} |\n",
  text% "\t{ ID id-CriticalityDiagnostics\tCRITICALITY ignore\tTYPE CriticalityDiagnostics\tPRESENCE optional },\n",
  text% "\t...\n",
  text% "}\n",
  text% "\n",
  text% "UERegisterRejectExtensions HNBAP-PROTOCOL-EXTENSION ::= {\n",
  text% "\t...\n",
  text% "}\n",
  text% "\n",
  text% "\n",
  text% "-- **************************************************************\n",
  text% "--\n",
  text% "-- UE De-Register\n",
  text% "--\n",
  text% "-- **************************************************************\n",
  text% "\n",
  text% "UEDe-Register ::= SEQUENCE {\n",
  text% "\tprotocolIEs\t\tProtocolIE-Container\t\t{ {UEDe-RegisterIEs} },\n",
  text% "\tprotocolExtensions\tProtocolExtensionContainer\t{ {UEDe-RegisterExtensions} } \tOPTIONAL,\n",
  text% "\t...\n",
  text% "}\n",
  text% "\n",
  text% "UEDe-RegisterIEs HNBAP-PROTOCOL-IES ::= {\n",
  text% "\t{ ID id-Context-ID\tCRITICALITY reject\tTYPE Context-ID\t\tPRESENCE mandatory } |\n",
  text% "\t{ ID id-Cause\t\tCRITICALITY ignore\tTYPE Cause\t\tPRESENCE mandatory } ,\n",
  text% "\t...\n",
  text% "}\n",
  text% "\n",
  text% "UEDe-RegisterExtensions HNBAP-PROTOCOL-EXTENSION ::= {\n",
  text% "\t...\n",
  text% "}\n",
  text% "\n",
  text% "-- **************************************************************\n",
  text% "--\n",
  text% "-- CSG Membership Update\n",
  text% "--\n",
  text% "-- **************************************************************\n",
  text% "\n",
  text% "CSGMembershipUpdate ::= SEQUENCE {\n",
  text% "\tprotocolIEs\t\tProtocolIE-Container\t\t{ {CSGMembershipUpdateIEs} },\n",
  text% "\tprotocolExtensions\tProtocolExtensionContainer\t{ {CSGMembershipUpdateExtensions} } \tOPTIONAL,\n",
  text% "\t...\n",
  text% "}\n",
  text% "\n",
  text% "CSGMembershipUpdateIEs HNBAP-PROTOCOL-IES ::= {\n",
  text% "\t{ ID id-Context-ID\t\tCRITICALITY reject\tTYPE Context-ID\t\t\tPRESENCE mandatory } |\n",
  text% "\t{ ID id-CSGMembershipStatus\tCRITICALITY reject\tTYPE CSGMembershipStatus\tPRESENCE mandatory },\n",
  text% "\t...\n",
  text% "}\n",
  text% "\n",
  text% "CSGMembershipUpdateExtensions HNBAP-PROTOCOL-EXTENSION ::= {\n",
  text% "\t...\n",
  text% "}\n",
  text% "\n",
  text% "-- **************************************************************\n",
  text% "--\n",
  text% "-- TNL Update Request\n",
  text% "--\n",
  text% "-- **************************************************************\n",
  text% "\n",
  text% "TNLUpdateRequest ::= SEQUENCE {\n"]

/-- The tables of `hnbap4`. -/
noncomputable def hnbap4Tables : List (Text × List Row) := [
  (text% "UERegisterRejectIEs", [
    ⟨text% "id-UE-Identity", text% "reject", text% "UE-Identity", text% "mandatory"⟩,
    ⟨text% "id-Cause", text% "ignore", text% "Cause", text% "mandatory"⟩,
    ⟨text% "id-CriticalityDiagnostics", text% "ignore", text% "CriticalityDiagnostics", text% "optional"⟩]),
  (text% "UEDe-RegisterIEs", [
    ⟨text% "id-Context-ID", text% "reject", text% "Context-ID", text% "mandatory"⟩,
    ⟨text% "id-Cause", text% "ignore", text% "Cause", text% "mandatory"⟩]),
  (text% "CSGMembershipUpdateIEs", [
    ⟨text% "id-Context-ID", text% "reject", text% "Context-ID", text% "mandatory"⟩,
    ⟨text% "id-CSGMembershipStatus", text% "reject", text% "CSGMembershipStatus", text% "mandatory"⟩])]

/-- asn1/hnbap/HNBAP-PDU-Contents.asn:357-423 -/
noncomputable def hnbap5 : List Text := [
  text% "\tprotocolIEs\t\tProtocolIE-Container\t\t{ {TNLUpdateRequestIEs} },\n",
  text% "\tprotocolExtensions\tProtocolExtensionContainer\t{ {TNLUpdateExtensions} } \tOPTIONAL,\n",
  text% "\t...\n",
  text% "}\n",
  text% "\n",
  text% "TNLUpdateRequestIEs HNBAP-PROTOCOL-IES ::= {\n",
  text% "\t{ ID id-Context-ID\tCRITICALITY reject\tTYPE Context-ID\t\tPRESENCE mandatory } |\n",
  text% "\t{ ID id-RABList\t\tCRITICALITY reject\tTYPE RABList\t\tPRESENCE mandatory } |\n",
  text% "\t{ ID id-Update-cause\tCRITICALITY reject\tTYPE Update-cause\tPRESENCE mandatory } ,\n",
  text% "\t\t...\n",
  text% "}\n",
  text% "\n",
  text% "TNLUpdateExtensions HNBAP-PROTOCOL-EXTENSION ::= {\n",
  text% "\t...\n",
  text% "}\n",
  text% "\n",
  text% "-- **************************************************************\n",
  text% "--\n",
  text% "-- TNL UPDATE RESPONSE\n",
  text% "--\n",
  text% "-- **************************************************************\n",
  text% "\n",
  text% "TNLUpdateResponse ::= SEQUENCE {\n",
  text% "\tprotocolIEs\t\tProtocolIE-Container\t\t{ { TNLUpdateResponseIEs} },\n",
  text% "\tprotocolExtensions\tProtocolExtensionContainer\t{ { TNLUpdateResponseExtensions} } \tOPTIONAL,\n",
  text% "\t...\n",
  text% "}\n",
  text% "\n",
  text% "TNLUpdateResponseIEs HNBAP-PROTOCOL-IES ::= {\n",
  text% "\t{ ID id-Context-ID\tCRITICALITY reject\tTYPE Context-ID\t\tPRESENCE mandatory } ,\n",
  text% "\t\t...\n",
  text% "}\n",
  text% "\n",
  text% "TNLUpdateResponseExtensions HNBAP-PROTOCOL-EXTENSION ::= {\n",
  text% "\t...\n",
  text% "}\n",
  text% "\n",
  text% "-- **************************************************************\n",
  text% "--\n",
  text% "-- TNL UPDATE FAILURE\n",
  text% "--\n",
  text% "-- **************************************************************\n",
  text% "\n",
  text% "TNLUpdateFailure ::= SEQUENCE {\n",
  text% "\tprotocolIEs\t\tProtocolIE-Container\t\t{ {TNLUpdateFailureIEs} },\n",
  text% "\tprotocolExtensions\tProtocolExtensionContainer\t{ {TNLUpdateFailureExtensions} } \tOPTIONAL,\n",
  text% "\t...\n",
  text% "}\n",
  text% "\n",
  text% "TNLUpdateFailureIEs HNBAP-PROTOCOL-IES ::= {\n",
  text% "\t{ ID id-Context-ID\t\tCRITICALITY reject\tTYPE Context-ID\t\t\tPRESENCE mandatory } |\n",
  text% "\t{ ID id-Cause\t\t\tCRITICALITY ignore\tTYPE Cause\t\t\tPRESENCE mandatory } |\n",
  text% "\t{ ID id-CriticalityDiagnostics\tCRITICALITY ignore\tTYPE CriticalityDiagnostics\tPRESENCE optional } ,\n",
  text% "\t\t...\n",
  text% "}\n",
  text% "\n",
  text% "TNLUpdateFailureExtensions HNBAP-PROTOCOL-EXTENSION ::= {\n",
  text% "\t...\n",
  text% "}\n",
  text% "\n",
  text% "-- **************************************************************\n",
  text% "--\n",
  text% "-- HNB Configuration Transfer Request\n",
  text% "--\n",
  text% "-- **************************************************************\n",
  text% "\n",
  text% "HNBConfigTransferRequest ::= SEQUENCE {\n"]

/-- The tables of `hnbap5`. -/
noncomputable def hnbap5Tables : List (Text × List Row) := [
  (text% "TNLUpdateRequestIEs", [
    ⟨text% "id-Context-ID", text% "reject", text% "Context-ID", text% "mandatory"⟩,
    ⟨text% "id-RABList", text% "reject", text% "RABList", text% "mandatory"⟩,
    ⟨text% "id-Update-cause", text% "reject", text% "Update-cause", text% "mandatory"⟩]),
  (text% "TNLUpdateResponseIEs", [
    ⟨text% "id-Context-ID", text% "reject", text% "Context-ID", text% "mandatory"⟩]),
  (text% "TNLUpdateFailureIEs", [
    ⟨text% "id-Context-ID", text% "reject", text% "Context-ID", text% "mandatory"⟩,
    ⟨text% "id-Cause", text% "ignore", text% "Cause", text% "mandatory"⟩,
    ⟨text% "id-CriticalityDiagnostics", text% "ignore", text% "CriticalityDiagnostics", text% "optional"⟩])]

/-- asn1/hnbap/HNBAP-PDU-Contents.asn:424-488 -/
noncomputable def hnbap6 : List Text := [
  text% "\tprotocolIEs\t\tProtocolIE-Container       { {HNBConfigTransferRequestIEs} },\n",
  text% "\tprotocolExtensions\tProtocolExtensionContainer { {HNBConfigTransferRequestExtensions} } \tOPTIONAL,\n",
  text% "\t...\n",
  text% "}\n",
  text% "\n",
  text% "HNBConfigTransferRequestIEs HNBAP-PROTOCOL-IES ::= {\n",
  text% "\t{ ID id-NeighbourInfoRequestList\tCRITICALITY reject\tTYPE NeighbourInfoRequestList\tPRESENCE mandatory } ,\n",
  text% "\t...\n",
  text% "}\n",
  text% "\n",
  text% "HNBConfigTransferRequestExtensions HNBAP-PROTOCOL-EXTENSION ::= {\n",
  text% "\t...\n",
  text% "}\n",
  text% "\n",
  text% "-- **************************************************************\n",
  text% "--\n",
  text% "-- HNB Configuration Transfer Response\n",
  text% "--\n",
  text% "-- **************************************************************\n",
  text% "\n",
  text% "HNBConfigTransferResponse ::= SEQUENCE {\n",
  text% "\tprotocolIEs\t\tProtocolIE-Container       { { HNBConfigTransferResponseIEs} },\n",
  text% "\tprotocolExtensions\tProtocolExtensionContainer { { HNBConfigTransferResponseExtensions} } \tOPTIONAL,\n",
  text% "\t...\n",
  text% "}\n",
  text% "\n",
  text% "HNBConfigTransferResponseIEs HNBAP-PROTOCOL-IES ::= {\n",
  text% "\t{ ID id-NeighbourInfoList\tCRITICALITY reject\tTYPE NeighbourInfoList\t\tPRESENCE mandatory } ,\n",
  text% "\t...\n",
  text% "}\n",
  text% "\n",
  text% "HNBConfigTransferResponseExtensions HNBAP-PROTOCOL-EXTENSION ::= {\n",
  text% "\t{ ID id-AdditionalNeighbourInfoList\tCRITICALITY ignore\tEXTENSION AdditionalNeighbourInfoList\tPRESENCE optional},\n",
  text% "\t...\n",
  text% "}\n",
  text% "\n",
  text% "-- **************************************************************\n",
  text% "--\n",
  text% "-- RELOCATION COMPLETE\n",
  text% "--\n",
  text% "-- **************************************************************\n",
  text% "\n",
  text% "RelocationComplete ::= SEQUENCE {\n",
  text% "\tprotocolIEs\t\tProtocolIE-Container\t\t{ { RelocationCompleteIEs} },\n",
  text% "\tprotocolExtensions\tProtocolExtensionContainer\t{ { RelocationCompleteExtensions} } \tOPTIONAL,\n",
  text% "\t...\n",
  text% "}\n",
  text% "\n",
  text% "RelocationCompleteIEs HNBAP-PROTOCOL-IES ::= {\n",
  text% "\t{ ID id-Context-ID\tCRITICALITY ignore\tTYPE Context-ID\t\t\tPRESENCE mandatory } ,\n",
  text% "\t...\n",
  text% "}\n",
  text% "\n",
  text% "\n",
  text% "RelocationCompleteExtensions HNBAP-PROTOCOL-EXTENSION ::= {\n",
  text% "\t...\n",
  text% "}\n",
  text% "\n",
  text% "-- **************************************************************\n",
  text% "--\n",
  text% "-- ERROR INDICATION\n",
  text% "--\n",
  text% "-- **************************************************************\n",
  text% "\n",
  text% "ErrorIndication ::= SEQUENCE {\n"]

/-- The tables of `hnbap6`. -/
noncomputable def hnbap6Tables : List (Text × List Row) := [
  (text% "HNBConfigTransferRequestIEs", [
    ⟨text% "id-NeighbourInfoRequestList", text% "reject", text% "NeighbourInfoRequestList", text% "mandatory"⟩]),
  (text% "HNBConfigTransferResponseIEs", [
    ⟨text% "id-NeighbourInfoList", text% "reject", text% "NeighbourInfoList", text% "mandatory"⟩]),
  (text% "RelocationCompleteIEs", [
    ⟨text% "id-Context-ID", text% "ignore", text% "Context-ID", text% "mandatory"⟩])]

/-- asn1/hnbap/HNBAP-PDU-Contents.asn:489-546 -/
noncomputable def hnbap7 : List Text := [
  text% "\tprotocolIEs\t\tProtocolIE-Container\t\t{ {ErrorIndicationIEs} },\n",
  text% "\tprotocolExtensions\tProtocolExtensionContainer\t{ {ErrorIndicationExtensions} } \tOPTIONAL,\n",
  text% "\t...\n",
  text% "}\n",
  text% "\n",
  text% "ErrorIndicationIEs HNBAP-PROTOCOL-IES ::= {\n",
  text% "\t{ ID id-Cause\t\t\tCRITICALITY ignore\tTYPE Cause\t\t\tPRESENCE mandatory } |\n",
  text% "\t{ ID id-CriticalityDiagnostics\tCRITICALITY ignore\tTYPE CriticalityDiagnostics\tPRESENCE optional },\n",
  text% "\t\t...\n",
  text% "}\n",
  text% "\n",
  text% "ErrorIndicationExtensions HNBAP-PROTOCOL-EXTENSION ::= {\n",
  text% "\t...\n",
  text% "}\n",
  text% "\n",
  text% "-- **************************************************************\n",
  text% "--\n",
  text% "-- PRIVATE MESSAGE\n",
  text% "--\n",
  text% "-- **************************************************************\n",
  text% "\n",
  text% "PrivateMessage ::= SEQUENCE {\n",
  text% "\tprivateIEs\t\tPrivateIE-Container  {{PrivateMessage-IEs}},\n",
  text% "\t...\n",
  text% "}\n",
  text% "\n",
  text% "PrivateMessage-IEs HNBAP-PRIVATE-IES ::= {\n",
  text% "\t...\n",
  text% "}\n",
  text% "\n",
  text% "-- **************************************************************\n",
  text% "--\n",
  text% "-- U-RNTI Query Request\n",
  text% "--\n",
  text% "-- **************************************************************\n",
  text% "\n",
  text% "U-RNTIQueryRequest ::= SEQUENCE {\n",
  text% "\tprotocolIEs\t\tProtocolIE-Container       { {U-RNTIQueryRequestIEs} },\n",
  text% "\tprotocolExtensions\tProtocolExtensionContainer { {U-RNTIQueryRequestExtensions} }\tOPTIONAL,\n",
  text% "\t...\n",
  text% "}\n",
  text% "\n",
  text% "U-RNTIQueryRequestIEs HNBAP-PROTOCOL-IES ::= {\n",
  text% "\t{ ID id-U-RNTI\t\tCRITICALITY reject\tTYPE U-RNTI\t\t\tPRESENCE mandatory } ,\n",
  text% "\t...\n",
  text% "}\n",
  text% "\n",
  text% "U-RNTIQueryRequestExtensions HNBAP-PROTOCOL-EXTENSION ::= {\n",
  text% "\t...\n",
  text% "}\n",
  text% "\n",
  text% "-- **************************************************************\n",
  text% "--\n",
  text% "-- U-RNTI Query Response\n",
  text% "--\n",
  text% "-- **************************************************************\n",
  text% "\n",
  text% "U-RNTIQueryResponse ::= SEQUENCE {\n"]

/-- The tables of `hnbap7`. -/
noncomputable def hnbap7Tables : List (Text × List Row) := [
  (text% "ErrorIndicationIEs", [
    ⟨text% "id-Cause", text% "ignore", text% "Cause", text% "mandatory"⟩,
    ⟨text% "id-CriticalityDiagnostics", text% "ignore", text% "CriticalityDiagnostics", text% "optional"⟩]),
  (text% "U-RNTIQueryRequestIEs", [
    ⟨text% "id-U-RNTI", text% "reject", text% "U-RNTI", text% "mandatory"⟩])]

/-- asn1/hnbap/HNBAP-PDU-Contents.asn:547-561 -/
noncomputable def hnbap8 : List Text := [
  text% "\tprotocolIEs\t\tProtocolIE-Container       { { U-RNTIQueryResponseIEs} },\n",
  text% "\tprotocolExtensions\tProtocolExtensionContainer { { U-RNTIQueryResponseExtensions} } \tOPTIONAL,\n",
  text% "\t...\n",
  text% "}\n",
  text% "\n",
  text% "U-RNTIQueryResponseIEs HNBAP-PROTOCOL-IES ::= {\n",
  text% "\t{ ID id-HNB-GWResponse\tCRITICALITY reject\tTYPE HNB-GWResponse\tPRESENCE mandatory } ,\n",
  text% "\t...\n",
  text% "}\n",
  text% "\n",
  text% "U-RNTIQueryResponseExtensions HNBAP-PROTOCOL-EXTENSION ::= {\n",
  text% "\t...\n",
  text% "}\n",
  text% "\n",
  text% "END\n"]

/-- The tables of `hnbap8`. -/
noncomputable def hnbap8Tables : List (Text × List Row) := [
  (text% "U-RNTIQueryResponseIEs", [
    ⟨text% "id-HNB-GWResponse", text% "reject", text% "HNB-GWResponse", text% "mandatory"⟩])]

end Verif.Gen.Text
