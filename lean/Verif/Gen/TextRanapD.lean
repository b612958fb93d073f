import Verif.Gen.TextLit
import Verif.Model.AsnToStruct

/-!
# Text of the RANAP messages

The lines 3238-3599 of `/repo/asn1/ranap/RANAP-PDU-Contents.asn` as they are, in parts, each with the tables of
elements that are expected for it.
-/

namespace Verif.Gen.Text
open Verif.AsnToStruct

/-- asn1/ranap/RANAP-PDU-Contents.asn:3238-3307 -/
noncomputable def ranap54 : List Text := [
  text% "\tprotocolIEs\t\tProtocolIE-Container\t\t{ { MBMSUELinkingResponseIEs} },\n",
  text% "\tprotocolExtensions\tProtocolExtensionContainer\t{ { MBMSUELinkingResponseExtensions} }\t\tOPTIONAL,\n",
  text% "\t...\n",
  text% "}\n",
  text% "\n",
  text% "MBMSUELinkingResponseIEs RANAP-PROTOCOL-IES ::= {\n",
  text% "\t{ ID id-UnsuccessfulLinkingList\tCRITICALITY ignore\tTYPE UnsuccessfulLinking-IEs\tPRESENCE optional\t} |\n",
  text% "\t{ ID id-CriticalityDiagnostics\tCRITICALITY ignore\tTYPE CriticalityDiagnostics\tPRESENCE optional\t} ,\n",
  text% "\t...\n",
  text% "}\n",
  text% "\n",
  text% "UnsuccessfulLinking-IEs ::= SEQUENCE (SIZE (1.. maxnoofMulticastServicesPerUE)) OF UnsuccessfulLinking-IEs-Value\n",
  text% "UnsuccessfulLinking-IEs-Value ::=\n",
  text% "\tSEQUENCE {\n",
  text% "\t\ttMGI\t\tTMGI,\n",
  text% "\t\tcause\t\tCause,\n",
  text% "\t\tiE-Extensions\tProtocolExtensionContainer { {UnsuccessfulLinking-ExtIEs} } OPTIONAL,\n",
  text% "\t\t...\n",
  text% "\t}\n",
  text% "\n",
  text% "UnsuccessfulLinking-ExtIEs RANAP-PROTOCOL-EXTENSION ::= {\n",
  text% "\t...\n",
  text% "}\n",
  text% "\n",
  text% "MBMSUELinkingResponseExtensions RANAP-PROTOCOL-EXTENSION ::= {\n",
  text% "\t...\n",
  text% "}\n",
  text% "\n",
  text% "-- *************************************************\n",
  text% "--\n",
  text% "-- MBMS REGISTRATION PROCEDURE\n",
  text% "--\n",
  text% "-- **************************************************************\n",
  text% "\n",
  text% "-- **************************************************************\n",
  text% "--\n",
  text% "-- MBMS Registration Request\n",
  text% "--\n",
  text% "-- **************************************************************\n",
  text% "\n",
  text% "MBMSRegistrationRequest ::= SEQUENCE {\n",
  text% "\tprotocolIEs\t\tProtocolIE-Container\t\t{ { MBMSRegistrationRequestIEs} },\n",
  text% "\tprotocolExtensions\tProtocolExtensionContainer\t{ { MBMSRegistrationRequestExtensions} }\t\t\tOPTIONAL,\n",
  text% "\t...\n",
  text% "}\n",
  text% "\n",
  text% "MBMSRegistrationRequestIEs RANAP-PROTOCOL-IES ::= {\n",
  text% "\t{ ID id-MBMSRegistrationRequestType\tCRITICALITY reject\tTYPE MBMSRegistrationRequestType\tPRESENCE mandatory\t} |\n",
  text% "\t{ ID id-TMGI\t\t\t\tCRITICALITY reject\tTYPE TMGI\t\t\t\tPRESENCE mandatory\t} |\n",
  text% "\t{ ID id-IPMulticastAddress\t\tCRITICALITY reject\tTYPE IPMulticastAddress\t\t\tPRESENCE conditional\n",
  text% "\t-- This IE shall be present if the MBMS Registration Request Type IE is set to \"register\"\t--\t\t\t\t} |\n",
  text% "\t{ ID id-APN\t\t\t\tCRITICALITY reject\tTYPE APN\t\t\t\tPRESENCE conditional\n",
  text% "\t-- This IE shall be present if the MBMS Registration Request Type IE is set to \"register\"\t--\t\t\t\t} |\n",
  text% "\t{ ID id-GlobalRNC-ID\t\t\tCRITICALITY reject\tTYPE GlobalRNC-ID\t\t\tPRESENCE optional\t},\n",
  text% "\t...\n",
  text% "}\n",
  text% "\n",
  text% "MBMSRegistrationRequestExtensions RANAP-PROTOCOL-EXTENSION ::= {\n",
  text% "-- Extension for Release 7 to indicate extended RNC-ID --\n",
  text% "\t{ ID id-ExtendedRNC-ID\t\t\tCRITICALITY reject\tEXTENSION ExtendedRNC-ID\t\tPRESENCE optional\t},\n",
  text% "\t...\n",
  text% "}\n",
  text% "\n",
  text% "-- **************************************************************\n",
  text% "--\n",
  text% "-- MBMS Registration Response\n",
  text% "--\n",
  text% "-- **************************************************************\n",
  text% "\n",
  text% "MBMSRegistrationResponse ::= SEQUENCE {\n"]

/-- The tables of `ranap54`. -/
noncomputable def ranap54Tables : List (Text × List Row) := [
  (text% "MBMSUELinkingResponseIEs", [
    ⟨text% "id-UnsuccessfulLinkingList", text% "ignore", text% "UnsuccessfulLinking-IEs", text% "optional"⟩,
    ⟨text% "id-CriticalityDiagnostics", text% "ignore", text% "CriticalityDiagnostics", text% "optional"⟩]),
  (text% "MBMSRegistrationRequestIEs", [
    ⟨text% "id-MBMSRegistrationRequestType", text% "reject", text% "MBMSRegistrationRequestType", text% "mandatory"⟩,
    ⟨text% "id-TMGI", text% "reject", text% "TMGI", text% "mandatory"⟩,
    ⟨text% "id-GlobalRNC-ID", text% "reject", text% "GlobalRNC-ID", text% "optional"⟩])]

/-- asn1/ranap/RANAP-PDU-Contents.asn:3308-3360 -/
noncomputable def ranap55 : List Text := [
  text% "\tprotocolIEs\t\t\t\tProtocolIE-Container\t\t{ { MBMSRegistrationResponseIEs} },\n",
  text% "\tprotocolExtensions\t\tProtocolExtensionContainer\t{ { MBMSRegistrationResponseExtensions} }\t\tOPTIONAL,\n",
  text% "\t...\n",
  text% "}\n",
  text% "\n",
  text% "MBMSRegistrationResponseIEs RANAP-PROTOCOL-IES ::= {\n",
  text% "\t{ ID id-TMGI\t\t\t\t\t\t\tCRITICALITY ignore\tTYPE TMGI\t\t\t\t\t\t\tPRESENCE optional\t\t} |\n",
  text% "\t{ ID id-GlobalCN-ID\t\t\t\t\t\tCRITICALITY ignore\tTYPE GlobalCN-ID\t\t\t\t\tPRESENCE optional\t\t} |\n",
  text% "\t{ ID id-CriticalityDiagnostics\t\t\tCRITICALITY ignore\tTYPE CriticalityDiagnostics\t\t\tPRESENCE optional\t\t} ,\n",
  text% "\t...\n",
  text% "}\n",
  text% "\n",
  text% "MBMSRegistrationResponseExtensions RANAP-PROTOCOL-EXTENSION ::= {\n",
  text% "\t...\n",
  text% "}\n",
  text% "\n",
  text% "-- **************************************************************\n",
  text% "--\n",
  text% "-- MBMS Registration Failure\n",
  text% "--\n",
  text% "-- **************************************************************\n",
  text% "\n",
  text% "MBMSRegistrationFailure ::= SEQUENCE {\n",
  text% "\tprotocolIEs\t\t\tProtocolIE-Container\t\t{ { MBMSRegistrationFailureIEs} },\n",
  text% "\tprotocolExtensions\t\tProtocolExtensionContainer\t{ { MBMSRegistrationFailureExtensions} }\t\tOPTIONAL,\n",
  text% "\t...\n",
  text% "}\n",
  text% "\n",
  text% "MBMSRegistrationFailureIEs RANAP-PROTOCOL-IES ::= {\n",
  text% "\t{ ID id-TMGI\t\t\tCRITICALITY ignore\tTYPE TMGI\t\t\tPRESENCE optional\t} |\n",
  text% "\t{ ID id-GlobalCN-ID\t\tCRITICALITY ignore\tTYPE GlobalCN-ID\t\tPRESENCE optional\t} |\n",
  text% "\t{ ID id-Cause\t\t\tCRITICALITY ignore\tTYPE Cause\t\t\tPRESENCE mandatory\t} |\n",
  text% "\t{ ID id-CriticalityDiagnostics\tCRITICALITY ignore\tTYPE CriticalityDiagnostics\tPRESENCE optional\t} ,\n",
  text% "\t...\n",
  text% "}\n",
  text% "\n",
  text% "MBMSRegistrationFailureExtensions RANAP-PROTOCOL-EXTENSION ::= {\n",
  text% "\t...\n",
  text% "}\n",
  text% "\n",
  text% "-- **************************************************************\n",
  text% "--\n",
  text% "-- MBMS CN DE-REGISTRATION PROCEDURE\n",
  text% "--\n",
  text% "-- **************************************************************\n",
  text% "\n",
  text% "-- **************************************************************\n",
  text% "--\n",
  text% "-- MBMS CN De-Registration Request\n",
  text% "--\n",
  text% "-- **************************************************************\n",
  text% "\n",
  text% "MBMSCNDe-RegistrationRequest ::= SEQUENCE {\n"]

/-- The tables of `ranap55`. -/
noncomputable def ranap55Tables : List (Text × List Row) := [
  (text% "MBMSRegistrationResponseIEs", [
    ⟨text% "id-TMGI", text% "ignore", text% "TMGI", text% "optional"⟩,
    ⟨text% "id-GlobalCN-ID", text% "ignore", text% "GlobalCN-ID", text% "optional"⟩,
    ⟨text% "id-CriticalityDiagnostics", text% "ignore", text% "CriticalityDiagnostics", text% "optional"⟩]),
  (text% "MBMSRegistrationFailureIEs", [
    ⟨text% "id-TMGI", text% "ignore", text% "TMGI", text% "optional"⟩,
    ⟨text% "id-GlobalCN-ID", text% "ignore", text% "GlobalCN-ID", text% "optional"⟩,
    ⟨text% "id-Cause", text% "ignore", text% "Cause", text% "mandatory"⟩,
    ⟨text% "id-CriticalityDiagnostics", text% "ignore", text% "CriticalityDiagnostics", text% "optional"⟩])]

/-- asn1/ranap/RANAP-PDU-Contents.asn:3361-3414 -/
noncomputable def ranap56 : List Text := [
  text% "\tprotocolIEs\t\tProtocolIE-Container\t\t{ { MBMSCNDe-RegistrationRequestIEs} },\n",
  text% "\tprotocolExtensions\tProtocolExtensionContainer\t{ { MBMSCNDe-RegistrationRequestExtensions} }\t\t\tOPTIONAL,\n",
  text% "\t...\n",
  text% "}\n",
  text% "\n",
  text% "MBMSCNDe-RegistrationRequestIEs RANAP-PROTOCOL-IES ::= {\n",
  text% "\t{ ID id-TMGI\t\tCRITICALITY reject\tTYPE TMGI\t\tPRESENCE mandatory\t} |\n",
  text% "\t{ ID id-GlobalCN-ID\tCRITICALITY reject\tTYPE GlobalCN-ID\tPRESENCE optional\t},\n",
  text% "\t...\n",
  text% "}\n",
  text% "\n",
  text% "MBMSCNDe-RegistrationRequestExtensions RANAP-PROTOCOL-EXTENSION ::= {\n",
  text% "\t...\n",
  text% "}\n",
  text% "\n",
  text% "-- **************************************************************\n",
  text% "--\n",
  text% "-- MBMS CN De-Registration Response\n",
  text% "--\n",
  text% "-- **************************************************************\n",
  text% "\n",
  text% "MBMSCNDe-RegistrationResponse ::= SEQUENCE {\n",
  text% "\tprotocolIEs\t\tProtocolIE-Container\t\t{ { MBMSCNDe-RegistrationResponseIEs} },\n",
  text% "\tprotocolExtensions\tProtocolExtensionContainer\t{ { MBMSCNDe-RegistrationResponseExtensions} }\t\tOPTIONAL,\n",
  text% "\t...\n",
  text% "}\n",
  text% "\n",
  text% "MBMSCNDe-RegistrationResponseIEs RANAP-PROTOCOL-IES ::= {\n",
  text% "\t{ ID id-TMGI\t\t\tCRITICALITY ignore\tTYPE TMGI\t\t\t\tPRESENCE mandatory\t} |\n",
  text% "\t{ ID id-GlobalRNC-ID\t\tCRITICALITY ignore\tTYPE GlobalRNC-ID\t\t\tPRESENCE mandatory\t} |\n",
  text% "\t{ ID id-Cause\t\t\tCRITICALITY ignore\tTYPE Cause\t\t\t\tPRESENCE optional\t} |\n",
  text% "\t{ ID id-CriticalityDiagnostics\tCRITICALITY ignore\tTYPE CriticalityDiagnostics\t\tPRESENCE optional\t} ,\n",
  text% "\t...\n",
  text% "}\n",
  text% "\n",
  text% "MBMSCNDe-RegistrationResponseExtensions RANAP-PROTOCOL-EXTENSION ::= {\n",
  text% "-- Extension for Release 7 to indicate extended RNC-ID --\n",
  text% "\t{ ID id-ExtendedRNC-ID\t\tCRITICALITY reject\tEXTENSION ExtendedRNC-ID\t\tPRESENCE optional\t},\n",
  text% "\t...\n",
  text% "}\n",
  text% "\n",
  text% "-- **************************************************************\n",
  text% "--\n",
  text% "-- MBMS RAB ESTABLISHMENT INDICATION PROCEDURE\n",
  text% "--\n",
  text% "-- **************************************************************\n",
  text% "\n",
  text% "-- **************************************************************\n",
  text% "--\n",
  text% "-- MBMS RAB Establishment Indication\n",
  text% "--\n",
  text% "-- **************************************************************\n",
  text% "\n",
  text% "MBMSRABEstablishmentIndication ::= SEQUENCE {\n"]

/-- The tables of `ranap56`. -/
noncomputable def ranap56Tables : List (Text × List Row) := [
  (text% "MBMSCNDe-RegistrationRequestIEs", [
    ⟨text% "id-TMGI", text% "reject", text% "TMGI", text% "mandatory"⟩,
    ⟨text% "id-GlobalCN-ID", text% "reject", text% "GlobalCN-ID", text% "optional"⟩]),
  (text% "MBMSCNDe-RegistrationResponseIEs", [
    ⟨text% "id-TMGI", text% "ignore", text% "TMGI", text% "mandatory"⟩,
    ⟨text% "id-GlobalRNC-ID", text% "ignore", text% "GlobalRNC-ID", text% "mandatory"⟩,
    ⟨text% "id-Cause", text% "ignore", text% "Cause", text% "optional"⟩,
    ⟨text% "id-CriticalityDiagnostics", text% "ignore", text% "CriticalityDiagnostics", text% "optional"⟩])]

/-- asn1/ranap/RANAP-PDU-Contents.asn:3415-3485 -/
noncomputable def ranap57 : List Text := [
  text% "\tprotocolIEs\t\tProtocolIE-Container\t\t{ { MBMSRABEstablishmentIndicationIEs} },\n",
  text% "\tprotocolExtensions\tProtocolExtensionContainer\t{ { MBMSRABEstablishmentIndicationExtensions} }\t\t\tOPTIONAL,\n",
  text% "\t...\n",
  text% "}\n",
  text% "\n",
  text% "MBMSRABEstablishmentIndicationIEs RANAP-PROTOCOL-IES ::= {\n",
  text% "\t{ ID id-TransportLayerInformation\t\tCRITICALITY ignore\tTYPE TransportLayerInformation\t\tPRESENCE mandatory\t} ,\n",
  text% "\t...\n",
  text% "}\n",
  text% "\n",
  text% "MBMSRABEstablishmentIndicationExtensions RANAP-PROTOCOL-EXTENSION ::= {\n",
  text% "\t...\n",
  text% "}\n",
  text% "\n",
  text% "-- **************************************************************\n",
  text% "--\n",
  text% "-- MBMS RAB RELEASE PROCEDURE\n",
  text% "--\n",
  text% "-- **************************************************************\n",
  text% "\n",
  text% "-- **************************************************************\n",
  text% "--\n",
  text% "-- MBMS RAB Release Request\n",
  text% "--\n",
  text% "-- **************************************************************\n",
  text% "\n",
  text% "MBMSRABReleaseRequest ::= SEQUENCE {\n",
  text% "\tprotocolIEs\t\tProtocolIE-Container\t\t{ {MBMSRABReleaseRequestIEs} },\n",
  text% "\tprotocolExtensions\tProtocolExtensionContainer\t{ {MBMSRABReleaseRequestExtensions} }\t\t\tOPTIONAL,\n",
  text% "\t...\n",
  text% "}\n",
  text% "\n",
  text% "MBMSRABReleaseRequestIEs RANAP-PROTOCOL-IES ::= {\n",
  text% "\t{ ID id-Cause\t\tCRITICALITY ignore\tTYPE Cause\t\t\t\tPRESENCE mandatory\t},\n",
  text% "\t...\n",
  text% "}\n",
  text% "\n",
  text% "\n",
  text% "MBMSRABReleaseRequestExtensions RANAP-PROTOCOL-EXTENSION ::= {\n",
  text% "\t...\n",
  text% "}\n",
  text% "\n",
  text% "-- **************************************************************\n",
  text% "--\n",
  text% "-- MBMS RAB Release\n",
  text% "--\n",
  text% "-- **************************************************************\n",
  text% "\n",
  text% "MBMSRABRelease ::= SEQUENCE {\n",
  text% "\tprotocolIEs\t\tProtocolIE-Container\t\t{ {MBMSRABReleaseIEs} },\n",
  text% "\tprotocolExtensions\tProtocolExtensionContainer\t{ {MBMSRABReleaseExtensions} }\t\t\tOPTIONAL,\n",
  text% "\t...\n",
  text% "}\n",
  text% "\n",
  text% "MBMSRABReleaseIEs RANAP-PROTOCOL-IES ::= {\n",
  text% "\t{ ID id-Cause\t\tCRITICALITY ignore\tTYPE Cause\t \t\t\tPRESENCE mandatory\t}|\n",
  text% "\t{ ID id-CriticalityDiagnostics\t\t\tCRITICALITY ignore\tTYPE CriticalityDiagnostics\t\t\tPRESENCE optional\t\t},\n",
  text% "\t...\n",
  text% "}\n",
  text% "\n",
  text% "MBMSRABReleaseExtensions RANAP-PROTOCOL-EXTENSION ::= {\n",
  text% "\t...\n",
  text% "}\n",
  text% "\n",
  text% "-- **************************************************************\n",
  text% "--\n",
  text% "-- MBMS RAB Release Failure\n",
  text% "--\n",
  text% "-- **************************************************************\n",
  text% "\n",
  text% "MBMSRABReleaseFailure ::= SEQUENCE {\n"]

/-- The tables of `ranap57`. -/
noncomputable def ranap57Tables : List (Text × List Row) := [
  (text% "MBMSRABEstablishmentIndicationIEs", [
    ⟨text% "id-TransportLayerInformation", text% "ignore", text% "TransportLayerInformation", text% "mandatory"⟩]),
  (text% "MBMSRABReleaseRequestIEs", [
    ⟨text% "id-Cause", text% "ignore", text% "Cause", text% "mandatory"⟩]),
  (text% "MBMSRABReleaseIEs", [
    ⟨text% "id-Cause", text% "ignore", text% "Cause", text% "mandatory"⟩,
    ⟨text% "id-CriticalityDiagnostics", text% "ignore", text% "CriticalityDiagnostics", text% "optional"⟩])]

/-- asn1/ranap/RANAP-PDU-Contents.asn:3486-3564 -/
noncomputable def ranap58 : List Text := [
  text% "\tprotocolIEs\t\tProtocolIE-Container\t\t{ {MBMSRABReleaseFailureIEs} },\n",
  text% "\tprotocolExtensions\tProtocolExtensionContainer\t{ {MBMSRABReleaseFailureExtensions} }\t\t\tOPTIONAL,\n",
  text% "\t...\n",
  text% "}\n",
  text% "\n",
  text% "MBMSRABReleaseFailureIEs RANAP-PROTOCOL-IES ::= {\n",
  text% "\t{ ID id-Cause\t\tCRITICALITY ignore\tTYPE Cause\t\t\t\tPRESENCE mandatory\t}|\n",
  text% "\t{ ID id-CriticalityDiagnostics\t\t\tCRITICALITY ignore\tTYPE CriticalityDiagnostics\t\t\tPRESENCE optional\t\t},\n",
  text% "\t...\n",
  text% "}\n",
  text% "\n",
  text% "MBMSRABReleaseFailureExtensions RANAP-PROTOCOL-EXTENSION ::= {\n",
  text% "\t...\n",
  text% "}\n",
  text% "\n",
  text% "-- **************************************************************\n",
  text% "--\n",
  text% "-- SRVCC PREPARATION ELEMENTARY PROCEDURE\n",
  text% "--\n",
  text% "-- **************************************************************\n",
  text% "\n",
  text% "-- **************************************************************\n",
  text% "--\n",
  text% "-- SRVCC CS Keys Request\n",
  text% "--\n",
  text% "-- **************************************************************\n",
  text% "\n",
  text% "SRVCC-CSKeysRequest ::= SEQUENCE {\n",
  text% "\tprotocolIEs\t\tProtocolIE-Container\t\t\t{ {SRVCC-CSKeysRequestIEs} },\n",
  text% "\tprotocolExtensions\tProtocolExtensionContainer\t{ {SRVCC-CSKeysRequestExtensions} }\t\t\t\tOPTIONAL,\n",
  text% "\t...\n",
  text% "}\n",
  text% "\n",
  text% "SRVCC-CSKeysRequestIEs RANAP-PROTOCOL-IES ::= {\n",
  text% "\t...\n",
  text% "}\n",
  text% "\n",
  text% "SRVCC-CSKeysRequestExtensions RANAP-PROTOCOL-EXTENSION ::= {\n",
  text% "\t...\n",
  text% "}\n",
  text% "\n",
  text% "-- **************************************************************\n",
  text% "--\n",
  text% "-- SRVCC CS Keys Response\n",
  text% "--\n",
  text% "-- **************************************************************\n",
  text% "\n",
  text% "SRVCC-CSKeysResponse ::= SEQUENCE {\n",
  text% "\tprotocolIEs\t\tProtocolIE-Container\t\t\t{ {SRVCC-CSKeysResponseIEs} },\n",
  text% "\tprotocolExtensions\tProtocolExtensionContainer\t{ {SRVCC-CSKeysResponseExtensions} }\t\t\t\tOPTIONAL,\n",
  text% "\t...\n",
  text% "}\n",
  text% "\n",
  text% "SRVCC-CSKeysResponseIEs RANAP-PROTOCOL-IES ::= {\n",
  text% "\t{ ID id-IntegrityProtectionKey\t\tCRITICALITY reject\tTYPE IntegrityProtectionKey\t\tPRESENCE mandatory\t}|\n",
  text% "\t{ ID id-EncryptionKey\t\t\t\tCRITICALITY reject\tTYPE EncryptionKey\t\t\t\tPRESENCE mandatory\t}|\n",
  text% "\t{ ID id-SRVCC-Information\t\t\tCRITICALITY reject\tTYPE SRVCC-Information\t\t\tPRESENCE mandatory\t}|\n",
  text% "\t{ ID id-CriticalityDiagnostics\t\tCRITICALITY ignore\tTYPE CriticalityDiagnostics\t\tPRESENCE optional\t\t},\n",
  text% "\t...\n",
  text% "}\n",
  text% "\n",
  text% "SRVCC-CSKeysResponseExtensions RANAP-PROTOCOL-EXTENSION ::= {\n",
  text% "\t...\n",
  text% "}\n",
  text% "\n",
  text% "-- **************************************************************\n",
  text% "--\n",
  text% "-- UE RADIO CAPABILITY MATCH PROCEDURE\n",
  text% "--\n",
  text% "-- **************************************************************\n",
  text% "\n",
  text% "\n",
  text% "-- **************************************************************\n",
  text% "--\n",
  text% "-- UE Radio Capability Match Request\n",
  text% "--\n",
  text% "-- **************************************************************\n",
  text% "\n",
  text% "UeRadioCapabilityMatchRequest ::= SEQUENCE {\n"]

/-- The tables of `ranap58`. -/
noncomputable def ranap58Tables : List (Text × List Row) := [
  (text% "MBMSRABReleaseFailureIEs", [
    ⟨text% "id-Cause", text% "ignore", text% "Cause", text% "mandatory"⟩,
    ⟨text% "id-CriticalityDiagnostics", text% "ignore", text% "CriticalityDiagnostics", text% "optional"⟩]),
  (text% "SRVCC-CSKeysResponseIEs", [
    ⟨text% "id-IntegrityProtectionKey", text% "reject", text% "IntegrityProtectionKey", text% "mandatory"⟩,
    ⟨text% "id-EncryptionKey", text% "reject", text% "EncryptionKey", text% "mandatory"⟩,
    ⟨text% "id-SRVCC-Information", text% "reject", text% "SRVCC-Information", text% "mandatory"⟩,
    ⟨text% "id-CriticalityDiagnostics", text% "ignore", text% "CriticalityDiagnostics", text% "optional"⟩])]

/-- asn1/ranap/RANAP-PDU-Contents.asn:3565-3599 -/
noncomputable def ranap59 : List Text := [
  text% "\tprotocolIEs\t\tProtocolIE-Container\t\t{ {UeRadioCapabilityMatchRequestIEs} },\n",
  text% "\tprotocolExtensions\tProtocolExtensionContainer\t{ {UeRadioCapabilityMatchRequestExtensions} }\t\t\tOPTIONAL,\n",
  text% "\t...\n",
  text% "}\n",
  text% "\n",
  text% "UeRadioCapabilityMatchRequestIEs RANAP-PROTOCOL-IES ::= {\n",
  text% "\t...\n",
  text% "}\n",
  text% "\n",
  text% "UeRadioCapabilityMatchRequestExtensions RANAP-PROTOCOL-EXTENSION ::= {\n",
  text% "\t...\n",
  text% "}\n",
  text% "\n",
  text% "-- **************************************************************\n",
  text% "--\n",
  text% "-- UE Radio Capability Match Response\n",
  text% "--\n",
  text% "-- **************************************************************\n",
  text% "\n",
  text% "UeRadioCapabilityMatchResponse ::= SEQUENCE {\n",
  text% "\tprotocolIEs\t\tProtocolIE-Container\t\t{ {UeRadioCapabilityMatchResponseIEs} },\n",
  text% "\tprotocolExtensions\tProtocolExtensionContainer\t{ {UeRadioCapabilityMatchResponseExtensions} }\t\t\t\tOPTIONAL,\n",
  text% "\t...\n",
  text% "}\n",
  text% "\n",
  text% "UeRadioCapabilityMatchResponseIEs RANAP-PROTOCOL-IES ::= {\n",
  text% "\t{ ID id-VoiceSupportMatchIndicator\t\tCRITICALITY reject\tTYPE VoiceSupportMatchIndicator\t\tPRESENCE mandatory\t},\n",
  text% "\t...\n",
  text% "}\n",
  text% "\n",
  text% "UeRadioCapabilityMatchResponseExtensions RANAP-PROTOCOL-EXTENSION ::= {\n",
  text% "\t...\n",
  text% "}\n",
  text% "\n",
  text% "END\n"]

/-- The tables of `ranap59`. -/
noncomputable def ranap59Tables : List (Text × List Row) := [
  (text% "UeRadioCapabilityMatchResponseIEs", [
    ⟨text% "id-VoiceSupportMatchIndicator", text% "reject", text% "VoiceSupportMatchIndicator", text% "mandatory"⟩])]

end Verif.Gen.Text
