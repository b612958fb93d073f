import Verif.Gen.TextLit
import Verif.Model.AsnToStruct

/-!
# Text of the RANAP messages

The lines 1329-2292 of `/repo/asn1/ranap/RANAP-PDU-Contents.asn` as they are, in parts, each with the tables of
elements that are expected for it.
-/

namespace Verif.Gen.Text
open Verif.AsnToStruct

/-- asn1/ranap/RANAP-PDU-Contents.asn:1329-1378 -/
noncomputable def ranap18 : List Text := [
  text% "\tprotocolIEs\t\tProtocolIE-Container\t\t{ {ResetResourceAcknowledgeIEs} },\n",
  text% "\tprotocolExtensions\tProtocolExtensionContainer\t{ {ResetResourceAcknowledgeExtensions} }\t\t\t\tOPTIONAL,\n",
  text% "\t...\n",
  text% "}\n",
  text% "\n",
  text% "ResetResourceAcknowledgeIEs RANAP-PROTOCOL-IES ::= {\n",
  text% "\t{ ID id-CN-DomainIndicator\tCRITICALITY reject\tTYPE CN-DomainIndicator\t\tPRESENCE mandatory\t} |\n",
  text% "\t{ ID id-IuSigConIdList\t\tCRITICALITY ignore\tTYPE ResetResourceAckList\tPRESENCE mandatory\t} |\n",
  text% "\t{ ID id-GlobalRNC-ID\t\tCRITICALITY ignore\tTYPE GlobalRNC-ID\t\tPRESENCE optional\t} |\n",
  text% "\t{ ID id-CriticalityDiagnostics\tCRITICALITY ignore\tTYPE CriticalityDiagnostics\tPRESENCE optional\t},\n",
  text% "\t...\n",
  text% "}\n",
  text% "ResetResourceAckList \t::=\tIuSigConId-IE-ContainerList{ {ResetResourceAckItemIEs} }\n",
  text% "\n",
  text% "ResetResourceAckItemIEs RANAP-PROTOCOL-IES ::= {\n",
  text% "\t{ ID id-IuSigConIdItem\t\tCRITICALITY reject\tTYPE\tResetResourceAckItem\tPRESENCE mandatory\t},\n",
  text% "\t...\n",
  text% "}\n",
  text% "\n",
  text% "ResetResourceAckItem ::= SEQUENCE {\n",
  text% "\tiuSigConId\t\tIuSignallingConnectionIdentifier,\n",
  text% "\tiE-Extensions\t\tProtocolExtensionContainer { { ResetResourceAckItem-ExtIEs} }\t\t\tOPTIONAL,\n",
  text% "\t...\n",
  text% "}\n",
  text% "\n",
  text% "ResetResourceAckItem-ExtIEs RANAP-PROTOCOL-EXTENSION ::= {\n",
  text% "\t...\n",
  text% "}\n",
  text% "\n",
  text% "ResetResourceAcknowledgeExtensions RANAP-PROTOCOL-EXTENSION ::= {\n",
  text% "-- Extension for Release 4 --\n",
  text% "\t{ ID id-GlobalCN-ID\tCRITICALITY ignore\tEXTENSION GlobalCN-ID\t\tPRESENCE optional}|\n",
  text% "-- Extension for Release 7 to indicate extended RNC-ID --\n",
  text% "\t{ ID id-ExtendedRNC-ID\tCRITICALITY reject\tEXTENSION ExtendedRNC-ID\tPRESENCE optional},\n",
  text% "\t...\n",
  text% "}\n",
  text% "\n",
  text% "-- **************************************************************\n",
  text% "--\n",
  text% "-- RAB RELEASE REQUEST ELEMENTARY PROCEDURE\n",
  text% "--\n",
  text% "-- **************************************************************\n",
  text% "\n",
  text% "-- **************************************************************\n",
  text% "--\n",
  text% "-- RAB Release Request\n",
  text% "--\n",
  text% "-- **************************************************************\n",
  text% "\n",
  text% "RAB-ReleaseRequest ::= SEQUENCE {\n"]

/-- The tables of `ranap18`. -/
noncomputable def ranap18Tables : List (Text × List Row) := [
  (text% "ResetResourceAcknowledgeIEs", [
    ⟨text% "id-CN-DomainIndicator", text% "reject", text% "CN-DomainIndicator", text% "mandatory"⟩,
    ⟨text% "id-IuSigConIdList", text% "ignore", text% "ResetResourceAckList", text% "mandatory"⟩,
    ⟨text% "id-GlobalRNC-ID", text% "ignore", text% "GlobalRNC-ID", text% "optional"⟩,
    ⟨text% "id-CriticalityDiagnostics", text% "ignore", text% "CriticalityDiagnostics", text% "optional"⟩]),
  (text% "ResetResourceAckItemIEs", [
    ⟨text% "id-IuSigConIdItem", text% "reject", text% "ResetResourceAckItem", text% "mandatory"⟩])]

/-- asn1/ranap/RANAP-PDU-Contents.asn:1379-1450 -/
noncomputable def ranap19 : List Text := [
  text% "\tprotocolIEs\t\tProtocolIE-Container\t\t{ {RAB-ReleaseRequestIEs} },\n",
  text% "\tprotocolExtensions\tProtocolExtensionContainer\t{ {RAB-ReleaseRequestExtensions} }\t\t\t\tOPTIONAL,\n",
  text% "\t...\n",
  text% "}\n",
  text% "\n",
  text% "RAB-ReleaseRequestIEs RANAP-PROTOCOL-IES ::= {\n",
  text% "\t{ ID id-RAB-ReleaseList\tCRITICALITY ignore\tTYPE RAB-ReleaseList\tPRESENCE mandatory\t},\n",
  text% "\t...\n",
  text% "}\n",
  text% "\n",
  text% "RAB-ReleaseList\t::= RAB-IE-ContainerList { {RAB-ReleaseItemIEs} }\n",
  text% "\n",
  text% "RAB-ReleaseItemIEs RANAP-PROTOCOL-IES ::= {\n",
  text% "\t{ ID id-RAB-ReleaseItem\tCRITICALITY ignore\tTYPE RAB-ReleaseItem\tPRESENCE mandatory\t},\n",
  text% "\t...\n",
  text% "}\n",
  text% "\n",
  text% "RAB-ReleaseItem ::= SEQUENCE {\n",
  text% "\trAB-ID\t\tRAB-ID,\n",
  text% "\tcause\t\tCause,\n",
  text% "\tiE-Extensions\tProtocolExtensionContainer { {RAB-ReleaseItem-ExtIEs} }\t\t\tOPTIONAL,\n",
  text% "\t...\n",
  text% "}\n",
  text% "\n",
  text% "RAB-ReleaseItem-ExtIEs RANAP-PROTOCOL-EXTENSION ::= {\n",
  text% "\t...\n",
  text% "}\n",
  text% "\n",
  text% "RAB-ReleaseRequestExtensions RANAP-PROTOCOL-EXTENSION ::= {\n",
  text% "\t...\n",
  text% "}\n",
  text% "\n",
  text% "-- **************************************************************\n",
  text% "--\n",
  text% "-- Iu RELEASE REQUEST ELEMENTARY PROCEDURE\n",
  text% "--\n",
  text% "-- **************************************************************\n",
  text% "\n",
  text% "-- **************************************************************\n",
  text% "--\n",
  text% "-- Iu Release Request\n",
  text% "--\n",
  text% "-- **************************************************************\n",
  text% "\n",
  text% "Iu-ReleaseRequest ::= SEQUENCE {\n",
  text% "\tprotocolIEs\t\tProtocolIE-Container\t\t{ {Iu-ReleaseRequestIEs} },\n",
  text% "\tprotocolExtensions\tProtocolExtensionContainer\t{ {Iu-ReleaseRequestExtensions} }\t\t\t\tOPTIONAL,\n",
  text% "\t...\n",
  text% "}\n",
  text% "\n",
  text% "Iu-ReleaseRequestIEs RANAP-PROTOCOL-IES ::= {\n",
  text% "\t{ ID id-Cause\t\tCRITICALITY ignore\tTYPE Cause\tPRESENCE mandatory\t},\n",
  text% "\t...\n",
  text% "}\n",
  text% "\n",
  text% "Iu-ReleaseRequestExtensions RANAP-PROTOCOL-EXTENSION ::= {\n",
  text% "\t...\n",
  text% "}\n",
  text% "\n",
  text% "-- **************************************************************\n",
  text% "--\n",
  text% "-- RELOCATION DETECT ELEMENTARY PROCEDURE\n",
  text% "--\n",
  text% "-- **************************************************************\n",
  text% "\n",
  text% "-- **************************************************************\n",
  text% "--\n",
  text% "-- Relocation Detect\n",
  text% "--\n",
  text% "-- **************************************************************\n",
  text% "\n",
  text% "RelocationDetect ::= SEQUENCE {\n"]

/-- The tables of `ranap19`. -/
noncomputable def ranap19Tables : List (Text × List Row) := [
  (text% "RAB-ReleaseRequestIEs", [
    ⟨text% "id-RAB-ReleaseList", text% "ignore", text% "RAB-ReleaseList", text% "mandatory"⟩]),
  (text% "RAB-ReleaseItemIEs", [
    ⟨text% "id-RAB-ReleaseItem", text% "ignore", text% "RAB-ReleaseItem", text% "mandatory"⟩]),
  (text% "Iu-ReleaseRequestIEs", [
    ⟨text% "id-Cause", text% "ignore", text% "Cause", text% "mandatory"⟩])]

/-- asn1/ranap/RANAP-PDU-Contents.asn:1451-1508 -/
noncomputable def ranap20 : List Text := [
  text% "\tprotocolIEs\t\tProtocolIE-Container\t\t{ {RelocationDetectIEs} },\n",
  text% "\tprotocolExtensions\tProtocolExtensionContainer\t{ {RelocationDetectExtensions} }\t\t\t\tOPTIONAL,\n",
  text% "\t...\n",
  text% "}\n",
  text% "\n",
  text% "RelocationDetectIEs RANAP-PROTOCOL-IES ::= {\n",
  text% "\t...\n",
  text% "}\n",
  text% "\n",
  text% "RelocationDetectExtensions RANAP-PROTOCOL-EXTENSION ::= {\n",
  text% "\t...\n",
  text% "}\n",
  text% "\n",
  text% "-- **************************************************************\n",
  text% "--\n",
  text% "-- RELOCATION COMPLETE ELEMENTARY PROCEDURE\n",
  text% "--\n",
  text% "-- **************************************************************\n",
  text% "\n",
  text% "-- **************************************************************\n",
  text% "--\n",
  text% "-- Relocation Complete\n",
  text% "--\n",
  text% "-- **************************************************************\n",
  text% "\n",
  text% "RelocationComplete ::= SEQUENCE {\n",
  text% "\tprotocolIEs\t\tProtocolIE-Container\t\t\t{ {RelocationCompleteIEs} },\n",
  text% "\tprotocolExtensions\tProtocolExtensionContainer\t{ {RelocationCompleteExtensions} }\t\t\t\tOPTIONAL,\n",
  text% "\t...\n",
  text% "}\n",
  text% "\n",
  text% "RelocationCompleteIEs RANAP-PROTOCOL-IES ::= {\n",
  text% "\t...\n",
  text% "}\n",
  text% "\n",
  text% "RelocationCompleteExtensions RANAP-PROTOCOL-EXTENSION ::= {\n",
  text% "-- Extension for Release 9 to enable the CN to handle potential UE NAS QoS issues related to higher bitrates -- \n",
  text% "\t{ ID id-HigherBitratesThan16MbpsFlag\t\tCRITICALITY ignore\tEXTENSION HigherBitratesThan16MbpsFlag\tPRESENCE optional}|\n",
  text% "-- Extension for Release 11 to support BBAI -- \n",
  text% "\t{ ID id-Tunnel-Information-for-BBF\t\tCRITICALITY ignore\tEXTENSION TunnelInformation\t\tPRESENCE optional}|\n",
  text% "-- Extension for Release 12 to support SIPTO@LN Stand-Alone --\n",
  text% "\t{ ID id-LHN-ID\t\t\t\t\tCRITICALITY ignore\tEXTENSION LHN-ID\t\t\tPRESENCE optional},\n",
  text% "\t...\n",
  text% "}\n",
  text% "\n",
  text% "-- **************************************************************\n",
  text% "--\n",
  text% "-- ENHANCED RELOCATION COMPLETE ELEMENTARY PROCEDURE\n",
  text% "--\n",
  text% "-- **************************************************************\n",
  text% "\n",
  text% "-- **************************************************************\n",
  text% "--\n",
  text% "-- Enhanced Relocation Complete Request\n",
  text% "--\n",
  text% "-- **************************************************************\n",
  text% "\n",
  text% "EnhancedRelocationCompleteRequest ::= SEQUENCE {\n"]

/-- The tables of `ranap20`. -/
noncomputable def ranap20Tables : List (Text × List Row) := []

/-- asn1/ranap/RANAP-PDU-Contents.asn:1509-1566 -/
noncomputable def ranap21 : List Text := [
  text% "\tprotocolIEs\t\tProtocolIE-Container\t\t{ {EnhancedRelocationCompleteRequestIEs} },\n",
  text% "\tprotocolExtensions\tProtocolExtensionContainer\t{ {EnhancedRelocationCompleteRequestExtensions} }\t\tOPTIONAL,\n",
  text% "\t...\n",
  text% "}\n",
  text% "\n",
  text% "EnhancedRelocationCompleteRequestIEs RANAP-PROTOCOL-IES ::= {\n",
  text% "\t{ ID id-OldIuSigConId\t\t\t\tCRITICALITY reject\tTYPE IuSignallingConnectionIdentifier\t\tPRESENCE mandatory } |\n",
  text% "\t{ ID id-IuSigConId\t\t\t\tCRITICALITY reject\tTYPE IuSignallingConnectionIdentifier\t\tPRESENCE mandatory } |\n",
  text% "\t{ ID id-Relocation-SourceRNC-ID\t\t\tCRITICALITY ignore\tTYPE GlobalRNC-ID\t\t\t\tPRESENCE mandatory } |\n",
  text% "\t{ ID id-Relocation-SourceExtendedRNC-ID\t\tCRITICALITY ignore\tTYPE ExtendedRNC-ID\t\t\t\tPRESENCE optional } |\n",
  text% "\t{ ID id-Relocation-TargetRNC-ID\t\t\tCRITICALITY reject\tTYPE GlobalRNC-ID\t\t\t\tPRESENCE mandatory } |\n",
  text% "\t{ ID id-Relocation-TargetExtendedRNC-ID\t\tCRITICALITY reject\tTYPE ExtendedRNC-ID\t\t\t\tPRESENCE optional } |\n",
  text% "\t{ ID id-RAB-SetupList-EnhancedRelocCompleteReq\tCRITICALITY reject\tTYPE RAB-SetupList-EnhancedRelocCompleteReq\tPRESENCE optional },\n",
  text% "\t...\n",
  text% "}\n",
  text% "\n",
  text% "RAB-SetupList-EnhancedRelocCompleteReq \t\t\t\t::= RAB-IE-ContainerList { { RAB-SetupItem-EnhancedRelocCompleteReq-IEs} }\n",
  text% "\n",
  text% "RAB-SetupItem-EnhancedRelocCompleteReq-IEs RANAP-PROTOCOL-IES ::= {\n",
  text% "\t{ ID id-RAB-SetupItem-EnhancedRelocCompleteReq\tCRITICALITY reject\tTYPE RAB-SetupItem-EnhancedRelocCompleteReq\tPRESENCE mandatory \t},\n",
  text% "\t...\n",
  text% "}\n",
  text% "\n",
  text% "RAB-SetupItem-EnhancedRelocCompleteReq ::= SEQUENCE {\n",
  text% "\trAB-ID\t\t\t\tRAB-ID,\n",
  text% "\ttransportLayerAddressReq1\tTransportLayerAddress\tOPTIONAL,\n",
  text% "\tiuTransportAssociationReq1\tIuTransportAssociation\tOPTIONAL,\n",
  text% "\tass-RAB-Parameters\t\tAss-RAB-Parameters OPTIONAL,\n",
  text% "\tiE-Extensions\t\t\tProtocolExtensionContainer { { RAB-SetupItem-EnhancedRelocCompleteReq-ExtIEs} }\t\t\tOPTIONAL,\n",
  text% "\t...\n",
  text% "}\n",
  text% "\n",
  text% "RAB-SetupItem-EnhancedRelocCompleteReq-ExtIEs RANAP-PROTOCOL-EXTENSION ::= {\n",
  text% "\t...\n",
  text% "}\n",
  text% "\n",
  text% "EnhancedRelocationCompleteRequestExtensions RANAP-PROTOCOL-EXTENSION ::= {\n",
  text% "\t{ ID id-ChosenIntegrityProtectionAlgorithm\tCRITICALITY ignore\tEXTENSION ChosenIntegrityProtectionAlgorithm\tPRESENCE optional}|\n",
  text% "\t{ ID id-ChosenEncryptionAlgorithm\t\tCRITICALITY ignore\tEXTENSION ChosenEncryptionAlgorithm\t\tPRESENCE optional}|\n",
  text% "-- Extension for Release 9 to enable the CN to handle potential UE NAS QoS issues related to higher bitrates -- \n",
  text% "\t{ ID id-HigherBitratesThan16MbpsFlag\t\tCRITICALITY ignore\tEXTENSION HigherBitratesThan16MbpsFlag\t\tPRESENCE optional}|\n",
  text% "-- Extensions for Release 11 to enable enhanced relocation from RNC to hybrid cell –\n",
  text% "\t{ ID id-CSG-Id\t\t\t\t\tCRITICALITY reject\tEXTENSION CSG-Id\t\t\t\tPRESENCE optional}|\n",
  text% "\t{ ID id-Cell-Access-Mode\t\t\tCRITICALITY reject\tEXTENSION Cell-Access-Mode\t\t\tPRESENCE optional}|\n",
  text% "-- Extension for Release 11 to support BBAI -- \n",
  text% "\t{ ID id-Tunnel-Information-for-BBF\t\tCRITICALITY ignore\tEXTENSION TunnelInformation\t\t\tPRESENCE optional}|\n",
  text% "-- Extension for Release 12 to support SIPTO@LN Stand-Alone --\n",
  text% "\t{ ID id-LHN-ID\t\t\t\t\tCRITICALITY ignore\tEXTENSION LHN-ID\t\t\t\tPRESENCE optional},\n",
  text% "\t...\n",
  text% "}\n",
  text% "\n",
  text% "-- **************************************************************\n",
  text% "--\n",
  text% "-- Enhanced Relocation Complete Response\n",
  text% "--\n",
  text% "-- **************************************************************\n",
  text% "\n",
  text% "EnhancedRelocationCompleteResponse ::= SEQUENCE {\n"]

/-- The tables of `ranap21`. -/
noncomputable def ranap21Tables : List (Text × List Row) := [
  (text% "EnhancedRelocationCompleteRequestIEs", [
    ⟨text% "id-OldIuSigConId", text% "reject", text% "IuSignallingConnectionIdentifier", text% "mandatory"⟩,
    ⟨text% "id-IuSigConId", text% "reject", text% "IuSignallingConnectionIdentifier", text% "mandatory"⟩,
    ⟨text% "id-Relocation-SourceRNC-ID", text% "ignore", text% "GlobalRNC-ID", text% "mandatory"⟩,
    ⟨text% "id-Relocation-SourceExtendedRNC-ID", text% "ignore", text% "ExtendedRNC-ID", text% "optional"⟩,
    ⟨text% "id-Relocation-TargetRNC-ID", text% "reject", text% "GlobalRNC-ID", text% "mandatory"⟩,
    ⟨text% "id-Relocation-TargetExtendedRNC-ID", text% "reject", text% "ExtendedRNC-ID", text% "optional"⟩,
    ⟨text% "id-RAB-SetupList-EnhancedRelocCompleteReq", text% "reject", text% "RAB-SetupList-EnhancedRelocCompleteReq", text% "optional"⟩]),
  (text% "RAB-SetupItem-EnhancedRelocCompleteReq-IEs", [
    ⟨text% "id-RAB-SetupItem-EnhancedRelocCompleteReq", text% "reject", text% "RAB-SetupItem-EnhancedRelocCompleteReq", text% "mandatory"⟩])]

/-- asn1/ranap/RANAP-PDU-Contents.asn:1567-1610 -/
noncomputable def ranap22 : List Text := [
  text% "\tprotocolIEs\t\tProtocolIE-Container\t\t{ {EnhancedRelocationCompleteResponseIEs} },\n",
  text% "\tprotocolExtensions\tProtocolExtensionContainer\t{ {EnhancedRelocationCompleteResponseExtensions} }\t\t\tOPTIONAL,\n",
  text% "\t...\n",
  text% "}\n",
  text% "\n",
  text% "EnhancedRelocationCompleteResponseIEs RANAP-PROTOCOL-IES ::= {\n",
  text% "\t{ ID id-RAB-SetupList-EnhancedRelocCompleteRes\t\tCRITICALITY ignore\tTYPE RAB-SetupList-EnhancedRelocCompleteRes\tPRESENCE optional} |\n",
  text% "\t{ ID id-RAB-ToBeReleasedList-EnhancedRelocCompleteRes\tCRITICALITY ignore\tTYPE RAB-ToBeReleasedList-EnhancedRelocCompleteRes\tPRESENCE optional} |\n",
  text% "\t{ ID id-CriticalityDiagnostics\t\t\t\tCRITICALITY ignore\tTYPE CriticalityDiagnostics \t\t\tPRESENCE optional\t},\n",
  text% "\t...\n",
  text% "}\n",
  text% "\n",
  text% "RAB-SetupList-EnhancedRelocCompleteRes ::= RAB-IE-ContainerList { {RAB-SetupItem-EnhancedRelocCompleteRes-IEs} }\n",
  text% "\n",
  text% "RAB-SetupItem-EnhancedRelocCompleteRes-IEs RANAP-PROTOCOL-IES ::= {\n",
  text% "\t{ ID id-RAB-SetupItem-EnhancedRelocCompleteRes\t\tCRITICALITY reject\tTYPE RAB-SetupItem-EnhancedRelocCompleteRes\t\tPRESENCE mandatory \t},\n",
  text% "\t...\n",
  text% "}\n",
  text% "\n",
  text% "RAB-SetupItem-EnhancedRelocCompleteRes ::= SEQUENCE {\n",
  text% "\trAB-ID\t\t\t\tRAB-ID,\n",
  text% "\trAB-Parameters\t\t\tRAB-Parameters\tOPTIONAL,\n",
  text% "\tuserPlaneInformation\t\tUserPlaneInformation,\n",
  text% "\ttransportLayerAddressRes1\tTransportLayerAddress\tOPTIONAL,\n",
  text% "\tiuTransportAssociationRes1\tIuTransportAssociation\tOPTIONAL,\n",
  text% "\trab2beReleasedList\t\tRAB-ToBeReleasedList-EnhancedRelocCompleteRes OPTIONAL,\n",
  text% "\tiE-Extensions\t\t\tProtocolExtensionContainer { { RAB-SetupItem-EnhancedRelocCompleteRes-ExtIEs} }\t\t\tOPTIONAL,\n",
  text% "\t...\n",
  text% "}\n",
  text% "\n",
  text% "RAB-SetupItem-EnhancedRelocCompleteRes-ExtIEs RANAP-PROTOCOL-EXTENSION ::= {\n",
  text% "\t-- Extension for Release 10 to enable Offload at Iu-ps for UTRAN --\n",
  text% "\t{ ID id-Offload-RAB-Parameters\tCRITICALITY ignore\tEXTENSION Offload-RAB-Parameters\t\t\tPRESENCE optional},\n",
  text% "\t...\n",
  text% "}\n",
  text% "\n",
  text% "RAB-ToBeReleasedList-EnhancedRelocCompleteRes ::= RAB-IE-ContainerList { {RAB-ToBeReleasedItem-EnhancedRelocCompleteRes-IEs} }\n",
  text% "\n",
  text% "RAB-ToBeReleasedItem-EnhancedRelocCompleteRes-IEs RANAP-PROTOCOL-IES ::= {\n",
  text% "\t{ ID id-RAB-ToBeReleasedItem-EnhancedRelocCompleteRes\t\tCRITICALITY ignore\tTYPE RAB-ToBeReleasedItem-EnhancedRelocCompleteRes\t\tPRESENCE mandatory \t},\n",
  text% "\t...\n",
  text% "}\n",
  text% "\n",
  text% "RAB-ToBeReleasedItem-EnhancedRelocCompleteRes ::= SEQUENCE {\n"]

/-- The tables of `ranap22`. -/
noncomputable def ranap22Tables : List (Text × List Row) := [
  (text% "EnhancedRelocationCompleteResponseIEs", [
    ⟨text% "id-RAB-SetupList-EnhancedRelocCompleteRes", text% "ignore", text% "RAB-SetupList-EnhancedRelocCompleteRes", text% "optional"⟩,
    ⟨text% "id-RAB-ToBeReleasedList-EnhancedRelocCompleteRes", text% "ignore", text% "RAB-ToBeReleasedList-EnhancedRelocCompleteRes", text% "optional"⟩,
    ⟨text% "id-CriticalityDiagnostics", text% "ignore", text% "CriticalityDiagnostics", text% "optional"⟩]),
  (text% "RAB-SetupItem-EnhancedRelocCompleteRes-IEs", [
    ⟨text% "id-RAB-SetupItem-EnhancedRelocCompleteRes", text% "reject", text% "RAB-SetupItem-EnhancedRelocCompleteRes", text% "mandatory"⟩]),
  (text% "RAB-ToBeReleasedItem-EnhancedRelocCompleteRes-IEs", [
    ⟨text% "id-RAB-ToBeReleasedItem-EnhancedRelocCompleteRes", text% "ignore", text% "RAB-ToBeReleasedItem-EnhancedRelocCompleteRes", text% "mandatory"⟩])]

/-- asn1/ranap/RANAP-PDU-Contents.asn:1611-1658 -/
noncomputable def ranap23 : List Text := [
  text% "\trAB-ID\t\tRAB-ID,\n",
  text% "\tcause\t\tCause,\n",
  text% "\tiE-Extensions\tProtocolExtensionContainer { { RAB-ToBeReleasedItem-EnhancedRelocCompleteRes-ExtIEs} }\t\t\tOPTIONAL,\n",
  text% "\t...\n",
  text% "}\n",
  text% "\n",
  text% "RAB-ToBeReleasedItem-EnhancedRelocCompleteRes-ExtIEs RANAP-PROTOCOL-EXTENSION ::= {\n",
  text% "\t...\n",
  text% "}\n",
  text% "\n",
  text% "EnhancedRelocationCompleteResponseExtensions RANAP-PROTOCOL-EXTENSION ::= {\n",
  text% "\t{ ID id-UE-AggregateMaximumBitRate\tCRITICALITY ignore\tEXTENSION UE-AggregateMaximumBitRate\tPRESENCE optional}|\n",
  text% "-- Extension for Release 10 to enable Offload at Iu-ps for UTRAN --\n",
  text% "\t{ ID id-MSISDN\t\t\t\tCRITICALITY ignore\tEXTENSION MSISDN\t\t\tPRESENCE optional}|\n",
  text% "-- Extension for Release 11 to enable ehnahced relocation from RNC to hybrid cell –\n",
  text% "\t{ ID id-CSG-Membership-Status\t\tCRITICALITY ignore\tEXTENSION CSG-Membership-Status\t\tPRESENCE optional},\n",
  text% "\t...\n",
  text% "}\n",
  text% "\n",
  text% "-- **************************************************************\n",
  text% "--\n",
  text% "-- Enhanced Relocation Complete Failure\n",
  text% "--\n",
  text% "-- **************************************************************\n",
  text% "\n",
  text% "EnhancedRelocationCompleteFailure ::= SEQUENCE {\n",
  text% "\tprotocolIEs\t\tProtocolIE-Container\t\t{ {EnhancedRelocationCompleteFailureIEs} },\n",
  text% "\tprotocolExtensions\tProtocolExtensionContainer\t{ {EnhancedRelocationCompleteFailureExtensions} }\t\t\t\tOPTIONAL,\n",
  text% "\t...\n",
  text% "}\n",
  text% "\n",
  text% "EnhancedRelocationCompleteFailureIEs RANAP-PROTOCOL-IES ::= {\n",
  text% "\t{ ID id-Cause\t\t\tCRITICALITY ignore\tTYPE Cause\t\t\tPRESENCE mandatory\t} |\n",
  text% "\t{ ID id-CriticalityDiagnostics\tCRITICALITY ignore\tTYPE CriticalityDiagnostics \tPRESENCE optional\t},\n",
  text% "\t...\n",
  text% "}\n",
  text% "\n",
  text% "EnhancedRelocationCompleteFailureExtensions RANAP-PROTOCOL-EXTENSION ::= {\n",
  text% "\t...\n",
  text% "}\n",
  text% "\n",
  text% "-- **************************************************************\n",
  text% "--\n",
  text% "-- Enhanced Relocation Complete Confirm\n",
  text% "--\n",
  text% "-- **************************************************************\n",
  text% "\n",
  text% "EnhancedRelocationCompleteConfirm ::= SEQUENCE {\n"]

/-- The tables of `ranap23`. -/
noncomputable def ranap23Tables : List (Text × List Row) := [
  (text% "EnhancedRelocationCompleteFailureIEs", [
    ⟨text% "id-Cause", text% "ignore", text% "Cause", text% "mandatory"⟩,
    ⟨text% "id-CriticalityDiagnostics", text% "ignore", text% "CriticalityDiagnostics", text% "optional"⟩])]

/-- asn1/ranap/RANAP-PDU-Contents.asn:1659-1723 -/
noncomputable def ranap24 : List Text := [
  text% "\tprotocolIEs\t\tProtocolIE-Container\t\t{ {EnhancedRelocationCompleteConfirmIEs} },\n",
  text% "\tprotocolExtensions\tProtocolExtensionContainer\t{ {EnhancedRelocationCompleteConfirmExtensions} }\t\t\t\tOPTIONAL,\n",
  text% "\t...\n",
  text% "}\n",
  text% "\n",
  text% "EnhancedRelocationCompleteConfirmIEs RANAP-PROTOCOL-IES ::= {\n",
  text% "\t{ ID id-RAB-FailedList\tCRITICALITY ignore\tTYPE RAB-FailedList\t\t\t\tPRESENCE optional },\n",
  text% "\t...\n",
  text% "}\n",
  text% "\n",
  text% "EnhancedRelocationCompleteConfirmExtensions RANAP-PROTOCOL-EXTENSION ::= {\n",
  text% "\t...\n",
  text% "}\n",
  text% "\n",
  text% "\n",
  text% "-- **************************************************************\n",
  text% "--\n",
  text% "-- PAGING ELEMENTARY PROCEDURE\n",
  text% "--\n",
  text% "-- **************************************************************\n",
  text% "\n",
  text% "-- **************************************************************\n",
  text% "--\n",
  text% "-- Paging\n",
  text% "--\n",
  text% "-- **************************************************************\n",
  text% "\n",
  text% "Paging ::= SEQUENCE {\n",
  text% "\tprotocolIEs\t\tProtocolIE-Container\t\t{ {PagingIEs} },\n",
  text% "\tprotocolExtensions\tProtocolExtensionContainer\t{ {PagingExtensions} }\t\t\t\t\tOPTIONAL,\n",
  text% "\t...\n",
  text% "}\n",
  text% "\n",
  text% "PagingIEs RANAP-PROTOCOL-IES ::= {\n",
  text% "\t{ ID id-CN-DomainIndicator\t\tCRITICALITY ignore\tTYPE CN-DomainIndicator\t\t\tPRESENCE mandatory\t} |\n",
  text% "\t{ ID id-PermanentNAS-UE-ID \t\tCRITICALITY ignore\tTYPE PermanentNAS-UE-ID\t\t\tPRESENCE mandatory\t} |\n",
  text% "\t{ ID id-TemporaryUE-ID\t\t\tCRITICALITY ignore\tTYPE TemporaryUE-ID\t\t\tPRESENCE optional\t} |\n",
  text% "\t{ ID id-PagingAreaID\t\t\tCRITICALITY ignore\tTYPE PagingAreaID\t\t\tPRESENCE optional\t} |\n",
  text% "\t{ ID id-PagingCause\t\t\tCRITICALITY ignore\tTYPE PagingCause\t\t\tPRESENCE optional\t} |\n",
  text% "\t{ ID id-NonSearchingIndication\t\tCRITICALITY ignore\tTYPE NonSearchingIndication\t\tPRESENCE optional\t} |\n",
  text% "\t{ ID id-DRX-CycleLengthCoefficient\tCRITICALITY ignore\tTYPE DRX-CycleLengthCoefficient\t\tPRESENCE optional\t} ,\n",
  text% "\t...\n",
  text% "}\n",
  text% "\n",
  text% "PagingExtensions RANAP-PROTOCOL-EXTENSION ::= {\n",
  text% "-- Extension for Release 5 to enable NNSF --\n",
  text% "\t{ ID id-GlobalCN-ID\t\t\tCRITICALITY ignore\tEXTENSION GlobalCN-ID\t\t\tPRESENCE optional\t} |\n",
  text% "-- Extension for Release 8 to support CSG --\n",
  text% "\t{ ID id-CSG-Id-List\t\t\tCRITICALITY ignore\tEXTENSION CSG-Id-List\t\t\tPRESENCE optional\t},\n",
  text% "\t...\n",
  text% "}\n",
  text% "\n",
  text% "-- **************************************************************\n",
  text% "--\n",
  text% "-- COMMON ID ELEMENTARY PROCEDURE\n",
  text% "--\n",
  text% "-- **************************************************************\n",
  text% "\n",
  text% "-- **************************************************************\n",
  text% "--\n",
  text% "-- Common ID\n",
  text% "--\n",
  text% "-- **************************************************************\n",
  text% "\n",
  text% "CommonID ::= SEQUENCE {\n"]

/-- The tables of `ranap24`. -/
noncomputable def ranap24Tables : List (Text × List Row) := [
  (text% "EnhancedRelocationCompleteConfirmIEs", [
    ⟨text% "id-RAB-FailedList", text% "ignore", text% "RAB-FailedList", text% "optional"⟩]),
  (text% "PagingIEs", [
    ⟨text% "id-CN-DomainIndicator", text% "ignore", text% "CN-DomainIndicator", text% "mandatory"⟩,
    ⟨text% "id-PermanentNAS-UE-ID", text% "ignore", text% "PermanentNAS-UE-ID", text% "mandatory"⟩,
    ⟨text% "id-TemporaryUE-ID", text% "ignore", text% "TemporaryUE-ID", text% "optional"⟩,
    ⟨text% "id-PagingAreaID", text% "ignore", text% "PagingAreaID", text% "optional"⟩,
    ⟨text% "id-PagingCause", text% "ignore", text% "PagingCause", text% "optional"⟩,
    ⟨text% "id-NonSearchingIndication", text% "ignore", text% "NonSearchingIndication", text% "optional"⟩,
    ⟨text% "id-DRX-CycleLengthCoefficient", text% "ignore", text% "DRX-CycleLengthCoefficient", text% "optional"⟩])]

/-- asn1/ranap/RANAP-PDU-Contents.asn:1724-1770 -/
noncomputable def ranap25 : List Text := [
  text% "\tprotocolIEs\t\tProtocolIE-Container\t\t{ {CommonID-IEs} },\n",
  text% "\tprotocolExtensions\tProtocolExtensionContainer\t{ {CommonIDExtensions} }\t\t\t\t\tOPTIONAL,\n",
  text% "\t...\n",
  text% "}\n",
  text% "\n",
  text% "CommonID-IEs RANAP-PROTOCOL-IES ::= {\n",
  text% "\t{ ID id-PermanentNAS-UE-ID\tCRITICALITY ignore\tTYPE PermanentNAS-UE-ID\t\t\t\tPRESENCE mandatory\t},\n",
  text% "\t...\n",
  text% "}\n",
  text% "\n",
  text% "CommonIDExtensions RANAP-PROTOCOL-EXTENSION ::= {\n",
  text% "-- Extension for Release 5 to enable shared networks in connected mode --\n",
  text% "\t{ ID id-SNA-Access-Information\t\tCRITICALITY ignore\tEXTENSION SNA-Access-Information\tPRESENCE optional }|\n",
  text% "-- Extension for Release 5 to enable specific behaviour by the RNC in relation with early UE handling --\n",
  text% "\t{ ID id-UESBI-Iu\t\t\tCRITICALITY ignore\tEXTENSION UESBI-Iu\t\t\tPRESENCE optional }|\n",
  text% "-- Extension for Release 6 to indicate the selected plmn in GWCN configuration for network sharing non-supporting UEs --\n",
  text% "\t{ ID id-SelectedPLMN-ID\t\t\tCRITICALITY ignore\tEXTENSION PLMNidentity\t\t\tPRESENCE optional }|\n",
  text% "-- Extension for Release 8 to indicate the Subscriber Profile ID for RAT/Frequency Selection Priority --\n",
  text% "\t{ID id-SubscriberProfileIDforRFP\tCRITICALITY ignore\tEXTENSION SubscriberProfileIDforRFP\tPRESENCE optional }|\n",
  text% "-- Extension for Release 8 for SRVCC operation --\n",
  text% "\t{ ID id-SRVCC-Operation-Possible\tCRITICALITY ignore\tEXTENSION SRVCC-Operation-Possible\tPRESENCE optional }|\n",
  text% "-- Extension for Release 9 to allow for UE prioritisation during access to hybrid cells --\n",
  text% "\t{ ID id-CSG-Membership-Status\t\tCRITICALITY ignore\tEXTENSION CSG-Membership-Status\t\tPRESENCE optional }|\n",
  text% "-- Extension for Release 10 to indicate Management Based MDT Allowed --\n",
  text% "\t{ ID id-Management-Based-MDT-Allowed\tCRITICALITY ignore\tEXTENSION Management-Based-MDT-Allowed\tPRESENCE optional }|\n",
  text% "-- Extension for Release 11 to indicate MDT PLMN List --\n",
  text% "\t{ ID id-Management-Based-MDT-PLMN-List\tCRITICALITY ignore\tEXTENSION MDT-PLMN-List\t\t\tPRESENCE optional }|\n",
  text% "-- Extension for Release 11 rSRVCC operation --\n",
  text% "\t{ ID id-RSRVCC-Operation-Possible\tCRITICALITY ignore\tEXTENSION RSRVCC-Operation-Possible\tPRESENCE optional }|\n",
  text% "-- Extension for Release 11 to inidcate the last E-UTRAN PLMN Identity --\n",
  text% "\t{ ID id-LastE-UTRANPLMNIdentity\t\tCRITICALITY ignore\tEXTENSION PLMNidentity\t\t\tPRESENCE optional },\n",
  text% "\t...\n",
  text% "}\n",
  text% "\n",
  text% "-- **************************************************************\n",
  text% "--\n",
  text% "-- CN INVOKE TRACE ELEMENTARY PROCEDURE\n",
  text% "--\n",
  text% "-- **************************************************************\n",
  text% "\n",
  text% "-- **************************************************************\n",
  text% "--\n",
  text% "-- CN Invoke Trace\n",
  text% "--\n",
  text% "-- **************************************************************\n",
  text% "\n",
  text% "CN-InvokeTrace ::= SEQUENCE {\n"]

/-- The tables of `ranap25`. -/
noncomputable def ranap25Tables : List (Text × List Row) := [
  (text% "CommonID-IEs", [
    ⟨text% "id-PermanentNAS-UE-ID", text% "ignore", text% "PermanentNAS-UE-ID", text% "mandatory"⟩])]

/-- asn1/ranap/RANAP-PDU-Contents.asn:1771-1811 -/
noncomputable def ranap26 : List Text := [
  text% "\tprotocolIEs\t\tProtocolIE-Container\t\t{ {CN-InvokeTraceIEs} },\n",
  text% "\tprotocolExtensions\tProtocolExtensionContainer\t{ {CN-InvokeTraceExtensions} }\t\t\t\tOPTIONAL,\n",
  text% "\t...\n",
  text% "}\n",
  text% "\n",
  text% "CN-InvokeTraceIEs RANAP-PROTOCOL-IES ::= {\n",
  text% "\t{ ID id-TraceType \tCRITICALITY ignore\tTYPE TraceType \t\tPRESENCE optional\t} |\n",
  text% "\t-- This information is mandatory for GERAN Iu Mode, not applicable to UTRAN --\n",
  text% "\t{ ID id-TraceReference\tCRITICALITY ignore\tTYPE TraceReference\tPRESENCE mandatory\t} |\n",
  text% "\t{ ID id-TriggerID\tCRITICALITY ignore\tTYPE TriggerID\t\tPRESENCE optional\t} |\n",
  text% "\t-- This information is mandatory for GERAN Iu Mode, not applicable to UTRAN --\n",
  text% "\t{ ID id-UE-ID\t\tCRITICALITY ignore\tTYPE UE-ID\t\tPRESENCE optional\t} |\n",
  text% "\t-- This information is mandatory for UTRAN, optional for GERAN Iu mode --\n",
  text% "\t{ ID id-OMC-ID\t\tCRITICALITY ignore\tTYPE OMC-ID\t\tPRESENCE optional\t},\n",
  text% "\t-- This information is mandatory for GERAN Iu Mode, not applicable to UTRAN --\n",
  text% "\t...\n",
  text% "}\n",
  text% "\n",
  text% "CN-InvokeTraceExtensions RANAP-PROTOCOL-EXTENSION ::= {\n",
  text% "-- Extension for Release 6 to enable signalling based activation for Subscriber and Equipment Trace over Iu interface --\n",
  text% "\t{ ID id-TracePropagationParameters\t\tCRITICALITY ignore\tEXTENSION TracePropagationParameters\tPRESENCE optional}|\n",
  text% "-- Extension for Release 10 to support MDT--\n",
  text% "\t{ ID id-MDT-Configuration\t\t\tCRITICALITY ignore\tEXTENSION MDT-Configuration\t\tPRESENCE optional}|\n",
  text% "-- Extension for Release 10 to support MDT--\n",
  text% "\t{ ID id-Trace-Collection-Entity-IP-Addess\tCRITICALITY ignore\tEXTENSION TransportLayerAddress\t\tPRESENCE optional},\n",
  text% "\t...\n",
  text% "}\n",
  text% "\n",
  text% "-- **************************************************************\n",
  text% "--\n",
  text% "-- CN DEACTIVATE TRACE ELEMENTARY PROCEDURE\n",
  text% "--\n",
  text% "-- **************************************************************\n",
  text% "\n",
  text% "-- **************************************************************\n",
  text% "--\n",
  text% "-- CN Deactivate Trace\n",
  text% "--\n",
  text% "-- **************************************************************\n",
  text% "\n",
  text% "CN-DeactivateTrace ::= SEQUENCE {\n"]

/-- The tables of `ranap26`. -/
noncomputable def ranap26Tables : List (Text × List Row) := [
  (text% "CN-InvokeTraceIEs", [
    ⟨text% "id-TraceType", text% "ignore", text% "TraceType", text% "optional"⟩,
    ⟨text% "id-TraceReference", text% "ignore", text% "TraceReference", text% "mandatory"⟩,
    ⟨text% "id-TriggerID", text% "ignore", text% "TriggerID", text% "optional"⟩,
    ⟨text% "id-UE-ID", text% "ignore", text% "UE-ID", text% "optional"⟩,
    ⟨text% "id-OMC-ID", text% "ignore", text% "OMC-ID", text% "optional"⟩])]

/-- asn1/ranap/RANAP-PDU-Contents.asn:1812-1879 -/
noncomputable def ranap27 : List Text := [
  text% "\tprotocolIEs\t\tProtocolIE-Container\t\t{ {CN-DeactivateTraceIEs} },\n",
  text% "\tprotocolExtensions\tProtocolExtensionContainer\t{ {CN-DeactivateTraceExtensions} }\t\t\t\tOPTIONAL,\n",
  text% "\t...\n",
  text% "}\n",
  text% "\n",
  text% "CN-DeactivateTraceIEs RANAP-PROTOCOL-IES ::= {\n",
  text% "\t{ ID id-TraceReference\tCRITICALITY ignore\tTYPE TraceReference\t\tPRESENCE mandatory } |\n",
  text% "\t{ ID id-TriggerID\tCRITICALITY ignore\tTYPE TriggerID\t\t\tPRESENCE optional },\n",
  text% "\t-- This information is optional for GERAN Iu Mode, not applicable to UTRAN --\n",
  text% "\t...\n",
  text% "}\n",
  text% "\n",
  text% "CN-DeactivateTraceExtensions RANAP-PROTOCOL-EXTENSION ::= {\n",
  text% "\t...\n",
  text% "}\n",
  text% "\n",
  text% "-- **************************************************************\n",
  text% "--\n",
  text% "-- LOCATION REPORTING CONTROL ELEMENTARY PROCEDURE\n",
  text% "--\n",
  text% "-- **************************************************************\n",
  text% "\n",
  text% "-- **************************************************************\n",
  text% "--\n",
  text% "-- Location Reporting Control\n",
  text% "--\n",
  text% "-- **************************************************************\n",
  text% "\n",
  text% "LocationReportingControl ::= SEQUENCE {\n",
  text% "\tprotocolIEs\t\tProtocolIE-Container\t\t{ {LocationReportingControlIEs} },\n",
  text% "\tprotocolExtensions\tProtocolExtensionContainer\t{ {LocationReportingControlExtensions} }\t\t\tOPTIONAL,\n",
  text% "\t...\n",
  text% "}\n",
  text% "\n",
  text% "LocationReportingControlIEs RANAP-PROTOCOL-IES ::= {\n",
  text% "\t{ ID id-RequestType \tCRITICALITY ignore\tTYPE RequestType \tPRESENCE mandatory\t},\n",
  text% "\t...\n",
  text% "}\n",
  text% "\n",
  text% "LocationReportingControlExtensions RANAP-PROTOCOL-EXTENSION ::= {\n",
  text% "-- Extension for Release 4 to enhance the location request over Iu --\n",
  text% "\t{ ID id-VerticalAccuracyCode \tCRITICALITY ignore\tEXTENSION VerticalAccuracyCode \tPRESENCE optional\t} |\n",
  text% "-- Extension for Release 4 to enhance the location request over Iu --\n",
  text% "\t{ ID id-ResponseTime \t\tCRITICALITY ignore\tEXTENSION ResponseTime \t\tPRESENCE optional\t} |\n",
  text% "-- Extension for Release 4 to enhance the location request over Iu --\n",
  text% "\t{ ID id-PositioningPriority \tCRITICALITY ignore\tEXTENSION PositioningPriority \tPRESENCE optional\t} |\n",
  text% "-- Extension for Release 4 to enhance the location request over Iu --\n",
  text% "\t{ ID id-ClientType \t\tCRITICALITY ignore\tEXTENSION ClientType \t\tPRESENCE optional\t} |\n",
  text% "-- Extension for Release 7 to allow the request of velocity over Iu --\n",
  text% "\t{ ID id-IncludeVelocity \tCRITICALITY ignore\tEXTENSION IncludeVelocity \tPRESENCE optional } |\n",
  text% "-- Extension for Release 7 to allow periodic reporting over Iu --\n",
  text% "\t{ ID id-PeriodicLocationInfo \tCRITICALITY ignore\tEXTENSION PeriodicLocationInfo \tPRESENCE optional },\n",
  text% "\t...\n",
  text% "}\n",
  text% "\n",
  text% "-- **************************************************************\n",
  text% "--\n",
  text% "-- LOCATION REPORT ELEMENTARY PROCEDURE\n",
  text% "--\n",
  text% "-- **************************************************************\n",
  text% "\n",
  text% "-- **************************************************************\n",
  text% "--\n",
  text% "-- Location Report\n",
  text% "--\n",
  text% "-- **************************************************************\n",
  text% "\n",
  text% "LocationReport ::= SEQUENCE {\n"]

/-- The tables of `ranap27`. -/
noncomputable def ranap27Tables : List (Text × List Row) := [
  (text% "CN-DeactivateTraceIEs", [
    ⟨text% "id-TraceReference", text% "ignore", text% "TraceReference", text% "mandatory"⟩,
    ⟨text% "id-TriggerID", text% "ignore", text% "TriggerID", text% "optional"⟩]),
  (text% "LocationReportingControlIEs", [
    ⟨text% "id-RequestType", text% "ignore", text% "RequestType", text% "mandatory"⟩])]

/-- asn1/ranap/RANAP-PDU-Contents.asn:1880-1919 -/
noncomputable def ranap28 : List Text := [
  text% "\tprotocolIEs\t\tProtocolIE-Container\t\t{ {LocationReportIEs} },\n",
  text% "\tprotocolExtensions\tProtocolExtensionContainer\t{ {LocationReportExtensions} }\t\t\t\tOPTIONAL,\n",
  text% "\t...\n",
  text% "}\n",
  text% "\n",
  text% "LocationReportIEs RANAP-PROTOCOL-IES ::= {\n",
  text% "\t{ ID id-AreaIdentity\tCRITICALITY ignore\tTYPE AreaIdentity\tPRESENCE optional\t} |\n",
  text% "\t{ ID id-Cause\t\tCRITICALITY ignore\tTYPE Cause\t\tPRESENCE optional\t} |\n",
  text% "\t{ ID id-RequestType \tCRITICALITY ignore\tTYPE RequestType \tPRESENCE optional\t}\t,\n",
  text% "\t...\n",
  text% "}\n",
  text% "\n",
  text% "LocationReportExtensions RANAP-PROTOCOL-EXTENSION ::= {\n",
  text% "-- Extension for Release 4 to enable report of Last Known Service Area with its Age over Iu --\n",
  text% "\t{ ID id-LastKnownServiceArea\t\t\tCRITICALITY ignore\tEXTENSION LastKnownServiceArea\t\tPRESENCE optional} |\n",
  text% "-- Extension for Release 5 to pass the positioning methods that have been used --\n",
  text% "\t{ ID id-PositionData\t\t\t\tCRITICALITY ignore\tEXTENSION PositionData\t\t\tPRESENCE optional}|\n",
  text% "-- Extension for Release 5 to pass the positioning methods that have been used for GERAN Iu mode --\n",
  text% "\t{ ID id-PositionDataSpecificToGERANIuMode\tCRITICALITY ignore\tEXTENSION PositionDataSpecificToGERANIuMode\tPRESENCE optional\t}|\n",
  text% "\t-- This extension is optional for GERAN Iu mode only, not applicable for UTRAN --\n",
  text% "-- Extension for Release 6 to indicate whether the returned position estimate satisfies the requested accuracy or not --\n",
  text% "\t{ ID id-AccuracyFulfilmentIndicator\t\tCRITICALITY ignore\tEXTENSION AccuracyFulfilmentIndicator\tPRESENCE optional}|\n",
  text% "-- Extension for Release 7 to provide a velocity estimate --\n",
  text% "\t{ ID id-VelocityEstimate\t\t\tCRITICALITY ignore\tEXTENSION VelocityEstimate\t\tPRESENCE optional},\n",
  text% "\t...\n",
  text% "}\n",
  text% "\n",
  text% "-- **************************************************************\n",
  text% "--\n",
  text% "-- INITIAL UE MESSAGE ELEMENTARY PROCEDURE\n",
  text% "--\n",
  text% "-- **************************************************************\n",
  text% "\n",
  text% "-- **************************************************************\n",
  text% "--\n",
  text% "-- Initial UE Message\n",
  text% "--\n",
  text% "-- **************************************************************\n",
  text% "\n",
  text% "InitialUE-Message ::= SEQUENCE {\n"]

/-- The tables of `ranap28`. -/
noncomputable def ranap28Tables : List (Text × List Row) := [
  (text% "LocationReportIEs", [
    ⟨text% "id-AreaIdentity", text% "ignore", text% "AreaIdentity", text% "optional"⟩,
    ⟨text% "id-Cause", text% "ignore", text% "Cause", text% "optional"⟩,
    ⟨text% "id-RequestType", text% "ignore", text% "RequestType", text% "optional"⟩])]

/-- asn1/ranap/RANAP-PDU-Contents.asn:1920-1979 -/
noncomputable def ranap29 : List Text := [
  text% "\tprotocolIEs\t\tProtocolIE-Container\t\t{ {InitialUE-MessageIEs} },\n",
  text% "\tprotocolExtensions\tProtocolExtensionContainer\t{ {InitialUE-MessageExtensions} }\t\t\t\tOPTIONAL,\n",
  text% "\t...\n",
  text% "}\n",
  text% "\n",
  text% "InitialUE-MessageIEs RANAP-PROTOCOL-IES ::= {\n",
  text% "\t{ ID id-CN-DomainIndicator\tCRITICALITY ignore\tTYPE CN-DomainIndicator\t\tPRESENCE mandatory\t} |\n",
  text% "\t{ ID id-LAI\t\t\tCRITICALITY ignore\tTYPE LAI\t\t\tPRESENCE mandatory\t} |\n",
  text% "\t{ ID id-RAC\t\t\tCRITICALITY ignore\tTYPE RAC\t\t\tPRESENCE conditional    } |\n",
  text% "\t-- This IE shall be present if the CN Domain Indicator IE is set to \"PS domain\"\t\t--\t\t\t} |\n",
  text% "\t{ ID id-SAI\t\t\tCRITICALITY ignore\tTYPE SAI\t\t\tPRESENCE mandatory\t} |\n",
  text% "\t{ ID id-NAS-PDU\t\t\tCRITICALITY ignore\tTYPE NAS-PDU\t\t\tPRESENCE mandatory\t} |\n",
  text% "\t{ ID id-IuSigConId\t\tCRITICALITY ignore \tTYPE IuSignallingConnectionIdentifier\tPRESENCE mandatory \t} |\n",
  text% "\t{ ID id-GlobalRNC-ID\t\tCRITICALITY ignore\tTYPE GlobalRNC-ID\t\tPRESENCE mandatory \t},\n",
  text% "\t...\n",
  text% "}\n",
  text% "\n",
  text% "InitialUE-MessageExtensions RANAP-PROTOCOL-EXTENSION ::= {\n",
  text% "-- Extension for Release 5 to enable GERAN support over Iu-cs --\n",
  text% "\t{ ID id-GERAN-Classmark\t\t\tCRITICALITY ignore\tEXTENSION GERAN-Classmark\t\tPRESENCE optional}|\n",
  text% "-- Extension for Release 6 to convey the selected PLMN id in shared networks --\n",
  text% "\t{ ID id-SelectedPLMN-ID\t \t\tCRITICALITY ignore\tEXTENSION PLMNidentity\t\t\tPRESENCE optional}|\n",
  text% "-- Extension for Release 6 to enable rerouting in MOCN configuration for network sharing non-supporting UEs --\n",
  text% "\t{ ID id-PermanentNAS-UE-ID\t\tCRITICALITY ignore\tEXTENSION PermanentNAS-UE-ID\t\tPRESENCE optional}|\n",
  text% "-- Extension for Release 6 to enable rerouting in MOCN configuration for network sharing non-supporting UEs --\n",
  text% "\t{ ID id-NAS-SequenceNumber\t\tCRITICALITY ignore\tEXTENSION NAS-SequenceNumber\t\tPRESENCE optional}|\n",
  text% "-- Extension for Release 6 to indicate rerouting in MOCN configuration for network sharing non-supporting UEs --\n",
  text% "\t{ ID id-RedirectAttemptFlag\t\tCRITICALITY ignore\tEXTENSION RedirectAttemptFlag\t\tPRESENCE optional}|\n",
  text% "-- Extension for Release 7 to indicate extended RNC-ID --\n",
  text% "\t{ ID id-ExtendedRNC-ID\t\t\tCRITICALITY reject\tEXTENSION ExtendedRNC-ID\t\tPRESENCE optional}|\n",
  text% "-- Extension for Release 8 to support CSG --\n",
  text% "\t{ ID id-CSG-Id\t\t\t\tCRITICALITY reject\tEXTENSION CSG-Id\t\t\tPRESENCE optional}|\n",
  text% "-- Extension for Release 9 to allow communication of the cell access mode -- \n",
  text% "\t{ ID id-Cell-Access-Mode\t\tCRITICALITY reject\tEXTENSION Cell-Access-Mode\t\tPRESENCE optional}|\n",
  text% "-- Extension for Release 10 to support LIPA -- \n",
  text% "\t{ ID id-LGW-TransportLayerAddress\tCRITICALITY ignore\tEXTENSION TransportLayerAddress\t\tPRESENCE optional}|\n",
  text% "-- Extension for Release 9 to enable the CN to handle potential UE NAS QoS issues related to higher bitrates -- \n",
  text% "\t{ ID id-HigherBitratesThan16MbpsFlag\tCRITICALITY ignore\tEXTENSION HigherBitratesThan16MbpsFlag\tPRESENCE optional}|\n",
  text% "-- Extension for Release 11 to support BBAI -- \n",
  text% "\t{ ID id-Tunnel-Information-for-BBF\tCRITICALITY ignore\tEXTENSION TunnelInformation\t\tPRESENCE optional}|\n",
  text% "-- Extension for Release 12 to support SIPTO@LN with collocated L-GW-- \n",
  text% "\t{ ID id-SIPTO-LGW-TransportLayerAddress\tCRITICALITY ignore\tEXTENSION TransportLayerAddress\t\tPRESENCE optional}|\n",
  text% "-- Extension for Release 12 to support SIPTO@LN Stand-Alone --\n",
  text% "\t{ ID id-LHN-ID\t\t\t\tCRITICALITY ignore\tEXTENSION LHN-ID\t\t\tPRESENCE optional},\n",
  text% "\t...\n",
  text% "}\n",
  text% "\n",
  text% "-- **************************************************************\n",
  text% "--\n",
  text% "-- DIRECT TRANSFER ELEMENTARY PROCEDURE\n",
  text% "--\n",
  text% "-- **************************************************************\n",
  text% "\n",
  text% "-- **************************************************************\n",
  text% "--\n",
  text% "-- Direct Transfer\n",
  text% "--\n",
  text% "-- **************************************************************\n",
  text% "\n",
  text% "DirectTransfer ::= SEQUENCE {\n"]

/-- The tables of `ranap29`. -/
noncomputable def ranap29Tables : List (Text × List Row) := [
  (text% "InitialUE-MessageIEs", [
    ⟨text% "id-CN-DomainIndicator", text% "ignore", text% "CN-DomainIndicator", text% "mandatory"⟩,
    ⟨text% "id-LAI", text% "ignore", text% "LAI", text% "mandatory"⟩,
    ⟨text% "id-RAC", text% "ignore", text% "RAC", text% "conditional"⟩,
    ⟨text% "id-SAI", text% "ignore", text% "SAI", text% "mandatory"⟩,
    ⟨text% "id-NAS-PDU", text% "ignore", text% "NAS-PDU", text% "mandatory"⟩,
    ⟨text% "id-IuSigConId", text% "ignore", text% "IuSignallingConnectionIdentifier", text% "mandatory"⟩,
    ⟨text% "id-GlobalRNC-ID", text% "ignore", text% "GlobalRNC-ID", text% "mandatory"⟩])]

/-- asn1/ranap/RANAP-PDU-Contents.asn:1980-2032 -/
noncomputable def ranap30 : List Text := [
  text% "\tprotocolIEs\t\tProtocolIE-Container\t\t{ {DirectTransferIEs} },\n",
  text% "\tprotocolExtensions\tProtocolExtensionContainer\t{ {DirectTransferExtensions} }\t\t\t\tOPTIONAL,\n",
  text% "\t...\n",
  text% "}\n",
  text% "\n",
  text% "DirectTransferIEs RANAP-PROTOCOL-IES ::= {\n",
  text% "\t{ ID id-NAS-PDU\t\tCRITICALITY ignore\tTYPE NAS-PDU\t\tPRESENCE mandatory}|\n",
  text% "\t{ ID id-LAI\t\tCRITICALITY ignore\tTYPE LAI\t\tPRESENCE optional}|\n",
  text% "\t{ ID id-RAC\t\tCRITICALITY ignore\tTYPE RAC\t\tPRESENCE optional}|\n",
  text% "\t{ ID id-SAI\t\tCRITICALITY ignore\tTYPE SAI\t\tPRESENCE optional}|\n",
  text% "\t{ ID id-SAPI\t\tCRITICALITY ignore\tTYPE SAPI\t\tPRESENCE optional},\n",
  text% "\t...\n",
  text% "}\n",
  text% "\n",
  text% "DirectTransferExtensions RANAP-PROTOCOL-EXTENSION ::= {\n",
  text% "-- Extension for Release 6 to enable rerouting in MOCN configuration for network sharing non-supporting UEs --\n",
  text% "\t{ ID id-RedirectionIndication\t\t\tCRITICALITY ignore\tEXTENSION RedirectionIndication\t\tPRESENCE optional}|\n",
  text% "-- Extension for Release 6 to indicate the MOCN rerouting is completed --\n",
  text% "\t{ ID id-RedirectionCompleted\t\t\tCRITICALITY ignore\tEXTENSION RedirectionCompleted\t\tPRESENCE optional}|\n",
  text% "-- Extension for Release 8 to indicate the Subscriber Profile ID for RAT/Frequency Selection Priority --\n",
  text% "\t{ ID id-SubscriberProfileIDforRFP\t\tCRITICALITY ignore\tEXTENSION SubscriberProfileIDforRFP\tPRESENCE optional}|\n",
  text% "-- Extension for Release 10 to support LIPA -- \n",
  text% "\t{ ID id-LGW-TransportLayerAddress\t\tCRITICALITY ignore\tEXTENSION TransportLayerAddress\t\tPRESENCE optional}|\n",
  text% "-- Extension for Release 12 to support SIPTO@LN with collocated L-GW -- \n",
  text% "\t{ ID id-SIPTO-LGW-TransportLayerAddress\t\tCRITICALITY ignore\tEXTENSION TransportLayerAddress\t\tPRESENCE optional}|\n",
  text% "-- Extension for Release 12 to support SIPTO@LN Stand-Alone --\n",
  text% "\t{ ID id-LHN-ID\t\t\t\t\tCRITICALITY ignore\tEXTENSION LHN-ID\t\t\tPRESENCE optional},\n",
  text% "\t...\n",
  text% "}\n",
  text% "\n",
  text% "RedirectionIndication ::= ProtocolIE-Container { {RedirectionIndication-IEs} }\n",
  text% "\n",
  text% "RedirectionIndication-IEs RANAP-PROTOCOL-IES ::= {\n",
  text% "\t{\tID id-NAS-PDU\t\t\tCRITICALITY ignore TYPE NAS-PDU\t\t\tPRESENCE mandatory }|\n",
  text% "\t{\tID id-RejectCauseValue\t\tCRITICALITY ignore TYPE RejectCauseValue\tPRESENCE mandatory}|\n",
  text% "\t{\tID id-NAS-SequenceNumber\tCRITICALITY ignore TYPE NAS-SequenceNumber\tPRESENCE optional}|\n",
  text% "\t{\tID id-PermanentNAS-UE-ID\tCRITICALITY ignore TYPE PermanentNAS-UE-ID\tPRESENCE optional},\n",
  text% "\t...\n",
  text% "}\n",
  text% "\n",
  text% "-- **************************************************************\n",
  text% "--\n",
  text% "-- OVERLOAD CONTROL ELEMENTARY PROCEDURE\n",
  text% "--\n",
  text% "-- **************************************************************\n",
  text% "\n",
  text% "-- **************************************************************\n",
  text% "--\n",
  text% "-- Overload\n",
  text% "--\n",
  text% "-- **************************************************************\n",
  text% "\n",
  text% "Overload ::= SEQUENCE {\n"]

/-- The tables of `ranap30`. -/
noncomputable def ranap30Tables : List (Text × List Row) := [
  (text% "DirectTransferIEs", [
    ⟨text% "id-NAS-PDU", text% "ignore", text% "NAS-PDU", text% "mandatory"⟩,
    ⟨text% "id-LAI", text% "ignore", text% "LAI", text% "optional"⟩,
    ⟨text% "id-RAC", text% "ignore", text% "RAC", text% "optional"⟩,
    ⟨text% "id-SAI", text% "ignore", text% "SAI", text% "optional"⟩,
    ⟨text% "id-SAPI", text% "ignore", text% "SAPI", text% "optional"⟩]),
  (text% "RedirectionIndication-IEs", [
    ⟨text% "id-NAS-PDU", text% "ignore", text% "NAS-PDU", text% "mandatory"⟩,
    ⟨text% "id-RejectCauseValue", text% "ignore", text% "RejectCauseValue", text% "mandatory"⟩,
    ⟨text% "id-NAS-SequenceNumber", text% "ignore", text% "NAS-SequenceNumber", text% "optional"⟩,
    ⟨text% "id-PermanentNAS-UE-ID", text% "ignore", text% "PermanentNAS-UE-ID", text% "optional"⟩])]

/-- asn1/ranap/RANAP-PDU-Contents.asn:2033-2102 -/
noncomputable def ranap31 : List Text := [
  text% "\tprotocolIEs\t\tProtocolIE-Container\t\t{ {OverloadIEs} },\n",
  text% "\tprotocolExtensions\tProtocolExtensionContainer\t{ {OverloadExtensions} }\t\t\t\t\tOPTIONAL,\n",
  text% "\t...\n",
  text% "}\n",
  text% "\n",
  text% "OverloadIEs RANAP-PROTOCOL-IES ::= {\n",
  text% "\t{ ID id-NumberOfSteps\t\tCRITICALITY ignore\tTYPE NumberOfSteps\t\t\t\tPRESENCE optional\t} |\n",
  text% "\t{ ID id-GlobalRNC-ID\t\tCRITICALITY ignore\tTYPE GlobalRNC-ID\t\t\t\tPRESENCE optional\t},\n",
  text% "\t...\n",
  text% "}\n",
  text% "\n",
  text% "OverloadExtensions RANAP-PROTOCOL-EXTENSION ::= {\n",
  text% "-- Extension for Release 99 to enable the indication to the RNC which CN domain is suffering the signalling traffic overload --\n",
  text% "\t{ ID id-CN-DomainIndicator\tCRITICALITY ignore\tEXTENSION CN-DomainIndicator\t\tPRESENCE optional} |\n",
  text% "-- Extension for Release 5 to enable NNSF --\n",
  text% "\t{ ID id-GlobalCN-ID\t\tCRITICALITY ignore\tEXTENSION GlobalCN-ID\t\t\tPRESENCE optional} |\n",
  text% "-- Extension for Release 7 to indicate extended RNC-ID --\n",
  text% "\t{ ID id-ExtendedRNC-ID\t\tCRITICALITY reject\tEXTENSION ExtendedRNC-ID\t\tPRESENCE optional} |\n",
  text% "-- Extension for Release 10 to support Low Priority overload --\n",
  text% "\t{ ID id-Priority-Class-Indicator CRITICALITY ignore\tEXTENSION Priority-Class-Indicator\tPRESENCE optional},\n",
  text% "\t...\n",
  text% "}\n",
  text% "\n",
  text% "-- **************************************************************\n",
  text% "--\n",
  text% "-- ERROR INDICATION ELEMENTARY PROCEDURE\n",
  text% "--\n",
  text% "-- **************************************************************\n",
  text% "\n",
  text% "-- **************************************************************\n",
  text% "--\n",
  text% "-- Error Indication\n",
  text% "--\n",
  text% "-- **************************************************************\n",
  text% "\n",
  text% "ErrorIndication ::= SEQUENCE {\n",
  text% "\tprotocolIEs\t\tProtocolIE-Container\t\t{ {ErrorIndicationIEs} },\n",
  text% "\tprotocolExtensions\tProtocolExtensionContainer\t{ {ErrorIndicationExtensions} }\t\t\t\tOPTIONAL,\n",
  text% "\t...\n",
  text% "}\n",
  text% "\n",
  text% "ErrorIndicationIEs RANAP-PROTOCOL-IES ::= {\n",
  text% "\t{ ID id-Cause\t\t\tCRITICALITY ignore\tTYPE Cause\t\t\tPRESENCE optional\t} |\n",
  text% "\t{ ID id-CriticalityDiagnostics\tCRITICALITY ignore\tTYPE CriticalityDiagnostics\tPRESENCE optional\t} |\n",
  text% "\t{ ID id-CN-DomainIndicator\tCRITICALITY ignore\tTYPE CN-DomainIndicator\t\tPRESENCE optional\t} |\n",
  text% "\t{ ID id-GlobalRNC-ID\t\tCRITICALITY ignore\tTYPE GlobalRNC-ID\t\tPRESENCE optional\t},\n",
  text% "\t...\n",
  text% "}\n",
  text% "\n",
  text% "ErrorIndicationExtensions RANAP-PROTOCOL-EXTENSION ::= {\n",
  text% "-- Extension for Release 4 --\n",
  text% "\t{ ID id-GlobalCN-ID\t\tCRITICALITY ignore\tEXTENSION GlobalCN-ID\t\tPRESENCE optional}|\n",
  text% "-- Extension for Release 7 to indicate extended RNC-ID --\n",
  text% "\t{ ID id-ExtendedRNC-ID\t\tCRITICALITY reject\tEXTENSION ExtendedRNC-ID\tPRESENCE optional\t},\n",
  text% "\t...\n",
  text% "}\n",
  text% "\n",
  text% "-- **************************************************************\n",
  text% "--\n",
  text% "-- SRNS DATA FORWARD ELEMENTARY PROCEDURE\n",
  text% "--\n",
  text% "-- **************************************************************\n",
  text% "\n",
  text% "-- **************************************************************\n",
  text% "--\n",
  text% "-- SRNS Data Forward Command\n",
  text% "--\n",
  text% "-- **************************************************************\n",
  text% "\n",
  text% "SRNS-DataForwardCommand ::= SEQUENCE {\n"]

/-- The tables of `ranap31`. -/
noncomputable def ranap31Tables : List (Text × List Row) := [
  (text% "OverloadIEs", [
    ⟨text% "id-NumberOfSteps", text% "ignore", text% "NumberOfSteps", text% "optional"⟩,
    ⟨text% "id-GlobalRNC-ID", text% "ignore", text% "GlobalRNC-ID", text% "optional"⟩]),
  (text% "ErrorIndicationIEs", [
    ⟨text% "id-Cause", text% "ignore", text% "Cause", text% "optional"⟩,
    ⟨text% "id-CriticalityDiagnostics", text% "ignore", text% "CriticalityDiagnostics", text% "optional"⟩,
    ⟨text% "id-CN-DomainIndicator", text% "ignore", text% "CN-DomainIndicator", text% "optional"⟩,
    ⟨text% "id-GlobalRNC-ID", text% "ignore", text% "GlobalRNC-ID", text% "optional"⟩])]

/-- asn1/ranap/RANAP-PDU-Contents.asn:2103-2158 -/
noncomputable def ranap32 : List Text := [
  text% "\tprotocolIEs\t\tProtocolIE-Container\t\t{ {SRNS-DataForwardCommandIEs} },\n",
  text% "\tprotocolExtensions\tProtocolExtensionContainer\t{ {SRNS-DataForwardCommandExtensions} }\t\t\tOPTIONAL,\n",
  text% "\t...\n",
  text% "}\n",
  text% "\n",
  text% "SRNS-DataForwardCommandIEs RANAP-PROTOCOL-IES ::= {\n",
  text% "\t{ ID id-RAB-DataForwardingList\tCRITICALITY ignore\tTYPE RAB-DataForwardingList\tPRESENCE optional\t},\n",
  text% "\t...\n",
  text% "}\n",
  text% "\n",
  text% "SRNS-DataForwardCommandExtensions RANAP-PROTOCOL-EXTENSION ::= {\n",
  text% "\t...\n",
  text% "}\n",
  text% "\n",
  text% "-- **************************************************************\n",
  text% "--\n",
  text% "-- FORWARD SRNS CONTEXT ELEMENTARY PROCEDURE\n",
  text% "--\n",
  text% "-- **************************************************************\n",
  text% "\n",
  text% "-- **************************************************************\n",
  text% "--\n",
  text% "-- Forward SRNS Context\n",
  text% "--\n",
  text% "-- **************************************************************\n",
  text% "\n",
  text% "ForwardSRNS-Context ::= SEQUENCE {\n",
  text% "\tprotocolIEs\t\tProtocolIE-Container\t\t{ {ForwardSRNS-ContextIEs} },\n",
  text% "\tprotocolExtensions\tProtocolExtensionContainer\t{ {ForwardSRNS-ContextExtensions} }\t\t\t\tOPTIONAL,\n",
  text% "\t...\n",
  text% "}\n",
  text% "\n",
  text% "ForwardSRNS-ContextIEs RANAP-PROTOCOL-IES ::= {\n",
  text% "\t{ ID id-RAB-ContextList\tCRITICALITY ignore\tTYPE RAB-ContextList\t\tPRESENCE mandatory\t},\n",
  text% "\t...\n",
  text% "}\n",
  text% "\n",
  text% "ForwardSRNS-ContextExtensions RANAP-PROTOCOL-EXTENSION ::= {\n",
  text% "-- Extension for Release 5 to enable relocation of Source RNC PDCP context info --\n",
  text% "\t{ ID id-SourceRNC-PDCP-context-info\tCRITICALITY ignore\tEXTENSION RRC-Container\tPRESENCE optional},\n",
  text% "\t...\n",
  text% "}\n",
  text% "\n",
  text% "-- **************************************************************\n",
  text% "--\n",
  text% "-- RAB ASSIGNMENT ELEMENTARY PROCEDURE\n",
  text% "--\n",
  text% "-- **************************************************************\n",
  text% "\n",
  text% "-- **************************************************************\n",
  text% "--\n",
  text% "-- RAB Assignment Request\n",
  text% "--\n",
  text% "-- **************************************************************\n",
  text% "\n",
  text% "RAB-AssignmentRequest ::= SEQUENCE {\n"]

/-- The tables of `ranap32`. -/
noncomputable def ranap32Tables : List (Text × List Row) := [
  (text% "SRNS-DataForwardCommandIEs", [
    ⟨text% "id-RAB-DataForwardingList", text% "ignore", text% "RAB-DataForwardingList", text% "optional"⟩]),
  (text% "ForwardSRNS-ContextIEs", [
    ⟨text% "id-RAB-ContextList", text% "ignore", text% "RAB-ContextList", text% "mandatory"⟩])]

/-- asn1/ranap/RANAP-PDU-Contents.asn:2159-2211 -/
noncomputable def ranap33 : List Text := [
  text% "\tprotocolIEs\t\tProtocolIE-Container\t\t{ {RAB-AssignmentRequestIEs} },\n",
  text% "\tprotocolExtensions\tProtocolExtensionContainer\t{ {RAB-AssignmentRequestExtensions} }\t\t\tOPTIONAL,\n",
  text% "\t...\n",
  text% "}\n",
  text% "\n",
  text% "RAB-AssignmentRequestIEs RANAP-PROTOCOL-IES ::= {\n",
  text% "\t{ ID id-RAB-SetupOrModifyList\tCRITICALITY ignore\tTYPE RAB-SetupOrModifyList\tPRESENCE optional\t} |\n",
  text% "\t{ ID id-RAB-ReleaseList\t\tCRITICALITY ignore\tTYPE RAB-ReleaseList\t\tPRESENCE optional\t},\n",
  text% "\t...\n",
  text% "}\n",
  text% "\n",
  text% "RAB-SetupOrModifyList \t::= RAB-IE-ContainerPairList { {RAB-SetupOrModifyItem-IEs} }\n",
  text% "\n",
  text% "RAB-SetupOrModifyItem-IEs RANAP-PROTOCOL-IES-PAIR ::= {\n",
  text% "\t{ ID id-RAB-SetupOrModifyItem\tFIRST CRITICALITY reject\tFIRST TYPE RAB-SetupOrModifyItemFirst\n",
  text% "\t \t\t\t\tSECOND CRITICALITY ignore\tSECOND TYPE RAB-SetupOrModifyItemSecond\t\n",
  text% "\t\t\t\t\t\t\t\t\t\t\t\t\tPRESENCE mandatory\t},\n",
  text% "\t...\n",
  text% "}\n",
  text% "\n",
  text% "RAB-SetupOrModifyItemFirst ::= SEQUENCE {\n",
  text% "\trAB-ID\t\t\t\tRAB-ID,\n",
  text% "\tnAS-SynchronisationIndicator\tNAS-SynchronisationIndicator\tOPTIONAL,\n",
  text% "\trAB-Parameters\t\t\tRAB-Parameters\t\t\tOPTIONAL,\n",
  text% "\tuserPlaneInformation\t\tUserPlaneInformation\t\tOPTIONAL,\n",
  text% "\ttransportLayerInformation\tTransportLayerInformation\tOPTIONAL,\n",
  text% "\tservice-Handover\t\tService-Handover\t\tOPTIONAL,\n",
  text% "\tiE-Extensions\t\t\tProtocolExtensionContainer { {RAB-SetupOrModifyItemFirst-ExtIEs} } OPTIONAL,\n",
  text% "\t...\n",
  text% "}\n",
  text% "\n",
  text% "TransportLayerInformation ::= SEQUENCE {\n",
  text% "\ttransportLayerAddress\tTransportLayerAddress,\n",
  text% "\tiuTransportAssociation\tIuTransportAssociation,\n",
  text% "\tiE-Extensions\t\tProtocolExtensionContainer { {TransportLayerInformation-ExtIEs} } OPTIONAL,\n",
  text% "\t...\n",
  text% "}\n",
  text% "\n",
  text% "TransportLayerInformation-ExtIEs RANAP-PROTOCOL-EXTENSION ::= {\n",
  text% "\t...\n",
  text% "}\n",
  text% "\n",
  text% "RAB-SetupOrModifyItemFirst-ExtIEs RANAP-PROTOCOL-EXTENSION ::= {\n",
  text% "-- Extension for Release 8 to enable handover restriction to E-UTRAN --\n",
  text% "\t{ ID id-E-UTRAN-Service-Handover\tCRITICALITY ignore\tEXTENSION E-UTRAN-Service-Handover\tPRESENCE optional}|\n",
  text% "-- Extension for Release 10 to support LIPA --\n",
  text% "\t{ ID id-Correlation-ID\t\t\tCRITICALITY ignore\tEXTENSION Correlation-ID\t\tPRESENCE optional}|\n",
  text% "-- Extension for Release 12 to support SIPTO@LN with collocated L-GW --\n",
  text% "\t{ ID id-SIPTO-Correlation-ID\t\tCRITICALITY ignore\tEXTENSION Correlation-ID\t\tPRESENCE optional},\n",
  text% "\t...\n",
  text% "}\n",
  text% "\n",
  text% "RAB-SetupOrModifyItemSecond ::= SEQUENCE {\n"]

/-- The tables of `ranap33`. -/
noncomputable def ranap33Tables : List (Text × List Row) := [
  (text% "RAB-AssignmentRequestIEs", [
    ⟨text% "id-RAB-SetupOrModifyList", text% "ignore", text% "RAB-SetupOrModifyList", text% "optional"⟩,
    ⟨text% "id-RAB-ReleaseList", text% "ignore", text% "RAB-ReleaseList", text% "optional"⟩])]

/-- asn1/ranap/RANAP-PDU-Contents.asn:2212-2247 -/
noncomputable def ranap34 : List Text := [
  text% "\tpDP-TypeInformation\t\t\t\tPDP-TypeInformation \t\tOPTIONAL,\n",
  text% "\tdataVolumeReportingIndication\t\t\tDataVolumeReportingIndication \tOPTIONAL,\n",
  text% "\tdl-GTP-PDU-SequenceNumber\t\t\tDL-GTP-PDU-SequenceNumber \tOPTIONAL,\n",
  text% "\tul-GTP-PDU-SequenceNumber\t\t\tUL-GTP-PDU-SequenceNumber \tOPTIONAL,\n",
  text% "\tdl-N-PDU-SequenceNumber\t\t\t\tDL-N-PDU-SequenceNumber \tOPTIONAL,\n",
  text% "\tul-N-PDU-SequenceNumber\t\t\t\tUL-N-PDU-SequenceNumber\t\tOPTIONAL,\n",
  text% "\tiE-Extensions\t\t\t\t\tProtocolExtensionContainer { {RAB-SetupOrModifyItemSecond-ExtIEs} } OPTIONAL,\n",
  text% "\t...\n",
  text% "}\n",
  text% "\n",
  text% "RAB-SetupOrModifyItemSecond-ExtIEs RANAP-PROTOCOL-EXTENSION ::= {\n",
  text% "-- Extension for Release 4 to enable RAB Quality of Service negotiation over Iu --\n",
  text% "\t{ ID id-Alt-RAB-Parameters\t\tCRITICALITY ignore\tEXTENSION Alt-RAB-Parameters\t\tPRESENCE optional}|\n",
  text% "-- Extension for Release 5 to enable GERAN support over Iu-cs --\n",
  text% "\t{ ID id-GERAN-BSC-Container\t\tCRITICALITY ignore\tEXTENSION GERAN-BSC-Container\t\tPRESENCE optional}|\n",
  text% "-- Extension for Release Release 9 to enable a new value --\n",
  text% "\t{ ID id-PDP-TypeInformation-extension\tCRITICALITY ignore\tEXTENSION PDP-TypeInformation-extension\tPRESENCE optional}|\n",
  text% "-- Extension for Release 10 to enable Offload at Iu-ps for UTRAN --\n",
  text% "\t{ ID id-Offload-RAB-Parameters\t\tCRITICALITY ignore\tEXTENSION Offload-RAB-Parameters\tPRESENCE optional},\n",
  text% "\t...\n",
  text% "}\n",
  text% "\n",
  text% "RAB-AssignmentRequestExtensions RANAP-PROTOCOL-EXTENSION ::= {\n",
  text% "\t{ ID id-UE-AggregateMaximumBitRate\tCRITICALITY ignore\tEXTENSION UE-AggregateMaximumBitRate\tPRESENCE optional}|\n",
  text% "-- Extension for Release 10 to enable Offload at Iu-ps for UTRAN --\n",
  text% "\t{ ID id-MSISDN\t\t\t\tCRITICALITY ignore\tEXTENSION MSISDN\t\t\tPRESENCE optional},\n",
  text% "\t...\n",
  text% "}\n",
  text% "\n",
  text% "-- **************************************************************\n",
  text% "--\n",
  text% "-- RAB Assignment Response\n",
  text% "--\n",
  text% "-- **************************************************************\n",
  text% "\n",
  text% "RAB-AssignmentResponse ::= SEQUENCE {\n"]

/-- The tables of `ranap34`. -/
noncomputable def ranap34Tables : List (Text × List Row) := []

/-- asn1/ranap/RANAP-PDU-Contents.asn:2248-2292 -/
noncomputable def ranap35 : List Text := [
  text% "\tprotocolIEs\t\tProtocolIE-Container\t\t{ {RAB-AssignmentResponseIEs} },\n",
  text% "\tprotocolExtensions\tProtocolExtensionContainer\t{ {RAB-AssignmentResponseExtensions} }\t\t\tOPTIONAL,\n",
  text% "\t...\n",
  text% "}\n",
  text% "\n",
  text% "RAB-AssignmentResponseIEs RANAP-PROTOCOL-IES ::= {\n",
  text% "\t{ ID id-RAB-SetupOrModifiedList\tCRITICALITY ignore\tTYPE RAB-SetupOrModifiedList\tPRESENCE optional\t} |\n",
  text% "\t{ ID id-RAB-ReleasedList\tCRITICALITY ignore\tTYPE RAB-ReleasedList\t\tPRESENCE optional\t} |\n",
  text% "\t{ ID id-RAB-QueuedList\t\tCRITICALITY ignore\tTYPE RAB-QueuedList\t\tPRESENCE optional\t} |\n",
  text% "\t{ ID id-RAB-FailedList\t\tCRITICALITY ignore\tTYPE RAB-FailedList\t\tPRESENCE optional\t} |\n",
  text% "\t{ ID id-RAB-ReleaseFailedList\tCRITICALITY ignore\tTYPE RAB-ReleaseFailedList\tPRESENCE optional\t} |\n",
  text% "\t{ ID id-CriticalityDiagnostics\tCRITICALITY ignore\tTYPE CriticalityDiagnostics\tPRESENCE optional },\n",
  text% "\t...\n",
  text% "}\n",
  text% "\n",
  text% "RAB-SetupOrModifiedList \t\t\t\t::= RAB-IE-ContainerList { {RAB-SetupOrModifiedItemIEs} }\n",
  text% "\n",
  text% "RAB-SetupOrModifiedItemIEs RANAP-PROTOCOL-IES ::= {\n",
  text% "\t{ ID id-RAB-SetupOrModifiedItem\tCRITICALITY ignore\tTYPE RAB-SetupOrModifiedItem\tPRESENCE mandatory\t},\n",
  text% "\t...\n",
  text% "}\n",
  text% "\n",
  text% "RAB-SetupOrModifiedItem ::= SEQUENCE {\n",
  text% "\trAB-ID\t\t\tRAB-ID,\n",
  text% "\ttransportLayerAddress\tTransportLayerAddress\tOPTIONAL,\n",
  text% "\tiuTransportAssociation\tIuTransportAssociation\tOPTIONAL,\n",
  text% "\tdl-dataVolumes\t\tDataVolumeList\t\tOPTIONAL,\n",
  text% "\tiE-Extensions\t\tProtocolExtensionContainer { {RAB-SetupOrModifiedItem-ExtIEs} }\t\t\tOPTIONAL,\n",
  text% "\t...\n",
  text% "}\n",
  text% "\n",
  text% "RAB-SetupOrModifiedItem-ExtIEs RANAP-PROTOCOL-EXTENSION ::= {\n",
  text% "-- Extension for Release 4 to enable RAB Quality of Service negotiation over Iu --\n",
  text% "\t{\tID id-Ass-RAB-Parameters\tCRITICALITY ignore\t\tEXTENSION Ass-RAB-Parameters\t\tPRESENCE optional\t},\n",
  text% "\t...\n",
  text% "}\n",
  text% "\n",
  text% "RAB-ReleasedList \t\t\t\t\t::= RAB-IE-ContainerList { {RAB-ReleasedItemIEs} }\n",
  text% "\n",
  text% "RAB-ReleasedItemIEs RANAP-PROTOCOL-IES ::= {\n",
  text% "\t{ ID id-RAB-ReleasedItem\tCRITICALITY ignore\tTYPE RAB-ReleasedItem\t\t\t\tPRESENCE mandatory\t},\n",
  text% "\t...\n",
  text% "}\n",
  text% "\n",
  text% "RAB-ReleasedItem ::= SEQUENCE {\n"]

/-- The tables of `ranap35`. -/
noncomputable def ranap35Tables : List (Text × List Row) := [
  (text% "RAB-AssignmentResponseIEs", [
    ⟨text% "id-RAB-SetupOrModifiedList", text% "ignore", text% "RAB-SetupOrModifiedList", text% "optional"⟩,
    ⟨text% "id-RAB-ReleasedList", text% "ignore", text% "RAB-ReleasedList", text% "optional"⟩,
    ⟨text% "id-RAB-QueuedList", text% "ignore", text% "RAB-QueuedList", text% "optional"⟩,
    ⟨text% "id-RAB-FailedList", text% "ignore", text% "RAB-FailedList", text% "optional"⟩,
    ⟨text% "id-RAB-ReleaseFailedList", text% "ignore", text% "RAB-ReleaseFailedList", text% "optional"⟩,
    ⟨text% "id-CriticalityDiagnostics", text% "ignore", text% "CriticalityDiagnostics", text% "optional"⟩]),
  (text% "RAB-SetupOrModifiedItemIEs", [
    ⟨text% "id-RAB-SetupOrModifiedItem", text% "ignore", text% "RAB-SetupOrModifiedItem", text% "mandatory"⟩]),
  (text% "RAB-ReleasedItemIEs", [
    ⟨text% "id-RAB-ReleasedItem", text% "ignore", text% "RAB-ReleasedItem", text% "mandatory"⟩])]

end Verif.Gen.Text
