import Verif.Gen.TextLit
import Verif.Model.AsnToStruct

/-!
# Text of the RANAP messages

The lines 2293-3237 of `/repo/asn1/ranap/RANAP-PDU-Contents.asn` as they are, in parts, each with the tables of
elements that are expected for it.
-/

namespace Verif.Gen.Text
open Verif.AsnToStruct

/-- asn1/ranap/RANAP-PDU-Contents.asn:2293-2350 -/
noncomputable def ranap36 : List Text := [
  text% "\trAB-ID\t\t\t\tRAB-ID,\n",
  text% "\tdl-dataVolumes\t\t\tDataVolumeList\t\tOPTIONAL,\n",
  text% "\tdL-GTP-PDU-SequenceNumber\tDL-GTP-PDU-SequenceNumber\t\t\tOPTIONAL,\n",
  text% "\tuL-GTP-PDU-SequenceNumber\tUL-GTP-PDU-SequenceNumber\t\t\tOPTIONAL,\n",
  text% "\tiE-Extensions\t\t\tProtocolExtensionContainer { {RAB-ReleasedItem-ExtIEs} }\t\t\tOPTIONAL,\n",
  text% "\t...\n",
  text% "}\n",
  text% "\n",
  text% "RAB-ReleasedItem-ExtIEs RANAP-PROTOCOL-EXTENSION ::= {\n",
  text% "\t...\n",
  text% "}\n",
  text% "\n",
  text% "DataVolumeList ::= SEQUENCE (SIZE (1..maxNrOfVol)) OF DataVolumeList-Value\n",
  text% "DataVolumeList-Value ::=\n",
  text% "\tSEQUENCE {\n",
  text% "\t\tdl-UnsuccessfullyTransmittedDataVolume\tUnsuccessfullyTransmittedDataVolume,\n",
  text% "\t\tdataVolumeReference\t\t\tDataVolumeReference\tOPTIONAL,\n",
  text% "\t\tiE-Extensions\t\t\t\tProtocolExtensionContainer { {DataVolumeList-ExtIEs} }\t\t\tOPTIONAL,\n",
  text% "\t\t...\n",
  text% "\t}\n",
  text% "\n",
  text% "DataVolumeList-ExtIEs RANAP-PROTOCOL-EXTENSION ::= {\n",
  text% "\t...\n",
  text% "}\n",
  text% "\n",
  text% "RAB-QueuedList \t\t\t\t\t\t::= RAB-IE-ContainerList { {RAB-QueuedItemIEs} }\n",
  text% "\n",
  text% "RAB-QueuedItemIEs RANAP-PROTOCOL-IES ::= {\n",
  text% "\t{ ID id-RAB-QueuedItem\tCRITICALITY ignore\tTYPE RAB-QueuedItem\t\t\t\tPRESENCE mandatory\t},\n",
  text% "\t...\n",
  text% "}\n",
  text% "\n",
  text% "RAB-QueuedItem ::= SEQUENCE {\n",
  text% "\trAB-ID\t\tRAB-ID,\n",
  text% "\tiE-Extensions\tProtocolExtensionContainer { {RAB-QueuedItem-ExtIEs} }\t\t\tOPTIONAL,\n",
  text% "\t...\n",
  text% "}\n",
  text% "\n",
  text% "RAB-QueuedItem-ExtIEs RANAP-PROTOCOL-EXTENSION ::= {\n",
  text% "\t...\n",
  text% "}\n",
  text% "\n",
  text% "RAB-ReleaseFailedList ::= RAB-FailedList\n",
  text% "\n",
  text% "RAB-AssignmentResponseExtensions RANAP-PROTOCOL-EXTENSION ::= {\n",
  text% "-- Extension for Release 5 to enable GERAN support over Iu-cs --\n",
  text% "\t{ ID id-GERAN-Iumode-RAB-FailedList-RABAssgntResponse\t\tCRITICALITY ignore\tEXTENSION GERAN-Iumode-RAB-FailedList-RABAssgntResponse\t\t\tPRESENCE optional} ,\n",
  text% "\t...\n",
  text% "}\n",
  text% "\n",
  text% "GERAN-Iumode-RAB-FailedList-RABAssgntResponse\t\t::= RAB-IE-ContainerList { {GERAN-Iumode-RAB-Failed-RABAssgntResponse-ItemIEs} }\n",
  text% "\n",
  text% "GERAN-Iumode-RAB-Failed-RABAssgntResponse-ItemIEs RANAP-PROTOCOL-IES ::= {\n",
  text% "\t{ ID id-GERAN-Iumode-RAB-Failed-RABAssgntResponse-Item\t\tCRITICALITY ignore\tTYPE GERAN-Iumode-RAB-Failed-RABAssgntResponse-Item\t\t\tPRESENCE mandatory\t},\n",
  text% "\t...\n",
  text% "}\n",
  text% "\n",
  text% "GERAN-Iumode-RAB-Failed-RABAssgntResponse-Item ::= SEQUENCE {\n"]

/-- The tables of `ranap36`. -/
noncomputable def ranap36Tables : List (Text × List Row) := [
  (text% "RAB-QueuedItemIEs", [
    ⟨text% "id-RAB-QueuedItem", text% "ignore", text% "RAB-QueuedItem", text% "mandatory"⟩]),
  (text% "GERAN-Iumode-RAB-Failed-RABAssgntResponse-ItemIEs", [
    ⟨text% "id-GERAN-Iumode-RAB-Failed-RABAssgntResponse-Item", text% "ignore", text% "GERAN-Iumode-RAB-Failed-RABAssgntResponse-Item", text% "mandatory"⟩])]

/-- asn1/ranap/RANAP-PDU-Contents.asn:2351-2406 -/
noncomputable def ranap37 : List Text := [
  text% "\trAB-ID\t\tRAB-ID,\n",
  text% "\tcause\t\tCause,\n",
  text% "\tgERAN-Classmark\tGERAN-Classmark\t\tOPTIONAL,\n",
  text% "\tiE-Extensions\tProtocolExtensionContainer { {GERAN-Iumode-RAB-Failed-RABAssgntResponse-Item-ExtIEs} }\t\t\tOPTIONAL,\n",
  text% "\t...\n",
  text% "}\n",
  text% "\n",
  text% "GERAN-Iumode-RAB-Failed-RABAssgntResponse-Item-ExtIEs RANAP-PROTOCOL-EXTENSION ::= {\n",
  text% "\t...\n",
  text% "}\n",
  text% "\n",
  text% "-- **************************************************************\n",
  text% "--\n",
  text% "-- PRIVATE MESSAGE\n",
  text% "--\n",
  text% "-- **************************************************************\n",
  text% "\n",
  text% "PrivateMessage ::= SEQUENCE {\n",
  text% "\tprivateIEs\tPrivateIE-Container\t\t{ {PrivateMessage-IEs } },\n",
  text% "\t...\n",
  text% "}\n",
  text% "\n",
  text% "PrivateMessage-IEs RANAP-PRIVATE-IES ::= {\n",
  text% "\t...\n",
  text% "}\n",
  text% "\n",
  text% "-- **************************************************************\n",
  text% "--\n",
  text% "-- RANAP RELOCATION INFORMATION ELEMENTARY PROCEDURE\n",
  text% "--\n",
  text% "-- **************************************************************\n",
  text% "\n",
  text% "RANAP-RelocationInformation ::= SEQUENCE {\n",
  text% "\tprotocolIEs\t\tProtocolIE-Container\t\t{ {RANAP-RelocationInformationIEs} },\n",
  text% "\tprotocolExtensions\tProtocolExtensionContainer\t{ {RANAP-RelocationInformationExtensions} }\t\t\tOPTIONAL,\n",
  text% "\t...\n",
  text% "}\n",
  text% "\n",
  text% "RANAP-RelocationInformationIEs RANAP-PROTOCOL-IES ::= {\n",
  text% "\t{ ID id-DirectTransferInformationList-RANAP-RelocInf\t\n",
  text% "\t\t\t\t\t\t\tCRITICALITY ignore\tTYPE DirectTransferInformationList-RANAP-RelocInf\t\t\n",
  text% "\t\t\t\t\t\t\t\t\t\t\t\t\t\t\t\tPRESENCE optional\t} |\n",
  text% "\t{ ID id-RAB-ContextList-RANAP-RelocInf\t\tCRITICALITY ignore\tTYPE RAB-ContextList-RANAP-RelocInf\t\tPRESENCE optional\t},\n",
  text% "\t...\n",
  text% "}\n",
  text% "\n",
  text% "DirectTransferInformationList-RANAP-RelocInf\t\t::= DirectTransfer-IE-ContainerList { {DirectTransferInformationItemIEs-RANAP-RelocInf} }\n",
  text% "\n",
  text% "DirectTransferInformationItemIEs-RANAP-RelocInf RANAP-PROTOCOL-IES ::= {\n",
  text% "\t{ ID id-DirectTransferInformationItem-RANAP-RelocInf\n",
  text% "\t\t\t\t\t\t\tCRITICALITY ignore\tTYPE DirectTransferInformationItem-RANAP-RelocInf\n",
  text% "\t\t\t\t\t\t\t\t\t\t\t\t\t\t\t\tPRESENCE mandatory\t},\n",
  text% "\t...\n",
  text% "}\n",
  text% "\n",
  text% "DirectTransferInformationItem-RANAP-RelocInf ::= SEQUENCE {\n"]

/-- The tables of `ranap37`. -/
noncomputable def ranap37Tables : List (Text × List Row) := [
  (text% "RANAP-RelocationInformationIEs", [
    ⟨text% "id-RAB-ContextList-RANAP-RelocInf", text% "ignore", text% "RAB-ContextList-RANAP-RelocInf", text% "optional"⟩])]

/-- asn1/ranap/RANAP-PDU-Contents.asn:2407-2459 -/
noncomputable def ranap38 : List Text := [
  text% "\tnAS-PDU\t\t\tNAS-PDU,\n",
  text% "\tsAPI\t\t\tSAPI,\n",
  text% "\tcN-DomainIndicator\tCN-DomainIndicator,\n",
  text% "\tiE-Extensions\t\tProtocolExtensionContainer { {RANAP-DirectTransferInformationItem-ExtIEs-RANAP-RelocInf} }\t\t\tOPTIONAL,\n",
  text% "\t...\n",
  text% "}\n",
  text% "\n",
  text% "RANAP-DirectTransferInformationItem-ExtIEs-RANAP-RelocInf RANAP-PROTOCOL-EXTENSION ::= {\n",
  text% "\t...\n",
  text% "}\n",
  text% "\n",
  text% "RAB-ContextList-RANAP-RelocInf \t\t\t\t::= RAB-IE-ContainerList { {RAB-ContextItemIEs-RANAP-RelocInf} }\n",
  text% "\n",
  text% "RAB-ContextItemIEs-RANAP-RelocInf RANAP-PROTOCOL-IES ::= {\n",
  text% "\t{ ID id-RAB-ContextItem-RANAP-RelocInf\t\tCRITICALITY ignore\tTYPE RAB-ContextItem-RANAP-RelocInf\t\t\tPRESENCE mandatory\t},\n",
  text% "\t...\n",
  text% "}\n",
  text% "\n",
  text% "RAB-ContextItem-RANAP-RelocInf ::= SEQUENCE {\n",
  text% "\trAB-ID\t\t\t\tRAB-ID,\n",
  text% "\tdl-GTP-PDU-SequenceNumber\tDL-GTP-PDU-SequenceNumber \tOPTIONAL,\n",
  text% "\tul-GTP-PDU-SequenceNumber\tUL-GTP-PDU-SequenceNumber \tOPTIONAL,\n",
  text% "\tdl-N-PDU-SequenceNumber\t\tDL-N-PDU-SequenceNumber\t\tOPTIONAL,\n",
  text% "\tul-N-PDU-SequenceNumber\t\tUL-N-PDU-SequenceNumber\t\tOPTIONAL,\n",
  text% "\tiE-Extensions\t\t\tProtocolExtensionContainer { {RAB-ContextItem-ExtIEs-RANAP-RelocInf} }\t\tOPTIONAL,\n",
  text% "\t...\n",
  text% "}\n",
  text% "\n",
  text% "RAB-ContextItem-ExtIEs-RANAP-RelocInf RANAP-PROTOCOL-EXTENSION ::= {\n",
  text% "\t...\n",
  text% "}\n",
  text% "\n",
  text% "RANAP-RelocationInformationExtensions RANAP-PROTOCOL-EXTENSION ::= {\n",
  text% "-- Extension for Release 5 to enable relocation of Source RNC PDCP context info --\n",
  text% "\t{ ID id-SourceRNC-PDCP-context-info\t\tCRITICALITY ignore\tEXTENSION RRC-Container\t\t\t\t\tPRESENCE optional} |\n",
  text% "-- Extension for Release 10 to enable RNSAP Relocation --\n",
  text% "\t{ ID id-RNSAPRelocationParameters\t\tCRITICALITY reject\tEXTENSION RNSAPRelocationParameters\tPRESENCE optional},\n",
  text% "\t...\n",
  text% "}\n",
  text% "\n",
  text% "-- **************************************************************\n",
  text% "--\n",
  text% "-- RANAP ENHANCED RELOCATION INFORMATION ELEMENTARY PROCEDURE\n",
  text% "--\n",
  text% "-- **************************************************************\n",
  text% "\n",
  text% "-- **************************************************************\n",
  text% "--\n",
  text% "-- RANAP Enhanced Relocation Information Request\n",
  text% "--\n",
  text% "-- **************************************************************\n",
  text% "\n",
  text% "RANAP-EnhancedRelocationInformationRequest ::= SEQUENCE {\n"]

/-- The tables of `ranap38`. -/
noncomputable def ranap38Tables : List (Text × List Row) := [
  (text% "RAB-ContextItemIEs-RANAP-RelocInf", [
    ⟨text% "id-RAB-ContextItem-RANAP-RelocInf", text% "ignore", text% "RAB-ContextItem-RANAP-RelocInf", text% "mandatory"⟩])]

/-- asn1/ranap/RANAP-PDU-Contents.asn:2460-2486 -/
noncomputable def ranap39 : List Text := [
  text% "\tprotocolIEs\t\tProtocolIE-Container\t\t{ {RANAP-EnhancedRelocationInformationRequestIEs} },\n",
  text% "\tprotocolExtensions\tProtocolExtensionContainer\t{ {RANAP-EnhancedRelocationInformationRequestExtensions} }\t\t\tOPTIONAL,\n",
  text% "\t...\n",
  text% "}\n",
  text% "\n",
  text% "RANAP-EnhancedRelocationInformationRequestIEs RANAP-PROTOCOL-IES ::= {\n",
  text% "\t{ ID id-Source-ToTarget-TransparentContainer \tCRITICALITY reject TYPE SourceRNC-ToTargetRNC-TransparentContainer\tPRESENCE mandatory }|\n",
  text% "\t{ ID id-OldIuSigConIdCS\t\t\t\tCRITICALITY ignore TYPE IuSignallingConnectionIdentifier\t\tPRESENCE optional }|\n",
  text% "\t{ ID id-GlobalCN-IDCS\t\t\t\tCRITICALITY reject TYPE GlobalCN-ID\t\t\t\t\tPRESENCE optional }|\n",
  text% "\t{ ID id-OldIuSigConIdPS\t\t\t\tCRITICALITY ignore TYPE IuSignallingConnectionIdentifier\t\tPRESENCE optional }|\n",
  text% "\t{ ID id-GlobalCN-IDPS\t\t\t\tCRITICALITY reject TYPE GlobalCN-ID\t\t\t\t\tPRESENCE optional }|\n",
  text% "\t{ ID id-RAB-SetupList-EnhRelocInfoReq\t\tCRITICALITY reject TYPE RAB-SetupList-EnhRelocInfoReq\t\t\tPRESENCE optional }|\n",
  text% "\t{ ID id-SNA-Access-Information\t\t\tCRITICALITY ignore TYPE SNA-Access-Information\t\t\t\tPRESENCE optional }|\n",
  text% "\t{ ID id-UESBI-Iu\t\t\t\tCRITICALITY ignore TYPE UESBI-Iu\t\t\t\t\tPRESENCE optional }|\n",
  text% "\t{ ID id-SelectedPLMN-ID\t \t\t\tCRITICALITY ignore TYPE PLMNidentity\t\t\t\t\tPRESENCE optional }|\n",
  text% "\t{ ID id-CNMBMSLinkingInformation\t\tCRITICALITY ignore TYPE CNMBMSLinkingInformation\t\t\tPRESENCE optional },\n",
  text% "\t...\n",
  text% "}\n",
  text% "\n",
  text% "RAB-SetupList-EnhRelocInfoReq \t\t\t\t\t::= RAB-IE-ContainerList { { RAB-SetupItem-EnhRelocInfoReq-IEs} }\n",
  text% "\n",
  text% "RAB-SetupItem-EnhRelocInfoReq-IEs RANAP-PROTOCOL-IES ::= {\n",
  text% "\t{ ID id-RAB-SetupItem-EnhRelocInfoReq\t\tCRITICALITY reject\tTYPE RAB-SetupItem-EnhRelocInfoReq\t\tPRESENCE mandatory \t},\n",
  text% "\t...\n",
  text% "}\n",
  text% "\n",
  text% "RAB-SetupItem-EnhRelocInfoReq ::= SEQUENCE {\n"]

/-- The tables of `ranap39`. -/
noncomputable def ranap39Tables : List (Text × List Row) := [
  (text% "RANAP-EnhancedRelocationInformationRequestIEs", [
    ⟨text% "id-Source-ToTarget-TransparentContainer", text% "reject", text% "SourceRNC-ToTargetRNC-TransparentContainer", text% "mandatory"⟩,
    ⟨text% "id-OldIuSigConIdCS", text% "ignore", text% "IuSignallingConnectionIdentifier", text% "optional"⟩,
    ⟨text% "id-GlobalCN-IDCS", text% "reject", text% "GlobalCN-ID", text% "optional"⟩,
    ⟨text% "id-OldIuSigConIdPS", text% "ignore", text% "IuSignallingConnectionIdentifier", text% "optional"⟩,
    ⟨text% "id-GlobalCN-IDPS", text% "reject", text% "GlobalCN-ID", text% "optional"⟩,
    ⟨text% "id-RAB-SetupList-EnhRelocInfoReq", text% "reject", text% "RAB-SetupList-EnhRelocInfoReq", text% "optional"⟩,
    ⟨text% "id-SNA-Access-Information", text% "ignore", text% "SNA-Access-Information", text% "optional"⟩,
    ⟨text% "id-UESBI-Iu", text% "ignore", text% "UESBI-Iu", text% "optional"⟩,
    ⟨text% "id-SelectedPLMN-ID", text% "ignore", text% "PLMNidentity", text% "optional"⟩,
    ⟨text% "id-CNMBMSLinkingInformation", text% "ignore", text% "CNMBMSLinkingInformation", text% "optional"⟩]),
  (text% "RAB-SetupItem-EnhRelocInfoReq-IEs", [
    ⟨text% "id-RAB-SetupItem-EnhRelocInfoReq", text% "reject", text% "RAB-SetupItem-EnhRelocInfoReq", text% "mandatory"⟩])]

/-- asn1/ranap/RANAP-PDU-Contents.asn:2487-2543 -/
noncomputable def ranap40 : List Text := [
  text% "\trAB-ID\t\t\t\tRAB-ID,\n",
  text% "\tcN-DomainIndicator\t\tCN-DomainIndicator,\n",
  text% "\trAB-Parameters\t\t\tRAB-Parameters,\n",
  text% "\tdataVolumeReportingIndication\tDataVolumeReportingIndication \tOPTIONAL\n",
  text% "\t-- This IE shall be present if the CN domain indicator IE is set to \"PS domain\" --,\n",
  text% "\tpDP-TypeInformation\t\tPDP-TypeInformation\t\tOPTIONAL\n",
  text% "\t-- This IE shall be present if the CN domain indicator IE is set to \"PS domain\" --,\n",
  text% "\tuserPlaneInformation\t\tUserPlaneInformation,\n",
  text% "\tdataForwardingInformation\tTNLInformationEnhRelInfoReq\tOPTIONAL,\n",
  text% "\tsourceSideIuULTNLInfo\t\tTNLInformationEnhRelInfoReq\tOPTIONAL,\n",
  text% "\t\n",
  text% "\tservice-Handover\t\tService-Handover\t\tOPTIONAL,\n",
  text% "\talt-RAB-Parameters\t\tAlt-RAB-Parameters\t\tOPTIONAL,\n",
  text% "\tiE-Extensions\t\t\tProtocolExtensionContainer { { RAB-SetupItem-EnhRelocInfoReq-ExtIEs} }\t\t\tOPTIONAL,\n",
  text% "\t...\n",
  text% "}\n",
  text% "\n",
  text% "RAB-SetupItem-EnhRelocInfoReq-ExtIEs RANAP-PROTOCOL-EXTENSION ::= {\n",
  text% "-- Extension for Release 8 to enable handover restriction to E-UTRAN --\n",
  text% "\t{ ID id-E-UTRAN-Service-Handover\tCRITICALITY ignore\tEXTENSION E-UTRAN-Service-Handover\tPRESENCE optional\t}|\n",
  text% "-- Extension for Release Release 9 to enable a new value --\n",
  text% "\t{ ID id-PDP-TypeInformation-extension\tCRITICALITY ignore\tEXTENSION PDP-TypeInformation-extension\tPRESENCE optional\t},\n",
  text% "\t...\n",
  text% "}\n",
  text% "\n",
  text% "TNLInformationEnhRelInfoReq ::=SEQUENCE{\n",
  text% "\ttransportLayerAddress\tTransportLayerAddress,\n",
  text% "\tiuTransportAssociation\tIuTransportAssociation,\n",
  text% "\tiE-Extensions\t\tProtocolExtensionContainer { { TNLInformationEnhRelInfoReq-ExtIEs} }\t\t\tOPTIONAL,\n",
  text% "\t...\n",
  text% "}\n",
  text% "\n",
  text% "TNLInformationEnhRelInfoReq-ExtIEs RANAP-PROTOCOL-EXTENSION ::= {\n",
  text% "\t...\n",
  text% "}\n",
  text% "\n",
  text% "\n",
  text% "RANAP-EnhancedRelocationInformationRequestExtensions RANAP-PROTOCOL-EXTENSION ::= {\n",
  text% "\t{ ID id-IntegrityProtectionInformation\tCRITICALITY ignore\tEXTENSION IntegrityProtectionInformation\tPRESENCE optional} |\n",
  text% "\t{ ID id-EncryptionInformation\t\tCRITICALITY ignore\tEXTENSION EncryptionInformation\t\t\tPRESENCE optional} |\n",
  text% "\t{ ID id-UE-AggregateMaximumBitRate\tCRITICALITY ignore\tEXTENSION UE-AggregateMaximumBitRate\t\tPRESENCE optional} |\n",
  text% "-- Extension for Release 10 to enable RNSAP Relocation --\n",
  text% "\t{ ID id-RABParametersList\t\tCRITICALITY reject\tEXTENSION RABParametersList\t\t\tPRESENCE optional} |\n",
  text% "\t{ ID id-CSG-Id\t\t\t\tCRITICALITY reject\tEXTENSION CSG-Id\t\t\t\tPRESENCE optional} |\n",
  text% "\t{ ID id-CSG-Membership-Status\t\tCRITICALITY reject\tEXTENSION CSG-Membership-Status\t\t\tPRESENCE optional} |\n",
  text% "-- Extension for Release 11 to support rSRVCC in case of network sharing –\n",
  text% "\t{ ID id-AnchorPLMN-ID\t\t\tCRITICALITY ignore\tEXTENSION PLMNidentity\t\t\t\tPRESENCE optional},\n",
  text% "\t...\n",
  text% "}\n",
  text% "\n",
  text% "-- **************************************************************\n",
  text% "--\n",
  text% "-- RANAP Enhanced Relocation Information Response\n",
  text% "--\n",
  text% "-- **************************************************************\n",
  text% "\n",
  text% "RANAP-EnhancedRelocationInformationResponse ::= SEQUENCE {\n"]

/-- The tables of `ranap40`. -/
noncomputable def ranap40Tables : List (Text × List Row) := []

/-- asn1/ranap/RANAP-PDU-Contents.asn:2544-2584 -/
noncomputable def ranap41 : List Text := [
  text% "\tprotocolIEs\t\tProtocolIE-Container\t\t{ {RANAP-EnhancedRelocationInformationResponseIEs} },\n",
  text% "\tprotocolExtensions\tProtocolExtensionContainer\t{ {RANAP-EnhancedRelocationInformationResponseExtensions} }\t\t\tOPTIONAL,\n",
  text% "\t...\n",
  text% "}\n",
  text% "\n",
  text% "RANAP-EnhancedRelocationInformationResponseIEs RANAP-PROTOCOL-IES ::= {\n",
  text% "\t{ ID id-Target-ToSource-TransparentContainer\tCRITICALITY ignore\tTYPE TargetRNC-ToSourceRNC-TransparentContainer PRESENCE optional\t} |\n",
  text% "\t{ ID id-RAB-SetupList-EnhRelocInfoRes\t\tCRITICALITY ignore\tTYPE RAB-SetupList-EnhRelocInfoRes\t\tPRESENCE optional\t} |\n",
  text% "\t{ ID id-RAB-FailedList-EnhRelocInfoRes\t\tCRITICALITY ignore\tTYPE RAB-FailedList-EnhRelocInfoRes\t\tPRESENCE optional \t} |\n",
  text% "\t{ ID id-CriticalityDiagnostics\t\t\tCRITICALITY ignore\tTYPE CriticalityDiagnostics \t\t\tPRESENCE optional\t},\n",
  text% "\t...\n",
  text% "}\n",
  text% "\n",
  text% "RAB-SetupList-EnhRelocInfoRes \t\t\t\t::= RAB-IE-ContainerList { { RAB-SetupItem-EnhRelocInfoRes-IEs} }\n",
  text% "\n",
  text% "RAB-SetupItem-EnhRelocInfoRes-IEs RANAP-PROTOCOL-IES ::= {\n",
  text% "\t{ ID id-RAB-SetupItem-EnhRelocInfoRes\t\tCRITICALITY reject\tTYPE RAB-SetupItem-EnhRelocInfoRes\t\tPRESENCE mandatory \t},\n",
  text% "\t...\n",
  text% "}\n",
  text% "\n",
  text% "RAB-SetupItem-EnhRelocInfoRes ::= SEQUENCE {\n",
  text% "\tcN-DomainIndicator\t\tCN-DomainIndicator,\n",
  text% "\trAB-ID\t\t\t\tRAB-ID,\n",
  text% "\tdataForwardingInformation\tTNLInformationEnhRelInfoRes\tOPTIONAL,\n",
  text% "\tass-RAB-Parameters\t\tAss-RAB-Parameters\t\tOPTIONAL,\n",
  text% "\tiE-Extensions\t\t\tProtocolExtensionContainer { { RAB-SetupItem-EnhRelocInfoRes-ExtIEs} }\t\t\tOPTIONAL,\n",
  text% "\t...\n",
  text% "}\n",
  text% "\n",
  text% "RAB-SetupItem-EnhRelocInfoRes-ExtIEs RANAP-PROTOCOL-EXTENSION ::= {\n",
  text% "\t...\n",
  text% "}\n",
  text% "\n",
  text% "RAB-FailedList-EnhRelocInfoRes \t::= RAB-IE-ContainerList { { RAB-FailedItem-EnhRelocInfoRes-IEs} }\n",
  text% "\n",
  text% "RAB-FailedItem-EnhRelocInfoRes-IEs RANAP-PROTOCOL-IES ::= {\n",
  text% "\t{ ID id-RAB-FailedItem-EnhRelocInfoRes\t\tCRITICALITY reject\tTYPE RAB-FailedItem-EnhRelocInfoRes\t\t\tPRESENCE mandatory \t},\n",
  text% "\t...\n",
  text% "}\n",
  text% "\n",
  text% "RAB-FailedItem-EnhRelocInfoRes ::= SEQUENCE {\n"]

/-- The tables of `ranap41`. -/
noncomputable def ranap41Tables : List (Text × List Row) := [
  (text% "RANAP-EnhancedRelocationInformationResponseIEs", [
    ⟨text% "id-Target-ToSource-TransparentContainer", text% "ignore", text% "TargetRNC-ToSourceRNC-TransparentContainer", text% "optional"⟩,
    ⟨text% "id-RAB-SetupList-EnhRelocInfoRes", text% "ignore", text% "RAB-SetupList-EnhRelocInfoRes", text% "optional"⟩,
    ⟨text% "id-RAB-FailedList-EnhRelocInfoRes", text% "ignore", text% "RAB-FailedList-EnhRelocInfoRes", text% "optional"⟩,
    ⟨text% "id-CriticalityDiagnostics", text% "ignore", text% "CriticalityDiagnostics", text% "optional"⟩]),
  (text% "RAB-SetupItem-EnhRelocInfoRes-IEs", [
    ⟨text% "id-RAB-SetupItem-EnhRelocInfoRes", text% "reject", text% "RAB-SetupItem-EnhRelocInfoRes", text% "mandatory"⟩]),
  (text% "RAB-FailedItem-EnhRelocInfoRes-IEs", [
    ⟨text% "id-RAB-FailedItem-EnhRelocInfoRes", text% "reject", text% "RAB-FailedItem-EnhRelocInfoRes", text% "mandatory"⟩])]

/-- asn1/ranap/RANAP-PDU-Contents.asn:2585-2639 -/
noncomputable def ranap42 : List Text := [
  text% "\tcN-DomainIndicator\tCN-DomainIndicator,\n",
  text% "\trAB-ID\t\t\tRAB-ID,\n",
  text% "\tcause\t\t\tCause,\n",
  text% "\tiE-Extensions\t\tProtocolExtensionContainer { { RAB-FailedItem-EnhRelocInfoRes-ExtIEs} }\t\t\tOPTIONAL,\n",
  text% "\t...\n",
  text% "}\n",
  text% "\n",
  text% "RAB-FailedItem-EnhRelocInfoRes-ExtIEs RANAP-PROTOCOL-EXTENSION ::= {\n",
  text% "\t...\n",
  text% "}\n",
  text% "TNLInformationEnhRelInfoRes ::=SEQUENCE{\n",
  text% "\tdl-forwardingTransportLayerAddress\tTransportLayerAddress,\n",
  text% "\tdl-forwardingTransportAssociation\tIuTransportAssociation,\n",
  text% "\tiE-Extensions\t\t\t\tProtocolExtensionContainer { { TNLInformationEnhRelInfoRes-ExtIEs} }\t\t\tOPTIONAL,\n",
  text% "\t...\n",
  text% "}\n",
  text% "\n",
  text% "TNLInformationEnhRelInfoRes-ExtIEs RANAP-PROTOCOL-EXTENSION ::= {\n",
  text% "\t...\n",
  text% "}\n",
  text% "\n",
  text% "RANAP-EnhancedRelocationInformationResponseExtensions RANAP-PROTOCOL-EXTENSION ::= {\n",
  text% "\t...\n",
  text% "}\n",
  text% "-- **************************************************************\n",
  text% "--\n",
  text% "-- RAB MODIFICATION REQUEST ELEMENTARY PROCEDURE\n",
  text% "--\n",
  text% "-- **************************************************************\n",
  text% "\n",
  text% "-- **************************************************************\n",
  text% "--\n",
  text% "-- RAB Modify Request\n",
  text% "--\n",
  text% "-- **************************************************************\n",
  text% "\n",
  text% "RAB-ModifyRequest ::= SEQUENCE {\n",
  text% "\tprotocolIEs\t\tProtocolIE-Container\t\t{ {RAB-ModifyRequestIEs} },\n",
  text% "\tprotocolExtensions\tProtocolExtensionContainer\t{ {RAB-ModifyRequestExtensions} }\t\t\t\tOPTIONAL,\n",
  text% "\t...\n",
  text% "}\n",
  text% "\n",
  text% "RAB-ModifyRequestIEs RANAP-PROTOCOL-IES ::= {\n",
  text% "\t{ ID id-RAB-ModifyList\t\t\tCRITICALITY ignore\tTYPE RAB-ModifyList\t\t\tPRESENCE mandatory},\n",
  text% "\t...\n",
  text% "}\n",
  text% "\n",
  text% "RAB-ModifyList \t::= RAB-IE-ContainerList { {RAB-ModifyItemIEs} }\n",
  text% "\n",
  text% "RAB-ModifyItemIEs RANAP-PROTOCOL-IES ::= {\n",
  text% "\t{ ID id-RAB-ModifyItem\t\tCRITICALITY ignore\tTYPE RAB-ModifyItem\t\tPRESENCE mandatory\t},\n",
  text% "\t...\n",
  text% "}\n",
  text% "\n",
  text% "RAB-ModifyItem ::= SEQUENCE {\n"]

/-- The tables of `ranap42`. -/
noncomputable def ranap42Tables : List (Text × List Row) := [
  (text% "RAB-ModifyRequestIEs", [
    ⟨text% "id-RAB-ModifyList", text% "ignore", text% "RAB-ModifyList", text% "mandatory"⟩]),
  (text% "RAB-ModifyItemIEs", [
    ⟨text% "id-RAB-ModifyItem", text% "ignore", text% "RAB-ModifyItem", text% "mandatory"⟩])]

/-- asn1/ranap/RANAP-PDU-Contents.asn:2640-2694 -/
noncomputable def ranap43 : List Text := [
  text% "\trAB-ID\t\t\t\tRAB-ID,\n",
  text% "\trequested-RAB-Parameter-Values\tRequested-RAB-Parameter-Values,\n",
  text% "\tiE-Extensions\t\t\tProtocolExtensionContainer { {RAB-ModifyItem-ExtIEs} }\t\t\tOPTIONAL,\n",
  text% "\t...\n",
  text% "}\n",
  text% "\n",
  text% "RAB-ModifyItem-ExtIEs RANAP-PROTOCOL-EXTENSION ::= {\n",
  text% "\t...\n",
  text% "}\n",
  text% "\n",
  text% "RAB-ModifyRequestExtensions RANAP-PROTOCOL-EXTENSION ::= {\n",
  text% "\t...\n",
  text% "}\n",
  text% "\n",
  text% "-- **************************************************************\n",
  text% "--\n",
  text% "-- LOCATION RELATED DATA ELEMENTARY PROCEDURE\n",
  text% "--\n",
  text% "-- **************************************************************\n",
  text% "\n",
  text% "-- **************************************************************\n",
  text% "--\n",
  text% "-- Location Related Data Request\n",
  text% "--\n",
  text% "-- **************************************************************\n",
  text% "\n",
  text% "LocationRelatedDataRequest ::= SEQUENCE {\n",
  text% "\tprotocolIEs\t\tProtocolIE-Container\t\t{ {LocationRelatedDataRequestIEs} },\n",
  text% "\tprotocolExtensions\tProtocolExtensionContainer\t{ {LocationRelatedDataRequestExtensions} }\t\t\t\tOPTIONAL,\n",
  text% "\t...\n",
  text% "}\n",
  text% "\n",
  text% "LocationRelatedDataRequestIEs RANAP-PROTOCOL-IES ::= {\n",
  text% "\t{ ID id-LocationRelatedDataRequestType\t\tCRITICALITY reject\tTYPE LocationRelatedDataRequestType\t\tPRESENCE optional\t},\n",
  text% "\t-- This IE is mandatory for UTRAN, optional for GERAN Iu Mode –-\n",
  text% "\t...\n",
  text% "}\n",
  text% "\n",
  text% "LocationRelatedDataRequestExtensions RANAP-PROTOCOL-EXTENSION ::= {\n",
  text% "-- Extension for Release 5 to enable LCS support for GERAN Iu mode --\n",
  text% "\t{ ID id-LocationRelatedDataRequestTypeSpecificToGERANIuMode\t\tCRITICALITY reject\tEXTENSION LocationRelatedDataRequestTypeSpecificToGERANIuMode\tPRESENCE optional\t}|\n",
  text% "\t-- The previous extension is optional for GERAN Iu Mode only, not applicable for UTRAN --\n",
  text% "\t-- Extension for Release 7 to request GANSS Assistance Data. This IE shall be present if the Requested Location Related Data Type IE is set to\n",
  text% "\t-- ‘Dedicated Assistance Data for Assisted GANSS’ or `Dedicated Assistance Data for Assisted GPS and GANSS’--\n",
  text% "\t{ ID id-RequestedGANSSAssistanceData\t\t\t\t\tCRITICALITY reject\tEXTENSION RequestedGANSSAssistanceData\t\t\t\tPRESENCE conditional\t},\n",
  text% "\t...\n",
  text% "}\n",
  text% "\n",
  text% "-- **************************************************************\n",
  text% "--\n",
  text% "-- Location Related Data Response\n",
  text% "--\n",
  text% "-- **************************************************************\n",
  text% "\n",
  text% "LocationRelatedDataResponse ::= SEQUENCE {\n"]

/-- The tables of `ranap43`. -/
noncomputable def ranap43Tables : List (Text × List Row) := [
  (text% "LocationRelatedDataRequestIEs", [
    ⟨text% "id-LocationRelatedDataRequestType", text% "reject", text% "LocationRelatedDataRequestType", text% "optional"⟩])]

/-- asn1/ranap/RANAP-PDU-Contents.asn:2695-2747 -/
noncomputable def ranap44 : List Text := [
  text% "\tprotocolIEs\t\tProtocolIE-Container\t\t{ { LocationRelatedDataResponseIEs} },\n",
  text% "\tprotocolExtensions\tProtocolExtensionContainer\t{ { LocationRelatedDataResponseExtensions} }\t\t\t\tOPTIONAL,\n",
  text% "\t...\n",
  text% "}\n",
  text% "\n",
  text% "LocationRelatedDataResponseIEs RANAP-PROTOCOL-IES ::= {\n",
  text% "\t{ ID id-BroadcastAssistanceDataDecipheringKeys\t\tCRITICALITY ignore\tTYPE BroadcastAssistanceDataDecipheringKeys\t\tPRESENCE optional\t},\n",
  text% "\t...\n",
  text% "}\n",
  text% "\n",
  text% "LocationRelatedDataResponseExtensions RANAP-PROTOCOL-EXTENSION ::= {\n",
  text% "-- Extension for error handling\n",
  text% "\t{ ID id-CriticalityDiagnostics\t\t\t\tCRITICALITY ignore\tEXTENSION CriticalityDiagnostics\t\t\tPRESENCE optional\t}|\n",
  text% "\t{ ID id-BroadcastGANSSAssistanceDataDecipheringKeys\tCRITICALITY ignore\tEXTENSION BroadcastAssistanceDataDecipheringKeys\tPRESENCE optional},\n",
  text% "\t...\n",
  text% "}\n",
  text% "\n",
  text% "-- **************************************************************\n",
  text% "--\n",
  text% "-- Location Related Data Failure\n",
  text% "--\n",
  text% "-- **************************************************************\n",
  text% "\n",
  text% "LocationRelatedDataFailure ::= SEQUENCE {\n",
  text% "\tprotocolIEs\t\tProtocolIE-Container\t\t{ { LocationRelatedDataFailureIEs} },\n",
  text% "\tprotocolExtensions\tProtocolExtensionContainer\t{ { LocationRelatedDataFailureExtensions} }\t\t\t\tOPTIONAL,\n",
  text% "\t...\n",
  text% "}\n",
  text% "\n",
  text% "LocationRelatedDataFailureIEs RANAP-PROTOCOL-IES ::= {\n",
  text% "\t{ ID id-Cause\t\tCRITICALITY ignore\tTYPE Cause\t\t\t\t\tPRESENCE mandatory\t},\n",
  text% "\t...\n",
  text% "}\n",
  text% "\n",
  text% "LocationRelatedDataFailureExtensions RANAP-PROTOCOL-EXTENSION ::= {\n",
  text% "-- Extension for error handling\n",
  text% "\t{ ID id-CriticalityDiagnostics\t\tCRITICALITY ignore\tEXTENSION CriticalityDiagnostics\t\tPRESENCE optional\t},\n",
  text% "\t...\n",
  text% "}\n",
  text% "\n",
  text% "-- **************************************************************\n",
  text% "--\n",
  text% "-- INFORMATION TRANSFER ELEMENTARY PROCEDURE\n",
  text% "--\n",
  text% "-- **************************************************************\n",
  text% "\n",
  text% "-- **************************************************************\n",
  text% "--\n",
  text% "-- Information Transfer Indication\n",
  text% "--\n",
  text% "-- **************************************************************\n",
  text% "\n",
  text% "InformationTransferIndication ::= SEQUENCE {\n"]

/-- The tables of `ranap44`. -/
noncomputable def ranap44Tables : List (Text × List Row) := [
  (text% "LocationRelatedDataResponseIEs", [
    ⟨text% "id-BroadcastAssistanceDataDecipheringKeys", text% "ignore", text% "BroadcastAssistanceDataDecipheringKeys", text% "optional"⟩]),
  (text% "LocationRelatedDataFailureIEs", [
    ⟨text% "id-Cause", text% "ignore", text% "Cause", text% "mandatory"⟩])]

/-- asn1/ranap/RANAP-PDU-Contents.asn:2748-2797 -/
noncomputable def ranap45 : List Text := [
  text% "\tprotocolIEs\t\tProtocolIE-Container\t\t{ { InformationTransferIndicationIEs} },\n",
  text% "\tprotocolExtensions\tProtocolExtensionContainer\t{ { InformationTransferIndicationExtensions} }\t\t\t\tOPTIONAL,\n",
  text% "\t...\n",
  text% "}\n",
  text% "\n",
  text% "InformationTransferIndicationIEs RANAP-PROTOCOL-IES ::= {\n",
  text% "\t{ ID id-InformationTransferID\tCRITICALITY reject\tTYPE InformationTransferID\tPRESENCE mandatory\t} |\n",
  text% "\t{ ID id-ProvidedData\t\tCRITICALITY reject\tTYPE ProvidedData\t\tPRESENCE mandatory\t} |\n",
  text% "\t{ ID id-CN-DomainIndicator\tCRITICALITY reject\tTYPE CN-DomainIndicator\t\tPRESENCE mandatory\t} |\n",
  text% "\t{ ID id-GlobalCN-ID\t\tCRITICALITY ignore\tTYPE GlobalCN-ID\t\tPRESENCE optional},\n",
  text% "\t...\n",
  text% "}\n",
  text% "\n",
  text% "InformationTransferIndicationExtensions RANAP-PROTOCOL-EXTENSION ::= {\n",
  text% "\t...\n",
  text% "}\n",
  text% "\n",
  text% "-- **************************************************************\n",
  text% "--\n",
  text% "-- Information Transfer Confirmation\n",
  text% "--\n",
  text% "-- **************************************************************\n",
  text% "\n",
  text% "InformationTransferConfirmation ::= SEQUENCE {\n",
  text% "\tprotocolIEs\t\tProtocolIE-Container\t\t{ { InformationTransferConfirmationIEs} },\n",
  text% "\tprotocolExtensions\tProtocolExtensionContainer\t{ { InformationTransferConfirmationExtensions} }\t\t\t\tOPTIONAL,\n",
  text% "\t...\n",
  text% "}\n",
  text% "\n",
  text% "InformationTransferConfirmationIEs RANAP-PROTOCOL-IES ::= {\n",
  text% "\t{ ID id-InformationTransferID\tCRITICALITY ignore\tTYPE InformationTransferID\tPRESENCE mandatory\t} |\n",
  text% "\t{ ID id-CN-DomainIndicator\tCRITICALITY ignore\tTYPE CN-DomainIndicator\t\tPRESENCE mandatory\t} |\n",
  text% "\t{ ID id-CriticalityDiagnostics\tCRITICALITY ignore\tTYPE CriticalityDiagnostics\tPRESENCE optional \t} |\n",
  text% "\t{ ID id-GlobalRNC-ID\t\tCRITICALITY ignore\tTYPE GlobalRNC-ID\t\tPRESENCE mandatory\t},\n",
  text% "\t...\n",
  text% "}\n",
  text% "\n",
  text% "InformationTransferConfirmationExtensions RANAP-PROTOCOL-EXTENSION ::= {\n",
  text% "-- Extension for Release 7 to indicate extended RNC-ID --\n",
  text% "\t{ ID id-ExtendedRNC-ID\t\tCRITICALITY reject\tEXTENSION ExtendedRNC-ID\tPRESENCE optional\t},\n",
  text% "\t...\n",
  text% "}\n",
  text% "\n",
  text% "-- **************************************************************\n",
  text% "--\n",
  text% "-- Information Transfer Failure\n",
  text% "--\n",
  text% "-- **************************************************************\n",
  text% "\n",
  text% "InformationTransferFailure ::= SEQUENCE {\n"]

/-- The tables of `ranap45`. -/
noncomputable def ranap45Tables : List (Text × List Row) := [
  (text% "InformationTransferIndicationIEs", [
    ⟨text% "id-InformationTransferID", text% "reject", text% "InformationTransferID", text% "mandatory"⟩,
    ⟨text% "id-ProvidedData", text% "reject", text% "ProvidedData", text% "mandatory"⟩,
    ⟨text% "id-CN-DomainIndicator", text% "reject", text% "CN-DomainIndicator", text% "mandatory"⟩,
    ⟨text% "id-GlobalCN-ID", text% "ignore", text% "GlobalCN-ID", text% "optional"⟩]),
  (text% "InformationTransferConfirmationIEs", [
    ⟨text% "id-InformationTransferID", text% "ignore", text% "InformationTransferID", text% "mandatory"⟩,
    ⟨text% "id-CN-DomainIndicator", text% "ignore", text% "CN-DomainIndicator", text% "mandatory"⟩,
    ⟨text% "id-CriticalityDiagnostics", text% "ignore", text% "CriticalityDiagnostics", text% "optional"⟩,
    ⟨text% "id-GlobalRNC-ID", text% "ignore", text% "GlobalRNC-ID", text% "mandatory"⟩])]

/-- asn1/ranap/RANAP-PDU-Contents.asn:2798-2857 -/
noncomputable def ranap46 : List Text := [
  text% "\tprotocolIEs\t\tProtocolIE-Container\t\t{ { InformationTransferFailureIEs} },\n",
  text% "\tprotocolExtensions\tProtocolExtensionContainer\t{ { InformationTransferFailureExtensions} }\t\t\t\tOPTIONAL,\n",
  text% "\t...\n",
  text% "}\n",
  text% "\n",
  text% "InformationTransferFailureIEs RANAP-PROTOCOL-IES ::= {\n",
  text% "\t{ ID id-InformationTransferID\tCRITICALITY ignore\tTYPE InformationTransferID\tPRESENCE mandatory\t} |\n",
  text% "\t{ ID id-CN-DomainIndicator\tCRITICALITY ignore\tTYPE CN-DomainIndicator\t\tPRESENCE mandatory\t} |\n",
  text% "\t{ ID id-Cause\t\t\tCRITICALITY ignore\tTYPE Cause\t\t\tPRESENCE mandatory\t} |\n",
  text% "\t{ ID id-CriticalityDiagnostics\tCRITICALITY ignore\tTYPE CriticalityDiagnostics\tPRESENCE optional \t} |\n",
  text% "\t{ ID id-GlobalRNC-ID\t\tCRITICALITY ignore\tTYPE GlobalRNC-ID\t\tPRESENCE mandatory\t},\n",
  text% "\t...\n",
  text% "}\n",
  text% "\n",
  text% "InformationTransferFailureExtensions RANAP-PROTOCOL-EXTENSION ::= {\n",
  text% "-- Extension for Release 7 to indicate extended RNC-ID --\n",
  text% "\t{ ID id-ExtendedRNC-ID\t\tCRITICALITY reject\tEXTENSION ExtendedRNC-ID\tPRESENCE optional\t},\n",
  text% "\t...\n",
  text% "}\n",
  text% "\n",
  text% "-- **************************************************************\n",
  text% "--\n",
  text% "-- UE SPECIFIC INFORMATION ELEMENTARY PROCEDURE\n",
  text% "--\n",
  text% "-- **************************************************************\n",
  text% "\n",
  text% "-- **************************************************************\n",
  text% "--\n",
  text% "-- UE Specific Information Indication\n",
  text% "--\n",
  text% "-- **************************************************************\n",
  text% "\n",
  text% "UESpecificInformationIndication ::= SEQUENCE {\n",
  text% "\tprotocolIEs\t\tProtocolIE-Container\t\t{ {UESpecificInformationIndicationIEs} },\n",
  text% "\tprotocolExtensions\tProtocolExtensionContainer\t{ {UESpecificInformationIndicationExtensions} }\t\t\t\t\tOPTIONAL,\n",
  text% "\t...\n",
  text% "}\n",
  text% "\n",
  text% "UESpecificInformationIndicationIEs RANAP-PROTOCOL-IES ::= {\n",
  text% "\t{ ID id-UESBI-Iu\tCRITICALITY ignore\tTYPE UESBI-Iu\t\t\t\tPRESENCE optional\t},\n",
  text% "\t...\n",
  text% "}\n",
  text% "\n",
  text% "UESpecificInformationIndicationExtensions RANAP-PROTOCOL-EXTENSION ::= {\n",
  text% "\t...\n",
  text% "}\n",
  text% "\n",
  text% "-- **************************************************************\n",
  text% "--\n",
  text% "-- DIRECT INFORMATION TRANSFER ELEMENTARY PROCEDURE\n",
  text% "--\n",
  text% "-- **************************************************************\n",
  text% "\n",
  text% "-- **************************************************************\n",
  text% "--\n",
  text% "-- Direct Information Transfer\n",
  text% "--\n",
  text% "-- **************************************************************\n",
  text% "\n",
  text% "DirectInformationTransfer ::= SEQUENCE {\n"]

/-- The tables of `ranap46`. -/
noncomputable def ranap46Tables : List (Text × List Row) := [
  (text% "InformationTransferFailureIEs", [
    ⟨text% "id-InformationTransferID", text% "ignore", text% "InformationTransferID", text% "mandatory"⟩,
    ⟨text% "id-CN-DomainIndicator", text% "ignore", text% "CN-DomainIndicator", text% "mandatory"⟩,
    ⟨text% "id-Cause", text% "ignore", text% "Cause", text% "mandatory"⟩,
    ⟨text% "id-CriticalityDiagnostics", text% "ignore", text% "CriticalityDiagnostics", text% "optional"⟩,
    ⟨text% "id-GlobalRNC-ID", text% "ignore", text% "GlobalRNC-ID", text% "mandatory"⟩]),
  (text% "UESpecificInformationIndicationIEs", [
    ⟨text% "id-UESBI-Iu", text% "ignore", text% "UESBI-Iu", text% "optional"⟩])]

/-- asn1/ranap/RANAP-PDU-Contents.asn:2858-2919 -/
noncomputable def ranap47 : List Text := [
  text% "\tprotocolIEs\t\tProtocolIE-Container\t\t{ { DirectInformationTransferIEs} },\n",
  text% "\tprotocolExtensions\tProtocolExtensionContainer\t{ { DirectInformationTransferExtensions} }\t\t\t\tOPTIONAL,\n",
  text% "\t...\n",
  text% "}\n",
  text% "\n",
  text% "DirectInformationTransferIEs RANAP-PROTOCOL-IES ::= {\n",
  text% "\t{ ID id-InterSystemInformationTransferType\tCRITICALITY ignore\tTYPE InterSystemInformationTransferType\t\tPRESENCE optional } |\n",
  text% "\t{ ID id-CN-DomainIndicator\t\t\tCRITICALITY ignore\tTYPE CN-DomainIndicator\t\t\t\tPRESENCE mandatory } |\n",
  text% "\t{ ID id-GlobalRNC-ID \t\t\t\tCRITICALITY ignore\tTYPE GlobalRNC-ID\t\t\t\tPRESENCE optional } |\n",
  text% "\t{ ID id-GlobalCN-ID \t\t\t\tCRITICALITY ignore\tTYPE GlobalCN-ID\t\t\t\tPRESENCE optional },\n",
  text% "\t...\n",
  text% "}\n",
  text% "\n",
  text% "DirectInformationTransferExtensions RANAP-PROTOCOL-EXTENSION ::= {\n",
  text% "-- Extension for Release 7 to indicate extended RNC-ID --\n",
  text% "\t{ ID id-ExtendedRNC-ID\t\t\tCRITICALITY reject\tEXTENSION ExtendedRNC-ID\t\tPRESENCE optional },\n",
  text% "\t...\n",
  text% "}\n",
  text% "\n",
  text% "-- **************************************************************\n",
  text% "--\n",
  text% "-- UPLINK INFORMATION EXCHANGE ELEMENTARY PROCEDURE\n",
  text% "--\n",
  text% "-- **************************************************************\n",
  text% "\n",
  text% "-- **************************************************************\n",
  text% "--\n",
  text% "-- Uplink Information Exchange Request\n",
  text% "--\n",
  text% "-- **************************************************************\n",
  text% "\n",
  text% "UplinkInformationExchangeRequest ::= SEQUENCE {\n",
  text% "\tprotocolIEs\t\tProtocolIE-Container\t\t{ { UplinkInformationExchangeRequestIEs} },\n",
  text% "\tprotocolExtensions\tProtocolExtensionContainer\t{ { UplinkInformationExchangeRequestExtensions} }\t\t\tOPTIONAL,\n",
  text% "\t...\n",
  text% "}\n",
  text% "\n",
  text% "UplinkInformationExchangeRequestIEs RANAP-PROTOCOL-IES ::= {\n",
  text% "\t{ ID id-InformationExchangeID\t\tCRITICALITY reject\tTYPE InformationExchangeID\tPRESENCE mandatory\t} |\n",
  text% "\t{ ID id-InformationExchangeType\t\tCRITICALITY reject\tTYPE InformationExchangeType\tPRESENCE mandatory\t} |\n",
  text% "\t{ ID id-InformationTransferType\t\tCRITICALITY reject\tTYPE InformationTransferType\tPRESENCE conditional\n",
  text% "\t-- This IE shall be present if the Information Exchange Type IE is set to \"transfer\"\t--\t\t\t\t} |\n",
  text% "\t{ ID id-InformationRequestType\t\tCRITICALITY reject\tTYPE InformationRequestType\tPRESENCE conditional\n",
  text% "\t-- This IE shall be present if the Information Exchange Type IE is set to \"request\"\t\t--\t\t\t} |\n",
  text% "\t{ ID id-CN-DomainIndicator\t\tCRITICALITY reject\tTYPE CN-DomainIndicator\t\tPRESENCE mandatory\t} |\n",
  text% "\t{ ID id-GlobalRNC-ID\t\t\tCRITICALITY reject\tTYPE GlobalRNC-ID\t\tPRESENCE mandatory\t},\n",
  text% "\t...\n",
  text% "}\n",
  text% "\n",
  text% "UplinkInformationExchangeRequestExtensions RANAP-PROTOCOL-EXTENSION ::= {\n",
  text% "-- Extension for Release 7 to indicate extended RNC-ID --\n",
  text% "\t{ ID id-ExtendedRNC-ID\t\t\tCRITICALITY reject\tEXTENSION ExtendedRNC-ID\tPRESENCE optional\t},\n",
  text% "\t...\n",
  text% "}\n",
  text% "\n",
  text% "-- **************************************************************\n",
  text% "--\n",
  text% "-- Uplink Information Exchange Response\n",
  text% "--\n",
  text% "-- **************************************************************\n",
  text% "\n",
  text% "UplinkInformationExchangeResponse ::= SEQUENCE {\n"]

/-- The tables of `ranap47`. -/
noncomputable def ranap47Tables : List (Text × List Row) := [
  (text% "DirectInformationTransferIEs", [
    ⟨text% "id-InterSystemInformationTransferType", text% "ignore", text% "InterSystemInformationTransferType", text% "optional"⟩,
    ⟨text% "id-CN-DomainIndicator", text% "ignore", text% "CN-DomainIndicator", text% "mandatory"⟩,
    ⟨text% "id-GlobalRNC-ID", text% "ignore", text% "GlobalRNC-ID", text% "optional"⟩,
    ⟨text% "id-GlobalCN-ID", text% "ignore", text% "GlobalCN-ID", text% "optional"⟩]),
  (text% "UplinkInformationExchangeRequestIEs", [
    ⟨text% "id-InformationExchangeID", text% "reject", text% "InformationExchangeID", text% "mandatory"⟩,
    ⟨text% "id-InformationExchangeType", text% "reject", text% "InformationExchangeType", text% "mandatory"⟩,
    ⟨text% "id-CN-DomainIndicator", text% "reject", text% "CN-DomainIndicator", text% "mandatory"⟩,
    ⟨text% "id-GlobalRNC-ID", text% "reject", text% "GlobalRNC-ID", text% "mandatory"⟩])]

/-- asn1/ranap/RANAP-PDU-Contents.asn:2920-2975 -/
noncomputable def ranap48 : List Text := [
  text% "\tprotocolIEs\t\tProtocolIE-Container\t\t{ { UplinkInformationExchangeResponseIEs} },\n",
  text% "\tprotocolExtensions\tProtocolExtensionContainer\t{ { UplinkInformationExchangeResponseExtensions} }\t\tOPTIONAL,\n",
  text% "\t...\n",
  text% "}\n",
  text% "\n",
  text% "UplinkInformationExchangeResponseIEs RANAP-PROTOCOL-IES ::= {\n",
  text% "\t{ ID id-InformationExchangeID\t\tCRITICALITY ignore\tTYPE InformationExchangeID\t\tPRESENCE mandatory\t} |\n",
  text% "\t{ ID id-InformationRequested\t\tCRITICALITY ignore\tTYPE InformationRequested\t\tPRESENCE optional\t} |\n",
  text% "\t{ ID id-CN-DomainIndicator\t\tCRITICALITY ignore\tTYPE CN-DomainIndicator\t\t\tPRESENCE mandatory\t} |\n",
  text% "\t{ ID id-GlobalCN-ID\t\t\tCRITICALITY ignore\tTYPE GlobalCN-ID\t\t\tPRESENCE optional\t} |\n",
  text% "\t{ ID id-CriticalityDiagnostics\t\tCRITICALITY ignore\tTYPE CriticalityDiagnostics\t\tPRESENCE optional\t} ,\n",
  text% "\t...\n",
  text% "}\n",
  text% "\n",
  text% "UplinkInformationExchangeResponseExtensions RANAP-PROTOCOL-EXTENSION ::= {\n",
  text% "\t...\n",
  text% "}\n",
  text% "\n",
  text% "-- **************************************************************\n",
  text% "--\n",
  text% "-- Uplink Information Exchange Failure\n",
  text% "--\n",
  text% "-- **************************************************************\n",
  text% "\n",
  text% "UplinkInformationExchangeFailure ::= SEQUENCE {\n",
  text% "\tprotocolIEs\t\tProtocolIE-Container\t\t{ { UplinkInformationExchangeFailureIEs} },\n",
  text% "\tprotocolExtensions\tProtocolExtensionContainer\t{ { UplinkInformationExchangeFailureExtensions} }\t\t\t\tOPTIONAL,\n",
  text% "\t...\n",
  text% "}\n",
  text% "\n",
  text% "UplinkInformationExchangeFailureIEs RANAP-PROTOCOL-IES ::= {\n",
  text% "\t{ ID id-InformationExchangeID\tCRITICALITY ignore\tTYPE InformationExchangeID\tPRESENCE mandatory\t} |\n",
  text% "\t{ ID id-CN-DomainIndicator\tCRITICALITY ignore\tTYPE CN-DomainIndicator\t\tPRESENCE mandatory\t} |\n",
  text% "\t{ ID id-GlobalCN-ID\t\tCRITICALITY ignore\tTYPE GlobalCN-ID\t\tPRESENCE optional\t} |\n",
  text% "\t{ ID id-Cause\t\t\tCRITICALITY ignore\tTYPE Cause\t\t\tPRESENCE mandatory\t} |\n",
  text% "\t{ ID id-CriticalityDiagnostics\tCRITICALITY ignore\tTYPE CriticalityDiagnostics\tPRESENCE optional\t} ,\n",
  text% "\t...\n",
  text% "}\n",
  text% "\n",
  text% "UplinkInformationExchangeFailureExtensions RANAP-PROTOCOL-EXTENSION ::= {\n",
  text% "\t...\n",
  text% "}\n",
  text% "\n",
  text% "-- **************************************************************\n",
  text% "--\n",
  text% "-- MBMS SESSION START PROCEDURE\n",
  text% "--\n",
  text% "-- **************************************************************\n",
  text% "\n",
  text% "-- **************************************************************\n",
  text% "--\n",
  text% "-- MBMS Session Start\n",
  text% "--\n",
  text% "-- **************************************************************\n",
  text% "\n",
  text% "MBMSSessionStart ::= SEQUENCE {\n"]

/-- The tables of `ranap48`. -/
noncomputable def ranap48Tables : List (Text × List Row) := [
  (text% "UplinkInformationExchangeResponseIEs", [
    ⟨text% "id-InformationExchangeID", text% "ignore", text% "InformationExchangeID", text% "mandatory"⟩,
    ⟨text% "id-InformationRequested", text% "ignore", text% "InformationRequested", text% "optional"⟩,
    ⟨text% "id-CN-DomainIndicator", text% "ignore", text% "CN-DomainIndicator", text% "mandatory"⟩,
    ⟨text% "id-GlobalCN-ID", text% "ignore", text% "GlobalCN-ID", text% "optional"⟩,
    ⟨text% "id-CriticalityDiagnostics", text% "ignore", text% "CriticalityDiagnostics", text% "optional"⟩]),
  (text% "UplinkInformationExchangeFailureIEs", [
    ⟨text% "id-InformationExchangeID", text% "ignore", text% "InformationExchangeID", text% "mandatory"⟩,
    ⟨text% "id-CN-DomainIndicator", text% "ignore", text% "CN-DomainIndicator", text% "mandatory"⟩,
    ⟨text% "id-GlobalCN-ID", text% "ignore", text% "GlobalCN-ID", text% "optional"⟩,
    ⟨text% "id-Cause", text% "ignore", text% "Cause", text% "mandatory"⟩,
    ⟨text% "id-CriticalityDiagnostics", text% "ignore", text% "CriticalityDiagnostics", text% "optional"⟩])]

/-- asn1/ranap/RANAP-PDU-Contents.asn:2976-3009 -/
noncomputable def ranap49 : List Text := [
  text% "\tprotocolIEs\t\tProtocolIE-Container\t\t{ { MBMSSessionStartIEs} },\n",
  text% "\tprotocolExtensions\tProtocolExtensionContainer\t{ { MBMSSessionStartExtensions} }\t\t\tOPTIONAL,\n",
  text% "\t...\n",
  text% "}\n",
  text% "\n",
  text% "MBMSSessionStartIEs RANAP-PROTOCOL-IES ::= {\n",
  text% "\t{ ID id-TMGI\t\t\t\tCRITICALITY reject\tTYPE TMGI\t\t\t\tPRESENCE mandatory\t} |\n",
  text% "\t{ ID id-MBMSSessionIdentity\t\tCRITICALITY ignore\tTYPE MBMSSessionIdentity\t\tPRESENCE optional\t} |\n",
  text% "\t{ ID id-MBMSBearerServiceType\t\tCRITICALITY reject\tTYPE MBMSBearerServiceType\t\tPRESENCE mandatory\t} |\n",
  text% "\t{ ID id-IuSigConId\t\t\tCRITICALITY reject \tTYPE IuSignallingConnectionIdentifier\tPRESENCE mandatory\t} |\n",
  text% "\t{ ID id-RAB-Parameters\t\t\tCRITICALITY reject \tTYPE RAB-Parameters\t\t\tPRESENCE mandatory\t} |\n",
  text% "\t{ ID id-PDP-TypeInformation\t\tCRITICALITY ignore\tTYPE PDP-TypeInformation\t\tPRESENCE optional\t} |\n",
  text% "\t{ ID id-MBMSSessionDuration\t\tCRITICALITY reject\tTYPE MBMSSessionDuration\t\tPRESENCE mandatory\t} |\n",
  text% "\t{ ID id-MBMSServiceArea\t\t\tCRITICALITY reject\tTYPE MBMSServiceArea\t\t\tPRESENCE mandatory\t} |\n",
  text% "\t{ ID id-FrequenceLayerConvergenceFlag\tCRITICALITY ignore\tTYPE FrequenceLayerConvergenceFlag\tPRESENCE optional\t} |\n",
  text% "\t{ ID id-RAListofIdleModeUEs\t\tCRITICALITY ignore\tTYPE RAListofIdleModeUEs\t\tPRESENCE optional\t} |\n",
  text% "\t{ ID id-GlobalCN-ID\t\t\tCRITICALITY reject\tTYPE GlobalCN-ID\t\t\tPRESENCE optional\t} |\n",
  text% "\t{ ID id-MBMSSessionRepetitionNumber\tCRITICALITY ignore\tTYPE MBMSSessionRepetitionNumber\tPRESENCE optional\t} |\n",
  text% "\t{ ID id-TimeToMBMSDataTransfer\t\tCRITICALITY reject\tTYPE TimeToMBMSDataTransfer\t\tPRESENCE mandatory\t},\n",
  text% "\t...\n",
  text% "}\n",
  text% "\n",
  text% "MBMSSessionStartExtensions RANAP-PROTOCOL-EXTENSION ::= {\n",
  text% "-- Extension for Release 6 to enable MBMS counting in broadcast mode --\n",
  text% "\t{ ID id-MBMSCountingInformation\t\t\tCRITICALITY ignore\tEXTENSION MBMSCountingInformation\t\tPRESENCE optional}|\n",
  text% "\t{ ID id-MBMSSynchronisationInformation\t\tCRITICALITY ignore\tEXTENSION MBMSSynchronisationInformation\tPRESENCE optional}|\n",
  text% "-- Extension for Release Release 9 to enable a new value --\n",
  text% "\t{ ID id-PDP-TypeInformation-extension\t\tCRITICALITY ignore\tEXTENSION PDP-TypeInformation-extension\t\tPRESENCE optional}|\n",
  text% "-- Extension for Release 12 to support Session re-establishment --\n",
  text% "\t{ ID id-Session-Re-establishment-Indicator\tCRITICALITY ignore\tEXTENSION Session-Re-establishment-Indicator\tPRESENCE optional},\n",
  text% "\t...\n",
  text% "}\n",
  text% "\n",
  text% "MBMSSynchronisationInformation ::= SEQUENCE {\n"]

/-- The tables of `ranap49`. -/
noncomputable def ranap49Tables : List (Text × List Row) := [
  (text% "MBMSSessionStartIEs", [
    ⟨text% "id-TMGI", text% "reject", text% "TMGI", text% "mandatory"⟩,
    ⟨text% "id-MBMSSessionIdentity", text% "ignore", text% "MBMSSessionIdentity", text% "optional"⟩,
    ⟨text% "id-MBMSBearerServiceType", text% "reject", text% "MBMSBearerServiceType", text% "mandatory"⟩,
    ⟨text% "id-IuSigConId", text% "reject", text% "IuSignallingConnectionIdentifier", text% "mandatory"⟩,
    ⟨text% "id-RAB-Parameters", text% "reject", text% "RAB-Parameters", text% "mandatory"⟩,
    ⟨text% "id-PDP-TypeInformation", text% "ignore", text% "PDP-TypeInformation", text% "optional"⟩,
    ⟨text% "id-MBMSSessionDuration", text% "reject", text% "MBMSSessionDuration", text% "mandatory"⟩,
    ⟨text% "id-MBMSServiceArea", text% "reject", text% "MBMSServiceArea", text% "mandatory"⟩,
    ⟨text% "id-FrequenceLayerConvergenceFlag", text% "ignore", text% "FrequenceLayerConvergenceFlag", text% "optional"⟩,
    ⟨text% "id-RAListofIdleModeUEs", text% "ignore", text% "RAListofIdleModeUEs", text% "optional"⟩,
    ⟨text% "id-GlobalCN-ID", text% "reject", text% "GlobalCN-ID", text% "optional"⟩,
    ⟨text% "id-MBMSSessionRepetitionNumber", text% "ignore", text% "MBMSSessionRepetitionNumber", text% "optional"⟩,
    ⟨text% "id-TimeToMBMSDataTransfer", text% "reject", text% "TimeToMBMSDataTransfer", text% "mandatory"⟩])]

/-- asn1/ranap/RANAP-PDU-Contents.asn:3010-3079 -/
noncomputable def ranap50 : List Text := [
  text% "\tmBMSHCIndicator\t\tMBMSHCIndicator,\n",
  text% "\tiPMulticastAddress\tIPMulticastAddress,\n",
  text% "\tgTPDLTEID\t\tGTP-TEI,\n",
  text% "\tiE-Extensions\t\tProtocolExtensionContainer { {MBMSSynchronisationInformation-ExtIEs} }\t\t\tOPTIONAL,\n",
  text% "\t...\n",
  text% "}\n",
  text% "\n",
  text% "MBMSSynchronisationInformation-ExtIEs RANAP-PROTOCOL-EXTENSION ::= {\n",
  text% "\t{ ID id-IP-Source-Address\tCRITICALITY reject\t\tEXTENSION IPMulticastAddress\t\t\t\tPRESENCE optional\t},\n",
  text% "\t...\n",
  text% "}\n",
  text% "\n",
  text% "-- **************************************************************\n",
  text% "--\n",
  text% "-- MBMS Session Start Response\n",
  text% "--\n",
  text% "-- **************************************************************\n",
  text% "\n",
  text% "MBMSSessionStartResponse::= SEQUENCE {\n",
  text% "\tprotocolIEs\t\tProtocolIE-Container\t\t{ {MBMSSessionStartResponseIEs} },\n",
  text% "\tprotocolExtensions\tProtocolExtensionContainer\t{ {MBMSSessionStartResponseExtensions} }\t\tOPTIONAL,\n",
  text% "\t...\n",
  text% "}\n",
  text% "\n",
  text% "MBMSSessionStartResponseIEs RANAP-PROTOCOL-IES ::= {\n",
  text% "\t{ ID id-TransportLayerInformation\tCRITICALITY ignore\tTYPE TransportLayerInformation\tPRESENCE optional\t} |\n",
  text% "\t{ ID id-Cause\t\t\t\tCRITICALITY ignore \tTYPE Cause\t\t\tPRESENCE optional\t} |\n",
  text% "\t{ ID id-CriticalityDiagnostics\t\tCRITICALITY ignore\tTYPE CriticalityDiagnostics\tPRESENCE optional\t} ,\n",
  text% "\t...\n",
  text% "}\n",
  text% "\n",
  text% "MBMSSessionStartResponseExtensions RANAP-PROTOCOL-EXTENSION ::= {\n",
  text% "\t...\n",
  text% "}\n",
  text% "\n",
  text% "-- **************************************************************\n",
  text% "--\n",
  text% "-- MBMS Session Start Failure\n",
  text% "--\n",
  text% "-- **************************************************************\n",
  text% "\n",
  text% "MBMSSessionStartFailure ::= SEQUENCE {\n",
  text% "\tprotocolIEs\t\tProtocolIE-Container\t\t{ { MBMSSessionStartFailureIEs} },\n",
  text% "\tprotocolExtensions\tProtocolExtensionContainer\t{ { MBMSSessionStartFailureExtensions} }\t\tOPTIONAL,\n",
  text% "\t...\n",
  text% "}\n",
  text% "\n",
  text% "MBMSSessionStartFailureIEs RANAP-PROTOCOL-IES ::= {\n",
  text% "\t{ ID id-Cause\t\t\tCRITICALITY ignore\tTYPE Cause\t\t\tPRESENCE mandatory\t} |\n",
  text% "\t{ ID id-CriticalityDiagnostics\tCRITICALITY ignore\tTYPE CriticalityDiagnostics\tPRESENCE optional\t} ,\n",
  text% "\t...\n",
  text% "}\n",
  text% "\n",
  text% "MBMSSessionStartFailureExtensions RANAP-PROTOCOL-EXTENSION ::= {\n",
  text% "\t...\n",
  text% "}\n",
  text% "\n",
  text% "-- **************************************************************\n",
  text% "--\n",
  text% "-- MBMS SESSION UPDATE PROCEDURE\n",
  text% "--\n",
  text% "-- **************************************************************\n",
  text% "\n",
  text% "-- **************************************************************\n",
  text% "--\n",
  text% "-- MBMS Session Update\n",
  text% "--\n",
  text% "-- **************************************************************\n",
  text% "\n",
  text% "MBMSSessionUpdate ::= SEQUENCE {\n"]

/-- The tables of `ranap50`. -/
noncomputable def ranap50Tables : List (Text × List Row) := [
  (text% "MBMSSessionStartResponseIEs", [
    ⟨text% "id-TransportLayerInformation", text% "ignore", text% "TransportLayerInformation", text% "optional"⟩,
    ⟨text% "id-Cause", text% "ignore", text% "Cause", text% "optional"⟩,
    ⟨text% "id-CriticalityDiagnostics", text% "ignore", text% "CriticalityDiagnostics", text% "optional"⟩]),
  (text% "MBMSSessionStartFailureIEs", [
    ⟨text% "id-Cause", text% "ignore", text% "Cause", text% "mandatory"⟩,
    ⟨text% "id-CriticalityDiagnostics", text% "ignore", text% "CriticalityDiagnostics", text% "optional"⟩])]

/-- asn1/ranap/RANAP-PDU-Contents.asn:3080-3125 -/
noncomputable def ranap51 : List Text := [
  text% "\tprotocolIEs\t\tProtocolIE-Container\t\t{ { MBMSSessionUpdateIEs} },\n",
  text% "\tprotocolExtensions\tProtocolExtensionContainer\t{ { MBMSSessionUpdateExtensions} }\tOPTIONAL,\n",
  text% "\t...\n",
  text% "}\n",
  text% "\n",
  text% "MBMSSessionUpdateIEs RANAP-PROTOCOL-IES ::= {\n",
  text% "\t{ ID id-SessionUpdateID\t\t\tCRITICALITY reject\tTYPE SessionUpdateID\t\tPRESENCE mandatory\t} |\n",
  text% "\t{ ID id-DeltaRAListofIdleModeUEs\tCRITICALITY reject\tTYPE DeltaRAListofIdleModeUEs\tPRESENCE mandatory\t},\n",
  text% "\t...\n",
  text% "}\n",
  text% "\n",
  text% "MBMSSessionUpdateExtensions RANAP-PROTOCOL-EXTENSION ::= {\n",
  text% "\t...\n",
  text% "}\n",
  text% "\n",
  text% "-- **************************************************************\n",
  text% "--\n",
  text% "-- MBMS Session Update Response\n",
  text% "--\n",
  text% "-- **************************************************************\n",
  text% "\n",
  text% "MBMSSessionUpdateResponse ::= SEQUENCE {\n",
  text% "\tprotocolIEs\t\tProtocolIE-Container\t\t{ { MBMSSessionUpdateResponseIEs} },\n",
  text% "\tprotocolExtensions\tProtocolExtensionContainer\t{ { MBMSSessionUpdateResponseExtensions} }\t\tOPTIONAL,\n",
  text% "\t...\n",
  text% "}\n",
  text% "\n",
  text% "MBMSSessionUpdateResponseIEs RANAP-PROTOCOL-IES ::= {\n",
  text% "\t{ ID id-SessionUpdateID\t\t\tCRITICALITY ignore\tTYPE SessionUpdateID\t\tPRESENCE mandatory\t} |\n",
  text% "\t{ ID id-TransportLayerInformation\tCRITICALITY ignore\tTYPE TransportLayerInformation\tPRESENCE optional\t} |\n",
  text% "\t{ ID id-Cause\t\t\t\tCRITICALITY ignore\tTYPE Cause\t\t\tPRESENCE optional\t} |\n",
  text% "\t{ ID id-CriticalityDiagnostics\t\tCRITICALITY ignore\tTYPE CriticalityDiagnostics\tPRESENCE optional\t} ,\n",
  text% "\t...\n",
  text% "}\n",
  text% "\n",
  text% "MBMSSessionUpdateResponseExtensions RANAP-PROTOCOL-EXTENSION ::= {\n",
  text% "\t...\n",
  text% "}\n",
  text% "\n",
  text% "-- **************************************************************\n",
  text% "--\n",
  text% "-- MBMS Session Update Failure\n",
  text% "--\n",
  text% "-- **************************************************************\n",
  text% "\n",
  text% "MBMSSessionUpdateFailure ::= SEQUENCE {\n"]

/-- The tables of `ranap51`. -/
noncomputable def ranap51Tables : List (Text × List Row) := [
  (text% "MBMSSessionUpdateIEs", [
    ⟨text% "id-SessionUpdateID", text% "reject", text% "SessionUpdateID", text% "mandatory"⟩,
    ⟨text% "id-DeltaRAListofIdleModeUEs", text% "reject", text% "DeltaRAListofIdleModeUEs", text% "mandatory"⟩]),
  (text% "MBMSSessionUpdateResponseIEs", [
    ⟨text% "id-SessionUpdateID", text% "ignore", text% "SessionUpdateID", text% "mandatory"⟩,
    ⟨text% "id-TransportLayerInformation", text% "ignore", text% "TransportLayerInformation", text% "optional"⟩,
    ⟨text% "id-Cause", text% "ignore", text% "Cause", text% "optional"⟩,
    ⟨text% "id-CriticalityDiagnostics", text% "ignore", text% "CriticalityDiagnostics", text% "optional"⟩])]

/-- asn1/ranap/RANAP-PDU-Contents.asn:3126-3175 -/
noncomputable def ranap52 : List Text := [
  text% "\tprotocolIEs\t\tProtocolIE-Container\t\t{ { MBMSSessionUpdateFailureIEs} },\n",
  text% "\tprotocolExtensions\tProtocolExtensionContainer\t{ { MBMSSessionUpdateFailureExtensions} }\t\tOPTIONAL,\n",
  text% "\t...\n",
  text% "}\n",
  text% "\n",
  text% "MBMSSessionUpdateFailureIEs RANAP-PROTOCOL-IES ::= {\n",
  text% "\t{ ID id-SessionUpdateID\t\tCRITICALITY ignore\tTYPE SessionUpdateID\t\tPRESENCE mandatory\t} |\n",
  text% "\t{ ID id-Cause\t\t\tCRITICALITY ignore\tTYPE Cause\t\t\tPRESENCE mandatory\t} |\n",
  text% "\t{ ID id-CriticalityDiagnostics\tCRITICALITY ignore\tTYPE CriticalityDiagnostics\tPRESENCE optional\t} ,\n",
  text% "\t...\n",
  text% "}\n",
  text% "\n",
  text% "MBMSSessionUpdateFailureExtensions RANAP-PROTOCOL-EXTENSION ::= {\n",
  text% "\t...\n",
  text% "}\n",
  text% "\n",
  text% "-- **************************************************************\n",
  text% "--\n",
  text% "-- MBMS SESSIE\n",
  text% "--\n",
  text% "-- **************************************************************\n",
  text% "\n",
  text% "-- **************************************************************\n",
  text% "--\n",
  text% "-- MBMS Session Stop\n",
  text% "--\n",
  text% "-- **************************************************************\n",
  text% "\n",
  text% "MBMSSessionStop ::= SEQUENCE {\n",
  text% "\tprotocolIEs\t\tProtocolIE-Container\t\t{ { MBMSSessionStopIEs} },\n",
  text% "\tprotocolExtensions\tProtocolExtensionContainer\t{ { MBMSSessionStopExtensions} }\t\t\tOPTIONAL,\n",
  text% "\t...\n",
  text% "}\n",
  text% "\n",
  text% "MBMSSessionStopIEs RANAP-PROTOCOL-IES ::= {\n",
  text% "\t{ ID id-MBMSCNDe-Registration\tCRITICALITY reject\tTYPE MBMSCNDe-Registration\t\t\t\tPRESENCE mandatory\t},\n",
  text% "\t...\n",
  text% "}\n",
  text% "\n",
  text% "MBMSSessionStopExtensions RANAP-PROTOCOL-EXTENSION ::= {\n",
  text% "\t...\n",
  text% "}\n",
  text% "\n",
  text% "-- **************************************************************\n",
  text% "--\n",
  text% "-- MBMS Session Stop Response\n",
  text% "--\n",
  text% "-- **************************************************************\n",
  text% "\n",
  text% "MBMSSessionStopResponse ::= SEQUENCE {\n"]

/-- The tables of `ranap52`. -/
noncomputable def ranap52Tables : List (Text × List Row) := [
  (text% "MBMSSessionUpdateFailureIEs", [
    ⟨text% "id-SessionUpdateID", text% "ignore", text% "SessionUpdateID", text% "mandatory"⟩,
    ⟨text% "id-Cause", text% "ignore", text% "Cause", text% "mandatory"⟩,
    ⟨text% "id-CriticalityDiagnostics", text% "ignore", text% "CriticalityDiagnostics", text% "optional"⟩]),
  (text% "MBMSSessionStopIEs", [
    ⟨text% "id-MBMSCNDe-Registration", text% "reject", text% "MBMSCNDe-Registration", text% "mandatory"⟩])]

/-- asn1/ranap/RANAP-PDU-Contents.asn:3176-3237 -/
noncomputable def ranap53 : List Text := [
  text% "\tprotocolIEs\t\tProtocolIE-Container\t\t{ { MBMSSessionStopResponseIEs} },\n",
  text% "\tprotocolExtensions\tProtocolExtensionContainer\t{ { MBMSSessionStopResponseExtensions} }\t\tOPTIONAL,\n",
  text% "\t...\n",
  text% "}\n",
  text% "\n",
  text% "MBMSSessionStopResponseIEs RANAP-PROTOCOL-IES ::= {\n",
  text% "\t{ ID id-Cause\t\t\tCRITICALITY ignore\tTYPE Cause\t\t\t\tPRESENCE optional\t\t} |\n",
  text% "\t{ ID id-CriticalityDiagnostics\tCRITICALITY ignore\tTYPE CriticalityDiagnostics\t\tPRESENCE optional\t\t} ,\n",
  text% "\t...\n",
  text% "}\n",
  text% "\n",
  text% "MBMSSessionStopResponseExtensions RANAP-PROTOCOL-EXTENSION ::= {\n",
  text% "\t...\n",
  text% "}\n",
  text% "\n",
  text% "-- **************************************************************\n",
  text% "--\n",
  text% "-- MBMS UE LINKING PROCEDURE\n",
  text% "--\n",
  text% "-- **************************************************************\n",
  text% "\n",
  text% "-- **************************************************************\n",
  text% "--\n",
  text% "-- MBMS UE Linking Request\n",
  text% "--\n",
  text% "-- **************************************************************\n",
  text% "\n",
  text% "MBMSUELinkingRequest ::= SEQUENCE {\n",
  text% "\tprotocolIEs\t\tProtocolIE-Container\t\t{ { MBMSUELinkingRequestIEs} },\n",
  text% "\tprotocolExtensions\tProtocolExtensionContainer\t{ { MBMSUELinkingRequestExtensions} }\t\t\tOPTIONAL,\n",
  text% "\t...\n",
  text% "}\n",
  text% "\n",
  text% "MBMSUELinkingRequestIEs RANAP-PROTOCOL-IES ::= {\n",
  text% "\t{ ID id-JoinedMBMSBearerServicesList\tCRITICALITY reject\tTYPE JoinedMBMSBearerService-IEs\t\tPRESENCE optional\t} |\n",
  text% "\t{ ID id-LeftMBMSBearerServicesList\tCRITICALITY reject\tTYPE LeftMBMSBearerService-IEs\t\t\tPRESENCE optional\t},\n",
  text% "\t...\n",
  text% "}\n",
  text% "\n",
  text% "LeftMBMSBearerService-IEs ::= SEQUENCE (SIZE (1.. maxnoofMulticastServicesPerUE)) OF LeftMBMSBearerService-IEs-Value\n",
  text% "LeftMBMSBearerService-IEs-Value ::=\n",
  text% "\tSEQUENCE {\n",
  text% "\t\ttMGI\t\tTMGI,\n",
  text% "\t\tiE-Extensions\tProtocolExtensionContainer { {LeftMBMSBearerService-ExtIEs} } OPTIONAL,\n",
  text% "\t\t...\n",
  text% "\t}\n",
  text% "\n",
  text% "LeftMBMSBearerService-ExtIEs RANAP-PROTOCOL-EXTENSION ::= {\n",
  text% "\t...\n",
  text% "}\n",
  text% "\n",
  text% "MBMSUELinkingRequestExtensions RANAP-PROTOCOL-EXTENSION ::= {\n",
  text% "\t...\n",
  text% "}\n",
  text% "\n",
  text% "-- **************************************************************\n",
  text% "--\n",
  text% "-- MBMS UE Linking Response\n",
  text% "--\n",
  text% "-- **************************************************************\n",
  text% "\n",
  text% "MBMSUELinkingResponse ::= SEQUENCE {\n"]

/-- The tables of `ranap53`. -/
noncomputable def ranap53Tables : List (Text × List Row) := [
  (text% "MBMSSessionStopResponseIEs", [
    ⟨text% "id-Cause", text% "ignore", text% "Cause", text% "optional"⟩,
    ⟨text% "id-CriticalityDiagnostics", text% "ignore", text% "CriticalityDiagnostics", text% "optional"⟩]),
  (text% "MBMSUELinkingRequestIEs", [
    ⟨text% "id-JoinedMBMSBearerServicesList", text% "reject", text% "JoinedMBMSBearerService-IEs", text% "optional"⟩,
    ⟨text% "id-LeftMBMSBearerServicesList", text% "reject", text% "LeftMBMSBearerService-IEs", text% "optional"⟩])]

end Verif.Gen.Text
