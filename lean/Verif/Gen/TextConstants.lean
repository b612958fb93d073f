import Verif.Gen.TextLit
import Verif.Model.AsnToStruct

/-!
# Text of the modules of constants

The lines of `/repo/asn1/*/*-Constants.asn` as they are.
-/

namespace Verif.Gen.Text
open Verif.AsnToStruct

/-- asn1/rua/RUA-Constants.asn -/
noncomputable def ruaConstants : List Text := [
  text% "-- **************************************************************\n",
  text% "--\n",
  text% "-- Constant definitions\n",
  text% "--\n",
  text% "-- **************************************************************\n",
  text% "\n",
  text% "RUA-Constants { \n",
  text% "itu-t (0) identified-organization (4) etsi (0) mobileDomain (0) \n",
  text% "umts-Access (20) modules (3) rua(5) version1 (1) rUA-Constants (4) } \n",
  text% "\n",
  text% "DEFINITIONS AUTOMATIC TAGS ::= \n",
  text% "\n",
  text% "BEGIN\n",
  text% "\n",
  text% "IMPORTS\n",
  text% "\tProcedureCode,\n",
  text% "\tProtocolIE-ID\n",
  text% "FROM RUA-CommonDataTypes;\n",
  text% "\n",
  text% "\n",
  text% "-- **************************************************************\n",
  text% "--\n",
  text% "-- Elementary Procedures\n",
  text% "--\n",
  text% "id-Connect\t\t\t\t\t\tProcedureCode ::= 1\n",
  text% "id-DirectTransfer\t\t\t\t\tProcedureCode ::= 2\n",
  text% "id-Disconnect\t\t\t\t\t\tProcedureCode ::= 3\n",
  text% "id-ConnectionlessTransfer\t\t\t\tProcedureCode ::= 4\n",
  text% "id-ErrorIndication\t\t\t\t\tProcedureCode ::= 5\n",
  text% "id-privateMessage\t\t\t\t\tProcedureCode ::= 6\n",
  text% "\n",
  text% "-- **************************************************************\n",
  text% "--\n",
  text% "-- Lists\n",
  text% "--\n",
  text% "-- **************************************************************\n",
  text% "maxNrOfErrors\t\t\t\t\t\tINTEGER ::= 256\n",
  text% "\n",
  text% "-- **************************************************************\n",
  text% "--\n",
  text% "-- IEs\n",
  text% "--\n",
  text% "-- **************************************************************\n",
  text% "\n",
  text% "id-Cause\t\t\t\t\t\tProtocolIE-ID ::= 1\n",
  text% "id-CriticalityDiagnostics\t\t\t\tProtocolIE-ID ::= 2\n",
  text% "id-Context-ID\t\t\t\t\t\tProtocolIE-ID ::= 3\n",
  text% "id-RANAP-Message\t\t\t\t\tProtocolIE-ID ::= 4\n",
  text% "id-IntraDomainNasNodeSelector\t\t\t\tProtocolIE-ID ::= 5\n",
  text% "id-Establishment-Cause\t\t\t\t\tProtocolIE-ID ::= 6\n",
  text% "id-CN-DomainIndicator\t\t\t\t\tProtocolIE-ID ::= 7\n",
  text% "id-CSGMembershipStatus \t\t\t\t\tProtocolIE-ID ::= 9\n",
  text% "\n",
  text% " \n",
  text% "END\n"]

/-- asn1/hnbap/HNBAP-Constants.asn -/
noncomputable def hnbapConstants : List Text := [
  text% "-- **************************************************************\n",
  text% "--\n",
  text% "-- Constant definitions\n",
  text% "--\n",
  text% "-- **************************************************************\n",
  text% "\n",
  text% "HNBAP-Constants { \n",
  text% "itu-t (0) identified-organization (4) etsi (0) mobileDomain (0) \n",
  text% "umts-Access (20) modules (3) hnbap(6) version1 (1) hnbap-Constants (4) } \n",
  text% "\n",
  text% "DEFINITIONS AUTOMATIC TAGS ::= \n",
  text% "\n",
  text% "BEGIN\n",
  text% "\n",
  text% "IMPORTS\n",
  text% "\tProcedureCode,\n",
  text% "\tProtocolIE-ID\n",
  text% "FROM HNBAP-CommonDataTypes;\n",
  text% "\n",
  text% "\n",
  text% "-- **************************************************************\n",
  text% "--\n",
  text% "-- Elementary Procedures\n",
  text% "--\n",
  text% "id-HNBRegister\t\t\t\t\tProcedureCode ::= 1\n",
  text% "id-HNBDe-Register\t\t\t\tProcedureCode ::= 2\n",
  text% "id-UERegister\t\t\t\t\tProcedureCode ::= 3\n",
  text% "id-UEDe-Register\t\t\t\tProcedureCode ::= 4\n",
  text% "id-ErrorIndication\t\t\t\tProcedureCode ::= 5\n",
  text% "id-privateMessage\t\t\t\tProcedureCode ::= 6\n",
  text% "id-CSGMembershipUpdate\t\t\t\tProcedureCode ::= 7\n",
  text% "id-TNLUpdate\t\t\t\t\tProcedureCode ::= 9\n",
  text% "id-HNBConfigTransfer\t\t\t\tProcedureCode ::= 10\n",
  text% "id-RelocationComplete\t\t\t\tProcedureCode ::= 11\n",
  text% "id-U-RNTIQuery\t\t\t\t\tProcedureCode ::= 14\n",
  text% "\n",
  text% "-- **************************************************************\n",
  text% "--\n",
  text% "-- Lists\n",
  text% "--\n",
  text% "-- **************************************************************\n",
  text% "maxNrOfErrors\t\t\t\t\tINTEGER ::= 256\n",
  text% "maxnoofRABs\t\t\t\t\tINTEGER ::= 256\n",
  text% "maxnoofAdditionalNeighbours\t\t\tINTEGER ::= 128\n",
  text% "maxnoofURAIdentities\t\t\t\tINTEGER ::= 8\n",
  text% "maxnoofNeighbours\t\t\t\tINTEGER ::= 32\n",
  text% "maxnoofIurhAddresses\t\t\t\tINTEGER ::= 3\n",
  text% "\n",
  text% "-- **************************************************************\n",
  text% "--\n",
  text% "-- IEs\n",
  text% "--\n",
  text% "-- **************************************************************\n",
  text% "\n",
  text% "id-Cause\t\t\t\t\tProtocolIE-ID ::= 1\n",
  text% "id-CriticalityDiagnostics\t\t\tProtocolIE-ID ::= 2\n",
  text% "id-HNB-Identity\t\t\t\t\tProtocolIE-ID ::= 3\n",
  text% "id-Context-ID\t\t\t\t\tProtocolIE-ID ::= 4\n",
  text% "id-UE-Identity\t\t\t\t\tProtocolIE-ID ::= 5\n",
  text% "id-LAC\t\t\t\t\t\tProtocolIE-ID ::= 6\n",
  text% "id-RAC\t\t\t\t\t\tProtocolIE-ID ::= 7\n",
  text% "id-HNB-Location-Information\t\t\tProtocolIE-ID ::= 8\n",
  text% "id-PLMNidentity\t\t\t\t\tProtocolIE-ID ::= 9\n",
  text% "id-SAC\t\t\t\t\t\tProtocolIE-ID ::= 10\n",
  text% "id-CellIdentity\t\t\t\t\tProtocolIE-ID ::= 11\n",
  text% "id-Registration-Cause\t\t\t\tProtocolIE-ID ::= 12\n",
  text% "id-UE-Capabilities\t\t\t\tProtocolIE-ID ::= 13\n",
  text% "id-RNC-ID\t\t\t\t\tProtocolIE-ID ::= 14\n",
  text% "id-CSG-ID\t\t\t\t\tProtocolIE-ID ::= 15\n",
  text% "id-BackoffTimer\t\t\t\t\tProtocolIE-ID ::= 16\n",
  text% "id-HNB-Internet-Information\t\t\tProtocolIE-ID ::= 17\n",
  text% "id-HNB-Cell-Access-Mode\t\t\t\tProtocolIE-ID ::= 18\n",
  text% "id-MuxPortNumber\t\t\t\tProtocolIE-ID ::= 19\n",
  text% "id-Service-Area-For-Broadcast\t\t\tProtocolIE-ID ::= 20\n",
  text% "id-CSGMembershipStatus\t\t\t\tProtocolIE-ID ::= 21\n",
  text% "id-RABList\t\t\t\t\tProtocolIE-ID ::= 22\n",
  text% "id-HNBConfigInfo\t\t\t\tProtocolIE-ID ::= 23\n",
  text% "id-AccessResult\t\t\t\t\tProtocolIE-ID ::= 25\n",
  text% "id-Update-cause\t\t\t\t\tProtocolIE-ID ::= 26\n",
  text% "id-NeighbourInfoList\t\t\t\tProtocolIE-ID ::= 27\n",
  text% "id-NeighbourInfoRequestList\t\t\tProtocolIE-ID ::= 28\n",
  text% "id-Iurh-Signalling-TNL-Address\t\t\tProtocolIE-ID ::= 29\n",
  text% "id-PSC\t\t\t\t\t\tProtocolIE-ID ::= 30\n",
  text% "id-HNB-Cell-Identifier\t\t\t\tProtocolIE-ID ::= 31\n",
  text% "id-Tunnel-Information\t\t\t\tProtocolIE-ID ::= 41\n",
  text% "id-CELL-FACHMobilitySupport\t\t\tProtocolIE-ID ::= 42\n",
  text% "id-S-RNTIPrefix\t\t\t\t\tProtocolIE-ID ::= 43\n",
  text% "id-URAIdentity\t\t\t\t\tProtocolIE-ID ::= 44\n",
  text% "id-NeighbourIdentity\t\t\t\tProtocolIE-ID ::= 45\n",
  text% "id-HNBCapacity\t\t\t\t\tProtocolIE-ID ::= 46\n",
  text% "id-NeighbourCellIdentityList\t\t\tProtocolIE-ID ::= 47\n",
  text% "id-AdditionalNeighbourInfoList\t\t\tProtocolIE-ID ::= 48\n",
  text% "id-U-RNTI\t\t\t\t\tProtocolIE-ID ::= 49\n",
  text% "id-UnknownU-RNTIIndication\t\t\tProtocolIE-ID ::= 50\n",
  text% "id-HNB-GWResponse\t\t\t\tProtocolIE-ID ::= 51\n",
  text% "id-URAIdentityList\t\t\t\tProtocolIE-ID ::= 52\n",
  text% "\n",
  text% "END\n"]

/-- asn1/sabp/SABP-Constants.asn -/
noncomputable def sabpConstants : List Text := [
  text% "-- **************************************************************\n",
  text% "--\n",
  text% "-- Constant definitions\n",
  text% "--\n",
  text% "-- **************************************************************\n",
  text% "SABP-Constants {\n",
  text% "itu-t (0) identified-organization (4) etsi (0) mobileDomain (0)\n",
  text% "umts-Access (20) modules (3) sabp (3) version1 (1) sabp-Constants (4) }\n",
  text% "DEFINITIONS AUTOMATIC TAGS ::=\n",
  text% "BEGIN\n",
  text% "\n",
  text% "IMPORTS\n",
  text% "\tProcedureCode,\n",
  text% "\tProtocolIE-ID\n",
  text% "FROM SABP-CommonDataTypes;\n",
  text% "\n",
  text% "\n",
  text% "-- **************************************************************\n",
  text% "--\n",
  text% "-- Elementary Procedures\n",
  text% "--\n",
  text% "-- **************************************************************\n",
  text% "id-Write-Replace ProcedureCode ::= 0\n",
  text% "id-Kill ProcedureCode ::= 1\n",
  text% "id-Load-Status-Enquiry ProcedureCode ::= 2\n",
  text% "id-Message-Status-Query ProcedureCode ::= 3 \n",
  text% "id-Restart-Indication ProcedureCode ::= 4\n",
  text% "id-Reset ProcedureCode ::= 5\n",
  text% "id-Failure-Indication ProcedureCode ::= 6\n",
  text% "id-Error-Indication ProcedureCode ::= 7\n",
  text% "-- **************************************************************\n",
  text% "--\n",
  text% "-- IEs\n",
  text% "--\n",
  text% "-- **************************************************************\n",
  text% "id-Broadcast-Message-Content ProtocolIE-ID ::= 0\n",
  text% "id-Category ProtocolIE-ID ::= 1\n",
  text% "id-Cause ProtocolIE-ID ::= 2\n",
  text% "id-Criticality-Diagnostics ProtocolIE-ID ::=3\n",
  text% "id-Data-Coding-Scheme ProtocolIE-ID ::= 4\n",
  text% "id-Failure-List ProtocolIE-ID ::= 5\n",
  text% "id-Message-Identifier ProtocolIE-ID ::= 6\n",
  text% "id-New-Serial-Number ProtocolIE-ID ::= 7\n",
  text% "id-Number-of-Broadcasts-Completed-List ProtocolIE-ID ::= 8\n",
  text% "id-Number-of-Broadcasts-Requested ProtocolIE-ID ::= 9\n",
  text% "id-Old-Serial-Number ProtocolIE-ID ::= 10\n",
  text% "id-Radio-Resource-Loading-List ProtocolIE-ID ::= 11\n",
  text% "id-Recovery-Indication ProtocolIE-ID ::= 12\n",
  text% "id-Repetition-Period ProtocolIE-ID ::= 13\n",
  text% "id-Serial-Number ProtocolIE-ID ::= 14\n",
  text% "id-Service-Areas-List ProtocolIE-ID ::= 15\n",
  text% "id-MessageStructure ProtocolIE-ID ::= 16\n",
  text% "id-TypeOfError ProtocolIE-ID ::= 17\n",
  text% "id-Paging-ETWS-Indicator ProtocolIE-ID ::= 18\n",
  text% "id-Warning-Type ProtocolIE-ID ::= 19\n",
  text% "id-WarningSecurityInfo ProtocolIE-ID ::= 20\n",
  text% "id-Broadcast-Message-Content-Validity-Indicator ProtocolIE-ID ::= 21\n",
  text% "-- **************************************************************\n",
  text% "--\n",
  text% "-- Extension constants\n",
  text% "--\n",
  text% "-- **************************************************************\n",
  text% "-- **************************************************************\n",
  text% "--\n",
  text% "-- Lists\n",
  text% "--\n",
  text% "-- **************************************************************\n",
  text% "maxNrOfErrors INTEGER ::= 256\n",
  text% "maxnoofSAI INTEGER ::= 65535\n",
  text% "maxProtocolExtensions INTEGER ::= 65535\n",
  text% "maxProtocolIEs INTEGER ::= 65535\n",
  text% "maxNrOfLevels INTEGER ::= 256\n",
  text% "END \n"]

/-- asn1/ranap/RANAP-Constants.asn -/
noncomputable def ranapConstants : List Text := [
  text% "-- **************************************************************\n",
  text% "--\n",
  text% "-- Constant definitions\n",
  text% "--\n",
  text% "-- **************************************************************\n",
  text% "\n",
  text% "RANAP-Constants {\n",
  text% "itu-t (0) identified-organization (4) etsi (0) mobileDomain (0)\n",
  text% "umts-Access (20) modules (3) ranap (0) version1 (1) ranap-Constants (4) }\n",
  text% "\n",
  text% "DEFINITIONS AUTOMATIC TAGS ::=\n",
  text% "\n",
  text% "BEGIN\n",
  text% "\n",
  text% "IMPORTS\n",
  text% "\tProcedureCode,\n",
  text% "\tProtocolIE-ID\n",
  text% "FROM RANAP-CommonDataTypes;\n",
  text% "\n",
  text% "\n",
  text% "-- **************************************************************\n",
  text% "--\n",
  text% "-- Elementary Procedures\n",
  text% "--\n",
  text% "-- **************************************************************\n",
  text% "\n",
  text% "id-RAB-Assignment\t\t\tProcedureCode ::= 0\n",
  text% "id-Iu-Release\t\t\t\tProcedureCode ::= 1\n",
  text% "id-RelocationPreparation\t\tProcedureCode ::= 2\n",
  text% "id-RelocationResourceAllocation\t\tProcedureCode ::= 3\n",
  text% "id-RelocationCancel\t\t\tProcedureCode ::= 4\n",
  text% "id-SRNS-ContextTransfer\t\t\tProcedureCode ::= 5\n",
  text% "id-SecurityModeControl\t\t\tProcedureCode ::= 6\n",
  text% "id-DataVolumeReport\t\t\tProcedureCode ::= 7\n",
  text% "id-Reset\t\t\t\tProcedureCode ::= 9\n",
  text% "id-RAB-ReleaseRequest\t\t\tProcedureCode ::= 10\n",
  text% "id-Iu-ReleaseRequest\t\t\tProcedureCode ::= 11\n",
  text% "id-RelocationDetect\t\t\tProcedureCode ::= 12\n",
  text% "id-RelocationComplete\t\t\tProcedureCode ::= 13\n",
  text% "id-Paging\t\t\t\tProcedureCode ::= 14\n",
  text% "id-CommonID\t\t\t\tProcedureCode ::= 15\n",
  text% "id-CN-InvokeTrace\t\t\tProcedureCode ::= 16\n",
  text% "id-LocationReportingControl\t\tProcedureCode ::= 17\n",
  text% "id-LocationReport\t\t\tProcedureCode ::= 18\n",
  text% "id-InitialUE-Message\t\t\tProcedureCode ::= 19\n",
  text% "id-DirectTransfer\t\t\tProcedureCode ::= 20\n",
  text% "id-OverloadControl\t\t\tProcedureCode ::= 21\n",
  text% "id-ErrorIndication\t\t\tProcedureCode ::= 22\n",
  text% "id-SRNS-DataForward\t\t\tProcedureCode ::= 23\n",
  text% "id-ForwardSRNS-Context\t\t\tProcedureCode ::= 24\n",
  text% "id-privateMessage\t\t\tProcedureCode ::= 25\n",
  text% "id-CN-DeactivateTrace\t\t\tProcedureCode ::= 26\n",
  text% "id-ResetResource\t\t\tProcedureCode ::= 27\n",
  text% "id-RANAP-Relocation\t\t\tProcedureCode ::= 28\n",
  text% "id-RAB-ModifyRequest\t\t\tProcedureCode ::= 29\n",
  text% "id-LocationRelatedData\t\t\tProcedureCode ::= 30\n",
  text% "id-InformationTransfer\t\t\tProcedureCode ::= 31\n",
  text% "id-UESpecificInformation\t\tProcedureCode ::= 32\n",
  text% "id-UplinkInformationExchange\t\tProcedureCode ::= 33\n",
  text% "id-DirectInformationTransfer\t\tProcedureCode ::= 34\n",
  text% "id-MBMSSessionStart\t\t\tProcedureCode ::= 35\n",
  text% "id-MBMSSessionUpdate\t\t\tProcedureCode ::= 36\n",
  text% "id-MBMSSessionStop\t\t\tProcedureCode ::= 37\n",
  text% "id-MBMSUELinking\t\t\tProcedureCode ::= 38\n",
  text% "id-MBMSRegistration\t\t\tProcedureCode ::= 39\n",
  text% "id-MBMSCNDe-Registration-Procedure\tProcedureCode ::= 40\n",
  text% "id-MBMSRABEstablishmentIndication\tProcedureCode ::= 41\n",
  text% "id-MBMSRABRelease\t\t\tProcedureCode ::= 42\n",
  text% "id-enhancedRelocationComplete\t\tProcedureCode ::= 43\n",
  text% "id-enhancedRelocationCompleteConfirm\tProcedureCode ::= 44\n",
  text% "id-RANAPenhancedRelocation\t\tProcedureCode ::= 45\n",
  text% "id-SRVCCPreparation\t\t\tProcedureCode ::= 46\n",
  text% "id-UeRadioCapabilityMatch\t\tProcedureCode ::= 47\n",
  text% "\n",
  text% "\n",
  text% "-- **************************************************************\n",
  text% "--\n",
  text% "-- Extension constants\n",
  text% "--\n",
  text% "-- **************************************************************\n",
  text% "\n",
  text% "maxPrivateIEs \t\t\t\tINTEGER ::= 65535\n",
  text% "maxProtocolExtensions \t\t\tINTEGER ::= 65535\n",
  text% "maxProtocolIEs\t\t\t\tINTEGER ::= 65535\n",
  text% "\n",
  text% "-- **************************************************************\n",
  text% "--\n",
  text% "-- Lists\n",
  text% "--\n",
  text% "-- **************************************************************\n",
  text% "\n",
  text% "maxNrOfDTs\t\t\t\tINTEGER ::= 15\n",
  text% "maxNrOfErrors\t\t\t\tINTEGER ::= 256\n",
  text% "maxNrOfIuSigConIds\t\t\tINTEGER ::= 250\n",
  text% "maxNrOfPDPDirections\t\t\tINTEGER ::= 2\n",
  text% "maxNrOfPoints\t\t\t\tINTEGER ::= 15\n",
  text% "maxNrOfRABs\t\t\t\tINTEGER ::= 256\n",
  text% "maxNrOfSeparateTrafficDirections\tINTEGER ::= 2\n",
  text% "maxNrOfSRBs\t\t\t\tINTEGER ::= 8\n",
  text% "maxNrOfVol\t\t\t\tINTEGER ::= 2\n",
  text% "maxNrOfLevels\t\t\t\tINTEGER ::= 256\n",
  text% "maxNrOfAltValues\t\t\tINTEGER ::= 16\n",
  text% "maxNrOfPLMNsSN\t\t\t\tINTEGER ::= 32\n",
  text% "maxNrOfLAs\t\t\t\tINTEGER ::= 65536\n",
  text% "maxNrOfSNAs\t\t\t\tINTEGER ::= 65536\n",
  text% "maxNrOfUEsToBeTraced\t\t\tINTEGER ::= 64\n",
  text% "maxNrOfInterfaces\t\t\tINTEGER ::= 16\n",
  text% "maxRAB-Subflows\t\t\t\tINTEGER ::= 7\n",
  text% "maxRAB-SubflowCombination\t\tINTEGER ::= 64\n",
  text% "maxSet\t\t\t\t\tINTEGER ::= 9\n",
  text% "maxNrOfHSDSCHMACdFlows-1\t\tINTEGER\t::= 7\n",
  text% "maxnoofMulticastServicesPerUE\t\tINTEGER ::= 128\n",
  text% "maxnoofMulticastServicesPerRNC\t\tINTEGER ::= 512\n",
  text% "maxMBMSSA\t\t\t\tINTEGER ::= 256\n",
  text% "maxMBMSRA\t\t\t\tINTEGER ::= 65536\n",
  text% "maxNrOfEDCHMACdFlows-1\t\t\tINTEGER ::= 7\n",
  text% "maxGANSSSet\t\t\t\tINTEGER ::= 9\n",
  text% "maxNrOfCSGs\t\t\t\tINTEGER ::= 256\n",
  text% "maxNrOfEUTRAFreqs\t\t\tINTEGER ::= 8\n",
  text% "maxNrOfCellIds\t\t\t\tINTEGER ::= 32\n",
  text% "maxNrOfRAIs\t\t\t\tINTEGER ::= 8\n",
  text% "maxNrOfLAIs\t\t\t\tINTEGER ::= 8\n",
  text% "maxSizeOfIMSInfo\t\t\tINTEGER ::= 32\n",
  text% "maxnoofMDTPLMNs\t\t\t\tINTEGER ::= 16\n",
  text% "\n",
  text% "-- **************************************************************\n",
  text% "--\n",
  text% "-- IEs\n",
  text% "--\n",
  text% "-- **************************************************************\n",
  text% "\n",
  text% "id-AreaIdentity \t\t\t\t\t\tProtocolIE-ID ::= 0\n",
  text% "id-CN-DomainIndicator \t\t\t\t\t\tProtocolIE-ID ::= 3\n",
  text% "id-Cause \t\t\t\t\t\t\tProtocolIE-ID ::= 4\n",
  text% "id-ChosenEncryptionAlgorithm \t\t\t\t\tProtocolIE-ID ::= 5\n",
  text% "id-ChosenIntegrityProtectionAlgorithm \t\t\t\tProtocolIE-ID ::= 6\n",
  text% "id-ClassmarkInformation2 \t\t\t\t\tProtocolIE-ID ::= 7\n",
  text% "id-ClassmarkInformation3 \t\t\t\t\tProtocolIE-ID ::= 8\n",
  text% "id-CriticalityDiagnostics \t\t\t\t\tProtocolIE-ID ::= 9\n",
  text% "id-DL-GTP-PDU-SequenceNumber \t\t\t\t\tProtocolIE-ID ::= 10\n",
  text% "id-EncryptionInformation \t\t\t\t\tProtocolIE-ID ::= 11\n",
  text% "id-IntegrityProtectionInformation \t\t\t\tProtocolIE-ID ::= 12\n",
  text% "id-IuTransportAssociation \t\t\t\t\tProtocolIE-ID ::= 13\n",
  text% "id-L3-Information \t\t\t\t\t\tProtocolIE-ID ::= 14\n",
  text% "id-LAI \t\t\t\t\t\t\t\tProtocolIE-ID ::= 15\n",
  text% "id-NAS-PDU \t\t\t\t\t\t\tProtocolIE-ID ::= 16\n",
  text% "id-NonSearchingIndication \t\t\t\t\tProtocolIE-ID ::= 17\n",
  text% "id-NumberOfSteps \t\t\t\t\t\tProtocolIE-ID ::= 18\n",
  text% "id-OMC-ID \t\t\t\t\t\t\tProtocolIE-ID ::= 19\n",
  text% "id-OldBSS-ToNewBSS-Information \t\t\t\t\tProtocolIE-ID ::= 20\n",
  text% "id-PagingAreaID \t\t\t\t\t\tProtocolIE-ID ::= 21\n",
  text% "id-PagingCause \t\t\t\t\t\t\tProtocolIE-ID ::= 22\n",
  text% "id-PermanentNAS-UE-ID \t\t\t\t\t\tProtocolIE-ID ::= 23\n",
  text% "id-RAB-ContextItem \t\t\t\t\t\tProtocolIE-ID ::= 24\n",
  text% "id-RAB-ContextList \t\t\t\t\t\tProtocolIE-ID ::= 25\n",
  text% "id-RAB-DataForwardingItem \t\t\t\t\tProtocolIE-ID ::= 26\n",
  text% "id-RAB-DataForwardingItem-SRNS-CtxReq \t\t\t\tProtocolIE-ID ::= 27\n",
  text% "id-RAB-DataForwardingList \t\t\t\t\tProtocolIE-ID ::= 28\n",
  text% "id-RAB-DataForwardingList-SRNS-CtxReq \t\t\t\tProtocolIE-ID ::= 29\n",
  text% "id-RAB-DataVolumeReportItem \t\t\t\t\tProtocolIE-ID ::= 30\n",
  text% "id-RAB-DataVolumeReportList \t\t\t\t\tProtocolIE-ID ::= 31\n",
  text% "id-RAB-DataVolumeReportRequestItem \t\t\t\tProtocolIE-ID ::= 32\n",
  text% "id-RAB-DataVolumeReportRequestList \t\t\t\tProtocolIE-ID ::= 33\n",
  text% "id-RAB-FailedItem \t\t\t\t\t\tProtocolIE-ID ::= 34\n",
  text% "id-RAB-FailedList \t\t\t\t\t\tProtocolIE-ID ::= 35\n",
  text% "id-RAB-ID \t\t\t\t\t\t\tProtocolIE-ID ::= 36\n",
  text% "id-RAB-QueuedItem \t\t\t\t\t\tProtocolIE-ID ::= 37\n",
  text% "id-RAB-QueuedList \t\t\t\t\t\tProtocolIE-ID ::= 38\n",
  text% "id-RAB-ReleaseFailedList \t\t\t\t\tProtocolIE-ID ::= 39\n",
  text% "id-RAB-ReleaseItem \t\t\t\t\t\tProtocolIE-ID ::= 40\n",
  text% "id-RAB-ReleaseList \t\t\t\t\t\tProtocolIE-ID ::= 41\n",
  text% "id-RAB-ReleasedItem \t\t\t\t\t\tProtocolIE-ID ::= 42\n",
  text% "id-RAB-ReleasedList \t\t\t\t\t\tProtocolIE-ID ::= 43\n",
  text% "id-RAB-ReleasedList-IuRelComp \t\t\t\t\tProtocolIE-ID ::= 44\n",
  text% "id-RAB-RelocationReleaseItem \t\t\t\t\tProtocolIE-ID ::= 45\n",
  text% "id-RAB-RelocationReleaseList \t\t\t\t\tProtocolIE-ID ::= 46\n",
  text% "id-RAB-SetupItem-RelocReq \t\t\t\t\tProtocolIE-ID ::= 47\n",
  text% "id-RAB-SetupItem-RelocReqAck \t\t\t\t\tProtocolIE-ID ::= 48\n",
  text% "id-RAB-SetupList-RelocReq \t\t\t\t\tProtocolIE-ID ::= 49\n",
  text% "id-RAB-SetupList-RelocReqAck \t\t\t\t\tProtocolIE-ID ::= 50\n",
  text% "id-RAB-SetupOrModifiedItem \t\t\t\t\tProtocolIE-ID ::= 51\n",
  text% "id-RAB-SetupOrModifiedList \t\t\t\t\tProtocolIE-ID ::= 52\n",
  text% "id-RAB-SetupOrModifyItem \t\t\t\t\tProtocolIE-ID ::= 53\n",
  text% "id-RAB-SetupOrModifyList \t\t\t\t\tProtocolIE-ID ::= 54\n",
  text% "id-RAC \t\t\t\t\t\t\t\tProtocolIE-ID ::= 55\n",
  text% "id-RelocationType \t\t\t\t\t\tProtocolIE-ID ::= 56\n",
  text% "id-RequestType \t\t\t\t\t\t\tProtocolIE-ID ::= 57\n",
  text% "id-SAI \t\t\t\t\t\t\t\tProtocolIE-ID ::= 58\n",
  text% "id-SAPI \t\t\t\t\t\t\tProtocolIE-ID ::= 59\n",
  text% "id-SourceID \t\t\t\t\t\t\tProtocolIE-ID ::= 60\n",
  text% "id-Source-ToTarget-TransparentContainer \t\t\tProtocolIE-ID ::= 61\n",
  text% "id-TargetID \t\t\t\t\t\t\tProtocolIE-ID ::= 62\n",
  text% "id-Target-ToSource-TransparentContainer \t\t\tProtocolIE-ID ::= 63\n",
  text% "id-TemporaryUE-ID \t\t\t\t\t\tProtocolIE-ID ::= 64\n",
  text% "id-TraceReference \t\t\t\t\t\tProtocolIE-ID ::= 65\n",
  text% "id-TraceType \t\t\t\t\t\t\tProtocolIE-ID ::= 66\n",
  text% "id-TransportLayerAddress \t\t\t\t\tProtocolIE-ID ::= 67\n",
  text% "id-TriggerID \t\t\t\t\t\t\tProtocolIE-ID ::= 68\n",
  text% "id-UE-ID \t\t\t\t\t\t\tProtocolIE-ID ::= 69\n",
  text% "id-UL-GTP-PDU-SequenceNumber \t\t\t\t\tProtocolIE-ID ::= 70\n",
  text% "id-RAB-FailedtoReportItem\t\t\t\t\tProtocolIE-ID ::= 71\n",
  text% "id-RAB-FailedtoReportList \t\t\t\t\tProtocolIE-ID ::= 72\n",
  text% "id-KeyStatus\t\t\t\t\t\t\tProtocolIE-ID ::= 75\n",
  text% "id-DRX-CycleLengthCoefficient \t\t\t\t\tProtocolIE-ID ::= 76\n",
  text% "id-IuSigConIdList\t\t\t\t\t\tProtocolIE-ID ::= 77\n",
  text% "id-IuSigConIdItem\t\t\t\t\t\tProtocolIE-ID ::= 78\n",
  text% "id-IuSigConId\t\t\t\t\t\t\tProtocolIE-ID ::= 79\n",
  text% "id-DirectTransferInformationItem-RANAP-RelocInf\t\t\tProtocolIE-ID ::= 80\n",
  text% "id-DirectTransferInformationList-RANAP-RelocInf\t\t\tProtocolIE-ID ::= 81\n",
  text% "id-RAB-ContextItem-RANAP-RelocInf\t\t\t\tProtocolIE-ID ::= 82\n",
  text% "id-RAB-ContextList-RANAP-RelocInf\t\t\t\tProtocolIE-ID ::= 83\n",
  text% "id-RAB-ContextFailedtoTransferItem\t\t\t\tProtocolIE-ID ::= 84\n",
  text% "id-RAB-ContextFailedtoTransferList\t\t\t\tProtocolIE-ID ::= 85\n",
  text% "id-GlobalRNC-ID\t\t\t\t\t\t\tProtocolIE-ID ::= 86\n",
  text% "id-RAB-ReleasedItem-IuRelComp\t\t\t\t\tProtocolIE-ID ::= 87\n",
  text% "id-MessageStructure\t\t\t\t\t\tProtocolIE-ID ::= 88\n",
  text% "id-Alt-RAB-Parameters\t\t\t\t\t\tProtocolIE-ID ::= 89\n",
  text% "id-Ass-RAB-Parameters\t\t\t\t\t\tProtocolIE-ID ::= 90\n",
  text% "id-RAB-ModifyList\t\t\t\t\t\tProtocolIE-ID ::= 91\n",
  text% "id-RAB-ModifyItem\t\t\t\t\t\tProtocolIE-ID ::= 92\n",
  text% "id-TypeOfError\t\t\t\t\t\t\tProtocolIE-ID ::= 93\n",
  text% "id-BroadcastAssistanceDataDecipheringKeys\t\t\tProtocolIE-ID ::= 94\n",
  text% "id-LocationRelatedDataRequestType\t\t\t\tProtocolIE-ID ::= 95\n",
  text% "id-GlobalCN-ID\t\t\t\t\t\t\tProtocolIE-ID ::= 96\n",
  text% "id-LastKnownServiceArea\t\t\t\t\t\tProtocolIE-ID ::= 97\n",
  text% "id-SRB-TrCH-Mapping\t\t\t\t\t\tProtocolIE-ID ::= 98\n",
  text% "id-InterSystemInformation-TransparentContainer\t\t\tProtocolIE-ID ::= 99\n",
  text% "id-NewBSS-To-OldBSS-Information\t\t\t \t\tProtocolIE-ID ::= 100\n",
  text% "id-SourceRNC-PDCP-context-info\t\t\t\t\tProtocolIE-ID ::= 103\n",
  text% "id-InformationTransferID\t\t\t\t\tProtocolIE-ID ::= 104\n",
  text% "id-SNA-Access-Information\t\t\t\t\tProtocolIE-ID ::= 105\n",
  text% "id-ProvidedData\t\t\t\t\t\t\tProtocolIE-ID ::= 106\n",
  text% "id-GERAN-BSC-Container\t\t\t\t\t\tProtocolIE-ID ::= 107\n",
  text% "id-GERAN-Classmark\t\t\t\t\t\tProtocolIE-ID ::= 108\n",
  text% "id-GERAN-Iumode-RAB-Failed-RABAssgntResponse-Item\t\tProtocolIE-ID ::= 109\n",
  text% "id-GERAN-Iumode-RAB-FailedList-RABAssgntResponse\t\tProtocolIE-ID ::= 110\n",
  text% "id-VerticalAccuracyCode\t\t\t\t\t\tProtocolIE-ID ::= 111\n",
  text% "id-ResponseTime\t\t\t\t\t\t\tProtocolIE-ID ::= 112\n",
  text% "id-PositioningPriority\t\t\t\t\t\tProtocolIE-ID ::= 113\n",
  text% "id-ClientType\t\t\t\t\t\t\tProtocolIE-ID ::= 114\n",
  text% "id-LocationRelatedDataRequestTypeSpecificToGERANIuMode\t\tProtocolIE-ID ::= 115\n",
  text% "id-SignallingIndication\t\t\t\t\t\tProtocolIE-ID ::= 116\n",
  text% "id-hS-DSCH-MAC-d-Flow-ID\t\t\t\t\tProtocolIE-ID ::= 117\n",
  text% "id-UESBI-Iu\t\t\t\t\t\t\tProtocolIE-ID ::= 118\n",
  text% "id-PositionData\t\t\t\t\t\t\tProtocolIE-ID ::= 119\n",
  text% "id-PositionDataSpecificToGERANIuMode\t\t\t\tProtocolIE-ID ::= 120\n",
  text% "id-CellLoadInformationGroup\t\t\t\t\tProtocolIE-ID ::= 121\n",
  text% "id-AccuracyFulfilmentIndicator\t\t\t\t\tProtocolIE-ID ::= 122\n",
  text% "id-InformationTransferType\t\t\t\t\tProtocolIE-ID ::= 123\n",
  text% "id-TraceRecordingSessionInformation\t\t\t\tProtocolIE-ID ::= 124\n",
  text% "id-TracePropagationParameters\t\t\t\t\tProtocolIE-ID ::= 125\n",
  text% "id-InterSystemInformationTransferType\t\t\t\tProtocolIE-ID ::= 126\n",
  text% "id-SelectedPLMN-ID\t\t\t\t\t\tProtocolIE-ID ::= 127\n",
  text% "id-RedirectionCompleted\t\t\t\t\t\tProtocolIE-ID ::= 128\n",
  text% "id-RedirectionIndication\t\t\t\t\tProtocolIE-ID ::= 129\n",
  text% "id-NAS-SequenceNumber\t\t\t\t\t\tProtocolIE-ID ::= 130\n",
  text% "id-RejectCauseValue\t\t\t\t\t\tProtocolIE-ID ::= 131\n",
  text% "id-APN\t\t\t\t\t\t\t\tProtocolIE-ID ::= 132\n",
  text% "id-CNMBMSLinkingInformation\t\t\t\t\tProtocolIE-ID ::= 133\n",
  text% "id-DeltaRAListofIdleModeUEs\t\t\t\t\tProtocolIE-ID ::= 134\n",
  text% "id-FrequenceLayerConvergenceFlag\t\t\t\tProtocolIE-ID ::= 135\n",
  text% "id-InformationExchangeID\t\t\t\t\tProtocolIE-ID ::= 136\n",
  text% "id-InformationExchangeType\t\t\t\t\tProtocolIE-ID ::= 137\n",
  text% "id-InformationRequested\t\t\t\t\t\tProtocolIE-ID ::= 138\n",
  text% "id-InformationRequestType\t\t\t\t\tProtocolIE-ID ::= 139\n",
  text% "id-IPMulticastAddress\t\t\t\t\t\tProtocolIE-ID ::= 140\n",
  text% "id-JoinedMBMSBearerServicesList\t\t\t\t\tProtocolIE-ID ::= 141\n",
  text% "id-LeftMBMSBearerServicesList\t\t\t\t\tProtocolIE-ID ::= 142\n",
  text% "id-MBMSBearerServiceType\t\t\t\t\tProtocolIE-ID ::= 143\n",
  text% "id-MBMSCNDe-Registration\t\t\t\t\tProtocolIE-ID ::= 144\n",
  text% "id-MBMSServiceArea\t\t\t\t\t\tProtocolIE-ID ::= 145\n",
  text% "id-MBMSSessionDuration\t\t\t\t\t\tProtocolIE-ID ::= 146\n",
  text% "id-MBMSSessionIdentity\t\t\t\t\t\tProtocolIE-ID ::= 147\n",
  text% "id-PDP-TypeInformation\t\t\t\t\t\tProtocolIE-ID ::= 148\n",
  text% "id-RAB-Parameters\t\t\t\t\t\tProtocolIE-ID ::= 149\n",
  text% "id-RAListofIdleModeUEs\t\t\t\t\t\tProtocolIE-ID ::= 150\n",
  text% "id-MBMSRegistrationRequestType\t\t\t\t\tProtocolIE-ID ::= 151\n",
  text% "id-SessionUpdateID\t\t\t\t\t\tProtocolIE-ID ::= 152\n",
  text% "id-TMGI\t\t\t\t\t\t\t\tProtocolIE-ID ::= 153\n",
  text% "id-TransportLayerInformation\t\t\t\t\tProtocolIE-ID ::= 154\n",
  text% "id-UnsuccessfulLinkingList\t\t\t\t\tProtocolIE-ID ::= 155\n",
  text% "id-MBMSLinkingInformation\t\t\t\t\tProtocolIE-ID ::= 156\n",
  text% "id-MBMSSessionRepetitionNumber\t\t\t\t\tProtocolIE-ID ::= 157\n",
  text% "id-AlternativeRABConfiguration\t\t\t\t\tProtocolIE-ID ::= 158\n",
  text% "id-AlternativeRABConfigurationRequest\t\t\t\tProtocolIE-ID ::= 159\n",
  text% "id-E-DCH-MAC-d-Flow-ID\t\t\t\t\t\tProtocolIE-ID ::= 160\n",
  text% "id-SourceBSS-ToTargetBSS-TransparentContainer\t\t\tProtocolIE-ID ::= 161\n",
  text% "id-TargetBSS-ToSourceBSS-TransparentContainer\t\t\tProtocolIE-ID ::= 162\n",
  text% "id-TimeToMBMSDataTransfer\t\t\t\t\tProtocolIE-ID ::= 163\n",
  text% "id-IncludeVelocity\t\t\t\t\t\tProtocolIE-ID ::= 164\n",
  text% "id-VelocityEstimate\t\t\t\t\t\tProtocolIE-ID ::= 165\n",
  text% "id-RedirectAttemptFlag\t\t\t\t\t\tProtocolIE-ID ::= 166\n",
  text% "id-RAT-Type\t\t\t\t\t\t\tProtocolIE-ID ::= 167\n",
  text% "id-PeriodicLocationInfo\t\t\t\t\t\tProtocolIE-ID ::= 168\n",
  text% "id-MBMSCountingInformation\t\t\t\t\tProtocolIE-ID ::= 169\n",
  text% "id-170-not-to-be-used-for-IE-ids\t\t\t\tProtocolIE-ID ::= 170\n",
  text% "id-ExtendedRNC-ID\t\t\t\t\t\tProtocolIE-ID ::= 171\n",
  text% "id-Alt-RAB-Parameter-ExtendedGuaranteedBitrateInf\t\tProtocolIE-ID ::= 172\n",
  text% "id-Alt-RAB-Parameter-ExtendedMaxBitrateInf\t\t\tProtocolIE-ID ::= 173\n",
  text% "id-Ass-RAB-Parameter-ExtendedGuaranteedBitrateList\t\tProtocolIE-ID ::= 174\n",
  text% "id-Ass-RAB-Parameter-ExtendedMaxBitrateList\t\t\tProtocolIE-ID ::= 175\n",
  text% "id-RAB-Parameter-ExtendedGuaranteedBitrateList\t\t\tProtocolIE-ID ::= 176\n",
  text% "id-RAB-Parameter-ExtendedMaxBitrateList\t\t\t\tProtocolIE-ID ::= 177\n",
  text% "id-Requested-RAB-Parameter-ExtendedMaxBitrateList\t\tProtocolIE-ID ::= 178\n",
  text% "id-Requested-RAB-Parameter-ExtendedGuaranteedBitrateList\tProtocolIE-ID ::= 179\n",
  text% "id-LAofIdleModeUEs\t\t\t\t\t\tProtocolIE-ID ::= 180\n",
  text% "id-newLAListofIdleModeUEs\t\t\t\t\tProtocolIE-ID ::= 181\n",
  text% "id-LAListwithNoIdleModeUEsAnyMore\t\t\t\tProtocolIE-ID ::= 182\n",
  text% "id-183-not-to-be-used-for-IE-ids\t\t\t\tProtocolIE-ID ::= 183\n",
  text% "id-GANSS-PositioningDataSet\t\t\t\t\tProtocolIE-ID ::= 184\n",
  text% "id-RequestedGANSSAssistanceData\t\t\t\t\tProtocolIE-ID ::= 185\n",
  text% "id-BroadcastGANSSAssistanceDataDecipheringKeys\t\t\tProtocolIE-ID ::= 186\n",
  text% "id-d-RNTI-for-NoIuCSUP\t\t\t\t\t\tProtocolIE-ID ::= 187\n",
  text% "id-RAB-SetupList-EnhancedRelocCompleteReq\t\t\tProtocolIE-ID ::= 188\n",
  text% "id-RAB-SetupItem-EnhancedRelocCompleteReq\t\t\tProtocolIE-ID ::= 189\n",
  text% "id-RAB-SetupList-EnhancedRelocCompleteRes\t\t\tProtocolIE-ID ::= 190\n",
  text% "id-RAB-SetupItem-EnhancedRelocCompleteRes\t\t\tProtocolIE-ID ::= 191\n",
  text% "id-RAB-SetupList-EnhRelocInfoReq\t\t\t\tProtocolIE-ID ::= 192\n",
  text% "id-RAB-SetupItem-EnhRelocInfoReq\t\t\t\tProtocolIE-ID ::= 193\n",
  text% "id-RAB-SetupList-EnhRelocInfoRes\t\t\t\tProtocolIE-ID ::= 194\n",
  text% "id-RAB-SetupItem-EnhRelocInfoRes\t\t\t\tProtocolIE-ID ::= 195\n",
  text% "id-OldIuSigConId\t\t\t\t\t\tProtocolIE-ID ::= 196\n",
  text% "id-RAB-FailedList-EnhRelocInfoRes\t\t\t\tProtocolIE-ID ::= 197\n",
  text% "id-RAB-FailedItem-EnhRelocInfoRes\t\t\t\tProtocolIE-ID ::= 198\n",
  text% "id-Global-ENB-ID\t\t\t\t\t\tProtocolIE-ID ::= 199\n",
  text% "id-UE-History-Information\t\t\t\t\tProtocolIE-ID ::= 200\n",
  text% "id-MBMSSynchronisationInformation\t\t\t\tProtocolIE-ID ::= 201\n",
  text% "id-SubscriberProfileIDforRFP\t\t\t\t\tProtocolIE-ID ::= 202\n",
  text% "id-CSG-Id\t\t\t\t\t\t\tProtocolIE-ID ::= 203\n",
  text% "id-OldIuSigConIdCS\t\t\t\t\t\tProtocolIE-ID ::= 204\n",
  text% "id-OldIuSigConIdPS\t\t\t\t\t\tProtocolIE-ID ::= 205\n",
  text% "id-GlobalCN-IDCS\t\t\t\t\t\tProtocolIE-ID ::= 206\n",
  text% "id-GlobalCN-IDPS\t\t\t\t\t\tProtocolIE-ID ::= 207\n",
  text% "id-SourceExtendedRNC-ID\t\t\t\t\t\tProtocolIE-ID ::= 208\n",
  text% "id-RAB-ToBeReleasedItem-EnhancedRelocCompleteRes\t\tProtocolIE-ID ::= 209\n",
  text% "id-RAB-ToBeReleasedList-EnhancedRelocCompleteRes\t\tProtocolIE-ID ::= 210\n",
  text% "id-SourceRNC-ID\t\t\t\t\t\t\tProtocolIE-ID ::= 211\n",
  text% "id-Relocation-TargetRNC-ID\t\t\t\t\tProtocolIE-ID ::= 212\n",
  text% "id-Relocation-TargetExtendedRNC-ID\t\t\t\tProtocolIE-ID ::= 213\n",
  text% "id-Alt-RAB-Parameter-SupportedGuaranteedBitrateInf\t\tProtocolIE-ID ::= 214\n",
  text% "id-Alt-RAB-Parameter-SupportedMaxBitrateInf\t\t\tProtocolIE-ID ::= 215\n",
  text% "id-Ass-RAB-Parameter-SupportedGuaranteedBitrateList\t\tProtocolIE-ID ::= 216\n",
  text% "id-Ass-RAB-Parameter-SupportedMaxBitrateList\t\t\tProtocolIE-ID ::= 217\n",
  text% "id-RAB-Parameter-SupportedGuaranteedBitrateList\t\t\tProtocolIE-ID ::= 218\n",
  text% "id-RAB-Parameter-SupportedMaxBitrateList\t\t\tProtocolIE-ID ::= 219\n",
  text% "id-Requested-RAB-Parameter-SupportedMaxBitrateList\t\tProtocolIE-ID ::= 220\n",
  text% "id-Requested-RAB-Parameter-SupportedGuaranteedBitrateList\tProtocolIE-ID ::= 221\n",
  text% "id-Relocation-SourceRNC-ID\t\t\t\t\tProtocolIE-ID ::= 222\n",
  text% "id-Relocation-SourceExtendedRNC-ID\t\t\t\tProtocolIE-ID ::= 223\n",
  text% "id-EncryptionKey\t\t\t\t\t\tProtocolIE-ID ::= 224\n",
  text% "id-IntegrityProtectionKey\t\t\t\t\tProtocolIE-ID ::= 225\n",
  text% "id-SRVCC-HO-Indication\t\t\t\t\t\tProtocolIE-ID ::= 226\n",
  text% "id-SRVCC-Information\t\t\t\t\t\tProtocolIE-ID ::= 227\n",
  text% "id-SRVCC-Operation-Possible\t\t\t\t\tProtocolIE-ID ::= 228\n",
  text% "id-CSG-Id-List\t\t\t\t\t\t\tProtocolIE-ID ::= 229\n",
  text% "id-PSRABtobeReplaced\t\t\t\t\t\tProtocolIE-ID ::= 230\n",
  text% "id-E-UTRAN-Service-Handover\t\t\t\t\tProtocolIE-ID ::= 231\n",
  text% "id-UE-AggregateMaximumBitRate\t\t\t\t\tProtocolIE-ID ::= 233\n",
  text% "id-CSG-Membership-Status \t\t\t\t\tProtocolIE-ID ::= 234\n",
  text% "id-Cell-Access-Mode\t\t\t\t\t\tProtocolIE-ID ::= 235\n",
  text% "id-IP-Source-Address\t\t\t\t\t\tProtocolIE-ID ::= 236\n",
  text% "id-CSFB-Information\t\t\t\t\t\tProtocolIE-ID ::= 237\n",
  text% "id-PDP-TypeInformation-extension\t\t\t\tProtocolIE-ID ::= 238\n",
  text% "id-MSISDN\t\t\t\t\t\t\tProtocolIE-ID ::= 239\n",
  text% "id-Offload-RAB-Parameters\t\t\t\t\tProtocolIE-ID ::= 240\n",
  text% "id-LGW-TransportLayerAddress\t\t\t\t\tProtocolIE-ID ::= 241\n",
  text% "id-Correlation-ID\t\t\t\t\t\tProtocolIE-ID ::= 242\n",
  text% "id-IRAT-Measurement-Configuration\t\t\t\tProtocolIE-ID ::= 243\n",
  text% "id-MDT-Configuration\t\t\t\t\t\tProtocolIE-ID ::= 244\n",
  text% "id-Priority-Class-Indicator\t\t\t\t\tProtocolIE-ID ::= 245\n",
  text% "id-RNSAPRelocationParameters\t\t\t\t\tProtocolIE-ID ::= 247\n",
  text% "id-RABParametersList\t\t\t\t\t\tProtocolIE-ID ::= 248\n",
  text% "id-Management-Based-MDT-Allowed\t\t\t\t\tProtocolIE-ID ::= 249\n",
  text% "id-HigherBitratesThan16MbpsFlag\t\t\t\t\tProtocolIE-ID ::= 250\n",
  text% "id-Trace-Collection-Entity-IP-Addess\t\t\t\tProtocolIE-ID ::= 251\n",
  text% "id-End-Of-CSFB\t\t\t\t\t\t\tProtocolIE-ID ::= 252\n",
  text% "id-Time-UE-StayedInCell-EnhancedGranularity\t\t\tProtocolIE-ID ::= 253\n",
  text% "id-Out-Of-UTRAN\t\t\t\t\t\t\tProtocolIE-ID ::= 254\n",
  text% "id-TraceRecordingSessionReference\t\t\t\tProtocolIE-ID ::= 255\n",
  text% "id-IMSI\t\t\t\t\t\t\t\tProtocolIE-ID ::= 256\n",
  text% "id-HO-Cause\t\t\t\t\t\t\tProtocolIE-ID ::= 257\n",
  text% "id-VoiceSupportMatchIndicator\t\t\t\t\tProtocolIE-ID ::= 258\n",
  text% "id-RSRVCC-HO-Indication\t\t\t\t\t\tProtocolIE-ID ::= 259\n",
  text% "id-RSRVCC-Information\t\t\t\t\t\tProtocolIE-ID ::= 260\n",
  text% "id-AnchorPLMN-ID\t\t\t\t\t\tProtocolIE-ID ::= 261\n",
  text% "id-Tunnel-Information-for-BBF\t\t\t\t\tProtocolIE-ID ::= 262\n",
  text% "id-Management-Based-MDT-PLMN-List\t\t\t\tProtocolIE-ID ::= 263\n",
  text% "id-SignallingBasedMDTPLMNList\t\t\t\t\tProtocolIE-ID ::= 264\n",
  text% "id-M4Report\t\t\t\t\t\t\tProtocolIE-ID ::= 265\n",
  text% "id-M5Report\t\t\t\t\t\t\tProtocolIE-ID ::= 266\n",
  text% "id-M6Report\t\t\t\t\t\t\tProtocolIE-ID ::= 267\n",
  text% "id-M7Report\t\t\t\t\t\t\tProtocolIE-ID ::= 268\n",
  text% "id-TimingDifferenceULDL\t\t\t\t\t\tProtocolIE-ID ::= 269\n",
  text% "id-Serving-Cell-Identifier\t\t\t\t\tProtocolIE-ID ::= 270\n",
  text% "id-EARFCN-Extended\t\t\t\t\t\tProtocolIE-ID ::= 271\n",
  text% "id-RSRVCC-Operation-Possible\t\t\t\t\tProtocolIE-ID ::= 272\n",
  text% "id-SIPTO-LGW-TransportLayerAddress\t\t\t\tProtocolIE-ID ::= 273\n",
  text% "id-SIPTO-Correlation-ID\t\t\t\t\t\tProtocolIE-ID ::= 274\n",
  text% "id-LHN-ID\t\t\t\t\t\t\tProtocolIE-ID ::= 275\n",
  text% "id-Session-Re-establishment-Indicator\t\t\t\tProtocolIE-ID ::= 276\n",
  text% "id-LastE-UTRANPLMNIdentity\t\t\t\t\tProtocolIE-ID ::= 277\n",
  text% "id-RSRQ-Type\t\t\t\t\t\t\tProtocolIE-ID ::= 278\n",
  text% "id-RSRQ-Extension\t\t\t\t\t\tProtocolIE-ID ::= 279\n",
  text% "\n",
  text% "END\n"]

end Verif.Gen.Text
