import Verif.Gen.TextLit
import Verif.Model.AsnToStruct

/-!
# Text of the RANAP procedures

The lines of `/repo/asn1/ranap/RANAP-PDU-Descriptions.asn` as they are.
-/

namespace Verif.Gen.Text
open Verif.AsnToStruct

/-- asn1/ranap/RANAP-PDU-Descriptions.asn -/
noncomputable def ranapDescriptions : List Text := [
  text% "-- **************************************************************\n",
  text% "--\n",
  text% "-- Elementary Procedure definitions\n",
  text% "--\n",
  text% "-- **************************************************************\n",
  text% "\n",
  text% "RANAP-PDU-Descriptions {\n",
  text% "itu-t (0) identified-organization (4) etsi (0) mobileDomain (0)\n",
  text% "umts-Access (20) modules (3) ranap (0) version1 (1) ranap-PDU-Descriptions (0)}\n",
  text% "\n",
  text% "DEFINITIONS AUTOMATIC TAGS ::=\n",
  text% "\n",
  text% "BEGIN\n",
  text% "\n",
  text% "-- **************************************************************\n",
  text% "--\n",
  text% "-- IE parameter types from other modules.\n",
  text% "--\n",
  text% "-- **************************************************************\n",
  text% "\n",
  text% "IMPORTS\n",
  text% "\tCriticality,\n",
  text% "\tProcedureCode\n",
  text% "FROM RANAP-CommonDataTypes\n",
  text% "\n",
  text% "\tIu-ReleaseCommand,\n",
  text% "\tIu-ReleaseComplete,\n",
  text% "\tRelocationCommand,\n",
  text% "\tRelocationPreparationFailure,\n",
  text% "\tRelocationRequired,\n",
  text% "\tRelocationRequest,\n",
  text% "\tRelocationRequestAcknowledge,\n",
  text% "\tRelocationFailure,\n",
  text% "\tRelocationCancel,\n",
  text% "\tRelocationCancelAcknowledge,\n",
  text% "\tEnhancedRelocationCompleteRequest,\n",
  text% "\tEnhancedRelocationCompleteResponse,\n",
  text% "\tEnhancedRelocationCompleteFailure,\n",
  text% "\tEnhancedRelocationCompleteConfirm,\n",
  text% "\tSRNS-ContextRequest,\n",
  text% "\tSRNS-ContextResponse,\n",
  text% "\tSecurityModeCommand,\n",
  text% "\tSecurityModeComplete,\n",
  text% "\tSecurityModeReject,\n",
  text% "\tDataVolumeReportRequest,\n",
  text% "\tDataVolumeReport,\n",
  text% "\tReset,\n",
  text% "\tResetAcknowledge,\n",
  text% "\tRAB-ReleaseRequest,\n",
  text% "\tIu-ReleaseRequest,\n",
  text% "\tRelocationDetect,\n",
  text% "\tRelocationComplete,\n",
  text% "\tPaging,\n",
  text% "\tCommonID,\n",
  text% "\tCN-InvokeTrace,\n",
  text% "\tCN-DeactivateTrace,\n",
  text% "\tLocationReportingControl,\n",
  text% "\tLocationReport,\n",
  text% "\tInitialUE-Message,\n",
  text% "\tDirectTransfer,\n",
  text% "\tOverload,\n",
  text% "\tErrorIndication,\n",
  text% "\tSRNS-DataForwardCommand,\n",
  text% "\tForwardSRNS-Context,\n",
  text% "\tRAB-AssignmentRequest,\n",
  text% "\tRAB-AssignmentResponse,\n",
  text% "\tRAB-ModifyRequest,\n",
  text% "\tPrivateMessage,\n",
  text% "\tResetResource,\n",
  text% "\tResetResourceAcknowledge,\n",
  text% "\tRANAP-RelocationInformation,\n",
  text% "\tRANAP-EnhancedRelocationInformationRequest,\n",
  text% "\tRANAP-EnhancedRelocationInformationResponse,\n",
  text% "\tLocationRelatedDataRequest,\n",
  text% "\tLocationRelatedDataResponse,\n",
  text% "\tLocationRelatedDataFailure,\n",
  text% "\tInformationTransferIndication,\n",
  text% "\tInformationTransferConfirmation,\n",
  text% "\tInformationTransferFailure,\n",
  text% "\tUESpecificInformationIndication,\n",
  text% "\tDirectInformationTransfer,\n",
  text% "\tUplinkInformationExchangeRequest,\n",
  text% "\tUplinkInformationExchangeResponse,\n",
  text% "\tUplinkInformationExchangeFailure,\n",
  text% "\tMBMSSessionStart,\n",
  text% "\tMBMSSessionStartResponse,\n",
  text% "\tMBMSSessionStartFailure,\n",
  text% "\tMBMSSessionUpdate,\n",
  text% "\tMBMSSessionUpdateResponse,\n",
  text% "\tMBMSSessionUpdateFailure,\n",
  text% "\tMBMSSessionStop,\n",
  text% "\tMBMSSessionStopResponse,\n",
  text% "\tMBMSUELinkingRequest,\n",
  text% "\tMBMSUELinkingResponse,\n",
  text% "\tMBMSRegistrationRequest,\n",
  text% "\tMBMSRegistrationResponse,\n",
  text% "\tMBMSRegistrationFailure,\n",
  text% "\tMBMSCNDe-RegistrationRequest,\n",
  text% "\tMBMSCNDe-RegistrationResponse,\n",
  text% "\tMBMSRABEstablishmentIndication,\n",
  text% "\tMBMSRABReleaseRequest,\n",
  text% "\tMBMSRABRelease,\n",
  text% "\tMBMSRABReleaseFailure,\n",
  text% "\tSRVCC-CSKeysRequest,\n",
  text% "\tSRVCC-CSKeysResponse,\n",
  text% "\tUeRadioCapabilityMatchRequest,\n",
  text% "\tUeRadioCapabilityMatchResponse\n",
  text% "FROM RANAP-PDU-Contents\n",
  text% "\n",
  text% "\tid-LocationRelatedData,\n",
  text% "\tid-CN-DeactivateTrace,\n",
  text% "\tid-CN-InvokeTrace,\n",
  text% "\tid-CommonID,\n",
  text% "\tid-DataVolumeReport,\n",
  text% "\tid-DirectTransfer,\n",
  text% "\tid-ErrorIndication,\n",
  text% "\tid-ForwardSRNS-Context,\n",
  text% "\tid-InformationTransfer,\n",
  text% "\tid-InitialUE-Message,\n",
  text% "\tid-Iu-Release,\n",
  text% "\tid-Iu-ReleaseRequest,\n",
  text% "\tid-LocationReport,\n",
  text% "\tid-LocationReportingControl,\n",
  text% "\tid-OverloadControl,\n",
  text% "\tid-Paging,\n",
  text% "\tid-privateMessage,\n",
  text% "\tid-RAB-Assignment,\n",
  text% "\tid-RAB-ReleaseRequest,\n",
  text% "\tid-RAB-ModifyRequest,\n",
  text% "\tid-RANAP-Relocation,\n",
  text% "\tid-RANAPenhancedRelocation,\n",
  text% "\tid-RelocationCancel,\n",
  text% "\tid-RelocationComplete,\n",
  text% "\tid-RelocationDetect,\n",
  text% "\tid-RelocationPreparation,\n",
  text% "\tid-RelocationResourceAllocation,\n",
  text% "\tid-enhancedRelocationComplete,\n",
  text% "\tid-enhancedRelocationCompleteConfirm,\n",
  text% "\tid-Reset,\n",
  text% "\tid-SRNS-ContextTransfer,\n",
  text% "\tid-SRNS-DataForward,\n",
  text% "\tid-SecurityModeControl,\n",
  text% "\tid-ResetResource,\n",
  text% "\tid-UESpecificInformation,\n",
  text% "\tid-DirectInformationTransfer,\n",
  text% "\tid-UplinkInformationExchange,\n",
  text% "\tid-MBMSSessionStart,\n",
  text% "\tid-MBMSSessionUpdate,\n",
  text% "\tid-MBMSSessionStop,\n",
  text% "\tid-MBMSUELinking,\n",
  text% "\tid-MBMSRegistration,\n",
  text% "\tid-MBMSCNDe-Registration-Procedure,\n",
  text% "\tid-MBMSRABEstablishmentIndication,\n",
  text% "\tid-MBMSRABRelease,\n",
  text% "\tid-SRVCCPreparation,\n",
  text% "\tid-UeRadioCapabilityMatch\n",
  text% "\n",
  text% "FROM RANAP-Constants;\n",
  text% "\n",
  text% "-- **************************************************************\n",
  text% "--\n",
  text% "-- Interface Elementary Procedure Class\n",
  text% "--\n",
  text% "-- **************************************************************\n",
  text% "\n",
  text% "RANAP-ELEMENTARY-PROCEDURE ::= CLASS {\n",
  text% "\t&InitiatingMessage\t\t\t\t,\n",
  text% "\t&SuccessfulOutcome\t\t\t\tOPTIONAL,\n",
  text% "\t&UnsuccessfulOutcome\t\t\t\tOPTIONAL,\n",
  text% "\t&Outcome\t\t\t\t\tOPTIONAL,\n",
  text% "\t&procedureCode\t\t\tProcedureCode \tUNIQUE,\n",
  text% "\t&criticality\t\t\tCriticality \tDEFAULT ignore\n",
  text% "}\n",
  text% "WITH SYNTAX {\n",
  text% "\tINITIATING MESSAGE\t\t&InitiatingMessage\n",
  text% "\t[SUCCESSFUL OUTCOME\t\t&SuccessfulOutcome]\n",
  text% "\t[UNSUCCESSFUL OUTCOME\t\t&UnsuccessfulOutcome]\n",
  text% "\t[OUTCOME\t\t\t&Outcome]\n",
  text% "\tPROCEDURE CODE\t\t\t&procedureCode\n",
  text% "\t[CRITICALITY\t\t\t&criticality]\n",
  text% "}\n",
  text% "\n",
  text% "-- **************************************************************\n",
  text% "--\n",
  text% "-- Interface PDU Definition\n",
  text% "--\n",
  text% "-- **************************************************************\n",
  text% "\n",
  text% "RANAP-PDU ::= CHOICE {\n",
  text% "\tinitiatingMessage\tInitiatingMessage,\n",
  text% "\tsuccessfulOutcome\tSuccessfulOutcome,\n",
  text% "\tunsuccessfulOutcome\tUnsuccessfulOutcome,\n",
  text% "\toutcome\t\t\tOutcome,\n",
  text% "\t...\n",
  text% "}\n",
  text% "\n",
  text% "InitiatingMessage ::= SEQUENCE {\n",
  text% "\tprocedureCode\tRANAP-ELEMENTARY-PROCEDURE.&procedureCode\t({RANAP-ELEMENTARY-PROCEDURES}),\n",
  text% "\tcriticality\tRANAP-ELEMENTARY-PROCEDURE.&criticality\t\t({RANAP-ELEMENTARY-PROCEDURES}{@procedureCode}),\n",
  text% "\tvalue\t\tRANAP-ELEMENTARY-PROCEDURE.&InitiatingMessage\t({RANAP-ELEMENTARY-PROCEDURES}{@procedureCode})\n",
  text% "}\n",
  text% "\n",
  text% "SuccessfulOutcome ::= SEQUENCE {\n",
  text% "\tprocedureCode\tRANAP-ELEMENTARY-PROCEDURE.&procedureCode\t({RANAP-ELEMENTARY-PROCEDURES}),\n",
  text% "\tcriticality\tRANAP-ELEMENTARY-PROCEDURE.&criticality\t\t({RANAP-ELEMENTARY-PROCEDURES}{@procedureCode}),\n",
  text% "\tvalue\t\tRANAP-ELEMENTARY-PROCEDURE.&SuccessfulOutcome\t({RANAP-ELEMENTARY-PROCEDURES}{@procedureCode})\n",
  text% "}\n",
  text% "\n",
  text% "UnsuccessfulOutcome ::= SEQUENCE {\n",
  text% "\tprocedureCode\tRANAP-ELEMENTARY-PROCEDURE.&procedureCode\t({RANAP-ELEMENTARY-PROCEDURES}),\n",
  text% "\tcriticality\tRANAP-ELEMENTARY-PROCEDURE.&criticality\t\t({RANAP-ELEMENTARY-PROCEDURES}{@procedureCode}),\n",
  text% "\tvalue\t\tRANAP-ELEMENTARY-PROCEDURE.&UnsuccessfulOutcome\t({RANAP-ELEMENTARY-PROCEDURES}{@procedureCode})\n",
  text% "}\n",
  text% "\n",
  text% "Outcome ::= SEQUENCE {\n",
  text% "\tprocedureCode\tRANAP-ELEMENTARY-PROCEDURE.&procedureCode\t({RANAP-ELEMENTARY-PROCEDURES}),\n",
  text% "\tcriticality\tRANAP-ELEMENTARY-PROCEDURE.&criticality\t\t({RANAP-ELEMENTARY-PROCEDURES}{@procedureCode}),\n",
  text% "\tvalue\t\tRANAP-ELEMENTARY-PROCEDURE.&Outcome\t\t({RANAP-ELEMENTARY-PROCEDURES}{@procedureCode})\n",
  text% "}\n",
  text% "\n",
  text% "-- **************************************************************\n",
  text% "--\n",
  text% "-- Interface Elementary Procedure List\n",
  text% "--\n",
  text% "-- **************************************************************\n",
  text% "\n",
  text% "RANAP-ELEMENTARY-PROCEDURES RANAP-ELEMENTARY-PROCEDURE ::= {\n",
  text% "\tRANAP-ELEMENTARY-PROCEDURES-CLASS-1\t|\n",
  text% "\tRANAP-ELEMENTARY-PROCEDURES-CLASS-2\t|\n",
  text% "\tRANAP-ELEMENTARY-PROCEDURES-CLASS-3\t,\n",
  text% "\t...\n",
  text% "}\n",
  text% "\n",
  text% "\n",
  text% "RANAP-ELEMENTARY-PROCEDURES-CLASS-1 RANAP-ELEMENTARY-PROCEDURE ::= {\n",
  text% "\tiu-Release\t\t\t|\n",
  text% "\trelocationPreparation\t\t|\n",
  text% "\trelocationResourceAllocation\t|\n",
  text% "\trelocationCancel\t\t|\n",
  text% "\tsRNS-ContextTransfer\t\t|\n",
  text% "\tsecurityModeControl\t\t|\n",
  text% "\tdataVolumeReport\t\t|\n",
  text% "\treset\t\t\t\t|\n",
  text% "\tresetResource\t\t\t,\n",
  text% "\t...,\n",
  text% "\tlocationRelatedData\t\t|\n",
  text% "\tinformationTransfer\t\t|\n",
  text% "\tuplinkInformationExchange\t|\n",
  text% "\tmBMSSessionStart\t\t|\n",
  text% "\tmBMSSessionUpdate\t\t|\n",
  text% "\tmBMSSessionStop\t\t\t|\n",
  text% "\tmBMSUELinking\t\t\t|\n",
  text% "\tmBMSRegistration\t\t|\n",
  text% "\tmBMSCNDe-Registration\t\t|\n",
  text% "\tmBMSRABRelease\t\t\t|\n",
  text% "\tenhancedRelocationComplete\t|\n",
  text% "\trANAP-enhancedRelocation\t|\n",
  text% "\tsRVCCPreparation\t\t|\n",
  text% "\tueRadioCapabilityMatch }\n",
  text% "\n",
  text% "RANAP-ELEMENTARY-PROCEDURES-CLASS-2 RANAP-ELEMENTARY-PROCEDURE ::= {\n",
  text% "\trAB-ReleaseRequest\t\t|\n",
  text% "\tiu-ReleaseRequest\t\t|\n",
  text% "\trelocationDetect\t\t|\n",
  text% "\trelocationComplete\t\t|\n",
  text% "\tpaging\t\t\t\t|\n",
  text% "\tcommonID\t\t\t|\n",
  text% "\tcN-InvokeTrace\t\t\t|\n",
  text% "\tcN-DeactivateTrace\t\t|\n",
  text% "\tlocationReportingControl\t|\n",
  text% "\tlocationReport\t\t\t|\n",
  text% "\tinitialUE-Message\t\t|\n",
  text% "\tdirectTransfer\t\t\t|\n",
  text% "\toverloadControl\t\t\t|\n",
  text% "\terrorIndication\t\t\t|\n",
  text% "\tsRNS-DataForward\t\t|\n",
  text% "\tforwardSRNS-Context\t\t|\n",
  text% "\tprivateMessage\t\t\t|\n",
  text% "\trANAP-Relocation\t\t,\n",
  text% "\t...,\n",
  text% "\trAB-ModifyRequest\t\t|\n",
  text% "\tuESpecificInformation\t\t|\n",
  text% "\tdirectInformationTransfer\t|\n",
  text% "\tmBMSRABEstablishmentIndication\t|\n",
  text% "\tenhancedRelocationCompleteConfirm\n",
  text% "}\n",
  text% "\n",
  text% "RANAP-ELEMENTARY-PROCEDURES-CLASS-3 RANAP-ELEMENTARY-PROCEDURE ::= {\n",
  text% "\trAB-Assignment\t\t\t,\n",
  text% "\t...\n",
  text% "}\n",
  text% "\n",
  text% "-- **************************************************************\n",
  text% "--\n",
  text% "-- Interface Elementary Procedures\n",
  text% "--\n",
  text% "-- **************************************************************\n",
  text% "\n",
  text% "iu-Release RANAP-ELEMENTARY-PROCEDURE ::= {\n",
  text% "\tINITIATING MESSAGE\tIu-ReleaseCommand\n",
  text% "\tSUCCESSFUL OUTCOME\tIu-ReleaseComplete\n",
  text% "\tPROCEDURE CODE\t\tid-Iu-Release\n",
  text% "\tCRITICALITY\t\treject\n",
  text% "}\n",
  text% "\n",
  text% "relocationPreparation RANAP-ELEMENTARY-PROCEDURE ::= {\n",
  text% "\tINITIATING MESSAGE\tRelocationRequired\n",
  text% "\tSUCCESSFUL OUTCOME\tRelocationCommand\n",
  text% "\tUNSUCCESSFUL OUTCOME\tRelocationPreparationFailure\n",
  text% "\tPROCEDURE CODE\t\tid-RelocationPreparation\n",
  text% "\tCRITICALITY\t\treject\n",
  text% "}\n",
  text% "\n",
  text% "relocationResourceAllocation RANAP-ELEMENTARY-PROCEDURE ::= {\n",
  text% "\tINITIATING MESSAGE\tRelocationRequest\n",
  text% "\tSUCCESSFUL OUTCOME\tRelocationRequestAcknowledge\n",
  text% "\tUNSUCCESSFUL OUTCOME\tRelocationFailure\n",
  text% "\tPROCEDURE CODE\t\tid-RelocationResourceAllocation\n",
  text% "\tCRITICALITY\t\treject\n",
  text% "}\n",
  text% "\n",
  text% "relocationCancel RANAP-ELEMENTARY-PROCEDURE ::= {\n",
  text% "\tINITIATING MESSAGE\tRelocationCancel\n",
  text% "\tSUCCESSFUL OUTCOME\tRelocationCancelAcknowledge\n",
  text% "\tPROCEDURE CODE\t\tid-RelocationCancel\n",
  text% "\tCRITICALITY\t\treject\n",
  text% "}\n",
  text% "\n",
  text% "sRNS-ContextTransfer RANAP-ELEMENTARY-PROCEDURE ::= {\n",
  text% "\tINITIATING MESSAGE\tSRNS-ContextRequest\n",
  text% "\tSUCCESSFUL OUTCOME\tSRNS-ContextResponse\n",
  text% "\tPROCEDURE CODE\t\tid-SRNS-ContextTransfer\n",
  text% "\tCRITICALITY\t\treject\n",
  text% "}\n",
  text% "\n",
  text% "securityModeControl RANAP-ELEMENTARY-PROCEDURE ::= {\n",
  text% "\tINITIATING MESSAGE\tSecurityModeCommand\n",
  text% "\tSUCCESSFUL OUTCOME\tSecurityModeComplete\n",
  text% "\tUNSUCCESSFUL OUTCOME\tSecurityModeReject\n",
  text% "\tPROCEDURE CODE\t\tid-SecurityModeControl\n",
  text% "\tCRITICALITY\t\treject\n",
  text% "}\n",
  text% "\n",
  text% "dataVolumeReport RANAP-ELEMENTARY-PROCEDURE ::= {\n",
  text% "\tINITIATING MESSAGE\tDataVolumeReportRequest\n",
  text% "\tSUCCESSFUL OUTCOME\tDataVolumeReport\n",
  text% "\tPROCEDURE CODE\t\tid-DataVolumeReport\n",
  text% "\tCRITICALITY\t\treject\n",
  text% "}\n",
  text% "\n",
  text% "\n",
  text% "reset RANAP-ELEMENTARY-PROCEDURE ::= {\n",
  text% "\tINITIATING MESSAGE\tReset\n",
  text% "\tSUCCESSFUL OUTCOME\tResetAcknowledge\n",
  text% "\tPROCEDURE CODE\t\tid-Reset\n",
  text% "\tCRITICALITY\t\treject\n",
  text% "}\n",
  text% "\n",
  text% "rAB-ReleaseRequest RANAP-ELEMENTARY-PROCEDURE ::= {\n",
  text% "\tINITIATING MESSAGE\tRAB-ReleaseRequest\n",
  text% "\tPROCEDURE CODE\t\tid-RAB-ReleaseRequest\n",
  text% "\tCRITICALITY\t\tignore\n",
  text% "}\n",
  text% "\n",
  text% "iu-ReleaseRequest RANAP-ELEMENTARY-PROCEDURE ::= {\n",
  text% "\tINITIATING MESSAGE\tIu-ReleaseRequest\n",
  text% "\tPROCEDURE CODE\t\tid-Iu-ReleaseRequest\n",
  text% "\tCRITICALITY\t\tignore\n",
  text% "}\n",
  text% "\n",
  text% "relocationDetect RANAP-ELEMENTARY-PROCEDURE ::= {\n",
  text% "\tINITIATING MESSAGE\tRelocationDetect\n",
  text% "\tPROCEDURE CODE\t\tid-RelocationDetect\n",
  text% "\tCRITICALITY\t\tignore\n",
  text% "}\n",
  text% "\n",
  text% "relocationComplete RANAP-ELEMENTARY-PROCEDURE ::= {\n",
  text% "\tINITIATING MESSAGE\tRelocationComplete\n",
  text% "\tPROCEDURE CODE\t\tid-RelocationComplete\n",
  text% "\tCRITICALITY\t\tignore\n",
  text% "}\n",
  text% "\n",
  text% "paging RANAP-ELEMENTARY-PROCEDURE ::= {\n",
  text% "\tINITIATING MESSAGE\tPaging\n",
  text% "\tPROCEDURE CODE\t\tid-Paging\n",
  text% "\tCRITICALITY\t\tignore\n",
  text% "}\n",
  text% "\n",
  text% "commonID RANAP-ELEMENTARY-PROCEDURE ::= {\n",
  text% "\tINITIATING MESSAGE\tCommonID\n",
  text% "\tPROCEDURE CODE\t\tid-CommonID\n",
  text% "\tCRITICALITY\t\tignore\n",
  text% "}\n",
  text% "\n",
  text% "cN-InvokeTrace RANAP-ELEMENTARY-PROCEDURE ::= {\n",
  text% "\tINITIATING MESSAGE\tCN-InvokeTrace\n",
  text% "\tPROCEDURE CODE\t\tid-CN-InvokeTrace\n",
  text% "\tCRITICALITY\t\tignore\n",
  text% "}\n",
  text% "\n",
  text% "cN-DeactivateTrace RANAP-ELEMENTARY-PROCEDURE ::= {\n",
  text% "\tINITIATING MESSAGE\tCN-DeactivateTrace\n",
  text% "\tPROCEDURE CODE\t\tid-CN-DeactivateTrace\n",
  text% "\tCRITICALITY\t\tignore\n",
  text% "}\n",
  text% "\n",
  text% "locationReportingControl RANAP-ELEMENTARY-PROCEDURE ::= {\n",
  text% "\tINITIATING MESSAGE\tLocationReportingControl\n",
  text% "\tPROCEDURE CODE\t\tid-LocationReportingControl\n",
  text% "\tCRITICALITY\t\tignore\n",
  text% "}\n",
  text% "\n",
  text% "locationReport RANAP-ELEMENTARY-PROCEDURE ::= {\n",
  text% "\tINITIATING MESSAGE\tLocationReport\n",
  text% "\tPROCEDURE CODE\t\tid-LocationReport\n",
  text% "\tCRITICALITY\t\tignore\n",
  text% "}\n",
  text% "\n",
  text% "initialUE-Message RANAP-ELEMENTARY-PROCEDURE ::= {\n",
  text% "\tINITIATING MESSAGE\tInitialUE-Message\n",
  text% "\tPROCEDURE CODE\t\tid-InitialUE-Message\n",
  text% "\tCRITICALITY\t\tignore\n",
  text% "}\n",
  text% "\n",
  text% "directTransfer RANAP-ELEMENTARY-PROCEDURE ::= {\n",
  text% "\tINITIATING MESSAGE\tDirectTransfer\n",
  text% "\tPROCEDURE CODE\t\tid-DirectTransfer\n",
  text% "\tCRITICALITY\t\tignore\n",
  text% "}\n",
  text% "\n",
  text% "overloadControl RANAP-ELEMENTARY-PROCEDURE ::= {\n",
  text% "\tINITIATING MESSAGE\tOverload\n",
  text% "\tPROCEDURE CODE\t\tid-OverloadControl\n",
  text% "\tCRITICALITY\t\tignore\n",
  text% "}\n",
  text% "\n",
  text% "errorIndication RANAP-ELEMENTARY-PROCEDURE ::= {\n",
  text% "\tINITIATING MESSAGE\tErrorIndication\n",
  text% "\tPROCEDURE CODE\t\tid-ErrorIndication\n",
  text% "\tCRITICALITY\t\tignore\n",
  text% "}\n",
  text% "\n",
  text% "sRNS-DataForward RANAP-ELEMENTARY-PROCEDURE ::= {\n",
  text% "\tINITIATING MESSAGE\tSRNS-DataForwardCommand\n",
  text% "\tPROCEDURE CODE\t\tid-SRNS-DataForward\n",
  text% "\tCRITICALITY\t\tignore\n",
  text% "}\n",
  text% "\n",
  text% "forwardSRNS-Context RANAP-ELEMENTARY-PROCEDURE ::= {\n",
  text% "\tINITIATING MESSAGE\tForwardSRNS-Context\n",
  text% "\tPROCEDURE CODE\t\tid-ForwardSRNS-Context\n",
  text% "\tCRITICALITY\t\tignore\n",
  text% "}\n",
  text% "\n",
  text% "rAB-Assignment RANAP-ELEMENTARY-PROCEDURE ::= {\n",
  text% "\tINITIATING MESSAGE\tRAB-AssignmentRequest\n",
  text% "\tOUTCOME\t\t\tRAB-AssignmentResponse\n",
  text% "\tPROCEDURE CODE\t\tid-RAB-Assignment\n",
  text% "\tCRITICALITY\t\treject\n",
  text% "}\n",
  text% "\n",
  text% "privateMessage RANAP-ELEMENTARY-PROCEDURE ::= {\n",
  text% "\tINITIATING MESSAGE\tPrivateMessage\n",
  text% "\n",
  text% "\tPROCEDURE CODE\t\tid-privateMessage\n",
  text% "\tCRITICALITY\t\tignore\n",
  text% "}\n",
  text% "\n",
  text% "resetResource RANAP-ELEMENTARY-PROCEDURE ::= {\n",
  text% "\tINITIATING MESSAGE\tResetResource\n",
  text% "\tSUCCESSFUL OUTCOME\tResetResourceAcknowledge\n",
  text% "\tPROCEDURE CODE\t\tid-ResetResource\n",
  text% "\tCRITICALITY\t\treject\n",
  text% "}\n",
  text% "\n",
  text% "rANAP-Relocation RANAP-ELEMENTARY-PROCEDURE ::= {\n",
  text% "\tINITIATING MESSAGE\tRANAP-RelocationInformation\n",
  text% "\tPROCEDURE CODE\t\tid-RANAP-Relocation\n",
  text% "\tCRITICALITY\t\tignore\n",
  text% "}\n",
  text% "\n",
  text% "rAB-ModifyRequest RANAP-ELEMENTARY-PROCEDURE ::= {\n",
  text% "\tINITIATING MESSAGE\tRAB-ModifyRequest\n",
  text% "\tPROCEDURE CODE\t\tid-RAB-ModifyRequest\n",
  text% "\tCRITICALITY\t\tignore\n",
  text% "}\n",
  text% "\n",
  text% "locationRelatedData RANAP-ELEMENTARY-PROCEDURE ::= {\n",
  text% "\tINITIATING MESSAGE\tLocationRelatedDataRequest\n",
  text% "\tSUCCESSFUL OUTCOME\tLocationRelatedDataResponse\n",
  text% "\tUNSUCCESSFUL OUTCOME\tLocationRelatedDataFailure\n",
  text% "\tPROCEDURE CODE\t\tid-LocationRelatedData\n",
  text% "\tCRITICALITY\t\treject\n",
  text% "}\n",
  text% "\n",
  text% "informationTransfer RANAP-ELEMENTARY-PROCEDURE ::= {\n",
  text% "\tINITIATING MESSAGE\tInformationTransferIndication\n",
  text% "\tSUCCESSFUL OUTCOME\tInformationTransferConfirmation\n",
  text% "\tUNSUCCESSFUL OUTCOME\tInformationTransferFailure\n",
  text% "\tPROCEDURE CODE\t\tid-InformationTransfer\n",
  text% "\tCRITICALITY\t\treject\n",
  text% "}\n",
  text% "\n",
  text% "uESpecificInformation RANAP-ELEMENTARY-PROCEDURE ::= {\n",
  text% "\tINITIATING MESSAGE\tUESpecificInformationIndication\n",
  text% "\tPROCEDURE CODE\t\tid-UESpecificInformation\n",
  text% "\tCRITICALITY\t\tignore\n",
  text% "}\n",
  text% "\n",
  text% "directInformationTransfer RANAP-ELEMENTARY-PROCEDURE ::= {\n",
  text% "\tINITIATING MESSAGE\tDirectInformationTransfer\n",
  text% "\tPROCEDURE CODE\t\tid-DirectInformationTransfer\n",
  text% "\tCRITICALITY\t\tignore\n",
  text% "}\n",
  text% "\n",
  text% "uplinkInformationExchange RANAP-ELEMENTARY-PROCEDURE ::= {\n",
  text% "\tINITIATING MESSAGE\tUplinkInformationExchangeRequest\n",
  text% "\tSUCCESSFUL OUTCOME\tUplinkInformationExchangeResponse\n",
  text% "\tUNSUCCESSFUL OUTCOME\tUplinkInformationExchangeFailure\n",
  text% "\tPROCEDURE CODE\t\tid-UplinkInformationExchange\n",
  text% "\tCRITICALITY\t\treject\n",
  text% "}\n",
  text% "\n",
  text% "mBMSSessionStart RANAP-ELEMENTARY-PROCEDURE ::= {\n",
  text% "\tINITIATING MESSAGE\tMBMSSessionStart\n",
  text% "\tSUCCESSFUL OUTCOME\tMBMSSessionStartResponse\n",
  text% "\tUNSUCCESSFUL OUTCOME\tMBMSSessionStartFailure\n",
  text% "\tPROCEDURE CODE\t\tid-MBMSSessionStart\n",
  text% "\tCRITICALITY\t\treject\n",
  text% "}\n",
  text% "\n",
  text% "mBMSSessionUpdate RANAP-ELEMENTARY-PROCEDURE ::= {\n",
  text% "\tINITIATING MESSAGE\tMBMSSessionUpdate\n",
  text% "\tSUCCESSFUL OUTCOME\tMBMSSessionUpdateResponse\n",
  text% "\tUNSUCCESSFUL OUTCOME\tMBMSSessionUpdateFailure\n",
  text% "\tPROCEDURE CODE\t\tid-MBMSSessionUpdate\n",
  text% "\tCRITICALITY\t\treject\n",
  text% "}\n",
  text% "\n",
  text% "mBMSSessionStop RANAP-ELEMENTARY-PROCEDURE ::= {\n",
  text% "\tINITIATING MESSAGE\tMBMSSessionStop\n",
  text% "\tSUCCESSFUL OUTCOME\tMBMSSessionStopResponse\n",
  text% "\tPROCEDURE CODE\t\tid-MBMSSessionStop\n",
  text% "\tCRITICALITY\t\treject\n",
  text% "}\n",
  text% "\n",
  text% "mBMSUELinking RANAP-ELEMENTARY-PROCEDURE ::= {\n",
  text% "\tINITIATING MESSAGE\tMBMSUELinkingRequest\n",
  text% "\tOUTCOME\t\t\tMBMSUELinkingResponse\n",
  text% "\tPROCEDURE CODE\t\tid-MBMSUELinking\n",
  text% "\tCRITICALITY\t\treject\n",
  text% "}\n",
  text% "\n",
  text% "mBMSRegistration RANAP-ELEMENTARY-PROCEDURE ::= {\n",
  text% "\tINITIATING MESSAGE\tMBMSRegistrationRequest\n",
  text% "\tSUCCESSFUL OUTCOME\tMBMSRegistrationResponse\n",
  text% "\tUNSUCCESSFUL OUTCOME\tMBMSRegistrationFailure\n",
  text% "\tPROCEDURE CODE\t\tid-MBMSRegistration\n",
  text% "\tCRITICALITY\t\treject\n",
  text% "}\n",
  text% "\n",
  text% "mBMSCNDe-Registration RANAP-ELEMENTARY-PROCEDURE ::= {\n",
  text% "\tINITIATING MESSAGE\tMBMSCNDe-RegistrationRequest\n",
  text% "\tSUCCESSFUL OUTCOME\tMBMSCNDe-RegistrationResponse\n",
  text% "\tPROCEDURE CODE\t\tid-MBMSCNDe-Registration-Procedure\n",
  text% "\tCRITICALITY\t\treject\n",
  text% "}\n",
  text% "\n",
  text% "mBMSRABEstablishmentIndication RANAP-ELEMENTARY-PROCEDURE ::= {\n",
  text% "\tINITIATING MESSAGE\tMBMSRABEstablishmentIndication\n",
  text% "\tPROCEDURE CODE\t\tid-MBMSRABEstablishmentIndication\n",
  text% "\tCRITICALITY\t\tignore\n",
  text% "}\n",
  text% "\n",
  text% "mBMSRABRelease RANAP-ELEMENTARY-PROCEDURE ::= {\n",
  text% "\tINITIATING MESSAGE\tMBMSRABReleaseRequest\n",
  text% "\tSUCCESSFUL OUTCOME\tMBMSRABRelease\n",
  text% "\tUNSUCCESSFUL OUTCOME\tMBMSRABReleaseFailure\n",
  text% "\tPROCEDURE CODE\t\tid-MBMSRABRelease\n",
  text% "\tCRITICALITY\t\treject\n",
  text% "}\n",
  text% "enhancedRelocationComplete RANAP-ELEMENTARY-PROCEDURE ::= {\n",
  text% "\tINITIATING MESSAGE\tEnhancedRelocationCompleteRequest\n",
  text% "\tSUCCESSFUL OUTCOME\tEnhancedRelocationCompleteResponse\n",
  text% "\tUNSUCCESSFUL OUTCOME\tEnhancedRelocationCompleteFailure\n",
  text% "\tPROCEDURE CODE\t\tid-enhancedRelocationComplete\n",
  text% "\tCRITICALITY\t\treject\n",
  text% "}\n",
  text% "\n",
  text% "enhancedRelocationCompleteConfirm RANAP-ELEMENTARY-PROCEDURE ::= {\n",
  text% "\tINITIATING MESSAGE\tEnhancedRelocationCompleteConfirm\n",
  text% "\tPROCEDURE CODE\t\tid-enhancedRelocationCompleteConfirm\n",
  text% "\tCRITICALITY\t\tignore\n",
  text% "}\n",
  text% "\n",
  text% "rANAP-enhancedRelocation RANAP-ELEMENTARY-PROCEDURE ::= {\n",
  text% "\tINITIATING MESSAGE\tRANAP-EnhancedRelocationInformationRequest\n",
  text% "\tSUCCESSFUL OUTCOME\tRANAP-EnhancedRelocationInformationResponse\n",
  text% "\tPROCEDURE CODE\t\tid-RANAPenhancedRelocation\n",
  text% "\tCRITICALITY\t\treject\n",
  text% "}\n",
  text% "\n",
  text% "sRVCCPreparation RANAP-ELEMENTARY-PROCEDURE ::= {\n",
  text% "\tINITIATING MESSAGE\tSRVCC-CSKeysRequest\n",
  text% "\tOUTCOME\t\t\tSRVCC-CSKeysResponse\n",
  text% "\tPROCEDURE CODE\t\tid-SRVCCPreparation\n",
  text% "\tCRITICALITY\t\treject\n",
  text% "}\n",
  text% "\n",
  text% "ueRadioCapabilityMatch RANAP-ELEMENTARY-PROCEDURE ::= {\n",
  text% "\tINITIATING MESSAGE\tUeRadioCapabilityMatchRequest\n",
  text% "\tOUTCOME\t\t\tUeRadioCapabilityMatchResponse\n",
  text% "\tPROCEDURE CODE\t\tid-UeRadioCapabilityMatch\n",
  text% "\tCRITICALITY\t\tignore\n",
  text% "}\n",
  text% "\n",
  text% "END\n"]

end Verif.Gen.Text
