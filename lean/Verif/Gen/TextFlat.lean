import Verif.Gen.TextLit
import Verif.Model.AsnToStruct

/-!
# Text of the simplified modules

The lines of `/repo/asn1/*/*-PDU.asn`, from which (with `-CommonDataTypes.asn`, `-Constants.asn` and `-IEs.asn`) the C code was
generated.
-/

namespace Verif.Gen.Text
open Verif.AsnToStruct

/-- asn1/rua/RUA-PDU.asn -/
noncomputable def ruaFlat : List Text := [
  text% "RUA-PDU {\n",
  text% "itu-t (0) identified-organization (4) etsi (0) mobileDomain (0) \n",
  text% "umts-Access (20) modules (3) rua(5) version1 (1) rUA-PDU (255) }\n",
  text% "\n",
  text% "DEFINITIONS AUTOMATIC TAGS ::=\n",
  text% "\n",
  text% "BEGIN\n",
  text% "\n",
  text% "IMPORTS\n",
  text% "    maxProtocolIEs,\n",
  text% "    Criticality,\n",
  text% "    ProcedureCode,\n",
  text% "    ProtocolIE-ID\n",
  text% "\n",
  text% "FROM RUA-CommonDataTypes;\n",
  text% "\n",
  text% "RUA-PDU ::= CHOICE {\n",
  text% "    initiatingMessage       InitiatingMessage,\n",
  text% "    successfulOutcome       SuccessfulOutcome,\n",
  text% "    unsuccessfulOutcome     UnsuccessfulOutcome,\n",
  text% "    ...\n",
  text% "}\n",
  text% "\n",
  text% "InitiatingMessage ::= SEQUENCE {\n",
  text% "    procedureCode   ProcedureCode,\n",
  text% "    criticality     Criticality,\n",
  text% "    value           ANY\n",
  text% "}\n",
  text% "\n",
  text% "SuccessfulOutcome ::= SEQUENCE {\n",
  text% "    procedureCode   ProcedureCode,\n",
  text% "    criticality     Criticality,\n",
  text% "    value           ANY\n",
  text% "}\n",
  text% "\n",
  text% "UnsuccessfulOutcome ::= SEQUENCE {\n",
  text% "    procedureCode   ProcedureCode,\n",
  text% "    criticality     Criticality,\n",
  text% "    value           ANY\n",
  text% "}\n",
  text% "\n",
  text% "\n",
  text% "Connect ::= SEQUENCE {\n",
  text% "    connect-ies SEQUENCE (SIZE (0..maxProtocolIEs)) OF IE,\n",
  text% "    ...\n",
  text% "}\n",
  text% "\n",
  text% "DirectTransfer ::= SEQUENCE {\n",
  text% "    directTransfer-ies SEQUENCE (SIZE (0..maxProtocolIEs)) OF IE,\n",
  text% "    ...\n",
  text% "}\n",
  text% "\n",
  text% "Disconnect ::= SEQUENCE {\n",
  text% "    disconnect-ies SEQUENCE (SIZE (0..maxProtocolIEs)) OF IE,\n",
  text% "    ...\n",
  text% "}\n",
  text% "\n",
  text% "ConnectionlessTransfer ::= SEQUENCE {\n",
  text% "    connectionlessTransfer-ies SEQUENCE (SIZE (0..maxProtocolIEs)) OF IE,\n",
  text% "    ...\n",
  text% "}\n",
  text% "\n",
  text% "ErrorIndication ::= SEQUENCE {\n",
  text% "    errorIndication-ies SEQUENCE (SIZE (0..maxProtocolIEs)) OF IE,\n",
  text% "    ...\n",
  text% "}\n",
  text% "\n",
  text% "PrivateMessage ::= SEQUENCE {\n",
  text% "    privateMessage-ies SEQUENCE (SIZE (0..maxProtocolIEs)) OF IE,\n",
  text% "    ...\n",
  text% "}\n",
  text% "\n",
  text% "\n",
  text% "IE ::= SEQUENCE {\n",
  text% "    id ProtocolIE-ID,\n",
  text% "    criticality Criticality,\n",
  text% "    value ANY\n",
  text% "}\n",
  text% "\n",
  text% "END\n"]

/-- asn1/hnbap/HNBAP-PDU.asn -/
noncomputable def hnbapFlat : List Text := [
  text% "HNBAP-PDU {\n",
  text% "itu-t (0) identified-organization (4) etsi (0) mobileDomain (0) \n",
  text% "umts-Access (20) modules (3) hnbap(6) version1 (1) hnbap-PDU (255) }\n",
  text% "\n",
  text% "DEFINITIONS AUTOMATIC TAGS ::=\n",
  text% "\n",
  text% "BEGIN\n",
  text% "\n",
  text% "IMPORTS\n",
  text% "    maxProtocolIEs,\n",
  text% "    Criticality,\n",
  text% "    ProcedureCode,\n",
  text% "    ProtocolIE-ID\n",
  text% "\n",
  text% "FROM HNBAP-CommonDataTypes;\n",
  text% "\n",
  text% "\n",
  text% "HNBAP-PDU ::= CHOICE {\n",
  text% "    initiatingMessage       InitiatingMessage,\n",
  text% "    successfulOutcome       SuccessfulOutcome,\n",
  text% "    unsuccessfulOutcome     UnsuccessfulOutcome,\n",
  text% "    ...\n",
  text% "}\n",
  text% "\n",
  text% "InitiatingMessage ::= SEQUENCE {\n",
  text% "    procedureCode   ProcedureCode,\n",
  text% "    criticality     Criticality,\n",
  text% "    value           ANY\n",
  text% "}\n",
  text% "\n",
  text% "SuccessfulOutcome ::= SEQUENCE {\n",
  text% "    procedureCode   ProcedureCode,\n",
  text% "    criticality     Criticality,\n",
  text% "    value           ANY\n",
  text% "}\n",
  text% "\n",
  text% "UnsuccessfulOutcome ::= SEQUENCE {\n",
  text% "    procedureCode   ProcedureCode,\n",
  text% "    criticality     Criticality,\n",
  text% "    value           ANY\n",
  text% "}\n",
  text% "\n",
  text% "\n",
  text% "HNBRegisterRequest ::= SEQUENCE {\n",
  text% "    hnbRegisterRequest-ies SEQUENCE (SIZE (0..maxProtocolIEs)) OF IE,\n",
  text% "    ...\n",
  text% "}\n",
  text% "\n",
  text% "HNBRegisterAccept ::= SEQUENCE {\n",
  text% "    hnbRegisterAccept-ies SEQUENCE (SIZE (0..maxProtocolIEs)) OF IE,\n",
  text% "    ...\n",
  text% "}\n",
  text% "\n",
  text% "HNBRegisterReject ::= SEQUENCE {\n",
  text% "    hnbRegisterReject-ies SEQUENCE (SIZE (0..maxProtocolIEs)) OF IE,\n",
  text% "    ...\n",
  text% "}\n",
  text% "\n",
  text% "UERegisterRequest ::= SEQUENCE {\n",
  text% "    ueRegisterRequest-ies SEQUENCE (SIZE (0..maxProtocolIEs)) OF IE,\n",
  text% "    ...\n",
  text% "}\n",
  text% "\n",
  text% "UERegisterAccept ::= SEQUENCE {\n",
  text% "    ueRegisterAccept-ies SEQUENCE (SIZE (0..maxProtocolIEs)) OF IE,\n",
  text% "    ...\n",
  text% "}\n",
  text% "\n",
  text% "UERegisterReject ::= SEQUENCE {\n",
  text% "    ueRegisterReject-ies SEQUENCE (SIZE (0..maxProtocolIEs)) OF IE,\n",
  text% "    ...\n",
  text% "}\n",
  text% "\n",
  text% "UEDe-Register ::= SEQUENCE {\n",
  text% "    ueDe-Register-ies SEQUENCE (SIZE (0..maxProtocolIEs)) OF IE,\n",
  text% "    ...\n",
  text% "}\n",
  text% "\n",
  text% "HNBDe-Register ::= SEQUENCE {\n",
  text% "    hnbDe-Register-ies SEQUENCE (SIZE (0..maxProtocolIEs)) OF IE,\n",
  text% "    ...\n",
  text% "}\n",
  text% "\n",
  text% "ErrorIndication ::= SEQUENCE {\n",
  text% "    errorIndication-ies SEQUENCE (SIZE (0..maxProtocolIEs)) OF IE,\n",
  text% "    ...\n",
  text% "}\n",
  text% "\n",
  text% "CSGMembershipUpdate ::= SEQUENCE {\n",
  text% "    csgMembershipUpdate-ies SEQUENCE (SIZE (0..maxProtocolIEs)) OF IE,\n",
  text% "    ...\n",
  text% "}\n",
  text% "\n",
  text% "TNLUpdateRequest ::= SEQUENCE {\n",
  text% "    tnlUpdateRequest-ies SEQUENCE (SIZE (0..maxProtocolIEs)) OF IE,\n",
  text% "    ...\n",
  text% "}\n",
  text% "\n",
  text% "TNLUpdateResponse ::= SEQUENCE {\n",
  text% "    tnlUpdateResponse-ies SEQUENCE (SIZE (0..maxProtocolIEs)) OF IE,\n",
  text% "    ...\n",
  text% "}\n",
  text% "\n",
  text% "TNLUpdateFailure ::= SEQUENCE {\n",
  text% "    tnlUpdateFailure-ies SEQUENCE (SIZE (0..maxProtocolIEs)) OF IE,\n",
  text% "    ...\n",
  text% "}\n",
  text% "\n",
  text% "HNBConfigTransferRequest ::= SEQUENCE {\n",
  text% "    hnbConfigTransferRequest-ies SEQUENCE (SIZE (0..maxProtocolIEs)) OF IE,\n",
  text% "    ...\n",
  text% "}\n",
  text% "\n",
  text% "HNBConfigTransferResponse ::= SEQUENCE {\n",
  text% "    hnbConfigTransferResponse-ies SEQUENCE (SIZE (0..maxProtocolIEs)) OF IE,\n",
  text% "    ...\n",
  text% "}\n",
  text% "\n",
  text% "RelocationComplete ::= SEQUENCE {\n",
  text% "    relocationComplete-ies SEQUENCE (SIZE (0..maxProtocolIEs)) OF IE,\n",
  text% "    ...\n",
  text% "}\n",
  text% "\n",
  text% "U-RNTIQueryRequest ::= SEQUENCE {\n",
  text% "    u-RNTIQueryRequest-ies SEQUENCE (SIZE (0..maxProtocolIEs)) OF IE,\n",
  text% "    ...\n",
  text% "}\n",
  text% "\n",
  text% "U-RNTIQueryResponse ::= SEQUENCE {\n",
  text% "    u-RNTIQueryResponse-ies SEQUENCE (SIZE (0..maxProtocolIEs)) OF IE,\n",
  text% "    ...\n",
  text% "}\n",
  text% "\n",
  text% "PrivateMessage ::= SEQUENCE {\n",
  text% "    privateMessage-ies SEQUENCE (SIZE (0..maxProtocolIEs)) OF IE,\n",
  text% "    ...\n",
  text% "}\n",
  text% "\n",
  text% "\n",
  text% "IE ::= SEQUENCE {\n",
  text% "    id ProtocolIE-ID,\n",
  text% "    criticality Criticality,\n",
  text% "    value ANY\n",
  text% "}\n",
  text% "\n",
  text% "END\n"]

/-- asn1/sabp/SABP-PDU.asn -/
noncomputable def sabpFlat : List Text := [
  text% "SABP-PDU {\n",
  text% "itu-t (0) identified-organization (4) etsi (0) mobileDomain (0) \n",
  text% "umts-Access (20) modules (3) sabp(3) version1 (1) sabp-PDU (255) }\n",
  text% "\n",
  text% "DEFINITIONS AUTOMATIC TAGS ::=\n",
  text% "\n",
  text% "BEGIN\n",
  text% "\n",
  text% "IMPORTS\n",
  text% "    maxProtocolIEs\n",
  text% "FROM SABP-Constants\n",
  text% "\n",
  text% "    Criticality,\n",
  text% "    ProcedureCode,\n",
  text% "    ProtocolIE-ID\n",
  text% "FROM SABP-CommonDataTypes;\n",
  text% "\n",
  text% "SABP-PDU ::= CHOICE {\n",
  text% "    initiatingMessage\t\tInitiatingMessage,\n",
  text% "    successfulOutcome\t\tSuccessfulOutcome,\n",
  text% "    unsuccessfulOutcome\t\tUnsuccessfulOutcome,\n",
  text% "    ...\n",
  text% "}\n",
  text% "\n",
  text% "InitiatingMessage ::= SEQUENCE {\n",
  text% "    procedureCode\tProcedureCode,\n",
  text% "    criticality\t\tCriticality,\n",
  text% "    value\t\tANY\n",
  text% "}\n",
  text% "\n",
  text% "SuccessfulOutcome ::= SEQUENCE {\n",
  text% "    procedureCode\tProcedureCode,\n",
  text% "    criticality\t\tCriticality,\n",
  text% "    value\t\tANY\n",
  text% "}\n",
  text% "\n",
  text% "UnsuccessfulOutcome ::= SEQUENCE {\n",
  text% "    procedureCode\tProcedureCode,\n",
  text% "    criticality\t\tCriticality,\n",
  text% "    value\t\tANY\n",
  text% "}\n",
  text% "\n",
  text% "\n",
  text% "Write-Replace ::= SEQUENCE {\n",
  text% "    write-Replace-ies SEQUENCE (SIZE (0..maxProtocolIEs)) OF IE,\n",
  text% "    ...\n",
  text% "}\n",
  text% "\n",
  text% "Write-Replace-Complete ::= SEQUENCE {\n",
  text% "    write-Replace-Complete-ies SEQUENCE (SIZE (0..maxProtocolIEs)) OF IE,\n",
  text% "    ...\n",
  text% "}\n",
  text% "\n",
  text% "Write-Replace-Failure ::= SEQUENCE {\n",
  text% "    write-Replace-Failure-ies SEQUENCE (SIZE (0..maxProtocolIEs)) OF IE,\n",
  text% "    ...\n",
  text% "}\n",
  text% "\n",
  text% "Kill ::= SEQUENCE {\n",
  text% "    kill-ies SEQUENCE (SIZE (0..maxProtocolIEs)) OF IE,\n",
  text% "    ...\n",
  text% "}\n",
  text% "\n",
  text% "Kill-Complete ::= SEQUENCE {\n",
  text% "    kill-Complete-ies SEQUENCE (SIZE (0..maxProtocolIEs)) OF IE,\n",
  text% "    ...\n",
  text% "}\n",
  text% "\n",
  text% "Kill-Failure ::= SEQUENCE {\n",
  text% "    kill-Failure-ies SEQUENCE (SIZE (0..maxProtocolIEs)) OF IE,\n",
  text% "    ...\n",
  text% "}\n",
  text% "\n",
  text% "Load-Query ::= SEQUENCE {\n",
  text% "    load-Query-ies SEQUENCE (SIZE (0..maxProtocolIEs)) OF IE,\n",
  text% "    ...\n",
  text% "}\n",
  text% "\n",
  text% "Load-Query-Complete ::= SEQUENCE {\n",
  text% "    load-Query-Complete-ies SEQUENCE (SIZE (0..maxProtocolIEs)) OF IE,\n",
  text% "    ...\n",
  text% "}\n",
  text% "\n",
  text% "Load-Query-Failure ::= SEQUENCE {\n",
  text% "    load-Query-Failure-ies SEQUENCE (SIZE (0..maxProtocolIEs)) OF IE,\n",
  text% "    ...\n",
  text% "}\n",
  text% "\n",
  text% "Message-Status-Query ::= SEQUENCE {\n",
  text% "    message-Status-Query-ies SEQUENCE (SIZE (0..maxProtocolIEs)) OF IE,\n",
  text% "    ...\n",
  text% "}\n",
  text% "\n",
  text% "Message-Status-Query-Complete ::= SEQUENCE {\n",
  text% "    message-Status-Query-Complete-ies SEQUENCE (SIZE (0..maxProtocolIEs)) OF IE,\n",
  text% "    ...\n",
  text% "}\n",
  text% "\n",
  text% "Message-Status-Query-Failure ::= SEQUENCE {\n",
  text% "    message-Status-Query-Failure-ies SEQUENCE (SIZE (0..maxProtocolIEs)) OF IE,\n",
  text% "    ...\n",
  text% "}\n",
  text% "\n",
  text% "Reset ::= SEQUENCE {\n",
  text% "    reset-ies SEQUENCE (SIZE (0..maxProtocolIEs)) OF IE,\n",
  text% "    ...\n",
  text% "}\n",
  text% "\n",
  text% "Reset-Complete ::= SEQUENCE {\n",
  text% "    reset-Complete-ies SEQUENCE (SIZE (0..maxProtocolIEs)) OF IE,\n",
  text% "    ...\n",
  text% "}\n",
  text% "\n",
  text% "Reset-Failure ::= SEQUENCE {\n",
  text% "    reset-Failure-ies SEQUENCE (SIZE (0..maxProtocolIEs)) OF IE,\n",
  text% "    ...\n",
  text% "}\n",
  text% "\n",
  text% "Restart ::= SEQUENCE {\n",
  text% "    restart-ies SEQUENCE (SIZE (0..maxProtocolIEs)) OF IE,\n",
  text% "    ...\n",
  text% "}\n",
  text% "\n",
  text% "Failure ::= SEQUENCE {\n",
  text% "    failure-ies SEQUENCE (SIZE (0..maxProtocolIEs)) OF IE,\n",
  text% "    ...\n",
  text% "}\n",
  text% "\n",
  text% "Error-Indication ::= SEQUENCE {\n",
  text% "    error-Indication-ies SEQUENCE (SIZE (0..maxProtocolIEs)) OF IE,\n",
  text% "    ...\n",
  text% "}\n",
  text% "\n",
  text% "\n",
  text% "IE ::= SEQUENCE {\n",
  text% "    id ProtocolIE-ID,\n",
  text% "    criticality Criticality,\n",
  text% "    value ANY\n",
  text% "}\n",
  text% "\n",
  text% "END\n"]

/-- asn1/ranap/RANAP-PDU.asn -/
noncomputable def ranapFlat : List Text := [
  text% "RANAP-PDU {\n",
  text% "itu-t (0) identified-organization (4) etsi (0) mobileDomain (0) \n",
  text% "umts-Access (20) modules (3) ranap(0) version1 (1) ranap-PDU (255) }\n",
  text% "\n",
  text% "DEFINITIONS AUTOMATIC TAGS ::=\n",
  text% "\n",
  text% "BEGIN\n",
  text% "\n",
  text% "IMPORTS\n",
  text% "    Criticality,\n",
  text% "    ProcedureCode,\n",
  text% "    ProtocolIE-ID\n",
  text% "\n",
  text% "FROM RANAP-CommonDataTypes\n",
  text% "\n",
  text% "    Alt-RAB-Parameters,\n",
  text% "    Ass-RAB-Parameters,\n",
  text% "    Cause,\n",
  text% "    CN-DomainIndicator,\n",
  text% "    DataVolumeReference,\n",
  text% "    DataVolumeReportingIndication,\n",
  text% "    DL-GTP-PDU-SequenceNumber,\n",
  text% "    DL-N-PDU-SequenceNumber,\n",
  text% "    GERAN-Classmark,\n",
  text% "    GTP-TEI,\n",
  text% "    IPMulticastAddress,\n",
  text% "    IuSignallingConnectionIdentifier,\n",
  text% "    IuTransportAssociation,\n",
  text% "    MBMS-PTP-RAB-ID,\n",
  text% "    MBMSHCIndicator,\n",
  text% "    NAS-PDU,\n",
  text% "    NAS-SynchronisationIndicator,\n",
  text% "    PDP-TypeInformation,\n",
  text% "    RAB-ID,\n",
  text% "    RAB-Parameters,\n",
  text% "    Requested-RAB-Parameter-Values,\n",
  text% "    SAPI,\n",
  text% "    Service-Handover,\n",
  text% "    TMGI,\n",
  text% "    TransportLayerAddress,\n",
  text% "    UL-GTP-PDU-SequenceNumber,\n",
  text% "    UL-N-PDU-SequenceNumber,\n",
  text% "    UnsuccessfullyTransmittedDataVolume,\n",
  text% "    UP-ModeVersions,\n",
  text% "    UserPlaneMode\n",
  text% "\n",
  text% "FROM RANAP-IEs\n",
  text% "\n",
  text% "    maxnoofMulticastServicesPerUE,\n",
  text% "    maxNrOfIuSigConIds,\n",
  text% "    maxNrOfDTs,\n",
  text% "    maxNrOfVol,\n",
  text% "    maxNrOfRABs,\n",
  text% "    maxProtocolIEs,\n",
  text% "    maxProtocolExtensions\n",
  text% "\n",
  text% "FROM RANAP-Constants;\n",
  text% "\n",
  text% "RANAP-PDU ::= CHOICE {\n",
  text% "    initiatingMessage       InitiatingMessage,\n",
  text% "    successfulOutcome       SuccessfulOutcome,\n",
  text% "    unsuccessfulOutcome     UnsuccessfulOutcome,\n",
  text% "    outcome     \t    Outcome,\n",
  text% "    ...\n",
  text% "}\n",
  text% "\n",
  text% "InitiatingMessage ::= SEQUENCE {\n",
  text% "    procedureCode   ProcedureCode,\n",
  text% "    criticality     Criticality,\n",
  text% "    value           ANY\n",
  text% "}\n",
  text% "\n",
  text% "SuccessfulOutcome ::= SEQUENCE {\n",
  text% "    procedureCode   ProcedureCode,\n",
  text% "    criticality     Criticality,\n",
  text% "    value           ANY\n",
  text% "}\n",
  text% "\n",
  text% "UnsuccessfulOutcome ::= SEQUENCE {\n",
  text% "    procedureCode   ProcedureCode,\n",
  text% "    criticality     Criticality,\n",
  text% "    value           ANY\n",
  text% "}\n",
  text% "\n",
  text% "Outcome ::= SEQUENCE {\n",
  text% "    procedureCode   ProcedureCode,\n",
  text% "    criticality     Criticality,\n",
  text% "    value           ANY\n",
  text% "}\n",
  text% "\n",
  text% "\n",
  text% "Iu-ReleaseCommand ::= SEQUENCE {\n",
  text% "    iu-ReleaseCommand-ies SEQUENCE (SIZE (0..maxProtocolIEs)) OF IE,\n",
  text% "    ...\n",
  text% "}\n",
  text% "\n",
  text% "Iu-ReleaseComplete ::= SEQUENCE {\n",
  text% "    iu-ReleaseComplete-ies SEQUENCE (SIZE (0..maxProtocolIEs)) OF IE,\n",
  text% "    ...\n",
  text% "}\n",
  text% "\n",
  text% "RelocationRequired ::= SEQUENCE {\n",
  text% "    relocationRequired-ies SEQUENCE (SIZE (0..maxProtocolIEs)) OF IE,\n",
  text% "    ...\n",
  text% "}\n",
  text% "\n",
  text% "RelocationCommand ::= SEQUENCE {\n",
  text% "    relocationCommand-ies SEQUENCE (SIZE (0..maxProtocolIEs)) OF IE,\n",
  text% "    ...\n",
  text% "}\n",
  text% "\n",
  text% "RelocationPreparationFailure ::= SEQUENCE {\n",
  text% "    relocationPreparationFailure-ies SEQUENCE (SIZE (0..maxProtocolIEs)) OF IE,\n",
  text% "    ...\n",
  text% "}\n",
  text% "\n",
  text% "RelocationRequest ::= SEQUENCE {\n",
  text% "    relocationRequest-ies SEQUENCE (SIZE (0..maxProtocolIEs)) OF IE,\n",
  text% "    ...\n",
  text% "}\n",
  text% "\n",
  text% "RelocationRequestAcknowledge ::= SEQUENCE {\n",
  text% "    relocationRequestAcknowledge-ies SEQUENCE (SIZE (0..maxProtocolIEs)) OF IE,\n",
  text% "    ...\n",
  text% "}\n",
  text% "\n",
  text% "RelocationFailure ::= SEQUENCE {\n",
  text% "    relocationFailure-ies SEQUENCE (SIZE (0..maxProtocolIEs)) OF IE,\n",
  text% "    ...\n",
  text% "}\n",
  text% "\n",
  text% "RelocationCancel ::= SEQUENCE {\n",
  text% "    relocationCancel-ies SEQUENCE (SIZE (0..maxProtocolIEs)) OF IE,\n",
  text% "    ...\n",
  text% "}\n",
  text% "\n",
  text% "RelocationCancelAcknowledge ::= SEQUENCE {\n",
  text% "    relocationCancelAcknowledge-ies SEQUENCE (SIZE (0..maxProtocolIEs)) OF IE,\n",
  text% "    ...\n",
  text% "}\n",
  text% "\n",
  text% "SRNS-ContextRequest ::= SEQUENCE {\n",
  text% "    srnS-ContextRequest-ies SEQUENCE (SIZE (0..maxProtocolIEs)) OF IE,\n",
  text% "    ...\n",
  text% "}\n",
  text% "\n",
  text% "RAB-DataForwardingList-SRNS-CtxReq ::= SEQUENCE {\n",
  text% "    raB-DataForwardingList-SRNS-CtxReq-ies SEQUENCE (SIZE (0..maxProtocolIEs)) OF IE,\n",
  text% "    ...\n",
  text% "}\n",
  text% "\n",
  text% "DataVolumeReportRequest ::= SEQUENCE {\n",
  text% "    dataVolumeReportRequest-ies SEQUENCE (SIZE (0..maxProtocolIEs)) OF IE,\n",
  text% "    ...\n",
  text% "}\n",
  text% "\n",
  text% "SRNS-ContextResponse ::= SEQUENCE {\n",
  text% "    srnS-ContextResponse-ies SEQUENCE (SIZE (0..maxProtocolIEs)) OF IE,\n",
  text% "    ...\n",
  text% "}\n",
  text% "\n",
  text% "SecurityModeCommand ::= SEQUENCE {\n",
  text% "    securityModeCommand-ies SEQUENCE (SIZE (0..maxProtocolIEs)) OF IE,\n",
  text% "    ...\n",
  text% "}\n",
  text% "\n",
  text% "SecurityModeComplete ::= SEQUENCE {\n",
  text% "    securityModeComplete-ies SEQUENCE (SIZE (0..maxProtocolIEs)) OF IE,\n",
  text% "    ...\n",
  text% "}\n",
  text% "\n",
  text% "SecurityModeReject ::= SEQUENCE {\n",
  text% "    securityModeReject-ies SEQUENCE (SIZE (0..maxProtocolIEs)) OF IE,\n",
  text% "    ...\n",
  text% "}\n",
  text% "\n",
  text% "DataVolumeReport ::= SEQUENCE {\n",
  text% "    dataVolumeReport-ies SEQUENCE (SIZE (0..maxProtocolIEs)) OF IE,\n",
  text% "    ...\n",
  text% "}\n",
  text% "\n",
  text% "Reset ::= SEQUENCE {\n",
  text% "    reset-ies SEQUENCE (SIZE (0..maxProtocolIEs)) OF IE,\n",
  text% "    ...\n",
  text% "}\n",
  text% "\n",
  text% "ResetAcknowledge ::= SEQUENCE {\n",
  text% "    resetAcknowledge-ies SEQUENCE (SIZE (0..maxProtocolIEs)) OF IE,\n",
  text% "    ...\n",
  text% "}\n",
  text% "\n",
  text% "RAB-ReleaseRequest ::= SEQUENCE {\n",
  text% "    raB-ReleaseRequest-ies SEQUENCE (SIZE (0..maxProtocolIEs)) OF IE,\n",
  text% "    ...\n",
  text% "}\n",
  text% "\n",
  text% "RedirectionIndication ::= SEQUENCE {\n",
  text% "    redirectionIndication-ies SEQUENCE (SIZE (0..maxProtocolIEs)) OF IE,\n",
  text% "    ...\n",
  text% "}\n",
  text% "\n",
  text% "RAB-ReleaseList\t::= SEQUENCE {\n",
  text% "\traB-ReleaseList-ies SEQUENCE (SIZE(0..maxProtocolIEs)) OF IE,\n",
  text% "\t...\n",
  text% "}\n",
  text% "\n",
  text% "Iu-ReleaseRequest ::= SEQUENCE {\n",
  text% "    iu-ReleaseRequest-ies SEQUENCE (SIZE (0..maxProtocolIEs)) OF IE,\n",
  text% "    ...\n",
  text% "}\n",
  text% "\n",
  text% "RelocationDetect ::= SEQUENCE {\n",
  text% "    relocationDetect-ies SEQUENCE (SIZE (0..maxProtocolIEs)) OF IE,\n",
  text% "    ...\n",
  text% "}\n",
  text% "\n",
  text% "RelocationComplete ::= SEQUENCE {\n",
  text% "    relocationComplete-ies SEQUENCE (SIZE (0..maxProtocolIEs)) OF IE,\n",
  text% "    ...\n",
  text% "}\n",
  text% "\n",
  text% "Paging ::= SEQUENCE {\n",
  text% "    paging-ies SEQUENCE (SIZE (0..maxProtocolIEs)) OF IE,\n",
  text% "    ...\n",
  text% "}\n",
  text% "\n",
  text% "CommonID ::= SEQUENCE {\n",
  text% "    commonID-ies SEQUENCE (SIZE (0..maxProtocolIEs)) OF IE,\n",
  text% "    ...\n",
  text% "}\n",
  text% "\n",
  text% "CN-InvokeTrace ::= SEQUENCE {\n",
  text% "    cN-InvokeTrace-ies SEQUENCE (SIZE (0..maxProtocolIEs)) OF IE,\n",
  text% "    ...\n",
  text% "}\n",
  text% "\n",
  text% "CN-DeactivateTrace ::= SEQUENCE {\n",
  text% "    cN-DeactivateTrace-ies SEQUENCE (SIZE (0..maxProtocolIEs)) OF IE,\n",
  text% "    ...\n",
  text% "}\n",
  text% "\n",
  text% "LocationReportingControl ::= SEQUENCE {\n",
  text% "    locationReportingControl-ies SEQUENCE (SIZE (0..maxProtocolIEs)) OF IE,\n",
  text% "    ...\n",
  text% "}\n",
  text% "\n",
  text% "LocationReport ::= SEQUENCE {\n",
  text% "    locationReport-ies SEQUENCE (SIZE (0..maxProtocolIEs)) OF IE,\n",
  text% "    ...\n",
  text% "}\n",
  text% "\n",
  text% "InitialUE-Message ::= SEQUENCE {\n",
  text% "    initialUE-Message-ies SEQUENCE (SIZE (0..maxProtocolIEs)) OF IE,\n",
  text% "    ...\n",
  text% "}\n",
  text% "\n",
  text% "DirectTransfer ::= SEQUENCE {\n",
  text% "    directTransfer-ies SEQUENCE (SIZE (0..maxProtocolIEs)) OF IE,\n",
  text% "    ...\n",
  text% "}\n",
  text% "\n",
  text% "Overload ::= SEQUENCE {\n",
  text% "    overload-ies SEQUENCE (SIZE (0..maxProtocolIEs)) OF IE,\n",
  text% "    ...\n",
  text% "}\n",
  text% "\n",
  text% "ErrorIndication ::= SEQUENCE {\n",
  text% "    errorIndication-ies SEQUENCE (SIZE (0..maxProtocolIEs)) OF IE,\n",
  text% "    ...\n",
  text% "}\n",
  text% "\n",
  text% "SRNS-DataForwardCommand ::= SEQUENCE {\n",
  text% "    srnS-DataForwardCommand-ies SEQUENCE (SIZE (0..maxProtocolIEs)) OF IE,\n",
  text% "    ...\n",
  text% "}\n",
  text% "\n",
  text% "ForwardSRNS-Context ::= SEQUENCE {\n",
  text% "    forwardSRNS-Context-ies SEQUENCE (SIZE (0..maxProtocolIEs)) OF IE,\n",
  text% "    ...\n",
  text% "}\n",
  text% "\n",
  text% "RAB-AssignmentRequest ::= SEQUENCE {\n",
  text% "    raB-AssignmentRequest-ies SEQUENCE (SIZE (0..maxProtocolIEs)) OF IE,\n",
  text% "    ...\n",
  text% "}\n",
  text% "\n",
  text% "RAB-SetupOrModifyList \t\t::= RAB-IE-ContainerPairList\n",
  text% "\n",
  text% "RAB-AssignmentResponse ::= SEQUENCE {\n",
  text% "    raB-AssignmentResponse-ies SEQUENCE (SIZE (0..maxProtocolIEs)) OF IE,\n",
  text% "    ...\n",
  text% "}\n",
  text% "\n",
  text% "PrivateMessage ::= SEQUENCE {\n",
  text% "    privateMessage-ies SEQUENCE (SIZE (0..maxProtocolIEs)) OF IE,\n",
  text% "    ...\n",
  text% "}\n",
  text% "\n",
  text% "ResetResource ::= SEQUENCE {\n",
  text% "    resetResource-ies SEQUENCE (SIZE (0..maxProtocolIEs)) OF IE,\n",
  text% "    ...\n",
  text% "}\n",
  text% "\n",
  text% "ResetResourceAcknowledge ::= SEQUENCE {\n",
  text% "    resetResourceAcknowledge-ies SEQUENCE (SIZE (0..maxProtocolIEs)) OF IE,\n",
  text% "    ...\n",
  text% "}\n",
  text% "\n",
  text% "RANAP-RelocationInformation ::= SEQUENCE {\n",
  text% "    ranaP-RelocationInformation-ies SEQUENCE (SIZE (0..maxProtocolIEs)) OF IE,\n",
  text% "    ...\n",
  text% "}\n",
  text% "\n",
  text% "RAB-ModifyRequest ::= SEQUENCE {\n",
  text% "    raB-ModifyRequest-ies SEQUENCE (SIZE (0..maxProtocolIEs)) OF IE,\n",
  text% "    ...\n",
  text% "}\n",
  text% "\n",
  text% "LocationRelatedDataRequest ::= SEQUENCE {\n",
  text% "    locationRelatedDataRequest-ies SEQUENCE (SIZE (0..maxProtocolIEs)) OF IE,\n",
  text% "    ...\n",
  text% "}\n",
  text% "\n",
  text% "LocationRelatedDataResponse ::= SEQUENCE {\n",
  text% "    locationRelatedDataResponse-ies SEQUENCE (SIZE (0..maxProtocolIEs)) OF IE,\n",
  text% "    ...\n",
  text% "}\n",
  text% "\n",
  text% "LocationRelatedDataFailure ::= SEQUENCE {\n",
  text% "    locationRelatedDataFailure-ies SEQUENCE (SIZE (0..maxProtocolIEs)) OF IE,\n",
  text% "    ...\n",
  text% "}\n",
  text% "\n",
  text% "InformationTransferIndication ::= SEQUENCE {\n",
  text% "    informationTransferIndication-ies SEQUENCE (SIZE (0..maxProtocolIEs)) OF IE,\n",
  text% "    ...\n",
  text% "}\n",
  text% "\n",
  text% "InformationTransferConfirmation ::= SEQUENCE {\n",
  text% "    informationTransferConfirmation-ies SEQUENCE (SIZE (0..maxProtocolIEs)) OF IE,\n",
  text% "    ...\n",
  text% "}\n",
  text% "\n",
  text% "InformationTransferFailure ::= SEQUENCE {\n",
  text% "    informationTransferFailure-ies SEQUENCE (SIZE (0..maxProtocolIEs)) OF IE,\n",
  text% "    ...\n",
  text% "}\n",
  text% "\n",
  text% "UESpecificInformationIndication ::= SEQUENCE {\n",
  text% "    ueSpecificInformationIndication-ies SEQUENCE (SIZE (0..maxProtocolIEs)) OF IE,\n",
  text% "    ...\n",
  text% "}\n",
  text% "\n",
  text% "DirectInformationTransfer ::= SEQUENCE {\n",
  text% "    directInformationTransfer-ies SEQUENCE (SIZE (0..maxProtocolIEs)) OF IE,\n",
  text% "    ...\n",
  text% "}\n",
  text% "\n",
  text% "UplinkInformationExchangeRequest ::= SEQUENCE {\n",
  text% "    uplinkInformationExchangeRequest-ies SEQUENCE (SIZE (0..maxProtocolIEs)) OF IE,\n",
  text% "    ...\n",
  text% "}\n",
  text% "\n",
  text% "UplinkInformationExchangeResponse ::= SEQUENCE {\n",
  text% "    uplinkInformationExchangeResponse-ies SEQUENCE (SIZE (0..maxProtocolIEs)) OF IE,\n",
  text% "    ...\n",
  text% "}\n",
  text% "\n",
  text% "UplinkInformationExchangeFailure ::= SEQUENCE {\n",
  text% "    uplinkInformationExchangeFailure-ies SEQUENCE (SIZE (0..maxProtocolIEs)) OF IE,\n",
  text% "    ...\n",
  text% "}\n",
  text% "\n",
  text% "MBMSSessionStart ::= SEQUENCE {\n",
  text% "    mbmsSessionStart-ies SEQUENCE (SIZE (0..maxProtocolIEs)) OF IE,\n",
  text% "    ...\n",
  text% "}\n",
  text% "\n",
  text% "MBMSSessionStartResponse ::= SEQUENCE {\n",
  text% "    mbmsSessionStartResponse-ies SEQUENCE (SIZE (0..maxProtocolIEs)) OF IE,\n",
  text% "    ...\n",
  text% "}\n",
  text% "\n",
  text% "MBMSSessionStartFailure ::= SEQUENCE {\n",
  text% "    mbmsSessionStartFailure-ies SEQUENCE (SIZE (0..maxProtocolIEs)) OF IE,\n",
  text% "    ...\n",
  text% "}\n",
  text% "\n",
  text% "MBMSSessionUpdate ::= SEQUENCE {\n",
  text% "    mbmsSessionUpdate-ies SEQUENCE (SIZE (0..maxProtocolIEs)) OF IE,\n",
  text% "    ...\n",
  text% "}\n",
  text% "\n",
  text% "MBMSSessionUpdateResponse ::= SEQUENCE {\n",
  text% "    mbmsSessionUpdateResponse-ies SEQUENCE (SIZE (0..maxProtocolIEs)) OF IE,\n",
  text% "    ...\n",
  text% "}\n",
  text% "\n",
  text% "MBMSSessionUpdateFailure ::= SEQUENCE {\n",
  text% "    mbmsSessionUpdateFailure-ies SEQUENCE (SIZE (0..maxProtocolIEs)) OF IE,\n",
  text% "    ...\n",
  text% "}\n",
  text% "\n",
  text% "MBMSSessionStop ::= SEQUENCE {\n",
  text% "    mbmsSessionStop-ies SEQUENCE (SIZE (0..maxProtocolIEs)) OF IE,\n",
  text% "    ...\n",
  text% "}\n",
  text% "\n",
  text% "MBMSSessionStopResponse ::= SEQUENCE {\n",
  text% "    mbmsSessionStopResponse-ies SEQUENCE (SIZE (0..maxProtocolIEs)) OF IE,\n",
  text% "    ...\n",
  text% "}\n",
  text% "\n",
  text% "MBMSUELinkingRequest ::= SEQUENCE {\n",
  text% "    mbmsueLinkingRequest-ies SEQUENCE (SIZE (0..maxProtocolIEs)) OF IE,\n",
  text% "    ...\n",
  text% "}\n",
  text% "\n",
  text% "MBMSUELinkingResponse ::= SEQUENCE {\n",
  text% "    mbmsueLinkingResponse-ies SEQUENCE (SIZE (0..maxProtocolIEs)) OF IE,\n",
  text% "    ...\n",
  text% "}\n",
  text% "\n",
  text% "MBMSRegistrationRequest ::= SEQUENCE {\n",
  text% "    mbmsRegistrationRequest-ies SEQUENCE (SIZE (0..maxProtocolIEs)) OF IE,\n",
  text% "    ...\n",
  text% "}\n",
  text% "\n",
  text% "MBMSRegistrationResponse ::= SEQUENCE {\n",
  text% "    mbmsRegistrationResponse-ies SEQUENCE (SIZE (0..maxProtocolIEs)) OF IE,\n",
  text% "    ...\n",
  text% "}\n",
  text% "\n",
  text% "MBMSRegistrationFailure ::= SEQUENCE {\n",
  text% "    mbmsRegistrationFailure-ies SEQUENCE (SIZE (0..maxProtocolIEs)) OF IE,\n",
  text% "    ...\n",
  text% "}\n",
  text% "\n",
  text% "MBMSCNDe-RegistrationRequest ::= SEQUENCE {\n",
  text% "    mbmscnDe-RegistrationRequest-ies SEQUENCE (SIZE (0..maxProtocolIEs)) OF IE,\n",
  text% "    ...\n",
  text% "}\n",
  text% "\n",
  text% "MBMSCNDe-RegistrationResponse ::= SEQUENCE {\n",
  text% "    mbmscnDe-RegistrationResponse-ies SEQUENCE (SIZE (0..maxProtocolIEs)) OF IE,\n",
  text% "    ...\n",
  text% "}\n",
  text% "\n",
  text% "MBMSRABEstablishmentIndication ::= SEQUENCE {\n",
  text% "    mbmsrabEstablishmentIndication-ies SEQUENCE (SIZE (0..maxProtocolIEs)) OF IE,\n",
  text% "    ...\n",
  text% "}\n",
  text% "\n",
  text% "MBMSRABReleaseRequest ::= SEQUENCE {\n",
  text% "    mbmsrabReleaseRequest-ies SEQUENCE (SIZE (0..maxProtocolIEs)) OF IE,\n",
  text% "    ...\n",
  text% "}\n",
  text% "\n",
  text% "MBMSRABRelease ::= SEQUENCE {\n",
  text% "    mbmsrabRelease-ies SEQUENCE (SIZE (0..maxProtocolIEs)) OF IE,\n",
  text% "    ...\n",
  text% "}\n",
  text% "\n",
  text% "MBMSRABReleaseFailure ::= SEQUENCE {\n",
  text% "    mbmsrabReleaseFailure-ies SEQUENCE (SIZE (0..maxProtocolIEs)) OF IE,\n",
  text% "    ...\n",
  text% "}\n",
  text% "\n",
  text% "EnhancedRelocationCompleteRequest ::= SEQUENCE {\n",
  text% "    enhancedRelocationCompleteRequest-ies SEQUENCE (SIZE (0..maxProtocolIEs)) OF IE,\n",
  text% "    ...\n",
  text% "}\n",
  text% "\n",
  text% "EnhancedRelocationCompleteResponse ::= SEQUENCE {\n",
  text% "    enhancedRelocationCompleteResponse-ies SEQUENCE (SIZE (0..maxProtocolIEs)) OF IE,\n",
  text% "    ...\n",
  text% "}\n",
  text% "\n",
  text% "EnhancedRelocationCompleteFailure ::= SEQUENCE {\n",
  text% "    enhancedRelocationCompleteFailure-ies SEQUENCE (SIZE (0..maxProtocolIEs)) OF IE,\n",
  text% "    ...\n",
  text% "}\n",
  text% "\n",
  text% "EnhancedRelocationCompleteConfirm ::= SEQUENCE {\n",
  text% "    enhancedRelocationCompleteConfirm-ies SEQUENCE (SIZE (0..maxProtocolIEs)) OF IE,\n",
  text% "    ...\n",
  text% "}\n",
  text% "\n",
  text% "RANAP-EnhancedRelocationInformationRequest ::= SEQUENCE {\n",
  text% "    ranaP-EnhancedRelocationInformationRequest-ies SEQUENCE (SIZE (0..maxProtocolIEs)) OF IE,\n",
  text% "    ...\n",
  text% "}\n",
  text% "\n",
  text% "RANAP-EnhancedRelocationInformationResponse ::= SEQUENCE {\n",
  text% "    ranaP-EnhancedRelocationInformationResponse-ies SEQUENCE (SIZE (0..maxProtocolIEs)) OF IE,\n",
  text% "    ...\n",
  text% "}\n",
  text% "\n",
  text% "SRVCC-CSKeysRequest ::= SEQUENCE {\n",
  text% "    srvcC-CSKeysRequest-ies SEQUENCE (SIZE (0..maxProtocolIEs)) OF IE,\n",
  text% "    ...\n",
  text% "}\n",
  text% "\n",
  text% "SRVCC-CSKeysResponse ::= SEQUENCE {\n",
  text% "    srvcC-CSKeysResponse-ies SEQUENCE (SIZE (0..maxProtocolIEs)) OF IE,\n",
  text% "    ...\n",
  text% "}\n",
  text% "\n",
  text% "UeRadioCapabilityMatchRequest ::= SEQUENCE {\n",
  text% "    ueRadioCapabilityMatchRequest-ies SEQUENCE (SIZE (0..maxProtocolIEs)) OF IE,\n",
  text% "    ...\n",
  text% "}\n",
  text% "\n",
  text% "UeRadioCapabilityMatchResponse ::= SEQUENCE {\n",
  text% "    ueRadioCapabilityMatchResponse-ies SEQUENCE (SIZE (0..maxProtocolIEs)) OF IE,\n",
  text% "    ...\n",
  text% "}\n",
  text% "\n",
  text% "ProtocolExtensionContainer ::= SEQUENCE (SIZE (1..maxProtocolExtensions)) OF ProtocolExtensionField\n",
  text% "\n",
  text% "ProtocolExtensionField ::= SEQUENCE {\n",
  text% "    id ProtocolIE-ID,\n",
  text% "    criticality Criticality,\n",
  text% "    value ANY\n",
  text% "}\n",
  text% "\n",
  text% "IE ::= SEQUENCE {\n",
  text% "    id ProtocolIE-ID,\n",
  text% "    criticality Criticality,\n",
  text% "    value ANY\n",
  text% "}\n",
  text% "\n",
  text% "ProtocolIE-Container ::= SEQUENCE (SIZE (0..maxProtocolIEs)) OF IE\n",
  text% "\n",
  text% "ProtocolIE-FieldPair ::= SEQUENCE {\n",
  text% "\tid\t\t\tProtocolIE-ID,\n",
  text% "\tfirstCriticality\tCriticality,\n",
  text% "\tfirstValue\t\tANY,\n",
  text% "\tsecondCriticality\tCriticality,\n",
  text% "\tsecondValue\t\tANY\n",
  text% "}\n",
  text% "\n",
  text% "ProtocolIE-ContainerPair ::= SEQUENCE (SIZE (0..maxProtocolIEs)) OF ProtocolIE-FieldPair\n",
  text% "\n",
  text% "RAB-IE-ContainerList\t\t::= SEQUENCE (SIZE (1..maxNrOfRABs)) OF ProtocolIE-Container\n",
  text% "RAB-IE-ContainerPairList\t::= SEQUENCE (SIZE (1..maxNrOfRABs)) OF ProtocolIE-ContainerPair\n",
  text% "ProtocolError-IE-ContainerList\t::= SEQUENCE (SIZE (1..maxNrOfRABs)) OF ProtocolIE-Container\n",
  text% "IuSigConId-IE-ContainerList\t::= SEQUENCE (SIZE (1..maxNrOfIuSigConIds)) OF ProtocolIE-Container\n",
  text% "DirectTransfer-IE-ContainerList\t::= SEQUENCE (SIZE (1..maxNrOfDTs)) OF ProtocolIE-Container\n",
  text% "\n",
  text% "DataVolumeReportList ::= SEQUENCE {\n",
  text% "\tdataVolumeReportListe-ies SEQUENCE (SIZE (0..maxProtocolIEs)) OF IE,\n",
  text% "\t...\n",
  text% "}\n",
  text% "\n",
  text% "RAB-ReleasedList-IuRelComp ::= SEQUENCE {\n",
  text% "\traB-ReleasedList-IuRelComp-ies SEQUENCE (SIZE (0..maxProtocolIEs)) OF IE,\n",
  text% "\t...\n",
  text% "}\n",
  text% "\n",
  text% "RAB-RelocationReleaseList ::= SEQUENCE {\n",
  text% "\traB-RelocationReleaseList-ies SEQUENCE (SIZE(0..maxProtocolIEs)) OF IE,\n",
  text% "\t...\n",
  text% "}\n",
  text% "\n",
  text% "RAB-DataForwardingList ::= SEQUENCE {\n",
  text% "\traB-DataForwardingList-ies SEQUENCE (SIZE(0..maxProtocolIEs)) OF IE,\n",
  text% "\t...\n",
  text% "}\n",
  text% "\n",
  text% "RAB-SetupList-RelocReq ::= SEQUENCE {\n",
  text% "\traB-SetupList-RelocReq-ies SEQUENCE (SIZE(0..maxProtocolIEs)) OF IE,\n",
  text% "\t...\n",
  text% "}\n",
  text% "\n",
  text% "RAB-SetupList-RelocReqAck ::= SEQUENCE {\n",
  text% "\traB-SetupList-RelocReqAck-ies SEQUENCE (SIZE(0..maxProtocolIEs)) OF IE,\n",
  text% "\t...\n",
  text% "}\n",
  text% "\n",
  text% "RAB-FailedList ::= SEQUENCE {\n",
  text% "\traB-FailedList-ies SEQUENCE (SIZE(0..maxProtocolIEs)) OF IE,\n",
  text% "\t...\n",
  text% "}\n",
  text% "\n",
  text% "RAB-ContextList ::= SEQUENCE {\n",
  text% "\traB-ContextList-ies SEQUENCE (SIZE(0..maxProtocolIEs)) OF IE,\n",
  text% "\t...\n",
  text% "}\n",
  text% "\n",
  text% "RABs-ContextFailedtoTransferList ::= SEQUENCE {\n",
  text% "\traBs-ContextFailedtoTransferList-ies SEQUENCE (SIZE(0..maxProtocolIEs)) OF IE,\n",
  text% "\t...\n",
  text% "}\n",
  text% "\n",
  text% "RAB-DataVolumeReportRequestList ::= SEQUENCE {\n",
  text% "\traB-DataVolumeReportRequestList-ies SEQUENCE (SIZE(0..maxProtocolIEs)) OF IE,\n",
  text% "\t...\n",
  text% "}\n",
  text% "\n",
  text% "RAB-DataVolumeReportRequestItem ::= SEQUENCE {\n",
  text% "\trAB-ID\t\tRAB-ID,\n",
  text% "\tiE-Extensions\tProtocolExtensionContainer OPTIONAL,\n",
  text% "\t...\n",
  text% "}\n",
  text% "\n",
  text% "RABs-failed-to-reportList ::= SEQUENCE {\n",
  text% "\traBs-failed-to-reportList-ies SEQUENCE (SIZE(0..maxProtocolIEs)) OF IE,\n",
  text% "\t...\n",
  text% "}\n",
  text% "\n",
  text% "RAB-SetupList-EnhancedRelocCompleteReq ::= SEQUENCE {\n",
  text% "\traB-SetupList-EnhancedRelocCompleteReq-ies SEQUENCE (SIZE(0..maxProtocolIEs)) OF IE,\n",
  text% "\t...\n",
  text% "}\n",
  text% "\n",
  text% "RAB-SetupList-EnhancedRelocCompleteRes ::= SEQUENCE {\n",
  text% "\traB-SetupList-EnhancedRelocCompleteRes-ies SEQUENCE (SIZE(0..maxProtocolIEs)) OF IE,\n",
  text% "\t...\n",
  text% "}\n",
  text% "\n",
  text% "RAB-ToBeReleasedList-EnhancedRelocCompleteRes ::= SEQUENCE {\n",
  text% "\traB-ToBeReleasedList-EnhancedRelocCompleteRes-ies SEQUENCE (SIZE(0..maxProtocolIEs)) OF IE,\n",
  text% "\t...\n",
  text% "}\n",
  text% "\n",
  text% "RAB-SetupOrModifiedList ::= SEQUENCE {\n",
  text% "\traB-SetupOrModifiedList-ies SEQUENCE (SIZE(0..maxProtocolIEs)) OF IE,\n",
  text% "\t...\n",
  text% "}\n",
  text% "\n",
  text% "RAB-ReleasedList ::= SEQUENCE {\n",
  text% "\traB-ReleasedList-ies SEQUENCE (SIZE(0..maxProtocolIEs)) OF IE,\n",
  text% "\t...\n",
  text% "}\n",
  text% "\n",
  text% "RAB-QueuedList ::= SEQUENCE {\n",
  text% "\traB-QueuedList-ies SEQUENCE (SIZE(0..maxProtocolIEs)) OF IE,\n",
  text% "\t...\n",
  text% "}\n",
  text% "\n",
  text% "RAB-ContextList-RANAP-RelocInf ::= SEQUENCE {\n",
  text% "\traB-ContextList-RANAP-RelocInf-ies SEQUENCE (SIZE(0..maxProtocolIEs)) OF IE,\n",
  text% "\t...\n",
  text% "}\n",
  text% "\n",
  text% "RAB-SetupList-EnhRelocInfoReq ::= SEQUENCE {\n",
  text% "\traB-SetupList-EnhRelocInfoReq-ies SEQUENCE (SIZE(0..maxProtocolIEs)) OF IE,\n",
  text% "\t...\n",
  text% "}\n",
  text% "\n",
  text% "RAB-SetupList-EnhRelocInfoRes ::= SEQUENCE {\n",
  text% "\traB-SetupList-EnhRelocInfoRes-ies SEQUENCE (SIZE(0..maxProtocolIEs)) OF IE,\n",
  text% "\t...\n",
  text% "}\n",
  text% "\n",
  text% "RAB-FailedList-EnhRelocInfoRes ::= SEQUENCE {\n",
  text% "\traB-FailedList-EnhRelocInfoRes-ies SEQUENCE (SIZE(0..maxProtocolIEs)) OF IE,\n",
  text% "\t...\n",
  text% "}\n",
  text% "\n",
  text% "RAB-ModifyList ::= SEQUENCE {\n",
  text% "\traB-ModifyList-ies SEQUENCE (SIZE(0..maxProtocolIEs)) OF IE,\n",
  text% "\t...\n",
  text% "}\n",
  text% "\n",
  text% "RAB-DataVolumeReportList ::= SEQUENCE {\n",
  text% "\traB-DataVolumeReportList-ies SEQUENCE (SIZE(0..maxProtocolIEs))\n",
  text% "OF IE,\n",
  text% "\t...\n",
  text% "}\n",
  text% "\n",
  text% "RAB-DataVolumeReportItem ::= SEQUENCE {\n",
  text% "\trAB-ID\t\t\t\t\tRAB-ID,\n",
  text% "\tdl-UnsuccessfullyTransmittedDataVolume\tDataVolumeList\t\tOPTIONAL\n",
  text% "\t-- This IE shall always be present although its presence is optional --,\n",
  text% "\tiE-Extensions ProtocolExtensionContainer OPTIONAL,\n",
  text% "\t...\n",
  text% "}\n",
  text% "\n",
  text% "RAB-ReleasedItem-IuRelComp\t::= SEQUENCE {\n",
  text% "\t\trAB-ID\t\t\t\tRAB-ID,\n",
  text% "\t\tdL-GTP-PDU-SequenceNumber\tDL-GTP-PDU-SequenceNumber \tOPTIONAL,\n",
  text% "\t\tuL-GTP-PDU-SequenceNumber\tUL-GTP-PDU-SequenceNumber \tOPTIONAL,\n",
  text% "\t\tiE-Extensions\t\t\tProtocolExtensionContainer OPTIONAL,\n",
  text% "\t...\n",
  text% "}\n",
  text% "\n",
  text% "RAB-RelocationReleaseItem ::= SEQUENCE {\n",
  text% "\trAB-ID\t\t\t\t\t\tRAB-ID,\n",
  text% "\tiE-Extensions\t\t\t\t\tProtocolExtensionContainer OPTIONAL,\n",
  text% "\t...\n",
  text% "}\n",
  text% "\n",
  text% "RAB-DataForwardingItem ::= SEQUENCE {\n",
  text% "\trAB-ID\t\t\t\t\t\tRAB-ID,\n",
  text% "\ttransportLayerAddress\t\t\t\tTransportLayerAddress,\n",
  text% "\tiuTransportAssociation\t\t\t\tIuTransportAssociation,\n",
  text% "\tiE-Extensions\t\t\t\t\tProtocolExtensionContainer OPTIONAL,\n",
  text% "\t...\n",
  text% "}\n",
  text% "\n",
  text% "RAB-DataForwardingItem-SRNS-CtxReq ::= SEQUENCE {\n",
  text% "\trAB-ID\t\tRAB-ID,\n",
  text% "\tiE-Extensions\tProtocolExtensionContainer OPTIONAL,\n",
  text% "\t...\n",
  text% "}\n",
  text% "\n",
  text% "RAB-SetupItem-RelocReq ::= SEQUENCE {\n",
  text% "\trAB-ID\t\t\t\tRAB-ID,\n",
  text% "\tnAS-SynchronisationIndicator\tNAS-SynchronisationIndicator\tOPTIONAL,\n",
  text% "\trAB-Parameters\t\t\tRAB-Parameters,\n",
  text% "\tdataVolumeReportingIndication\tDataVolumeReportingIndication \tOPTIONAL\n",
  text% "\t-- This IE shall be present if the CN domain indicator IE is set to \"PS domain\" --,\n",
  text% "\tpDP-TypeInformation\t\tPDP-TypeInformation\t\tOPTIONAL\n",
  text% "\t-- This IE shall be present if the CN domain indicator IE is set to \"PS domain\" --,\n",
  text% "\tuserPlaneInformation\t\tUserPlaneInformation,\n",
  text% "\ttransportLayerAddress\t\tTransportLayerAddress,\n",
  text% "\tiuTransportAssociation\t\tIuTransportAssociation,\n",
  text% "\tservice-Handover\t\tService-Handover\t\tOPTIONAL,\n",
  text% "\tiE-Extensions\t\t\tProtocolExtensionContainer OPTIONAL,\n",
  text% "\t...\n",
  text% "}\n",
  text% "\n",
  text% "UserPlaneInformation ::= SEQUENCE {\n",
  text% "\tuserPlaneMode\t\tUserPlaneMode,\n",
  text% "\tuP-ModeVersions\t\tUP-ModeVersions,\n",
  text% "\tiE-Extensions\t\tProtocolExtensionContainer OPTIONAL,\n",
  text% "\t...\n",
  text% "}\n",
  text% "\n",
  text% "CNMBMSLinkingInformation ::= SEQUENCE {\n",
  text% "\tjoinedMBMSBearerService-IEs\tJoinedMBMSBearerService-IEs,\n",
  text% "\tiE-Extensions\t\t\tProtocolExtensionContainer OPTIONAL,\n",
  text% "\t...\n",
  text% "}\n",
  text% "\n",
  text% "JoinedMBMSBearerService-IEs ::= SEQUENCE (SIZE (1.. maxnoofMulticastServicesPerUE)) OF JoinedMBMSBearerService-IEs-Value\n",
  text% "JoinedMBMSBearerService-IEs-Value ::=\n",
  text% "\tSEQUENCE {\n",
  text% "\t\ttMGI\t\t\tTMGI,\n",
  text% "\t\tmBMS-PTP-RAB-ID\t\tMBMS-PTP-RAB-ID,\n",
  text% "\t\tiE-Extensions\t\tProtocolExtensionContainer OPTIONAL,\n",
  text% "\t\t...\n",
  text% "\t}\n",
  text% "\n",
  text% "RAB-SetupItem-RelocReqAck ::= SEQUENCE {\n",
  text% "\trAB-ID\t\t\tRAB-ID,\n",
  text% "\ttransportLayerAddress\tTransportLayerAddress\tOPTIONAL,\n",
  text% "\tiuTransportAssociation\tIuTransportAssociation\tOPTIONAL,\n",
  text% "\tiE-Extensions\t\tProtocolExtensionContainer OPTIONAL,\n",
  text% "\t...\n",
  text% "}\n",
  text% "\n",
  text% "RAB-FailedItem ::= SEQUENCE {\n",
  text% "\trAB-ID\t\tRAB-ID,\n",
  text% "\tcause\t\tCause,\n",
  text% "\tiE-Extensions\tProtocolExtensionContainer OPTIONAL,\n",
  text% "\t...\n",
  text% "}\n",
  text% "\n",
  text% "RAB-ContextItem ::= SEQUENCE {\n",
  text% "\trAB-ID\t\t\t\tRAB-ID,\n",
  text% "\tdl-GTP-PDU-SequenceNumber\tDL-GTP-PDU-SequenceNumber \tOPTIONAL,\n",
  text% "\tul-GTP-PDU-SequenceNumber\tUL-GTP-PDU-SequenceNumber \tOPTIONAL,\n",
  text% "\tdl-N-PDU-SequenceNumber\t\tDL-N-PDU-SequenceNumber \tOPTIONAL,\n",
  text% "\tul-N-PDU-SequenceNumber\t\tUL-N-PDU-SequenceNumber \tOPTIONAL,\n",
  text% "\tiE-Extensions\t\t\tProtocolExtensionContainer\tOPTIONAL,\n",
  text% "\t...\n",
  text% "}\n",
  text% "\n",
  text% "RABs-ContextFailedtoTransferItem::= SEQUENCE {\n",
  text% "\trAB-ID\t\tRAB-ID,\n",
  text% "\tcause\t\tCause,\n",
  text% "\tiE-Extensions\tProtocolExtensionContainer OPTIONAL,\n",
  text% "\t...\n",
  text% "}\n",
  text% "\n",
  text% "RABs-failed-to-reportItem::= SEQUENCE {\n",
  text% "\trAB-ID\t\tRAB-ID,\n",
  text% "\tcause\t\tCause,\n",
  text% "\tiE-Extensions\tProtocolExtensionContainer OPTIONAL,\n",
  text% "\t...\n",
  text% "}\n",
  text% "\n",
  text% "ResetResourceList \t::=\tSEQUENCE {\n",
  text% "\tresetResourceList-ies SEQUENCE (SIZE(0..maxProtocolIEs)) OF IE,\n",
  text% "\t...\n",
  text% "}\n",
  text% "\n",
  text% "ResetResourceItem ::= SEQUENCE {\n",
  text% "\tiuSigConId\t\tIuSignallingConnectionIdentifier,\n",
  text% "\tiE-Extensions\t\tProtocolExtensionContainer OPTIONAL,\n",
  text% "\t...\n",
  text% "}\n",
  text% "\n",
  text% "ResetResourceAckList \t::=\tSEQUENCE {\n",
  text% "\tresetResourceAckList-ies SEQUENCE (SIZE(0..maxProtocolIEs)) OF IE,\n",
  text% "\t...\n",
  text% "}\n",
  text% "\n",
  text% "ResetResourceAckItem ::= SEQUENCE {\n",
  text% "\tiuSigConId\t\tIuSignallingConnectionIdentifier,\n",
  text% "\tiE-Extensions\t\tProtocolExtensionContainer OPTIONAL,\n",
  text% "\t...\n",
  text% "}\n",
  text% "\n",
  text% "RAB-ReleaseItem ::= SEQUENCE {\n",
  text% "\trAB-ID\t\tRAB-ID,\n",
  text% "\tcause\t\tCause,\n",
  text% "\tiE-Extensions\tProtocolExtensionContainer OPTIONAL,\n",
  text% "\t...\n",
  text% "}\n",
  text% "\n",
  text% "RAB-SetupItem-EnhancedRelocCompleteReq ::= SEQUENCE {\n",
  text% "\trAB-ID\t\t\t\tRAB-ID,\n",
  text% "\ttransportLayerAddressReq1\tTransportLayerAddress\tOPTIONAL,\n",
  text% "\tiuTransportAssociationReq1\tIuTransportAssociation\tOPTIONAL,\n",
  text% "\tass-RAB-Parameters\t\tAss-RAB-Parameters OPTIONAL,\n",
  text% "\tiE-Extensions\t\t\tProtocolExtensionContainer OPTIONAL,\n",
  text% "\t...\n",
  text% "}\n",
  text% "\n",
  text% "RAB-SetupItem-EnhancedRelocCompleteRes ::= SEQUENCE {\n",
  text% "\trAB-ID\t\t\t\tRAB-ID,\n",
  text% "\trAB-Parameters\t\t\tRAB-Parameters\tOPTIONAL,\n",
  text% "\tuserPlaneInformation\t\tUserPlaneInformation,\n",
  text% "\ttransportLayerAddressRes1\tTransportLayerAddress\tOPTIONAL,\n",
  text% "\tiuTransportAssociationRes1\tIuTransportAssociation\tOPTIONAL,\n",
  text% "\trab2beReleasedList\t\tRAB-ToBeReleasedList-EnhancedRelocCompleteRes OPTIONAL,\n",
  text% "\tiE-Extensions\t\t\tProtocolExtensionContainer OPTIONAL,\n",
  text% "\t...\n",
  text% "}\n",
  text% "\n",
  text% "RAB-ToBeReleasedItem-EnhancedRelocCompleteRes ::= SEQUENCE {\n",
  text% "\trAB-ID\t\tRAB-ID,\n",
  text% "\tcause\t\tCause,\n",
  text% "\tiE-Extensions\tProtocolExtensionContainer OPTIONAL,\n",
  text% "\t...\n",
  text% "}\n",
  text% "\n",
  text% "RAB-SetupOrModifyItemFirst ::= SEQUENCE {\n",
  text% "\trAB-ID\t\t\t\tRAB-ID,\n",
  text% "\tnAS-SynchronisationIndicator\tNAS-SynchronisationIndicator\tOPTIONAL,\n",
  text% "\trAB-Parameters\t\t\tRAB-Parameters\t\t\tOPTIONAL,\n",
  text% "\tuserPlaneInformation\t\tUserPlaneInformation\t\tOPTIONAL,\n",
  text% "\ttransportLayerInformation\tTransportLayerInformation\tOPTIONAL,\n",
  text% "\tservice-Handover\t\tService-Handover\t\tOPTIONAL,\n",
  text% "\tiE-Extensions\t\t\tProtocolExtensionContainer\tOPTIONAL,\n",
  text% "\t...\n",
  text% "}\n",
  text% "\n",
  text% "TransportLayerInformation ::= SEQUENCE {\n",
  text% "\ttransportLayerAddress\tTransportLayerAddress,\n",
  text% "\tiuTransportAssociation\tIuTransportAssociation,\n",
  text% "\tiE-Extensions\t\tProtocolExtensionContainer OPTIONAL,\n",
  text% "\t...\n",
  text% "}\n",
  text% "\n",
  text% "RAB-SetupOrModifyItemSecond ::= SEQUENCE {\n",
  text% "\tpDP-TypeInformation\t\t\t\tPDP-TypeInformation \t\tOPTIONAL,\n",
  text% "\tdataVolumeReportingIndication\t\t\tDataVolumeReportingIndication \tOPTIONAL,\n",
  text% "\tdl-GTP-PDU-SequenceNumber\t\t\tDL-GTP-PDU-SequenceNumber \tOPTIONAL,\n",
  text% "\tul-GTP-PDU-SequenceNumber\t\t\tUL-GTP-PDU-SequenceNumber \tOPTIONAL,\n",
  text% "\tdl-N-PDU-SequenceNumber\t\t\t\tDL-N-PDU-SequenceNumber \tOPTIONAL,\n",
  text% "\tul-N-PDU-SequenceNumber\t\t\t\tUL-N-PDU-SequenceNumber\t\tOPTIONAL,\n",
  text% "\tiE-Extensions\t\t\t\t\tProtocolExtensionContainer OPTIONAL,\n",
  text% "\t...\n",
  text% "}\n",
  text% "\n",
  text% "RAB-SetupOrModifiedItem ::= SEQUENCE {\n",
  text% "\trAB-ID\t\t\tRAB-ID,\n",
  text% "\ttransportLayerAddress\tTransportLayerAddress\tOPTIONAL,\n",
  text% "\tiuTransportAssociation\tIuTransportAssociation\tOPTIONAL,\n",
  text% "\tdl-dataVolumes\t\tDataVolumeList\t\tOPTIONAL,\n",
  text% "\tiE-Extensions\t\tProtocolExtensionContainer OPTIONAL,\n",
  text% "\t...\n",
  text% "}\n",
  text% "\n",
  text% "RAB-ReleasedItem ::= SEQUENCE {\n",
  text% "\trAB-ID\t\t\t\tRAB-ID,\n",
  text% "\tdl-dataVolumes\t\t\tDataVolumeList\t\tOPTIONAL,\n",
  text% "\tdL-GTP-PDU-SequenceNumber\tDL-GTP-PDU-SequenceNumber\t\t\tOPTIONAL,\n",
  text% "\tuL-GTP-PDU-SequenceNumber\tUL-GTP-PDU-SequenceNumber\t\t\tOPTIONAL,\n",
  text% "\tiE-Extensions\t\t\tProtocolExtensionContainer OPTIONAL,\n",
  text% "\t...\n",
  text% "}\n",
  text% "\n",
  text% "DataVolumeList ::= SEQUENCE (SIZE (1..maxNrOfVol)) OF DataVolumeList-Value\n",
  text% "DataVolumeList-Value ::=\n",
  text% "\tSEQUENCE {\n",
  text% "\t\tdl-UnsuccessfullyTransmittedDataVolume\tUnsuccessfullyTransmittedDataVolume,\n",
  text% "\t\tdataVolumeReference\t\t\tDataVolumeReference\tOPTIONAL,\n",
  text% "\t\tiE-Extensions\t\t\t\tProtocolExtensionContainer OPTIONAL,\n",
  text% "\t\t...\n",
  text% "\t}\n",
  text% "\n",
  text% "RAB-QueuedItem ::= SEQUENCE {\n",
  text% "\trAB-ID\t\tRAB-ID,\n",
  text% "\tiE-Extensions\tProtocolExtensionContainer OPTIONAL,\n",
  text% "\t...\n",
  text% "}\n",
  text% "\n",
  text% "RAB-ReleaseFailedList ::= RAB-FailedList\n",
  text% "\n",
  text% "GERAN-Iumode-RAB-Failed-RABAssgntResponse-List\t::= SEQUENCE {\n",
  text% "\tgeraN-Iumode-RAB-Failed-RABAssgntResponse-List-ies SEQUENCE (SIZE(0..maxProtocolIEs)) OF IE,\n",
  text% "\t...\n",
  text% "}\n",
  text% "\n",
  text% "GERAN-Iumode-RAB-Failed-RABAssgntResponse-Item ::= SEQUENCE {\n",
  text% "\trAB-ID\t\tRAB-ID,\n",
  text% "\tcause\t\tCause,\n",
  text% "\tgERAN-Classmark\tGERAN-Classmark\t\tOPTIONAL,\n",
  text% "\tiE-Extensions\tProtocolExtensionContainer OPTIONAL,\n",
  text% "\t...\n",
  text% "}\n",
  text% "\n",
  text% "DirectTransferInformationItem-RANAP-RelocInf ::= SEQUENCE {\n",
  text% "\tnAS-PDU\t\t\tNAS-PDU,\n",
  text% "\tsAPI\t\t\tSAPI,\n",
  text% "\tcN-DomainIndicator\tCN-DomainIndicator,\n",
  text% "\tiE-Extensions\t\tProtocolExtensionContainer OPTIONAL,\n",
  text% "\t...\n",
  text% "}\n",
  text% "\n",
  text% "RAB-ContextItem-RANAP-RelocInf ::= SEQUENCE {\n",
  text% "\trAB-ID\t\t\t\tRAB-ID,\n",
  text% "\tdl-GTP-PDU-SequenceNumber\tDL-GTP-PDU-SequenceNumber \tOPTIONAL,\n",
  text% "\tul-GTP-PDU-SequenceNumber\tUL-GTP-PDU-SequenceNumber \tOPTIONAL,\n",
  text% "\tdl-N-PDU-SequenceNumber\t\tDL-N-PDU-SequenceNumber\t\tOPTIONAL,\n",
  text% "\tul-N-PDU-SequenceNumber\t\tUL-N-PDU-SequenceNumber\t\tOPTIONAL,\n",
  text% "\tiE-Extensions\t\t\tProtocolExtensionContainer\tOPTIONAL,\n",
  text% "\t...\n",
  text% "}\n",
  text% "\n",
  text% "RAB-SetupItem-EnhRelocInfoReq ::= SEQUENCE {\n",
  text% "\trAB-ID\t\t\t\tRAB-ID,\n",
  text% "\tcN-DomainIndicator\t\tCN-DomainIndicator,\n",
  text% "\trAB-Parameters\t\t\tRAB-Parameters,\n",
  text% "\tdataVolumeReportingIndication\tDataVolumeReportingIndication \tOPTIONAL\n",
  text% "\t-- This IE shall be present if the CN domain indicator IE is set to \"PS domain\" --,\n",
  text% "\tpDP-TypeInformation\t\tPDP-TypeInformation\t\tOPTIONAL\n",
  text% "\t-- This IE shall be present if the CN domain indicator IE is set to \"PS domain\" --,\n",
  text% "\tuserPlaneInformation\t\tUserPlaneInformation,\n",
  text% "\tdataForwardingInformation\tTNLInformationEnhRelInfoReq\tOPTIONAL,\n",
  text% "\tsourceSideIuULTNLInfo\t\tTNLInformationEnhRelInfoReq\tOPTIONAL,\n",
  text% "\t\n",
  text% "\tservice-Handover\t\tService-Handover\t\tOPTIONAL,\n",
  text% "\talt-RAB-Parameters\t\tAlt-RAB-Parameters\t\tOPTIONAL,\n",
  text% "\tiE-Extensions\t\t\tProtocolExtensionContainer\tOPTIONAL,\n",
  text% "\t...\n",
  text% "}\n",
  text% "\n",
  text% "TNLInformationEnhRelInfoReq ::=SEQUENCE{\n",
  text% "\ttransportLayerAddress\tTransportLayerAddress,\n",
  text% "\tiuTransportAssociation\tIuTransportAssociation,\n",
  text% "\tiE-Extensions\t\tProtocolExtensionContainer OPTIONAL,\n",
  text% "\t...\n",
  text% "}\n",
  text% "\n",
  text% "\n",
  text% "RAB-SetupItem-EnhRelocInfoRes ::= SEQUENCE {\n",
  text% "\tcN-DomainIndicator\t\tCN-DomainIndicator,\n",
  text% "\trAB-ID\t\t\t\tRAB-ID,\n",
  text% "\tdataForwardingInformation\tTNLInformationEnhRelInfoRes\tOPTIONAL,\n",
  text% "\tass-RAB-Parameters\t\tAss-RAB-Parameters\t\tOPTIONAL,\n",
  text% "\tiE-Extensions\t\t\tProtocolExtensionContainer\tOPTIONAL,\n",
  text% "\t...\n",
  text% "}\n",
  text% "\n",
  text% "RAB-FailedItem-EnhRelocInfoRes ::= SEQUENCE {\n",
  text% "\tcN-DomainIndicator\tCN-DomainIndicator,\n",
  text% "\trAB-ID\t\t\tRAB-ID,\n",
  text% "\tcause\t\t\tCause,\n",
  text% "\tiE-Extensions\t\tProtocolExtensionContainer OPTIONAL,\n",
  text% "\t...\n",
  text% "}\n",
  text% "\n",
  text% "TNLInformationEnhRelInfoRes ::=SEQUENCE{\n",
  text% "\tdl-forwardingTransportLayerAddress\tTransportLayerAddress,\n",
  text% "\tdl-forwardingTransportAssociation\tIuTransportAssociation,\n",
  text% "\tiE-Extensions \t\t\t\tProtocolExtensionContainer OPTIONAL,\n",
  text% "\t...\n",
  text% "}\n",
  text% "\n",
  text% "\n",
  text% "-- **************************************************************\n",
  text% "--\n",
  text% "-- RAB MODIFICATION REQUEST ELEMENTARY PROCEDURE\n",
  text% "--\n",
  text% "-- **************************************************************\n",
  text% "\n",
  text% "RAB-ModifyItem ::= SEQUENCE {\n",
  text% "\trAB-ID\t\t\t\tRAB-ID,\n",
  text% "\trequested-RAB-Parameter-Values\tRequested-RAB-Parameter-Values,\n",
  text% "\tiE-Extensions\t\t\tProtocolExtensionContainer OPTIONAL,\n",
  text% "\t...\n",
  text% "}\n",
  text% "\n",
  text% "MBMSSynchronisationInformation ::= SEQUENCE {\n",
  text% "\tmBMSHCIndicator\t\tMBMSHCIndicator,\n",
  text% "\tiPMulticastAddress\tIPMulticastAddress,\n",
  text% "\tgTPDLTEID\t\tGTP-TEI,\n",
  text% "\tiE-Extensions\t\tProtocolExtensionContainer OPTIONAL,\n",
  text% "\t...\n",
  text% "}\n",
  text% "\n",
  text% "LeftMBMSBearerService-IEs ::= SEQUENCE (SIZE (1.. maxnoofMulticastServicesPerUE)) OF LeftMBMSBearerService-IEs-Value\n",
  text% "LeftMBMSBearerService-IEs-Value ::=\n",
  text% "\tSEQUENCE {\n",
  text% "\t\ttMGI\t\tTMGI,\n",
  text% "\t\tiE-Extensions\tProtocolExtensionContainer OPTIONAL,\n",
  text% "\t\t...\n",
  text% "\t}\n",
  text% "\n",
  text% "UnsuccessfulLinking-IEs ::= SEQUENCE (SIZE (1.. maxnoofMulticastServicesPerUE)) OF UnsuccessfulLinking-IEs-Value\n",
  text% "UnsuccessfulLinking-IEs-Value ::=\n",
  text% "\tSEQUENCE {\n",
  text% "\t\ttMGI\t\tTMGI,\n",
  text% "\t\tcause\t\tCause,\n",
  text% "\t\tiE-Extensions\tProtocolExtensionContainer OPTIONAL,\n",
  text% "\t\t...\n",
  text% "\t}\n",
  text% "\n",
  text% "\n",
  text% "END\n"]

end Verif.Gen.Text
