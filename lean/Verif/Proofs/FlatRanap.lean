import Verif.Gen.RanapTypesMore
import Verif.Gen.TextFlat
import Verif.Proofs.TypesRanap
import Verif.Model.AsnToC

/-!
# The descriptors of RANAP are those of the simplified module
-/

namespace Verif.Gen.Text
open Verif.AsnToStruct Verif.AsnToStruct.Spec

/-- Of `ranapFlat`. -/
noncomputable def ranapFlatAssignments : List Assignment := [
  .type (text% "RANAP-PDU") (.choice (.cons (text% "initiatingMessage") (.ref (text% "InitiatingMessage")) false (.cons (text% "successfulOutcome") (.ref (text% "SuccessfulOutcome")) false (.cons (text% "unsuccessfulOutcome") (.ref (text% "UnsuccessfulOutcome")) false (.cons (text% "outcome") (.ref (text% "Outcome")) false .nil)))) (some .nil)),
  .type (text% "InitiatingMessage") (.seq (.cons (text% "procedureCode") (.ref (text% "ProcedureCode")) false (.cons (text% "criticality") (.ref (text% "Criticality")) false (.cons (text% "value") .any false .nil))) none),
  .type (text% "SuccessfulOutcome") (.seq (.cons (text% "procedureCode") (.ref (text% "ProcedureCode")) false (.cons (text% "criticality") (.ref (text% "Criticality")) false (.cons (text% "value") .any false .nil))) none),
  .type (text% "UnsuccessfulOutcome") (.seq (.cons (text% "procedureCode") (.ref (text% "ProcedureCode")) false (.cons (text% "criticality") (.ref (text% "Criticality")) false (.cons (text% "value") .any false .nil))) none),
  .type (text% "Outcome") (.seq (.cons (text% "procedureCode") (.ref (text% "ProcedureCode")) false (.cons (text% "criticality") (.ref (text% "Criticality")) false (.cons (text% "value") .any false .nil))) none),
  .type (text% "Iu-ReleaseCommand") (.seq (.cons (text% "iu-ReleaseCommand-ies") (.seqOf (some ⟨text% "0", text% "maxProtocolIEs", false⟩) (.ref (text% "IE"))) false .nil) (some .nil)),
  .type (text% "Iu-ReleaseComplete") (.seq (.cons (text% "iu-ReleaseComplete-ies") (.seqOf (some ⟨text% "0", text% "maxProtocolIEs", false⟩) (.ref (text% "IE"))) false .nil) (some .nil)),
  .type (text% "RelocationRequired") (.seq (.cons (text% "relocationRequired-ies") (.seqOf (some ⟨text% "0", text% "maxProtocolIEs", false⟩) (.ref (text% "IE"))) false .nil) (some .nil)),
  .type (text% "RelocationCommand") (.seq (.cons (text% "relocationCommand-ies") (.seqOf (some ⟨text% "0", text% "maxProtocolIEs", false⟩) (.ref (text% "IE"))) false .nil) (some .nil)),
  .type (text% "RelocationPreparationFailure") (.seq (.cons (text% "relocationPreparationFailure-ies") (.seqOf (some ⟨text% "0", text% "maxProtocolIEs", false⟩) (.ref (text% "IE"))) false .nil) (some .nil)),
  .type (text% "RelocationRequest") (.seq (.cons (text% "relocationRequest-ies") (.seqOf (some ⟨text% "0", text% "maxProtocolIEs", false⟩) (.ref (text% "IE"))) false .nil) (some .nil)),
  .type (text% "RelocationRequestAcknowledge") (.seq (.cons (text% "relocationRequestAcknowledge-ies") (.seqOf (some ⟨text% "0", text% "maxProtocolIEs", false⟩) (.ref (text% "IE"))) false .nil) (some .nil)),
  .type (text% "RelocationFailure") (.seq (.cons (text% "relocationFailure-ies") (.seqOf (some ⟨text% "0", text% "maxProtocolIEs", false⟩) (.ref (text% "IE"))) false .nil) (some .nil)),
  .type (text% "RelocationCancel") (.seq (.cons (text% "relocationCancel-ies") (.seqOf (some ⟨text% "0", text% "maxProtocolIEs", false⟩) (.ref (text% "IE"))) false .nil) (some .nil)),
  .type (text% "RelocationCancelAcknowledge") (.seq (.cons (text% "relocationCancelAcknowledge-ies") (.seqOf (some ⟨text% "0", text% "maxProtocolIEs", false⟩) (.ref (text% "IE"))) false .nil) (some .nil)),
  .type (text% "SRNS-ContextRequest") (.seq (.cons (text% "srnS-ContextRequest-ies") (.seqOf (some ⟨text% "0", text% "maxProtocolIEs", false⟩) (.ref (text% "IE"))) false .nil) (some .nil)),
  .type (text% "RAB-DataForwardingList-SRNS-CtxReq") (.seq (.cons (text% "raB-DataForwardingList-SRNS-CtxReq-ies") (.seqOf (some ⟨text% "0", text% "maxProtocolIEs", false⟩) (.ref (text% "IE"))) false .nil) (some .nil)),
  .type (text% "DataVolumeReportRequest") (.seq (.cons (text% "dataVolumeReportRequest-ies") (.seqOf (some ⟨text% "0", text% "maxProtocolIEs", false⟩) (.ref (text% "IE"))) false .nil) (some .nil)),
  .type (text% "SRNS-ContextResponse") (.seq (.cons (text% "srnS-ContextResponse-ies") (.seqOf (some ⟨text% "0", text% "maxProtocolIEs", false⟩) (.ref (text% "IE"))) false .nil) (some .nil)),
  .type (text% "SecurityModeCommand") (.seq (.cons (text% "securityModeCommand-ies") (.seqOf (some ⟨text% "0", text% "maxProtocolIEs", false⟩) (.ref (text% "IE"))) false .nil) (some .nil)),
  .type (text% "SecurityModeComplete") (.seq (.cons (text% "securityModeComplete-ies") (.seqOf (some ⟨text% "0", text% "maxProtocolIEs", false⟩) (.ref (text% "IE"))) false .nil) (some .nil)),
  .type (text% "SecurityModeReject") (.seq (.cons (text% "securityModeReject-ies") (.seqOf (some ⟨text% "0", text% "maxProtocolIEs", false⟩) (.ref (text% "IE"))) false .nil) (some .nil)),
  .type (text% "DataVolumeReport") (.seq (.cons (text% "dataVolumeReport-ies") (.seqOf (some ⟨text% "0", text% "maxProtocolIEs", false⟩) (.ref (text% "IE"))) false .nil) (some .nil)),
  .type (text% "Reset") (.seq (.cons (text% "reset-ies") (.seqOf (some ⟨text% "0", text% "maxProtocolIEs", false⟩) (.ref (text% "IE"))) false .nil) (some .nil)),
  .type (text% "ResetAcknowledge") (.seq (.cons (text% "resetAcknowledge-ies") (.seqOf (some ⟨text% "0", text% "maxProtocolIEs", false⟩) (.ref (text% "IE"))) false .nil) (some .nil)),
  .type (text% "RAB-ReleaseRequest") (.seq (.cons (text% "raB-ReleaseRequest-ies") (.seqOf (some ⟨text% "0", text% "maxProtocolIEs", false⟩) (.ref (text% "IE"))) false .nil) (some .nil)),
  .type (text% "RedirectionIndication") (.seq (.cons (text% "redirectionIndication-ies") (.seqOf (some ⟨text% "0", text% "maxProtocolIEs", false⟩) (.ref (text% "IE"))) false .nil) (some .nil)),
  .type (text% "RAB-ReleaseList") (.seq (.cons (text% "raB-ReleaseList-ies") (.seqOf (some ⟨text% "0", text% "maxProtocolIEs", false⟩) (.ref (text% "IE"))) false .nil) (some .nil)),
  .type (text% "Iu-ReleaseRequest") (.seq (.cons (text% "iu-ReleaseRequest-ies") (.seqOf (some ⟨text% "0", text% "maxProtocolIEs", false⟩) (.ref (text% "IE"))) false .nil) (some .nil)),
  .type (text% "RelocationDetect") (.seq (.cons (text% "relocationDetect-ies") (.seqOf (some ⟨text% "0", text% "maxProtocolIEs", false⟩) (.ref (text% "IE"))) false .nil) (some .nil)),
  .type (text% "RelocationComplete") (.seq (.cons (text% "relocationComplete-ies") (.seqOf (some ⟨text% "0", text% "maxProtocolIEs", false⟩) (.ref (text% "IE"))) false .nil) (some .nil)),
  .type (text% "Paging") (.seq (.cons (text% "paging-ies") (.seqOf (some ⟨text% "0", text% "maxProtocolIEs", false⟩) (.ref (text% "IE"))) false .nil) (some .nil)),
  .type (text% "CommonID") (.seq (.cons (text% "commonID-ies") (.seqOf (some ⟨text% "0", text% "maxProtocolIEs", false⟩) (.ref (text% "IE"))) false .nil) (some .nil)),
  .type (text% "CN-InvokeTrace") (.seq (.cons (text% "cN-InvokeTrace-ies") (.seqOf (some ⟨text% "0", text% "maxProtocolIEs", false⟩) (.ref (text% "IE"))) false .nil) (some .nil)),
  .type (text% "CN-DeactivateTrace") (.seq (.cons (text% "cN-DeactivateTrace-ies") (.seqOf (some ⟨text% "0", text% "maxProtocolIEs", false⟩) (.ref (text% "IE"))) false .nil) (some .nil)),
  .type (text% "LocationReportingControl") (.seq (.cons (text% "locationReportingControl-ies") (.seqOf (some ⟨text% "0", text% "maxProtocolIEs", false⟩) (.ref (text% "IE"))) false .nil) (some .nil)),
  .type (text% "LocationReport") (.seq (.cons (text% "locationReport-ies") (.seqOf (some ⟨text% "0", text% "maxProtocolIEs", false⟩) (.ref (text% "IE"))) false .nil) (some .nil)),
  .type (text% "InitialUE-Message") (.seq (.cons (text% "initialUE-Message-ies") (.seqOf (some ⟨text% "0", text% "maxProtocolIEs", false⟩) (.ref (text% "IE"))) false .nil) (some .nil)),
  .type (text% "DirectTransfer") (.seq (.cons (text% "directTransfer-ies") (.seqOf (some ⟨text% "0", text% "maxProtocolIEs", false⟩) (.ref (text% "IE"))) false .nil) (some .nil)),
  .type (text% "Overload") (.seq (.cons (text% "overload-ies") (.seqOf (some ⟨text% "0", text% "maxProtocolIEs", false⟩) (.ref (text% "IE"))) false .nil) (some .nil)),
  .type (text% "ErrorIndication") (.seq (.cons (text% "errorIndication-ies") (.seqOf (some ⟨text% "0", text% "maxProtocolIEs", false⟩) (.ref (text% "IE"))) false .nil) (some .nil)),
  .type (text% "SRNS-DataForwardCommand") (.seq (.cons (text% "srnS-DataForwardCommand-ies") (.seqOf (some ⟨text% "0", text% "maxProtocolIEs", false⟩) (.ref (text% "IE"))) false .nil) (some .nil)),
  .type (text% "ForwardSRNS-Context") (.seq (.cons (text% "forwardSRNS-Context-ies") (.seqOf (some ⟨text% "0", text% "maxProtocolIEs", false⟩) (.ref (text% "IE"))) false .nil) (some .nil)),
  .type (text% "RAB-AssignmentRequest") (.seq (.cons (text% "raB-AssignmentRequest-ies") (.seqOf (some ⟨text% "0", text% "maxProtocolIEs", false⟩) (.ref (text% "IE"))) false .nil) (some .nil)),
  .type (text% "RAB-SetupOrModifyList") (.ref (text% "RAB-IE-ContainerPairList")),
  .type (text% "RAB-AssignmentResponse") (.seq (.cons (text% "raB-AssignmentResponse-ies") (.seqOf (some ⟨text% "0", text% "maxProtocolIEs", false⟩) (.ref (text% "IE"))) false .nil) (some .nil)),
  .type (text% "PrivateMessage") (.seq (.cons (text% "privateMessage-ies") (.seqOf (some ⟨text% "0", text% "maxProtocolIEs", false⟩) (.ref (text% "IE"))) false .nil) (some .nil)),
  .type (text% "ResetResource") (.seq (.cons (text% "resetResource-ies") (.seqOf (some ⟨text% "0", text% "maxProtocolIEs", false⟩) (.ref (text% "IE"))) false .nil) (some .nil)),
  .type (text% "ResetResourceAcknowledge") (.seq (.cons (text% "resetResourceAcknowledge-ies") (.seqOf (some ⟨text% "0", text% "maxProtocolIEs", false⟩) (.ref (text% "IE"))) false .nil) (some .nil)),
  .type (text% "RANAP-RelocationInformation") (.seq (.cons (text% "ranaP-RelocationInformation-ies") (.seqOf (some ⟨text% "0", text% "maxProtocolIEs", false⟩) (.ref (text% "IE"))) false .nil) (some .nil)),
  .type (text% "RAB-ModifyRequest") (.seq (.cons (text% "raB-ModifyRequest-ies") (.seqOf (some ⟨text% "0", text% "maxProtocolIEs", false⟩) (.ref (text% "IE"))) false .nil) (some .nil)),
  .type (text% "LocationRelatedDataRequest") (.seq (.cons (text% "locationRelatedDataRequest-ies") (.seqOf (some ⟨text% "0", text% "maxProtocolIEs", false⟩) (.ref (text% "IE"))) false .nil) (some .nil)),
  .type (text% "LocationRelatedDataResponse") (.seq (.cons (text% "locationRelatedDataResponse-ies") (.seqOf (some ⟨text% "0", text% "maxProtocolIEs", false⟩) (.ref (text% "IE"))) false .nil) (some .nil)),
  .type (text% "LocationRelatedDataFailure") (.seq (.cons (text% "locationRelatedDataFailure-ies") (.seqOf (some ⟨text% "0", text% "maxProtocolIEs", false⟩) (.ref (text% "IE"))) false .nil) (some .nil)),
  .type (text% "InformationTransferIndication") (.seq (.cons (text% "informationTransferIndication-ies") (.seqOf (some ⟨text% "0", text% "maxProtocolIEs", false⟩) (.ref (text% "IE"))) false .nil) (some .nil)),
  .type (text% "InformationTransferConfirmation") (.seq (.cons (text% "informationTransferConfirmation-ies") (.seqOf (some ⟨text% "0", text% "maxProtocolIEs", false⟩) (.ref (text% "IE"))) false .nil) (some .nil)),
  .type (text% "InformationTransferFailure") (.seq (.cons (text% "informationTransferFailure-ies") (.seqOf (some ⟨text% "0", text% "maxProtocolIEs", false⟩) (.ref (text% "IE"))) false .nil) (some .nil)),
  .type (text% "UESpecificInformationIndication") (.seq (.cons (text% "ueSpecificInformationIndication-ies") (.seqOf (some ⟨text% "0", text% "maxProtocolIEs", false⟩) (.ref (text% "IE"))) false .nil) (some .nil)),
  .type (text% "DirectInformationTransfer") (.seq (.cons (text% "directInformationTransfer-ies") (.seqOf (some ⟨text% "0", text% "maxProtocolIEs", false⟩) (.ref (text% "IE"))) false .nil) (some .nil)),
  .type (text% "UplinkInformationExchangeRequest") (.seq (.cons (text% "uplinkInformationExchangeRequest-ies") (.seqOf (some ⟨text% "0", text% "maxProtocolIEs", false⟩) (.ref (text% "IE"))) false .nil) (some .nil)),
  .type (text% "UplinkInformationExchangeResponse") (.seq (.cons (text% "uplinkInformationExchangeResponse-ies") (.seqOf (some ⟨text% "0", text% "maxProtocolIEs", false⟩) (.ref (text% "IE"))) false .nil) (some .nil)),
  .type (text% "UplinkInformationExchangeFailure") (.seq (.cons (text% "uplinkInformationExchangeFailure-ies") (.seqOf (some ⟨text% "0", text% "maxProtocolIEs", false⟩) (.ref (text% "IE"))) false .nil) (some .nil)),
  .type (text% "MBMSSessionStart") (.seq (.cons (text% "mbmsSessionStart-ies") (.seqOf (some ⟨text% "0", text% "maxProtocolIEs", false⟩) (.ref (text% "IE"))) false .nil) (some .nil)),
  .type (text% "MBMSSessionStartResponse") (.seq (.cons (text% "mbmsSessionStartResponse-ies") (.seqOf (some ⟨text% "0", text% "maxProtocolIEs", false⟩) (.ref (text% "IE"))) false .nil) (some .nil)),
  .type (text% "MBMSSessionStartFailure") (.seq (.cons (text% "mbmsSessionStartFailure-ies") (.seqOf (some ⟨text% "0", text% "maxProtocolIEs", false⟩) (.ref (text% "IE"))) false .nil) (some .nil)),
  .type (text% "MBMSSessionUpdate") (.seq (.cons (text% "mbmsSessionUpdate-ies") (.seqOf (some ⟨text% "0", text% "maxProtocolIEs", false⟩) (.ref (text% "IE"))) false .nil) (some .nil)),
  .type (text% "MBMSSessionUpdateResponse") (.seq (.cons (text% "mbmsSessionUpdateResponse-ies") (.seqOf (some ⟨text% "0", text% "maxProtocolIEs", false⟩) (.ref (text% "IE"))) false .nil) (some .nil)),
  .type (text% "MBMSSessionUpdateFailure") (.seq (.cons (text% "mbmsSessionUpdateFailure-ies") (.seqOf (some ⟨text% "0", text% "maxProtocolIEs", false⟩) (.ref (text% "IE"))) false .nil) (some .nil)),
  .type (text% "MBMSSessionStop") (.seq (.cons (text% "mbmsSessionStop-ies") (.seqOf (some ⟨text% "0", text% "maxProtocolIEs", false⟩) (.ref (text% "IE"))) false .nil) (some .nil)),
  .type (text% "MBMSSessionStopResponse") (.seq (.cons (text% "mbmsSessionStopResponse-ies") (.seqOf (some ⟨text% "0", text% "maxProtocolIEs", false⟩) (.ref (text% "IE"))) false .nil) (some .nil)),
  .type (text% "MBMSUELinkingRequest") (.seq (.cons (text% "mbmsueLinkingRequest-ies") (.seqOf (some ⟨text% "0", text% "maxProtocolIEs", false⟩) (.ref (text% "IE"))) false .nil) (some .nil)),
  .type (text% "MBMSUELinkingResponse") (.seq (.cons (text% "mbmsueLinkingResponse-ies") (.seqOf (some ⟨text% "0", text% "maxProtocolIEs", false⟩) (.ref (text% "IE"))) false .nil) (some .nil)),
  .type (text% "MBMSRegistrationRequest") (.seq (.cons (text% "mbmsRegistrationRequest-ies") (.seqOf (some ⟨text% "0", text% "maxProtocolIEs", false⟩) (.ref (text% "IE"))) false .nil) (some .nil)),
  .type (text% "MBMSRegistrationResponse") (.seq (.cons (text% "mbmsRegistrationResponse-ies") (.seqOf (some ⟨text% "0", text% "maxProtocolIEs", false⟩) (.ref (text% "IE"))) false .nil) (some .nil)),
  .type (text% "MBMSRegistrationFailure") (.seq (.cons (text% "mbmsRegistrationFailure-ies") (.seqOf (some ⟨text% "0", text% "maxProtocolIEs", false⟩) (.ref (text% "IE"))) false .nil) (some .nil)),
  .type (text% "MBMSCNDe-RegistrationRequest") (.seq (.cons (text% "mbmscnDe-RegistrationRequest-ies") (.seqOf (some ⟨text% "0", text% "maxProtocolIEs", false⟩) (.ref (text% "IE"))) false .nil) (some .nil)),
  .type (text% "MBMSCNDe-RegistrationResponse") (.seq (.cons (text% "mbmscnDe-RegistrationResponse-ies") (.seqOf (some ⟨text% "0", text% "maxProtocolIEs", false⟩) (.ref (text% "IE"))) false .nil) (some .nil)),
  .type (text% "MBMSRABEstablishmentIndication") (.seq (.cons (text% "mbmsrabEstablishmentIndication-ies") (.seqOf (some ⟨text% "0", text% "maxProtocolIEs", false⟩) (.ref (text% "IE"))) false .nil) (some .nil)),
  .type (text% "MBMSRABReleaseRequest") (.seq (.cons (text% "mbmsrabReleaseRequest-ies") (.seqOf (some ⟨text% "0", text% "maxProtocolIEs", false⟩) (.ref (text% "IE"))) false .nil) (some .nil)),
  .type (text% "MBMSRABRelease") (.seq (.cons (text% "mbmsrabRelease-ies") (.seqOf (some ⟨text% "0", text% "maxProtocolIEs", false⟩) (.ref (text% "IE"))) false .nil) (some .nil)),
  .type (text% "MBMSRABReleaseFailure") (.seq (.cons (text% "mbmsrabReleaseFailure-ies") (.seqOf (some ⟨text% "0", text% "maxProtocolIEs", false⟩) (.ref (text% "IE"))) false .nil) (some .nil)),
  .type (text% "EnhancedRelocationCompleteRequest") (.seq (.cons (text% "enhancedRelocationCompleteRequest-ies") (.seqOf (some ⟨text% "0", text% "maxProtocolIEs", false⟩) (.ref (text% "IE"))) false .nil) (some .nil)),
  .type (text% "EnhancedRelocationCompleteResponse") (.seq (.cons (text% "enhancedRelocationCompleteResponse-ies") (.seqOf (some ⟨text% "0", text% "maxProtocolIEs", false⟩) (.ref (text% "IE"))) false .nil) (some .nil)),
  .type (text% "EnhancedRelocationCompleteFailure") (.seq (.cons (text% "enhancedRelocationCompleteFailure-ies") (.seqOf (some ⟨text% "0", text% "maxProtocolIEs", false⟩) (.ref (text% "IE"))) false .nil) (some .nil)),
  .type (text% "EnhancedRelocationCompleteConfirm") (.seq (.cons (text% "enhancedRelocationCompleteConfirm-ies") (.seqOf (some ⟨text% "0", text% "maxProtocolIEs", false⟩) (.ref (text% "IE"))) false .nil) (some .nil)),
  .type (text% "RANAP-EnhancedRelocationInformationRequest") (.seq (.cons (text% "ranaP-EnhancedRelocationInformationRequest-ies") (.seqOf (some ⟨text% "0", text% "maxProtocolIEs", false⟩) (.ref (text% "IE"))) false .nil) (some .nil)),
  .type (text% "RANAP-EnhancedRelocationInformationResponse") (.seq (.cons (text% "ranaP-EnhancedRelocationInformationResponse-ies") (.seqOf (some ⟨text% "0", text% "maxProtocolIEs", false⟩) (.ref (text% "IE"))) false .nil) (some .nil)),
  .type (text% "SRVCC-CSKeysRequest") (.seq (.cons (text% "srvcC-CSKeysRequest-ies") (.seqOf (some ⟨text% "0", text% "maxProtocolIEs", false⟩) (.ref (text% "IE"))) false .nil) (some .nil)),
  .type (text% "SRVCC-CSKeysResponse") (.seq (.cons (text% "srvcC-CSKeysResponse-ies") (.seqOf (some ⟨text% "0", text% "maxProtocolIEs", false⟩) (.ref (text% "IE"))) false .nil) (some .nil)),
  .type (text% "UeRadioCapabilityMatchRequest") (.seq (.cons (text% "ueRadioCapabilityMatchRequest-ies") (.seqOf (some ⟨text% "0", text% "maxProtocolIEs", false⟩) (.ref (text% "IE"))) false .nil) (some .nil)),
  .type (text% "UeRadioCapabilityMatchResponse") (.seq (.cons (text% "ueRadioCapabilityMatchResponse-ies") (.seqOf (some ⟨text% "0", text% "maxProtocolIEs", false⟩) (.ref (text% "IE"))) false .nil) (some .nil)),
  .type (text% "ProtocolExtensionContainer") (.seqOf (some ⟨text% "1", text% "maxProtocolExtensions", false⟩) (.ref (text% "ProtocolExtensionField"))),
  .type (text% "ProtocolExtensionField") (.seq (.cons (text% "id") (.ref (text% "ProtocolIE-ID")) false (.cons (text% "criticality") (.ref (text% "Criticality")) false (.cons (text% "value") .any false .nil))) none),
  .type (text% "IE") (.seq (.cons (text% "id") (.ref (text% "ProtocolIE-ID")) false (.cons (text% "criticality") (.ref (text% "Criticality")) false (.cons (text% "value") .any false .nil))) none),
  .type (text% "ProtocolIE-Container") (.seqOf (some ⟨text% "0", text% "maxProtocolIEs", false⟩) (.ref (text% "IE"))),
  .type (text% "ProtocolIE-FieldPair") (.seq (.cons (text% "id") (.ref (text% "ProtocolIE-ID")) false (.cons (text% "firstCriticality") (.ref (text% "Criticality")) false (.cons (text% "firstValue") .any false (.cons (text% "secondCriticality") (.ref (text% "Criticality")) false (.cons (text% "secondValue") .any false .nil))))) none),
  .type (text% "ProtocolIE-ContainerPair") (.seqOf (some ⟨text% "0", text% "maxProtocolIEs", false⟩) (.ref (text% "ProtocolIE-FieldPair"))),
  .type (text% "RAB-IE-ContainerList") (.seqOf (some ⟨text% "1", text% "maxNrOfRABs", false⟩) (.ref (text% "ProtocolIE-Container"))),
  .type (text% "RAB-IE-ContainerPairList") (.seqOf (some ⟨text% "1", text% "maxNrOfRABs", false⟩) (.ref (text% "ProtocolIE-ContainerPair"))),
  .type (text% "ProtocolError-IE-ContainerList") (.seqOf (some ⟨text% "1", text% "maxNrOfRABs", false⟩) (.ref (text% "ProtocolIE-Container"))),
  .type (text% "IuSigConId-IE-ContainerList") (.seqOf (some ⟨text% "1", text% "maxNrOfIuSigConIds", false⟩) (.ref (text% "ProtocolIE-Container"))),
  .type (text% "DirectTransfer-IE-ContainerList") (.seqOf (some ⟨text% "1", text% "maxNrOfDTs", false⟩) (.ref (text% "ProtocolIE-Container"))),
  .type (text% "DataVolumeReportList") (.seq (.cons (text% "dataVolumeReportListe-ies") (.seqOf (some ⟨text% "0", text% "maxProtocolIEs", false⟩) (.ref (text% "IE"))) false .nil) (some .nil)),
  .type (text% "RAB-ReleasedList-IuRelComp") (.seq (.cons (text% "raB-ReleasedList-IuRelComp-ies") (.seqOf (some ⟨text% "0", text% "maxProtocolIEs", false⟩) (.ref (text% "IE"))) false .nil) (some .nil)),
  .type (text% "RAB-RelocationReleaseList") (.seq (.cons (text% "raB-RelocationReleaseList-ies") (.seqOf (some ⟨text% "0", text% "maxProtocolIEs", false⟩) (.ref (text% "IE"))) false .nil) (some .nil)),
  .type (text% "RAB-DataForwardingList") (.seq (.cons (text% "raB-DataForwardingList-ies") (.seqOf (some ⟨text% "0", text% "maxProtocolIEs", false⟩) (.ref (text% "IE"))) false .nil) (some .nil)),
  .type (text% "RAB-SetupList-RelocReq") (.seq (.cons (text% "raB-SetupList-RelocReq-ies") (.seqOf (some ⟨text% "0", text% "maxProtocolIEs", false⟩) (.ref (text% "IE"))) false .nil) (some .nil)),
  .type (text% "RAB-SetupList-RelocReqAck") (.seq (.cons (text% "raB-SetupList-RelocReqAck-ies") (.seqOf (some ⟨text% "0", text% "maxProtocolIEs", false⟩) (.ref (text% "IE"))) false .nil) (some .nil)),
  .type (text% "RAB-FailedList") (.seq (.cons (text% "raB-FailedList-ies") (.seqOf (some ⟨text% "0", text% "maxProtocolIEs", false⟩) (.ref (text% "IE"))) false .nil) (some .nil)),
  .type (text% "RAB-ContextList") (.seq (.cons (text% "raB-ContextList-ies") (.seqOf (some ⟨text% "0", text% "maxProtocolIEs", false⟩) (.ref (text% "IE"))) false .nil) (some .nil)),
  .type (text% "RABs-ContextFailedtoTransferList") (.seq (.cons (text% "raBs-ContextFailedtoTransferList-ies") (.seqOf (some ⟨text% "0", text% "maxProtocolIEs", false⟩) (.ref (text% "IE"))) false .nil) (some .nil)),
  .type (text% "RAB-DataVolumeReportRequestList") (.seq (.cons (text% "raB-DataVolumeReportRequestList-ies") (.seqOf (some ⟨text% "0", text% "maxProtocolIEs", false⟩) (.ref (text% "IE"))) false .nil) (some .nil)),
  .type (text% "RAB-DataVolumeReportRequestItem") (.seq (.cons (text% "rAB-ID") (.ref (text% "RAB-ID")) false (.cons (text% "iE-Extensions") (.ref (text% "ProtocolExtensionContainer")) true .nil)) (some .nil)),
  .type (text% "RABs-failed-to-reportList") (.seq (.cons (text% "raBs-failed-to-reportList-ies") (.seqOf (some ⟨text% "0", text% "maxProtocolIEs", false⟩) (.ref (text% "IE"))) false .nil) (some .nil)),
  .type (text% "RAB-SetupList-EnhancedRelocCompleteReq") (.seq (.cons (text% "raB-SetupList-EnhancedRelocCompleteReq-ies") (.seqOf (some ⟨text% "0", text% "maxProtocolIEs", false⟩) (.ref (text% "IE"))) false .nil) (some .nil)),
  .type (text% "RAB-SetupList-EnhancedRelocCompleteRes") (.seq (.cons (text% "raB-SetupList-EnhancedRelocCompleteRes-ies") (.seqOf (some ⟨text% "0", text% "maxProtocolIEs", false⟩) (.ref (text% "IE"))) false .nil) (some .nil)),
  .type (text% "RAB-ToBeReleasedList-EnhancedRelocCompleteRes") (.seq (.cons (text% "raB-ToBeReleasedList-EnhancedRelocCompleteRes-ies") (.seqOf (some ⟨text% "0", text% "maxProtocolIEs", false⟩) (.ref (text% "IE"))) false .nil) (some .nil)),
  .type (text% "RAB-SetupOrModifiedList") (.seq (.cons (text% "raB-SetupOrModifiedList-ies") (.seqOf (some ⟨text% "0", text% "maxProtocolIEs", false⟩) (.ref (text% "IE"))) false .nil) (some .nil)),
  .type (text% "RAB-ReleasedList") (.seq (.cons (text% "raB-ReleasedList-ies") (.seqOf (some ⟨text% "0", text% "maxProtocolIEs", false⟩) (.ref (text% "IE"))) false .nil) (some .nil)),
  .type (text% "RAB-QueuedList") (.seq (.cons (text% "raB-QueuedList-ies") (.seqOf (some ⟨text% "0", text% "maxProtocolIEs", false⟩) (.ref (text% "IE"))) false .nil) (some .nil)),
  .type (text% "RAB-ContextList-RANAP-RelocInf") (.seq (.cons (text% "raB-ContextList-RANAP-RelocInf-ies") (.seqOf (some ⟨text% "0", text% "maxProtocolIEs", false⟩) (.ref (text% "IE"))) false .nil) (some .nil)),
  .type (text% "RAB-SetupList-EnhRelocInfoReq") (.seq (.cons (text% "raB-SetupList-EnhRelocInfoReq-ies") (.seqOf (some ⟨text% "0", text% "maxProtocolIEs", false⟩) (.ref (text% "IE"))) false .nil) (some .nil)),
  .type (text% "RAB-SetupList-EnhRelocInfoRes") (.seq (.cons (text% "raB-SetupList-EnhRelocInfoRes-ies") (.seqOf (some ⟨text% "0", text% "maxProtocolIEs", false⟩) (.ref (text% "IE"))) false .nil) (some .nil)),
  .type (text% "RAB-FailedList-EnhRelocInfoRes") (.seq (.cons (text% "raB-FailedList-EnhRelocInfoRes-ies") (.seqOf (some ⟨text% "0", text% "maxProtocolIEs", false⟩) (.ref (text% "IE"))) false .nil) (some .nil)),
  .type (text% "RAB-ModifyList") (.seq (.cons (text% "raB-ModifyList-ies") (.seqOf (some ⟨text% "0", text% "maxProtocolIEs", false⟩) (.ref (text% "IE"))) false .nil) (some .nil)),
  .type (text% "RAB-DataVolumeReportList") (.seq (.cons (text% "raB-DataVolumeReportList-ies") (.seqOf (some ⟨text% "0", text% "maxProtocolIEs", false⟩) (.ref (text% "IE"))) false .nil) (some .nil)),
  .type (text% "RAB-DataVolumeReportItem") (.seq (.cons (text% "rAB-ID") (.ref (text% "RAB-ID")) false (.cons (text% "dl-UnsuccessfullyTransmittedDataVolume") (.ref (text% "DataVolumeList")) true (.cons (text% "iE-Extensions") (.ref (text% "ProtocolExtensionContainer")) true .nil))) (some .nil)),
  .type (text% "RAB-ReleasedItem-IuRelComp") (.seq (.cons (text% "rAB-ID") (.ref (text% "RAB-ID")) false (.cons (text% "dL-GTP-PDU-SequenceNumber") (.ref (text% "DL-GTP-PDU-SequenceNumber")) true (.cons (text% "uL-GTP-PDU-SequenceNumber") (.ref (text% "UL-GTP-PDU-SequenceNumber")) true (.cons (text% "iE-Extensions") (.ref (text% "ProtocolExtensionContainer")) true .nil)))) (some .nil)),
  .type (text% "RAB-RelocationReleaseItem") (.seq (.cons (text% "rAB-ID") (.ref (text% "RAB-ID")) false (.cons (text% "iE-Extensions") (.ref (text% "ProtocolExtensionContainer")) true .nil)) (some .nil)),
  .type (text% "RAB-DataForwardingItem") (.seq (.cons (text% "rAB-ID") (.ref (text% "RAB-ID")) false (.cons (text% "transportLayerAddress") (.ref (text% "TransportLayerAddress")) false (.cons (text% "iuTransportAssociation") (.ref (text% "IuTransportAssociation")) false (.cons (text% "iE-Extensions") (.ref (text% "ProtocolExtensionContainer")) true .nil)))) (some .nil)),
  .type (text% "RAB-DataForwardingItem-SRNS-CtxReq") (.seq (.cons (text% "rAB-ID") (.ref (text% "RAB-ID")) false (.cons (text% "iE-Extensions") (.ref (text% "ProtocolExtensionContainer")) true .nil)) (some .nil)),
  .type (text% "RAB-SetupItem-RelocReq") (.seq (.cons (text% "rAB-ID") (.ref (text% "RAB-ID")) false (.cons (text% "nAS-SynchronisationIndicator") (.ref (text% "NAS-SynchronisationIndicator")) true (.cons (text% "rAB-Parameters") (.ref (text% "RAB-Parameters")) false (.cons (text% "dataVolumeReportingIndication") (.ref (text% "DataVolumeReportingIndication")) true (.cons (text% "pDP-TypeInformation") (.ref (text% "PDP-TypeInformation")) true (.cons (text% "userPlaneInformation") (.ref (text% "UserPlaneInformation")) false (.cons (text% "transportLayerAddress") (.ref (text% "TransportLayerAddress")) false (.cons (text% "iuTransportAssociation") (.ref (text% "IuTransportAssociation")) false (.cons (text% "service-Handover") (.ref (text% "Service-Handover")) true (.cons (text% "iE-Extensions") (.ref (text% "ProtocolExtensionContainer")) true .nil)))))))))) (some .nil)),
  .type (text% "UserPlaneInformation") (.seq (.cons (text% "userPlaneMode") (.ref (text% "UserPlaneMode")) false (.cons (text% "uP-ModeVersions") (.ref (text% "UP-ModeVersions")) false (.cons (text% "iE-Extensions") (.ref (text% "ProtocolExtensionContainer")) true .nil))) (some .nil)),
  .type (text% "CNMBMSLinkingInformation") (.seq (.cons (text% "joinedMBMSBearerService-IEs") (.ref (text% "JoinedMBMSBearerService-IEs")) false (.cons (text% "iE-Extensions") (.ref (text% "ProtocolExtensionContainer")) true .nil)) (some .nil)),
  .type (text% "JoinedMBMSBearerService-IEs") (.seqOf (some ⟨text% "1", text% "maxnoofMulticastServicesPerUE", false⟩) (.ref (text% "JoinedMBMSBearerService-IEs-Value"))),
  .type (text% "JoinedMBMSBearerService-IEs-Value") (.seq (.cons (text% "tMGI") (.ref (text% "TMGI")) false (.cons (text% "mBMS-PTP-RAB-ID") (.ref (text% "MBMS-PTP-RAB-ID")) false (.cons (text% "iE-Extensions") (.ref (text% "ProtocolExtensionContainer")) true .nil))) (some .nil)),
  .type (text% "RAB-SetupItem-RelocReqAck") (.seq (.cons (text% "rAB-ID") (.ref (text% "RAB-ID")) false (.cons (text% "transportLayerAddress") (.ref (text% "TransportLayerAddress")) true (.cons (text% "iuTransportAssociation") (.ref (text% "IuTransportAssociation")) true (.cons (text% "iE-Extensions") (.ref (text% "ProtocolExtensionContainer")) true .nil)))) (some .nil)),
  .type (text% "RAB-FailedItem") (.seq (.cons (text% "rAB-ID") (.ref (text% "RAB-ID")) false (.cons (text% "cause") (.ref (text% "Cause")) false (.cons (text% "iE-Extensions") (.ref (text% "ProtocolExtensionContainer")) true .nil))) (some .nil)),
  .type (text% "RAB-ContextItem") (.seq (.cons (text% "rAB-ID") (.ref (text% "RAB-ID")) false (.cons (text% "dl-GTP-PDU-SequenceNumber") (.ref (text% "DL-GTP-PDU-SequenceNumber")) true (.cons (text% "ul-GTP-PDU-SequenceNumber") (.ref (text% "UL-GTP-PDU-SequenceNumber")) true (.cons (text% "dl-N-PDU-SequenceNumber") (.ref (text% "DL-N-PDU-SequenceNumber")) true (.cons (text% "ul-N-PDU-SequenceNumber") (.ref (text% "UL-N-PDU-SequenceNumber")) true (.cons (text% "iE-Extensions") (.ref (text% "ProtocolExtensionContainer")) true .nil)))))) (some .nil)),
  .type (text% "RABs-ContextFailedtoTransferItem") (.seq (.cons (text% "rAB-ID") (.ref (text% "RAB-ID")) false (.cons (text% "cause") (.ref (text% "Cause")) false (.cons (text% "iE-Extensions") (.ref (text% "ProtocolExtensionContainer")) true .nil))) (some .nil)),
  .type (text% "RABs-failed-to-reportItem") (.seq (.cons (text% "rAB-ID") (.ref (text% "RAB-ID")) false (.cons (text% "cause") (.ref (text% "Cause")) false (.cons (text% "iE-Extensions") (.ref (text% "ProtocolExtensionContainer")) true .nil))) (some .nil)),
  .type (text% "ResetResourceList") (.seq (.cons (text% "resetResourceList-ies") (.seqOf (some ⟨text% "0", text% "maxProtocolIEs", false⟩) (.ref (text% "IE"))) false .nil) (some .nil)),
  .type (text% "ResetResourceItem") (.seq (.cons (text% "iuSigConId") (.ref (text% "IuSignallingConnectionIdentifier")) false (.cons (text% "iE-Extensions") (.ref (text% "ProtocolExtensionContainer")) true .nil)) (some .nil)),
  .type (text% "ResetResourceAckList") (.seq (.cons (text% "resetResourceAckList-ies") (.seqOf (some ⟨text% "0", text% "maxProtocolIEs", false⟩) (.ref (text% "IE"))) false .nil) (some .nil)),
  .type (text% "ResetResourceAckItem") (.seq (.cons (text% "iuSigConId") (.ref (text% "IuSignallingConnectionIdentifier")) false (.cons (text% "iE-Extensions") (.ref (text% "ProtocolExtensionContainer")) true .nil)) (some .nil)),
  .type (text% "RAB-ReleaseItem") (.seq (.cons (text% "rAB-ID") (.ref (text% "RAB-ID")) false (.cons (text% "cause") (.ref (text% "Cause")) false (.cons (text% "iE-Extensions") (.ref (text% "ProtocolExtensionContainer")) true .nil))) (some .nil)),
  .type (text% "RAB-SetupItem-EnhancedRelocCompleteReq") (.seq (.cons (text% "rAB-ID") (.ref (text% "RAB-ID")) false (.cons (text% "transportLayerAddressReq1") (.ref (text% "TransportLayerAddress")) true (.cons (text% "iuTransportAssociationReq1") (.ref (text% "IuTransportAssociation")) true (.cons (text% "ass-RAB-Parameters") (.ref (text% "Ass-RAB-Parameters")) true (.cons (text% "iE-Extensions") (.ref (text% "ProtocolExtensionContainer")) true .nil))))) (some .nil)),
  .type (text% "RAB-SetupItem-EnhancedRelocCompleteRes") (.seq (.cons (text% "rAB-ID") (.ref (text% "RAB-ID")) false (.cons (text% "rAB-Parameters") (.ref (text% "RAB-Parameters")) true (.cons (text% "userPlaneInformation") (.ref (text% "UserPlaneInformation")) false (.cons (text% "transportLayerAddressRes1") (.ref (text% "TransportLayerAddress")) true (.cons (text% "iuTransportAssociationRes1") (.ref (text% "IuTransportAssociation")) true (.cons (text% "rab2beReleasedList") (.ref (text% "RAB-ToBeReleasedList-EnhancedRelocCompleteRes")) true (.cons (text% "iE-Extensions") (.ref (text% "ProtocolExtensionContainer")) true .nil))))))) (some .nil)),
  .type (text% "RAB-ToBeReleasedItem-EnhancedRelocCompleteRes") (.seq (.cons (text% "rAB-ID") (.ref (text% "RAB-ID")) false (.cons (text% "cause") (.ref (text% "Cause")) false (.cons (text% "iE-Extensions") (.ref (text% "ProtocolExtensionContainer")) true .nil))) (some .nil)),
  .type (text% "RAB-SetupOrModifyItemFirst") (.seq (.cons (text% "rAB-ID") (.ref (text% "RAB-ID")) false (.cons (text% "nAS-SynchronisationIndicator") (.ref (text% "NAS-SynchronisationIndicator")) true (.cons (text% "rAB-Parameters") (.ref (text% "RAB-Parameters")) true (.cons (text% "userPlaneInformation") (.ref (text% "UserPlaneInformation")) true (.cons (text% "transportLayerInformation") (.ref (text% "TransportLayerInformation")) true (.cons (text% "service-Handover") (.ref (text% "Service-Handover")) true (.cons (text% "iE-Extensions") (.ref (text% "ProtocolExtensionContainer")) true .nil))))))) (some .nil)),
  .type (text% "TransportLayerInformation") (.seq (.cons (text% "transportLayerAddress") (.ref (text% "TransportLayerAddress")) false (.cons (text% "iuTransportAssociation") (.ref (text% "IuTransportAssociation")) false (.cons (text% "iE-Extensions") (.ref (text% "ProtocolExtensionContainer")) true .nil))) (some .nil)),
  .type (text% "RAB-SetupOrModifyItemSecond") (.seq (.cons (text% "pDP-TypeInformation") (.ref (text% "PDP-TypeInformation")) true (.cons (text% "dataVolumeReportingIndication") (.ref (text% "DataVolumeReportingIndication")) true (.cons (text% "dl-GTP-PDU-SequenceNumber") (.ref (text% "DL-GTP-PDU-SequenceNumber")) true (.cons (text% "ul-GTP-PDU-SequenceNumber") (.ref (text% "UL-GTP-PDU-SequenceNumber")) true (.cons (text% "dl-N-PDU-SequenceNumber") (.ref (text% "DL-N-PDU-SequenceNumber")) true (.cons (text% "ul-N-PDU-SequenceNumber") (.ref (text% "UL-N-PDU-SequenceNumber")) true (.cons (text% "iE-Extensions") (.ref (text% "ProtocolExtensionContainer")) true .nil))))))) (some .nil)),
  .type (text% "RAB-SetupOrModifiedItem") (.seq (.cons (text% "rAB-ID") (.ref (text% "RAB-ID")) false (.cons (text% "transportLayerAddress") (.ref (text% "TransportLayerAddress")) true (.cons (text% "iuTransportAssociation") (.ref (text% "IuTransportAssociation")) true (.cons (text% "dl-dataVolumes") (.ref (text% "DataVolumeList")) true (.cons (text% "iE-Extensions") (.ref (text% "ProtocolExtensionContainer")) true .nil))))) (some .nil)),
  .type (text% "RAB-ReleasedItem") (.seq (.cons (text% "rAB-ID") (.ref (text% "RAB-ID")) false (.cons (text% "dl-dataVolumes") (.ref (text% "DataVolumeList")) true (.cons (text% "dL-GTP-PDU-SequenceNumber") (.ref (text% "DL-GTP-PDU-SequenceNumber")) true (.cons (text% "uL-GTP-PDU-SequenceNumber") (.ref (text% "UL-GTP-PDU-SequenceNumber")) true (.cons (text% "iE-Extensions") (.ref (text% "ProtocolExtensionContainer")) true .nil))))) (some .nil)),
  .type (text% "DataVolumeList") (.seqOf (some ⟨text% "1", text% "maxNrOfVol", false⟩) (.ref (text% "DataVolumeList-Value"))),
  .type (text% "DataVolumeList-Value") (.seq (.cons (text% "dl-UnsuccessfullyTransmittedDataVolume") (.ref (text% "UnsuccessfullyTransmittedDataVolume")) false (.cons (text% "dataVolumeReference") (.ref (text% "DataVolumeReference")) true (.cons (text% "iE-Extensions") (.ref (text% "ProtocolExtensionContainer")) true .nil))) (some .nil)),
  .type (text% "RAB-QueuedItem") (.seq (.cons (text% "rAB-ID") (.ref (text% "RAB-ID")) false (.cons (text% "iE-Extensions") (.ref (text% "ProtocolExtensionContainer")) true .nil)) (some .nil)),
  .type (text% "RAB-ReleaseFailedList") (.ref (text% "RAB-FailedList")),
  .type (text% "GERAN-Iumode-RAB-Failed-RABAssgntResponse-List") (.seq (.cons (text% "geraN-Iumode-RAB-Failed-RABAssgntResponse-List-ies") (.seqOf (some ⟨text% "0", text% "maxProtocolIEs", false⟩) (.ref (text% "IE"))) false .nil) (some .nil)),
  .type (text% "GERAN-Iumode-RAB-Failed-RABAssgntResponse-Item") (.seq (.cons (text% "rAB-ID") (.ref (text% "RAB-ID")) false (.cons (text% "cause") (.ref (text% "Cause")) false (.cons (text% "gERAN-Classmark") (.ref (text% "GERAN-Classmark")) true (.cons (text% "iE-Extensions") (.ref (text% "ProtocolExtensionContainer")) true .nil)))) (some .nil)),
  .type (text% "DirectTransferInformationItem-RANAP-RelocInf") (.seq (.cons (text% "nAS-PDU") (.ref (text% "NAS-PDU")) false (.cons (text% "sAPI") (.ref (text% "SAPI")) false (.cons (text% "cN-DomainIndicator") (.ref (text% "CN-DomainIndicator")) false (.cons (text% "iE-Extensions") (.ref (text% "ProtocolExtensionContainer")) true .nil)))) (some .nil)),
  .type (text% "RAB-ContextItem-RANAP-RelocInf") (.seq (.cons (text% "rAB-ID") (.ref (text% "RAB-ID")) false (.cons (text% "dl-GTP-PDU-SequenceNumber") (.ref (text% "DL-GTP-PDU-SequenceNumber")) true (.cons (text% "ul-GTP-PDU-SequenceNumber") (.ref (text% "UL-GTP-PDU-SequenceNumber")) true (.cons (text% "dl-N-PDU-SequenceNumber") (.ref (text% "DL-N-PDU-SequenceNumber")) true (.cons (text% "ul-N-PDU-SequenceNumber") (.ref (text% "UL-N-PDU-SequenceNumber")) true (.cons (text% "iE-Extensions") (.ref (text% "ProtocolExtensionContainer")) true .nil)))))) (some .nil)),
  .type (text% "RAB-SetupItem-EnhRelocInfoReq") (.seq (.cons (text% "rAB-ID") (.ref (text% "RAB-ID")) false (.cons (text% "cN-DomainIndicator") (.ref (text% "CN-DomainIndicator")) false (.cons (text% "rAB-Parameters") (.ref (text% "RAB-Parameters")) false (.cons (text% "dataVolumeReportingIndication") (.ref (text% "DataVolumeReportingIndication")) true (.cons (text% "pDP-TypeInformation") (.ref (text% "PDP-TypeInformation")) true (.cons (text% "userPlaneInformation") (.ref (text% "UserPlaneInformation")) false (.cons (text% "dataForwardingInformation") (.ref (text% "TNLInformationEnhRelInfoReq")) true (.cons (text% "sourceSideIuULTNLInfo") (.ref (text% "TNLInformationEnhRelInfoReq")) true (.cons (text% "service-Handover") (.ref (text% "Service-Handover")) true (.cons (text% "alt-RAB-Parameters") (.ref (text% "Alt-RAB-Parameters")) true (.cons (text% "iE-Extensions") (.ref (text% "ProtocolExtensionContainer")) true .nil))))))))))) (some .nil)),
  .type (text% "TNLInformationEnhRelInfoReq") (.seq (.cons (text% "transportLayerAddress") (.ref (text% "TransportLayerAddress")) false (.cons (text% "iuTransportAssociation") (.ref (text% "IuTransportAssociation")) false (.cons (text% "iE-Extensions") (.ref (text% "ProtocolExtensionContainer")) true .nil))) (some .nil)),
  .type (text% "RAB-SetupItem-EnhRelocInfoRes") (.seq (.cons (text% "cN-DomainIndicator") (.ref (text% "CN-DomainIndicator")) false (.cons (text% "rAB-ID") (.ref (text% "RAB-ID")) false (.cons (text% "dataForwardingInformation") (.ref (text% "TNLInformationEnhRelInfoRes")) true (.cons (text% "ass-RAB-Parameters") (.ref (text% "Ass-RAB-Parameters")) true (.cons (text% "iE-Extensions") (.ref (text% "ProtocolExtensionContainer")) true .nil))))) (some .nil)),
  .type (text% "RAB-FailedItem-EnhRelocInfoRes") (.seq (.cons (text% "cN-DomainIndicator") (.ref (text% "CN-DomainIndicator")) false (.cons (text% "rAB-ID") (.ref (text% "RAB-ID")) false (.cons (text% "cause") (.ref (text% "Cause")) false (.cons (text% "iE-Extensions") (.ref (text% "ProtocolExtensionContainer")) true .nil)))) (some .nil)),
  .type (text% "TNLInformationEnhRelInfoRes") (.seq (.cons (text% "dl-forwardingTransportLayerAddress") (.ref (text% "TransportLayerAddress")) false (.cons (text% "dl-forwardingTransportAssociation") (.ref (text% "IuTransportAssociation")) false (.cons (text% "iE-Extensions") (.ref (text% "ProtocolExtensionContainer")) true .nil))) (some .nil)),
  .type (text% "RAB-ModifyItem") (.seq (.cons (text% "rAB-ID") (.ref (text% "RAB-ID")) false (.cons (text% "requested-RAB-Parameter-Values") (.ref (text% "Requested-RAB-Parameter-Values")) false (.cons (text% "iE-Extensions") (.ref (text% "ProtocolExtensionContainer")) true .nil))) (some .nil)),
  .type (text% "MBMSSynchronisationInformation") (.seq (.cons (text% "mBMSHCIndicator") (.ref (text% "MBMSHCIndicator")) false (.cons (text% "iPMulticastAddress") (.ref (text% "IPMulticastAddress")) false (.cons (text% "gTPDLTEID") (.ref (text% "GTP-TEI")) false (.cons (text% "iE-Extensions") (.ref (text% "ProtocolExtensionContainer")) true .nil)))) (some .nil)),
  .type (text% "LeftMBMSBearerService-IEs") (.seqOf (some ⟨text% "1", text% "maxnoofMulticastServicesPerUE", false⟩) (.ref (text% "LeftMBMSBearerService-IEs-Value"))),
  .type (text% "LeftMBMSBearerService-IEs-Value") (.seq (.cons (text% "tMGI") (.ref (text% "TMGI")) false (.cons (text% "iE-Extensions") (.ref (text% "ProtocolExtensionContainer")) true .nil)) (some .nil)),
  .type (text% "UnsuccessfulLinking-IEs") (.seqOf (some ⟨text% "1", text% "maxnoofMulticastServicesPerUE", false⟩) (.ref (text% "UnsuccessfulLinking-IEs-Value"))),
  .type (text% "UnsuccessfulLinking-IEs-Value") (.seq (.cons (text% "tMGI") (.ref (text% "TMGI")) false (.cons (text% "cause") (.ref (text% "Cause")) false (.cons (text% "iE-Extensions") (.ref (text% "ProtocolExtensionContainer")) true .nil))) (some .nil))]

/-- The types of the C code by name. -/
noncomputable def ranapDescriptors : List (Text × Aper.Ty) := [
  (text% "Criticality", Ranap.RANAP_Criticality),
  (text% "Presence", Ranap.RANAP_Presence),
  (text% "PrivateIE-ID", Ranap.RANAP_PrivateIE_ID),
  (text% "ProcedureCode", Ranap.RANAP_ProcedureCode),
  (text% "ProtocolExtensionID", Ranap.RANAP_ProtocolExtensionID),
  (text% "ProtocolIE-ID", Ranap.RANAP_ProtocolIE_ID),
  (text% "TriggeringMessage", Ranap.RANAP_TriggeringMessage),
  (text% "IE-Extensions", Ranap.RANAP_IE_Extensions),
  (text% "AccuracyFulfilmentIndicator", Ranap.RANAP_AccuracyFulfilmentIndicator),
  (text% "AllocationOrRetentionPriority", Ranap.RANAP_AllocationOrRetentionPriority),
  (text% "Alt-RAB-Parameters", Ranap.RANAP_Alt_RAB_Parameters),
  (text% "Alt-RAB-Parameter-ExtendedGuaranteedBitrateInf", Ranap.RANAP_Alt_RAB_Parameter_ExtendedGuaranteedBitrateInf),
  (text% "Alt-RAB-Parameter-ExtendedGuaranteedBitrates", Ranap.RANAP_Alt_RAB_Parameter_ExtendedGuaranteedBitrates),
  (text% "Alt-RAB-Parameter-ExtendedGuaranteedBitrateList", Ranap.RANAP_Alt_RAB_Parameter_ExtendedGuaranteedBitrateList),
  (text% "Alt-RAB-Parameter-GuaranteedBitrateInf", Ranap.RANAP_Alt_RAB_Parameter_GuaranteedBitrateInf),
  (text% "Alt-RAB-Parameter-GuaranteedBitrateType", Ranap.RANAP_Alt_RAB_Parameter_GuaranteedBitrateType),
  (text% "Alt-RAB-Parameter-GuaranteedBitrates", Ranap.RANAP_Alt_RAB_Parameter_GuaranteedBitrates),
  (text% "Alt-RAB-Parameter-GuaranteedBitrateList", Ranap.RANAP_Alt_RAB_Parameter_GuaranteedBitrateList),
  (text% "Alt-RAB-Parameter-SupportedGuaranteedBitrateInf", Ranap.RANAP_Alt_RAB_Parameter_SupportedGuaranteedBitrateInf),
  (text% "Alt-RAB-Parameter-SupportedGuaranteedBitrates", Ranap.RANAP_Alt_RAB_Parameter_SupportedGuaranteedBitrates),
  (text% "Alt-RAB-Parameter-ExtendedMaxBitrateInf", Ranap.RANAP_Alt_RAB_Parameter_ExtendedMaxBitrateInf),
  (text% "Alt-RAB-Parameter-ExtendedMaxBitrates", Ranap.RANAP_Alt_RAB_Parameter_ExtendedMaxBitrates),
  (text% "Alt-RAB-Parameter-ExtendedMaxBitrateList", Ranap.RANAP_Alt_RAB_Parameter_ExtendedMaxBitrateList),
  (text% "Alt-RAB-Parameter-MaxBitrateInf", Ranap.RANAP_Alt_RAB_Parameter_MaxBitrateInf),
  (text% "Alt-RAB-Parameter-MaxBitrateType", Ranap.RANAP_Alt_RAB_Parameter_MaxBitrateType),
  (text% "Alt-RAB-Parameter-MaxBitrates", Ranap.RANAP_Alt_RAB_Parameter_MaxBitrates),
  (text% "Alt-RAB-Parameter-MaxBitrateList", Ranap.RANAP_Alt_RAB_Parameter_MaxBitrateList),
  (text% "Alt-RAB-Parameter-SupportedMaxBitrateInf", Ranap.RANAP_Alt_RAB_Parameter_SupportedMaxBitrateInf),
  (text% "Alt-RAB-Parameter-SupportedMaxBitrates", Ranap.RANAP_Alt_RAB_Parameter_SupportedMaxBitrates),
  (text% "AlternativeRABConfigurationRequest", Ranap.RANAP_AlternativeRABConfigurationRequest),
  (text% "APN", Ranap.RANAP_APN),
  (text% "AreaIdentity", Ranap.RANAP_AreaIdentity),
  (text% "Ass-RAB-Parameters", Ranap.RANAP_Ass_RAB_Parameters),
  (text% "Ass-RAB-Parameter-ExtendedGuaranteedBitrateList", Ranap.RANAP_Ass_RAB_Parameter_ExtendedGuaranteedBitrateList),
  (text% "Ass-RAB-Parameter-ExtendedMaxBitrateList", Ranap.RANAP_Ass_RAB_Parameter_ExtendedMaxBitrateList),
  (text% "Ass-RAB-Parameter-GuaranteedBitrateList", Ranap.RANAP_Ass_RAB_Parameter_GuaranteedBitrateList),
  (text% "Ass-RAB-Parameter-MaxBitrateList", Ranap.RANAP_Ass_RAB_Parameter_MaxBitrateList),
  (text% "AuthorisedPLMNs", Ranap.RANAP_AuthorisedPLMNs),
  (text% "AuthorisedPLMNs-Value", Ranap.RANAP_AuthorisedPLMNs_Value),
  (text% "AuthorisedSNAs", Ranap.RANAP_AuthorisedSNAs),
  (text% "BindingID", Ranap.RANAP_BindingID),
  (text% "BroadcastAssistanceDataDecipheringKeys", Ranap.RANAP_BroadcastAssistanceDataDecipheringKeys),
  (text% "Cause", Ranap.RANAP_Cause),
  (text% "CauseMisc", Ranap.RANAP_CauseMisc),
  (text% "CauseNAS", Ranap.RANAP_CauseNAS),
  (text% "CauseProtocol", Ranap.RANAP_CauseProtocol),
  (text% "CauseRadioNetwork", Ranap.RANAP_CauseRadioNetwork),
  (text% "CauseRadioNetworkExtension", Ranap.RANAP_CauseRadioNetworkExtension),
  (text% "CauseNon-Standard", Ranap.RANAP_CauseNon_Standard),
  (text% "CauseTransmissionNetwork", Ranap.RANAP_CauseTransmissionNetwork),
  (text% "Cell-Access-Mode", Ranap.RANAP_Cell_Access_Mode),
  (text% "CellBased", Ranap.RANAP_CellBased),
  (text% "CellIdList", Ranap.RANAP_CellIdList),
  (text% "Cell-Id", Ranap.RANAP_Cell_Id),
  (text% "Cell-Capacity-Class-Value", Ranap.RANAP_Cell_Capacity_Class_Value),
  (text% "CellLoadInformation", Ranap.RANAP_CellLoadInformation),
  (text% "CellLoadInformationGroup", Ranap.RANAP_CellLoadInformationGroup),
  (text% "CellType", Ranap.RANAP_CellType),
  (text% "ClientType", Ranap.RANAP_ClientType),
  (text% "CriticalityDiagnostics", Ranap.RANAP_CriticalityDiagnostics),
  (text% "CriticalityDiagnostics-IE-List", Ranap.RANAP_CriticalityDiagnostics_IE_List),
  (text% "CriticalityDiagnostics-IE-List-Value", Ranap.RANAP_CriticalityDiagnostics_IE_List_Value),
  (text% "MessageStructure", Ranap.RANAP_MessageStructure),
  (text% "MessageStructure-Value", Ranap.RANAP_MessageStructure_Value),
  (text% "CGI", Ranap.RANAP_CGI),
  (text% "ChosenEncryptionAlgorithm", Ranap.RANAP_ChosenEncryptionAlgorithm),
  (text% "ChosenIntegrityProtectionAlgorithm", Ranap.RANAP_ChosenIntegrityProtectionAlgorithm),
  (text% "CI", Ranap.RANAP_CI),
  (text% "ClassmarkInformation2", Ranap.RANAP_ClassmarkInformation2),
  (text% "ClassmarkInformation3", Ranap.RANAP_ClassmarkInformation3),
  (text% "CN-DomainIndicator", Ranap.RANAP_CN_DomainIndicator),
  (text% "CN-ID", Ranap.RANAP_CN_ID),
  (text% "Correlation-ID", Ranap.RANAP_Correlation_ID),
  (text% "CSFB-Information", Ranap.RANAP_CSFB_Information),
  (text% "CSG-Id", Ranap.RANAP_CSG_Id),
  (text% "CSG-Id-List", Ranap.RANAP_CSG_Id_List),
  (text% "CSG-Membership-Status", Ranap.RANAP_CSG_Membership_Status),
  (text% "DataPDUType", Ranap.RANAP_DataPDUType),
  (text% "DataVolumeReference", Ranap.RANAP_DataVolumeReference),
  (text% "DataVolumeReportingIndication", Ranap.RANAP_DataVolumeReportingIndication),
  (text% "DCH-ID", Ranap.RANAP_DCH_ID),
  (text% "DeliveryOfErroneousSDU", Ranap.RANAP_DeliveryOfErroneousSDU),
  (text% "DeliveryOrder", Ranap.RANAP_DeliveryOrder),
  (text% "DeltaRAListofIdleModeUEs", Ranap.RANAP_DeltaRAListofIdleModeUEs),
  (text% "NewRAListofIdleModeUEs", Ranap.RANAP_NewRAListofIdleModeUEs),
  (text% "RAListwithNoIdleModeUEsAnyMore", Ranap.RANAP_RAListwithNoIdleModeUEsAnyMore),
  (text% "ForwardingIndication", Ranap.RANAP_ForwardingIndication),
  (text% "DL-GTP-PDU-SequenceNumber", Ranap.RANAP_DL_GTP_PDU_SequenceNumber),
  (text% "DL-N-PDU-SequenceNumber", Ranap.RANAP_DL_N_PDU_SequenceNumber),
  (text% "D-RNTI", Ranap.RANAP_D_RNTI),
  (text% "DRX-CycleLengthCoefficient", Ranap.RANAP_DRX_CycleLengthCoefficient),
  (text% "DSCH-ID", Ranap.RANAP_DSCH_ID),
  (text% "EARFCN-Extended", Ranap.RANAP_EARFCN_Extended),
  (text% "E-DCH-MAC-d-Flow-ID", Ranap.RANAP_E_DCH_MAC_d_Flow_ID),
  (text% "ENB-ID", Ranap.RANAP_ENB_ID),
  (text% "EncryptionAlgorithm", Ranap.RANAP_EncryptionAlgorithm),
  (text% "EncryptionInformation", Ranap.RANAP_EncryptionInformation),
  (text% "EncryptionKey", Ranap.RANAP_EncryptionKey),
  (text% "End-Of-CSFB", Ranap.RANAP_End_Of_CSFB),
  (text% "EquipmentsToBeTraced", Ranap.RANAP_EquipmentsToBeTraced),
  (text% "E-UTRAN-Service-Handover", Ranap.RANAP_E_UTRAN_Service_Handover),
  (text% "Event", Ranap.RANAP_Event),
  (text% "Event1F-Parameters", Ranap.RANAP_Event1F_Parameters),
  (text% "Event1I-Parameters", Ranap.RANAP_Event1I_Parameters),
  (text% "ExtendedGuaranteedBitrate", Ranap.RANAP_ExtendedGuaranteedBitrate),
  (text% "ExtendedMaxBitrate", Ranap.RANAP_ExtendedMaxBitrate),
  (text% "ExtendedRNC-ID", Ranap.RANAP_ExtendedRNC_ID),
  (text% "FrameSequenceNumber", Ranap.RANAP_FrameSequenceNumber),
  (text% "FrequenceLayerConvergenceFlag", Ranap.RANAP_FrequenceLayerConvergenceFlag),
  (text% "GANSS-PositioningDataSet", Ranap.RANAP_GANSS_PositioningDataSet),
  (text% "GANSS-PositioningMethodAndUsage", Ranap.RANAP_GANSS_PositioningMethodAndUsage),
  (text% "GeographicalArea", Ranap.RANAP_GeographicalArea),
  (text% "GeographicalCoordinates", Ranap.RANAP_GeographicalCoordinates),
  (text% "GA-AltitudeAndDirection", Ranap.RANAP_GA_AltitudeAndDirection),
  (text% "GA-EllipsoidArc", Ranap.RANAP_GA_EllipsoidArc),
  (text% "GA-Point", Ranap.RANAP_GA_Point),
  (text% "GA-PointWithAltitude", Ranap.RANAP_GA_PointWithAltitude),
  (text% "GA-PointWithAltitudeAndUncertaintyEllipsoid", Ranap.RANAP_GA_PointWithAltitudeAndUncertaintyEllipsoid),
  (text% "GA-PointWithUnCertainty", Ranap.RANAP_GA_PointWithUnCertainty),
  (text% "GA-PointWithUnCertaintyEllipse", Ranap.RANAP_GA_PointWithUnCertaintyEllipse),
  (text% "GA-Polygon", Ranap.RANAP_GA_Polygon),
  (text% "GA-Polygon-Value", Ranap.RANAP_GA_Polygon_Value),
  (text% "GA-UncertaintyEllipse", Ranap.RANAP_GA_UncertaintyEllipse),
  (text% "GERAN-BSC-Container", Ranap.RANAP_GERAN_BSC_Container),
  (text% "GERAN-Cell-ID", Ranap.RANAP_GERAN_Cell_ID),
  (text% "GERAN-Classmark", Ranap.RANAP_GERAN_Classmark),
  (text% "GlobalCN-ID", Ranap.RANAP_GlobalCN_ID),
  (text% "GlobalRNC-ID", Ranap.RANAP_GlobalRNC_ID),
  (text% "GTP-TEI", Ranap.RANAP_GTP_TEI),
  (text% "GuaranteedBitrate", Ranap.RANAP_GuaranteedBitrate),
  (text% "HigherBitratesThan16MbpsFlag", Ranap.RANAP_HigherBitratesThan16MbpsFlag),
  (text% "HS-DSCH-MAC-d-Flow-ID", Ranap.RANAP_HS_DSCH_MAC_d_Flow_ID),
  (text% "IMEI", Ranap.RANAP_IMEI),
  (text% "IMEIGroup", Ranap.RANAP_IMEIGroup),
  (text% "IMEIList", Ranap.RANAP_IMEIList),
  (text% "IMEISV", Ranap.RANAP_IMEISV),
  (text% "IMEISVGroup", Ranap.RANAP_IMEISVGroup),
  (text% "IMEISVList", Ranap.RANAP_IMEISVList),
  (text% "ImmediateMDT", Ranap.RANAP_ImmediateMDT),
  (text% "IMSI", Ranap.RANAP_IMSI),
  (text% "IncludeVelocity", Ranap.RANAP_IncludeVelocity),
  (text% "InformationExchangeID", Ranap.RANAP_InformationExchangeID),
  (text% "InformationExchangeType", Ranap.RANAP_InformationExchangeType),
  (text% "InformationRequested", Ranap.RANAP_InformationRequested),
  (text% "InformationRequestType", Ranap.RANAP_InformationRequestType),
  (text% "InformationTransferID", Ranap.RANAP_InformationTransferID),
  (text% "InformationTransferType", Ranap.RANAP_InformationTransferType),
  (text% "IntegrityProtectionAlgorithm", Ranap.RANAP_IntegrityProtectionAlgorithm),
  (text% "IntegrityProtectionInformation", Ranap.RANAP_IntegrityProtectionInformation),
  (text% "IntegrityProtectionKey", Ranap.RANAP_IntegrityProtectionKey),
  (text% "InterSystemInformationTransferType", Ranap.RANAP_InterSystemInformationTransferType),
  (text% "InterSystemInformation-TransparentContainer", Ranap.RANAP_InterSystemInformation_TransparentContainer),
  (text% "IPMulticastAddress", Ranap.RANAP_IPMulticastAddress),
  (text% "IuSignallingConnectionIdentifier", Ranap.RANAP_IuSignallingConnectionIdentifier),
  (text% "IuTransportAssociation", Ranap.RANAP_IuTransportAssociation),
  (text% "KeyStatus", Ranap.RANAP_KeyStatus),
  (text% "LA-LIST", Ranap.RANAP_LA_LIST),
  (text% "LA-LIST-Value", Ranap.RANAP_LA_LIST_Value),
  (text% "LAC", Ranap.RANAP_LAC),
  (text% "LAI", Ranap.RANAP_LAI),
  (text% "LastKnownServiceArea", Ranap.RANAP_LastKnownServiceArea),
  (text% "LastVisitedUTRANCell-Item", Ranap.RANAP_LastVisitedUTRANCell_Item),
  (text% "LHN-ID", Ranap.RANAP_LHN_ID),
  (text% "Links-to-log", Ranap.RANAP_Links_to_log),
  (text% "ListOF-SNAs", Ranap.RANAP_ListOF_SNAs),
  (text% "ListOfInterfacesToTrace", Ranap.RANAP_ListOfInterfacesToTrace),
  (text% "InterfacesToTraceItem", Ranap.RANAP_InterfacesToTraceItem),
  (text% "LoadValue", Ranap.RANAP_LoadValue),
  (text% "LocationRelatedDataRequestType", Ranap.RANAP_LocationRelatedDataRequestType),
  (text% "LocationRelatedDataRequestTypeSpecificToGERANIuMode", Ranap.RANAP_LocationRelatedDataRequestTypeSpecificToGERANIuMode),
  (text% "LocationReportingTransferInformation", Ranap.RANAP_LocationReportingTransferInformation),
  (text% "ReportChangeOfSAI", Ranap.RANAP_ReportChangeOfSAI),
  (text% "PeriodicReportingIndicator", Ranap.RANAP_PeriodicReportingIndicator),
  (text% "DirectReportingIndicator", Ranap.RANAP_DirectReportingIndicator),
  (text% "L3-Information", Ranap.RANAP_L3_Information),
  (text% "M1Report", Ranap.RANAP_M1Report),
  (text% "M2Report", Ranap.RANAP_M2Report),
  (text% "M4Report", Ranap.RANAP_M4Report),
  (text% "M4-Collection-Parameters", Ranap.RANAP_M4_Collection_Parameters),
  (text% "M4-Period", Ranap.RANAP_M4_Period),
  (text% "M4-Threshold", Ranap.RANAP_M4_Threshold),
  (text% "M5Report", Ranap.RANAP_M5Report),
  (text% "M5-Period", Ranap.RANAP_M5_Period),
  (text% "M6Report", Ranap.RANAP_M6Report),
  (text% "M6-Period", Ranap.RANAP_M6_Period),
  (text% "M7Report", Ranap.RANAP_M7Report),
  (text% "M7-Period", Ranap.RANAP_M7_Period),
  (text% "Management-Based-MDT-Allowed", Ranap.RANAP_Management_Based_MDT_Allowed),
  (text% "MaxBitrate", Ranap.RANAP_MaxBitrate),
  (text% "MaxSDU-Size", Ranap.RANAP_MaxSDU_Size),
  (text% "MBMS-PTP-RAB-ID", Ranap.RANAP_MBMS_PTP_RAB_ID),
  (text% "MBMSBearerServiceType", Ranap.RANAP_MBMSBearerServiceType),
  (text% "MBMSCNDe-Registration", Ranap.RANAP_MBMSCNDe_Registration),
  (text% "MBMSCountingInformation", Ranap.RANAP_MBMSCountingInformation),
  (text% "MBMSHCIndicator", Ranap.RANAP_MBMSHCIndicator),
  (text% "MBMSIPMulticastAddressandAPNRequest", Ranap.RANAP_MBMSIPMulticastAddressandAPNRequest),
  (text% "MBMSLinkingInformation", Ranap.RANAP_MBMSLinkingInformation),
  (text% "MBMSRegistrationRequestType", Ranap.RANAP_MBMSRegistrationRequestType),
  (text% "MBMSServiceArea", Ranap.RANAP_MBMSServiceArea),
  (text% "MBMSSessionDuration", Ranap.RANAP_MBMSSessionDuration),
  (text% "MBMSSessionIdentity", Ranap.RANAP_MBMSSessionIdentity),
  (text% "MBMSSessionRepetitionNumber", Ranap.RANAP_MBMSSessionRepetitionNumber),
  (text% "MDT-Activation", Ranap.RANAP_MDT_Activation),
  (text% "MDTAreaScope", Ranap.RANAP_MDTAreaScope),
  (text% "MDT-Configuration", Ranap.RANAP_MDT_Configuration),
  (text% "MDTMode", Ranap.RANAP_MDTMode),
  (text% "MDT-PLMN-List", Ranap.RANAP_MDT_PLMN_List),
  (text% "MDT-Report-Parameters", Ranap.RANAP_MDT_Report_Parameters),
  (text% "MeasurementQuantity", Ranap.RANAP_MeasurementQuantity),
  (text% "MeasurementsToActivate", Ranap.RANAP_MeasurementsToActivate),
  (text% "MSISDN", Ranap.RANAP_MSISDN),
  (text% "NAS-PDU", Ranap.RANAP_NAS_PDU),
  (text% "NAS-SequenceNumber", Ranap.RANAP_NAS_SequenceNumber),
  (text% "NAS-SynchronisationIndicator", Ranap.RANAP_NAS_SynchronisationIndicator),
  (text% "NewBSS-To-OldBSS-Information", Ranap.RANAP_NewBSS_To_OldBSS_Information),
  (text% "NonSearchingIndication", Ranap.RANAP_NonSearchingIndication),
  (text% "NRTLoadInformationValue", Ranap.RANAP_NRTLoadInformationValue),
  (text% "NumberOfIuInstances", Ranap.RANAP_NumberOfIuInstances),
  (text% "NumberOfSteps", Ranap.RANAP_NumberOfSteps),
  (text% "Offload-RAB-Parameters", Ranap.RANAP_Offload_RAB_Parameters),
  (text% "Offload-RAB-Parameters-APN", Ranap.RANAP_Offload_RAB_Parameters_APN),
  (text% "Offload-RAB-Parameters-ChargingCharacteristics", Ranap.RANAP_Offload_RAB_Parameters_ChargingCharacteristics),
  (text% "OldBSS-ToNewBSS-Information", Ranap.RANAP_OldBSS_ToNewBSS_Information),
  (text% "OMC-ID", Ranap.RANAP_OMC_ID),
  (text% "Out-Of-UTRAN", Ranap.RANAP_Out_Of_UTRAN),
  (text% "PagingAreaID", Ranap.RANAP_PagingAreaID),
  (text% "PagingCause", Ranap.RANAP_PagingCause),
  (text% "PDP-TypeInformation", Ranap.RANAP_PDP_TypeInformation),
  (text% "PDP-Type", Ranap.RANAP_PDP_Type),
  (text% "PDP-TypeInformation-extension", Ranap.RANAP_PDP_TypeInformation_extension),
  (text% "PDP-Type-extension", Ranap.RANAP_PDP_Type_extension),
  (text% "PDUType14FrameSequenceNumber", Ranap.RANAP_PDUType14FrameSequenceNumber),
  (text% "PeriodicLocationInfo", Ranap.RANAP_PeriodicLocationInfo),
  (text% "PermanentNAS-UE-ID", Ranap.RANAP_PermanentNAS_UE_ID),
  (text% "PermittedEncryptionAlgorithms", Ranap.RANAP_PermittedEncryptionAlgorithms),
  (text% "PermittedIntegrityProtectionAlgorithms", Ranap.RANAP_PermittedIntegrityProtectionAlgorithms),
  (text% "LABased", Ranap.RANAP_LABased),
  (text% "LAI-List", Ranap.RANAP_LAI_List),
  (text% "LoggedMDT", Ranap.RANAP_LoggedMDT),
  (text% "LoggingInterval", Ranap.RANAP_LoggingInterval),
  (text% "LoggingDuration", Ranap.RANAP_LoggingDuration),
  (text% "PLMNidentity", Ranap.RANAP_PLMNidentity),
  (text% "PLMNs-in-shared-network", Ranap.RANAP_PLMNs_in_shared_network),
  (text% "PLMNs-in-shared-network-Value", Ranap.RANAP_PLMNs_in_shared_network_Value),
  (text% "Port-Number", Ranap.RANAP_Port_Number),
  (text% "PositioningDataDiscriminator", Ranap.RANAP_PositioningDataDiscriminator),
  (text% "PositioningDataSet", Ranap.RANAP_PositioningDataSet),
  (text% "PositioningMethodAndUsage", Ranap.RANAP_PositioningMethodAndUsage),
  (text% "PositioningPriority", Ranap.RANAP_PositioningPriority),
  (text% "PositionData", Ranap.RANAP_PositionData),
  (text% "PositionDataSpecificToGERANIuMode", Ranap.RANAP_PositionDataSpecificToGERANIuMode),
  (text% "Pre-emptionCapability", Ranap.RANAP_Pre_emptionCapability),
  (text% "Pre-emptionVulnerability", Ranap.RANAP_Pre_emptionVulnerability),
  (text% "PriorityLevel", Ranap.RANAP_PriorityLevel),
  (text% "Priority-Class-Indicator", Ranap.RANAP_Priority_Class_Indicator),
  (text% "ProvidedData", Ranap.RANAP_ProvidedData),
  (text% "P-TMSI", Ranap.RANAP_P_TMSI),
  (text% "QueuingAllowed", Ranap.RANAP_QueuingAllowed),
  (text% "RAB-AsymmetryIndicator", Ranap.RANAP_RAB_AsymmetryIndicator),
  (text% "RABased", Ranap.RANAP_RABased),
  (text% "RAI-List", Ranap.RANAP_RAI_List),
  (text% "RABDataVolumeReport", Ranap.RANAP_RABDataVolumeReport),
  (text% "RABDataVolumeReport-Value", Ranap.RANAP_RABDataVolumeReport_Value),
  (text% "RAB-ID", Ranap.RANAP_RAB_ID),
  (text% "RAB-Parameter-ExtendedGuaranteedBitrateList", Ranap.RANAP_RAB_Parameter_ExtendedGuaranteedBitrateList),
  (text% "RAB-Parameter-ExtendedMaxBitrateList", Ranap.RANAP_RAB_Parameter_ExtendedMaxBitrateList),
  (text% "RAB-Parameter-GuaranteedBitrateList", Ranap.RANAP_RAB_Parameter_GuaranteedBitrateList),
  (text% "RAB-Parameter-MaxBitrateList", Ranap.RANAP_RAB_Parameter_MaxBitrateList),
  (text% "RAB-Parameters", Ranap.RANAP_RAB_Parameters),
  (text% "RABParametersList", Ranap.RANAP_RABParametersList),
  (text% "RABParametersList-Value", Ranap.RANAP_RABParametersList_Value),
  (text% "RAB-SubflowCombinationBitRate", Ranap.RANAP_RAB_SubflowCombinationBitRate),
  (text% "RAB-TrCH-Mapping", Ranap.RANAP_RAB_TrCH_Mapping),
  (text% "RAB-TrCH-MappingItem", Ranap.RANAP_RAB_TrCH_MappingItem),
  (text% "RAC", Ranap.RANAP_RAC),
  (text% "RAI", Ranap.RANAP_RAI),
  (text% "RAListofIdleModeUEs", Ranap.RANAP_RAListofIdleModeUEs),
  (text% "NotEmptyRAListofIdleModeUEs", Ranap.RANAP_NotEmptyRAListofIdleModeUEs),
  (text% "RAofIdleModeUEs", Ranap.RANAP_RAofIdleModeUEs),
  (text% "LAListofIdleModeUEs", Ranap.RANAP_LAListofIdleModeUEs),
  (text% "RAT-Type", Ranap.RANAP_RAT_Type),
  (text% "RateControlAllowed", Ranap.RANAP_RateControlAllowed),
  (text% "RedirectAttemptFlag", Ranap.RANAP_RedirectAttemptFlag),
  (text% "RedirectionCompleted", Ranap.RANAP_RedirectionCompleted),
  (text% "RejectCauseValue", Ranap.RANAP_RejectCauseValue),
  (text% "RelocationRequirement", Ranap.RANAP_RelocationRequirement),
  (text% "RelocationType", Ranap.RANAP_RelocationType),
  (text% "RepetitionNumber0", Ranap.RANAP_RepetitionNumber0),
  (text% "RepetitionNumber1", Ranap.RANAP_RepetitionNumber1),
  (text% "ReportArea", Ranap.RANAP_ReportArea),
  (text% "ReportInterval", Ranap.RANAP_ReportInterval),
  (text% "ReportAmount", Ranap.RANAP_ReportAmount),
  (text% "RequestedGPSAssistanceData", Ranap.RANAP_RequestedGPSAssistanceData),
  (text% "RequestedGANSSAssistanceData", Ranap.RANAP_RequestedGANSSAssistanceData),
  (text% "RequestedLocationRelatedDataType", Ranap.RANAP_RequestedLocationRelatedDataType),
  (text% "RequestedMBMSIPMulticastAddressandAPNRequest", Ranap.RANAP_RequestedMBMSIPMulticastAddressandAPNRequest),
  (text% "MBMSIPMulticastAddressandAPNlist", Ranap.RANAP_MBMSIPMulticastAddressandAPNlist),
  (text% "RequestedMulticastServiceList", Ranap.RANAP_RequestedMulticastServiceList),
  (text% "Requested-RAB-Parameter-Values", Ranap.RANAP_Requested_RAB_Parameter_Values),
  (text% "Requested-RAB-Parameter-ExtendedMaxBitrateList", Ranap.RANAP_Requested_RAB_Parameter_ExtendedMaxBitrateList),
  (text% "Requested-RAB-Parameter-ExtendedGuaranteedBitrateList", Ranap.RANAP_Requested_RAB_Parameter_ExtendedGuaranteedBitrateList),
  (text% "Requested-RAB-Parameter-MaxBitrateList", Ranap.RANAP_Requested_RAB_Parameter_MaxBitrateList),
  (text% "Requested-RAB-Parameter-GuaranteedBitrateList", Ranap.RANAP_Requested_RAB_Parameter_GuaranteedBitrateList),
  (text% "RequestType", Ranap.RANAP_RequestType),
  (text% "ResidualBitErrorRatio", Ranap.RANAP_ResidualBitErrorRatio),
  (text% "ResponseTime", Ranap.RANAP_ResponseTime),
  (text% "RIMInformation", Ranap.RANAP_RIMInformation),
  (text% "RIM-Transfer", Ranap.RANAP_RIM_Transfer),
  (text% "RIMRoutingAddress", Ranap.RANAP_RIMRoutingAddress),
  (text% "RNC-ID", Ranap.RANAP_RNC_ID),
  (text% "RNCTraceInformation", Ranap.RANAP_RNCTraceInformation),
  (text% "RNSAPRelocationParameters", Ranap.RANAP_RNSAPRelocationParameters),
  (text% "RRC-Container", Ranap.RANAP_RRC_Container),
  (text% "RTLoadValue", Ranap.RANAP_RTLoadValue),
  (text% "RSRVCC-HO-Indication", Ranap.RANAP_RSRVCC_HO_Indication),
  (text% "RSRVCC-Information", Ranap.RANAP_RSRVCC_Information),
  (text% "RSRVCC-Operation-Possible", Ranap.RANAP_RSRVCC_Operation_Possible),
  (text% "SAC", Ranap.RANAP_SAC),
  (text% "SAI", Ranap.RANAP_SAI),
  (text% "SAPI", Ranap.RANAP_SAPI),
  (text% "SessionUpdateID", Ranap.RANAP_SessionUpdateID),
  (text% "Shared-Network-Information", Ranap.RANAP_Shared_Network_Information),
  (text% "Session-Re-establishment-Indicator", Ranap.RANAP_Session_Re_establishment_Indicator),
  (text% "SignallingIndication", Ranap.RANAP_SignallingIndication),
  (text% "SDU-ErrorRatio", Ranap.RANAP_SDU_ErrorRatio),
  (text% "SDU-FormatInformationParameters", Ranap.RANAP_SDU_FormatInformationParameters),
  (text% "SDU-FormatInformationParameterItem", Ranap.RANAP_SDU_FormatInformationParameterItem),
  (text% "SDU-Parameters", Ranap.RANAP_SDU_Parameters),
  (text% "SDU-ParameterItem", Ranap.RANAP_SDU_ParameterItem),
  (text% "SNA-Access-Information", Ranap.RANAP_SNA_Access_Information),
  (text% "SNAC", Ranap.RANAP_SNAC),
  (text% "Service-Handover", Ranap.RANAP_Service_Handover),
  (text% "Source-ToTarget-TransparentContainer", Ranap.RANAP_Source_ToTarget_TransparentContainer),
  (text% "SourceeNodeB-ToTargeteNodeB-TransparentContainer", Ranap.RANAP_SourceeNodeB_ToTargeteNodeB_TransparentContainer),
  (text% "SourceCellID", Ranap.RANAP_SourceCellID),
  (text% "SourceBSS-ToTargetBSS-TransparentContainer", Ranap.RANAP_SourceBSS_ToTargetBSS_TransparentContainer),
  (text% "SourceID", Ranap.RANAP_SourceID),
  (text% "SourceRNC-ID", Ranap.RANAP_SourceRNC_ID),
  (text% "SourceRNC-ToTargetRNC-TransparentContainer", Ranap.RANAP_SourceRNC_ToTargetRNC_TransparentContainer),
  (text% "IRAT-Measurement-Configuration", Ranap.RANAP_IRAT_Measurement_Configuration),
  (text% "IRATmeasurementParameters", Ranap.RANAP_IRATmeasurementParameters),
  (text% "RSRQ-Type", Ranap.RANAP_RSRQ_Type),
  (text% "RSRQ-Extension", Ranap.RANAP_RSRQ_Extension),
  (text% "EUTRANFrequencies", Ranap.RANAP_EUTRANFrequencies),
  (text% "EUTRANFrequencies-Value", Ranap.RANAP_EUTRANFrequencies_Value),
  (text% "MeasBand", Ranap.RANAP_MeasBand),
  (text% "SubscriberProfileIDforRFP", Ranap.RANAP_SubscriberProfileIDforRFP),
  (text% "SourceStatisticsDescriptor", Ranap.RANAP_SourceStatisticsDescriptor),
  (text% "SupportedRAB-ParameterBitrateList", Ranap.RANAP_SupportedRAB_ParameterBitrateList),
  (text% "SupportedBitrate", Ranap.RANAP_SupportedBitrate),
  (text% "SourceUTRANCellID", Ranap.RANAP_SourceUTRANCellID),
  (text% "SRB-ID", Ranap.RANAP_SRB_ID),
  (text% "SRB-TrCH-Mapping", Ranap.RANAP_SRB_TrCH_Mapping),
  (text% "SRB-TrCH-MappingItem", Ranap.RANAP_SRB_TrCH_MappingItem),
  (text% "SRVCC-HO-Indication", Ranap.RANAP_SRVCC_HO_Indication),
  (text% "SRVCC-Information", Ranap.RANAP_SRVCC_Information),
  (text% "SRVCC-Operation-Possible", Ranap.RANAP_SRVCC_Operation_Possible),
  (text% "SubflowSDU-Size", Ranap.RANAP_SubflowSDU_Size),
  (text% "TAC", Ranap.RANAP_TAC),
  (text% "TAI", Ranap.RANAP_TAI),
  (text% "Target-ToSource-TransparentContainer", Ranap.RANAP_Target_ToSource_TransparentContainer),
  (text% "TargeteNodeB-ToSourceeNodeB-TransparentContainer", Ranap.RANAP_TargeteNodeB_ToSourceeNodeB_TransparentContainer),
  (text% "TargetBSS-ToSourceBSS-TransparentContainer", Ranap.RANAP_TargetBSS_ToSourceBSS_TransparentContainer),
  (text% "TargetCellId", Ranap.RANAP_TargetCellId),
  (text% "TargetID", Ranap.RANAP_TargetID),
  (text% "TargetENB-ID", Ranap.RANAP_TargetENB_ID),
  (text% "TargetRNC-ID", Ranap.RANAP_TargetRNC_ID),
  (text% "TargetRNC-ToSourceRNC-TransparentContainer", Ranap.RANAP_TargetRNC_ToSourceRNC_TransparentContainer),
  (text% "TBCD-STRING", Ranap.RANAP_TBCD_STRING),
  (text% "TemporaryUE-ID", Ranap.RANAP_TemporaryUE_ID),
  (text% "Time-UE-StayedInCell", Ranap.RANAP_Time_UE_StayedInCell),
  (text% "Time-UE-StayedInCell-EnhancedGranularity", Ranap.RANAP_Time_UE_StayedInCell_EnhancedGranularity),
  (text% "TimeToMBMSDataTransfer", Ranap.RANAP_TimeToMBMSDataTransfer),
  (text% "TimingDifferenceULDL", Ranap.RANAP_TimingDifferenceULDL),
  (text% "TMGI", Ranap.RANAP_TMGI),
  (text% "TMSI", Ranap.RANAP_TMSI),
  (text% "TraceDepth", Ranap.RANAP_TraceDepth),
  (text% "TraceInformation", Ranap.RANAP_TraceInformation),
  (text% "TracePropagationParameters", Ranap.RANAP_TracePropagationParameters),
  (text% "TraceRecordingSessionInformation", Ranap.RANAP_TraceRecordingSessionInformation),
  (text% "TraceRecordingSessionReference", Ranap.RANAP_TraceRecordingSessionReference),
  (text% "TraceReference", Ranap.RANAP_TraceReference),
  (text% "TraceType", Ranap.RANAP_TraceType),
  (text% "TrafficClass", Ranap.RANAP_TrafficClass),
  (text% "TrafficHandlingPriority", Ranap.RANAP_TrafficHandlingPriority),
  (text% "TransferDelay", Ranap.RANAP_TransferDelay),
  (text% "UnsuccessfullyTransmittedDataVolume", Ranap.RANAP_UnsuccessfullyTransmittedDataVolume),
  (text% "TransportLayerAddress", Ranap.RANAP_TransportLayerAddress),
  (text% "TrCH-ID", Ranap.RANAP_TrCH_ID),
  (text% "TrCH-ID-List", Ranap.RANAP_TrCH_ID_List),
  (text% "TriggerID", Ranap.RANAP_TriggerID),
  (text% "TunnelInformation", Ranap.RANAP_TunnelInformation),
  (text% "TypeOfError", Ranap.RANAP_TypeOfError),
  (text% "UE-AggregateMaximumBitRate", Ranap.RANAP_UE_AggregateMaximumBitRate),
  (text% "UE-AggregateMaximumBitRateDownlink", Ranap.RANAP_UE_AggregateMaximumBitRateDownlink),
  (text% "UE-AggregateMaximumBitRateUplink", Ranap.RANAP_UE_AggregateMaximumBitRateUplink),
  (text% "UE-History-Information", Ranap.RANAP_UE_History_Information),
  (text% "UE-ID", Ranap.RANAP_UE_ID),
  (text% "UESBI-Iu", Ranap.RANAP_UESBI_Iu),
  (text% "UESBI-IuA", Ranap.RANAP_UESBI_IuA),
  (text% "UESBI-IuB", Ranap.RANAP_UESBI_IuB),
  (text% "UL-GTP-PDU-SequenceNumber", Ranap.RANAP_UL_GTP_PDU_SequenceNumber),
  (text% "UL-N-PDU-SequenceNumber", Ranap.RANAP_UL_N_PDU_SequenceNumber),
  (text% "UPInformation", Ranap.RANAP_UPInformation),
  (text% "UPInitialisationFrame", Ranap.RANAP_UPInitialisationFrame),
  (text% "UP-ModeVersions", Ranap.RANAP_UP_ModeVersions),
  (text% "USCH-ID", Ranap.RANAP_USCH_ID),
  (text% "UserPlaneMode", Ranap.RANAP_UserPlaneMode),
  (text% "UTRAN-CellID", Ranap.RANAP_UTRAN_CellID),
  (text% "VelocityEstimate", Ranap.RANAP_VelocityEstimate),
  (text% "HorizontalVelocity", Ranap.RANAP_HorizontalVelocity),
  (text% "HorizontalWithVerticalVelocity", Ranap.RANAP_HorizontalWithVerticalVelocity),
  (text% "HorizontalVelocityWithUncertainty", Ranap.RANAP_HorizontalVelocityWithUncertainty),
  (text% "HorizontalWithVerticalVelocityAndUncertainty", Ranap.RANAP_HorizontalWithVerticalVelocityAndUncertainty),
  (text% "HorizontalSpeedAndBearing", Ranap.RANAP_HorizontalSpeedAndBearing),
  (text% "VerticalVelocity", Ranap.RANAP_VerticalVelocity),
  (text% "VerticalSpeedDirection", Ranap.RANAP_VerticalSpeedDirection),
  (text% "VerticalAccuracyCode", Ranap.RANAP_VerticalAccuracyCode),
  (text% "VoiceSupportMatchIndicator", Ranap.RANAP_VoiceSupportMatchIndicator),
  (text% "RANAP-PDU", Ranap.RANAP_RANAP_PDU),
  (text% "InitiatingMessage", Ranap.RANAP_InitiatingMessage),
  (text% "SuccessfulOutcome", Ranap.RANAP_SuccessfulOutcome),
  (text% "UnsuccessfulOutcome", Ranap.RANAP_UnsuccessfulOutcome),
  (text% "Outcome", Ranap.RANAP_Outcome),
  (text% "Iu-ReleaseCommand", Ranap.RANAP_Iu_ReleaseCommand),
  (text% "Iu-ReleaseComplete", Ranap.RANAP_Iu_ReleaseComplete),
  (text% "RelocationRequired", Ranap.RANAP_RelocationRequired),
  (text% "RelocationCommand", Ranap.RANAP_RelocationCommand),
  (text% "RelocationPreparationFailure", Ranap.RANAP_RelocationPreparationFailure),
  (text% "RelocationRequest", Ranap.RANAP_RelocationRequest),
  (text% "RelocationRequestAcknowledge", Ranap.RANAP_RelocationRequestAcknowledge),
  (text% "RelocationFailure", Ranap.RANAP_RelocationFailure),
  (text% "RelocationCancel", Ranap.RANAP_RelocationCancel),
  (text% "RelocationCancelAcknowledge", Ranap.RANAP_RelocationCancelAcknowledge),
  (text% "SRNS-ContextRequest", Ranap.RANAP_SRNS_ContextRequest),
  (text% "RAB-DataForwardingList-SRNS-CtxReq", Ranap.RANAP_RAB_DataForwardingList_SRNS_CtxReq),
  (text% "DataVolumeReportRequest", Ranap.RANAP_DataVolumeReportRequest),
  (text% "SRNS-ContextResponse", Ranap.RANAP_SRNS_ContextResponse),
  (text% "SecurityModeCommand", Ranap.RANAP_SecurityModeCommand),
  (text% "SecurityModeComplete", Ranap.RANAP_SecurityModeComplete),
  (text% "SecurityModeReject", Ranap.RANAP_SecurityModeReject),
  (text% "DataVolumeReport", Ranap.RANAP_DataVolumeReport),
  (text% "Reset", Ranap.RANAP_Reset),
  (text% "ResetAcknowledge", Ranap.RANAP_ResetAcknowledge),
  (text% "RAB-ReleaseRequest", Ranap.RANAP_RAB_ReleaseRequest),
  (text% "RedirectionIndication", Ranap.RANAP_RedirectionIndication),
  (text% "RAB-ReleaseList", Ranap.RANAP_RAB_ReleaseList),
  (text% "Iu-ReleaseRequest", Ranap.RANAP_Iu_ReleaseRequest),
  (text% "RelocationDetect", Ranap.RANAP_RelocationDetect),
  (text% "RelocationComplete", Ranap.RANAP_RelocationComplete),
  (text% "Paging", Ranap.RANAP_Paging),
  (text% "CommonID", Ranap.RANAP_CommonID),
  (text% "CN-InvokeTrace", Ranap.RANAP_CN_InvokeTrace),
  (text% "CN-DeactivateTrace", Ranap.RANAP_CN_DeactivateTrace),
  (text% "LocationReportingControl", Ranap.RANAP_LocationReportingControl),
  (text% "LocationReport", Ranap.RANAP_LocationReport),
  (text% "InitialUE-Message", Ranap.RANAP_InitialUE_Message),
  (text% "DirectTransfer", Ranap.RANAP_DirectTransfer),
  (text% "Overload", Ranap.RANAP_Overload),
  (text% "ErrorIndication", Ranap.RANAP_ErrorIndication),
  (text% "SRNS-DataForwardCommand", Ranap.RANAP_SRNS_DataForwardCommand),
  (text% "ForwardSRNS-Context", Ranap.RANAP_ForwardSRNS_Context),
  (text% "RAB-AssignmentRequest", Ranap.RANAP_RAB_AssignmentRequest),
  (text% "RAB-SetupOrModifyList", Ranap.RANAP_RAB_SetupOrModifyList),
  (text% "RAB-AssignmentResponse", Ranap.RANAP_RAB_AssignmentResponse),
  (text% "PrivateMessage", Ranap.RANAP_PrivateMessage),
  (text% "ResetResource", Ranap.RANAP_ResetResource),
  (text% "ResetResourceAcknowledge", Ranap.RANAP_ResetResourceAcknowledge),
  (text% "RANAP-RelocationInformation", Ranap.RANAP_RANAP_RelocationInformation),
  (text% "RAB-ModifyRequest", Ranap.RANAP_RAB_ModifyRequest),
  (text% "LocationRelatedDataRequest", Ranap.RANAP_LocationRelatedDataRequest),
  (text% "LocationRelatedDataResponse", Ranap.RANAP_LocationRelatedDataResponse),
  (text% "LocationRelatedDataFailure", Ranap.RANAP_LocationRelatedDataFailure),
  (text% "InformationTransferIndication", Ranap.RANAP_InformationTransferIndication),
  (text% "InformationTransferConfirmation", Ranap.RANAP_InformationTransferConfirmation),
  (text% "InformationTransferFailure", Ranap.RANAP_InformationTransferFailure),
  (text% "UESpecificInformationIndication", Ranap.RANAP_UESpecificInformationIndication),
  (text% "DirectInformationTransfer", Ranap.RANAP_DirectInformationTransfer),
  (text% "UplinkInformationExchangeRequest", Ranap.RANAP_UplinkInformationExchangeRequest),
  (text% "UplinkInformationExchangeResponse", Ranap.RANAP_UplinkInformationExchangeResponse),
  (text% "UplinkInformationExchangeFailure", Ranap.RANAP_UplinkInformationExchangeFailure),
  (text% "MBMSSessionStart", Ranap.RANAP_MBMSSessionStart),
  (text% "MBMSSessionStartResponse", Ranap.RANAP_MBMSSessionStartResponse),
  (text% "MBMSSessionStartFailure", Ranap.RANAP_MBMSSessionStartFailure),
  (text% "MBMSSessionUpdate", Ranap.RANAP_MBMSSessionUpdate),
  (text% "MBMSSessionUpdateResponse", Ranap.RANAP_MBMSSessionUpdateResponse),
  (text% "MBMSSessionUpdateFailure", Ranap.RANAP_MBMSSessionUpdateFailure),
  (text% "MBMSSessionStop", Ranap.RANAP_MBMSSessionStop),
  (text% "MBMSSessionStopResponse", Ranap.RANAP_MBMSSessionStopResponse),
  (text% "MBMSUELinkingRequest", Ranap.RANAP_MBMSUELinkingRequest),
  (text% "MBMSUELinkingResponse", Ranap.RANAP_MBMSUELinkingResponse),
  (text% "MBMSRegistrationRequest", Ranap.RANAP_MBMSRegistrationRequest),
  (text% "MBMSRegistrationResponse", Ranap.RANAP_MBMSRegistrationResponse),
  (text% "MBMSRegistrationFailure", Ranap.RANAP_MBMSRegistrationFailure),
  (text% "MBMSCNDe-RegistrationRequest", Ranap.RANAP_MBMSCNDe_RegistrationRequest),
  (text% "MBMSCNDe-RegistrationResponse", Ranap.RANAP_MBMSCNDe_RegistrationResponse),
  (text% "MBMSRABEstablishmentIndication", Ranap.RANAP_MBMSRABEstablishmentIndication),
  (text% "MBMSRABReleaseRequest", Ranap.RANAP_MBMSRABReleaseRequest),
  (text% "MBMSRABRelease", Ranap.RANAP_MBMSRABRelease),
  (text% "MBMSRABReleaseFailure", Ranap.RANAP_MBMSRABReleaseFailure),
  (text% "EnhancedRelocationCompleteRequest", Ranap.RANAP_EnhancedRelocationCompleteRequest),
  (text% "EnhancedRelocationCompleteResponse", Ranap.RANAP_EnhancedRelocationCompleteResponse),
  (text% "EnhancedRelocationCompleteFailure", Ranap.RANAP_EnhancedRelocationCompleteFailure),
  (text% "EnhancedRelocationCompleteConfirm", Ranap.RANAP_EnhancedRelocationCompleteConfirm),
  (text% "RANAP-EnhancedRelocationInformationRequest", Ranap.RANAP_RANAP_EnhancedRelocationInformationRequest),
  (text% "RANAP-EnhancedRelocationInformationResponse", Ranap.RANAP_RANAP_EnhancedRelocationInformationResponse),
  (text% "SRVCC-CSKeysRequest", Ranap.RANAP_SRVCC_CSKeysRequest),
  (text% "SRVCC-CSKeysResponse", Ranap.RANAP_SRVCC_CSKeysResponse),
  (text% "UeRadioCapabilityMatchRequest", Ranap.RANAP_UeRadioCapabilityMatchRequest),
  (text% "UeRadioCapabilityMatchResponse", Ranap.RANAP_UeRadioCapabilityMatchResponse),
  (text% "ProtocolExtensionContainer", Ranap.RANAP_ProtocolExtensionContainer),
  (text% "ProtocolExtensionField", Ranap.RANAP_ProtocolExtensionField),
  (text% "IE", Ranap.RANAP_IE),
  (text% "ProtocolIE-Container", Ranap.RANAP_ProtocolIE_Container),
  (text% "ProtocolIE-FieldPair", Ranap.RANAP_ProtocolIE_FieldPair),
  (text% "ProtocolIE-ContainerPair", Ranap.RANAP_ProtocolIE_ContainerPair),
  (text% "RAB-IE-ContainerList", Ranap.RANAP_RAB_IE_ContainerList),
  (text% "RAB-IE-ContainerPairList", Ranap.RANAP_RAB_IE_ContainerPairList),
  (text% "ProtocolError-IE-ContainerList", Ranap.RANAP_ProtocolError_IE_ContainerList),
  (text% "IuSigConId-IE-ContainerList", Ranap.RANAP_IuSigConId_IE_ContainerList),
  (text% "DirectTransfer-IE-ContainerList", Ranap.RANAP_DirectTransfer_IE_ContainerList),
  (text% "DataVolumeReportList", Ranap.RANAP_DataVolumeReportList),
  (text% "RAB-ReleasedList-IuRelComp", Ranap.RANAP_RAB_ReleasedList_IuRelComp),
  (text% "RAB-RelocationReleaseList", Ranap.RANAP_RAB_RelocationReleaseList),
  (text% "RAB-DataForwardingList", Ranap.RANAP_RAB_DataForwardingList),
  (text% "RAB-SetupList-RelocReq", Ranap.RANAP_RAB_SetupList_RelocReq),
  (text% "RAB-SetupList-RelocReqAck", Ranap.RANAP_RAB_SetupList_RelocReqAck),
  (text% "RAB-FailedList", Ranap.RANAP_RAB_FailedList),
  (text% "RAB-ContextList", Ranap.RANAP_RAB_ContextList),
  (text% "RABs-ContextFailedtoTransferList", Ranap.RANAP_RABs_ContextFailedtoTransferList),
  (text% "RAB-DataVolumeReportRequestList", Ranap.RANAP_RAB_DataVolumeReportRequestList),
  (text% "RAB-DataVolumeReportRequestItem", Ranap.RANAP_RAB_DataVolumeReportRequestItem),
  (text% "RABs-failed-to-reportList", Ranap.RANAP_RABs_failed_to_reportList),
  (text% "RAB-SetupList-EnhancedRelocCompleteReq", Ranap.RANAP_RAB_SetupList_EnhancedRelocCompleteReq),
  (text% "RAB-SetupList-EnhancedRelocCompleteRes", Ranap.RANAP_RAB_SetupList_EnhancedRelocCompleteRes),
  (text% "RAB-ToBeReleasedList-EnhancedRelocCompleteRes", Ranap.RANAP_RAB_ToBeReleasedList_EnhancedRelocCompleteRes),
  (text% "RAB-SetupOrModifiedList", Ranap.RANAP_RAB_SetupOrModifiedList),
  (text% "RAB-ReleasedList", Ranap.RANAP_RAB_ReleasedList),
  (text% "RAB-QueuedList", Ranap.RANAP_RAB_QueuedList),
  (text% "RAB-ContextList-RANAP-RelocInf", Ranap.RANAP_RAB_ContextList_RANAP_RelocInf),
  (text% "RAB-SetupList-EnhRelocInfoReq", Ranap.RANAP_RAB_SetupList_EnhRelocInfoReq),
  (text% "RAB-SetupList-EnhRelocInfoRes", Ranap.RANAP_RAB_SetupList_EnhRelocInfoRes),
  (text% "RAB-FailedList-EnhRelocInfoRes", Ranap.RANAP_RAB_FailedList_EnhRelocInfoRes),
  (text% "RAB-ModifyList", Ranap.RANAP_RAB_ModifyList),
  (text% "RAB-DataVolumeReportList", Ranap.RANAP_RAB_DataVolumeReportList),
  (text% "RAB-DataVolumeReportItem", Ranap.RANAP_RAB_DataVolumeReportItem),
  (text% "RAB-ReleasedItem-IuRelComp", Ranap.RANAP_RAB_ReleasedItem_IuRelComp),
  (text% "RAB-RelocationReleaseItem", Ranap.RANAP_RAB_RelocationReleaseItem),
  (text% "RAB-DataForwardingItem", Ranap.RANAP_RAB_DataForwardingItem),
  (text% "RAB-DataForwardingItem-SRNS-CtxReq", Ranap.RANAP_RAB_DataForwardingItem_SRNS_CtxReq),
  (text% "RAB-SetupItem-RelocReq", Ranap.RANAP_RAB_SetupItem_RelocReq),
  (text% "UserPlaneInformation", Ranap.RANAP_UserPlaneInformation),
  (text% "CNMBMSLinkingInformation", Ranap.RANAP_CNMBMSLinkingInformation),
  (text% "JoinedMBMSBearerService-IEs", Ranap.RANAP_JoinedMBMSBearerService_IEs),
  (text% "JoinedMBMSBearerService-IEs-Value", Ranap.RANAP_JoinedMBMSBearerService_IEs_Value),
  (text% "RAB-SetupItem-RelocReqAck", Ranap.RANAP_RAB_SetupItem_RelocReqAck),
  (text% "RAB-FailedItem", Ranap.RANAP_RAB_FailedItem),
  (text% "RAB-ContextItem", Ranap.RANAP_RAB_ContextItem),
  (text% "RABs-ContextFailedtoTransferItem", Ranap.RANAP_RABs_ContextFailedtoTransferItem),
  (text% "RABs-failed-to-reportItem", Ranap.RANAP_RABs_failed_to_reportItem),
  (text% "ResetResourceList", Ranap.RANAP_ResetResourceList),
  (text% "ResetResourceItem", Ranap.RANAP_ResetResourceItem),
  (text% "ResetResourceAckList", Ranap.RANAP_ResetResourceAckList),
  (text% "ResetResourceAckItem", Ranap.RANAP_ResetResourceAckItem),
  (text% "RAB-ReleaseItem", Ranap.RANAP_RAB_ReleaseItem),
  (text% "RAB-SetupItem-EnhancedRelocCompleteReq", Ranap.RANAP_RAB_SetupItem_EnhancedRelocCompleteReq),
  (text% "RAB-SetupItem-EnhancedRelocCompleteRes", Ranap.RANAP_RAB_SetupItem_EnhancedRelocCompleteRes),
  (text% "RAB-ToBeReleasedItem-EnhancedRelocCompleteRes", Ranap.RANAP_RAB_ToBeReleasedItem_EnhancedRelocCompleteRes),
  (text% "RAB-SetupOrModifyItemFirst", Ranap.RANAP_RAB_SetupOrModifyItemFirst),
  (text% "TransportLayerInformation", Ranap.RANAP_TransportLayerInformation),
  (text% "RAB-SetupOrModifyItemSecond", Ranap.RANAP_RAB_SetupOrModifyItemSecond),
  (text% "RAB-SetupOrModifiedItem", Ranap.RANAP_RAB_SetupOrModifiedItem),
  (text% "RAB-ReleasedItem", Ranap.RANAP_RAB_ReleasedItem),
  (text% "DataVolumeList", Ranap.RANAP_DataVolumeList),
  (text% "DataVolumeList-Value", Ranap.RANAP_DataVolumeList_Value),
  (text% "RAB-QueuedItem", Ranap.RANAP_RAB_QueuedItem),
  (text% "RAB-ReleaseFailedList", Ranap.RANAP_RAB_ReleaseFailedList),
  (text% "GERAN-Iumode-RAB-Failed-RABAssgntResponse-List", Ranap.RANAP_GERAN_Iumode_RAB_Failed_RABAssgntResponse_List),
  (text% "GERAN-Iumode-RAB-Failed-RABAssgntResponse-Item", Ranap.RANAP_GERAN_Iumode_RAB_Failed_RABAssgntResponse_Item),
  (text% "DirectTransferInformationItem-RANAP-RelocInf", Ranap.RANAP_DirectTransferInformationItem_RANAP_RelocInf),
  (text% "RAB-ContextItem-RANAP-RelocInf", Ranap.RANAP_RAB_ContextItem_RANAP_RelocInf),
  (text% "RAB-SetupItem-EnhRelocInfoReq", Ranap.RANAP_RAB_SetupItem_EnhRelocInfoReq),
  (text% "TNLInformationEnhRelInfoReq", Ranap.RANAP_TNLInformationEnhRelInfoReq),
  (text% "RAB-SetupItem-EnhRelocInfoRes", Ranap.RANAP_RAB_SetupItem_EnhRelocInfoRes),
  (text% "RAB-FailedItem-EnhRelocInfoRes", Ranap.RANAP_RAB_FailedItem_EnhRelocInfoRes),
  (text% "TNLInformationEnhRelInfoRes", Ranap.RANAP_TNLInformationEnhRelInfoRes),
  (text% "RAB-ModifyItem", Ranap.RANAP_RAB_ModifyItem),
  (text% "MBMSSynchronisationInformation", Ranap.RANAP_MBMSSynchronisationInformation),
  (text% "LeftMBMSBearerService-IEs", Ranap.RANAP_LeftMBMSBearerService_IEs),
  (text% "LeftMBMSBearerService-IEs-Value", Ranap.RANAP_LeftMBMSBearerService_IEs_Value),
  (text% "UnsuccessfulLinking-IEs", Ranap.RANAP_UnsuccessfulLinking_IEs),
  (text% "UnsuccessfulLinking-IEs-Value", Ranap.RANAP_UnsuccessfulLinking_IEs_Value)]

theorem ranap_flat : moduleItems (ranapFlat.flatMap (tokens false [])) = some ranapFlatAssignments := by kernel_rfl

/-- The modules. -/
noncomputable def ranapFlatModules : List (List Text) := [ranapCommon, ranapConstants, ranapIes, ranapFlat]

/-- All assignments. -/
noncomputable def ranapAllFlat : List Assignment :=
  [ranapCommonAssignments, ranapConstantsAssignments, ranapIesAssignments, ranapFlatAssignments].flatten ++ []

theorem ranap_flatAssignments : assignments ranapFlatModules [] = some ranapAllFlat := by
  unfold assignments ranapFlatModules
  simp only [List.mapM_cons, List.mapM_nil, ranap_common, ranap_constants, ranap_ies, ranap_flat]
  rfl

/-- The types in an order in which each uses only those in front of it. -/
noncomputable def ranapDescriptorOrder : List (Text × Aper.Ty) := [
  (text% "Criticality", Ranap.RANAP_Criticality),
  (text% "ProcedureCode", Ranap.RANAP_ProcedureCode),
  (text% "Outcome", Ranap.RANAP_Outcome),
  (text% "UnsuccessfulOutcome", Ranap.RANAP_UnsuccessfulOutcome),
  (text% "SuccessfulOutcome", Ranap.RANAP_SuccessfulOutcome),
  (text% "InitiatingMessage", Ranap.RANAP_InitiatingMessage),
  (text% "RANAP-PDU", Ranap.RANAP_RANAP_PDU),
  (text% "ProtocolIE-ID", Ranap.RANAP_ProtocolIE_ID),
  (text% "IE", Ranap.RANAP_IE),
  (text% "Iu-ReleaseCommand", Ranap.RANAP_Iu_ReleaseCommand),
  (text% "CauseNon-Standard", Ranap.RANAP_CauseNon_Standard),
  (text% "CauseMisc", Ranap.RANAP_CauseMisc),
  (text% "CauseProtocol", Ranap.RANAP_CauseProtocol),
  (text% "CauseNAS", Ranap.RANAP_CauseNAS),
  (text% "CauseTransmissionNetwork", Ranap.RANAP_CauseTransmissionNetwork),
  (text% "CauseRadioNetwork", Ranap.RANAP_CauseRadioNetwork),
  (text% "CauseRadioNetworkExtension", Ranap.RANAP_CauseRadioNetworkExtension),
  (text% "Cause", Ranap.RANAP_Cause),
  (text% "Iu-ReleaseComplete", Ranap.RANAP_Iu_ReleaseComplete),
  (text% "RAB-DataVolumeReportList", Ranap.RANAP_RAB_DataVolumeReportList),
  (text% "RAB-ReleasedList-IuRelComp", Ranap.RANAP_RAB_ReleasedList_IuRelComp),
  (text% "IE-Extensions", Ranap.RANAP_IE_Extensions),
  (text% "RepetitionNumber0", Ranap.RANAP_RepetitionNumber0),
  (text% "CriticalityDiagnostics-IE-List-Value", Ranap.RANAP_CriticalityDiagnostics_IE_List_Value),
  (text% "CriticalityDiagnostics-IE-List", Ranap.RANAP_CriticalityDiagnostics_IE_List),
  (text% "TriggeringMessage", Ranap.RANAP_TriggeringMessage),
  (text% "CriticalityDiagnostics", Ranap.RANAP_CriticalityDiagnostics),
  (text% "ProtocolExtensionField", Ranap.RANAP_ProtocolExtensionField),
  (text% "ProtocolExtensionContainer", Ranap.RANAP_ProtocolExtensionContainer),
  (text% "DataVolumeReference", Ranap.RANAP_DataVolumeReference),
  (text% "UnsuccessfullyTransmittedDataVolume", Ranap.RANAP_UnsuccessfullyTransmittedDataVolume),
  (text% "DataVolumeList-Value", Ranap.RANAP_DataVolumeList_Value),
  (text% "DataVolumeList", Ranap.RANAP_DataVolumeList),
  (text% "RAB-ID", Ranap.RANAP_RAB_ID),
  (text% "RAB-DataVolumeReportItem", Ranap.RANAP_RAB_DataVolumeReportItem),
  (text% "UL-GTP-PDU-SequenceNumber", Ranap.RANAP_UL_GTP_PDU_SequenceNumber),
  (text% "DL-GTP-PDU-SequenceNumber", Ranap.RANAP_DL_GTP_PDU_SequenceNumber),
  (text% "RAB-ReleasedItem-IuRelComp", Ranap.RANAP_RAB_ReleasedItem_IuRelComp),
  (text% "RelocationRequired", Ranap.RANAP_RelocationRequired),
  (text% "RelocationType", Ranap.RANAP_RelocationType),
  (text% "SAC", Ranap.RANAP_SAC),
  (text% "LAC", Ranap.RANAP_LAC),
  (text% "PLMNidentity", Ranap.RANAP_PLMNidentity),
  (text% "SAI", Ranap.RANAP_SAI),
  (text% "RNC-ID", Ranap.RANAP_RNC_ID),
  (text% "SourceRNC-ID", Ranap.RANAP_SourceRNC_ID),
  (text% "SourceID", Ranap.RANAP_SourceID),
  (text% "CI", Ranap.RANAP_CI),
  (text% "CGI", Ranap.RANAP_CGI),
  (text% "RAC", Ranap.RANAP_RAC),
  (text% "LAI", Ranap.RANAP_LAI),
  (text% "TargetRNC-ID", Ranap.RANAP_TargetRNC_ID),
  (text% "TAC", Ranap.RANAP_TAC),
  (text% "TAI", Ranap.RANAP_TAI),
  (text% "ENB-ID", Ranap.RANAP_ENB_ID),
  (text% "TargetENB-ID", Ranap.RANAP_TargetENB_ID),
  (text% "TargetID", Ranap.RANAP_TargetID),
  (text% "OldBSS-ToNewBSS-Information", Ranap.RANAP_OldBSS_ToNewBSS_Information),
  (text% "RelocationCommand", Ranap.RANAP_RelocationCommand),
  (text% "L3-Information", Ranap.RANAP_L3_Information),
  (text% "RAB-RelocationReleaseList", Ranap.RANAP_RAB_RelocationReleaseList),
  (text% "RAB-DataForwardingList", Ranap.RANAP_RAB_DataForwardingList),
  (text% "RAB-RelocationReleaseItem", Ranap.RANAP_RAB_RelocationReleaseItem),
  (text% "BindingID", Ranap.RANAP_BindingID),
  (text% "GTP-TEI", Ranap.RANAP_GTP_TEI),
  (text% "IuTransportAssociation", Ranap.RANAP_IuTransportAssociation),
  (text% "TransportLayerAddress", Ranap.RANAP_TransportLayerAddress),
  (text% "RAB-DataForwardingItem", Ranap.RANAP_RAB_DataForwardingItem),
  (text% "RelocationPreparationFailure", Ranap.RANAP_RelocationPreparationFailure),
  (text% "RelocationRequest", Ranap.RANAP_RelocationRequest),
  (text% "IMSI", Ranap.RANAP_IMSI),
  (text% "PermanentNAS-UE-ID", Ranap.RANAP_PermanentNAS_UE_ID),
  (text% "CN-DomainIndicator", Ranap.RANAP_CN_DomainIndicator),
  (text% "USCH-ID", Ranap.RANAP_USCH_ID),
  (text% "DSCH-ID", Ranap.RANAP_DSCH_ID),
  (text% "DCH-ID", Ranap.RANAP_DCH_ID),
  (text% "TrCH-ID", Ranap.RANAP_TrCH_ID),
  (text% "TrCH-ID-List", Ranap.RANAP_TrCH_ID_List),
  (text% "RAB-TrCH-MappingItem", Ranap.RANAP_RAB_TrCH_MappingItem),
  (text% "RAB-TrCH-Mapping", Ranap.RANAP_RAB_TrCH_Mapping),
  (text% "TargetCellId", Ranap.RANAP_TargetCellId),
  (text% "D-RNTI", Ranap.RANAP_D_RNTI),
  (text% "EncryptionAlgorithm", Ranap.RANAP_EncryptionAlgorithm),
  (text% "ChosenEncryptionAlgorithm", Ranap.RANAP_ChosenEncryptionAlgorithm),
  (text% "EncryptionKey", Ranap.RANAP_EncryptionKey),
  (text% "IntegrityProtectionKey", Ranap.RANAP_IntegrityProtectionKey),
  (text% "IntegrityProtectionAlgorithm", Ranap.RANAP_IntegrityProtectionAlgorithm),
  (text% "ChosenIntegrityProtectionAlgorithm", Ranap.RANAP_ChosenIntegrityProtectionAlgorithm),
  (text% "NumberOfIuInstances", Ranap.RANAP_NumberOfIuInstances),
  (text% "RRC-Container", Ranap.RANAP_RRC_Container),
  (text% "SourceRNC-ToTargetRNC-TransparentContainer", Ranap.RANAP_SourceRNC_ToTargetRNC_TransparentContainer),
  (text% "RAB-SetupList-RelocReq", Ranap.RANAP_RAB_SetupList_RelocReq),
  (text% "PermittedIntegrityProtectionAlgorithms", Ranap.RANAP_PermittedIntegrityProtectionAlgorithms),
  (text% "IntegrityProtectionInformation", Ranap.RANAP_IntegrityProtectionInformation),
  (text% "PermittedEncryptionAlgorithms", Ranap.RANAP_PermittedEncryptionAlgorithms),
  (text% "EncryptionInformation", Ranap.RANAP_EncryptionInformation),
  (text% "IuSignallingConnectionIdentifier", Ranap.RANAP_IuSignallingConnectionIdentifier),
  (text% "Service-Handover", Ranap.RANAP_Service_Handover),
  (text% "UP-ModeVersions", Ranap.RANAP_UP_ModeVersions),
  (text% "UserPlaneMode", Ranap.RANAP_UserPlaneMode),
  (text% "UserPlaneInformation", Ranap.RANAP_UserPlaneInformation),
  (text% "PDP-Type", Ranap.RANAP_PDP_Type),
  (text% "PDP-TypeInformation", Ranap.RANAP_PDP_TypeInformation),
  (text% "DataVolumeReportingIndication", Ranap.RANAP_DataVolumeReportingIndication),
  (text% "RelocationRequirement", Ranap.RANAP_RelocationRequirement),
  (text% "SourceStatisticsDescriptor", Ranap.RANAP_SourceStatisticsDescriptor),
  (text% "QueuingAllowed", Ranap.RANAP_QueuingAllowed),
  (text% "Pre-emptionVulnerability", Ranap.RANAP_Pre_emptionVulnerability),
  (text% "Pre-emptionCapability", Ranap.RANAP_Pre_emptionCapability),
  (text% "PriorityLevel", Ranap.RANAP_PriorityLevel),
  (text% "AllocationOrRetentionPriority", Ranap.RANAP_AllocationOrRetentionPriority),
  (text% "TrafficHandlingPriority", Ranap.RANAP_TrafficHandlingPriority),
  (text% "TransferDelay", Ranap.RANAP_TransferDelay),
  (text% "RAB-SubflowCombinationBitRate", Ranap.RANAP_RAB_SubflowCombinationBitRate),
  (text% "SubflowSDU-Size", Ranap.RANAP_SubflowSDU_Size),
  (text% "SDU-FormatInformationParameterItem", Ranap.RANAP_SDU_FormatInformationParameterItem),
  (text% "SDU-FormatInformationParameters", Ranap.RANAP_SDU_FormatInformationParameters),
  (text% "DeliveryOfErroneousSDU", Ranap.RANAP_DeliveryOfErroneousSDU),
  (text% "ResidualBitErrorRatio", Ranap.RANAP_ResidualBitErrorRatio),
  (text% "SDU-ErrorRatio", Ranap.RANAP_SDU_ErrorRatio),
  (text% "SDU-ParameterItem", Ranap.RANAP_SDU_ParameterItem),
  (text% "SDU-Parameters", Ranap.RANAP_SDU_Parameters),
  (text% "MaxSDU-Size", Ranap.RANAP_MaxSDU_Size),
  (text% "DeliveryOrder", Ranap.RANAP_DeliveryOrder),
  (text% "GuaranteedBitrate", Ranap.RANAP_GuaranteedBitrate),
  (text% "RAB-Parameter-GuaranteedBitrateList", Ranap.RANAP_RAB_Parameter_GuaranteedBitrateList),
  (text% "MaxBitrate", Ranap.RANAP_MaxBitrate),
  (text% "RAB-Parameter-MaxBitrateList", Ranap.RANAP_RAB_Parameter_MaxBitrateList),
  (text% "RAB-AsymmetryIndicator", Ranap.RANAP_RAB_AsymmetryIndicator),
  (text% "TrafficClass", Ranap.RANAP_TrafficClass),
  (text% "RAB-Parameters", Ranap.RANAP_RAB_Parameters),
  (text% "NAS-SynchronisationIndicator", Ranap.RANAP_NAS_SynchronisationIndicator),
  (text% "RAB-SetupItem-RelocReq", Ranap.RANAP_RAB_SetupItem_RelocReq),
  (text% "RelocationRequestAcknowledge", Ranap.RANAP_RelocationRequestAcknowledge),
  (text% "TargetRNC-ToSourceRNC-TransparentContainer", Ranap.RANAP_TargetRNC_ToSourceRNC_TransparentContainer),
  (text% "RAB-SetupList-RelocReqAck", Ranap.RANAP_RAB_SetupList_RelocReqAck),
  (text% "RAB-FailedList", Ranap.RANAP_RAB_FailedList),
  (text% "RAB-SetupItem-RelocReqAck", Ranap.RANAP_RAB_SetupItem_RelocReqAck),
  (text% "RAB-FailedItem", Ranap.RANAP_RAB_FailedItem),
  (text% "RelocationFailure", Ranap.RANAP_RelocationFailure),
  (text% "RelocationCancel", Ranap.RANAP_RelocationCancel),
  (text% "RelocationCancelAcknowledge", Ranap.RANAP_RelocationCancelAcknowledge),
  (text% "SRNS-ContextRequest", Ranap.RANAP_SRNS_ContextRequest),
  (text% "RAB-DataForwardingList-SRNS-CtxReq", Ranap.RANAP_RAB_DataForwardingList_SRNS_CtxReq),
  (text% "RAB-DataForwardingItem-SRNS-CtxReq", Ranap.RANAP_RAB_DataForwardingItem_SRNS_CtxReq),
  (text% "SRNS-ContextResponse", Ranap.RANAP_SRNS_ContextResponse),
  (text% "RAB-ContextList", Ranap.RANAP_RAB_ContextList),
  (text% "RABs-ContextFailedtoTransferList", Ranap.RANAP_RABs_ContextFailedtoTransferList),
  (text% "UL-N-PDU-SequenceNumber", Ranap.RANAP_UL_N_PDU_SequenceNumber),
  (text% "DL-N-PDU-SequenceNumber", Ranap.RANAP_DL_N_PDU_SequenceNumber),
  (text% "RAB-ContextItem", Ranap.RANAP_RAB_ContextItem),
  (text% "RABs-ContextFailedtoTransferItem", Ranap.RANAP_RABs_ContextFailedtoTransferItem),
  (text% "SecurityModeCommand", Ranap.RANAP_SecurityModeCommand),
  (text% "KeyStatus", Ranap.RANAP_KeyStatus),
  (text% "SecurityModeComplete", Ranap.RANAP_SecurityModeComplete),
  (text% "SecurityModeReject", Ranap.RANAP_SecurityModeReject),
  (text% "DataVolumeReportRequest", Ranap.RANAP_DataVolumeReportRequest),
  (text% "RAB-DataVolumeReportRequestList", Ranap.RANAP_RAB_DataVolumeReportRequestList),
  (text% "RAB-DataVolumeReportRequestItem", Ranap.RANAP_RAB_DataVolumeReportRequestItem),
  (text% "DataVolumeReport", Ranap.RANAP_DataVolumeReport),
  (text% "RABs-failed-to-reportList", Ranap.RANAP_RABs_failed_to_reportList),
  (text% "RABs-failed-to-reportItem", Ranap.RANAP_RABs_failed_to_reportItem),
  (text% "Reset", Ranap.RANAP_Reset),
  (text% "GlobalRNC-ID", Ranap.RANAP_GlobalRNC_ID),
  (text% "ResetAcknowledge", Ranap.RANAP_ResetAcknowledge),
  (text% "ResetResource", Ranap.RANAP_ResetResource),
  (text% "ResetResourceList", Ranap.RANAP_ResetResourceList),
  (text% "ResetResourceItem", Ranap.RANAP_ResetResourceItem),
  (text% "ResetResourceAcknowledge", Ranap.RANAP_ResetResourceAcknowledge),
  (text% "ResetResourceAckList", Ranap.RANAP_ResetResourceAckList),
  (text% "ResetResourceAckItem", Ranap.RANAP_ResetResourceAckItem),
  (text% "RAB-ReleaseRequest", Ranap.RANAP_RAB_ReleaseRequest),
  (text% "RAB-ReleaseList", Ranap.RANAP_RAB_ReleaseList),
  (text% "RAB-ReleaseItem", Ranap.RANAP_RAB_ReleaseItem),
  (text% "Iu-ReleaseRequest", Ranap.RANAP_Iu_ReleaseRequest),
  (text% "EnhancedRelocationCompleteRequest", Ranap.RANAP_EnhancedRelocationCompleteRequest),
  (text% "ExtendedRNC-ID", Ranap.RANAP_ExtendedRNC_ID),
  (text% "RAB-SetupList-EnhancedRelocCompleteReq", Ranap.RANAP_RAB_SetupList_EnhancedRelocCompleteReq),
  (text% "Ass-RAB-Parameter-GuaranteedBitrateList", Ranap.RANAP_Ass_RAB_Parameter_GuaranteedBitrateList),
  (text% "Ass-RAB-Parameter-MaxBitrateList", Ranap.RANAP_Ass_RAB_Parameter_MaxBitrateList),
  (text% "Ass-RAB-Parameters", Ranap.RANAP_Ass_RAB_Parameters),
  (text% "RAB-SetupItem-EnhancedRelocCompleteReq", Ranap.RANAP_RAB_SetupItem_EnhancedRelocCompleteReq),
  (text% "EnhancedRelocationCompleteResponse", Ranap.RANAP_EnhancedRelocationCompleteResponse),
  (text% "RAB-SetupList-EnhancedRelocCompleteRes", Ranap.RANAP_RAB_SetupList_EnhancedRelocCompleteRes),
  (text% "RAB-ToBeReleasedList-EnhancedRelocCompleteRes", Ranap.RANAP_RAB_ToBeReleasedList_EnhancedRelocCompleteRes),
  (text% "RAB-SetupItem-EnhancedRelocCompleteRes", Ranap.RANAP_RAB_SetupItem_EnhancedRelocCompleteRes),
  (text% "RAB-ToBeReleasedItem-EnhancedRelocCompleteRes", Ranap.RANAP_RAB_ToBeReleasedItem_EnhancedRelocCompleteRes),
  (text% "EnhancedRelocationCompleteFailure", Ranap.RANAP_EnhancedRelocationCompleteFailure),
  (text% "EnhancedRelocationCompleteConfirm", Ranap.RANAP_EnhancedRelocationCompleteConfirm),
  (text% "Paging", Ranap.RANAP_Paging),
  (text% "P-TMSI", Ranap.RANAP_P_TMSI),
  (text% "TMSI", Ranap.RANAP_TMSI),
  (text% "TemporaryUE-ID", Ranap.RANAP_TemporaryUE_ID),
  (text% "RAI", Ranap.RANAP_RAI),
  (text% "PagingAreaID", Ranap.RANAP_PagingAreaID),
  (text% "PagingCause", Ranap.RANAP_PagingCause),
  (text% "NonSearchingIndication", Ranap.RANAP_NonSearchingIndication),
  (text% "DRX-CycleLengthCoefficient", Ranap.RANAP_DRX_CycleLengthCoefficient),
  (text% "CommonID", Ranap.RANAP_CommonID),
  (text% "CN-InvokeTrace", Ranap.RANAP_CN_InvokeTrace),
  (text% "TraceType", Ranap.RANAP_TraceType),
  (text% "TraceReference", Ranap.RANAP_TraceReference),
  (text% "TriggerID", Ranap.RANAP_TriggerID),
  (text% "IMEI", Ranap.RANAP_IMEI),
  (text% "IMEISV", Ranap.RANAP_IMEISV),
  (text% "UE-ID", Ranap.RANAP_UE_ID),
  (text% "OMC-ID", Ranap.RANAP_OMC_ID),
  (text% "CN-DeactivateTrace", Ranap.RANAP_CN_DeactivateTrace),
  (text% "LocationReportingControl", Ranap.RANAP_LocationReportingControl),
  (text% "ReportArea", Ranap.RANAP_ReportArea),
  (text% "Event", Ranap.RANAP_Event),
  (text% "RequestType", Ranap.RANAP_RequestType),
  (text% "LocationReport", Ranap.RANAP_LocationReport),
  (text% "GeographicalCoordinates", Ranap.RANAP_GeographicalCoordinates),
  (text% "GA-Polygon-Value", Ranap.RANAP_GA_Polygon_Value),
  (text% "GA-Polygon", Ranap.RANAP_GA_Polygon),
  (text% "GA-PointWithUnCertainty", Ranap.RANAP_GA_PointWithUnCertainty),
  (text% "GA-Point", Ranap.RANAP_GA_Point),
  (text% "GA-EllipsoidArc", Ranap.RANAP_GA_EllipsoidArc),
  (text% "GA-UncertaintyEllipse", Ranap.RANAP_GA_UncertaintyEllipse),
  (text% "GA-AltitudeAndDirection", Ranap.RANAP_GA_AltitudeAndDirection),
  (text% "GA-PointWithAltitudeAndUncertaintyEllipsoid", Ranap.RANAP_GA_PointWithAltitudeAndUncertaintyEllipsoid),
  (text% "GA-PointWithAltitude", Ranap.RANAP_GA_PointWithAltitude),
  (text% "GA-PointWithUnCertaintyEllipse", Ranap.RANAP_GA_PointWithUnCertaintyEllipse),
  (text% "GeographicalArea", Ranap.RANAP_GeographicalArea),
  (text% "AreaIdentity", Ranap.RANAP_AreaIdentity),
  (text% "InitialUE-Message", Ranap.RANAP_InitialUE_Message),
  (text% "NAS-PDU", Ranap.RANAP_NAS_PDU),
  (text% "DirectTransfer", Ranap.RANAP_DirectTransfer),
  (text% "SAPI", Ranap.RANAP_SAPI),
  (text% "RedirectionIndication", Ranap.RANAP_RedirectionIndication),
  (text% "RejectCauseValue", Ranap.RANAP_RejectCauseValue),
  (text% "NAS-SequenceNumber", Ranap.RANAP_NAS_SequenceNumber),
  (text% "Overload", Ranap.RANAP_Overload),
  (text% "NumberOfSteps", Ranap.RANAP_NumberOfSteps),
  (text% "ErrorIndication", Ranap.RANAP_ErrorIndication),
  (text% "SRNS-DataForwardCommand", Ranap.RANAP_SRNS_DataForwardCommand),
  (text% "ForwardSRNS-Context", Ranap.RANAP_ForwardSRNS_Context),
  (text% "RAB-AssignmentRequest", Ranap.RANAP_RAB_AssignmentRequest),
  (text% "ProtocolIE-FieldPair", Ranap.RANAP_ProtocolIE_FieldPair),
  (text% "ProtocolIE-ContainerPair", Ranap.RANAP_ProtocolIE_ContainerPair),
  (text% "RAB-IE-ContainerPairList", Ranap.RANAP_RAB_IE_ContainerPairList),
  (text% "RAB-SetupOrModifyList", Ranap.RANAP_RAB_SetupOrModifyList),
  (text% "RAB-AssignmentResponse", Ranap.RANAP_RAB_AssignmentResponse),
  (text% "RAB-SetupOrModifiedList", Ranap.RANAP_RAB_SetupOrModifiedList),
  (text% "RAB-ReleasedList", Ranap.RANAP_RAB_ReleasedList),
  (text% "RAB-QueuedList", Ranap.RANAP_RAB_QueuedList),
  (text% "RAB-ReleaseFailedList", Ranap.RANAP_RAB_ReleaseFailedList),
  (text% "RAB-SetupOrModifiedItem", Ranap.RANAP_RAB_SetupOrModifiedItem),
  (text% "RAB-ReleasedItem", Ranap.RANAP_RAB_ReleasedItem),
  (text% "RAB-QueuedItem", Ranap.RANAP_RAB_QueuedItem),
  (text% "GERAN-Iumode-RAB-Failed-RABAssgntResponse-List", Ranap.RANAP_GERAN_Iumode_RAB_Failed_RABAssgntResponse_List),
  (text% "GERAN-Classmark", Ranap.RANAP_GERAN_Classmark),
  (text% "GERAN-Iumode-RAB-Failed-RABAssgntResponse-Item", Ranap.RANAP_GERAN_Iumode_RAB_Failed_RABAssgntResponse_Item),
  (text% "RANAP-RelocationInformation", Ranap.RANAP_RANAP_RelocationInformation),
  (text% "RAB-ContextList-RANAP-RelocInf", Ranap.RANAP_RAB_ContextList_RANAP_RelocInf),
  (text% "RAB-ContextItem-RANAP-RelocInf", Ranap.RANAP_RAB_ContextItem_RANAP_RelocInf),
  (text% "RANAP-EnhancedRelocationInformationRequest", Ranap.RANAP_RANAP_EnhancedRelocationInformationRequest),
  (text% "CN-ID", Ranap.RANAP_CN_ID),
  (text% "GlobalCN-ID", Ranap.RANAP_GlobalCN_ID),
  (text% "RAB-SetupList-EnhRelocInfoReq", Ranap.RANAP_RAB_SetupList_EnhRelocInfoReq),
  (text% "SNAC", Ranap.RANAP_SNAC),
  (text% "AuthorisedSNAs", Ranap.RANAP_AuthorisedSNAs),
  (text% "AuthorisedPLMNs-Value", Ranap.RANAP_AuthorisedPLMNs_Value),
  (text% "AuthorisedPLMNs", Ranap.RANAP_AuthorisedPLMNs),
  (text% "SNA-Access-Information", Ranap.RANAP_SNA_Access_Information),
  (text% "UESBI-IuB", Ranap.RANAP_UESBI_IuB),
  (text% "UESBI-IuA", Ranap.RANAP_UESBI_IuA),
  (text% "UESBI-Iu", Ranap.RANAP_UESBI_Iu),
  (text% "MBMS-PTP-RAB-ID", Ranap.RANAP_MBMS_PTP_RAB_ID),
  (text% "TMGI", Ranap.RANAP_TMGI),
  (text% "JoinedMBMSBearerService-IEs-Value", Ranap.RANAP_JoinedMBMSBearerService_IEs_Value),
  (text% "JoinedMBMSBearerService-IEs", Ranap.RANAP_JoinedMBMSBearerService_IEs),
  (text% "CNMBMSLinkingInformation", Ranap.RANAP_CNMBMSLinkingInformation),
  (text% "Alt-RAB-Parameter-GuaranteedBitrateList", Ranap.RANAP_Alt_RAB_Parameter_GuaranteedBitrateList),
  (text% "Alt-RAB-Parameter-GuaranteedBitrates", Ranap.RANAP_Alt_RAB_Parameter_GuaranteedBitrates),
  (text% "Alt-RAB-Parameter-GuaranteedBitrateType", Ranap.RANAP_Alt_RAB_Parameter_GuaranteedBitrateType),
  (text% "Alt-RAB-Parameter-GuaranteedBitrateInf", Ranap.RANAP_Alt_RAB_Parameter_GuaranteedBitrateInf),
  (text% "Alt-RAB-Parameter-MaxBitrateList", Ranap.RANAP_Alt_RAB_Parameter_MaxBitrateList),
  (text% "Alt-RAB-Parameter-MaxBitrates", Ranap.RANAP_Alt_RAB_Parameter_MaxBitrates),
  (text% "Alt-RAB-Parameter-MaxBitrateType", Ranap.RANAP_Alt_RAB_Parameter_MaxBitrateType),
  (text% "Alt-RAB-Parameter-MaxBitrateInf", Ranap.RANAP_Alt_RAB_Parameter_MaxBitrateInf),
  (text% "Alt-RAB-Parameters", Ranap.RANAP_Alt_RAB_Parameters),
  (text% "TNLInformationEnhRelInfoReq", Ranap.RANAP_TNLInformationEnhRelInfoReq),
  (text% "RAB-SetupItem-EnhRelocInfoReq", Ranap.RANAP_RAB_SetupItem_EnhRelocInfoReq),
  (text% "RANAP-EnhancedRelocationInformationResponse", Ranap.RANAP_RANAP_EnhancedRelocationInformationResponse),
  (text% "RAB-SetupList-EnhRelocInfoRes", Ranap.RANAP_RAB_SetupList_EnhRelocInfoRes),
  (text% "RAB-FailedList-EnhRelocInfoRes", Ranap.RANAP_RAB_FailedList_EnhRelocInfoRes),
  (text% "TNLInformationEnhRelInfoRes", Ranap.RANAP_TNLInformationEnhRelInfoRes),
  (text% "RAB-SetupItem-EnhRelocInfoRes", Ranap.RANAP_RAB_SetupItem_EnhRelocInfoRes),
  (text% "RAB-FailedItem-EnhRelocInfoRes", Ranap.RANAP_RAB_FailedItem_EnhRelocInfoRes),
  (text% "RAB-ModifyRequest", Ranap.RANAP_RAB_ModifyRequest),
  (text% "RAB-ModifyList", Ranap.RANAP_RAB_ModifyList),
  (text% "Requested-RAB-Parameter-GuaranteedBitrateList", Ranap.RANAP_Requested_RAB_Parameter_GuaranteedBitrateList),
  (text% "Requested-RAB-Parameter-MaxBitrateList", Ranap.RANAP_Requested_RAB_Parameter_MaxBitrateList),
  (text% "Requested-RAB-Parameter-Values", Ranap.RANAP_Requested_RAB_Parameter_Values),
  (text% "RAB-ModifyItem", Ranap.RANAP_RAB_ModifyItem),
  (text% "LocationRelatedDataRequest", Ranap.RANAP_LocationRelatedDataRequest),
  (text% "RequestedGPSAssistanceData", Ranap.RANAP_RequestedGPSAssistanceData),
  (text% "RequestedLocationRelatedDataType", Ranap.RANAP_RequestedLocationRelatedDataType),
  (text% "LocationRelatedDataRequestType", Ranap.RANAP_LocationRelatedDataRequestType),
  (text% "LocationRelatedDataResponse", Ranap.RANAP_LocationRelatedDataResponse),
  (text% "BroadcastAssistanceDataDecipheringKeys", Ranap.RANAP_BroadcastAssistanceDataDecipheringKeys),
  (text% "LocationRelatedDataFailure", Ranap.RANAP_LocationRelatedDataFailure),
  (text% "InformationTransferIndication", Ranap.RANAP_InformationTransferIndication),
  (text% "InformationTransferID", Ranap.RANAP_InformationTransferID),
  (text% "ListOF-SNAs", Ranap.RANAP_ListOF_SNAs),
  (text% "LA-LIST-Value", Ranap.RANAP_LA_LIST_Value),
  (text% "LA-LIST", Ranap.RANAP_LA_LIST),
  (text% "PLMNs-in-shared-network-Value", Ranap.RANAP_PLMNs_in_shared_network_Value),
  (text% "PLMNs-in-shared-network", Ranap.RANAP_PLMNs_in_shared_network),
  (text% "Shared-Network-Information", Ranap.RANAP_Shared_Network_Information),
  (text% "ProvidedData", Ranap.RANAP_ProvidedData),
  (text% "InformationTransferConfirmation", Ranap.RANAP_InformationTransferConfirmation),
  (text% "InformationTransferFailure", Ranap.RANAP_InformationTransferFailure),
  (text% "UESpecificInformationIndication", Ranap.RANAP_UESpecificInformationIndication),
  (text% "DirectInformationTransfer", Ranap.RANAP_DirectInformationTransfer),
  (text% "GERAN-Cell-ID", Ranap.RANAP_GERAN_Cell_ID),
  (text% "RIMRoutingAddress", Ranap.RANAP_RIMRoutingAddress),
  (text% "RIMInformation", Ranap.RANAP_RIMInformation),
  (text% "RIM-Transfer", Ranap.RANAP_RIM_Transfer),
  (text% "InterSystemInformationTransferType", Ranap.RANAP_InterSystemInformationTransferType),
  (text% "UplinkInformationExchangeRequest", Ranap.RANAP_UplinkInformationExchangeRequest),
  (text% "InformationExchangeID", Ranap.RANAP_InformationExchangeID),
  (text% "InformationExchangeType", Ranap.RANAP_InformationExchangeType),
  (text% "UplinkInformationExchangeResponse", Ranap.RANAP_UplinkInformationExchangeResponse),
  (text% "RequestedMulticastServiceList", Ranap.RANAP_RequestedMulticastServiceList),
  (text% "APN", Ranap.RANAP_APN),
  (text% "IPMulticastAddress", Ranap.RANAP_IPMulticastAddress),
  (text% "MBMSIPMulticastAddressandAPNlist", Ranap.RANAP_MBMSIPMulticastAddressandAPNlist),
  (text% "RequestedMBMSIPMulticastAddressandAPNRequest", Ranap.RANAP_RequestedMBMSIPMulticastAddressandAPNRequest),
  (text% "InformationRequested", Ranap.RANAP_InformationRequested),
  (text% "UplinkInformationExchangeFailure", Ranap.RANAP_UplinkInformationExchangeFailure),
  (text% "MBMSSessionStart", Ranap.RANAP_MBMSSessionStart),
  (text% "MBMSSessionIdentity", Ranap.RANAP_MBMSSessionIdentity),
  (text% "MBMSBearerServiceType", Ranap.RANAP_MBMSBearerServiceType),
  (text% "MBMSSessionDuration", Ranap.RANAP_MBMSSessionDuration),
  (text% "MBMSServiceArea", Ranap.RANAP_MBMSServiceArea),
  (text% "FrequenceLayerConvergenceFlag", Ranap.RANAP_FrequenceLayerConvergenceFlag),
  (text% "RAofIdleModeUEs", Ranap.RANAP_RAofIdleModeUEs),
  (text% "NotEmptyRAListofIdleModeUEs", Ranap.RANAP_NotEmptyRAListofIdleModeUEs),
  (text% "RAListofIdleModeUEs", Ranap.RANAP_RAListofIdleModeUEs),
  (text% "MBMSSessionRepetitionNumber", Ranap.RANAP_MBMSSessionRepetitionNumber),
  (text% "TimeToMBMSDataTransfer", Ranap.RANAP_TimeToMBMSDataTransfer),
  (text% "MBMSSessionStartResponse", Ranap.RANAP_MBMSSessionStartResponse),
  (text% "TransportLayerInformation", Ranap.RANAP_TransportLayerInformation),
  (text% "MBMSSessionStartFailure", Ranap.RANAP_MBMSSessionStartFailure),
  (text% "MBMSSessionUpdate", Ranap.RANAP_MBMSSessionUpdate),
  (text% "SessionUpdateID", Ranap.RANAP_SessionUpdateID),
  (text% "RAListwithNoIdleModeUEsAnyMore", Ranap.RANAP_RAListwithNoIdleModeUEsAnyMore),
  (text% "NewRAListofIdleModeUEs", Ranap.RANAP_NewRAListofIdleModeUEs),
  (text% "DeltaRAListofIdleModeUEs", Ranap.RANAP_DeltaRAListofIdleModeUEs),
  (text% "MBMSSessionUpdateResponse", Ranap.RANAP_MBMSSessionUpdateResponse),
  (text% "MBMSSessionUpdateFailure", Ranap.RANAP_MBMSSessionUpdateFailure),
  (text% "MBMSSessionStop", Ranap.RANAP_MBMSSessionStop),
  (text% "MBMSCNDe-Registration", Ranap.RANAP_MBMSCNDe_Registration),
  (text% "MBMSSessionStopResponse", Ranap.RANAP_MBMSSessionStopResponse),
  (text% "MBMSUELinkingRequest", Ranap.RANAP_MBMSUELinkingRequest),
  (text% "LeftMBMSBearerService-IEs-Value", Ranap.RANAP_LeftMBMSBearerService_IEs_Value),
  (text% "LeftMBMSBearerService-IEs", Ranap.RANAP_LeftMBMSBearerService_IEs),
  (text% "MBMSUELinkingResponse", Ranap.RANAP_MBMSUELinkingResponse),
  (text% "UnsuccessfulLinking-IEs-Value", Ranap.RANAP_UnsuccessfulLinking_IEs_Value),
  (text% "UnsuccessfulLinking-IEs", Ranap.RANAP_UnsuccessfulLinking_IEs),
  (text% "MBMSRegistrationRequest", Ranap.RANAP_MBMSRegistrationRequest),
  (text% "MBMSRegistrationRequestType", Ranap.RANAP_MBMSRegistrationRequestType),
  (text% "MBMSRegistrationResponse", Ranap.RANAP_MBMSRegistrationResponse),
  (text% "MBMSRegistrationFailure", Ranap.RANAP_MBMSRegistrationFailure),
  (text% "MBMSCNDe-RegistrationRequest", Ranap.RANAP_MBMSCNDe_RegistrationRequest),
  (text% "MBMSCNDe-RegistrationResponse", Ranap.RANAP_MBMSCNDe_RegistrationResponse),
  (text% "MBMSRABEstablishmentIndication", Ranap.RANAP_MBMSRABEstablishmentIndication),
  (text% "MBMSRABReleaseRequest", Ranap.RANAP_MBMSRABReleaseRequest),
  (text% "MBMSRABRelease", Ranap.RANAP_MBMSRABRelease),
  (text% "MBMSRABReleaseFailure", Ranap.RANAP_MBMSRABReleaseFailure),
  (text% "SRVCC-CSKeysResponse", Ranap.RANAP_SRVCC_CSKeysResponse),
  (text% "SRVCC-Information", Ranap.RANAP_SRVCC_Information),
  (text% "UeRadioCapabilityMatchResponse", Ranap.RANAP_UeRadioCapabilityMatchResponse),
  (text% "VoiceSupportMatchIndicator", Ranap.RANAP_VoiceSupportMatchIndicator),
  (text% "RAB-SetupOrModifyItemFirst", Ranap.RANAP_RAB_SetupOrModifyItemFirst),
  (text% "RAB-SetupOrModifyItemSecond", Ranap.RANAP_RAB_SetupOrModifyItemSecond),
  (text% "ExtendedMaxBitrate", Ranap.RANAP_ExtendedMaxBitrate),
  (text% "RAB-Parameter-ExtendedMaxBitrateList", Ranap.RANAP_RAB_Parameter_ExtendedMaxBitrateList),
  (text% "AccuracyFulfilmentIndicator", Ranap.RANAP_AccuracyFulfilmentIndicator),
  (text% "ExtendedGuaranteedBitrate", Ranap.RANAP_ExtendedGuaranteedBitrate),
  (text% "Alt-RAB-Parameter-ExtendedGuaranteedBitrateList", Ranap.RANAP_Alt_RAB_Parameter_ExtendedGuaranteedBitrateList),
  (text% "Alt-RAB-Parameter-ExtendedGuaranteedBitrates", Ranap.RANAP_Alt_RAB_Parameter_ExtendedGuaranteedBitrates),
  (text% "Alt-RAB-Parameter-ExtendedGuaranteedBitrateInf", Ranap.RANAP_Alt_RAB_Parameter_ExtendedGuaranteedBitrateInf),
  (text% "Alt-RAB-Parameter-ExtendedMaxBitrateList", Ranap.RANAP_Alt_RAB_Parameter_ExtendedMaxBitrateList),
  (text% "Alt-RAB-Parameter-ExtendedMaxBitrates", Ranap.RANAP_Alt_RAB_Parameter_ExtendedMaxBitrates),
  (text% "Alt-RAB-Parameter-ExtendedMaxBitrateInf", Ranap.RANAP_Alt_RAB_Parameter_ExtendedMaxBitrateInf),
  (text% "SupportedBitrate", Ranap.RANAP_SupportedBitrate),
  (text% "SupportedRAB-ParameterBitrateList", Ranap.RANAP_SupportedRAB_ParameterBitrateList),
  (text% "Alt-RAB-Parameter-SupportedGuaranteedBitrates", Ranap.RANAP_Alt_RAB_Parameter_SupportedGuaranteedBitrates),
  (text% "Alt-RAB-Parameter-SupportedGuaranteedBitrateInf", Ranap.RANAP_Alt_RAB_Parameter_SupportedGuaranteedBitrateInf),
  (text% "Alt-RAB-Parameter-SupportedMaxBitrates", Ranap.RANAP_Alt_RAB_Parameter_SupportedMaxBitrates),
  (text% "Alt-RAB-Parameter-SupportedMaxBitrateInf", Ranap.RANAP_Alt_RAB_Parameter_SupportedMaxBitrateInf),
  (text% "AlternativeRABConfigurationRequest", Ranap.RANAP_AlternativeRABConfigurationRequest),
  (text% "Ass-RAB-Parameter-ExtendedGuaranteedBitrateList", Ranap.RANAP_Ass_RAB_Parameter_ExtendedGuaranteedBitrateList),
  (text% "Ass-RAB-Parameter-ExtendedMaxBitrateList", Ranap.RANAP_Ass_RAB_Parameter_ExtendedMaxBitrateList),
  (text% "CSFB-Information", Ranap.RANAP_CSFB_Information),
  (text% "CSG-Id", Ranap.RANAP_CSG_Id),
  (text% "CSG-Id-List", Ranap.RANAP_CSG_Id_List),
  (text% "CSG-Membership-Status", Ranap.RANAP_CSG_Membership_Status),
  (text% "Cell-Access-Mode", Ranap.RANAP_Cell_Access_Mode),
  (text% "Cell-Capacity-Class-Value", Ranap.RANAP_Cell_Capacity_Class_Value),
  (text% "Cell-Id", Ranap.RANAP_Cell_Id),
  (text% "CellIdList", Ranap.RANAP_CellIdList),
  (text% "CellBased", Ranap.RANAP_CellBased),
  (text% "NRTLoadInformationValue", Ranap.RANAP_NRTLoadInformationValue),
  (text% "RTLoadValue", Ranap.RANAP_RTLoadValue),
  (text% "LoadValue", Ranap.RANAP_LoadValue),
  (text% "CellLoadInformation", Ranap.RANAP_CellLoadInformation),
  (text% "SourceUTRANCellID", Ranap.RANAP_SourceUTRANCellID),
  (text% "SourceCellID", Ranap.RANAP_SourceCellID),
  (text% "CellLoadInformationGroup", Ranap.RANAP_CellLoadInformationGroup),
  (text% "CellType", Ranap.RANAP_CellType),
  (text% "ClassmarkInformation2", Ranap.RANAP_ClassmarkInformation2),
  (text% "ClassmarkInformation3", Ranap.RANAP_ClassmarkInformation3),
  (text% "ClientType", Ranap.RANAP_ClientType),
  (text% "Correlation-ID", Ranap.RANAP_Correlation_ID),
  (text% "DataPDUType", Ranap.RANAP_DataPDUType),
  (text% "DataVolumeReportList", Ranap.RANAP_DataVolumeReportList),
  (text% "DirectReportingIndicator", Ranap.RANAP_DirectReportingIndicator),
  (text% "ProtocolIE-Container", Ranap.RANAP_ProtocolIE_Container),
  (text% "DirectTransfer-IE-ContainerList", Ranap.RANAP_DirectTransfer_IE_ContainerList),
  (text% "DirectTransferInformationItem-RANAP-RelocInf", Ranap.RANAP_DirectTransferInformationItem_RANAP_RelocInf),
  (text% "E-DCH-MAC-d-Flow-ID", Ranap.RANAP_E_DCH_MAC_d_Flow_ID),
  (text% "E-UTRAN-Service-Handover", Ranap.RANAP_E_UTRAN_Service_Handover),
  (text% "EARFCN-Extended", Ranap.RANAP_EARFCN_Extended),
  (text% "MeasBand", Ranap.RANAP_MeasBand),
  (text% "EUTRANFrequencies-Value", Ranap.RANAP_EUTRANFrequencies_Value),
  (text% "EUTRANFrequencies", Ranap.RANAP_EUTRANFrequencies),
  (text% "End-Of-CSFB", Ranap.RANAP_End_Of_CSFB),
  (text% "IMEISVGroup", Ranap.RANAP_IMEISVGroup),
  (text% "IMEIGroup", Ranap.RANAP_IMEIGroup),
  (text% "IMEISVList", Ranap.RANAP_IMEISVList),
  (text% "IMEIList", Ranap.RANAP_IMEIList),
  (text% "EquipmentsToBeTraced", Ranap.RANAP_EquipmentsToBeTraced),
  (text% "MeasurementQuantity", Ranap.RANAP_MeasurementQuantity),
  (text% "Event1F-Parameters", Ranap.RANAP_Event1F_Parameters),
  (text% "Event1I-Parameters", Ranap.RANAP_Event1I_Parameters),
  (text% "ForwardingIndication", Ranap.RANAP_ForwardingIndication),
  (text% "FrameSequenceNumber", Ranap.RANAP_FrameSequenceNumber),
  (text% "GANSS-PositioningMethodAndUsage", Ranap.RANAP_GANSS_PositioningMethodAndUsage),
  (text% "GANSS-PositioningDataSet", Ranap.RANAP_GANSS_PositioningDataSet),
  (text% "GERAN-BSC-Container", Ranap.RANAP_GERAN_BSC_Container),
  (text% "HS-DSCH-MAC-d-Flow-ID", Ranap.RANAP_HS_DSCH_MAC_d_Flow_ID),
  (text% "HigherBitratesThan16MbpsFlag", Ranap.RANAP_HigherBitratesThan16MbpsFlag),
  (text% "HorizontalSpeedAndBearing", Ranap.RANAP_HorizontalSpeedAndBearing),
  (text% "HorizontalVelocity", Ranap.RANAP_HorizontalVelocity),
  (text% "HorizontalVelocityWithUncertainty", Ranap.RANAP_HorizontalVelocityWithUncertainty),
  (text% "VerticalSpeedDirection", Ranap.RANAP_VerticalSpeedDirection),
  (text% "VerticalVelocity", Ranap.RANAP_VerticalVelocity),
  (text% "HorizontalWithVerticalVelocity", Ranap.RANAP_HorizontalWithVerticalVelocity),
  (text% "HorizontalWithVerticalVelocityAndUncertainty", Ranap.RANAP_HorizontalWithVerticalVelocityAndUncertainty),
  (text% "IRATmeasurementParameters", Ranap.RANAP_IRATmeasurementParameters),
  (text% "IRAT-Measurement-Configuration", Ranap.RANAP_IRAT_Measurement_Configuration),
  (text% "ReportAmount", Ranap.RANAP_ReportAmount),
  (text% "ReportInterval", Ranap.RANAP_ReportInterval),
  (text% "MDT-Report-Parameters", Ranap.RANAP_MDT_Report_Parameters),
  (text% "M2Report", Ranap.RANAP_M2Report),
  (text% "M1Report", Ranap.RANAP_M1Report),
  (text% "MeasurementsToActivate", Ranap.RANAP_MeasurementsToActivate),
  (text% "ImmediateMDT", Ranap.RANAP_ImmediateMDT),
  (text% "IncludeVelocity", Ranap.RANAP_IncludeVelocity),
  (text% "MBMSIPMulticastAddressandAPNRequest", Ranap.RANAP_MBMSIPMulticastAddressandAPNRequest),
  (text% "InformationRequestType", Ranap.RANAP_InformationRequestType),
  (text% "RNCTraceInformation", Ranap.RANAP_RNCTraceInformation),
  (text% "InformationTransferType", Ranap.RANAP_InformationTransferType),
  (text% "InterSystemInformation-TransparentContainer", Ranap.RANAP_InterSystemInformation_TransparentContainer),
  (text% "InterfacesToTraceItem", Ranap.RANAP_InterfacesToTraceItem),
  (text% "IuSigConId-IE-ContainerList", Ranap.RANAP_IuSigConId_IE_ContainerList),
  (text% "LAI-List", Ranap.RANAP_LAI_List),
  (text% "LABased", Ranap.RANAP_LABased),
  (text% "LAListofIdleModeUEs", Ranap.RANAP_LAListofIdleModeUEs),
  (text% "LHN-ID", Ranap.RANAP_LHN_ID),
  (text% "LastKnownServiceArea", Ranap.RANAP_LastKnownServiceArea),
  (text% "Time-UE-StayedInCell", Ranap.RANAP_Time_UE_StayedInCell),
  (text% "UTRAN-CellID", Ranap.RANAP_UTRAN_CellID),
  (text% "LastVisitedUTRANCell-Item", Ranap.RANAP_LastVisitedUTRANCell_Item),
  (text% "Links-to-log", Ranap.RANAP_Links_to_log),
  (text% "ListOfInterfacesToTrace", Ranap.RANAP_ListOfInterfacesToTrace),
  (text% "LocationRelatedDataRequestTypeSpecificToGERANIuMode", Ranap.RANAP_LocationRelatedDataRequestTypeSpecificToGERANIuMode),
  (text% "PeriodicLocationInfo", Ranap.RANAP_PeriodicLocationInfo),
  (text% "ResponseTime", Ranap.RANAP_ResponseTime),
  (text% "PositioningPriority", Ranap.RANAP_PositioningPriority),
  (text% "VerticalAccuracyCode", Ranap.RANAP_VerticalAccuracyCode),
  (text% "PeriodicReportingIndicator", Ranap.RANAP_PeriodicReportingIndicator),
  (text% "ReportChangeOfSAI", Ranap.RANAP_ReportChangeOfSAI),
  (text% "LocationReportingTransferInformation", Ranap.RANAP_LocationReportingTransferInformation),
  (text% "LoggingDuration", Ranap.RANAP_LoggingDuration),
  (text% "LoggingInterval", Ranap.RANAP_LoggingInterval),
  (text% "LoggedMDT", Ranap.RANAP_LoggedMDT),
  (text% "M4-Threshold", Ranap.RANAP_M4_Threshold),
  (text% "M4-Period", Ranap.RANAP_M4_Period),
  (text% "M4-Collection-Parameters", Ranap.RANAP_M4_Collection_Parameters),
  (text% "M4Report", Ranap.RANAP_M4Report),
  (text% "M5-Period", Ranap.RANAP_M5_Period),
  (text% "M5Report", Ranap.RANAP_M5Report),
  (text% "M6-Period", Ranap.RANAP_M6_Period),
  (text% "M6Report", Ranap.RANAP_M6Report),
  (text% "M7-Period", Ranap.RANAP_M7_Period),
  (text% "M7Report", Ranap.RANAP_M7Report),
  (text% "MBMSCountingInformation", Ranap.RANAP_MBMSCountingInformation),
  (text% "MBMSHCIndicator", Ranap.RANAP_MBMSHCIndicator),
  (text% "MBMSLinkingInformation", Ranap.RANAP_MBMSLinkingInformation),
  (text% "MBMSSynchronisationInformation", Ranap.RANAP_MBMSSynchronisationInformation),
  (text% "MDT-Activation", Ranap.RANAP_MDT_Activation),
  (text% "MDTMode", Ranap.RANAP_MDTMode),
  (text% "RAI-List", Ranap.RANAP_RAI_List),
  (text% "RABased", Ranap.RANAP_RABased),
  (text% "MDTAreaScope", Ranap.RANAP_MDTAreaScope),
  (text% "MDT-Configuration", Ranap.RANAP_MDT_Configuration),
  (text% "MDT-PLMN-List", Ranap.RANAP_MDT_PLMN_List),
  (text% "MSISDN", Ranap.RANAP_MSISDN),
  (text% "Management-Based-MDT-Allowed", Ranap.RANAP_Management_Based_MDT_Allowed),
  (text% "RepetitionNumber1", Ranap.RANAP_RepetitionNumber1),
  (text% "MessageStructure-Value", Ranap.RANAP_MessageStructure_Value),
  (text% "MessageStructure", Ranap.RANAP_MessageStructure),
  (text% "NewBSS-To-OldBSS-Information", Ranap.RANAP_NewBSS_To_OldBSS_Information),
  (text% "Offload-RAB-Parameters-APN", Ranap.RANAP_Offload_RAB_Parameters_APN),
  (text% "Offload-RAB-Parameters-ChargingCharacteristics", Ranap.RANAP_Offload_RAB_Parameters_ChargingCharacteristics),
  (text% "Offload-RAB-Parameters", Ranap.RANAP_Offload_RAB_Parameters),
  (text% "Out-Of-UTRAN", Ranap.RANAP_Out_Of_UTRAN),
  (text% "PDP-Type-extension", Ranap.RANAP_PDP_Type_extension),
  (text% "PDP-TypeInformation-extension", Ranap.RANAP_PDP_TypeInformation_extension),
  (text% "PDUType14FrameSequenceNumber", Ranap.RANAP_PDUType14FrameSequenceNumber),
  (text% "Port-Number", Ranap.RANAP_Port_Number),
  (text% "PositioningMethodAndUsage", Ranap.RANAP_PositioningMethodAndUsage),
  (text% "PositioningDataSet", Ranap.RANAP_PositioningDataSet),
  (text% "PositioningDataDiscriminator", Ranap.RANAP_PositioningDataDiscriminator),
  (text% "PositionData", Ranap.RANAP_PositionData),
  (text% "PositionDataSpecificToGERANIuMode", Ranap.RANAP_PositionDataSpecificToGERANIuMode),
  (text% "Presence", Ranap.RANAP_Presence),
  (text% "Priority-Class-Indicator", Ranap.RANAP_Priority_Class_Indicator),
  (text% "PrivateIE-ID", Ranap.RANAP_PrivateIE_ID),
  (text% "PrivateMessage", Ranap.RANAP_PrivateMessage),
  (text% "ProtocolError-IE-ContainerList", Ranap.RANAP_ProtocolError_IE_ContainerList),
  (text% "ProtocolExtensionID", Ranap.RANAP_ProtocolExtensionID),
  (text% "RAB-IE-ContainerList", Ranap.RANAP_RAB_IE_ContainerList),
  (text% "RAB-Parameter-ExtendedGuaranteedBitrateList", Ranap.RANAP_RAB_Parameter_ExtendedGuaranteedBitrateList),
  (text% "RABDataVolumeReport-Value", Ranap.RANAP_RABDataVolumeReport_Value),
  (text% "RABDataVolumeReport", Ranap.RANAP_RABDataVolumeReport),
  (text% "UPInitialisationFrame", Ranap.RANAP_UPInitialisationFrame),
  (text% "UPInformation", Ranap.RANAP_UPInformation),
  (text% "RABParametersList-Value", Ranap.RANAP_RABParametersList_Value),
  (text% "RABParametersList", Ranap.RANAP_RABParametersList),
  (text% "RAT-Type", Ranap.RANAP_RAT_Type),
  (text% "TraceDepth", Ranap.RANAP_TraceDepth),
  (text% "TraceRecordingSessionReference", Ranap.RANAP_TraceRecordingSessionReference),
  (text% "TracePropagationParameters", Ranap.RANAP_TracePropagationParameters),
  (text% "TraceInformation", Ranap.RANAP_TraceInformation),
  (text% "RNSAPRelocationParameters", Ranap.RANAP_RNSAPRelocationParameters),
  (text% "RSRQ-Extension", Ranap.RANAP_RSRQ_Extension),
  (text% "RSRQ-Type", Ranap.RANAP_RSRQ_Type),
  (text% "RSRVCC-HO-Indication", Ranap.RANAP_RSRVCC_HO_Indication),
  (text% "RSRVCC-Information", Ranap.RANAP_RSRVCC_Information),
  (text% "RSRVCC-Operation-Possible", Ranap.RANAP_RSRVCC_Operation_Possible),
  (text% "RateControlAllowed", Ranap.RANAP_RateControlAllowed),
  (text% "RedirectAttemptFlag", Ranap.RANAP_RedirectAttemptFlag),
  (text% "RedirectionCompleted", Ranap.RANAP_RedirectionCompleted),
  (text% "RelocationComplete", Ranap.RANAP_RelocationComplete),
  (text% "RelocationDetect", Ranap.RANAP_RelocationDetect),
  (text% "Requested-RAB-Parameter-ExtendedGuaranteedBitrateList", Ranap.RANAP_Requested_RAB_Parameter_ExtendedGuaranteedBitrateList),
  (text% "Requested-RAB-Parameter-ExtendedMaxBitrateList", Ranap.RANAP_Requested_RAB_Parameter_ExtendedMaxBitrateList),
  (text% "RequestedGANSSAssistanceData", Ranap.RANAP_RequestedGANSSAssistanceData),
  (text% "SRB-ID", Ranap.RANAP_SRB_ID),
  (text% "SRB-TrCH-MappingItem", Ranap.RANAP_SRB_TrCH_MappingItem),
  (text% "SRB-TrCH-Mapping", Ranap.RANAP_SRB_TrCH_Mapping),
  (text% "SRVCC-CSKeysRequest", Ranap.RANAP_SRVCC_CSKeysRequest),
  (text% "SRVCC-HO-Indication", Ranap.RANAP_SRVCC_HO_Indication),
  (text% "SRVCC-Operation-Possible", Ranap.RANAP_SRVCC_Operation_Possible),
  (text% "Session-Re-establishment-Indicator", Ranap.RANAP_Session_Re_establishment_Indicator),
  (text% "SignallingIndication", Ranap.RANAP_SignallingIndication),
  (text% "Source-ToTarget-TransparentContainer", Ranap.RANAP_Source_ToTarget_TransparentContainer),
  (text% "SourceBSS-ToTargetBSS-TransparentContainer", Ranap.RANAP_SourceBSS_ToTargetBSS_TransparentContainer),
  (text% "SourceeNodeB-ToTargeteNodeB-TransparentContainer", Ranap.RANAP_SourceeNodeB_ToTargeteNodeB_TransparentContainer),
  (text% "SubscriberProfileIDforRFP", Ranap.RANAP_SubscriberProfileIDforRFP),
  (text% "TBCD-STRING", Ranap.RANAP_TBCD_STRING),
  (text% "Target-ToSource-TransparentContainer", Ranap.RANAP_Target_ToSource_TransparentContainer),
  (text% "TargetBSS-ToSourceBSS-TransparentContainer", Ranap.RANAP_TargetBSS_ToSourceBSS_TransparentContainer),
  (text% "TargeteNodeB-ToSourceeNodeB-TransparentContainer", Ranap.RANAP_TargeteNodeB_ToSourceeNodeB_TransparentContainer),
  (text% "Time-UE-StayedInCell-EnhancedGranularity", Ranap.RANAP_Time_UE_StayedInCell_EnhancedGranularity),
  (text% "TimingDifferenceULDL", Ranap.RANAP_TimingDifferenceULDL),
  (text% "TraceRecordingSessionInformation", Ranap.RANAP_TraceRecordingSessionInformation),
  (text% "TunnelInformation", Ranap.RANAP_TunnelInformation),
  (text% "TypeOfError", Ranap.RANAP_TypeOfError),
  (text% "UE-AggregateMaximumBitRateUplink", Ranap.RANAP_UE_AggregateMaximumBitRateUplink),
  (text% "UE-AggregateMaximumBitRateDownlink", Ranap.RANAP_UE_AggregateMaximumBitRateDownlink),
  (text% "UE-AggregateMaximumBitRate", Ranap.RANAP_UE_AggregateMaximumBitRate),
  (text% "UE-History-Information", Ranap.RANAP_UE_History_Information),
  (text% "UeRadioCapabilityMatchRequest", Ranap.RANAP_UeRadioCapabilityMatchRequest),
  (text% "VelocityEstimate", Ranap.RANAP_VelocityEstimate)]

theorem ranap_flatDefines : TypesOf ranapAllFlat ranapDescriptors :=
  typesOf_of_stages (order := ranapDescriptorOrder) (by kernel_rfl) (by kernel_rfl) (by kernel_rfl)

theorem ranap_typeNames : ranapNames.type.map (fun x => find x.1 ranapDescriptors) = ranapNames.type.map (fun x => some x.2) := by
  kernel_rfl

theorem ranap_containerNames : ranapNames.container.map (fun x => find (containerType [] x.1)
    (ranapDescriptors.map fun d => (underscore d.1, d.2))) = ranapNames.container.map (fun x => some x.2) := by kernel_rfl

end Verif.Gen.Text
