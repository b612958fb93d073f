import Verif.Gen.RanapIes

/-!
# The elementary procedures of RANAP

Transcribed by script from `/repo/asn1/ranap/RANAP-PDU-Descriptions.asn` (TS 25.413 section 9.3.2): for
each procedure its code and the message of each kind.  `none` means the procedure has no message
of this kind, or one without generated functions because its set of elements is empty or was
dropped by `asn1tostruct.py`.
-/

namespace Verif.Gen.Ranap
open Verif.Ie

structure Proc where
  name : String
  code : Nat
  /-- 0 reject, 1 ignore, 2 notify -/
  crit : Nat
  initiating : Option MsgDef
  successful : Option MsgDef
  unsuccessful : Option MsgDef
  outcome : Option MsgDef

/-- RANAP-PDU-Descriptions.asn, in order; the line of each procedure is in the comment. -/
def procs : List Proc := [
  /- 299 -/ ⟨"iu-Release", 1, 0, (some iu_ReleaseCommandIEs), (some iu_ReleaseCompleteIEs), none, none⟩,
  /- 306 -/ ⟨"relocationPreparation", 2, 0, (some relocationRequiredIEs), (some relocationCommandIEs), (some relocationPreparationFailureIEs), none⟩,
  /- 314 -/ ⟨"relocationResourceAllocation", 3, 0, (some relocationRequestIEs), (some relocationRequestAcknowledgeIEs), (some relocationFailureIEs), none⟩,
  /- 322 -/ ⟨"relocationCancel", 4, 0, (some relocationCancelIEs), (some relocationCancelAcknowledgeIEs), none, none⟩,
  /- 329 -/ ⟨"sRNS-ContextTransfer", 5, 0, (some sRNS_ContextRequestIEs), (some sRNS_ContextResponseIEs), none, none⟩,
  /- 336 -/ ⟨"securityModeControl", 6, 0, (some securityModeCommandIEs), (some securityModeCompleteIEs), (some securityModeRejectIEs), none⟩,
  /- 344 -/ ⟨"dataVolumeReport", 7, 0, (some dataVolumeReportRequestIEs), (some dataVolumeReportIEs), none, none⟩,
  /- 352 -/ ⟨"reset", 9, 0, (some resetIEs), (some resetAcknowledgeIEs), none, none⟩,
  /- 359 -/ ⟨"rAB-ReleaseRequest", 10, 1, (some rAB_ReleaseRequestIEs), none, none, none⟩,
  /- 365 -/ ⟨"iu-ReleaseRequest", 11, 1, (some iu_ReleaseRequestIEs), none, none, none⟩,
  /- 371 -/ ⟨"relocationDetect", 12, 1, none, none, none, none⟩,
  /- 377 -/ ⟨"relocationComplete", 13, 1, none, none, none, none⟩,
  /- 383 -/ ⟨"paging", 14, 1, (some pagingIEs), none, none, none⟩,
  /- 389 -/ ⟨"commonID", 15, 1, (some commonID_IEs), none, none, none⟩,
  /- 395 -/ ⟨"cN-InvokeTrace", 16, 1, (some cN_InvokeTraceIEs), none, none, none⟩,
  /- 401 -/ ⟨"cN-DeactivateTrace", 26, 1, (some cN_DeactivateTraceIEs), none, none, none⟩,
  /- 407 -/ ⟨"locationReportingControl", 17, 1, (some locationReportingControlIEs), none, none, none⟩,
  /- 413 -/ ⟨"locationReport", 18, 1, (some locationReportIEs), none, none, none⟩,
  /- 419 -/ ⟨"initialUE-Message", 19, 1, (some initialUE_MessageIEs), none, none, none⟩,
  /- 425 -/ ⟨"directTransfer", 20, 1, (some directTransferIEs), none, none, none⟩,
  /- 431 -/ ⟨"overloadControl", 21, 1, (some overloadIEs), none, none, none⟩,
  /- 437 -/ ⟨"errorIndication", 22, 1, (some errorIndicationIEs), none, none, none⟩,
  /- 443 -/ ⟨"sRNS-DataForward", 23, 1, (some sRNS_DataForwardCommandIEs), none, none, none⟩,
  /- 449 -/ ⟨"forwardSRNS-Context", 24, 1, (some forwardSRNS_ContextIEs), none, none, none⟩,
  /- 455 -/ ⟨"rAB-Assignment", 0, 0, (some rAB_AssignmentRequestIEs), none, none, (some rAB_AssignmentResponseIEs)⟩,
  /- 462 -/ ⟨"privateMessage", 25, 1, none, none, none, none⟩,
  /- 469 -/ ⟨"resetResource", 27, 0, (some resetResourceIEs), (some resetResourceAcknowledgeIEs), none, none⟩,
  /- 476 -/ ⟨"rANAP-Relocation", 28, 1, (some rANAP_RelocationInformationIEs), none, none, none⟩,
  /- 482 -/ ⟨"rAB-ModifyRequest", 29, 1, (some rAB_ModifyRequestIEs), none, none, none⟩,
  /- 488 -/ ⟨"locationRelatedData", 30, 0, (some locationRelatedDataRequestIEs), (some locationRelatedDataResponseIEs), (some locationRelatedDataFailureIEs), none⟩,
  /- 496 -/ ⟨"informationTransfer", 31, 0, (some informationTransferIndicationIEs), (some informationTransferConfirmationIEs), (some informationTransferFailureIEs), none⟩,
  /- 504 -/ ⟨"uESpecificInformation", 32, 1, (some uESpecificInformationIndicationIEs), none, none, none⟩,
  /- 510 -/ ⟨"directInformationTransfer", 34, 1, (some directInformationTransferIEs), none, none, none⟩,
  /- 516 -/ ⟨"uplinkInformationExchange", 33, 0, (some uplinkInformationExchangeRequestIEs), (some uplinkInformationExchangeResponseIEs), (some uplinkInformationExchangeFailureIEs), none⟩,
  /- 524 -/ ⟨"mBMSSessionStart", 35, 0, (some mBMSSessionStartIEs), (some mBMSSessionStartResponseIEs), (some mBMSSessionStartFailureIEs), none⟩,
  /- 532 -/ ⟨"mBMSSessionUpdate", 36, 0, (some mBMSSessionUpdateIEs), (some mBMSSessionUpdateResponseIEs), (some mBMSSessionUpdateFailureIEs), none⟩,
  /- 540 -/ ⟨"mBMSSessionStop", 37, 0, (some mBMSSessionStopIEs), (some mBMSSessionStopResponseIEs), none, none⟩,
  /- 547 -/ ⟨"mBMSUELinking", 38, 0, (some mBMSUELinkingRequestIEs), none, none, (some mBMSUELinkingResponseIEs)⟩,
  /- 554 -/ ⟨"mBMSRegistration", 39, 0, (some mBMSRegistrationRequestIEs), (some mBMSRegistrationResponseIEs), (some mBMSRegistrationFailureIEs), none⟩,
  /- 562 -/ ⟨"mBMSCNDe-Registration", 40, 0, (some mBMSCNDe_RegistrationRequestIEs), (some mBMSCNDe_RegistrationResponseIEs), none, none⟩,
  /- 569 -/ ⟨"mBMSRABEstablishmentIndication", 41, 1, (some mBMSRABEstablishmentIndicationIEs), none, none, none⟩,
  /- 575 -/ ⟨"mBMSRABRelease", 42, 0, (some mBMSRABReleaseRequestIEs), (some mBMSRABReleaseIEs), (some mBMSRABReleaseFailureIEs), none⟩,
  /- 582 -/ ⟨"enhancedRelocationComplete", 43, 0, (some enhancedRelocationCompleteRequestIEs), (some enhancedRelocationCompleteResponseIEs), (some enhancedRelocationCompleteFailureIEs), none⟩,
  /- 590 -/ ⟨"enhancedRelocationCompleteConfirm", 44, 1, (some enhancedRelocationCompleteConfirmIEs), none, none, none⟩,
  /- 596 -/ ⟨"rANAP-enhancedRelocation", 45, 0, (some rANAP_EnhancedRelocationInformationRequestIEs), (some rANAP_EnhancedRelocationInformationResponseIEs), none, none⟩,
  /- 603 -/ ⟨"sRVCCPreparation", 46, 0, none, none, none, (some sRVCC_CSKeysResponseIEs)⟩,
  /- 610 -/ ⟨"ueRadioCapabilityMatch", 47, 1, none, none, none, (some ueRadioCapabilityMatchResponseIEs)⟩]

end Verif.Gen.Ranap
