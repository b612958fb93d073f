/-!
# Names and numbers of components, alternatives and values

For every type (messages apart) with components, alternatives or named values: their names and numbers.  The first table of
each protocol is from the ASN.1 specification (asn1/*/*.asn, read by a script that splits the text into tokens; `-` is
replaced by `_`): components and alternatives are counted from 0 in their order, values of an ENUMERATED too, values of an
INTEGER have the number in brackets.  The second is from the C code: the members of SEQUENCE structures in the order of
`asn_MBR_*` (src/*/*.c), alternatives from `*_PR` (include/osmocom/*/*.h) without `*_PR_NOTHING`, constants from the
enumerations in the headers.
-/

namespace Verif.Gen.AsnNames

/-- asn1/ranap/*.asn -/
def ranapAsn : List (String × List (String × Int)) := [
  ("Criticality", [("reject", 0), ("ignore", 1), ("notify", 2)]),
  ("Presence", [("optional", 0), ("conditional", 1), ("mandatory", 2)]),
  ("PrivateIE-ID", [("local", 0), ("global", 1)]),
  ("ProcedureCode", [("id_RAB_Assignment", 0), ("id_Iu_Release", 1), ("id_RelocationPreparation", 2), ("id_RelocationResourceAllocation", 3), ("id_RelocationCancel", 4), ("id_SRNS_ContextTransfer", 5), ("id_SecurityModeControl", 6), ("id_DataVolumeReport", 7), ("id_Reset", 9), ("id_RAB_ReleaseRequest", 10), ("id_Iu_ReleaseRequest", 11), ("id_RelocationDetect", 12), ("id_RelocationComplete", 13), ("id_Paging", 14), ("id_CommonID", 15), ("id_CN_InvokeTrace", 16), ("id_LocationReportingControl", 17), ("id_LocationReport", 18), ("id_InitialUE_Message", 19), ("id_DirectTransfer", 20), ("id_OverloadControl", 21), ("id_ErrorIndication", 22), ("id_SRNS_DataForward", 23), ("id_ForwardSRNS_Context", 24), ("id_privateMessage", 25), ("id_CN_DeactivateTrace", 26), ("id_ResetResource", 27), ("id_RANAP_Relocation", 28), ("id_RAB_ModifyRequest", 29), ("id_LocationRelatedData", 30), ("id_InformationTransfer", 31), ("id_UESpecificInformation", 32), ("id_UplinkInformationExchange", 33), ("id_DirectInformationTransfer", 34), ("id_MBMSSessionStart", 35), ("id_MBMSSessionUpdate", 36), ("id_MBMSSessionStop", 37), ("id_MBMSUELinking", 38), ("id_MBMSRegistration", 39), ("id_MBMSCNDe_Registration_Procedure", 40), ("id_MBMSRABEstablishmentIndication", 41), ("id_MBMSRABRelease", 42), ("id_enhancedRelocationComplete", 43), ("id_enhancedRelocationCompleteConfirm", 44), ("id_RANAPenhancedRelocation", 45), ("id_SRVCCPreparation", 46), ("id_UeRadioCapabilityMatch", 47)]),
  ("ProtocolIE-ID", [("id_AreaIdentity", 0), ("id_CN_DomainIndicator", 3), ("id_Cause", 4), ("id_ChosenEncryptionAlgorithm", 5), ("id_ChosenIntegrityProtectionAlgorithm", 6), ("id_ClassmarkInformation2", 7), ("id_ClassmarkInformation3", 8), ("id_CriticalityDiagnostics", 9), ("id_DL_GTP_PDU_SequenceNumber", 10), ("id_EncryptionInformation", 11), ("id_IntegrityProtectionInformation", 12), ("id_IuTransportAssociation", 13), ("id_L3_Information", 14), ("id_LAI", 15), ("id_NAS_PDU", 16), ("id_NonSearchingIndication", 17), ("id_NumberOfSteps", 18), ("id_OMC_ID", 19), ("id_OldBSS_ToNewBSS_Information", 20), ("id_PagingAreaID", 21), ("id_PagingCause", 22), ("id_PermanentNAS_UE_ID", 23), ("id_RAB_ContextItem", 24), ("id_RAB_ContextList", 25), ("id_RAB_DataForwardingItem", 26), ("id_RAB_DataForwardingItem_SRNS_CtxReq", 27), ("id_RAB_DataForwardingList", 28), ("id_RAB_DataForwardingList_SRNS_CtxReq", 29), ("id_RAB_DataVolumeReportItem", 30), ("id_RAB_DataVolumeReportList", 31), ("id_RAB_DataVolumeReportRequestItem", 32), ("id_RAB_DataVolumeReportRequestList", 33), ("id_RAB_FailedItem", 34), ("id_RAB_FailedList", 35), ("id_RAB_ID", 36), ("id_RAB_QueuedItem", 37), ("id_RAB_QueuedList", 38), ("id_RAB_ReleaseFailedList", 39), ("id_RAB_ReleaseItem", 40), ("id_RAB_ReleaseList", 41), ("id_RAB_ReleasedItem", 42), ("id_RAB_ReleasedList", 43), ("id_RAB_ReleasedList_IuRelComp", 44), ("id_RAB_RelocationReleaseItem", 45), ("id_RAB_RelocationReleaseList", 46), ("id_RAB_SetupItem_RelocReq", 47), ("id_RAB_SetupItem_RelocReqAck", 48), ("id_RAB_SetupList_RelocReq", 49), ("id_RAB_SetupList_RelocReqAck", 50), ("id_RAB_SetupOrModifiedItem", 51), ("id_RAB_SetupOrModifiedList", 52), ("id_RAB_SetupOrModifyItem", 53), ("id_RAB_SetupOrModifyList", 54), ("id_RAC", 55), ("id_RelocationType", 56), ("id_RequestType", 57), ("id_SAI", 58), ("id_SAPI", 59), ("id_SourceID", 60), ("id_Source_ToTarget_TransparentContainer", 61), ("id_TargetID", 62), ("id_Target_ToSource_TransparentContainer", 63), ("id_TemporaryUE_ID", 64), ("id_TraceReference", 65), ("id_TraceType", 66), ("id_TransportLayerAddress", 67), ("id_TriggerID", 68), ("id_UE_ID", 69), ("id_UL_GTP_PDU_SequenceNumber", 70), ("id_RAB_FailedtoReportItem", 71), ("id_RAB_FailedtoReportList", 72), ("id_KeyStatus", 75), ("id_DRX_CycleLengthCoefficient", 76), ("id_IuSigConIdList", 77), ("id_IuSigConIdItem", 78), ("id_IuSigConId", 79), ("id_DirectTransferInformationItem_RANAP_RelocInf", 80), ("id_DirectTransferInformationList_RANAP_RelocInf", 81), ("id_RAB_ContextItem_RANAP_RelocInf", 82), ("id_RAB_ContextList_RANAP_RelocInf", 83), ("id_RAB_ContextFailedtoTransferItem", 84), ("id_RAB_ContextFailedtoTransferList", 85), ("id_GlobalRNC_ID", 86), ("id_RAB_ReleasedItem_IuRelComp", 87), ("id_MessageStructure", 88), ("id_Alt_RAB_Parameters", 89), ("id_Ass_RAB_Parameters", 90), ("id_RAB_ModifyList", 91), ("id_RAB_ModifyItem", 92), ("id_TypeOfError", 93), ("id_BroadcastAssistanceDataDecipheringKeys", 94), ("id_LocationRelatedDataRequestType", 95), ("id_GlobalCN_ID", 96), ("id_LastKnownServiceArea", 97), ("id_SRB_TrCH_Mapping", 98), ("id_InterSystemInformation_TransparentContainer", 99), ("id_NewBSS_To_OldBSS_Information", 100), ("id_SourceRNC_PDCP_context_info", 103), ("id_InformationTransferID", 104), ("id_SNA_Access_Information", 105), ("id_ProvidedData", 106), ("id_GERAN_BSC_Container", 107), ("id_GERAN_Classmark", 108), ("id_GERAN_Iumode_RAB_Failed_RABAssgntResponse_Item", 109), ("id_GERAN_Iumode_RAB_FailedList_RABAssgntResponse", 110), ("id_VerticalAccuracyCode", 111), ("id_ResponseTime", 112), ("id_PositioningPriority", 113), ("id_ClientType", 114), ("id_LocationRelatedDataRequestTypeSpecificToGERANIuMode", 115), ("id_SignallingIndication", 116), ("id_hS_DSCH_MAC_d_Flow_ID", 117), ("id_UESBI_Iu", 118), ("id_PositionData", 119), ("id_PositionDataSpecificToGERANIuMode", 120), ("id_CellLoadInformationGroup", 121), ("id_AccuracyFulfilmentIndicator", 122), ("id_InformationTransferType", 123), ("id_TraceRecordingSessionInformation", 124), ("id_TracePropagationParameters", 125), ("id_InterSystemInformationTransferType", 126), ("id_SelectedPLMN_ID", 127), ("id_RedirectionCompleted", 128), ("id_RedirectionIndication", 129), ("id_NAS_SequenceNumber", 130), ("id_RejectCauseValue", 131), ("id_APN", 132), ("id_CNMBMSLinkingInformation", 133), ("id_DeltaRAListofIdleModeUEs", 134), ("id_FrequenceLayerConvergenceFlag", 135), ("id_InformationExchangeID", 136), ("id_InformationExchangeType", 137), ("id_InformationRequested", 138), ("id_InformationRequestType", 139), ("id_IPMulticastAddress", 140), ("id_JoinedMBMSBearerServicesList", 141), ("id_LeftMBMSBearerServicesList", 142), ("id_MBMSBearerServiceType", 143), ("id_MBMSCNDe_Registration", 144), ("id_MBMSServiceArea", 145), ("id_MBMSSessionDuration", 146), ("id_MBMSSessionIdentity", 147), ("id_PDP_TypeInformation", 148), ("id_RAB_Parameters", 149), ("id_RAListofIdleModeUEs", 150), ("id_MBMSRegistrationRequestType", 151), ("id_SessionUpdateID", 152), ("id_TMGI", 153), ("id_TransportLayerInformation", 154), ("id_UnsuccessfulLinkingList", 155), ("id_MBMSLinkingInformation", 156), ("id_MBMSSessionRepetitionNumber", 157), ("id_AlternativeRABConfiguration", 158), ("id_AlternativeRABConfigurationRequest", 159), ("id_E_DCH_MAC_d_Flow_ID", 160), ("id_SourceBSS_ToTargetBSS_TransparentContainer", 161), ("id_TargetBSS_ToSourceBSS_TransparentContainer", 162), ("id_TimeToMBMSDataTransfer", 163), ("id_IncludeVelocity", 164), ("id_VelocityEstimate", 165), ("id_RedirectAttemptFlag", 166), ("id_RAT_Type", 167), ("id_PeriodicLocationInfo", 168), ("id_MBMSCountingInformation", 169), ("id_170_not_to_be_used_for_IE_ids", 170), ("id_ExtendedRNC_ID", 171), ("id_Alt_RAB_Parameter_ExtendedGuaranteedBitrateInf", 172), ("id_Alt_RAB_Parameter_ExtendedMaxBitrateInf", 173), ("id_Ass_RAB_Parameter_ExtendedGuaranteedBitrateList", 174), ("id_Ass_RAB_Parameter_ExtendedMaxBitrateList", 175), ("id_RAB_Parameter_ExtendedGuaranteedBitrateList", 176), ("id_RAB_Parameter_ExtendedMaxBitrateList", 177), ("id_Requested_RAB_Parameter_ExtendedMaxBitrateList", 178), ("id_Requested_RAB_Parameter_ExtendedGuaranteedBitrateList", 179), ("id_LAofIdleModeUEs", 180), ("id_newLAListofIdleModeUEs", 181), ("id_LAListwithNoIdleModeUEsAnyMore", 182), ("id_183_not_to_be_used_for_IE_ids", 183), ("id_GANSS_PositioningDataSet", 184), ("id_RequestedGANSSAssistanceData", 185), ("id_BroadcastGANSSAssistanceDataDecipheringKeys", 186), ("id_d_RNTI_for_NoIuCSUP", 187), ("id_RAB_SetupList_EnhancedRelocCompleteReq", 188), ("id_RAB_SetupItem_EnhancedRelocCompleteReq", 189), ("id_RAB_SetupList_EnhancedRelocCompleteRes", 190), ("id_RAB_SetupItem_EnhancedRelocCompleteRes", 191), ("id_RAB_SetupList_EnhRelocInfoReq", 192), ("id_RAB_SetupItem_EnhRelocInfoReq", 193), ("id_RAB_SetupList_EnhRelocInfoRes", 194), ("id_RAB_SetupItem_EnhRelocInfoRes", 195), ("id_OldIuSigConId", 196), ("id_RAB_FailedList_EnhRelocInfoRes", 197), ("id_RAB_FailedItem_EnhRelocInfoRes", 198), ("id_Global_ENB_ID", 199), ("id_UE_History_Information", 200), ("id_MBMSSynchronisationInformation", 201), ("id_SubscriberProfileIDforRFP", 202), ("id_CSG_Id", 203), ("id_OldIuSigConIdCS", 204), ("id_OldIuSigConIdPS", 205), ("id_GlobalCN_IDCS", 206), ("id_GlobalCN_IDPS", 207), ("id_SourceExtendedRNC_ID", 208), ("id_RAB_ToBeReleasedItem_EnhancedRelocCompleteRes", 209), ("id_RAB_ToBeReleasedList_EnhancedRelocCompleteRes", 210), ("id_SourceRNC_ID", 211), ("id_Relocation_TargetRNC_ID", 212), ("id_Relocation_TargetExtendedRNC_ID", 213), ("id_Alt_RAB_Parameter_SupportedGuaranteedBitrateInf", 214), ("id_Alt_RAB_Parameter_SupportedMaxBitrateInf", 215), ("id_Ass_RAB_Parameter_SupportedGuaranteedBitrateList", 216), ("id_Ass_RAB_Parameter_SupportedMaxBitrateList", 217), ("id_RAB_Parameter_SupportedGuaranteedBitrateList", 218), ("id_RAB_Parameter_SupportedMaxBitrateList", 219), ("id_Requested_RAB_Parameter_SupportedMaxBitrateList", 220), ("id_Requested_RAB_Parameter_SupportedGuaranteedBitrateList", 221), ("id_Relocation_SourceRNC_ID", 222), ("id_Relocation_SourceExtendedRNC_ID", 223), ("id_EncryptionKey", 224), ("id_IntegrityProtectionKey", 225), ("id_SRVCC_HO_Indication", 226), ("id_SRVCC_Information", 227), ("id_SRVCC_Operation_Possible", 228), ("id_CSG_Id_List", 229), ("id_PSRABtobeReplaced", 230), ("id_E_UTRAN_Service_Handover", 231), ("id_UE_AggregateMaximumBitRate", 233), ("id_CSG_Membership_Status", 234), ("id_Cell_Access_Mode", 235), ("id_IP_Source_Address", 236), ("id_CSFB_Information", 237), ("id_PDP_TypeInformation_extension", 238), ("id_MSISDN", 239), ("id_Offload_RAB_Parameters", 240), ("id_LGW_TransportLayerAddress", 241), ("id_Correlation_ID", 242), ("id_IRAT_Measurement_Configuration", 243), ("id_MDT_Configuration", 244), ("id_Priority_Class_Indicator", 245), ("id_RNSAPRelocationParameters", 247), ("id_RABParametersList", 248), ("id_Management_Based_MDT_Allowed", 249), ("id_HigherBitratesThan16MbpsFlag", 250), ("id_Trace_Collection_Entity_IP_Addess", 251), ("id_End_Of_CSFB", 252), ("id_Time_UE_StayedInCell_EnhancedGranularity", 253), ("id_Out_Of_UTRAN", 254), ("id_TraceRecordingSessionReference", 255), ("id_IMSI", 256), ("id_HO_Cause", 257), ("id_VoiceSupportMatchIndicator", 258), ("id_RSRVCC_HO_Indication", 259), ("id_RSRVCC_Information", 260), ("id_AnchorPLMN_ID", 261), ("id_Tunnel_Information_for_BBF", 262), ("id_Management_Based_MDT_PLMN_List", 263), ("id_SignallingBasedMDTPLMNList", 264), ("id_M4Report", 265), ("id_M5Report", 266), ("id_M6Report", 267), ("id_M7Report", 268), ("id_TimingDifferenceULDL", 269), ("id_Serving_Cell_Identifier", 270), ("id_EARFCN_Extended", 271), ("id_RSRVCC_Operation_Possible", 272), ("id_SIPTO_LGW_TransportLayerAddress", 273), ("id_SIPTO_Correlation_ID", 274), ("id_LHN_ID", 275), ("id_Session_Re_establishment_Indicator", 276), ("id_LastE_UTRANPLMNIdentity", 277), ("id_RSRQ_Type", 278), ("id_RSRQ_Extension", 279)]),
  ("TriggeringMessage", [("initiating_message", 0), ("successful_outcome", 1), ("unsuccessfull_outcome", 2), ("outcome", 3)]),
  ("AccuracyFulfilmentIndicator", [("requested_Accuracy_Fulfilled", 0), ("requested_Accuracy_Not_Fulfilled", 1)]),
  ("AllocationOrRetentionPriority", [("priorityLevel", 0), ("pre_emptionCapability", 1), ("pre_emptionVulnerability", 2), ("queuingAllowed", 3), ("iE_Extensions", 4)]),
  ("Alt-RAB-Parameters", [("altMaxBitrateInf", 0), ("altGuaranteedBitRateInf", 1), ("iE_Extensions", 2)]),
  ("Alt-RAB-Parameter-ExtendedGuaranteedBitrateInf", [("altExtendedGuaranteedBitrateType", 0), ("altExtendedGuaranteedBitrates", 1)]),
  ("Alt-RAB-Parameter-GuaranteedBitrateInf", [("altGuaranteedBitrateType", 0), ("altGuaranteedBitrates", 1)]),
  ("Alt-RAB-Parameter-GuaranteedBitrateType", [("unspecified", 0), ("value_range", 1), ("discrete_values", 2)]),
  ("Alt-RAB-Parameter-SupportedGuaranteedBitrateInf", [("altSupportedGuaranteedBitrateType", 0), ("altSupportedGuaranteedBitrates", 1), ("iE_Extensions", 2)]),
  ("Alt-RAB-Parameter-ExtendedMaxBitrateInf", [("altExtendedMaxBitrateType", 0), ("altExtendedMaxBitrates", 1)]),
  ("Alt-RAB-Parameter-MaxBitrateInf", [("altMaxBitrateType", 0), ("altMaxBitrates", 1)]),
  ("Alt-RAB-Parameter-MaxBitrateType", [("unspecified", 0), ("value_range", 1), ("discrete_values", 2)]),
  ("Alt-RAB-Parameter-SupportedMaxBitrateInf", [("altSupportedMaxBitrateType", 0), ("altSupportedMaxBitrates", 1), ("iE_Extensions", 2)]),
  ("AlternativeRABConfigurationRequest", [("alternative_RAB_configuration_Requested", 0)]),
  ("AreaIdentity", [("sAI", 0), ("geographicalArea", 1)]),
  ("Ass-RAB-Parameters", [("assMaxBitrateInf", 0), ("assGuaranteedBitRateInf", 1), ("iE_Extensions", 2)]),
  ("AuthorisedPLMNs-Value", [("pLMNidentity", 0), ("authorisedSNAsList", 1), ("iE_Extensions", 2)]),
  ("BroadcastAssistanceDataDecipheringKeys", [("cipheringKeyFlag", 0), ("currentDecipheringKey", 1), ("nextDecipheringKey", 2)]),
  ("Cause", [("radioNetwork", 0), ("transmissionNetwork", 1), ("nAS", 2), ("protocol", 3), ("misc", 4), ("non_Standard", 5), ("radioNetworkExtension", 6)]),
  ("CauseMisc", [("om_intervention", 113), ("no_resource_available", 114), ("unspecified_failure", 115), ("network_optimisation", 116)]),
  ("CauseNAS", [("user_restriction_start_indication", 81), ("user_restriction_end_indication", 82), ("normal_release", 83), ("csg_subscription_expiry", 84)]),
  ("CauseProtocol", [("transfer_syntax_error", 97), ("semantic_error", 98), ("message_not_compatible_with_receiver_state", 99), ("abstract_syntax_error_reject", 100), ("abstract_syntax_error_ignore_and_notify", 101), ("abstract_syntax_error_falsely_constructed_message", 102)]),
  ("CauseRadioNetwork", [("rab_pre_empted", 1), ("trelocoverall_expiry", 2), ("trelocprep_expiry", 3), ("treloccomplete_expiry", 4), ("tqueing_expiry", 5), ("relocation_triggered", 6), ("trellocalloc_expiry", 7), ("unable_to_establish_during_relocation", 8), ("unknown_target_rnc", 9), ("relocation_cancelled", 10), ("successful_relocation", 11), ("requested_ciphering_and_or_integrity_protection_algorithms_not_supported", 12), ("conflict_with_already_existing_integrity_protection_and_or_ciphering_information", 13), ("failure_in_the_radio_interface_procedure", 14), ("release_due_to_utran_generated_reason", 15), ("user_inactivity", 16), ("time_critical_relocation", 17), ("requested_traffic_class_not_available", 18), ("invalid_rab_parameters_value", 19), ("requested_maximum_bit_rate_not_available", 20), ("requested_guaranteed_bit_rate_not_available", 21), ("requested_transfer_delay_not_achievable", 22), ("invalid_rab_parameters_combination", 23), ("condition_violation_for_sdu_parameters", 24), ("condition_violation_for_traffic_handling_priority", 25), ("condition_violation_for_guaranteed_bit_rate", 26), ("user_plane_versions_not_supported", 27), ("iu_up_failure", 28), ("relocation_failure_in_target_CN_RNC_or_target_system", 29), ("invalid_RAB_ID", 30), ("no_remaining_rab", 31), ("interaction_with_other_procedure", 32), ("requested_maximum_bit_rate_for_dl_not_available", 33), ("requested_maximum_bit_rate_for_ul_not_available", 34), ("requested_guaranteed_bit_rate_for_dl_not_available", 35), ("requested_guaranteed_bit_rate_for_ul_not_available", 36), ("repeated_integrity_checking_failure", 37), ("requested_request_type_not_supported", 38), ("request_superseded", 39), ("release_due_to_UE_generated_signalling_connection_release", 40), ("resource_optimisation_relocation", 41), ("requested_information_not_available", 42), ("relocation_desirable_for_radio_reasons", 43), ("relocation_not_supported_in_target_RNC_or_target_system", 44), ("directed_retry", 45), ("radio_connection_with_UE_Lost", 46), ("rNC_unable_to_establish_all_RFCs", 47), ("deciphering_keys_not_available", 48), ("dedicated_assistance_data_not_available", 49), ("relocation_target_not_allowed", 50), ("location_reporting_congestion", 51), ("reduce_load_in_serving_cell", 52), ("no_radio_resources_available_in_target_cell", 53), ("gERAN_Iumode_failure", 54), ("access_restricted_due_to_shared_networks", 55), ("incoming_relocation_not_supported_due_to_PUESBINE_feature", 56), ("traffic_load_in_the_target_cell_higher_than_in_the_source_cell", 57), ("mBMS_no_multicast_service_for_this_UE", 58), ("mBMS_unknown_UE_ID", 59), ("successful_MBMS_session_start_no_data_bearer_necessary", 60), ("mBMS_superseded_due_to_NNSF", 61), ("mBMS_UE_linking_already_done", 62), ("mBMS_UE_de_linking_failure_no_existing_UE_linking", 63), ("tMGI_unknown", 64)]),
  ("CauseRadioNetworkExtension", [("iP_multicast_address_and_APN_not_valid", 257), ("mBMS_de_registration_rejected_due_to_implicit_registration", 258), ("mBMS_request_superseded", 259), ("mBMS_de_registration_during_session_not_allowed", 260), ("mBMS_no_data_bearer_necessary", 261), ("periodicLocationInformationNotAvailable", 262), ("gTP_Resources_Unavailable", 263), ("tMGI_inUse_overlapping_MBMS_service_area", 264), ("mBMS_no_cell_in_MBMS_service_area", 265), ("no_Iu_CS_UP_relocation", 266), ("successful_MBMS_Session_Start_IP_Multicast_Bearer_established", 267), ("cS_fallback_triggered", 268), ("invalid_CSG_Id", 269)]),
  ("CauseTransmissionNetwork", [("signalling_transport_resource_failure", 65), ("iu_transport_connection_failed_to_establish", 66)]),
  ("Cell-Access-Mode", [("hybrid", 0)]),
  ("CellBased", [("cellIdList", 0), ("iE_Extensions", 1)]),
  ("CellLoadInformation", [("cell_Capacity_Class_Value", 0), ("loadValue", 1), ("rTLoadValue", 2), ("nRTLoadInformationValue", 3), ("iE_Extensions", 4)]),
  ("CellLoadInformationGroup", [("sourceCellID", 0), ("uplinkCellLoadInformation", 1), ("downlinkCellLoadInformation", 2), ("iE_Extensions", 3)]),
  ("CellType", [("macro", 0), ("micro", 1), ("pico", 2), ("femto", 3)]),
  ("ClientType", [("emergency_Services", 0), ("value_Added_Services", 1), ("pLMN_Operator_Services", 2), ("lawful_Intercept_Services", 3), ("pLMN_Operator_Broadcast_Services", 4), ("pLMN_Operator_O_et_M", 5), ("pLMN_Operator_Anonymous_Statistics", 6), ("pLMN_Operator_Target_MS_Service_Support", 7)]),
  ("CriticalityDiagnostics", [("procedureCode", 0), ("triggeringMessage", 1), ("procedureCriticality", 2), ("iEsCriticalityDiagnostics", 3), ("iE_Extensions", 4)]),
  ("CriticalityDiagnostics-IE-List-Value", [("iECriticality", 0), ("iE_ID", 1), ("repetitionNumber", 2), ("iE_Extensions", 3)]),
  ("MessageStructure-Value", [("iE_ID", 0), ("repetitionNumber", 1), ("iE_Extensions", 2)]),
  ("CGI", [("pLMNidentity", 0), ("lAC", 1), ("cI", 2), ("iE_Extensions", 3)]),
  ("CN-DomainIndicator", [("cs_domain", 0), ("ps_domain", 1)]),
  ("CSFB-Information", [("csfb", 0), ("csfb_high_priority", 1)]),
  ("CSG-Membership-Status", [("member", 0), ("non_member", 1)]),
  ("DataPDUType", [("pDUtype0", 0), ("pDUtype1", 1)]),
  ("DataVolumeReportingIndication", [("do_report", 0), ("do_not_report", 1)]),
  ("DeliveryOfErroneousSDU", [("yes", 0), ("no", 1), ("no_error_detection_consideration", 2)]),
  ("DeliveryOrder", [("delivery_order_requested", 0), ("delivery_order_not_requested", 1)]),
  ("DeltaRAListofIdleModeUEs", [("newRAListofIdleModeUEs", 0), ("rAListwithNoIdleModeUEsAnyMore", 1), ("iE_Extensions", 2)]),
  ("ForwardingIndication", [("forwarding_admitted", 0)]),
  ("ENB-ID", [("macroENB_ID", 0), ("homeENB_ID", 1)]),
  ("EncryptionAlgorithm", [("no_encryption", 0), ("standard_UMTS_encryption_algorith_UEA1", 1), ("standard_UMTS_encryption_algorithm_UEA2", 2)]),
  ("EncryptionInformation", [("permittedAlgorithms", 0), ("key", 1), ("iE_Extensions", 2)]),
  ("End-Of-CSFB", [("end_of_CSFB", 0)]),
  ("EquipmentsToBeTraced", [("iMEIlist", 0), ("iMEISVlist", 1), ("iMEIgroup", 2), ("iMEISVgroup", 3)]),
  ("E-UTRAN-Service-Handover", [("handover_to_E_UTRAN_shall_not_be_performed", 0)]),
  ("Event", [("stop_change_of_service_area", 0), ("direct", 1), ("change_of_servicearea", 2), ("stop_direct", 3), ("periodic", 4), ("stop_periodic", 5)]),
  ("Event1F-Parameters", [("measurementQuantity", 0), ("threshold", 1)]),
  ("Event1I-Parameters", [("threshold", 0)]),
  ("FrequenceLayerConvergenceFlag", [("no_FLC_flag", 0)]),
  ("GeographicalArea", [("point", 0), ("pointWithUnCertainty", 1), ("polygon", 2), ("pointWithUncertaintyEllipse", 3), ("pointWithAltitude", 4), ("pointWithAltitudeAndUncertaintyEllipsoid", 5), ("ellipsoidArc", 6)]),
  ("GeographicalCoordinates", [("latitudeSign", 0), ("latitude", 1), ("longitude", 2), ("iE_Extensions", 3)]),
  ("GA-AltitudeAndDirection", [("directionOfAltitude", 0), ("altitude", 1)]),
  ("GA-EllipsoidArc", [("geographicalCoordinates", 0), ("innerRadius", 1), ("uncertaintyRadius", 2), ("offsetAngle", 3), ("includedAngle", 4), ("confidence", 5), ("iE_Extensions", 6)]),
  ("GA-Point", [("geographicalCoordinates", 0), ("iE_Extensions", 1)]),
  ("GA-PointWithAltitude", [("geographicalCoordinates", 0), ("altitudeAndDirection", 1), ("iE_Extensions", 2)]),
  ("GA-PointWithAltitudeAndUncertaintyEllipsoid", [("geographicalCoordinates", 0), ("altitudeAndDirection", 1), ("uncertaintyEllipse", 2), ("uncertaintyAltitude", 3), ("confidence", 4), ("iE_Extensions", 5)]),
  ("GA-PointWithUnCertainty", [("geographicalCoordinates", 0), ("iE_Extensions", 1), ("uncertaintyCode", 2)]),
  ("GA-PointWithUnCertaintyEllipse", [("geographicalCoordinates", 0), ("uncertaintyEllipse", 1), ("confidence", 2), ("iE_Extensions", 3)]),
  ("GA-Polygon-Value", [("geographicalCoordinates", 0), ("iE_Extensions", 1)]),
  ("GA-UncertaintyEllipse", [("uncertaintySemi_major", 0), ("uncertaintySemi_minor", 1), ("orientationOfMajorAxis", 2)]),
  ("GERAN-Cell-ID", [("lAI", 0), ("rAC", 1), ("cI", 2), ("iE_Extensions", 3)]),
  ("GlobalCN-ID", [("pLMNidentity", 0), ("cN_ID", 1)]),
  ("GlobalRNC-ID", [("pLMNidentity", 0), ("rNC_ID", 1)]),
  ("HigherBitratesThan16MbpsFlag", [("allowed", 0), ("not_allowed", 1)]),
  ("IMEIGroup", [("iMEI", 0), ("iMEIMask", 1), ("iE_Extensions", 2)]),
  ("IMEISVGroup", [("iMEISV", 0), ("iMEISVMask", 1), ("iE_Extensions", 2)]),
  ("ImmediateMDT", [("measurementsToActivate", 0), ("m1report", 1), ("m2report", 2), ("iE_Extensions", 3)]),
  ("IncludeVelocity", [("requested", 0)]),
  ("InformationExchangeType", [("transfer", 0), ("request", 1)]),
  ("InformationRequested", [("requestedMBMSIPMulticastAddressandAPNRequest", 0), ("requestedMulticastServiceList", 1)]),
  ("InformationRequestType", [("mBMSIPMulticastAddressandAPNRequest", 0), ("permanentNAS_UE_ID", 1)]),
  ("InformationTransferType", [("rNCTraceInformation", 0)]),
  ("IntegrityProtectionAlgorithm", [("standard_UMTS_integrity_algorithm_UIA1", 0), ("standard_UMTS_integrity_algorithm_UIA2", 1), ("no_value", 15)]),
  ("IntegrityProtectionInformation", [("permittedAlgorithms", 0), ("key", 1), ("iE_Extensions", 2)]),
  ("InterSystemInformationTransferType", [("rIM_Transfer", 0)]),
  ("InterSystemInformation-TransparentContainer", [("downlinkCellLoadInformation", 0), ("uplinkCellLoadInformation", 1), ("iE_Extensions", 2)]),
  ("IuTransportAssociation", [("gTP_TEI", 0), ("bindingID", 1)]),
  ("KeyStatus", [("old", 0), ("new", 1)]),
  ("LA-LIST-Value", [("lAC", 0), ("listOF_SNAs", 1), ("iE_Extensions", 2)]),
  ("LAI", [("pLMNidentity", 0), ("lAC", 1), ("iE_Extensions", 2)]),
  ("LastKnownServiceArea", [("sAI", 0), ("ageOfSAI", 1), ("iE_Extensions", 2)]),
  ("LastVisitedUTRANCell-Item", [("uTRAN_CellID", 0), ("cellType", 1), ("time_UE_StayedInCell", 2), ("iE_Extensions", 3)]),
  ("Links-to-log", [("uplink", 0), ("downlink", 1), ("both_uplink_and_downlink", 2)]),
  ("InterfacesToTraceItem", [("interface", 0), ("iE_Extensions", 1)]),
  ("LocationRelatedDataRequestType", [("requestedLocationRelatedDataType", 0), ("requestedGPSAssistanceData", 1)]),
  ("LocationRelatedDataRequestTypeSpecificToGERANIuMode", [("decipheringKeysEOTD", 0), ("dedicatedMobileAssistedEOTDAssistanceData", 1), ("dedicatedMobileBasedEOTDAssistanceData", 2)]),
  ("LocationReportingTransferInformation", [("reportChangeOfSAI", 0), ("periodicReportingIndicator", 1), ("directReportingIndicator", 2), ("verticalAccuracyCode", 3), ("positioningPriorityChangeSAI", 4), ("positioningPriorityDirect", 5), ("clientTypePeriodic", 6), ("clientTypeDirect", 7), ("responseTime", 8), ("includeVelocity", 9), ("periodicLocationInfo", 10), ("iE_Extensions", 11)]),
  ("ReportChangeOfSAI", [("requested", 0)]),
  ("PeriodicReportingIndicator", [("periodicSAI", 0), ("periodicGeo", 1)]),
  ("DirectReportingIndicator", [("directSAI", 0), ("directGeo", 1)]),
  ("M1Report", [("periodic", 0), ("event1F", 1)]),
  ("M2Report", [("periodic", 0), ("event1I", 1)]),
  ("M4Report", [("all", 0), ("m4_collection_parameters", 1)]),
  ("M4-Collection-Parameters", [("m4_period", 0), ("m4_threshold", 1), ("iE_Extensions", 2)]),
  ("M4-Period", [("ms100", 0), ("ms250", 1), ("ms500", 2), ("ms1000", 3), ("ms2000", 4), ("ms3000", 5), ("ms4000", 6), ("ms6000", 7)]),
  ("M5Report", [("when_available", 0), ("m5_period", 1)]),
  ("M5-Period", [("ms100", 0), ("ms250", 1), ("ms500", 2), ("ms1000", 3), ("ms2000", 4), ("ms3000", 5), ("ms4000", 6), ("ms6000", 7)]),
  ("M6Report", [("m6_period", 0), ("m6_links_to_log", 1), ("iE_Extensions", 2)]),
  ("M6-Period", [("ms1000", 0), ("ms2000", 1), ("ms3000", 2), ("ms4000", 3), ("ms6000", 4), ("ms8000", 5), ("ms12000", 6), ("ms16000", 7), ("ms20000", 8), ("ms24000", 9), ("ms28000", 10), ("ms32000", 11), ("ms64000", 12)]),
  ("M7Report", [("m7_period", 0), ("m7_links_to_log", 1), ("iE_Extensions", 2)]),
  ("M7-Period", [("ms1000", 0), ("ms2000", 1), ("ms3000", 2), ("ms4000", 3), ("ms6000", 4), ("ms8000", 5), ("ms12000", 6), ("ms16000", 7), ("ms20000", 8), ("ms24000", 9), ("ms28000", 10), ("ms32000", 11), ("ms64000", 12)]),
  ("Management-Based-MDT-Allowed", [("allowed", 0)]),
  ("MBMSBearerServiceType", [("multicast", 0), ("broadcast", 1)]),
  ("MBMSCNDe-Registration", [("normalsessionstop", 0), ("deregister", 1)]),
  ("MBMSCountingInformation", [("counting", 0), ("notcounting", 1)]),
  ("MBMSHCIndicator", [("uncompressed_header", 0), ("compressed_header", 1)]),
  ("MBMSLinkingInformation", [("uE_has_joined_multicast_services", 0)]),
  ("MBMSRegistrationRequestType", [("register", 0), ("deregister", 1)]),
  ("MDT-Activation", [("immediateMDTonly", 0), ("loggedMDTonly", 1), ("immediateMDTandTrace", 2)]),
  ("MDTAreaScope", [("cellbased", 0), ("labased", 1), ("rabased", 2), ("plmn_area_based", 3)]),
  ("MDT-Configuration", [("mdtActivation", 0), ("mdtAreaScope", 1), ("mdtMode", 2), ("iE_Extensions", 3)]),
  ("MDTMode", [("immediateMDT", 0), ("loggedMDT", 1)]),
  ("MDT-Report-Parameters", [("reportInterval", 0), ("reportAmount", 1)]),
  ("MeasurementQuantity", [("cpichEcNo", 0), ("cpichRSCP", 1), ("pathloss", 2)]),
  ("NonSearchingIndication", [("non_searching", 0), ("searching", 1)]),
  ("Offload-RAB-Parameters", [("accessPointName", 0), ("chargingCharacteristics", 1), ("iE_Extensions", 2)]),
  ("Out-Of-UTRAN", [("cell_reselection_to_EUTRAN", 0)]),
  ("PagingAreaID", [("lAI", 0), ("rAI", 1)]),
  ("PagingCause", [("terminating_conversational_call", 0), ("terminating_streaming_call", 1), ("terminating_interactive_call", 2), ("terminating_background_call", 3), ("terminating_low_priority_signalling", 4), ("terminating_high_priority_signalling", 5)]),
  ("PDP-Type", [("empty", 0), ("ppp", 1), ("osp_ihoss", 2), ("ipv4", 3), ("ipv6", 4)]),
  ("PDP-Type-extension", [("ipv4_and_ipv6", 0)]),
  ("PeriodicLocationInfo", [("reportingAmount", 0), ("reportingInterval", 1), ("iE_Extensions", 2)]),
  ("PermanentNAS-UE-ID", [("iMSI", 0)]),
  ("LABased", [("laiList", 0), ("iE_Extensions", 1)]),
  ("LoggedMDT", [("loggingInterval", 0), ("loggingDuration", 1), ("iE_Extensions", 2)]),
  ("LoggingInterval", [("s1d28", 0), ("s2d56", 1), ("s5d12", 2), ("s10d24", 3), ("s20d48", 4), ("s30d72", 5), ("s40d96", 6), ("s61d44", 7)]),
  ("LoggingDuration", [("min10", 0), ("min20", 1), ("min40", 2), ("min60", 3), ("min90", 4), ("min120", 5)]),
  ("PLMNs-in-shared-network-Value", [("pLMNidentity", 0), ("lA_LIST", 1), ("iE_Extensions", 2)]),
  ("PositioningPriority", [("high_Priority", 0), ("normal_Priority", 1)]),
  ("PositionData", [("positioningDataDiscriminator", 0), ("positioningDataSet", 1), ("iE_Extensions", 2)]),
  ("Pre-emptionCapability", [("shall_not_trigger_pre_emption", 0), ("may_trigger_pre_emption", 1)]),
  ("Pre-emptionVulnerability", [("not_pre_emptable", 0), ("pre_emptable", 1)]),
  ("PriorityLevel", [("spare", 0), ("highest", 1), ("lowest", 14), ("no_priority", 15)]),
  ("ProvidedData", [("shared_network_information", 0)]),
  ("QueuingAllowed", [("queueing_not_allowed", 0), ("queueing_allowed", 1)]),
  ("RAB-AsymmetryIndicator", [("symmetric_bidirectional", 0), ("asymmetric_unidirectional_downlink", 1), ("asymmetric_unidirectional_uplink", 2), ("asymmetric_bidirectional", 3)]),
  ("RABased", [("raiList", 0), ("iE_Extensions", 1)]),
  ("RABDataVolumeReport-Value", [("dl_UnsuccessfullyTransmittedDataVolume", 0), ("dataVolumeReference", 1), ("iE_Extensions", 2)]),
  ("RAB-Parameters", [("trafficClass", 0), ("rAB_AsymmetryIndicator", 1), ("maxBitrate", 2), ("guaranteedBitRate", 3), ("deliveryOrder", 4), ("maxSDU_Size", 5), ("sDU_Parameters", 6), ("transferDelay", 7), ("trafficHandlingPriority", 8), ("allocationOrRetentionPriority", 9), ("sourceStatisticsDescriptor", 10), ("relocationRequirement", 11), ("iE_Extensions", 12)]),
  ("RABParametersList-Value", [("rab_Id", 0), ("cn_domain", 1), ("rabDataVolumeReport", 2), ("upInformation", 3), ("iE_Extensions", 4)]),
  ("RAB-TrCH-MappingItem", [("rAB_ID", 0), ("trCH_ID_List", 1), ("iE_Extensions", 2)]),
  ("RAI", [("lAI", 0), ("rAC", 1), ("iE_Extensions", 2)]),
  ("RAListofIdleModeUEs", [("notEmptyRAListofIdleModeUEs", 0), ("emptyFullRAListofIdleModeUEs", 1)]),
  ("NotEmptyRAListofIdleModeUEs", [("rAofIdleModeUEs", 0), ("iE_Extensions", 1)]),
  ("RAT-Type", [("utran", 0), ("geran", 1)]),
  ("RateControlAllowed", [("not_allowed", 0), ("allowed", 1)]),
  ("RedirectionCompleted", [("redirection_completed", 0)]),
  ("RejectCauseValue", [("pLMN_Not_Allowed", 0), ("location_Area_Not_Allowed", 1), ("roaming_Not_Allowed_In_This_Location_Area", 2), ("no_Suitable_Cell_In_Location_Area", 3), ("gPRS_Services_Not_Allowed_In_This_PLMN", 4), ("cS_PS_coordination_required", 5), ("network_failure", 6), ("not_authorized_for_this_CSG", 7)]),
  ("RelocationRequirement", [("lossless", 0), ("none", 1), ("realtime", 2)]),
  ("RelocationType", [("ue_not_involved", 0), ("ue_involved", 1)]),
  ("ReportArea", [("service_area", 0), ("geographical_area", 1)]),
  ("ReportInterval", [("ms250", 0), ("ms500", 1), ("ms1000", 2), ("ms2000", 3), ("ms3000", 4), ("ms4000", 5), ("ms6000", 6), ("ms12000", 7), ("ms16000", 8), ("ms20000", 9), ("ms24000", 10), ("ms32000", 11), ("ms64000", 12), ("ms8000", 13), ("ms28000", 14)]),
  ("ReportAmount", [("n1", 0), ("n2", 1), ("n4", 2), ("n8", 3), ("n16", 4), ("n32", 5), ("n64", 6), ("infinity", 7)]),
  ("RequestedLocationRelatedDataType", [("decipheringKeysUEBasedOTDOA", 0), ("decipheringKeysAssistedGPS", 1), ("dedicatedAssistanceDataUEBasedOTDOA", 2), ("dedicatedAssistanceDataAssistedGPS", 3), ("decipheringKeysAssistedGANSS", 4), ("dedicatedAssistanceDataAssistedGANSS", 5), ("decipheringKeysAssistedGPSandGANSS", 6), ("dedicatedAssistanceDataAssistedGPSandGANSS", 7)]),
  ("MBMSIPMulticastAddressandAPNlist", [("tMGI", 0), ("iPMulticastAddress", 1), ("aPN", 2), ("iE_Extensions", 3)]),
  ("Requested-RAB-Parameter-Values", [("requestedMaxBitrates", 0), ("requestedGuaranteedBitrates", 1), ("iE_Extensions", 2)]),
  ("RequestType", [("event", 0), ("reportArea", 1), ("accuracyCode", 2)]),
  ("ResidualBitErrorRatio", [("mantissa", 0), ("exponent", 1), ("iE_Extensions", 2)]),
  ("ResponseTime", [("lowdelay", 0), ("delaytolerant", 1)]),
  ("RIM-Transfer", [("rIMInformation", 0), ("rIMRoutingAddress", 1), ("iE_Extensions", 2)]),
  ("RIMRoutingAddress", [("targetRNC_ID", 0), ("gERAN_Cell_ID", 1), ("targeteNB_ID", 2)]),
  ("RNCTraceInformation", [("traceReference", 0), ("traceActivationIndicato", 1), ("equipmentsToBeTraced", 2), ("iE_Extensions", 3)]),
  ("RNSAPRelocationParameters", [("rabParmetersList", 0), ("locationReporting", 1), ("traceInformation", 2), ("sourceSAI", 3), ("iE_Extensions", 4)]),
  ("RSRVCC-HO-Indication", [("ps_only", 0)]),
  ("RSRVCC-Information", [("nonce", 0), ("iMSInformation", 1), ("iE_Extensions", 2)]),
  ("RSRVCC-Operation-Possible", [("rsrvcc_possible", 0)]),
  ("SAI", [("pLMNidentity", 0), ("lAC", 1), ("sAC", 2), ("iE_Extensions", 3)]),
  ("SAPI", [("sapi_0", 0), ("sapi_3", 1)]),
  ("Shared-Network-Information", [("pLMNs_in_shared_network", 0), ("iE_Extensions", 1)]),
  ("Session-Re-establishment-Indicator", [("true", 0)]),
  ("SignallingIndication", [("signalling", 0)]),
  ("SDU-ErrorRatio", [("mantissa", 0), ("exponent", 1), ("iE_Extensions", 2)]),
  ("SDU-FormatInformationParameterItem", [("subflowSDU_Size", 0), ("rAB_SubflowCombinationBitRate", 1), ("iE_Extensions", 2)]),
  ("SDU-ParameterItem", [("sDU_ErrorRatio", 0), ("residualBitErrorRatio", 1), ("deliveryOfErroneousSDU", 2), ("sDU_FormatInformationParameters", 3), ("iE_Extensions", 4)]),
  ("SNA-Access-Information", [("authorisedPLMNs", 0), ("iE_Extensions", 1)]),
  ("Service-Handover", [("handover_to_GSM_should_be_performed", 0), ("handover_to_GSM_should_not_be_performed", 1), ("handover_to_GSM_shall_not_be_performed", 2)]),
  ("SourceCellID", [("sourceUTRANCellID", 0), ("sourceGERANCellID", 1)]),
  ("SourceID", [("sourceRNC_ID", 0), ("sAI", 1)]),
  ("SourceRNC-ID", [("pLMNidentity", 0), ("rNC_ID", 1), ("iE_Extensions", 2)]),
  ("SourceRNC-ToTargetRNC-TransparentContainer", [("rRC_Container", 0), ("numberOfIuInstances", 1), ("relocationType", 2), ("chosenIntegrityProtectionAlgorithm", 3), ("integrityProtectionKey", 4), ("chosenEncryptionAlgorithForSignalling", 5), ("cipheringKey", 6), ("chosenEncryptionAlgorithForCS", 7), ("chosenEncryptionAlgorithForPS", 8), ("d_RNTI", 9), ("targetCellId", 10), ("rAB_TrCH_Mapping", 11), ("iE_Extensions", 12)]),
  ("IRAT-Measurement-Configuration", [("rSRP", 0), ("rSRQ", 1), ("iRATmeasurementParameters", 2), ("iE_Extensions", 3)]),
  ("IRATmeasurementParameters", [("measurementDuration", 0), ("eUTRANFrequencies", 1), ("iE_Extensions", 2)]),
  ("RSRQ-Type", [("allSymbols", 0), ("wideBand", 1)]),
  ("EUTRANFrequencies-Value", [("earfcn", 0), ("measBand", 1), ("iE_Extensions", 2)]),
  ("MeasBand", [("v6", 0), ("v15", 1), ("v25", 2), ("v50", 3), ("v75", 4), ("v100", 5)]),
  ("SourceStatisticsDescriptor", [("speech", 0), ("unknown", 1)]),
  ("SourceUTRANCellID", [("pLMNidentity", 0), ("uTRANcellID", 1), ("iE_Extensions", 2)]),
  ("SRB-TrCH-MappingItem", [("sRB_ID", 0), ("trCH_ID", 1), ("iE_Extensions", 2)]),
  ("SRVCC-HO-Indication", [("ps_and_cs", 0), ("cs_only", 1)]),
  ("SRVCC-Information", [("nonce", 0), ("iE_Extensions", 1)]),
  ("SRVCC-Operation-Possible", [("srvcc_possible", 0)]),
  ("TAI", [("pLMNidentity", 0), ("tAC", 1), ("iE_Extensions", 2)]),
  ("TargetID", [("targetRNC_ID", 0), ("cGI", 1), ("targeteNB_ID", 2)]),
  ("TargetENB-ID", [("pLMNidentity", 0), ("eNB_ID", 1), ("iE_Extensions", 2), ("selectedTAI", 3)]),
  ("TargetRNC-ID", [("lAI", 0), ("rAC", 1), ("rNC_ID", 2), ("iE_Extensions", 3)]),
  ("TargetRNC-ToSourceRNC-TransparentContainer", [("rRC_Container", 0), ("d_RNTI", 1), ("iE_Extensions", 2)]),
  ("TemporaryUE-ID", [("tMSI", 0), ("p_TMSI", 1)]),
  ("TMGI", [("pLMNidentity", 0), ("serviceID", 1), ("iE_Extensions", 2)]),
  ("TraceDepth", [("minimum", 0), ("medium", 1), ("maximum", 2)]),
  ("TraceInformation", [("traceReference", 0), ("ue_identity", 1), ("tracePropagationParameters", 2), ("iE_Extensions", 3)]),
  ("TracePropagationParameters", [("traceRecordingSessionReference", 0), ("traceDepth", 1), ("listOfInterfacesToTrace", 2), ("iE_Extensions", 3)]),
  ("TraceRecordingSessionInformation", [("traceReference", 0), ("traceRecordingSessionReference", 1), ("iE_Extensions", 2)]),
  ("TrafficClass", [("conversational", 0), ("streaming", 1), ("interactive", 2), ("background", 3)]),
  ("TrafficHandlingPriority", [("spare", 0), ("highest", 1), ("lowest", 14), ("no_priority_used", 15)]),
  ("TrCH-ID", [("dCH_ID", 0), ("dSCH_ID", 1), ("uSCH_ID", 2), ("iE_Extensions", 3)]),
  ("TunnelInformation", [("transportLayerAddress", 0), ("uDP_Port_Number", 1), ("iE_Extensions", 2)]),
  ("TypeOfError", [("not_understood", 0), ("missing", 1)]),
  ("UE-AggregateMaximumBitRate", [("uE_AggregateMaximumBitRateDownlink", 0), ("uE_AggregateMaximumBitRateUplink", 1)]),
  ("UE-ID", [("imsi", 0), ("imei", 1), ("imeisv", 2)]),
  ("UESBI-Iu", [("uESBI_IuA", 0), ("uESBI_IuB", 1), ("iE_Extensions", 2)]),
  ("UPInformation", [("frameSeqNoUL", 0), ("frameSeqNoDL", 1), ("pdu14FrameSeqNoUL", 2), ("pdu14FrameSeqNoDL", 3), ("dataPDUType", 4), ("upinitialisationFrame", 5), ("iE_Extensions", 6)]),
  ("UserPlaneMode", [("transparent_mode", 0), ("support_mode_for_predefined_SDU_sizes", 1)]),
  ("UTRAN-CellID", [("pLMNidentity", 0), ("cellID", 1), ("iE_Extensions", 2)]),
  ("VelocityEstimate", [("horizontalVelocity", 0), ("horizontalWithVerticalVelocity", 1), ("horizontalVelocityWithUncertainty", 2), ("horizontalWithVeritcalVelocityAndUncertainty", 3)]),
  ("HorizontalVelocity", [("horizontalSpeedAndBearing", 0), ("iE_Extensions", 1)]),
  ("HorizontalWithVerticalVelocity", [("horizontalSpeedAndBearing", 0), ("veritcalVelocity", 1), ("iE_Extensions", 2)]),
  ("HorizontalVelocityWithUncertainty", [("horizontalSpeedAndBearing", 0), ("uncertaintySpeed", 1), ("iE_Extensions", 2)]),
  ("HorizontalWithVerticalVelocityAndUncertainty", [("horizontalSpeedAndBearing", 0), ("veritcalVelocity", 1), ("horizontalUncertaintySpeed", 2), ("verticalUncertaintySpeed", 3), ("iE_Extensions", 4)]),
  ("HorizontalSpeedAndBearing", [("bearing", 0), ("horizontalSpeed", 1)]),
  ("VerticalVelocity", [("veritcalSpeed", 0), ("veritcalSpeedDirection", 1)]),
  ("VerticalSpeedDirection", [("upward", 0), ("downward", 1)]),
  ("VoiceSupportMatchIndicator", [("supported", 0), ("not_supported", 1)]),
  ("RAB-DataVolumeReportItem", [("rAB_ID", 0), ("dl_UnsuccessfullyTransmittedDataVolume", 1), ("iE_Extensions", 2)]),
  ("RAB-ReleasedItem-IuRelComp", [("rAB_ID", 0), ("dL_GTP_PDU_SequenceNumber", 1), ("uL_GTP_PDU_SequenceNumber", 2), ("iE_Extensions", 3)]),
  ("RAB-RelocationReleaseItem", [("rAB_ID", 0), ("iE_Extensions", 1)]),
  ("RAB-DataForwardingItem", [("rAB_ID", 0), ("transportLayerAddress", 1), ("iuTransportAssociation", 2), ("iE_Extensions", 3)]),
  ("RAB-SetupItem-RelocReq", [("rAB_ID", 0), ("nAS_SynchronisationIndicator", 1), ("rAB_Parameters", 2), ("dataVolumeReportingIndication", 3), ("pDP_TypeInformation", 4), ("userPlaneInformation", 5), ("transportLayerAddress", 6), ("iuTransportAssociation", 7), ("service_Handover", 8), ("iE_Extensions", 9)]),
  ("UserPlaneInformation", [("userPlaneMode", 0), ("uP_ModeVersions", 1), ("iE_Extensions", 2)]),
  ("CNMBMSLinkingInformation", [("joinedMBMSBearerService_IEs", 0), ("iE_Extensions", 1)]),
  ("JoinedMBMSBearerService-IEs-Value", [("tMGI", 0), ("mBMS_PTP_RAB_ID", 1), ("iE_Extensions", 2)]),
  ("RAB-SetupItem-RelocReqAck", [("rAB_ID", 0), ("transportLayerAddress", 1), ("iuTransportAssociation", 2), ("iE_Extensions", 3)]),
  ("RAB-FailedItem", [("rAB_ID", 0), ("cause", 1), ("iE_Extensions", 2)]),
  ("RAB-DataForwardingItem-SRNS-CtxReq", [("rAB_ID", 0), ("iE_Extensions", 1)]),
  ("RAB-ContextItem", [("rAB_ID", 0), ("dl_GTP_PDU_SequenceNumber", 1), ("ul_GTP_PDU_SequenceNumber", 2), ("dl_N_PDU_SequenceNumber", 3), ("ul_N_PDU_SequenceNumber", 4), ("iE_Extensions", 5)]),
  ("RABs-ContextFailedtoTransferItem", [("rAB_ID", 0), ("cause", 1), ("iE_Extensions", 2)]),
  ("RAB-DataVolumeReportRequestItem", [("rAB_ID", 0), ("iE_Extensions", 1)]),
  ("RABs-failed-to-reportItem", [("rAB_ID", 0), ("cause", 1), ("iE_Extensions", 2)]),
  ("ResetResourceItem", [("iuSigConId", 0), ("iE_Extensions", 1)]),
  ("ResetResourceAckItem", [("iuSigConId", 0), ("iE_Extensions", 1)]),
  ("RAB-ReleaseItem", [("rAB_ID", 0), ("cause", 1), ("iE_Extensions", 2)]),
  ("RAB-SetupItem-EnhancedRelocCompleteReq", [("rAB_ID", 0), ("transportLayerAddressReq1", 1), ("iuTransportAssociationReq1", 2), ("ass_RAB_Parameters", 3), ("iE_Extensions", 4)]),
  ("RAB-SetupItem-EnhancedRelocCompleteRes", [("rAB_ID", 0), ("rAB_Parameters", 1), ("userPlaneInformation", 2), ("transportLayerAddressRes1", 3), ("iuTransportAssociationRes1", 4), ("rab2beReleasedList", 5), ("iE_Extensions", 6)]),
  ("RAB-ToBeReleasedItem-EnhancedRelocCompleteRes", [("rAB_ID", 0), ("cause", 1), ("iE_Extensions", 2)]),
  ("RAB-SetupOrModifyItemFirst", [("rAB_ID", 0), ("nAS_SynchronisationIndicator", 1), ("rAB_Parameters", 2), ("userPlaneInformation", 3), ("transportLayerInformation", 4), ("service_Handover", 5), ("iE_Extensions", 6)]),
  ("TransportLayerInformation", [("transportLayerAddress", 0), ("iuTransportAssociation", 1), ("iE_Extensions", 2)]),
  ("RAB-SetupOrModifyItemSecond", [("pDP_TypeInformation", 0), ("dataVolumeReportingIndication", 1), ("dl_GTP_PDU_SequenceNumber", 2), ("ul_GTP_PDU_SequenceNumber", 3), ("dl_N_PDU_SequenceNumber", 4), ("ul_N_PDU_SequenceNumber", 5), ("iE_Extensions", 6)]),
  ("RAB-SetupOrModifiedItem", [("rAB_ID", 0), ("transportLayerAddress", 1), ("iuTransportAssociation", 2), ("dl_dataVolumes", 3), ("iE_Extensions", 4)]),
  ("RAB-ReleasedItem", [("rAB_ID", 0), ("dl_dataVolumes", 1), ("dL_GTP_PDU_SequenceNumber", 2), ("uL_GTP_PDU_SequenceNumber", 3), ("iE_Extensions", 4)]),
  ("DataVolumeList-Value", [("dl_UnsuccessfullyTransmittedDataVolume", 0), ("dataVolumeReference", 1), ("iE_Extensions", 2)]),
  ("RAB-QueuedItem", [("rAB_ID", 0), ("iE_Extensions", 1)]),
  ("GERAN-Iumode-RAB-Failed-RABAssgntResponse-Item", [("rAB_ID", 0), ("cause", 1), ("gERAN_Classmark", 2), ("iE_Extensions", 3)]),
  ("DirectTransferInformationItem-RANAP-RelocInf", [("nAS_PDU", 0), ("sAPI", 1), ("cN_DomainIndicator", 2), ("iE_Extensions", 3)]),
  ("RAB-ContextItem-RANAP-RelocInf", [("rAB_ID", 0), ("dl_GTP_PDU_SequenceNumber", 1), ("ul_GTP_PDU_SequenceNumber", 2), ("dl_N_PDU_SequenceNumber", 3), ("ul_N_PDU_SequenceNumber", 4), ("iE_Extensions", 5)]),
  ("RAB-SetupItem-EnhRelocInfoReq", [("rAB_ID", 0), ("cN_DomainIndicator", 1), ("rAB_Parameters", 2), ("dataVolumeReportingIndication", 3), ("pDP_TypeInformation", 4), ("userPlaneInformation", 5), ("dataForwardingInformation", 6), ("sourceSideIuULTNLInfo", 7), ("service_Handover", 8), ("alt_RAB_Parameters", 9), ("iE_Extensions", 10)]),
  ("TNLInformationEnhRelInfoReq", [("transportLayerAddress", 0), ("iuTransportAssociation", 1), ("iE_Extensions", 2)]),
  ("RAB-SetupItem-EnhRelocInfoRes", [("cN_DomainIndicator", 0), ("rAB_ID", 1), ("dataForwardingInformation", 2), ("ass_RAB_Parameters", 3), ("iE_Extensions", 4)]),
  ("RAB-FailedItem-EnhRelocInfoRes", [("cN_DomainIndicator", 0), ("rAB_ID", 1), ("cause", 2), ("iE_Extensions", 3)]),
  ("TNLInformationEnhRelInfoRes", [("dl_forwardingTransportLayerAddress", 0), ("dl_forwardingTransportAssociation", 1), ("iE_Extensions", 2)]),
  ("RAB-ModifyItem", [("rAB_ID", 0), ("requested_RAB_Parameter_Values", 1), ("iE_Extensions", 2)]),
  ("MBMSSynchronisationInformation", [("mBMSHCIndicator", 0), ("iPMulticastAddress", 1), ("gTPDLTEID", 2), ("iE_Extensions", 3)]),
  ("LeftMBMSBearerService-IEs-Value", [("tMGI", 0), ("iE_Extensions", 1)]),
  ("UnsuccessfulLinking-IEs-Value", [("tMGI", 0), ("cause", 1), ("iE_Extensions", 2)]),
  ("RANAP-PDU", [("initiatingMessage", 0), ("successfulOutcome", 1), ("unsuccessfulOutcome", 2), ("outcome", 3)]),
  ("InitiatingMessage", [("procedureCode", 0), ("criticality", 1), ("value", 2)]),
  ("SuccessfulOutcome", [("procedureCode", 0), ("criticality", 1), ("value", 2)]),
  ("UnsuccessfulOutcome", [("procedureCode", 0), ("criticality", 1), ("value", 2)]),
  ("Outcome", [("procedureCode", 0), ("criticality", 1), ("value", 2)])]

/-- src/ranap/*.c, include/osmocom/ranap/*.h -/
def ranapC : List (String × List (String × Int)) := [
  ("Criticality", [("reject", 0), ("ignore", 1), ("notify", 2)]),
  ("Presence", [("optional", 0), ("conditional", 1), ("mandatory", 2)]),
  ("PrivateIE-ID", [("local", 0), ("global", 1)]),
  ("ProcedureCode", [("id_RAB_Assignment", 0), ("id_Iu_Release", 1), ("id_RelocationPreparation", 2), ("id_RelocationResourceAllocation", 3), ("id_RelocationCancel", 4), ("id_SRNS_ContextTransfer", 5), ("id_SecurityModeControl", 6), ("id_DataVolumeReport", 7), ("id_Reset", 9), ("id_RAB_ReleaseRequest", 10), ("id_Iu_ReleaseRequest", 11), ("id_RelocationDetect", 12), ("id_RelocationComplete", 13), ("id_Paging", 14), ("id_CommonID", 15), ("id_CN_InvokeTrace", 16), ("id_LocationReportingControl", 17), ("id_LocationReport", 18), ("id_InitialUE_Message", 19), ("id_DirectTransfer", 20), ("id_OverloadControl", 21), ("id_ErrorIndication", 22), ("id_SRNS_DataForward", 23), ("id_ForwardSRNS_Context", 24), ("id_privateMessage", 25), ("id_CN_DeactivateTrace", 26), ("id_ResetResource", 27), ("id_RANAP_Relocation", 28), ("id_RAB_ModifyRequest", 29), ("id_LocationRelatedData", 30), ("id_InformationTransfer", 31), ("id_UESpecificInformation", 32), ("id_UplinkInformationExchange", 33), ("id_DirectInformationTransfer", 34), ("id_MBMSSessionStart", 35), ("id_MBMSSessionUpdate", 36), ("id_MBMSSessionStop", 37), ("id_MBMSUELinking", 38), ("id_MBMSRegistration", 39), ("id_MBMSCNDe_Registration_Procedure", 40), ("id_MBMSRABEstablishmentIndication", 41), ("id_MBMSRABRelease", 42), ("id_enhancedRelocationComplete", 43), ("id_enhancedRelocationCompleteConfirm", 44), ("id_RANAPenhancedRelocation", 45), ("id_SRVCCPreparation", 46), ("id_UeRadioCapabilityMatch", 47)]),
  ("ProtocolIE-ID", [("id_AreaIdentity", 0), ("id_CN_DomainIndicator", 3), ("id_Cause", 4), ("id_ChosenEncryptionAlgorithm", 5), ("id_ChosenIntegrityProtectionAlgorithm", 6), ("id_ClassmarkInformation2", 7), ("id_ClassmarkInformation3", 8), ("id_CriticalityDiagnostics", 9), ("id_DL_GTP_PDU_SequenceNumber", 10), ("id_EncryptionInformation", 11), ("id_IntegrityProtectionInformation", 12), ("id_IuTransportAssociation", 13), ("id_L3_Information", 14), ("id_LAI", 15), ("id_NAS_PDU", 16), ("id_NonSearchingIndication", 17), ("id_NumberOfSteps", 18), ("id_OMC_ID", 19), ("id_OldBSS_ToNewBSS_Information", 20), ("id_PagingAreaID", 21), ("id_PagingCause", 22), ("id_PermanentNAS_UE_ID", 23), ("id_RAB_ContextItem", 24), ("id_RAB_ContextList", 25), ("id_RAB_DataForwardingItem", 26), ("id_RAB_DataForwardingItem_SRNS_CtxReq", 27), ("id_RAB_DataForwardingList", 28), ("id_RAB_DataForwardingList_SRNS_CtxReq", 29), ("id_RAB_DataVolumeReportItem", 30), ("id_RAB_DataVolumeReportList", 31), ("id_RAB_DataVolumeReportRequestItem", 32), ("id_RAB_DataVolumeReportRequestList", 33), ("id_RAB_FailedItem", 34), ("id_RAB_FailedList", 35), ("id_RAB_ID", 36), ("id_RAB_QueuedItem", 37), ("id_RAB_QueuedList", 38), ("id_RAB_ReleaseFailedList", 39), ("id_RAB_ReleaseItem", 40), ("id_RAB_ReleaseList", 41), ("id_RAB_ReleasedItem", 42), ("id_RAB_ReleasedList", 43), ("id_RAB_ReleasedList_IuRelComp", 44), ("id_RAB_RelocationReleaseItem", 45), ("id_RAB_RelocationReleaseList", 46), ("id_RAB_SetupItem_RelocReq", 47), ("id_RAB_SetupItem_RelocReqAck", 48), ("id_RAB_SetupList_RelocReq", 49), ("id_RAB_SetupList_RelocReqAck", 50), ("id_RAB_SetupOrModifiedItem", 51), ("id_RAB_SetupOrModifiedList", 52), ("id_RAB_SetupOrModifyItem", 53), ("id_RAB_SetupOrModifyList", 54), ("id_RAC", 55), ("id_RelocationType", 56), ("id_RequestType", 57), ("id_SAI", 58), ("id_SAPI", 59), ("id_SourceID", 60), ("id_Source_ToTarget_TransparentContainer", 61), ("id_TargetID", 62), ("id_Target_ToSource_TransparentContainer", 63), ("id_TemporaryUE_ID", 64), ("id_TraceReference", 65), ("id_TraceType", 66), ("id_TransportLayerAddress", 67), ("id_TriggerID", 68), ("id_UE_ID", 69), ("id_UL_GTP_PDU_SequenceNumber", 70), ("id_RAB_FailedtoReportItem", 71), ("id_RAB_FailedtoReportList", 72), ("id_KeyStatus", 75), ("id_DRX_CycleLengthCoefficient", 76), ("id_IuSigConIdList", 77), ("id_IuSigConIdItem", 78), ("id_IuSigConId", 79), ("id_DirectTransferInformationItem_RANAP_RelocInf", 80), ("id_DirectTransferInformationList_RANAP_RelocInf", 81), ("id_RAB_ContextItem_RANAP_RelocInf", 82), ("id_RAB_ContextList_RANAP_RelocInf", 83), ("id_RAB_ContextFailedtoTransferItem", 84), ("id_RAB_ContextFailedtoTransferList", 85), ("id_GlobalRNC_ID", 86), ("id_RAB_ReleasedItem_IuRelComp", 87), ("id_MessageStructure", 88), ("id_Alt_RAB_Parameters", 89), ("id_Ass_RAB_Parameters", 90), ("id_RAB_ModifyList", 91), ("id_RAB_ModifyItem", 92), ("id_TypeOfError", 93), ("id_BroadcastAssistanceDataDecipheringKeys", 94), ("id_LocationRelatedDataRequestType", 95), ("id_GlobalCN_ID", 96), ("id_LastKnownServiceArea", 97), ("id_SRB_TrCH_Mapping", 98), ("id_InterSystemInformation_TransparentContainer", 99), ("id_NewBSS_To_OldBSS_Information", 100), ("id_SourceRNC_PDCP_context_info", 103), ("id_InformationTransferID", 104), ("id_SNA_Access_Information", 105), ("id_ProvidedData", 106), ("id_GERAN_BSC_Container", 107), ("id_GERAN_Classmark", 108), ("id_GERAN_Iumode_RAB_Failed_RABAssgntResponse_Item", 109), ("id_GERAN_Iumode_RAB_FailedList_RABAssgntResponse", 110), ("id_VerticalAccuracyCode", 111), ("id_ResponseTime", 112), ("id_PositioningPriority", 113), ("id_ClientType", 114), ("id_LocationRelatedDataRequestTypeSpecificToGERANIuMode", 115), ("id_SignallingIndication", 116), ("id_hS_DSCH_MAC_d_Flow_ID", 117), ("id_UESBI_Iu", 118), ("id_PositionData", 119), ("id_PositionDataSpecificToGERANIuMode", 120), ("id_CellLoadInformationGroup", 121), ("id_AccuracyFulfilmentIndicator", 122), ("id_InformationTransferType", 123), ("id_TraceRecordingSessionInformation", 124), ("id_TracePropagationParameters", 125), ("id_InterSystemInformationTransferType", 126), ("id_SelectedPLMN_ID", 127), ("id_RedirectionCompleted", 128), ("id_RedirectionIndication", 129), ("id_NAS_SequenceNumber", 130), ("id_RejectCauseValue", 131), ("id_APN", 132), ("id_CNMBMSLinkingInformation", 133), ("id_DeltaRAListofIdleModeUEs", 134), ("id_FrequenceLayerConvergenceFlag", 135), ("id_InformationExchangeID", 136), ("id_InformationExchangeType", 137), ("id_InformationRequested", 138), ("id_InformationRequestType", 139), ("id_IPMulticastAddress", 140), ("id_JoinedMBMSBearerServicesList", 141), ("id_LeftMBMSBearerServicesList", 142), ("id_MBMSBearerServiceType", 143), ("id_MBMSCNDe_Registration", 144), ("id_MBMSServiceArea", 145), ("id_MBMSSessionDuration", 146), ("id_MBMSSessionIdentity", 147), ("id_PDP_TypeInformation", 148), ("id_RAB_Parameters", 149), ("id_RAListofIdleModeUEs", 150), ("id_MBMSRegistrationRequestType", 151), ("id_SessionUpdateID", 152), ("id_TMGI", 153), ("id_TransportLayerInformation", 154), ("id_UnsuccessfulLinkingList", 155), ("id_MBMSLinkingInformation", 156), ("id_MBMSSessionRepetitionNumber", 157), ("id_AlternativeRABConfiguration", 158), ("id_AlternativeRABConfigurationRequest", 159), ("id_E_DCH_MAC_d_Flow_ID", 160), ("id_SourceBSS_ToTargetBSS_TransparentContainer", 161), ("id_TargetBSS_ToSourceBSS_TransparentContainer", 162), ("id_TimeToMBMSDataTransfer", 163), ("id_IncludeVelocity", 164), ("id_VelocityEstimate", 165), ("id_RedirectAttemptFlag", 166), ("id_RAT_Type", 167), ("id_PeriodicLocationInfo", 168), ("id_MBMSCountingInformation", 169), ("id_170_not_to_be_used_for_IE_ids", 170), ("id_ExtendedRNC_ID", 171), ("id_Alt_RAB_Parameter_ExtendedGuaranteedBitrateInf", 172), ("id_Alt_RAB_Parameter_ExtendedMaxBitrateInf", 173), ("id_Ass_RAB_Parameter_ExtendedGuaranteedBitrateList", 174), ("id_Ass_RAB_Parameter_ExtendedMaxBitrateList", 175), ("id_RAB_Parameter_ExtendedGuaranteedBitrateList", 176), ("id_RAB_Parameter_ExtendedMaxBitrateList", 177), ("id_Requested_RAB_Parameter_ExtendedMaxBitrateList", 178), ("id_Requested_RAB_Parameter_ExtendedGuaranteedBitrateList", 179), ("id_LAofIdleModeUEs", 180), ("id_newLAListofIdleModeUEs", 181), ("id_LAListwithNoIdleModeUEsAnyMore", 182), ("id_183_not_to_be_used_for_IE_ids", 183), ("id_GANSS_PositioningDataSet", 184), ("id_RequestedGANSSAssistanceData", 185), ("id_BroadcastGANSSAssistanceDataDecipheringKeys", 186), ("id_d_RNTI_for_NoIuCSUP", 187), ("id_RAB_SetupList_EnhancedRelocCompleteReq", 188), ("id_RAB_SetupItem_EnhancedRelocCompleteReq", 189), ("id_RAB_SetupList_EnhancedRelocCompleteRes", 190), ("id_RAB_SetupItem_EnhancedRelocCompleteRes", 191), ("id_RAB_SetupList_EnhRelocInfoReq", 192), ("id_RAB_SetupItem_EnhRelocInfoReq", 193), ("id_RAB_SetupList_EnhRelocInfoRes", 194), ("id_RAB_SetupItem_EnhRelocInfoRes", 195), ("id_OldIuSigConId", 196), ("id_RAB_FailedList_EnhRelocInfoRes", 197), ("id_RAB_FailedItem_EnhRelocInfoRes", 198), ("id_Global_ENB_ID", 199), ("id_UE_History_Information", 200), ("id_MBMSSynchronisationInformation", 201), ("id_SubscriberProfileIDforRFP", 202), ("id_CSG_Id", 203), ("id_OldIuSigConIdCS", 204), ("id_OldIuSigConIdPS", 205), ("id_GlobalCN_IDCS", 206), ("id_GlobalCN_IDPS", 207), ("id_SourceExtendedRNC_ID", 208), ("id_RAB_ToBeReleasedItem_EnhancedRelocCompleteRes", 209), ("id_RAB_ToBeReleasedList_EnhancedRelocCompleteRes", 210), ("id_SourceRNC_ID", 211), ("id_Relocation_TargetRNC_ID", 212), ("id_Relocation_TargetExtendedRNC_ID", 213), ("id_Alt_RAB_Parameter_SupportedGuaranteedBitrateInf", 214), ("id_Alt_RAB_Parameter_SupportedMaxBitrateInf", 215), ("id_Ass_RAB_Parameter_SupportedGuaranteedBitrateList", 216), ("id_Ass_RAB_Parameter_SupportedMaxBitrateList", 217), ("id_RAB_Parameter_SupportedGuaranteedBitrateList", 218), ("id_RAB_Parameter_SupportedMaxBitrateList", 219), ("id_Requested_RAB_Parameter_SupportedMaxBitrateList", 220), ("id_Requested_RAB_Parameter_SupportedGuaranteedBitrateList", 221), ("id_Relocation_SourceRNC_ID", 222), ("id_Relocation_SourceExtendedRNC_ID", 223), ("id_EncryptionKey", 224), ("id_IntegrityProtectionKey", 225), ("id_SRVCC_HO_Indication", 226), ("id_SRVCC_Information", 227), ("id_SRVCC_Operation_Possible", 228), ("id_CSG_Id_List", 229), ("id_PSRABtobeReplaced", 230), ("id_E_UTRAN_Service_Handover", 231), ("id_UE_AggregateMaximumBitRate", 233), ("id_CSG_Membership_Status", 234), ("id_Cell_Access_Mode", 235), ("id_IP_Source_Address", 236), ("id_CSFB_Information", 237), ("id_PDP_TypeInformation_extension", 238), ("id_MSISDN", 239), ("id_Offload_RAB_Parameters", 240), ("id_LGW_TransportLayerAddress", 241), ("id_Correlation_ID", 242), ("id_IRAT_Measurement_Configuration", 243), ("id_MDT_Configuration", 244), ("id_Priority_Class_Indicator", 245), ("id_RNSAPRelocationParameters", 247), ("id_RABParametersList", 248), ("id_Management_Based_MDT_Allowed", 249), ("id_HigherBitratesThan16MbpsFlag", 250), ("id_Trace_Collection_Entity_IP_Addess", 251), ("id_End_Of_CSFB", 252), ("id_Time_UE_StayedInCell_EnhancedGranularity", 253), ("id_Out_Of_UTRAN", 254), ("id_TraceRecordingSessionReference", 255), ("id_IMSI", 256), ("id_HO_Cause", 257), ("id_VoiceSupportMatchIndicator", 258), ("id_RSRVCC_HO_Indication", 259), ("id_RSRVCC_Information", 260), ("id_AnchorPLMN_ID", 261), ("id_Tunnel_Information_for_BBF", 262), ("id_Management_Based_MDT_PLMN_List", 263), ("id_SignallingBasedMDTPLMNList", 264), ("id_M4Report", 265), ("id_M5Report", 266), ("id_M6Report", 267), ("id_M7Report", 268), ("id_TimingDifferenceULDL", 269), ("id_Serving_Cell_Identifier", 270), ("id_EARFCN_Extended", 271), ("id_RSRVCC_Operation_Possible", 272), ("id_SIPTO_LGW_TransportLayerAddress", 273), ("id_SIPTO_Correlation_ID", 274), ("id_LHN_ID", 275), ("id_Session_Re_establishment_Indicator", 276), ("id_LastE_UTRANPLMNIdentity", 277), ("id_RSRQ_Type", 278), ("id_RSRQ_Extension", 279)]),
  ("TriggeringMessage", [("initiating_message", 0), ("successful_outcome", 1), ("unsuccessfull_outcome", 2), ("outcome", 3)]),
  ("AccuracyFulfilmentIndicator", [("requested_Accuracy_Fulfilled", 0), ("requested_Accuracy_Not_Fulfilled", 1)]),
  ("AllocationOrRetentionPriority", [("priorityLevel", 0), ("pre_emptionCapability", 1), ("pre_emptionVulnerability", 2), ("queuingAllowed", 3), ("iE_Extensions", 4)]),
  ("Alt-RAB-Parameters", [("altMaxBitrateInf", 0), ("altGuaranteedBitRateInf", 1), ("iE_Extensions", 2)]),
  ("Alt-RAB-Parameter-ExtendedGuaranteedBitrateInf", [("altExtendedGuaranteedBitrateType", 0), ("altExtendedGuaranteedBitrates", 1)]),
  ("Alt-RAB-Parameter-GuaranteedBitrateInf", [("altGuaranteedBitrateType", 0), ("altGuaranteedBitrates", 1)]),
  ("Alt-RAB-Parameter-GuaranteedBitrateType", [("unspecified", 0), ("value_range", 1), ("discrete_values", 2)]),
  ("Alt-RAB-Parameter-SupportedGuaranteedBitrateInf", [("altSupportedGuaranteedBitrateType", 0), ("altSupportedGuaranteedBitrates", 1), ("iE_Extensions", 2)]),
  ("Alt-RAB-Parameter-ExtendedMaxBitrateInf", [("altExtendedMaxBitrateType", 0), ("altExtendedMaxBitrates", 1)]),
  ("Alt-RAB-Parameter-MaxBitrateInf", [("altMaxBitrateType", 0), ("altMaxBitrates", 1)]),
  ("Alt-RAB-Parameter-MaxBitrateType", [("unspecified", 0), ("value_range", 1), ("discrete_values", 2)]),
  ("Alt-RAB-Parameter-SupportedMaxBitrateInf", [("altSupportedMaxBitrateType", 0), ("altSupportedMaxBitrates", 1), ("iE_Extensions", 2)]),
  ("AlternativeRABConfigurationRequest", [("alternative_RAB_configuration_Requested", 0)]),
  ("AreaIdentity", [("sAI", 0), ("geographicalArea", 1)]),
  ("Ass-RAB-Parameters", [("assMaxBitrateInf", 0), ("assGuaranteedBitRateInf", 1), ("iE_Extensions", 2)]),
  ("AuthorisedPLMNs-Value", [("pLMNidentity", 0), ("authorisedSNAsList", 1), ("iE_Extensions", 2)]),
  ("BroadcastAssistanceDataDecipheringKeys", [("cipheringKeyFlag", 0), ("currentDecipheringKey", 1), ("nextDecipheringKey", 2)]),
  ("Cause", [("radioNetwork", 0), ("transmissionNetwork", 1), ("nAS", 2), ("protocol", 3), ("misc", 4), ("non_Standard", 5), ("radioNetworkExtension", 6)]),
  ("CauseMisc", [("om_intervention", 113), ("no_resource_available", 114), ("unspecified_failure", 115), ("network_optimisation", 116)]),
  ("CauseNAS", [("user_restriction_start_indication", 81), ("user_restriction_end_indication", 82), ("normal_release", 83), ("csg_subscription_expiry", 84)]),
  ("CauseProtocol", [("transfer_syntax_error", 97), ("semantic_error", 98), ("message_not_compatible_with_receiver_state", 99), ("abstract_syntax_error_reject", 100), ("abstract_syntax_error_ignore_and_notify", 101), ("abstract_syntax_error_falsely_constructed_message", 102)]),
  ("CauseRadioNetwork", [("rab_pre_empted", 1), ("trelocoverall_expiry", 2), ("trelocprep_expiry", 3), ("treloccomplete_expiry", 4), ("tqueing_expiry", 5), ("relocation_triggered", 6), ("trellocalloc_expiry", 7), ("unable_to_establish_during_relocation", 8), ("unknown_target_rnc", 9), ("relocation_cancelled", 10), ("successful_relocation", 11), ("requested_ciphering_and_or_integrity_protection_algorithms_not_supported", 12), ("conflict_with_already_existing_integrity_protection_and_or_ciphering_information", 13), ("failure_in_the_radio_interface_procedure", 14), ("release_due_to_utran_generated_reason", 15), ("user_inactivity", 16), ("time_critical_relocation", 17), ("requested_traffic_class_not_available", 18), ("invalid_rab_parameters_value", 19), ("requested_maximum_bit_rate_not_available", 20), ("requested_guaranteed_bit_rate_not_available", 21), ("requested_transfer_delay_not_achievable", 22), ("invalid_rab_parameters_combination", 23), ("condition_violation_for_sdu_parameters", 24), ("condition_violation_for_traffic_handling_priority", 25), ("condition_violation_for_guaranteed_bit_rate", 26), ("user_plane_versions_not_supported", 27), ("iu_up_failure", 28), ("relocation_failure_in_target_CN_RNC_or_target_system", 29), ("invalid_RAB_ID", 30), ("no_remaining_rab", 31), ("interaction_with_other_procedure", 32), ("requested_maximum_bit_rate_for_dl_not_available", 33), ("requested_maximum_bit_rate_for_ul_not_available", 34), ("requested_guaranteed_bit_rate_for_dl_not_available", 35), ("requested_guaranteed_bit_rate_for_ul_not_available", 36), ("repeated_integrity_checking_failure", 37), ("requested_request_type_not_supported", 38), ("request_superseded", 39), ("release_due_to_UE_generated_signalling_connection_release", 40), ("resource_optimisation_relocation", 41), ("requested_information_not_available", 42), ("relocation_desirable_for_radio_reasons", 43), ("relocation_not_supported_in_target_RNC_or_target_system", 44), ("directed_retry", 45), ("radio_connection_with_UE_Lost", 46), ("rNC_unable_to_establish_all_RFCs", 47), ("deciphering_keys_not_available", 48), ("dedicated_assistance_data_not_available", 49), ("relocation_target_not_allowed", 50), ("location_reporting_congestion", 51), ("reduce_load_in_serving_cell", 52), ("no_radio_resources_available_in_target_cell", 53), ("gERAN_Iumode_failure", 54), ("access_restricted_due_to_shared_networks", 55), ("incoming_relocation_not_supported_due_to_PUESBINE_feature", 56), ("traffic_load_in_the_target_cell_higher_than_in_the_source_cell", 57), ("mBMS_no_multicast_service_for_this_UE", 58), ("mBMS_unknown_UE_ID", 59), ("successful_MBMS_session_start_no_data_bearer_necessary", 60), ("mBMS_superseded_due_to_NNSF", 61), ("mBMS_UE_linking_already_done", 62), ("mBMS_UE_de_linking_failure_no_existing_UE_linking", 63), ("tMGI_unknown", 64)]),
  ("CauseRadioNetworkExtension", [("iP_multicast_address_and_APN_not_valid", 257), ("mBMS_de_registration_rejected_due_to_implicit_registration", 258), ("mBMS_request_superseded", 259), ("mBMS_de_registration_during_session_not_allowed", 260), ("mBMS_no_data_bearer_necessary", 261), ("periodicLocationInformationNotAvailable", 262), ("gTP_Resources_Unavailable", 263), ("tMGI_inUse_overlapping_MBMS_service_area", 264), ("mBMS_no_cell_in_MBMS_service_area", 265), ("no_Iu_CS_UP_relocation", 266), ("successful_MBMS_Session_Start_IP_Multicast_Bearer_established", 267), ("cS_fallback_triggered", 268), ("invalid_CSG_Id", 269)]),
  ("CauseTransmissionNetwork", [("signalling_transport_resource_failure", 65), ("iu_transport_connection_failed_to_establish", 66)]),
  ("Cell-Access-Mode", [("hybrid", 0)]),
  ("CellBased", [("cellIdList", 0), ("iE_Extensions", 1)]),
  ("CellLoadInformation", [("cell_Capacity_Class_Value", 0), ("loadValue", 1), ("rTLoadValue", 2), ("nRTLoadInformationValue", 3), ("iE_Extensions", 4)]),
  ("CellLoadInformationGroup", [("sourceCellID", 0), ("uplinkCellLoadInformation", 1), ("downlinkCellLoadInformation", 2), ("iE_Extensions", 3)]),
  ("CellType", [("macro", 0), ("micro", 1), ("pico", 2), ("femto", 3)]),
  ("ClientType", [("emergency_Services", 0), ("value_Added_Services", 1), ("pLMN_Operator_Services", 2), ("lawful_Intercept_Services", 3), ("pLMN_Operator_Broadcast_Services", 4), ("pLMN_Operator_O_et_M", 5), ("pLMN_Operator_Anonymous_Statistics", 6), ("pLMN_Operator_Target_MS_Service_Support", 7)]),
  ("CriticalityDiagnostics", [("procedureCode", 0), ("triggeringMessage", 1), ("procedureCriticality", 2), ("iEsCriticalityDiagnostics", 3), ("iE_Extensions", 4)]),
  ("CriticalityDiagnostics-IE-List-Value", [("iECriticality", 0), ("iE_ID", 1), ("repetitionNumber", 2), ("iE_Extensions", 3)]),
  ("MessageStructure-Value", [("iE_ID", 0), ("repetitionNumber", 1), ("iE_Extensions", 2)]),
  ("CGI", [("pLMNidentity", 0), ("lAC", 1), ("cI", 2), ("iE_Extensions", 3)]),
  ("CN-DomainIndicator", [("cs_domain", 0), ("ps_domain", 1)]),
  ("CSFB-Information", [("csfb", 0), ("csfb_high_priority", 1)]),
  ("CSG-Membership-Status", [("member", 0), ("non_member", 1)]),
  ("DataPDUType", [("pDUtype0", 0), ("pDUtype1", 1)]),
  ("DataVolumeReportingIndication", [("do_report", 0), ("do_not_report", 1)]),
  ("DeliveryOfErroneousSDU", [("yes", 0), ("no", 1), ("no_error_detection_consideration", 2)]),
  ("DeliveryOrder", [("delivery_order_requested", 0), ("delivery_order_not_requested", 1)]),
  ("DeltaRAListofIdleModeUEs", [("newRAListofIdleModeUEs", 0), ("rAListwithNoIdleModeUEsAnyMore", 1), ("iE_Extensions", 2)]),
  ("ForwardingIndication", [("forwarding_admitted", 0)]),
  ("ENB-ID", [("macroENB_ID", 0), ("homeENB_ID", 1)]),
  ("EncryptionAlgorithm", [("no_encryption", 0), ("standard_UMTS_encryption_algorith_UEA1", 1), ("standard_UMTS_encryption_algorithm_UEA2", 2)]),
  ("EncryptionInformation", [("permittedAlgorithms", 0), ("key", 1), ("iE_Extensions", 2)]),
  ("End-Of-CSFB", [("end_of_CSFB", 0)]),
  ("EquipmentsToBeTraced", [("iMEIlist", 0), ("iMEISVlist", 1), ("iMEIgroup", 2), ("iMEISVgroup", 3)]),
  ("E-UTRAN-Service-Handover", [("handover_to_E_UTRAN_shall_not_be_performed", 0)]),
  ("Event", [("stop_change_of_service_area", 0), ("direct", 1), ("change_of_servicearea", 2), ("stop_direct", 3), ("periodic", 4), ("stop_periodic", 5)]),
  ("Event1F-Parameters", [("measurementQuantity", 0), ("threshold", 1)]),
  ("Event1I-Parameters", [("threshold", 0)]),
  ("FrequenceLayerConvergenceFlag", [("no_FLC_flag", 0)]),
  ("GeographicalArea", [("point", 0), ("pointWithUnCertainty", 1), ("polygon", 2), ("pointWithUncertaintyEllipse", 3), ("pointWithAltitude", 4), ("pointWithAltitudeAndUncertaintyEllipsoid", 5), ("ellipsoidArc", 6)]),
  ("GeographicalCoordinates", [("latitudeSign", 0), ("latitude", 1), ("longitude", 2), ("iE_Extensions", 3)]),
  ("GA-AltitudeAndDirection", [("directionOfAltitude", 0), ("altitude", 1)]),
  ("GA-EllipsoidArc", [("geographicalCoordinates", 0), ("innerRadius", 1), ("uncertaintyRadius", 2), ("offsetAngle", 3), ("includedAngle", 4), ("confidence", 5), ("iE_Extensions", 6)]),
  ("GA-Point", [("geographicalCoordinates", 0), ("iE_Extensions", 1)]),
  ("GA-PointWithAltitude", [("geographicalCoordinates", 0), ("altitudeAndDirection", 1), ("iE_Extensions", 2)]),
  ("GA-PointWithAltitudeAndUncertaintyEllipsoid", [("geographicalCoordinates", 0), ("altitudeAndDirection", 1), ("uncertaintyEllipse", 2), ("uncertaintyAltitude", 3), ("confidence", 4), ("iE_Extensions", 5)]),
  ("GA-PointWithUnCertainty", [("geographicalCoordinates", 0), ("iE_Extensions", 1), ("uncertaintyCode", 2)]),
  ("GA-PointWithUnCertaintyEllipse", [("geographicalCoordinates", 0), ("uncertaintyEllipse", 1), ("confidence", 2), ("iE_Extensions", 3)]),
  ("GA-Polygon-Value", [("geographicalCoordinates", 0), ("iE_Extensions", 1)]),
  ("GA-UncertaintyEllipse", [("uncertaintySemi_major", 0), ("uncertaintySemi_minor", 1), ("orientationOfMajorAxis", 2)]),
  ("GERAN-Cell-ID", [("lAI", 0), ("rAC", 1), ("cI", 2), ("iE_Extensions", 3)]),
  ("GlobalCN-ID", [("pLMNidentity", 0), ("cN_ID", 1)]),
  ("GlobalRNC-ID", [("pLMNidentity", 0), ("rNC_ID", 1)]),
  ("HigherBitratesThan16MbpsFlag", [("allowed", 0), ("not_allowed", 1)]),
  ("IMEIGroup", [("iMEI", 0), ("iMEIMask", 1), ("iE_Extensions", 2)]),
  ("IMEISVGroup", [("iMEISV", 0), ("iMEISVMask", 1), ("iE_Extensions", 2)]),
  ("ImmediateMDT", [("measurementsToActivate", 0), ("m1report", 1), ("m2report", 2), ("iE_Extensions", 3)]),
  ("IncludeVelocity", [("requested", 0)]),
  ("InformationExchangeType", [("transfer", 0), ("request", 1)]),
  ("InformationRequested", [("requestedMBMSIPMulticastAddressandAPNRequest", 0), ("requestedMulticastServiceList", 1)]),
  ("InformationRequestType", [("mBMSIPMulticastAddressandAPNRequest", 0), ("permanentNAS_UE_ID", 1)]),
  ("InformationTransferType", [("rNCTraceInformation", 0)]),
  ("IntegrityProtectionAlgorithm", [("standard_UMTS_integrity_algorithm_UIA1", 0), ("standard_UMTS_integrity_algorithm_UIA2", 1), ("no_value", 15)]),
  ("IntegrityProtectionInformation", [("permittedAlgorithms", 0), ("key", 1), ("iE_Extensions", 2)]),
  ("InterSystemInformationTransferType", [("rIM_Transfer", 0)]),
  ("InterSystemInformation-TransparentContainer", [("downlinkCellLoadInformation", 0), ("uplinkCellLoadInformation", 1), ("iE_Extensions", 2)]),
  ("IuTransportAssociation", [("gTP_TEI", 0), ("bindingID", 1)]),
  ("KeyStatus", [("old", 0), ("new", 1)]),
  ("LA-LIST-Value", [("lAC", 0), ("listOF_SNAs", 1), ("iE_Extensions", 2)]),
  ("LAI", [("pLMNidentity", 0), ("lAC", 1), ("iE_Extensions", 2)]),
  ("LastKnownServiceArea", [("sAI", 0), ("ageOfSAI", 1), ("iE_Extensions", 2)]),
  ("LastVisitedUTRANCell-Item", [("uTRAN_CellID", 0), ("cellType", 1), ("time_UE_StayedInCell", 2), ("iE_Extensions", 3)]),
  ("Links-to-log", [("uplink", 0), ("downlink", 1), ("both_uplink_and_downlink", 2)]),
  ("InterfacesToTraceItem", [("interface", 0), ("iE_Extensions", 1)]),
  ("LocationRelatedDataRequestType", [("requestedLocationRelatedDataType", 0), ("requestedGPSAssistanceData", 1)]),
  ("LocationRelatedDataRequestTypeSpecificToGERANIuMode", [("decipheringKeysEOTD", 0), ("dedicatedMobileAssistedEOTDAssistanceData", 1), ("dedicatedMobileBasedEOTDAssistanceData", 2)]),
  ("LocationReportingTransferInformation", [("reportChangeOfSAI", 0), ("periodicReportingIndicator", 1), ("directReportingIndicator", 2), ("verticalAccuracyCode", 3), ("positioningPriorityChangeSAI", 4), ("positioningPriorityDirect", 5), ("clientTypePeriodic", 6), ("clientTypeDirect", 7), ("responseTime", 8), ("includeVelocity", 9), ("periodicLocationInfo", 10), ("iE_Extensions", 11)]),
  ("ReportChangeOfSAI", [("requested", 0)]),
  ("PeriodicReportingIndicator", [("periodicSAI", 0), ("periodicGeo", 1)]),
  ("DirectReportingIndicator", [("directSAI", 0), ("directGeo", 1)]),
  ("M1Report", [("periodic", 0), ("event1F", 1)]),
  ("M2Report", [("periodic", 0), ("event1I", 1)]),
  ("M4Report", [("all", 0), ("m4_collection_parameters", 1)]),
  ("M4-Collection-Parameters", [("m4_period", 0), ("m4_threshold", 1), ("iE_Extensions", 2)]),
  ("M4-Period", [("ms100", 0), ("ms250", 1), ("ms500", 2), ("ms1000", 3), ("ms2000", 4), ("ms3000", 5), ("ms4000", 6), ("ms6000", 7)]),
  ("M5Report", [("when_available", 0), ("m5_period", 1)]),
  ("M5-Period", [("ms100", 0), ("ms250", 1), ("ms500", 2), ("ms1000", 3), ("ms2000", 4), ("ms3000", 5), ("ms4000", 6), ("ms6000", 7)]),
  ("M6Report", [("m6_period", 0), ("m6_links_to_log", 1), ("iE_Extensions", 2)]),
  ("M6-Period", [("ms1000", 0), ("ms2000", 1), ("ms3000", 2), ("ms4000", 3), ("ms6000", 4), ("ms8000", 5), ("ms12000", 6), ("ms16000", 7), ("ms20000", 8), ("ms24000", 9), ("ms28000", 10), ("ms32000", 11), ("ms64000", 12)]),
  ("M7Report", [("m7_period", 0), ("m7_links_to_log", 1), ("iE_Extensions", 2)]),
  ("M7-Period", [("ms1000", 0), ("ms2000", 1), ("ms3000", 2), ("ms4000", 3), ("ms6000", 4), ("ms8000", 5), ("ms12000", 6), ("ms16000", 7), ("ms20000", 8), ("ms24000", 9), ("ms28000", 10), ("ms32000", 11), ("ms64000", 12)]),
  ("Management-Based-MDT-Allowed", [("allowed", 0)]),
  ("MBMSBearerServiceType", [("multicast", 0), ("broadcast", 1)]),
  ("MBMSCNDe-Registration", [("normalsessionstop", 0), ("deregister", 1)]),
  ("MBMSCountingInformation", [("counting", 0), ("notcounting", 1)]),
  ("MBMSHCIndicator", [("uncompressed_header", 0), ("compressed_header", 1)]),
  ("MBMSLinkingInformation", [("uE_has_joined_multicast_services", 0)]),
  ("MBMSRegistrationRequestType", [("register", 0), ("deregister", 1)]),
  ("MDT-Activation", [("immediateMDTonly", 0), ("loggedMDTonly", 1), ("immediateMDTandTrace", 2)]),
  ("MDTAreaScope", [("cellbased", 0), ("labased", 1), ("rabased", 2), ("plmn_area_based", 3)]),
  ("MDT-Configuration", [("mdtActivation", 0), ("mdtAreaScope", 1), ("mdtMode", 2), ("iE_Extensions", 3)]),
  ("MDTMode", [("immediateMDT", 0), ("loggedMDT", 1)]),
  ("MDT-Report-Parameters", [("reportInterval", 0), ("reportAmount", 1)]),
  ("MeasurementQuantity", [("cpichEcNo", 0), ("cpichRSCP", 1), ("pathloss", 2)]),
  ("NonSearchingIndication", [("non_searching", 0), ("searching", 1)]),
  ("Offload-RAB-Parameters", [("accessPointName", 0), ("chargingCharacteristics", 1), ("iE_Extensions", 2)]),
  ("Out-Of-UTRAN", [("cell_reselection_to_EUTRAN", 0)]),
  ("PagingAreaID", [("lAI", 0), ("rAI", 1)]),
  ("PagingCause", [("terminating_conversational_call", 0), ("terminating_streaming_call", 1), ("terminating_interactive_call", 2), ("terminating_background_call", 3), ("terminating_low_priority_signalling", 4), ("terminating_high_priority_signalling", 5)]),
  ("PDP-Type", [("empty", 0), ("ppp", 1), ("osp_ihoss", 2), ("ipv4", 3), ("ipv6", 4)]),
  ("PDP-Type-extension", [("ipv4_and_ipv6", 0)]),
  ("PeriodicLocationInfo", [("reportingAmount", 0), ("reportingInterval", 1), ("iE_Extensions", 2)]),
  ("PermanentNAS-UE-ID", [("iMSI", 0)]),
  ("LABased", [("laiList", 0), ("iE_Extensions", 1)]),
  ("LoggedMDT", [("loggingInterval", 0), ("loggingDuration", 1), ("iE_Extensions", 2)]),
  ("LoggingInterval", [("s1d28", 0), ("s2d56", 1), ("s5d12", 2), ("s10d24", 3), ("s20d48", 4), ("s30d72", 5), ("s40d96", 6), ("s61d44", 7)]),
  ("LoggingDuration", [("min10", 0), ("min20", 1), ("min40", 2), ("min60", 3), ("min90", 4), ("min120", 5)]),
  ("PLMNs-in-shared-network-Value", [("pLMNidentity", 0), ("lA_LIST", 1), ("iE_Extensions", 2)]),
  ("PositioningPriority", [("high_Priority", 0), ("normal_Priority", 1)]),
  ("PositionData", [("positioningDataDiscriminator", 0), ("positioningDataSet", 1), ("iE_Extensions", 2)]),
  ("Pre-emptionCapability", [("shall_not_trigger_pre_emption", 0), ("may_trigger_pre_emption", 1)]),
  ("Pre-emptionVulnerability", [("not_pre_emptable", 0), ("pre_emptable", 1)]),
  ("PriorityLevel", [("spare", 0), ("highest", 1), ("lowest", 14), ("no_priority", 15)]),
  ("ProvidedData", [("shared_network_information", 0)]),
  ("QueuingAllowed", [("queueing_not_allowed", 0), ("queueing_allowed", 1)]),
  ("RAB-AsymmetryIndicator", [("symmetric_bidirectional", 0), ("asymmetric_unidirectional_downlink", 1), ("asymmetric_unidirectional_uplink", 2), ("asymmetric_bidirectional", 3)]),
  ("RABased", [("raiList", 0), ("iE_Extensions", 1)]),
  ("RABDataVolumeReport-Value", [("dl_UnsuccessfullyTransmittedDataVolume", 0), ("dataVolumeReference", 1), ("iE_Extensions", 2)]),
  ("RAB-Parameters", [("trafficClass", 0), ("rAB_AsymmetryIndicator", 1), ("maxBitrate", 2), ("guaranteedBitRate", 3), ("deliveryOrder", 4), ("maxSDU_Size", 5), ("sDU_Parameters", 6), ("transferDelay", 7), ("trafficHandlingPriority", 8), ("allocationOrRetentionPriority", 9), ("sourceStatisticsDescriptor", 10), ("relocationRequirement", 11), ("iE_Extensions", 12)]),
  ("RABParametersList-Value", [("rab_Id", 0), ("cn_domain", 1), ("rabDataVolumeReport", 2), ("upInformation", 3), ("iE_Extensions", 4)]),
  ("RAB-TrCH-MappingItem", [("rAB_ID", 0), ("trCH_ID_List", 1), ("iE_Extensions", 2)]),
  ("RAI", [("lAI", 0), ("rAC", 1), ("iE_Extensions", 2)]),
  ("RAListofIdleModeUEs", [("notEmptyRAListofIdleModeUEs", 0), ("emptyFullRAListofIdleModeUEs", 1)]),
  ("NotEmptyRAListofIdleModeUEs", [("rAofIdleModeUEs", 0), ("iE_Extensions", 1)]),
  ("RAT-Type", [("utran", 0), ("geran", 1)]),
  ("RateControlAllowed", [("not_allowed", 0), ("allowed", 1)]),
  ("RedirectionCompleted", [("redirection_completed", 0)]),
  ("RejectCauseValue", [("pLMN_Not_Allowed", 0), ("location_Area_Not_Allowed", 1), ("roaming_Not_Allowed_In_This_Location_Area", 2), ("no_Suitable_Cell_In_Location_Area", 3), ("gPRS_Services_Not_Allowed_In_This_PLMN", 4), ("cS_PS_coordination_required", 5), ("network_failure", 6), ("not_authorized_for_this_CSG", 7)]),
  ("RelocationRequirement", [("lossless", 0), ("none", 1), ("realtime", 2)]),
  ("RelocationType", [("ue_not_involved", 0), ("ue_involved", 1)]),
  ("ReportArea", [("service_area", 0), ("geographical_area", 1)]),
  ("ReportInterval", [("ms250", 0), ("ms500", 1), ("ms1000", 2), ("ms2000", 3), ("ms3000", 4), ("ms4000", 5), ("ms6000", 6), ("ms12000", 7), ("ms16000", 8), ("ms20000", 9), ("ms24000", 10), ("ms32000", 11), ("ms64000", 12), ("ms8000", 13), ("ms28000", 14)]),
  ("ReportAmount", [("n1", 0), ("n2", 1), ("n4", 2), ("n8", 3), ("n16", 4), ("n32", 5), ("n64", 6), ("infinity", 7)]),
  ("RequestedLocationRelatedDataType", [("decipheringKeysUEBasedOTDOA", 0), ("decipheringKeysAssistedGPS", 1), ("dedicatedAssistanceDataUEBasedOTDOA", 2), ("dedicatedAssistanceDataAssistedGPS", 3), ("decipheringKeysAssistedGANSS", 4), ("dedicatedAssistanceDataAssistedGANSS", 5), ("decipheringKeysAssistedGPSandGANSS", 6), ("dedicatedAssistanceDataAssistedGPSandGANSS", 7)]),
  ("MBMSIPMulticastAddressandAPNlist", [("tMGI", 0), ("iPMulticastAddress", 1), ("aPN", 2), ("iE_Extensions", 3)]),
  ("Requested-RAB-Parameter-Values", [("requestedMaxBitrates", 0), ("requestedGuaranteedBitrates", 1), ("iE_Extensions", 2)]),
  ("RequestType", [("event", 0), ("reportArea", 1), ("accuracyCode", 2)]),
  ("ResidualBitErrorRatio", [("mantissa", 0), ("exponent", 1), ("iE_Extensions", 2)]),
  ("ResponseTime", [("lowdelay", 0), ("delaytolerant", 1)]),
  ("RIM-Transfer", [("rIMInformation", 0), ("rIMRoutingAddress", 1), ("iE_Extensions", 2)]),
  ("RIMRoutingAddress", [("targetRNC_ID", 0), ("gERAN_Cell_ID", 1), ("targeteNB_ID", 2)]),
  ("RNCTraceInformation", [("traceReference", 0), ("traceActivationIndicato", 1), ("equipmentsToBeTraced", 2), ("iE_Extensions", 3)]),
  ("RNSAPRelocationParameters", [("rabParmetersList", 0), ("locationReporting", 1), ("traceInformation", 2), ("sourceSAI", 3), ("iE_Extensions", 4)]),
  ("RSRVCC-HO-Indication", [("ps_only", 0)]),
  ("RSRVCC-Information", [("nonce", 0), ("iMSInformation", 1), ("iE_Extensions", 2)]),
  ("RSRVCC-Operation-Possible", [("rsrvcc_possible", 0)]),
  ("SAI", [("pLMNidentity", 0), ("lAC", 1), ("sAC", 2), ("iE_Extensions", 3)]),
  ("SAPI", [("sapi_0", 0), ("sapi_3", 1)]),
  ("Shared-Network-Information", [("pLMNs_in_shared_network", 0), ("iE_Extensions", 1)]),
  ("Session-Re-establishment-Indicator", [("true", 0)]),
  ("SignallingIndication", [("signalling", 0)]),
  ("SDU-ErrorRatio", [("mantissa", 0), ("exponent", 1), ("iE_Extensions", 2)]),
  ("SDU-FormatInformationParameterItem", [("subflowSDU_Size", 0), ("rAB_SubflowCombinationBitRate", 1), ("iE_Extensions", 2)]),
  ("SDU-ParameterItem", [("sDU_ErrorRatio", 0), ("residualBitErrorRatio", 1), ("deliveryOfErroneousSDU", 2), ("sDU_FormatInformationParameters", 3), ("iE_Extensions", 4)]),
  ("SNA-Access-Information", [("authorisedPLMNs", 0), ("iE_Extensions", 1)]),
  ("Service-Handover", [("handover_to_GSM_should_be_performed", 0), ("handover_to_GSM_should_not_be_performed", 1), ("handover_to_GSM_shall_not_be_performed", 2)]),
  ("SourceCellID", [("sourceUTRANCellID", 0), ("sourceGERANCellID", 1)]),
  ("SourceID", [("sourceRNC_ID", 0), ("sAI", 1)]),
  ("SourceRNC-ID", [("pLMNidentity", 0), ("rNC_ID", 1), ("iE_Extensions", 2)]),
  ("SourceRNC-ToTargetRNC-TransparentContainer", [("rRC_Container", 0), ("numberOfIuInstances", 1), ("relocationType", 2), ("chosenIntegrityProtectionAlgorithm", 3), ("integrityProtectionKey", 4), ("chosenEncryptionAlgorithForSignalling", 5), ("cipheringKey", 6), ("chosenEncryptionAlgorithForCS", 7), ("chosenEncryptionAlgorithForPS", 8), ("d_RNTI", 9), ("targetCellId", 10), ("rAB_TrCH_Mapping", 11), ("iE_Extensions", 12)]),
  ("IRAT-Measurement-Configuration", [("rSRP", 0), ("rSRQ", 1), ("iRATmeasurementParameters", 2), ("iE_Extensions", 3)]),
  ("IRATmeasurementParameters", [("measurementDuration", 0), ("eUTRANFrequencies", 1), ("iE_Extensions", 2)]),
  ("RSRQ-Type", [("allSymbols", 0), ("wideBand", 1)]),
  ("EUTRANFrequencies-Value", [("earfcn", 0), ("measBand", 1), ("iE_Extensions", 2)]),
  ("MeasBand", [("v6", 0), ("v15", 1), ("v25", 2), ("v50", 3), ("v75", 4), ("v100", 5)]),
  ("SourceStatisticsDescriptor", [("speech", 0), ("unknown", 1)]),
  ("SourceUTRANCellID", [("pLMNidentity", 0), ("uTRANcellID", 1), ("iE_Extensions", 2)]),
  ("SRB-TrCH-MappingItem", [("sRB_ID", 0), ("trCH_ID", 1), ("iE_Extensions", 2)]),
  ("SRVCC-HO-Indication", [("ps_and_cs", 0), ("cs_only", 1)]),
  ("SRVCC-Information", [("nonce", 0), ("iE_Extensions", 1)]),
  ("SRVCC-Operation-Possible", [("srvcc_possible", 0)]),
  ("TAI", [("pLMNidentity", 0), ("tAC", 1), ("iE_Extensions", 2)]),
  ("TargetID", [("targetRNC_ID", 0), ("cGI", 1), ("targeteNB_ID", 2)]),
  ("TargetENB-ID", [("pLMNidentity", 0), ("eNB_ID", 1), ("iE_Extensions", 2), ("selectedTAI", 3)]),
  ("TargetRNC-ID", [("lAI", 0), ("rAC", 1), ("rNC_ID", 2), ("iE_Extensions", 3)]),
  ("TargetRNC-ToSourceRNC-TransparentContainer", [("rRC_Container", 0), ("d_RNTI", 1), ("iE_Extensions", 2)]),
  ("TemporaryUE-ID", [("tMSI", 0), ("p_TMSI", 1)]),
  ("TMGI", [("pLMNidentity", 0), ("serviceID", 1), ("iE_Extensions", 2)]),
  ("TraceDepth", [("minimum", 0), ("medium", 1), ("maximum", 2)]),
  ("TraceInformation", [("traceReference", 0), ("ue_identity", 1), ("tracePropagationParameters", 2), ("iE_Extensions", 3)]),
  ("TracePropagationParameters", [("traceRecordingSessionReference", 0), ("traceDepth", 1), ("listOfInterfacesToTrace", 2), ("iE_Extensions", 3)]),
  ("TraceRecordingSessionInformation", [("traceReference", 0), ("traceRecordingSessionReference", 1), ("iE_Extensions", 2)]),
  ("TrafficClass", [("conversational", 0), ("streaming", 1), ("interactive", 2), ("background", 3)]),
  ("TrafficHandlingPriority", [("spare", 0), ("highest", 1), ("lowest", 14), ("no_priority_used", 15)]),
  ("TrCH-ID", [("dCH_ID", 0), ("dSCH_ID", 1), ("uSCH_ID", 2), ("iE_Extensions", 3)]),
  ("TunnelInformation", [("transportLayerAddress", 0), ("uDP_Port_Number", 1), ("iE_Extensions", 2)]),
  ("TypeOfError", [("not_understood", 0), ("missing", 1)]),
  ("UE-AggregateMaximumBitRate", [("uE_AggregateMaximumBitRateDownlink", 0), ("uE_AggregateMaximumBitRateUplink", 1)]),
  ("UE-ID", [("imsi", 0), ("imei", 1), ("imeisv", 2)]),
  ("UESBI-Iu", [("uESBI_IuA", 0), ("uESBI_IuB", 1), ("iE_Extensions", 2)]),
  ("UPInformation", [("frameSeqNoUL", 0), ("frameSeqNoDL", 1), ("pdu14FrameSeqNoUL", 2), ("pdu14FrameSeqNoDL", 3), ("dataPDUType", 4), ("upinitialisationFrame", 5), ("iE_Extensions", 6)]),
  ("UserPlaneMode", [("transparent_mode", 0), ("support_mode_for_predefined_SDU_sizes", 1)]),
  ("UTRAN-CellID", [("pLMNidentity", 0), ("cellID", 1), ("iE_Extensions", 2)]),
  ("VelocityEstimate", [("horizontalVelocity", 0), ("horizontalWithVerticalVelocity", 1), ("horizontalVelocityWithUncertainty", 2), ("horizontalWithVeritcalVelocityAndUncertainty", 3)]),
  ("HorizontalVelocity", [("horizontalSpeedAndBearing", 0), ("iE_Extensions", 1)]),
  ("HorizontalWithVerticalVelocity", [("horizontalSpeedAndBearing", 0), ("veritcalVelocity", 1), ("iE_Extensions", 2)]),
  ("HorizontalVelocityWithUncertainty", [("horizontalSpeedAndBearing", 0), ("uncertaintySpeed", 1), ("iE_Extensions", 2)]),
  ("HorizontalWithVerticalVelocityAndUncertainty", [("horizontalSpeedAndBearing", 0), ("veritcalVelocity", 1), ("horizontalUncertaintySpeed", 2), ("verticalUncertaintySpeed", 3), ("iE_Extensions", 4)]),
  ("HorizontalSpeedAndBearing", [("bearing", 0), ("horizontalSpeed", 1)]),
  ("VerticalVelocity", [("veritcalSpeed", 0), ("veritcalSpeedDirection", 1)]),
  ("VerticalSpeedDirection", [("upward", 0), ("downward", 1)]),
  ("VoiceSupportMatchIndicator", [("supported", 0), ("not_supported", 1)]),
  ("RAB-DataVolumeReportItem", [("rAB_ID", 0), ("dl_UnsuccessfullyTransmittedDataVolume", 1), ("iE_Extensions", 2)]),
  ("RAB-ReleasedItem-IuRelComp", [("rAB_ID", 0), ("dL_GTP_PDU_SequenceNumber", 1), ("uL_GTP_PDU_SequenceNumber", 2), ("iE_Extensions", 3)]),
  ("RAB-RelocationReleaseItem", [("rAB_ID", 0), ("iE_Extensions", 1)]),
  ("RAB-DataForwardingItem", [("rAB_ID", 0), ("transportLayerAddress", 1), ("iuTransportAssociation", 2), ("iE_Extensions", 3)]),
  ("RAB-SetupItem-RelocReq", [("rAB_ID", 0), ("nAS_SynchronisationIndicator", 1), ("rAB_Parameters", 2), ("dataVolumeReportingIndication", 3), ("pDP_TypeInformation", 4), ("userPlaneInformation", 5), ("transportLayerAddress", 6), ("iuTransportAssociation", 7), ("service_Handover", 8), ("iE_Extensions", 9)]),
  ("UserPlaneInformation", [("userPlaneMode", 0), ("uP_ModeVersions", 1), ("iE_Extensions", 2)]),
  ("CNMBMSLinkingInformation", [("joinedMBMSBearerService_IEs", 0), ("iE_Extensions", 1)]),
  ("JoinedMBMSBearerService-IEs-Value", [("tMGI", 0), ("mBMS_PTP_RAB_ID", 1), ("iE_Extensions", 2)]),
  ("RAB-SetupItem-RelocReqAck", [("rAB_ID", 0), ("transportLayerAddress", 1), ("iuTransportAssociation", 2), ("iE_Extensions", 3)]),
  ("RAB-FailedItem", [("rAB_ID", 0), ("cause", 1), ("iE_Extensions", 2)]),
  ("RAB-DataForwardingItem-SRNS-CtxReq", [("rAB_ID", 0), ("iE_Extensions", 1)]),
  ("RAB-ContextItem", [("rAB_ID", 0), ("dl_GTP_PDU_SequenceNumber", 1), ("ul_GTP_PDU_SequenceNumber", 2), ("dl_N_PDU_SequenceNumber", 3), ("ul_N_PDU_SequenceNumber", 4), ("iE_Extensions", 5)]),
  ("RABs-ContextFailedtoTransferItem", [("rAB_ID", 0), ("cause", 1), ("iE_Extensions", 2)]),
  ("RAB-DataVolumeReportRequestItem", [("rAB_ID", 0), ("iE_Extensions", 1)]),
  ("RABs-failed-to-reportItem", [("rAB_ID", 0), ("cause", 1), ("iE_Extensions", 2)]),
  ("ResetResourceItem", [("iuSigConId", 0), ("iE_Extensions", 1)]),
  ("ResetResourceAckItem", [("iuSigConId", 0), ("iE_Extensions", 1)]),
  ("RAB-ReleaseItem", [("rAB_ID", 0), ("cause", 1), ("iE_Extensions", 2)]),
  ("RAB-SetupItem-EnhancedRelocCompleteReq", [("rAB_ID", 0), ("transportLayerAddressReq1", 1), ("iuTransportAssociationReq1", 2), ("ass_RAB_Parameters", 3), ("iE_Extensions", 4)]),
  ("RAB-SetupItem-EnhancedRelocCompleteRes", [("rAB_ID", 0), ("rAB_Parameters", 1), ("userPlaneInformation", 2), ("transportLayerAddressRes1", 3), ("iuTransportAssociationRes1", 4), ("rab2beReleasedList", 5), ("iE_Extensions", 6)]),
  ("RAB-ToBeReleasedItem-EnhancedRelocCompleteRes", [("rAB_ID", 0), ("cause", 1), ("iE_Extensions", 2)]),
  ("RAB-SetupOrModifyItemFirst", [("rAB_ID", 0), ("nAS_SynchronisationIndicator", 1), ("rAB_Parameters", 2), ("userPlaneInformation", 3), ("transportLayerInformation", 4), ("service_Handover", 5), ("iE_Extensions", 6)]),
  ("TransportLayerInformation", [("transportLayerAddress", 0), ("iuTransportAssociation", 1), ("iE_Extensions", 2)]),
  ("RAB-SetupOrModifyItemSecond", [("pDP_TypeInformation", 0), ("dataVolumeReportingIndication", 1), ("dl_GTP_PDU_SequenceNumber", 2), ("ul_GTP_PDU_SequenceNumber", 3), ("dl_N_PDU_SequenceNumber", 4), ("ul_N_PDU_SequenceNumber", 5), ("iE_Extensions", 6)]),
  ("RAB-SetupOrModifiedItem", [("rAB_ID", 0), ("transportLayerAddress", 1), ("iuTransportAssociation", 2), ("dl_dataVolumes", 3), ("iE_Extensions", 4)]),
  ("RAB-ReleasedItem", [("rAB_ID", 0), ("dl_dataVolumes", 1), ("dL_GTP_PDU_SequenceNumber", 2), ("uL_GTP_PDU_SequenceNumber", 3), ("iE_Extensions", 4)]),
  ("DataVolumeList-Value", [("dl_UnsuccessfullyTransmittedDataVolume", 0), ("dataVolumeReference", 1), ("iE_Extensions", 2)]),
  ("RAB-QueuedItem", [("rAB_ID", 0), ("iE_Extensions", 1)]),
  ("GERAN-Iumode-RAB-Failed-RABAssgntResponse-Item", [("rAB_ID", 0), ("cause", 1), ("gERAN_Classmark", 2), ("iE_Extensions", 3)]),
  ("DirectTransferInformationItem-RANAP-RelocInf", [("nAS_PDU", 0), ("sAPI", 1), ("cN_DomainIndicator", 2), ("iE_Extensions", 3)]),
  ("RAB-ContextItem-RANAP-RelocInf", [("rAB_ID", 0), ("dl_GTP_PDU_SequenceNumber", 1), ("ul_GTP_PDU_SequenceNumber", 2), ("dl_N_PDU_SequenceNumber", 3), ("ul_N_PDU_SequenceNumber", 4), ("iE_Extensions", 5)]),
  ("RAB-SetupItem-EnhRelocInfoReq", [("rAB_ID", 0), ("cN_DomainIndicator", 1), ("rAB_Parameters", 2), ("dataVolumeReportingIndication", 3), ("pDP_TypeInformation", 4), ("userPlaneInformation", 5), ("dataForwardingInformation", 6), ("sourceSideIuULTNLInfo", 7), ("service_Handover", 8), ("alt_RAB_Parameters", 9), ("iE_Extensions", 10)]),
  ("TNLInformationEnhRelInfoReq", [("transportLayerAddress", 0), ("iuTransportAssociation", 1), ("iE_Extensions", 2)]),
  ("RAB-SetupItem-EnhRelocInfoRes", [("cN_DomainIndicator", 0), ("rAB_ID", 1), ("dataForwardingInformation", 2), ("ass_RAB_Parameters", 3), ("iE_Extensions", 4)]),
  ("RAB-FailedItem-EnhRelocInfoRes", [("cN_DomainIndicator", 0), ("rAB_ID", 1), ("cause", 2), ("iE_Extensions", 3)]),
  ("TNLInformationEnhRelInfoRes", [("dl_forwardingTransportLayerAddress", 0), ("dl_forwardingTransportAssociation", 1), ("iE_Extensions", 2)]),
  ("RAB-ModifyItem", [("rAB_ID", 0), ("requested_RAB_Parameter_Values", 1), ("iE_Extensions", 2)]),
  ("MBMSSynchronisationInformation", [("mBMSHCIndicator", 0), ("iPMulticastAddress", 1), ("gTPDLTEID", 2), ("iE_Extensions", 3)]),
  ("LeftMBMSBearerService-IEs-Value", [("tMGI", 0), ("iE_Extensions", 1)]),
  ("UnsuccessfulLinking-IEs-Value", [("tMGI", 0), ("cause", 1), ("iE_Extensions", 2)]),
  ("RANAP-PDU", [("initiatingMessage", 0), ("successfulOutcome", 1), ("unsuccessfulOutcome", 2), ("outcome", 3)]),
  ("InitiatingMessage", [("procedureCode", 0), ("criticality", 1), ("value", 2)]),
  ("SuccessfulOutcome", [("procedureCode", 0), ("criticality", 1), ("value", 2)]),
  ("UnsuccessfulOutcome", [("procedureCode", 0), ("criticality", 1), ("value", 2)]),
  ("Outcome", [("procedureCode", 0), ("criticality", 1), ("value", 2)])]

/-- asn1/rua/*.asn -/
def ruaAsn : List (String × List (String × Int)) := [
  ("Criticality", [("reject", 0), ("ignore", 1), ("notify", 2)]),
  ("Presence", [("optional", 0), ("conditional", 1), ("mandatory", 2)]),
  ("ProcedureCode", [("id_Connect", 1), ("id_DirectTransfer", 2), ("id_Disconnect", 3), ("id_ConnectionlessTransfer", 4), ("id_ErrorIndication", 5), ("id_privateMessage", 6)]),
  ("PrivateIE-ID", [("local", 0), ("global", 1)]),
  ("ProtocolIE-ID", [("id_Cause", 1), ("id_CriticalityDiagnostics", 2), ("id_Context_ID", 3), ("id_RANAP_Message", 4), ("id_IntraDomainNasNodeSelector", 5), ("id_Establishment_Cause", 6), ("id_CN_DomainIndicator", 7), ("id_CSGMembershipStatus", 9)]),
  ("TriggeringMessage", [("initiating_message", 0), ("successful_outcome", 1), ("unsuccessful_outcome", 2)]),
  ("CN-DomainIndicator", [("cs_domain", 0), ("ps_domain", 1)]),
  ("CSGMembershipStatus", [("member", 0), ("non_member", 1)]),
  ("Establishment-Cause", [("emergency_call", 0), ("normal_call", 1)]),
  ("IntraDomainNasNodeSelector", [("version", 0)]),
  ("Gsm-map-IDNNS", [("routingbasis", 0), ("dummy", 1)]),
  ("Cause", [("radioNetwork", 0), ("transport", 1), ("protocol", 2), ("misc", 3)]),
  ("CauseRadioNetwork", [("normal", 0), ("connect_failed", 1), ("network_release", 2), ("unspecified", 3)]),
  ("CauseTransport", [("transport_resource_unavailable", 0), ("unspecified", 1)]),
  ("CauseProtocol", [("transfer_syntax_error", 0), ("abstract_syntax_error_reject", 1), ("abstract_syntax_error_ignore_and_notify", 2), ("message_not_compatible_with_receiver_state", 3), ("semantic_error", 4), ("unspecified", 5), ("abstract_syntax_error_falsely_constructed_message", 6)]),
  ("CauseMisc", [("processing_overload", 0), ("hardware_failure", 1), ("o_and_m_intervention", 2), ("unspecified", 3)]),
  ("CriticalityDiagnostics", [("procedureCode", 0), ("triggeringMessage", 1), ("procedureCriticality", 2), ("iEsCriticalityDiagnostics", 3), ("iE_Extensions", 4)]),
  ("CriticalityDiagnostics-IE-List-Value", [("iECriticality", 0), ("iE_ID", 1), ("typeOfError", 2), ("iE_Extensions", 3)]),
  ("TypeOfError", [("not_understood", 0), ("missing", 1)]),
  ("RUA-PDU", [("initiatingMessage", 0), ("successfulOutcome", 1), ("unsuccessfulOutcome", 2)]),
  ("InitiatingMessage", [("procedureCode", 0), ("criticality", 1), ("value", 2)]),
  ("SuccessfulOutcome", [("procedureCode", 0), ("criticality", 1), ("value", 2)]),
  ("UnsuccessfulOutcome", [("procedureCode", 0), ("criticality", 1), ("value", 2)])]

/-- src/rua/*.c, include/osmocom/rua/*.h -/
def ruaC : List (String × List (String × Int)) := [
  ("Criticality", [("reject", 0), ("ignore", 1), ("notify", 2)]),
  ("Presence", [("optional", 0), ("conditional", 1), ("mandatory", 2)]),
  ("ProcedureCode", [("id_Connect", 1), ("id_DirectTransfer", 2), ("id_Disconnect", 3), ("id_ConnectionlessTransfer", 4), ("id_ErrorIndication", 5), ("id_privateMessage", 6)]),
  ("PrivateIE-ID", [("local", 0), ("global", 1)]),
  ("ProtocolIE-ID", [("id_Cause", 1), ("id_CriticalityDiagnostics", 2), ("id_Context_ID", 3), ("id_RANAP_Message", 4), ("id_IntraDomainNasNodeSelector", 5), ("id_Establishment_Cause", 6), ("id_CN_DomainIndicator", 7), ("id_CSGMembershipStatus", 9)]),
  ("TriggeringMessage", [("initiating_message", 0), ("successful_outcome", 1), ("unsuccessful_outcome", 2)]),
  ("CN-DomainIndicator", [("cs_domain", 0), ("ps_domain", 1)]),
  ("CSGMembershipStatus", [("member", 0), ("non_member", 1)]),
  ("Establishment-Cause", [("emergency_call", 0), ("normal_call", 1)]),
  ("IntraDomainNasNodeSelector", [("version", 0)]),
  ("Gsm-map-IDNNS", [("routingbasis", 0), ("dummy", 1)]),
  ("Cause", [("radioNetwork", 0), ("transport", 1), ("protocol", 2), ("misc", 3)]),
  ("CauseRadioNetwork", [("normal", 0), ("connect_failed", 1), ("network_release", 2), ("unspecified", 3)]),
  ("CauseTransport", [("transport_resource_unavailable", 0), ("unspecified", 1)]),
  ("CauseProtocol", [("transfer_syntax_error", 0), ("abstract_syntax_error_reject", 1), ("abstract_syntax_error_ignore_and_notify", 2), ("message_not_compatible_with_receiver_state", 3), ("semantic_error", 4), ("unspecified", 5), ("abstract_syntax_error_falsely_constructed_message", 6)]),
  ("CauseMisc", [("processing_overload", 0), ("hardware_failure", 1), ("o_and_m_intervention", 2), ("unspecified", 3)]),
  ("CriticalityDiagnostics", [("procedureCode", 0), ("triggeringMessage", 1), ("procedureCriticality", 2), ("iEsCriticalityDiagnostics", 3), ("iE_Extensions", 4)]),
  ("CriticalityDiagnostics-IE-List-Value", [("iECriticality", 0), ("iE_ID", 1), ("typeOfError", 2), ("iE_Extensions", 3)]),
  ("TypeOfError", [("not_understood", 0), ("missing", 1)]),
  ("RUA-PDU", [("initiatingMessage", 0), ("successfulOutcome", 1), ("unsuccessfulOutcome", 2)]),
  ("InitiatingMessage", [("procedureCode", 0), ("criticality", 1), ("value", 2)]),
  ("SuccessfulOutcome", [("procedureCode", 0), ("criticality", 1), ("value", 2)]),
  ("UnsuccessfulOutcome", [("procedureCode", 0), ("criticality", 1), ("value", 2)])]

/-- asn1/hnbap/*.asn -/
def hnbapAsn : List (String × List (String × Int)) := [
  ("Criticality", [("reject", 0), ("ignore", 1), ("notify", 2)]),
  ("Presence", [("optional", 0), ("conditional", 1), ("mandatory", 2)]),
  ("PrivateIE-ID", [("local", 0), ("global", 1)]),
  ("ProcedureCode", [("id_HNBRegister", 1), ("id_HNBDe_Register", 2), ("id_UERegister", 3), ("id_UEDe_Register", 4), ("id_ErrorIndication", 5), ("id_privateMessage", 6), ("id_CSGMembershipUpdate", 7), ("id_TNLUpdate", 9), ("id_HNBConfigTransfer", 10), ("id_RelocationComplete", 11), ("id_U_RNTIQuery", 14)]),
  ("ProtocolIE-ID", [("id_Cause", 1), ("id_CriticalityDiagnostics", 2), ("id_HNB_Identity", 3), ("id_Context_ID", 4), ("id_UE_Identity", 5), ("id_LAC", 6), ("id_RAC", 7), ("id_HNB_Location_Information", 8), ("id_PLMNidentity", 9), ("id_SAC", 10), ("id_CellIdentity", 11), ("id_Registration_Cause", 12), ("id_UE_Capabilities", 13), ("id_RNC_ID", 14), ("id_CSG_ID", 15), ("id_BackoffTimer", 16), ("id_HNB_Internet_Information", 17), ("id_HNB_Cell_Access_Mode", 18), ("id_MuxPortNumber", 19), ("id_Service_Area_For_Broadcast", 20), ("id_CSGMembershipStatus", 21), ("id_RABList", 22), ("id_HNBConfigInfo", 23), ("id_AccessResult", 25), ("id_Update_cause", 26), ("id_NeighbourInfoList", 27), ("id_NeighbourInfoRequestList", 28), ("id_Iurh_Signalling_TNL_Address", 29), ("id_PSC", 30), ("id_HNB_Cell_Identifier", 31), ("id_Tunnel_Information", 41), ("id_CELL_FACHMobilitySupport", 42), ("id_S_RNTIPrefix", 43), ("id_URAIdentity", 44), ("id_NeighbourIdentity", 45), ("id_HNBCapacity", 46), ("id_NeighbourCellIdentityList", 47), ("id_AdditionalNeighbourInfoList", 48), ("id_U_RNTI", 49), ("id_UnknownU_RNTIIndication", 50), ("id_HNB_GWResponse", 51), ("id_URAIdentityList", 52)]),
  ("TriggeringMessage", [("initiating_message", 0), ("successful_outcome", 1), ("unsuccessful_outcome", 2)]),
  ("Access-stratum-release-indicator", [("r99", 0), ("rel_4", 1), ("rel_5", 2), ("rel_6", 3), ("rel_7", 4), ("rel_8_and_beyond", 5)]),
  ("AccessResult", [("allowed", 0), ("notAllowed", 1)]),
  ("AltitudeAndDirection", [("directionOfAltitude", 0), ("altitude", 1)]),
  ("Cause", [("radioNetwork", 0), ("transport", 1), ("protocol", 2), ("misc", 3)]),
  ("CauseRadioNetwork", [("overload", 0), ("unauthorised_Location", 1), ("unauthorised_HNB", 2), ("hNB_parameter_mismatch", 3), ("invalid_UE_identity", 4), ("uE_not_allowed_on_this_HNB", 5), ("uE_unauthorised", 6), ("connection_with_UE_lost", 7), ("ue_RRC_release", 8), ("hNB_not_registered", 9), ("unspecified", 10), ("normal", 11), ("uE_relocated", 12), ("ue_registered_in_another_HNB", 13), ("no_neighbour_information_available", 14), ("iurh_connection_to_that_neighbour_not_Allowed", 15)]),
  ("CauseTransport", [("transport_resource_unavailable", 0), ("unspecified", 1)]),
  ("CauseProtocol", [("transfer_syntax_error", 0), ("abstract_syntax_error_reject", 1), ("abstract_syntax_error_ignore_and_notify", 2), ("message_not_compatible_with_receiver_state", 3), ("semantic_error", 4), ("unspecified", 5), ("abstract_syntax_error_falsely_constructed_message", 6)]),
  ("CauseMisc", [("processing_overload", 0), ("hardware_failure", 1), ("o_and_m_intervention", 2), ("unspecified", 3)]),
  ("CELL-FACHMobilitySupport", [("supported", 0)]),
  ("CriticalityDiagnostics", [("procedureCode", 0), ("triggeringMessage", 1), ("procedureCriticality", 2), ("iEsCriticalityDiagnostics", 3), ("iE_Extensions", 4)]),
  ("CriticalityDiagnostics-IE-List-Value", [("iECriticality", 0), ("iE_ID", 1), ("typeOfError", 2), ("iE_Extensions", 3)]),
  ("CSG-Capability", [("csg_capable", 0), ("not_csg_capable", 1)]),
  ("CSGMembershipStatus", [("member", 0), ("non_member", 1)]),
  ("CGI", [("pLMNidentity", 0), ("lAC", 1), ("cI", 2), ("iE_Extensions", 3)]),
  ("CN-DomainIndicator", [("cs_domain", 0), ("ps_domain", 1)]),
  ("GeographicalLocation", [("geographicalCoordinates", 0), ("altitudeAndDirection", 1), ("iE_Extensions", 2)]),
  ("GeographicalCoordinates", [("latitudeSign", 0), ("latitude", 1), ("longitude", 2), ("iE_Extensions", 3)]),
  ("HNB-Cell-Access-Mode", [("closed", 0), ("hybrid", 1), ("open", 2)]),
  ("HNB-Cell-Identifier", [("pLMNidentity", 0), ("cellIdentity", 1), ("iE_Extensions", 2)]),
  ("HNB-GWResponse", [("hNB", 0), ("macroRNC", 1), ("unknownU_RNTIIndication", 2)]),
  ("HNB-RNL-Identity", [("hNB_Identity_as_Cell_Identifier", 0)]),
  ("HNBConfigInfo", [("hnb_RNL_Identity", 0), ("configurationInformation", 1), ("iE_Extensions", 2)]),
  ("ConfigurationInformation", [("provided", 0), ("missing", 1)]),
  ("HNBConfigurationInformationProvided", [("psc", 0), ("cSG_ID", 1), ("hNB_Cell_Access_Mode", 2), ("iurh_Signalling_TNL_AddressList", 3), ("iE_Extensions", 4)]),
  ("HNBConfigurationInformationMissing", [("cause", 0), ("iE_Extensions", 1)]),
  ("HNB-Location-Information", [("macroCoverageInfo", 0), ("geographicalCoordinates", 1), ("iE_Extensions", 2)]),
  ("HNB-Identity", [("hNB_Identity_Info", 0), ("iE_Extensions", 1)]),
  ("IMSIESN", [("iMSIDS41", 0), ("eSN", 1)]),
  ("IP-Address", [("ipaddress", 0), ("iE_Extensions", 1)]),
  ("LAI", [("pLMNID", 0), ("lAC", 1)]),
  ("MacroCoverageInformation", [("cellIdentity", 0), ("iE_Extensions", 1)]),
  ("MacroCellID", [("uTRANCellID", 0), ("gERANCellID", 1)]),
  ("NeighbourIdentity", [("hNB_RNL_Identity", 0), ("cell_ID", 1)]),
  ("NeighbourInfoRequestItem", [("hnb_RNL_Identity", 0), ("iE_Extensions", 1)]),
  ("PTMSIRAI", [("pTMSI", 0), ("rAI", 1)]),
  ("RABListItem", [("rAB_ID", 0), ("old_transport_Info", 1), ("new_transport_Info", 2), ("cn_domain_indicator", 3), ("iE_Extensions", 4)]),
  ("RAI", [("lAI", 0), ("rAC", 1)]),
  ("Registration-Cause", [("emergency_call", 0), ("normal", 1), ("ue_relocation", 2)]),
  ("TMSILAI", [("tMSI", 0), ("lAI", 1)]),
  ("TransportInfo", [("transportLayerAddress", 0), ("transportAssociation", 1), ("iE_Extensions", 2)]),
  ("Tunnel-Information", [("iP_Address", 0), ("uDP_Port_Number", 1), ("iE_Extensions", 2)]),
  ("TypeOfError", [("not_understood", 0), ("missing", 1)]),
  ("UE-Capabilities", [("access_stratum_release_indicator", 0), ("csg_capability", 1), ("iE_Extensions", 2)]),
  ("UTRANCellID", [("lAC", 0), ("rAC", 1), ("pLMNidentity", 2), ("uTRANcellID", 3), ("iE_Extensions", 4)]),
  ("UE-Identity", [("iMSI", 0), ("tMSILAI", 1), ("pTMSIRAI", 2), ("iMEI", 3), ("eSN", 4), ("iMSIDS41", 5), ("iMSIESN", 6), ("tMSIDS41", 7)]),
  ("Update-cause", [("relocation_preparation", 0)]),
  ("UnknownU-RNTIIndication", [("unknown", 0)]),
  ("HNBAP-PDU", [("initiatingMessage", 0), ("successfulOutcome", 1), ("unsuccessfulOutcome", 2)]),
  ("InitiatingMessage", [("procedureCode", 0), ("criticality", 1), ("value", 2)]),
  ("SuccessfulOutcome", [("procedureCode", 0), ("criticality", 1), ("value", 2)]),
  ("UnsuccessfulOutcome", [("procedureCode", 0), ("criticality", 1), ("value", 2)])]

/-- src/hnbap/*.c, include/osmocom/hnbap/*.h -/
def hnbapC : List (String × List (String × Int)) := [
  ("Criticality", [("reject", 0), ("ignore", 1), ("notify", 2)]),
  ("Presence", [("optional", 0), ("conditional", 1), ("mandatory", 2)]),
  ("PrivateIE-ID", [("local", 0), ("global", 1)]),
  ("ProcedureCode", [("id_HNBRegister", 1), ("id_HNBDe_Register", 2), ("id_UERegister", 3), ("id_UEDe_Register", 4), ("id_ErrorIndication", 5), ("id_privateMessage", 6), ("id_CSGMembershipUpdate", 7), ("id_TNLUpdate", 9), ("id_HNBConfigTransfer", 10), ("id_RelocationComplete", 11), ("id_U_RNTIQuery", 14)]),
  ("ProtocolIE-ID", [("id_Cause", 1), ("id_CriticalityDiagnostics", 2), ("id_HNB_Identity", 3), ("id_Context_ID", 4), ("id_UE_Identity", 5), ("id_LAC", 6), ("id_RAC", 7), ("id_HNB_Location_Information", 8), ("id_PLMNidentity", 9), ("id_SAC", 10), ("id_CellIdentity", 11), ("id_Registration_Cause", 12), ("id_UE_Capabilities", 13), ("id_RNC_ID", 14), ("id_CSG_ID", 15), ("id_BackoffTimer", 16), ("id_HNB_Internet_Information", 17), ("id_HNB_Cell_Access_Mode", 18), ("id_MuxPortNumber", 19), ("id_Service_Area_For_Broadcast", 20), ("id_CSGMembershipStatus", 21), ("id_RABList", 22), ("id_HNBConfigInfo", 23), ("id_AccessResult", 25), ("id_Update_cause", 26), ("id_NeighbourInfoList", 27), ("id_NeighbourInfoRequestList", 28), ("id_Iurh_Signalling_TNL_Address", 29), ("id_PSC", 30), ("id_HNB_Cell_Identifier", 31), ("id_Tunnel_Information", 41), ("id_CELL_FACHMobilitySupport", 42), ("id_S_RNTIPrefix", 43), ("id_URAIdentity", 44), ("id_NeighbourIdentity", 45), ("id_HNBCapacity", 46), ("id_NeighbourCellIdentityList", 47), ("id_AdditionalNeighbourInfoList", 48), ("id_U_RNTI", 49), ("id_UnknownU_RNTIIndication", 50), ("id_HNB_GWResponse", 51), ("id_URAIdentityList", 52)]),
  ("TriggeringMessage", [("initiating_message", 0), ("successful_outcome", 1), ("unsuccessful_outcome", 2)]),
  ("Access-stratum-release-indicator", [("r99", 0), ("rel_4", 1), ("rel_5", 2), ("rel_6", 3), ("rel_7", 4), ("rel_8_and_beyond", 5)]),
  ("AccessResult", [("allowed", 0), ("notAllowed", 1)]),
  ("AltitudeAndDirection", [("directionOfAltitude", 0), ("altitude", 1)]),
  ("Cause", [("radioNetwork", 0), ("transport", 1), ("protocol", 2), ("misc", 3)]),
  ("CauseRadioNetwork", [("overload", 0), ("unauthorised_Location", 1), ("unauthorised_HNB", 2), ("hNB_parameter_mismatch", 3), ("invalid_UE_identity", 4), ("uE_not_allowed_on_this_HNB", 5), ("uE_unauthorised", 6), ("connection_with_UE_lost", 7), ("ue_RRC_release", 8), ("hNB_not_registered", 9), ("unspecified", 10), ("normal", 11), ("uE_relocated", 12), ("ue_registered_in_another_HNB", 13), ("no_neighbour_information_available", 14), ("iurh_connection_to_that_neighbour_not_Allowed", 15)]),
  ("CauseTransport", [("transport_resource_unavailable", 0), ("unspecified", 1)]),
  ("CauseProtocol", [("transfer_syntax_error", 0), ("abstract_syntax_error_reject", 1), ("abstract_syntax_error_ignore_and_notify", 2), ("message_not_compatible_with_receiver_state", 3), ("semantic_error", 4), ("unspecified", 5), ("abstract_syntax_error_falsely_constructed_message", 6)]),
  ("CauseMisc", [("processing_overload", 0), ("hardware_failure", 1), ("o_and_m_intervention", 2), ("unspecified", 3)]),
  ("CELL-FACHMobilitySupport", [("supported", 0)]),
  ("CriticalityDiagnostics", [("procedureCode", 0), ("triggeringMessage", 1), ("procedureCriticality", 2), ("iEsCriticalityDiagnostics", 3), ("iE_Extensions", 4)]),
  ("CriticalityDiagnostics-IE-List-Value", [("iECriticality", 0), ("iE_ID", 1), ("typeOfError", 2), ("iE_Extensions", 3)]),
  ("CSG-Capability", [("csg_capable", 0), ("not_csg_capable", 1)]),
  ("CSGMembershipStatus", [("member", 0), ("non_member", 1)]),
  ("CGI", [("pLMNidentity", 0), ("lAC", 1), ("cI", 2), ("iE_Extensions", 3)]),
  ("CN-DomainIndicator", [("cs_domain", 0), ("ps_domain", 1)]),
  ("GeographicalLocation", [("geographicalCoordinates", 0), ("altitudeAndDirection", 1), ("iE_Extensions", 2)]),
  ("GeographicalCoordinates", [("latitudeSign", 0), ("latitude", 1), ("longitude", 2), ("iE_Extensions", 3)]),
  ("HNB-Cell-Access-Mode", [("closed", 0), ("hybrid", 1), ("open", 2)]),
  ("HNB-Cell-Identifier", [("pLMNidentity", 0), ("cellIdentity", 1), ("iE_Extensions", 2)]),
  ("HNB-GWResponse", [("hNB", 0), ("macroRNC", 1), ("unknownU_RNTIIndication", 2)]),
  ("HNB-RNL-Identity", [("hNB_Identity_as_Cell_Identifier", 0)]),
  ("HNBConfigInfo", [("hnb_RNL_Identity", 0), ("configurationInformation", 1), ("iE_Extensions", 2)]),
  ("ConfigurationInformation", [("provided", 0), ("missing", 1)]),
  ("HNBConfigurationInformationProvided", [("psc", 0), ("cSG_ID", 1), ("hNB_Cell_Access_Mode", 2), ("iurh_Signalling_TNL_AddressList", 3), ("iE_Extensions", 4)]),
  ("HNBConfigurationInformationMissing", [("cause", 0), ("iE_Extensions", 1)]),
  ("HNB-Location-Information", [("macroCoverageInfo", 0), ("geographicalCoordinates", 1), ("iE_Extensions", 2)]),
  ("HNB-Identity", [("hNB_Identity_Info", 0), ("iE_Extensions", 1)]),
  ("IMSIESN", [("iMSIDS41", 0), ("eSN", 1)]),
  ("IP-Address", [("ipaddress", 0), ("iE_Extensions", 1)]),
  ("LAI", [("pLMNID", 0), ("lAC", 1)]),
  ("MacroCoverageInformation", [("cellIdentity", 0), ("iE_Extensions", 1)]),
  ("MacroCellID", [("uTRANCellID", 0), ("gERANCellID", 1)]),
  ("NeighbourIdentity", [("hNB_RNL_Identity", 0), ("cell_ID", 1)]),
  ("NeighbourInfoRequestItem", [("hnb_RNL_Identity", 0), ("iE_Extensions", 1)]),
  ("PTMSIRAI", [("pTMSI", 0), ("rAI", 1)]),
  ("RABListItem", [("rAB_ID", 0), ("old_transport_Info", 1), ("new_transport_Info", 2), ("cn_domain_indicator", 3), ("iE_Extensions", 4)]),
  ("RAI", [("lAI", 0), ("rAC", 1)]),
  ("Registration-Cause", [("emergency_call", 0), ("normal", 1), ("ue_relocation", 2)]),
  ("TMSILAI", [("tMSI", 0), ("lAI", 1)]),
  ("TransportInfo", [("transportLayerAddress", 0), ("transportAssociation", 1), ("iE_Extensions", 2)]),
  ("Tunnel-Information", [("iP_Address", 0), ("uDP_Port_Number", 1), ("iE_Extensions", 2)]),
  ("TypeOfError", [("not_understood", 0), ("missing", 1)]),
  ("UE-Capabilities", [("access_stratum_release_indicator", 0), ("csg_capability", 1), ("iE_Extensions", 2)]),
  ("UTRANCellID", [("lAC", 0), ("rAC", 1), ("pLMNidentity", 2), ("uTRANcellID", 3), ("iE_Extensions", 4)]),
  ("UE-Identity", [("iMSI", 0), ("tMSILAI", 1), ("pTMSIRAI", 2), ("iMEI", 3), ("eSN", 4), ("iMSIDS41", 5), ("iMSIESN", 6), ("tMSIDS41", 7)]),
  ("Update-cause", [("relocation_preparation", 0)]),
  ("UnknownU-RNTIIndication", [("unknown", 0)]),
  ("HNBAP-PDU", [("initiatingMessage", 0), ("successfulOutcome", 1), ("unsuccessfulOutcome", 2)]),
  ("InitiatingMessage", [("procedureCode", 0), ("criticality", 1), ("value", 2)]),
  ("SuccessfulOutcome", [("procedureCode", 0), ("criticality", 1), ("value", 2)]),
  ("UnsuccessfulOutcome", [("procedureCode", 0), ("criticality", 1), ("value", 2)])]

/-- asn1/sabp/*.asn -/
def sabpAsn : List (String × List (String × Int)) := [
  ("Criticality", [("reject", 0), ("ignore", 1), ("notify", 2)]),
  ("Presence", [("optional", 0), ("conditional", 1), ("mandatory", 2)]),
  ("ProcedureCode", [("id_Write_Replace", 0), ("id_Kill", 1), ("id_Load_Status_Enquiry", 2), ("id_Message_Status_Query", 3), ("id_Restart_Indication", 4), ("id_Reset", 5), ("id_Failure_Indication", 6), ("id_Error_Indication", 7)]),
  ("ProtocolIE-ID", [("id_Broadcast_Message_Content", 0), ("id_Category", 1), ("id_Cause", 2), ("id_Data_Coding_Scheme", 4), ("id_Failure_List", 5), ("id_Message_Identifier", 6), ("id_New_Serial_Number", 7), ("id_Number_of_Broadcasts_Completed_List", 8), ("id_Number_of_Broadcasts_Requested", 9), ("id_Old_Serial_Number", 10), ("id_Radio_Resource_Loading_List", 11), ("id_Recovery_Indication", 12), ("id_Repetition_Period", 13), ("id_Serial_Number", 14), ("id_Service_Areas_List", 15), ("id_MessageStructure", 16), ("id_TypeOfError", 17), ("id_Paging_ETWS_Indicator", 18), ("id_Warning_Type", 19), ("id_WarningSecurityInfo", 20), ("id_Broadcast_Message_Content_Validity_Indicator", 21)]),
  ("TriggeringMessage", [("initiating_message", 0), ("successful_outcome", 1), ("unsuccessful_outcome", 2), ("outcome", 3)]),
  ("Broadcast-Message-Content-Validity-Indicator", [("broadcast_Message_Content_not_valid", 0)]),
  ("Category", [("high_priority", 0), ("background_priority", 1), ("normal_priority", 2), ("default_priority", 3)]),
  ("Cause", [("parameter_not_recognised", 0), ("parameter_value_invalid", 1), ("valid_CN_message_not_identified", 2), ("service_area_identity_not_valid", 3), ("unrecognised_message", 4), ("missing_mandatory_element", 5), ("rNC_capacity_exceeded", 6), ("rNC_memory_exceeded", 7), ("service_area_broadcast_not_supported", 8), ("service_area_broadcast_not_operational", 9), ("message_reference_already_used", 10), ("unspecifed_error", 11), ("transfer_syntax_error", 12), ("semantic_error", 13), ("message_not_compatible_with_receiver_state", 14), ("abstract_syntax_error_reject", 15), ("abstract_syntax_error_ignore_and_notify", 16), ("abstract_syntax_error_falsely_constructed_message", 17)]),
  ("Criticality-Diagnostics", [("procedureCode", 0), ("triggeringMessage", 1), ("procedureCriticality", 2), ("iEsCriticalityDiagnostics", 3), ("iE_Extensions", 4)]),
  ("CriticalityDiagnostics-IE-List-Value", [("iECriticality", 0), ("iE_ID", 1), ("repetitionNumber", 2), ("iE_Extensions", 3)]),
  ("MessageStructure-Value", [("iE_ID", 0), ("repetitionNumber", 1), ("iE_Extensions", 2)]),
  ("Failure-List-Item", [("service_area_identifier", 0), ("cause", 1), ("iE_Extensions", 2)]),
  ("Number-of-Broadcasts-Completed-List-Item", [("service_area_identifier", 0), ("number_of_broadcasts_completed", 1), ("number_of_broadcasts_completed_info", 2), ("iE_Extensions", 3)]),
  ("Number-Of-Broadcasts-Completed-Info", [("overflow", 0), ("unknown", 1)]),
  ("Number-of-Broadcasts-Requested", [("broadcast_indefinitely", 0)]),
  ("Paging-ETWS-Indicator", [("paging", 0)]),
  ("Radio-Resource-Loading-List-Item", [("service_area_identifier", 0), ("available_bandwidth", 1), ("iE_Extensions", 2)]),
  ("Recovery-Indication", [("data_lost", 0), ("data_available", 1)]),
  ("Service-Area-Identifier", [("pLMNidentity", 0), ("lac", 1), ("sac", 2)]),
  ("TypeOfError", [("not_understood", 0), ("missing", 1)]),
  ("SABP-PDU", [("initiatingMessage", 0), ("successfulOutcome", 1), ("unsuccessfulOutcome", 2)]),
  ("InitiatingMessage", [("procedureCode", 0), ("criticality", 1), ("value", 2)]),
  ("SuccessfulOutcome", [("procedureCode", 0), ("criticality", 1), ("value", 2)]),
  ("UnsuccessfulOutcome", [("procedureCode", 0), ("criticality", 1), ("value", 2)])]

/-- src/sabp/*.c, include/osmocom/sabp/*.h -/
def sabpC : List (String × List (String × Int)) := [
  ("Criticality", [("reject", 0), ("ignore", 1), ("notify", 2)]),
  ("Presence", [("optional", 0), ("conditional", 1), ("mandatory", 2)]),
  ("ProcedureCode", [("id_Write_Replace", 0), ("id_Kill", 1), ("id_Load_Status_Enquiry", 2), ("id_Message_Status_Query", 3), ("id_Restart_Indication", 4), ("id_Reset", 5), ("id_Failure_Indication", 6), ("id_Error_Indication", 7)]),
  ("ProtocolIE-ID", [("id_Broadcast_Message_Content", 0), ("id_Category", 1), ("id_Cause", 2), ("id_Data_Coding_Scheme", 4), ("id_Failure_List", 5), ("id_Message_Identifier", 6), ("id_New_Serial_Number", 7), ("id_Number_of_Broadcasts_Completed_List", 8), ("id_Number_of_Broadcasts_Requested", 9), ("id_Old_Serial_Number", 10), ("id_Radio_Resource_Loading_List", 11), ("id_Recovery_Indication", 12), ("id_Repetition_Period", 13), ("id_Serial_Number", 14), ("id_Service_Areas_List", 15), ("id_MessageStructure", 16), ("id_TypeOfError", 17), ("id_Paging_ETWS_Indicator", 18), ("id_Warning_Type", 19), ("id_WarningSecurityInfo", 20), ("id_Broadcast_Message_Content_Validity_Indicator", 21)]),
  ("TriggeringMessage", [("initiating_message", 0), ("successful_outcome", 1), ("unsuccessful_outcome", 2), ("outcome", 3)]),
  ("Broadcast-Message-Content-Validity-Indicator", [("broadcast_Message_Content_not_valid", 0)]),
  ("Category", [("high_priority", 0), ("background_priority", 1), ("normal_priority", 2), ("default_priority", 3)]),
  ("Cause", [("parameter_not_recognised", 0), ("parameter_value_invalid", 1), ("valid_CN_message_not_identified", 2), ("service_area_identity_not_valid", 3), ("unrecognised_message", 4), ("missing_mandatory_element", 5), ("rNC_capacity_exceeded", 6), ("rNC_memory_exceeded", 7), ("service_area_broadcast_not_supported", 8), ("service_area_broadcast_not_operational", 9), ("message_reference_already_used", 10), ("unspecifed_error", 11), ("transfer_syntax_error", 12), ("semantic_error", 13), ("message_not_compatible_with_receiver_state", 14), ("abstract_syntax_error_reject", 15), ("abstract_syntax_error_ignore_and_notify", 16), ("abstract_syntax_error_falsely_constructed_message", 17)]),
  ("Criticality-Diagnostics", [("procedureCode", 0), ("triggeringMessage", 1), ("procedureCriticality", 2), ("iEsCriticalityDiagnostics", 3), ("iE_Extensions", 4)]),
  ("CriticalityDiagnostics-IE-List-Value", [("iECriticality", 0), ("iE_ID", 1), ("repetitionNumber", 2), ("iE_Extensions", 3)]),
  ("MessageStructure-Value", [("iE_ID", 0), ("repetitionNumber", 1), ("iE_Extensions", 2)]),
  ("Failure-List-Item", [("service_area_identifier", 0), ("cause", 1), ("iE_Extensions", 2)]),
  ("Number-of-Broadcasts-Completed-List-Item", [("service_area_identifier", 0), ("number_of_broadcasts_completed", 1), ("number_of_broadcasts_completed_info", 2), ("iE_Extensions", 3)]),
  ("Number-Of-Broadcasts-Completed-Info", [("overflow", 0), ("unknown", 1)]),
  ("Number-of-Broadcasts-Requested", [("broadcast_indefinitely", 0)]),
  ("Paging-ETWS-Indicator", [("paging", 0)]),
  ("Radio-Resource-Loading-List-Item", [("service_area_identifier", 0), ("available_bandwidth", 1), ("iE_Extensions", 2)]),
  ("Recovery-Indication", [("data_lost", 0), ("data_available", 1)]),
  ("Service-Area-Identifier", [("pLMNidentity", 0), ("lac", 1), ("sac", 2)]),
  ("TypeOfError", [("not_understood", 0), ("missing", 1)]),
  ("SABP-PDU", [("initiatingMessage", 0), ("successfulOutcome", 1), ("unsuccessfulOutcome", 2)]),
  ("InitiatingMessage", [("procedureCode", 0), ("criticality", 1), ("value", 2)]),
  ("SuccessfulOutcome", [("procedureCode", 0), ("criticality", 1), ("value", 2)]),
  ("UnsuccessfulOutcome", [("procedureCode", 0), ("criticality", 1), ("value", 2)])]

end Verif.Gen.AsnNames
