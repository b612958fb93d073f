import Verif.Gen.AsnTable

/-!
# The entries of `Gen/AsnTable.lean` in the order of the text

For each protocol, with the table in which they are; and for each element its type as a position in this list.
-/

namespace Verif.Gen.AsnTable
open Verif.Asn

/-- The four tables. -/
inductive Form where
  | same
  | message
  | list
  | other
  deriving DecidableEq

/-- RUA -/
def ruaNamed : List (Form × NamedTy) := [
  (.same, Rua.Criticality),
  (.same, Rua.Presence),
  (.same, Rua.ProcedureCode),
  (.same, Rua.PrivateIE_ID),
  (.same, Rua.ProtocolIE_ID),
  (.same, Rua.TriggeringMessage),
  (.same, Rua.IE_Extensions),
  (.same, Rua.CN_DomainIndicator),
  (.same, Rua.CSGMembershipStatus),
  (.same, Rua.Establishment_Cause),
  (.same, Rua.Context_ID),
  (.same, Rua.IntraDomainNasNodeSelector),
  (.same, Rua.Gsm_map_IDNNS),
  (.same, Rua.Ansi_41_IDNNS),
  (.same, Rua.RANAP_Message),
  (.same, Rua.RoutingParameter),
  (.same, Rua.Cause),
  (.same, Rua.CauseRadioNetwork),
  (.same, Rua.CauseTransport),
  (.same, Rua.CauseProtocol),
  (.same, Rua.CauseMisc),
  (.same, Rua.CriticalityDiagnostics),
  (.same, Rua.CriticalityDiagnostics_IE_List),
  (.same, Rua.CriticalityDiagnostics_IE_List_Value),
  (.same, Rua.TypeOfError),
  (.message, Rua.Connect),
  (.message, Rua.DirectTransfer),
  (.message, Rua.Disconnect),
  (.message, Rua.ConnectionlessTransfer),
  (.message, Rua.ErrorIndication),
  (.other, Rua.PrivateMessage),
  (.same, Rua.RUA_PDU),
  (.same, Rua.InitiatingMessage),
  (.same, Rua.SuccessfulOutcome),
  (.same, Rua.UnsuccessfulOutcome),
  (.same, Rua.IE)]

/-- The types of the elements. -/
def ruaIndices : List (List Nat) := [
  [7, 10, 11, 9, 14],
  [7, 10, 14],
  [7, 10, 16, 14],
  [14],
  [16, 21]]

/-- HNBAP -/
def hnbapNamed : List (Form × NamedTy) := [
  (.same, Hnbap.Criticality),
  (.same, Hnbap.Presence),
  (.same, Hnbap.PrivateIE_ID),
  (.same, Hnbap.ProcedureCode),
  (.same, Hnbap.ProtocolIE_ID),
  (.same, Hnbap.TriggeringMessage),
  (.same, Hnbap.IE_Extensions),
  (.same, Hnbap.Access_stratum_release_indicator),
  (.same, Hnbap.AccessResult),
  (.same, Hnbap.AltitudeAndDirection),
  (.same, Hnbap.BackoffTimer),
  (.same, Hnbap.BindingID),
  (.same, Hnbap.Cause),
  (.same, Hnbap.CauseRadioNetwork),
  (.same, Hnbap.CauseTransport),
  (.same, Hnbap.CauseProtocol),
  (.same, Hnbap.CauseMisc),
  (.same, Hnbap.CellIdentity),
  (.same, Hnbap.CELL_FACHMobilitySupport),
  (.same, Hnbap.Context_ID),
  (.same, Hnbap.CriticalityDiagnostics),
  (.same, Hnbap.CriticalityDiagnostics_IE_List),
  (.same, Hnbap.CriticalityDiagnostics_IE_List_Value),
  (.same, Hnbap.CSG_ID),
  (.same, Hnbap.CSG_Capability),
  (.same, Hnbap.CSGMembershipStatus),
  (.same, Hnbap.CGI),
  (.same, Hnbap.CI),
  (.same, Hnbap.CN_DomainIndicator),
  (.same, Hnbap.ESN),
  (.same, Hnbap.GeographicalLocation),
  (.same, Hnbap.GeographicalCoordinates),
  (.same, Hnbap.GTP_TEI),
  (.same, Hnbap.HNBCapacity),
  (.same, Hnbap.HNB_Cell_Access_Mode),
  (.same, Hnbap.HNB_Cell_Identifier),
  (.same, Hnbap.HNB_GWResponse),
  (.same, Hnbap.HNB_RNL_Identity),
  (.same, Hnbap.HNBConfigInfo),
  (.same, Hnbap.ConfigurationInformation),
  (.same, Hnbap.HNBConfigurationInformationProvided),
  (.same, Hnbap.HNBConfigurationInformationMissing),
  (.same, Hnbap.HNB_Location_Information),
  (.same, Hnbap.HNB_Identity),
  (.same, Hnbap.HNB_Identity_Info),
  (.same, Hnbap.IMEI),
  (.same, Hnbap.IMSI),
  (.same, Hnbap.IMSIDS41),
  (.same, Hnbap.IMSIESN),
  (.same, Hnbap.IP_Address),
  (.same, Hnbap.Ipv4Address),
  (.same, Hnbap.Ipv6Address),
  (.same, Hnbap.Iurh_Signalling_TNL_AddressList),
  (.same, Hnbap.LAC),
  (.same, Hnbap.LAI),
  (.same, Hnbap.MacroCoverageInformation),
  (.same, Hnbap.MacroCellID),
  (.same, Hnbap.MuxPortNumber),
  (.same, Hnbap.NeighbourCellIdentityList),
  (.same, Hnbap.NeighbourIdentity),
  (.same, Hnbap.NeighbourInfoList),
  (.same, Hnbap.AdditionalNeighbourInfoList),
  (.same, Hnbap.NeighbourInfoRequestList),
  (.same, Hnbap.NeighbourInfoRequestItem),
  (.same, Hnbap.PLMNidentity),
  (.same, Hnbap.PSC),
  (.same, Hnbap.PTMSI),
  (.same, Hnbap.PTMSIRAI),
  (.same, Hnbap.RAB_ID),
  (.same, Hnbap.RABList),
  (.same, Hnbap.RABListItem),
  (.same, Hnbap.RAC),
  (.same, Hnbap.RAI),
  (.same, Hnbap.Registration_Cause),
  (.same, Hnbap.RNC_ID),
  (.same, Hnbap.SAC),
  (.same, Hnbap.S_RNTIPrefix),
  (.same, Hnbap.TMSILAI),
  (.same, Hnbap.TMSIDS41),
  (.same, Hnbap.TransportInfo),
  (.same, Hnbap.TransportLayerAddress),
  (.same, Hnbap.Tunnel_Information),
  (.same, Hnbap.TypeOfError),
  (.same, Hnbap.UDP_Port_Number),
  (.same, Hnbap.UE_Capabilities),
  (.same, Hnbap.UTRANCellID),
  (.same, Hnbap.UE_Identity),
  (.same, Hnbap.Update_cause),
  (.same, Hnbap.URAIdentityList),
  (.same, Hnbap.URAIdentity),
  (.same, Hnbap.U_RNTI),
  (.same, Hnbap.UnknownU_RNTIIndication),
  (.message, Hnbap.HNBRegisterRequest),
  (.message, Hnbap.HNBRegisterAccept),
  (.message, Hnbap.HNBRegisterReject),
  (.message, Hnbap.HNBDe_Register),
  (.message, Hnbap.UERegisterRequest),
  (.message, Hnbap.UERegisterAccept),
  (.message, Hnbap.UERegisterReject),
  (.message, Hnbap.UEDe_Register),
  (.message, Hnbap.CSGMembershipUpdate),
  (.message, Hnbap.TNLUpdateRequest),
  (.message, Hnbap.TNLUpdateResponse),
  (.message, Hnbap.TNLUpdateFailure),
  (.message, Hnbap.HNBConfigTransferRequest),
  (.message, Hnbap.HNBConfigTransferResponse),
  (.message, Hnbap.RelocationComplete),
  (.message, Hnbap.ErrorIndication),
  (.other, Hnbap.PrivateMessage),
  (.message, Hnbap.U_RNTIQueryRequest),
  (.message, Hnbap.U_RNTIQueryResponse),
  (.same, Hnbap.HNBAP_PDU),
  (.same, Hnbap.InitiatingMessage),
  (.same, Hnbap.SuccessfulOutcome),
  (.same, Hnbap.UnsuccessfulOutcome),
  (.same, Hnbap.IE)]

/-- The types of the elements. -/
def hnbapIndices : List (List Nat) := [
  [43, 42, 64, 17, 53, 71, 75, 23],
  [74],
  [12, 20, 10],
  [12, 10],
  [86, 73, 84],
  [86, 19],
  [86, 12, 20],
  [19, 12],
  [19, 25],
  [19, 69, 87],
  [19],
  [19, 12, 20],
  [62],
  [60],
  [19],
  [12, 20],
  [90],
  [36]]

/-- SABP -/
def sabpNamed : List (Form × NamedTy) := [
  (.same, Sabp.Criticality),
  (.same, Sabp.Presence),
  (.same, Sabp.ProcedureCode),
  (.same, Sabp.ProtocolExtensionID),
  (.same, Sabp.ProtocolIE_ID),
  (.same, Sabp.TriggeringMessage),
  (.same, Sabp.IE_Extensions),
  (.same, Sabp.Available_Bandwidth),
  (.same, Sabp.Broadcast_Message_Content),
  (.same, Sabp.Broadcast_Message_Content_Validity_Indicator),
  (.same, Sabp.Category),
  (.same, Sabp.Cause),
  (.same, Sabp.Criticality_Diagnostics),
  (.same, Sabp.CriticalityDiagnostics_IE_List),
  (.same, Sabp.CriticalityDiagnostics_IE_List_Value),
  (.same, Sabp.MessageStructure),
  (.same, Sabp.MessageStructure_Value),
  (.same, Sabp.Data_Coding_Scheme),
  (.same, Sabp.Failure_List),
  (.same, Sabp.Failure_List_Item),
  (.same, Sabp.Message_Identifier),
  (.same, Sabp.New_Serial_Number),
  (.same, Sabp.Number_of_Broadcasts_Completed_List),
  (.same, Sabp.Number_of_Broadcasts_Completed_List_Item),
  (.same, Sabp.Number_Of_Broadcasts_Completed_Info),
  (.same, Sabp.Number_of_Broadcasts_Requested),
  (.same, Sabp.Old_Serial_Number),
  (.same, Sabp.Paging_ETWS_Indicator),
  (.same, Sabp.Radio_Resource_Loading_List),
  (.same, Sabp.Radio_Resource_Loading_List_Item),
  (.same, Sabp.Recovery_Indication),
  (.same, Sabp.RepetitionNumber0),
  (.same, Sabp.RepetitionNumber1),
  (.same, Sabp.Repetition_Period),
  (.same, Sabp.Serial_Number),
  (.same, Sabp.Service_Area_Identifier),
  (.same, Sabp.Service_Areas_List),
  (.same, Sabp.TypeOfError),
  (.same, Sabp.WarningSecurityInfo),
  (.same, Sabp.Warning_Type),
  (.message, Sabp.Write_Replace),
  (.message, Sabp.Write_Replace_Complete),
  (.message, Sabp.Write_Replace_Failure),
  (.message, Sabp.Kill),
  (.message, Sabp.Kill_Complete),
  (.message, Sabp.Kill_Failure),
  (.message, Sabp.Load_Query),
  (.message, Sabp.Load_Query_Complete),
  (.message, Sabp.Load_Query_Failure),
  (.message, Sabp.Message_Status_Query),
  (.message, Sabp.Message_Status_Query_Complete),
  (.message, Sabp.Message_Status_Query_Failure),
  (.message, Sabp.Reset),
  (.message, Sabp.Reset_Complete),
  (.message, Sabp.Reset_Failure),
  (.message, Sabp.Restart),
  (.message, Sabp.Failure),
  (.message, Sabp.Error_Indication),
  (.same, Sabp.SABP_PDU),
  (.same, Sabp.InitiatingMessage),
  (.same, Sabp.SuccessfulOutcome),
  (.same, Sabp.UnsuccessfulOutcome),
  (.same, Sabp.IE)]

/-- The types of the elements. -/
def sabpIndices : List (List Nat) := [
  [20, 21, 26, 36, 10, 33, 25, 17, 8],
  [20, 21, 22, 12],
  [20, 21, 18, 22, 12],
  [20, 26, 36],
  [20, 26, 22, 12],
  [20, 26, 18, 22, 12],
  [36],
  [28, 12],
  [18, 28, 12],
  [20, 26, 36],
  [20, 26, 22, 12],
  [20, 18, 26, 22, 12],
  [36],
  [36, 12],
  [18, 36, 12],
  [36, 30],
  [36],
  [20, 34, 11, 12]]

/-- RANAP -/
def ranapNamed : List (Form × NamedTy) := [
  (.same, Ranap.Criticality),
  (.same, Ranap.Presence),
  (.same, Ranap.PrivateIE_ID),
  (.same, Ranap.ProcedureCode),
  (.same, Ranap.ProtocolExtensionID),
  (.same, Ranap.ProtocolIE_ID),
  (.same, Ranap.TriggeringMessage),
  (.same, Ranap.IE_Extensions),
  (.same, Ranap.AccuracyFulfilmentIndicator),
  (.same, Ranap.AllocationOrRetentionPriority),
  (.same, Ranap.Alt_RAB_Parameters),
  (.same, Ranap.Alt_RAB_Parameter_ExtendedGuaranteedBitrateInf),
  (.same, Ranap.Alt_RAB_Parameter_ExtendedGuaranteedBitrates),
  (.same, Ranap.Alt_RAB_Parameter_ExtendedGuaranteedBitrateList),
  (.same, Ranap.Alt_RAB_Parameter_GuaranteedBitrateInf),
  (.same, Ranap.Alt_RAB_Parameter_GuaranteedBitrateType),
  (.same, Ranap.Alt_RAB_Parameter_GuaranteedBitrates),
  (.same, Ranap.Alt_RAB_Parameter_GuaranteedBitrateList),
  (.same, Ranap.Alt_RAB_Parameter_SupportedGuaranteedBitrateInf),
  (.same, Ranap.Alt_RAB_Parameter_SupportedGuaranteedBitrates),
  (.same, Ranap.Alt_RAB_Parameter_ExtendedMaxBitrateInf),
  (.same, Ranap.Alt_RAB_Parameter_ExtendedMaxBitrates),
  (.same, Ranap.Alt_RAB_Parameter_ExtendedMaxBitrateList),
  (.same, Ranap.Alt_RAB_Parameter_MaxBitrateInf),
  (.same, Ranap.Alt_RAB_Parameter_MaxBitrateType),
  (.same, Ranap.Alt_RAB_Parameter_MaxBitrates),
  (.same, Ranap.Alt_RAB_Parameter_MaxBitrateList),
  (.same, Ranap.Alt_RAB_Parameter_SupportedMaxBitrateInf),
  (.same, Ranap.Alt_RAB_Parameter_SupportedMaxBitrates),
  (.same, Ranap.AlternativeRABConfigurationRequest),
  (.same, Ranap.APN),
  (.same, Ranap.AreaIdentity),
  (.same, Ranap.Ass_RAB_Parameters),
  (.same, Ranap.Ass_RAB_Parameter_ExtendedGuaranteedBitrateList),
  (.same, Ranap.Ass_RAB_Parameter_ExtendedMaxBitrateList),
  (.same, Ranap.Ass_RAB_Parameter_GuaranteedBitrateList),
  (.same, Ranap.Ass_RAB_Parameter_MaxBitrateList),
  (.same, Ranap.AuthorisedPLMNs),
  (.same, Ranap.AuthorisedPLMNs_Value),
  (.same, Ranap.AuthorisedSNAs),
  (.same, Ranap.BindingID),
  (.same, Ranap.BroadcastAssistanceDataDecipheringKeys),
  (.same, Ranap.Cause),
  (.same, Ranap.CauseMisc),
  (.same, Ranap.CauseNAS),
  (.same, Ranap.CauseProtocol),
  (.same, Ranap.CauseRadioNetwork),
  (.same, Ranap.CauseRadioNetworkExtension),
  (.same, Ranap.CauseNon_Standard),
  (.same, Ranap.CauseTransmissionNetwork),
  (.same, Ranap.Cell_Access_Mode),
  (.same, Ranap.CellBased),
  (.same, Ranap.CellIdList),
  (.same, Ranap.Cell_Id),
  (.same, Ranap.Cell_Capacity_Class_Value),
  (.same, Ranap.CellLoadInformation),
  (.same, Ranap.CellLoadInformationGroup),
  (.same, Ranap.CellType),
  (.same, Ranap.ClientType),
  (.same, Ranap.CriticalityDiagnostics),
  (.same, Ranap.CriticalityDiagnostics_IE_List),
  (.same, Ranap.CriticalityDiagnostics_IE_List_Value),
  (.same, Ranap.MessageStructure),
  (.same, Ranap.MessageStructure_Value),
  (.same, Ranap.CGI),
  (.same, Ranap.ChosenEncryptionAlgorithm),
  (.same, Ranap.ChosenIntegrityProtectionAlgorithm),
  (.same, Ranap.CI),
  (.same, Ranap.ClassmarkInformation2),
  (.same, Ranap.ClassmarkInformation3),
  (.same, Ranap.CN_DomainIndicator),
  (.same, Ranap.CN_ID),
  (.same, Ranap.Correlation_ID),
  (.same, Ranap.CSFB_Information),
  (.same, Ranap.CSG_Id),
  (.same, Ranap.CSG_Id_List),
  (.same, Ranap.CSG_Membership_Status),
  (.same, Ranap.DataPDUType),
  (.same, Ranap.DataVolumeReference),
  (.same, Ranap.DataVolumeReportingIndication),
  (.same, Ranap.DCH_ID),
  (.same, Ranap.DeliveryOfErroneousSDU),
  (.same, Ranap.DeliveryOrder),
  (.same, Ranap.DeltaRAListofIdleModeUEs),
  (.same, Ranap.NewRAListofIdleModeUEs),
  (.same, Ranap.RAListwithNoIdleModeUEsAnyMore),
  (.same, Ranap.ForwardingIndication),
  (.same, Ranap.DL_GTP_PDU_SequenceNumber),
  (.same, Ranap.DL_N_PDU_SequenceNumber),
  (.same, Ranap.D_RNTI),
  (.same, Ranap.DRX_CycleLengthCoefficient),
  (.same, Ranap.DSCH_ID),
  (.same, Ranap.EARFCN_Extended),
  (.same, Ranap.E_DCH_MAC_d_Flow_ID),
  (.same, Ranap.ENB_ID),
  (.same, Ranap.EncryptionAlgorithm),
  (.same, Ranap.EncryptionInformation),
  (.same, Ranap.EncryptionKey),
  (.same, Ranap.End_Of_CSFB),
  (.same, Ranap.EquipmentsToBeTraced),
  (.same, Ranap.E_UTRAN_Service_Handover),
  (.same, Ranap.Event),
  (.same, Ranap.Event1F_Parameters),
  (.same, Ranap.Event1I_Parameters),
  (.same, Ranap.ExtendedGuaranteedBitrate),
  (.same, Ranap.ExtendedMaxBitrate),
  (.same, Ranap.ExtendedRNC_ID),
  (.same, Ranap.FrameSequenceNumber),
  (.same, Ranap.FrequenceLayerConvergenceFlag),
  (.same, Ranap.GANSS_PositioningDataSet),
  (.same, Ranap.GANSS_PositioningMethodAndUsage),
  (.same, Ranap.GeographicalArea),
  (.same, Ranap.GeographicalCoordinates),
  (.same, Ranap.GA_AltitudeAndDirection),
  (.same, Ranap.GA_EllipsoidArc),
  (.same, Ranap.GA_Point),
  (.same, Ranap.GA_PointWithAltitude),
  (.same, Ranap.GA_PointWithAltitudeAndUncertaintyEllipsoid),
  (.same, Ranap.GA_PointWithUnCertainty),
  (.same, Ranap.GA_PointWithUnCertaintyEllipse),
  (.same, Ranap.GA_Polygon),
  (.same, Ranap.GA_Polygon_Value),
  (.same, Ranap.GA_UncertaintyEllipse),
  (.same, Ranap.GERAN_BSC_Container),
  (.same, Ranap.GERAN_Cell_ID),
  (.same, Ranap.GERAN_Classmark),
  (.same, Ranap.GlobalCN_ID),
  (.same, Ranap.GlobalRNC_ID),
  (.same, Ranap.GTP_TEI),
  (.same, Ranap.GuaranteedBitrate),
  (.same, Ranap.HigherBitratesThan16MbpsFlag),
  (.same, Ranap.HS_DSCH_MAC_d_Flow_ID),
  (.same, Ranap.IMEI),
  (.same, Ranap.IMEIGroup),
  (.same, Ranap.IMEIList),
  (.same, Ranap.IMEISV),
  (.same, Ranap.IMEISVGroup),
  (.same, Ranap.IMEISVList),
  (.same, Ranap.ImmediateMDT),
  (.same, Ranap.IMSI),
  (.same, Ranap.IncludeVelocity),
  (.same, Ranap.InformationExchangeID),
  (.same, Ranap.InformationExchangeType),
  (.same, Ranap.InformationRequested),
  (.same, Ranap.InformationRequestType),
  (.same, Ranap.InformationTransferID),
  (.same, Ranap.InformationTransferType),
  (.same, Ranap.IntegrityProtectionAlgorithm),
  (.same, Ranap.IntegrityProtectionInformation),
  (.same, Ranap.IntegrityProtectionKey),
  (.same, Ranap.InterSystemInformationTransferType),
  (.same, Ranap.InterSystemInformation_TransparentContainer),
  (.same, Ranap.IPMulticastAddress),
  (.same, Ranap.IuSignallingConnectionIdentifier),
  (.same, Ranap.IuTransportAssociation),
  (.same, Ranap.KeyStatus),
  (.same, Ranap.LA_LIST),
  (.same, Ranap.LA_LIST_Value),
  (.same, Ranap.LAC),
  (.same, Ranap.LAI),
  (.same, Ranap.LastKnownServiceArea),
  (.same, Ranap.LastVisitedUTRANCell_Item),
  (.same, Ranap.LHN_ID),
  (.same, Ranap.Links_to_log),
  (.same, Ranap.ListOF_SNAs),
  (.same, Ranap.ListOfInterfacesToTrace),
  (.same, Ranap.InterfacesToTraceItem),
  (.same, Ranap.LoadValue),
  (.same, Ranap.LocationRelatedDataRequestType),
  (.same, Ranap.LocationRelatedDataRequestTypeSpecificToGERANIuMode),
  (.same, Ranap.LocationReportingTransferInformation),
  (.same, Ranap.ReportChangeOfSAI),
  (.same, Ranap.PeriodicReportingIndicator),
  (.same, Ranap.DirectReportingIndicator),
  (.same, Ranap.L3_Information),
  (.same, Ranap.M1Report),
  (.same, Ranap.M2Report),
  (.same, Ranap.M4Report),
  (.same, Ranap.M4_Collection_Parameters),
  (.same, Ranap.M4_Period),
  (.same, Ranap.M4_Threshold),
  (.same, Ranap.M5Report),
  (.same, Ranap.M5_Period),
  (.same, Ranap.M6Report),
  (.same, Ranap.M6_Period),
  (.same, Ranap.M7Report),
  (.same, Ranap.M7_Period),
  (.same, Ranap.Management_Based_MDT_Allowed),
  (.same, Ranap.MaxBitrate),
  (.same, Ranap.MaxSDU_Size),
  (.same, Ranap.MBMS_PTP_RAB_ID),
  (.same, Ranap.MBMSBearerServiceType),
  (.same, Ranap.MBMSCNDe_Registration),
  (.same, Ranap.MBMSCountingInformation),
  (.same, Ranap.MBMSHCIndicator),
  (.same, Ranap.MBMSIPMulticastAddressandAPNRequest),
  (.same, Ranap.MBMSLinkingInformation),
  (.same, Ranap.MBMSRegistrationRequestType),
  (.same, Ranap.MBMSServiceArea),
  (.same, Ranap.MBMSSessionDuration),
  (.same, Ranap.MBMSSessionIdentity),
  (.same, Ranap.MBMSSessionRepetitionNumber),
  (.same, Ranap.MDT_Activation),
  (.same, Ranap.MDTAreaScope),
  (.same, Ranap.MDT_Configuration),
  (.same, Ranap.MDTMode),
  (.same, Ranap.MDT_PLMN_List),
  (.same, Ranap.MDT_Report_Parameters),
  (.same, Ranap.MeasurementQuantity),
  (.same, Ranap.MeasurementsToActivate),
  (.same, Ranap.MSISDN),
  (.same, Ranap.NAS_PDU),
  (.same, Ranap.NAS_SequenceNumber),
  (.same, Ranap.NAS_SynchronisationIndicator),
  (.same, Ranap.NewBSS_To_OldBSS_Information),
  (.same, Ranap.NonSearchingIndication),
  (.same, Ranap.NRTLoadInformationValue),
  (.same, Ranap.NumberOfIuInstances),
  (.same, Ranap.NumberOfSteps),
  (.same, Ranap.Offload_RAB_Parameters),
  (.same, Ranap.Offload_RAB_Parameters_APN),
  (.same, Ranap.Offload_RAB_Parameters_ChargingCharacteristics),
  (.same, Ranap.OldBSS_ToNewBSS_Information),
  (.same, Ranap.OMC_ID),
  (.same, Ranap.Out_Of_UTRAN),
  (.same, Ranap.PagingAreaID),
  (.same, Ranap.PagingCause),
  (.same, Ranap.PDP_TypeInformation),
  (.same, Ranap.PDP_Type),
  (.same, Ranap.PDP_TypeInformation_extension),
  (.same, Ranap.PDP_Type_extension),
  (.same, Ranap.PDUType14FrameSequenceNumber),
  (.same, Ranap.PeriodicLocationInfo),
  (.same, Ranap.PermanentNAS_UE_ID),
  (.same, Ranap.PermittedEncryptionAlgorithms),
  (.same, Ranap.PermittedIntegrityProtectionAlgorithms),
  (.same, Ranap.LABased),
  (.same, Ranap.LAI_List),
  (.same, Ranap.LoggedMDT),
  (.same, Ranap.LoggingInterval),
  (.same, Ranap.LoggingDuration),
  (.same, Ranap.PLMNidentity),
  (.same, Ranap.PLMNs_in_shared_network),
  (.same, Ranap.PLMNs_in_shared_network_Value),
  (.same, Ranap.Port_Number),
  (.same, Ranap.PositioningDataDiscriminator),
  (.same, Ranap.PositioningDataSet),
  (.same, Ranap.PositioningMethodAndUsage),
  (.same, Ranap.PositioningPriority),
  (.same, Ranap.PositionData),
  (.same, Ranap.PositionDataSpecificToGERANIuMode),
  (.same, Ranap.Pre_emptionCapability),
  (.same, Ranap.Pre_emptionVulnerability),
  (.same, Ranap.PriorityLevel),
  (.same, Ranap.Priority_Class_Indicator),
  (.same, Ranap.ProvidedData),
  (.same, Ranap.P_TMSI),
  (.same, Ranap.QueuingAllowed),
  (.same, Ranap.RAB_AsymmetryIndicator),
  (.same, Ranap.RABased),
  (.same, Ranap.RAI_List),
  (.same, Ranap.RABDataVolumeReport),
  (.same, Ranap.RABDataVolumeReport_Value),
  (.same, Ranap.RAB_ID),
  (.same, Ranap.RAB_Parameter_ExtendedGuaranteedBitrateList),
  (.same, Ranap.RAB_Parameter_ExtendedMaxBitrateList),
  (.same, Ranap.RAB_Parameter_GuaranteedBitrateList),
  (.same, Ranap.RAB_Parameter_MaxBitrateList),
  (.same, Ranap.RAB_Parameters),
  (.same, Ranap.RABParametersList),
  (.same, Ranap.RABParametersList_Value),
  (.same, Ranap.RAB_SubflowCombinationBitRate),
  (.same, Ranap.RAB_TrCH_Mapping),
  (.same, Ranap.RAB_TrCH_MappingItem),
  (.same, Ranap.RAC),
  (.same, Ranap.RAI),
  (.same, Ranap.RAListofIdleModeUEs),
  (.same, Ranap.NotEmptyRAListofIdleModeUEs),
  (.same, Ranap.RAofIdleModeUEs),
  (.same, Ranap.LAListofIdleModeUEs),
  (.same, Ranap.RAT_Type),
  (.same, Ranap.RateControlAllowed),
  (.same, Ranap.RedirectAttemptFlag),
  (.same, Ranap.RedirectionCompleted),
  (.same, Ranap.RejectCauseValue),
  (.same, Ranap.RelocationRequirement),
  (.same, Ranap.RelocationType),
  (.same, Ranap.RepetitionNumber0),
  (.same, Ranap.RepetitionNumber1),
  (.same, Ranap.ReportArea),
  (.same, Ranap.ReportInterval),
  (.same, Ranap.ReportAmount),
  (.same, Ranap.RequestedGPSAssistanceData),
  (.same, Ranap.RequestedGANSSAssistanceData),
  (.same, Ranap.RequestedLocationRelatedDataType),
  (.same, Ranap.RequestedMBMSIPMulticastAddressandAPNRequest),
  (.same, Ranap.MBMSIPMulticastAddressandAPNlist),
  (.same, Ranap.RequestedMulticastServiceList),
  (.same, Ranap.Requested_RAB_Parameter_Values),
  (.same, Ranap.Requested_RAB_Parameter_ExtendedMaxBitrateList),
  (.same, Ranap.Requested_RAB_Parameter_ExtendedGuaranteedBitrateList),
  (.same, Ranap.Requested_RAB_Parameter_MaxBitrateList),
  (.same, Ranap.Requested_RAB_Parameter_GuaranteedBitrateList),
  (.same, Ranap.RequestType),
  (.same, Ranap.ResidualBitErrorRatio),
  (.same, Ranap.ResponseTime),
  (.same, Ranap.RIMInformation),
  (.same, Ranap.RIM_Transfer),
  (.same, Ranap.RIMRoutingAddress),
  (.same, Ranap.RNC_ID),
  (.same, Ranap.RNCTraceInformation),
  (.same, Ranap.RNSAPRelocationParameters),
  (.same, Ranap.RRC_Container),
  (.same, Ranap.RTLoadValue),
  (.same, Ranap.RSRVCC_HO_Indication),
  (.same, Ranap.RSRVCC_Information),
  (.same, Ranap.RSRVCC_Operation_Possible),
  (.same, Ranap.SAC),
  (.same, Ranap.SAI),
  (.same, Ranap.SAPI),
  (.same, Ranap.SessionUpdateID),
  (.same, Ranap.Shared_Network_Information),
  (.same, Ranap.Session_Re_establishment_Indicator),
  (.same, Ranap.SignallingIndication),
  (.same, Ranap.SDU_ErrorRatio),
  (.same, Ranap.SDU_FormatInformationParameters),
  (.same, Ranap.SDU_FormatInformationParameterItem),
  (.same, Ranap.SDU_Parameters),
  (.same, Ranap.SDU_ParameterItem),
  (.same, Ranap.SNA_Access_Information),
  (.same, Ranap.SNAC),
  (.same, Ranap.Service_Handover),
  (.same, Ranap.Source_ToTarget_TransparentContainer),
  (.same, Ranap.SourceeNodeB_ToTargeteNodeB_TransparentContainer),
  (.same, Ranap.SourceCellID),
  (.same, Ranap.SourceBSS_ToTargetBSS_TransparentContainer),
  (.same, Ranap.SourceID),
  (.same, Ranap.SourceRNC_ID),
  (.same, Ranap.SourceRNC_ToTargetRNC_TransparentContainer),
  (.same, Ranap.IRAT_Measurement_Configuration),
  (.same, Ranap.IRATmeasurementParameters),
  (.same, Ranap.RSRQ_Type),
  (.same, Ranap.RSRQ_Extension),
  (.same, Ranap.EUTRANFrequencies),
  (.same, Ranap.EUTRANFrequencies_Value),
  (.same, Ranap.MeasBand),
  (.same, Ranap.SubscriberProfileIDforRFP),
  (.same, Ranap.SourceStatisticsDescriptor),
  (.same, Ranap.SupportedRAB_ParameterBitrateList),
  (.same, Ranap.SupportedBitrate),
  (.same, Ranap.SourceUTRANCellID),
  (.same, Ranap.SRB_ID),
  (.same, Ranap.SRB_TrCH_Mapping),
  (.same, Ranap.SRB_TrCH_MappingItem),
  (.same, Ranap.SRVCC_HO_Indication),
  (.same, Ranap.SRVCC_Information),
  (.same, Ranap.SRVCC_Operation_Possible),
  (.same, Ranap.SubflowSDU_Size),
  (.same, Ranap.TAC),
  (.same, Ranap.TAI),
  (.same, Ranap.Target_ToSource_TransparentContainer),
  (.same, Ranap.TargeteNodeB_ToSourceeNodeB_TransparentContainer),
  (.same, Ranap.TargetBSS_ToSourceBSS_TransparentContainer),
  (.same, Ranap.TargetCellId),
  (.same, Ranap.TargetID),
  (.same, Ranap.TargetENB_ID),
  (.same, Ranap.TargetRNC_ID),
  (.same, Ranap.TargetRNC_ToSourceRNC_TransparentContainer),
  (.same, Ranap.TBCD_STRING),
  (.same, Ranap.TemporaryUE_ID),
  (.same, Ranap.Time_UE_StayedInCell),
  (.same, Ranap.Time_UE_StayedInCell_EnhancedGranularity),
  (.same, Ranap.TimeToMBMSDataTransfer),
  (.same, Ranap.TimingDifferenceULDL),
  (.same, Ranap.TMGI),
  (.same, Ranap.TMSI),
  (.same, Ranap.TraceDepth),
  (.same, Ranap.TraceInformation),
  (.same, Ranap.TracePropagationParameters),
  (.same, Ranap.TraceRecordingSessionInformation),
  (.same, Ranap.TraceRecordingSessionReference),
  (.same, Ranap.TraceReference),
  (.same, Ranap.TraceType),
  (.same, Ranap.TrafficClass),
  (.same, Ranap.TrafficHandlingPriority),
  (.same, Ranap.TransferDelay),
  (.same, Ranap.UnsuccessfullyTransmittedDataVolume),
  (.same, Ranap.TransportLayerAddress),
  (.same, Ranap.TrCH_ID),
  (.same, Ranap.TrCH_ID_List),
  (.same, Ranap.TriggerID),
  (.same, Ranap.TunnelInformation),
  (.same, Ranap.TypeOfError),
  (.same, Ranap.UE_AggregateMaximumBitRate),
  (.same, Ranap.UE_AggregateMaximumBitRateDownlink),
  (.same, Ranap.UE_AggregateMaximumBitRateUplink),
  (.same, Ranap.UE_History_Information),
  (.same, Ranap.UE_ID),
  (.same, Ranap.UESBI_Iu),
  (.same, Ranap.UESBI_IuA),
  (.same, Ranap.UESBI_IuB),
  (.same, Ranap.UL_GTP_PDU_SequenceNumber),
  (.same, Ranap.UL_N_PDU_SequenceNumber),
  (.same, Ranap.UPInformation),
  (.same, Ranap.UPInitialisationFrame),
  (.same, Ranap.UP_ModeVersions),
  (.same, Ranap.USCH_ID),
  (.same, Ranap.UserPlaneMode),
  (.same, Ranap.UTRAN_CellID),
  (.same, Ranap.VelocityEstimate),
  (.same, Ranap.HorizontalVelocity),
  (.same, Ranap.HorizontalWithVerticalVelocity),
  (.same, Ranap.HorizontalVelocityWithUncertainty),
  (.same, Ranap.HorizontalWithVerticalVelocityAndUncertainty),
  (.same, Ranap.HorizontalSpeedAndBearing),
  (.same, Ranap.VerticalVelocity),
  (.same, Ranap.VerticalSpeedDirection),
  (.same, Ranap.VerticalAccuracyCode),
  (.same, Ranap.VoiceSupportMatchIndicator),
  (.message, Ranap.Iu_ReleaseCommand),
  (.message, Ranap.Iu_ReleaseComplete),
  (.list, Ranap.RAB_DataVolumeReportList),
  (.same, Ranap.RAB_DataVolumeReportItem),
  (.list, Ranap.RAB_ReleasedList_IuRelComp),
  (.same, Ranap.RAB_ReleasedItem_IuRelComp),
  (.message, Ranap.RelocationRequired),
  (.message, Ranap.RelocationCommand),
  (.list, Ranap.RAB_RelocationReleaseList),
  (.same, Ranap.RAB_RelocationReleaseItem),
  (.list, Ranap.RAB_DataForwardingList),
  (.same, Ranap.RAB_DataForwardingItem),
  (.message, Ranap.RelocationPreparationFailure),
  (.message, Ranap.RelocationRequest),
  (.list, Ranap.RAB_SetupList_RelocReq),
  (.same, Ranap.RAB_SetupItem_RelocReq),
  (.same, Ranap.UserPlaneInformation),
  (.same, Ranap.CNMBMSLinkingInformation),
  (.same, Ranap.JoinedMBMSBearerService_IEs),
  (.same, Ranap.JoinedMBMSBearerService_IEs_Value),
  (.message, Ranap.RelocationRequestAcknowledge),
  (.list, Ranap.RAB_SetupList_RelocReqAck),
  (.same, Ranap.RAB_SetupItem_RelocReqAck),
  (.list, Ranap.RAB_FailedList),
  (.same, Ranap.RAB_FailedItem),
  (.message, Ranap.RelocationFailure),
  (.message, Ranap.RelocationCancel),
  (.message, Ranap.RelocationCancelAcknowledge),
  (.message, Ranap.SRNS_ContextRequest),
  (.list, Ranap.RAB_DataForwardingList_SRNS_CtxReq),
  (.same, Ranap.RAB_DataForwardingItem_SRNS_CtxReq),
  (.message, Ranap.SRNS_ContextResponse),
  (.list, Ranap.RAB_ContextList),
  (.same, Ranap.RAB_ContextItem),
  (.list, Ranap.RABs_ContextFailedtoTransferList),
  (.same, Ranap.RABs_ContextFailedtoTransferItem),
  (.message, Ranap.SecurityModeCommand),
  (.message, Ranap.SecurityModeComplete),
  (.message, Ranap.SecurityModeReject),
  (.message, Ranap.DataVolumeReportRequest),
  (.list, Ranap.RAB_DataVolumeReportRequestList),
  (.same, Ranap.RAB_DataVolumeReportRequestItem),
  (.message, Ranap.DataVolumeReport),
  (.list, Ranap.RABs_failed_to_reportList),
  (.same, Ranap.RABs_failed_to_reportItem),
  (.message, Ranap.Reset),
  (.message, Ranap.ResetAcknowledge),
  (.message, Ranap.ResetResource),
  (.list, Ranap.ResetResourceList),
  (.same, Ranap.ResetResourceItem),
  (.message, Ranap.ResetResourceAcknowledge),
  (.list, Ranap.ResetResourceAckList),
  (.same, Ranap.ResetResourceAckItem),
  (.message, Ranap.RAB_ReleaseRequest),
  (.list, Ranap.RAB_ReleaseList),
  (.same, Ranap.RAB_ReleaseItem),
  (.message, Ranap.Iu_ReleaseRequest),
  (.message, Ranap.RelocationDetect),
  (.message, Ranap.RelocationComplete),
  (.message, Ranap.EnhancedRelocationCompleteRequest),
  (.list, Ranap.RAB_SetupList_EnhancedRelocCompleteReq),
  (.same, Ranap.RAB_SetupItem_EnhancedRelocCompleteReq),
  (.message, Ranap.EnhancedRelocationCompleteResponse),
  (.list, Ranap.RAB_SetupList_EnhancedRelocCompleteRes),
  (.other, Ranap.RAB_SetupItem_EnhancedRelocCompleteRes),
  (.list, Ranap.RAB_ToBeReleasedList_EnhancedRelocCompleteRes),
  (.same, Ranap.RAB_ToBeReleasedItem_EnhancedRelocCompleteRes),
  (.message, Ranap.EnhancedRelocationCompleteFailure),
  (.message, Ranap.EnhancedRelocationCompleteConfirm),
  (.message, Ranap.Paging),
  (.message, Ranap.CommonID),
  (.message, Ranap.CN_InvokeTrace),
  (.message, Ranap.CN_DeactivateTrace),
  (.message, Ranap.LocationReportingControl),
  (.message, Ranap.LocationReport),
  (.message, Ranap.InitialUE_Message),
  (.message, Ranap.DirectTransfer),
  (.other, Ranap.RedirectionIndication),
  (.message, Ranap.Overload),
  (.message, Ranap.ErrorIndication),
  (.message, Ranap.SRNS_DataForwardCommand),
  (.message, Ranap.ForwardSRNS_Context),
  (.message, Ranap.RAB_AssignmentRequest),
  (.same, Ranap.RAB_SetupOrModifyList),
  (.same, Ranap.RAB_SetupOrModifyItemFirst),
  (.same, Ranap.TransportLayerInformation),
  (.same, Ranap.RAB_SetupOrModifyItemSecond),
  (.message, Ranap.RAB_AssignmentResponse),
  (.list, Ranap.RAB_SetupOrModifiedList),
  (.same, Ranap.RAB_SetupOrModifiedItem),
  (.list, Ranap.RAB_ReleasedList),
  (.same, Ranap.RAB_ReleasedItem),
  (.same, Ranap.DataVolumeList),
  (.same, Ranap.DataVolumeList_Value),
  (.list, Ranap.RAB_QueuedList),
  (.same, Ranap.RAB_QueuedItem),
  (.list, Ranap.RAB_ReleaseFailedList),
  (.list, Ranap.GERAN_Iumode_RAB_FailedList_RABAssgntResponse),
  (.same, Ranap.GERAN_Iumode_RAB_Failed_RABAssgntResponse_Item),
  (.other, Ranap.PrivateMessage),
  (.message, Ranap.RANAP_RelocationInformation),
  (.same, Ranap.DirectTransferInformationItem_RANAP_RelocInf),
  (.list, Ranap.RAB_ContextList_RANAP_RelocInf),
  (.same, Ranap.RAB_ContextItem_RANAP_RelocInf),
  (.message, Ranap.RANAP_EnhancedRelocationInformationRequest),
  (.list, Ranap.RAB_SetupList_EnhRelocInfoReq),
  (.same, Ranap.RAB_SetupItem_EnhRelocInfoReq),
  (.same, Ranap.TNLInformationEnhRelInfoReq),
  (.message, Ranap.RANAP_EnhancedRelocationInformationResponse),
  (.list, Ranap.RAB_SetupList_EnhRelocInfoRes),
  (.same, Ranap.RAB_SetupItem_EnhRelocInfoRes),
  (.list, Ranap.RAB_FailedList_EnhRelocInfoRes),
  (.same, Ranap.RAB_FailedItem_EnhRelocInfoRes),
  (.same, Ranap.TNLInformationEnhRelInfoRes),
  (.message, Ranap.RAB_ModifyRequest),
  (.list, Ranap.RAB_ModifyList),
  (.same, Ranap.RAB_ModifyItem),
  (.message, Ranap.LocationRelatedDataRequest),
  (.message, Ranap.LocationRelatedDataResponse),
  (.message, Ranap.LocationRelatedDataFailure),
  (.message, Ranap.InformationTransferIndication),
  (.message, Ranap.InformationTransferConfirmation),
  (.message, Ranap.InformationTransferFailure),
  (.message, Ranap.UESpecificInformationIndication),
  (.message, Ranap.DirectInformationTransfer),
  (.message, Ranap.UplinkInformationExchangeRequest),
  (.message, Ranap.UplinkInformationExchangeResponse),
  (.message, Ranap.UplinkInformationExchangeFailure),
  (.message, Ranap.MBMSSessionStart),
  (.same, Ranap.MBMSSynchronisationInformation),
  (.message, Ranap.MBMSSessionStartResponse),
  (.message, Ranap.MBMSSessionStartFailure),
  (.message, Ranap.MBMSSessionUpdate),
  (.message, Ranap.MBMSSessionUpdateResponse),
  (.message, Ranap.MBMSSessionUpdateFailure),
  (.message, Ranap.MBMSSessionStop),
  (.message, Ranap.MBMSSessionStopResponse),
  (.message, Ranap.MBMSUELinkingRequest),
  (.same, Ranap.LeftMBMSBearerService_IEs),
  (.same, Ranap.LeftMBMSBearerService_IEs_Value),
  (.message, Ranap.MBMSUELinkingResponse),
  (.same, Ranap.UnsuccessfulLinking_IEs),
  (.same, Ranap.UnsuccessfulLinking_IEs_Value),
  (.message, Ranap.MBMSRegistrationRequest),
  (.message, Ranap.MBMSRegistrationResponse),
  (.message, Ranap.MBMSRegistrationFailure),
  (.message, Ranap.MBMSCNDe_RegistrationRequest),
  (.message, Ranap.MBMSCNDe_RegistrationResponse),
  (.message, Ranap.MBMSRABEstablishmentIndication),
  (.message, Ranap.MBMSRABReleaseRequest),
  (.message, Ranap.MBMSRABRelease),
  (.message, Ranap.MBMSRABReleaseFailure),
  (.message, Ranap.SRVCC_CSKeysRequest),
  (.message, Ranap.SRVCC_CSKeysResponse),
  (.message, Ranap.UeRadioCapabilityMatchRequest),
  (.message, Ranap.UeRadioCapabilityMatchResponse),
  (.same, Ranap.RANAP_PDU),
  (.same, Ranap.InitiatingMessage),
  (.same, Ranap.SuccessfulOutcome),
  (.same, Ranap.UnsuccessfulOutcome),
  (.same, Ranap.Outcome),
  (.same, Ranap.IE)]

/-- The types of the elements. -/
def ranapIndices : List (List Nat) := [
  [42],
  [421, 423, 59],
  [422],
  [424],
  [286, 42, 336, 364, 68, 69, 332, 222],
  [360, 174, 427, 429, 59],
  [428],
  [430],
  [42, 59],
  [233, 42, 70, 338, 433, 148, 96, 153],
  [434],
  [367, 440, 442, 66, 65, 59],
  [441],
  [443],
  [42, 59],
  [42],
  [59],
  [448],
  [449],
  [451, 453, 59],
  [452],
  [454],
  [148, 96, 155],
  [66, 65, 59],
  [42, 59],
  [459],
  [460],
  [421, 462, 59],
  [463],
  [42, 70, 127],
  [70, 59, 127],
  [70, 42, 467, 127],
  [468],
  [70, 470, 127, 59],
  [471],
  [473],
  [474],
  [42],
  [153, 153, 127, 106, 127, 106, 479],
  [480],
  [482, 484, 59],
  [483],
  [485],
  [42, 59],
  [442],
  [70, 233, 369, 225, 226, 215, 90],
  [233],
  [382, 381, 390, 397, 223],
  [381, 390],
  [303],
  [31, 42, 303],
  [70, 159, 274, 318, 211, 153, 127],
  [211, 159, 274, 318, 319],
  [211, 284, 212, 233],
  [218, 127],
  [42, 59, 70, 127],
  [429],
  [451],
  [502, 473],
  [507, 509, 513, 442, 515, 59],
  [508],
  [510],
  [514],
  [517],
  [521],
  [520],
  [522],
  [338, 153, 126, 153, 126, 524, 329, 398, 241, 436],
  [525],
  [367, 528, 530, 59],
  [529],
  [531],
  [534],
  [535],
  [168],
  [41],
  [42],
  [145, 255, 70, 126],
  [145, 70, 59, 127],
  [145, 70, 42, 59, 127],
  [398],
  [150, 70, 127, 126],
  [141, 142, 146, 144, 70, 127],
  [141, 143, 70, 126, 59],
  [141, 70, 126, 42, 59],
  [374, 200, 191, 153, 268, 227, 199, 198, 108, 276, 126, 201, 372],
  [504, 42, 59],
  [42, 59],
  [320, 83],
  [320, 504, 42, 59],
  [320, 42, 59],
  [192],
  [42, 59],
  [437, 557],
  [560, 59],
  [197, 374, 152, 30, 127],
  [374, 126, 59],
  [374, 126, 42, 59],
  [374, 126],
  [374, 127, 42, 59],
  [504],
  [42],
  [42, 59],
  [42, 59],
  [149, 97, 355, 59],
  [418]]

end Verif.Gen.AsnTable
