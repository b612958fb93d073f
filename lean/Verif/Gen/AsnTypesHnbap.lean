import Verif.Gen.AsnHnbap
import Verif.Spec.AsnTypes

/-!
# The assignments of the HNBAP modules

What the modules of `/repo/asn1/hnbap` assign, in a form of its own for each kind, and the types of `Gen/AsnHnbap.lean` by name.
Nothing is taken from here on trust: see `Proofs/TypesHnbap.lean`.
-/

namespace Verif.Gen.Text
open Verif.AsnToStruct Verif.AsnToStruct.Spec

/-- Of `hnbapCommon`. -/
noncomputable def hnbapCommonAssignments : List Assignment := [
  .number (text% "maxPrivateIEs") 65535,
  .number (text% "maxProtocolExtensions") 65535,
  .number (text% "maxProtocolIEs") 65535,
  .type (text% "Criticality") (.enum [text% "reject", text% "ignore", text% "notify"] none),
  .type (text% "Presence") (.enum [text% "optional", text% "conditional", text% "mandatory"] none),
  .type (text% "PrivateIE-ID") (.choice (.cons (text% "local") (.int [] (some ⟨text% "0", text% "65535", false⟩)) false (.cons (text% "global") .oid false .nil)) none),
  .type (text% "ProcedureCode") (.int [(text% "id-HNBRegister", text% "1"), (text% "id-HNBDe-Register", text% "2"), (text% "id-UERegister", text% "3"), (text% "id-UEDe-Register", text% "4"), (text% "id-ErrorIndication", text% "5"), (text% "id-privateMessage", text% "6"), (text% "id-CSGMembershipUpdate", text% "7"), (text% "id-TNLUpdate", text% "9"), (text% "id-HNBConfigTransfer", text% "10"), (text% "id-RelocationComplete", text% "11"), (text% "id-U-RNTIQuery", text% "14")] (some ⟨text% "0", text% "255", false⟩)),
  .type (text% "ProtocolIE-ID") (.int [(text% "id-Cause", text% "1"), (text% "id-CriticalityDiagnostics", text% "2"), (text% "id-HNB-Identity", text% "3"), (text% "id-Context-ID", text% "4"), (text% "id-UE-Identity", text% "5"), (text% "id-LAC", text% "6"), (text% "id-RAC", text% "7"), (text% "id-HNB-Location-Information", text% "8"), (text% "id-PLMNidentity", text% "9"), (text% "id-SAC", text% "10"), (text% "id-CellIdentity", text% "11"), (text% "id-Registration-Cause", text% "12"), (text% "id-UE-Capabilities", text% "13"), (text% "id-RNC-ID", text% "14"), (text% "id-CSG-ID", text% "15"), (text% "id-BackoffTimer", text% "16"), (text% "id-HNB-Internet-Information", text% "17"), (text% "id-HNB-Cell-Access-Mode", text% "18"), (text% "id-MuxPortNumber", text% "19"), (text% "id-Service-Area-For-Broadcast", text% "20"), (text% "id-CSGMembershipStatus", text% "21"), (text% "id-RABList", text% "22"), (text% "id-HNBConfigInfo", text% "23"), (text% "id-AccessResult", text% "25"), (text% "id-Update-cause", text% "26"), (text% "id-NeighbourInfoList", text% "27"), (text% "id-NeighbourInfoRequestList", text% "28"), (text% "id-Iurh-Signalling-TNL-Address", text% "29"), (text% "id-PSC", text% "30"), (text% "id-HNB-Cell-Identifier", text% "31"), (text% "id-Tunnel-Information", text% "41"), (text% "id-CELL-FACHMobilitySupport", text% "42"), (text% "id-S-RNTIPrefix", text% "43"), (text% "id-URAIdentity", text% "44"), (text% "id-NeighbourIdentity", text% "45"), (text% "id-HNBCapacity", text% "46"), (text% "id-NeighbourCellIdentityList", text% "47"), (text% "id-AdditionalNeighbourInfoList", text% "48"), (text% "id-U-RNTI", text% "49"), (text% "id-UnknownU-RNTIIndication", text% "50"), (text% "id-HNB-GWResponse", text% "51"), (text% "id-URAIdentityList", text% "52")] (some ⟨text% "0", text% "maxProtocolIEs", false⟩)),
  .type (text% "TriggeringMessage") (.enum [text% "initiating-message", text% "successful-outcome", text% "unsuccessful-outcome"] none)]

/-- Of `hnbapConstants`. -/
noncomputable def hnbapConstantsAssignments : List Assignment := [
  .number (text% "id-HNBRegister") 1,
  .number (text% "id-HNBDe-Register") 2,
  .number (text% "id-UERegister") 3,
  .number (text% "id-UEDe-Register") 4,
  .number (text% "id-ErrorIndication") 5,
  .number (text% "id-privateMessage") 6,
  .number (text% "id-CSGMembershipUpdate") 7,
  .number (text% "id-TNLUpdate") 9,
  .number (text% "id-HNBConfigTransfer") 10,
  .number (text% "id-RelocationComplete") 11,
  .number (text% "id-U-RNTIQuery") 14,
  .number (text% "maxNrOfErrors") 256,
  .number (text% "maxnoofRABs") 256,
  .number (text% "maxnoofAdditionalNeighbours") 128,
  .number (text% "maxnoofURAIdentities") 8,
  .number (text% "maxnoofNeighbours") 32,
  .number (text% "maxnoofIurhAddresses") 3,
  .number (text% "id-Cause") 1,
  .number (text% "id-CriticalityDiagnostics") 2,
  .number (text% "id-HNB-Identity") 3,
  .number (text% "id-Context-ID") 4,
  .number (text% "id-UE-Identity") 5,
  .number (text% "id-LAC") 6,
  .number (text% "id-RAC") 7,
  .number (text% "id-HNB-Location-Information") 8,
  .number (text% "id-PLMNidentity") 9,
  .number (text% "id-SAC") 10,
  .number (text% "id-CellIdentity") 11,
  .number (text% "id-Registration-Cause") 12,
  .number (text% "id-UE-Capabilities") 13,
  .number (text% "id-RNC-ID") 14,
  .number (text% "id-CSG-ID") 15,
  .number (text% "id-BackoffTimer") 16,
  .number (text% "id-HNB-Internet-Information") 17,
  .number (text% "id-HNB-Cell-Access-Mode") 18,
  .number (text% "id-MuxPortNumber") 19,
  .number (text% "id-Service-Area-For-Broadcast") 20,
  .number (text% "id-CSGMembershipStatus") 21,
  .number (text% "id-RABList") 22,
  .number (text% "id-HNBConfigInfo") 23,
  .number (text% "id-AccessResult") 25,
  .number (text% "id-Update-cause") 26,
  .number (text% "id-NeighbourInfoList") 27,
  .number (text% "id-NeighbourInfoRequestList") 28,
  .number (text% "id-Iurh-Signalling-TNL-Address") 29,
  .number (text% "id-PSC") 30,
  .number (text% "id-HNB-Cell-Identifier") 31,
  .number (text% "id-Tunnel-Information") 41,
  .number (text% "id-CELL-FACHMobilitySupport") 42,
  .number (text% "id-S-RNTIPrefix") 43,
  .number (text% "id-URAIdentity") 44,
  .number (text% "id-NeighbourIdentity") 45,
  .number (text% "id-HNBCapacity") 46,
  .number (text% "id-NeighbourCellIdentityList") 47,
  .number (text% "id-AdditionalNeighbourInfoList") 48,
  .number (text% "id-U-RNTI") 49,
  .number (text% "id-UnknownU-RNTIIndication") 50,
  .number (text% "id-HNB-GWResponse") 51,
  .number (text% "id-URAIdentityList") 52]

/-- Of `hnbapContainers`. -/
noncomputable def hnbapContainersAssignments : List Assignment := [
  .cls (text% "HNBAP-PROTOCOL-IES") [(text% "id", text% "ProtocolIE-ID"), (text% "criticality", text% "Criticality"), (text% "presence", text% "Presence")],
  .cls (text% "HNBAP-PROTOCOL-EXTENSION") [(text% "id", text% "ProtocolIE-ID"), (text% "criticality", text% "Criticality"), (text% "presence", text% "Presence")],
  .cls (text% "HNBAP-PRIVATE-IES") [(text% "id", text% "PrivateIE-ID"), (text% "criticality", text% "Criticality"), (text% "presence", text% "Presence")],
  .template (text% "ProtocolIE-Container") [text% "IEsSetParam"] (.seqOf (some ⟨text% "0", text% "maxProtocolIEs", false⟩) (.app (text% "ProtocolIE-Field") [text% "IEsSetParam"])),
  .template (text% "ProtocolIE-Single-Container") [text% "IEsSetParam"] (.app (text% "ProtocolIE-Field") [text% "IEsSetParam"]),
  .template (text% "ProtocolIE-Field") [text% "IEsSetParam"] (.seq (.cons (text% "id") (.field (text% "HNBAP-PROTOCOL-IES") (text% "id")) false (.cons (text% "criticality") (.field (text% "HNBAP-PROTOCOL-IES") (text% "criticality")) false (.cons (text% "value") (.field (text% "HNBAP-PROTOCOL-IES") (text% "Value")) false .nil))) none),
  .template (text% "ProtocolIE-ContainerList") [text% "lowerBound", text% "upperBound", text% "IEsSetParam"] (.seqOf (some ⟨text% "lowerBound", text% "upperBound", false⟩) (.app (text% "ProtocolIE-Container") [text% "IEsSetParam"])),
  .template (text% "ProtocolExtensionContainer") [text% "ExtensionSetParam"] (.seqOf (some ⟨text% "1", text% "maxProtocolExtensions", false⟩) (.app (text% "ProtocolExtensionField") [text% "ExtensionSetParam"])),
  .template (text% "ProtocolExtensionField") [text% "ExtensionSetParam"] (.seq (.cons (text% "id") (.field (text% "HNBAP-PROTOCOL-EXTENSION") (text% "id")) false (.cons (text% "criticality") (.field (text% "HNBAP-PROTOCOL-EXTENSION") (text% "criticality")) false (.cons (text% "extensionValue") (.field (text% "HNBAP-PROTOCOL-EXTENSION") (text% "Extension")) false .nil))) none),
  .template (text% "PrivateIE-Container") [text% "IEsSetParam"] (.seqOf (some ⟨text% "1", text% "maxPrivateIEs", false⟩) (.app (text% "PrivateIE-Field") [text% "IEsSetParam"])),
  .template (text% "PrivateIE-Field") [text% "IEsSetParam"] (.seq (.cons (text% "id") (.field (text% "HNBAP-PRIVATE-IES") (text% "id")) false (.cons (text% "criticality") (.field (text% "HNBAP-PRIVATE-IES") (text% "criticality")) false (.cons (text% "value") (.field (text% "HNBAP-PRIVATE-IES") (text% "Value")) false .nil))) none)]

/-- Of `hnbapIes`. -/
noncomputable def hnbapIesAssignments : List Assignment := [
  .type (text% "IE-Extensions") (.seqOf (some ⟨text% "1", text% "maxProtocolExtensions", false⟩) (.ref (text% "IE"))),
  .type (text% "Access-stratum-release-indicator") (.enum [text% "r99", text% "rel-4", text% "rel-5", text% "rel-6", text% "rel-7", text% "rel-8-and-beyond"] (some [])),
  .type (text% "AccessResult") (.enum [text% "allowed", text% "notAllowed"] (some [])),
  .type (text% "AltitudeAndDirection") (.seq (.cons (text% "directionOfAltitude") (.enum [text% "height", text% "depth"] none) false (.cons (text% "altitude") (.int [] (some ⟨text% "0", text% "32767", false⟩)) false .nil)) (some .nil)),
  .type (text% "BackoffTimer") (.int [] (some ⟨text% "0", text% "3600", false⟩)),
  .type (text% "BindingID") (.octets (some ⟨text% "1", text% "4", true⟩)),
  .type (text% "Cause") (.choice (.cons (text% "radioNetwork") (.ref (text% "CauseRadioNetwork")) false (.cons (text% "transport") (.ref (text% "CauseTransport")) false (.cons (text% "protocol") (.ref (text% "CauseProtocol")) false (.cons (text% "misc") (.ref (text% "CauseMisc")) false .nil)))) (some .nil)),
  .type (text% "CauseRadioNetwork") (.enum [text% "overload", text% "unauthorised-Location", text% "unauthorised-HNB", text% "hNB-parameter-mismatch", text% "invalid-UE-identity", text% "uE-not-allowed-on-this-HNB", text% "uE-unauthorised", text% "connection-with-UE-lost", text% "ue-RRC-release", text% "hNB-not-registered", text% "unspecified", text% "normal", text% "uE-relocated", text% "ue-registered-in-another-HNB"] (some [text% "no-neighbour-information-available", text% "iurh-connection-to-that-neighbour-not-Allowed"])),
  .type (text% "CauseTransport") (.enum [text% "transport-resource-unavailable", text% "unspecified"] (some [])),
  .type (text% "CauseProtocol") (.enum [text% "transfer-syntax-error", text% "abstract-syntax-error-reject", text% "abstract-syntax-error-ignore-and-notify", text% "message-not-compatible-with-receiver-state", text% "semantic-error", text% "unspecified", text% "abstract-syntax-error-falsely-constructed-message"] (some [])),
  .type (text% "CauseMisc") (.enum [text% "processing-overload", text% "hardware-failure", text% "o-and-m-intervention", text% "unspecified"] (some [])),
  .type (text% "CellIdentity") (.bits (some ⟨text% "28", text% "28", false⟩)),
  .type (text% "CELL-FACHMobilitySupport") (.enum [text% "supported"] (some [])),
  .type (text% "Context-ID") (.bits (some ⟨text% "24", text% "24", false⟩)),
  .type (text% "CriticalityDiagnostics") (.seq (.cons (text% "procedureCode") (.ref (text% "ProcedureCode")) true (.cons (text% "triggeringMessage") (.ref (text% "TriggeringMessage")) true (.cons (text% "procedureCriticality") (.ref (text% "Criticality")) true (.cons (text% "iEsCriticalityDiagnostics") (.ref (text% "CriticalityDiagnostics-IE-List")) true (.cons (text% "iE-Extensions") (.ref (text% "IE-Extensions")) true .nil))))) (some .nil)),
  .type (text% "CriticalityDiagnostics-IE-List") (.seqOf (some ⟨text% "1", text% "maxNrOfErrors", false⟩) (.ref (text% "CriticalityDiagnostics-IE-List-Value"))),
  .type (text% "CriticalityDiagnostics-IE-List-Value") (.seq (.cons (text% "iECriticality") (.ref (text% "Criticality")) false (.cons (text% "iE-ID") (.ref (text% "ProtocolIE-ID")) false (.cons (text% "typeOfError") (.ref (text% "TypeOfError")) false (.cons (text% "iE-Extensions") (.ref (text% "IE-Extensions")) true .nil)))) (some .nil)),
  .type (text% "CSG-ID") (.bits (some ⟨text% "27", text% "27", false⟩)),
  .type (text% "CSG-Capability") (.enum [text% "csg-capable", text% "not-csg-capable"] (some [])),
  .type (text% "CSGMembershipStatus") (.enum [text% "member", text% "non-member"] (some [])),
  .type (text% "CGI") (.seq (.cons (text% "pLMNidentity") (.ref (text% "PLMNidentity")) false (.cons (text% "lAC") (.ref (text% "LAC")) false (.cons (text% "cI") (.ref (text% "CI")) false (.cons (text% "iE-Extensions") (.ref (text% "IE-Extensions")) true .nil)))) none),
  .type (text% "CI") (.octets (some ⟨text% "2", text% "2", false⟩)),
  .type (text% "CN-DomainIndicator") (.enum [text% "cs-domain", text% "ps-domain"] none),
  .type (text% "ESN") (.bits (some ⟨text% "32", text% "32", false⟩)),
  .type (text% "GeographicalLocation") (.seq (.cons (text% "geographicalCoordinates") (.ref (text% "GeographicalCoordinates")) false (.cons (text% "altitudeAndDirection") (.ref (text% "AltitudeAndDirection")) false (.cons (text% "iE-Extensions") (.ref (text% "IE-Extensions")) true .nil))) (some .nil)),
  .type (text% "GeographicalCoordinates") (.seq (.cons (text% "latitudeSign") (.enum [text% "north", text% "south"] none) false (.cons (text% "latitude") (.int [] (some ⟨text% "0", text% "8388607", false⟩)) false (.cons (text% "longitude") (.int [] (some ⟨text% "-8388608", text% "8388607", false⟩)) false (.cons (text% "iE-Extensions") (.ref (text% "IE-Extensions")) true .nil)))) (some .nil)),
  .type (text% "GTP-TEI") (.octets (some ⟨text% "4", text% "4", false⟩)),
  .type (text% "HNBCapacity") (.int [] (some ⟨text% "0", text% "1000", false⟩)),
  .type (text% "HNB-Cell-Access-Mode") (.enum [text% "closed", text% "hybrid", text% "open"] (some [])),
  .type (text% "HNB-Cell-Identifier") (.seq (.cons (text% "pLMNidentity") (.ref (text% "PLMNidentity")) false (.cons (text% "cellIdentity") (.ref (text% "CellIdentity")) false (.cons (text% "iE-Extensions") (.ref (text% "IE-Extensions")) true .nil))) (some .nil)),
  .type (text% "HNB-GWResponse") (.choice (.cons (text% "hNB") (.ref (text% "HNBConfigInfo")) false (.cons (text% "macroRNC") (.ref (text% "RNC-ID")) false (.cons (text% "unknownU-RNTIIndication") (.ref (text% "UnknownU-RNTIIndication")) false .nil))) (some .nil)),
  .type (text% "HNB-RNL-Identity") (.choice (.cons (text% "hNB-Identity-as-Cell-Identifier") (.ref (text% "HNB-Cell-Identifier")) false .nil) (some .nil)),
  .type (text% "HNBConfigInfo") (.seq (.cons (text% "hnb-RNL-Identity") (.ref (text% "HNB-RNL-Identity")) false (.cons (text% "configurationInformation") (.ref (text% "ConfigurationInformation")) false (.cons (text% "iE-Extensions") (.ref (text% "IE-Extensions")) true .nil))) (some .nil)),
  .type (text% "ConfigurationInformation") (.choice (.cons (text% "provided") (.ref (text% "HNBConfigurationInformationProvided")) false (.cons (text% "missing") (.ref (text% "HNBConfigurationInformationMissing")) false .nil)) (some .nil)),
  .type (text% "HNBConfigurationInformationProvided") (.seq (.cons (text% "psc") (.ref (text% "PSC")) true (.cons (text% "cSG-ID") (.ref (text% "CSG-ID")) true (.cons (text% "hNB-Cell-Access-Mode") (.ref (text% "HNB-Cell-Access-Mode")) false (.cons (text% "iurh-Signalling-TNL-AddressList") (.ref (text% "Iurh-Signalling-TNL-AddressList")) false (.cons (text% "iE-Extensions") (.ref (text% "IE-Extensions")) true .nil))))) (some .nil)),
  .type (text% "HNBConfigurationInformationMissing") (.seq (.cons (text% "cause") (.ref (text% "Cause")) false (.cons (text% "iE-Extensions") (.ref (text% "IE-Extensions")) true .nil)) (some .nil)),
  .type (text% "HNB-Location-Information") (.seq (.cons (text% "macroCoverageInfo") (.ref (text% "MacroCoverageInformation")) true (.cons (text% "geographicalCoordinates") (.ref (text% "GeographicalLocation")) true (.cons (text% "iE-Extensions") (.ref (text% "IE-Extensions")) true .nil))) (some .nil)),
  .type (text% "HNB-Identity") (.seq (.cons (text% "hNB-Identity-Info") (.ref (text% "HNB-Identity-Info")) false (.cons (text% "iE-Extensions") (.ref (text% "IE-Extensions")) true .nil)) (some .nil)),
  .type (text% "HNB-Identity-Info") (.octets (some ⟨text% "1", text% "255", false⟩)),
  .type (text% "IMEI") (.bits (some ⟨text% "60", text% "60", false⟩)),
  .type (text% "IMSI") (.octets (some ⟨text% "3", text% "8", false⟩)),
  .type (text% "IMSIDS41") (.octets (some ⟨text% "5", text% "7", false⟩)),
  .type (text% "IMSIESN") (.seq (.cons (text% "iMSIDS41") (.ref (text% "IMSIDS41")) false (.cons (text% "eSN") (.ref (text% "ESN")) false .nil)) none),
  .type (text% "IP-Address") (.seq (.cons (text% "ipaddress") (.choice (.cons (text% "ipv4info") (.ref (text% "Ipv4Address")) false (.cons (text% "ipv6info") (.ref (text% "Ipv6Address")) false .nil)) (some .nil)) false (.cons (text% "iE-Extensions") (.ref (text% "IE-Extensions")) true .nil)) (some .nil)),
  .type (text% "Ipv4Address") (.octets (some ⟨text% "4", text% "4", false⟩)),
  .type (text% "Ipv6Address") (.octets (some ⟨text% "16", text% "16", false⟩)),
  .type (text% "Iurh-Signalling-TNL-AddressList") (.seqOf (some ⟨text% "1", text% "maxnoofIurhAddresses", false⟩) (.ref (text% "IP-Address"))),
  .type (text% "LAC") (.octets (some ⟨text% "2", text% "2", false⟩)),
  .type (text% "LAI") (.seq (.cons (text% "pLMNID") (.ref (text% "PLMNidentity")) false (.cons (text% "lAC") (.ref (text% "LAC")) false .nil)) (some .nil)),
  .type (text% "MacroCoverageInformation") (.seq (.cons (text% "cellIdentity") (.ref (text% "MacroCellID")) false (.cons (text% "iE-Extensions") (.ref (text% "IE-Extensions")) true .nil)) (some .nil)),
  .type (text% "MacroCellID") (.choice (.cons (text% "uTRANCellID") (.ref (text% "UTRANCellID")) false (.cons (text% "gERANCellID") (.ref (text% "CGI")) false .nil)) (some .nil)),
  .type (text% "MuxPortNumber") (.int [] (some ⟨text% "1024", text% "65535", false⟩)),
  .type (text% "NeighbourCellIdentityList") (.seqOf (some ⟨text% "0", text% "maxnoofAdditionalNeighbours", false⟩) (.ref (text% "NeighbourIdentity"))),
  .type (text% "NeighbourIdentity") (.choice (.cons (text% "hNB-RNL-Identity") (.ref (text% "HNB-RNL-Identity")) false (.cons (text% "cell-ID") (.ref (text% "CellIdentity")) false .nil)) (some .nil)),
  .type (text% "NeighbourInfoList") (.seqOf (some ⟨text% "1", text% "maxnoofNeighbours", false⟩) (.ref (text% "HNBConfigInfo"))),
  .type (text% "AdditionalNeighbourInfoList") (.seqOf (some ⟨text% "1", text% "maxnoofAdditionalNeighbours", false⟩) (.ref (text% "HNBConfigInfo"))),
  .type (text% "NeighbourInfoRequestList") (.seqOf (some ⟨text% "1", text% "maxnoofNeighbours", false⟩) (.ref (text% "NeighbourInfoRequestItem"))),
  .type (text% "NeighbourInfoRequestItem") (.seq (.cons (text% "hnb-RNL-Identity") (.ref (text% "HNB-RNL-Identity")) false (.cons (text% "iE-Extensions") (.ref (text% "IE-Extensions")) true .nil)) (some .nil)),
  .type (text% "PLMNidentity") (.octets (some ⟨text% "3", text% "3", false⟩)),
  .type (text% "PSC") (.bits (some ⟨text% "9", text% "9", false⟩)),
  .type (text% "PTMSI") (.bits (some ⟨text% "32", text% "32", false⟩)),
  .type (text% "PTMSIRAI") (.seq (.cons (text% "pTMSI") (.ref (text% "PTMSI")) false (.cons (text% "rAI") (.ref (text% "RAI")) false .nil)) (some .nil)),
  .type (text% "RAB-ID") (.bits (some ⟨text% "8", text% "8", false⟩)),
  .type (text% "RABList") (.seqOf (some ⟨text% "1", text% "maxnoofRABs", false⟩) (.ref (text% "RABListItem"))),
  .type (text% "RABListItem") (.seq (.cons (text% "rAB-ID") (.ref (text% "RAB-ID")) false (.cons (text% "old-transport-Info") (.ref (text% "TransportInfo")) false (.cons (text% "new-transport-Info") (.ref (text% "TransportInfo")) false (.cons (text% "cn-domain-indicator") (.ref (text% "CN-DomainIndicator")) false (.cons (text% "iE-Extensions") (.ref (text% "IE-Extensions")) true .nil))))) (some .nil)),
  .type (text% "RAC") (.octets (some ⟨text% "1", text% "1", false⟩)),
  .type (text% "RAI") (.seq (.cons (text% "lAI") (.ref (text% "LAI")) false (.cons (text% "rAC") (.ref (text% "RAC")) false .nil)) (some .nil)),
  .type (text% "Registration-Cause") (.enum [text% "emergency-call", text% "normal"] (some [text% "ue-relocation"])),
  .type (text% "RNC-ID") (.int [] (some ⟨text% "0", text% "65535", false⟩)),
  .type (text% "SAC") (.octets (some ⟨text% "2", text% "2", false⟩)),
  .type (text% "S-RNTIPrefix") (.bits (some ⟨text% "1", text% "16", true⟩)),
  .type (text% "TMSILAI") (.seq (.cons (text% "tMSI") (.bits (some ⟨text% "32", text% "32", false⟩)) false (.cons (text% "lAI") (.ref (text% "LAI")) false .nil)) none),
  .type (text% "TMSIDS41") (.octets (some ⟨text% "2", text% "17", false⟩)),
  .type (text% "TransportInfo") (.seq (.cons (text% "transportLayerAddress") (.ref (text% "TransportLayerAddress")) false (.cons (text% "transportAssociation") (.choice (.cons (text% "gtp-TEI") (.ref (text% "GTP-TEI")) false (.cons (text% "bindingID") (.ref (text% "BindingID")) false .nil)) (some .nil)) false (.cons (text% "iE-Extensions") (.ref (text% "IE-Extensions")) true .nil))) (some .nil)),
  .type (text% "TransportLayerAddress") (.bits (some ⟨text% "1", text% "160", true⟩)),
  .type (text% "Tunnel-Information") (.seq (.cons (text% "iP-Address") (.ref (text% "IP-Address")) false (.cons (text% "uDP-Port-Number") (.ref (text% "UDP-Port-Number")) true (.cons (text% "iE-Extensions") (.ref (text% "IE-Extensions")) true .nil))) (some .nil)),
  .type (text% "TypeOfError") (.enum [text% "not-understood", text% "missing"] (some [])),
  .type (text% "UDP-Port-Number") (.octets (some ⟨text% "2", text% "2", false⟩)),
  .type (text% "UE-Capabilities") (.seq (.cons (text% "access-stratum-release-indicator") (.ref (text% "Access-stratum-release-indicator")) false (.cons (text% "csg-capability") (.ref (text% "CSG-Capability")) false (.cons (text% "iE-Extensions") (.ref (text% "IE-Extensions")) true .nil))) (some .nil)),
  .type (text% "UTRANCellID") (.seq (.cons (text% "lAC") (.ref (text% "LAC")) false (.cons (text% "rAC") (.ref (text% "RAC")) false (.cons (text% "pLMNidentity") (.ref (text% "PLMNidentity")) false (.cons (text% "uTRANcellID") (.ref (text% "CellIdentity")) false (.cons (text% "iE-Extensions") (.ref (text% "IE-Extensions")) true .nil))))) none),
  .type (text% "UE-Identity") (.choice (.cons (text% "iMSI") (.ref (text% "IMSI")) false (.cons (text% "tMSILAI") (.ref (text% "TMSILAI")) false (.cons (text% "pTMSIRAI") (.ref (text% "PTMSIRAI")) false (.cons (text% "iMEI") (.ref (text% "IMEI")) false (.cons (text% "eSN") (.ref (text% "ESN")) false (.cons (text% "iMSIDS41") (.ref (text% "IMSIDS41")) false (.cons (text% "iMSIESN") (.ref (text% "IMSIESN")) false (.cons (text% "tMSIDS41") (.ref (text% "TMSIDS41")) false .nil)))))))) (some .nil)),
  .type (text% "Update-cause") (.enum [text% "relocation-preparation"] (some [])),
  .type (text% "URAIdentityList") (.seqOf (some ⟨text% "0", text% "maxnoofURAIdentities", false⟩) (.ref (text% "URAIdentity"))),
  .type (text% "URAIdentity") (.int [] (some ⟨text% "0", text% "65535", false⟩)),
  .type (text% "U-RNTI") (.bits (some ⟨text% "32", text% "32", false⟩)),
  .type (text% "UnknownU-RNTIIndication") (.enum [text% "unknown"] (some []))]

/-- Of `hnbap`. -/
noncomputable def hnbapContentsAssignments : List Assignment := [
  .type (text% "HNBRegisterRequest") (.seq (.cons (text% "protocolIEs") (.app (text% "ProtocolIE-Container") [text% "HNBRegisterRequestIEs"]) false (.cons (text% "protocolExtensions") (.app (text% "ProtocolExtensionContainer") [text% "HNBRegisterRequestExtensions"]) true .nil)) (some .nil)),
  .object (text% "HNBRegisterRequestIEs"),
  .object (text% "HNBRegisterRequestExtensions"),
  .type (text% "HNBRegisterAccept") (.seq (.cons (text% "protocolIEs") (.app (text% "ProtocolIE-Container") [text% "HNBRegisterAcceptIEs"]) false (.cons (text% "protocolExtensions") (.app (text% "ProtocolExtensionContainer") [text% "HNBRegisterAcceptExtensions"]) true .nil)) (some .nil)),
  .object (text% "HNBRegisterAcceptIEs"),
  .object (text% "HNBRegisterAcceptExtensions"),
  .type (text% "HNBRegisterReject") (.seq (.cons (text% "protocolIEs") (.app (text% "ProtocolIE-Container") [text% "HNBRegisterRejectIEs"]) false (.cons (text% "protocolExtensions") (.app (text% "ProtocolExtensionContainer") [text% "HNBRegisterRejectExtensions"]) true .nil)) (some .nil)),
  .object (text% "HNBRegisterRejectIEs"),
  .object (text% "HNBRegisterRejectExtensions"),
  .type (text% "HNBDe-Register") (.seq (.cons (text% "protocolIEs") (.app (text% "ProtocolIE-Container") [text% "HNBDe-RegisterIEs"]) false (.cons (text% "protocolExtensions") (.app (text% "ProtocolExtensionContainer") [text% "HNBDe-RegisterExtensions"]) true .nil)) (some .nil)),
  .object (text% "HNBDe-RegisterIEs"),
  .object (text% "HNBDe-RegisterExtensions"),
  .type (text% "UERegisterRequest") (.seq (.cons (text% "protocolIEs") (.app (text% "ProtocolIE-Container") [text% "UERegisterRequestIEs"]) false (.cons (text% "protocolExtensions") (.app (text% "ProtocolExtensionContainer") [text% "UERegisterRequestExtensions"]) true .nil)) (some .nil)),
  .object (text% "UERegisterRequestIEs"),
  .object (text% "UERegisterRequestExtensions"),
  .type (text% "UERegisterAccept") (.seq (.cons (text% "protocolIEs") (.app (text% "ProtocolIE-Container") [text% "UERegisterAcceptIEs"]) false (.cons (text% "protocolExtensions") (.app (text% "ProtocolExtensionContainer") [text% "UERegisterAcceptExtensions"]) true .nil)) (some .nil)),
  .object (text% "UERegisterAcceptIEs"),
  .object (text% "UERegisterAcceptExtensions"),
  .type (text% "UERegisterReject") (.seq (.cons (text% "protocolIEs") (.app (text% "ProtocolIE-Container") [text% "UERegisterRejectIEs"]) false (.cons (text% "protocolExtensions") (.app (text% "ProtocolExtensionContainer") [text% "UERegisterRejectExtensions"]) true .nil)) (some .nil)),
  .object (text% "UERegisterRejectIEs"),
  .object (text% "UERegisterRejectExtensions"),
  .type (text% "UEDe-Register") (.seq (.cons (text% "protocolIEs") (.app (text% "ProtocolIE-Container") [text% "UEDe-RegisterIEs"]) false (.cons (text% "protocolExtensions") (.app (text% "ProtocolExtensionContainer") [text% "UEDe-RegisterExtensions"]) true .nil)) (some .nil)),
  .object (text% "UEDe-RegisterIEs"),
  .object (text% "UEDe-RegisterExtensions"),
  .type (text% "CSGMembershipUpdate") (.seq (.cons (text% "protocolIEs") (.app (text% "ProtocolIE-Container") [text% "CSGMembershipUpdateIEs"]) false (.cons (text% "protocolExtensions") (.app (text% "ProtocolExtensionContainer") [text% "CSGMembershipUpdateExtensions"]) true .nil)) (some .nil)),
  .object (text% "CSGMembershipUpdateIEs"),
  .object (text% "CSGMembershipUpdateExtensions"),
  .type (text% "TNLUpdateRequest") (.seq (.cons (text% "protocolIEs") (.app (text% "ProtocolIE-Container") [text% "TNLUpdateRequestIEs"]) false (.cons (text% "protocolExtensions") (.app (text% "ProtocolExtensionContainer") [text% "TNLUpdateExtensions"]) true .nil)) (some .nil)),
  .object (text% "TNLUpdateRequestIEs"),
  .object (text% "TNLUpdateExtensions"),
  .type (text% "TNLUpdateResponse") (.seq (.cons (text% "protocolIEs") (.app (text% "ProtocolIE-Container") [text% "TNLUpdateResponseIEs"]) false (.cons (text% "protocolExtensions") (.app (text% "ProtocolExtensionContainer") [text% "TNLUpdateResponseExtensions"]) true .nil)) (some .nil)),
  .object (text% "TNLUpdateResponseIEs"),
  .object (text% "TNLUpdateResponseExtensions"),
  .type (text% "TNLUpdateFailure") (.seq (.cons (text% "protocolIEs") (.app (text% "ProtocolIE-Container") [text% "TNLUpdateFailureIEs"]) false (.cons (text% "protocolExtensions") (.app (text% "ProtocolExtensionContainer") [text% "TNLUpdateFailureExtensions"]) true .nil)) (some .nil)),
  .object (text% "TNLUpdateFailureIEs"),
  .object (text% "TNLUpdateFailureExtensions"),
  .type (text% "HNBConfigTransferRequest") (.seq (.cons (text% "protocolIEs") (.app (text% "ProtocolIE-Container") [text% "HNBConfigTransferRequestIEs"]) false (.cons (text% "protocolExtensions") (.app (text% "ProtocolExtensionContainer") [text% "HNBConfigTransferRequestExtensions"]) true .nil)) (some .nil)),
  .object (text% "HNBConfigTransferRequestIEs"),
  .object (text% "HNBConfigTransferRequestExtensions"),
  .type (text% "HNBConfigTransferResponse") (.seq (.cons (text% "protocolIEs") (.app (text% "ProtocolIE-Container") [text% "HNBConfigTransferResponseIEs"]) false (.cons (text% "protocolExtensions") (.app (text% "ProtocolExtensionContainer") [text% "HNBConfigTransferResponseExtensions"]) true .nil)) (some .nil)),
  .object (text% "HNBConfigTransferResponseIEs"),
  .object (text% "HNBConfigTransferResponseExtensions"),
  .type (text% "RelocationComplete") (.seq (.cons (text% "protocolIEs") (.app (text% "ProtocolIE-Container") [text% "RelocationCompleteIEs"]) false (.cons (text% "protocolExtensions") (.app (text% "ProtocolExtensionContainer") [text% "RelocationCompleteExtensions"]) true .nil)) (some .nil)),
  .object (text% "RelocationCompleteIEs"),
  .object (text% "RelocationCompleteExtensions"),
  .type (text% "ErrorIndication") (.seq (.cons (text% "protocolIEs") (.app (text% "ProtocolIE-Container") [text% "ErrorIndicationIEs"]) false (.cons (text% "protocolExtensions") (.app (text% "ProtocolExtensionContainer") [text% "ErrorIndicationExtensions"]) true .nil)) (some .nil)),
  .object (text% "ErrorIndicationIEs"),
  .object (text% "ErrorIndicationExtensions"),
  .type (text% "PrivateMessage") (.seq (.cons (text% "privateIEs") (.app (text% "PrivateIE-Container") [text% "PrivateMessage-IEs"]) false .nil) (some .nil)),
  .object (text% "PrivateMessage-IEs"),
  .type (text% "U-RNTIQueryRequest") (.seq (.cons (text% "protocolIEs") (.app (text% "ProtocolIE-Container") [text% "U-RNTIQueryRequestIEs"]) false (.cons (text% "protocolExtensions") (.app (text% "ProtocolExtensionContainer") [text% "U-RNTIQueryRequestExtensions"]) true .nil)) (some .nil)),
  .object (text% "U-RNTIQueryRequestIEs"),
  .object (text% "U-RNTIQueryRequestExtensions"),
  .type (text% "U-RNTIQueryResponse") (.seq (.cons (text% "protocolIEs") (.app (text% "ProtocolIE-Container") [text% "U-RNTIQueryResponseIEs"]) false (.cons (text% "protocolExtensions") (.app (text% "ProtocolExtensionContainer") [text% "U-RNTIQueryResponseExtensions"]) true .nil)) (some .nil)),
  .object (text% "U-RNTIQueryResponseIEs"),
  .object (text% "U-RNTIQueryResponseExtensions")]

/-- Of `hnbapDescriptions`. -/
noncomputable def hnbapDescriptionsAssignments : List Assignment := [
  .cls (text% "HNBAP-ELEMENTARY-PROCEDURE") [(text% "procedureCode", text% "ProcedureCode"), (text% "criticality", text% "Criticality")],
  .type (text% "HNBAP-PDU") (.choice (.cons (text% "initiatingMessage") (.ref (text% "InitiatingMessage")) false (.cons (text% "successfulOutcome") (.ref (text% "SuccessfulOutcome")) false (.cons (text% "unsuccessfulOutcome") (.ref (text% "UnsuccessfulOutcome")) false .nil))) (some .nil)),
  .type (text% "InitiatingMessage") (.seq (.cons (text% "procedureCode") (.field (text% "HNBAP-ELEMENTARY-PROCEDURE") (text% "procedureCode")) false (.cons (text% "criticality") (.field (text% "HNBAP-ELEMENTARY-PROCEDURE") (text% "criticality")) false (.cons (text% "value") (.field (text% "HNBAP-ELEMENTARY-PROCEDURE") (text% "InitiatingMessage")) false .nil))) none),
  .type (text% "SuccessfulOutcome") (.seq (.cons (text% "procedureCode") (.field (text% "HNBAP-ELEMENTARY-PROCEDURE") (text% "procedureCode")) false (.cons (text% "criticality") (.field (text% "HNBAP-ELEMENTARY-PROCEDURE") (text% "criticality")) false (.cons (text% "value") (.field (text% "HNBAP-ELEMENTARY-PROCEDURE") (text% "SuccessfulOutcome")) false .nil))) none),
  .type (text% "UnsuccessfulOutcome") (.seq (.cons (text% "procedureCode") (.field (text% "HNBAP-ELEMENTARY-PROCEDURE") (text% "procedureCode")) false (.cons (text% "criticality") (.field (text% "HNBAP-ELEMENTARY-PROCEDURE") (text% "criticality")) false (.cons (text% "value") (.field (text% "HNBAP-ELEMENTARY-PROCEDURE") (text% "UnsuccessfulOutcome")) false .nil))) none),
  .object (text% "HNBAP-ELEMENTARY-PROCEDURES"),
  .object (text% "HNBAP-ELEMENTARY-PROCEDURES-CLASS-1"),
  .object (text% "HNBAP-ELEMENTARY-PROCEDURES-CLASS-2"),
  .object (text% "hNBRegister"),
  .object (text% "uERegister"),
  .object (text% "uEDe-Register"),
  .object (text% "hNBDe-Register"),
  .object (text% "errorIndication"),
  .object (text% "csg-membership-update"),
  .object (text% "tnlUpdate"),
  .object (text% "hNBConfigTransfer"),
  .object (text% "relocationComplete"),
  .object (text% "u-RNTIQuery"),
  .object (text% "privateMessage")]

/-- Of `hnbapIe`. -/
noncomputable def hnbapIeAssignments : List Assignment := [
  .type (text% "IE") (.seq (.cons (text% "id") (.ref (text% "ProtocolIE-ID")) false (.cons (text% "criticality") (.ref (text% "Criticality")) false (.cons (text% "value") .any false .nil))) none)]

/-- The types by name. -/
noncomputable def hnbapTypes : List (Text × Aper.Ty) := [
  (text% "Criticality", Asn.Hnbap.Criticality),
  (text% "Presence", Asn.Hnbap.Presence),
  (text% "PrivateIE-ID", Asn.Hnbap.PrivateIE_ID),
  (text% "ProcedureCode", Asn.Hnbap.ProcedureCode),
  (text% "ProtocolIE-ID", Asn.Hnbap.ProtocolIE_ID),
  (text% "TriggeringMessage", Asn.Hnbap.TriggeringMessage),
  (text% "IE-Extensions", Asn.Hnbap.IE_Extensions),
  (text% "Access-stratum-release-indicator", Asn.Hnbap.Access_stratum_release_indicator),
  (text% "AccessResult", Asn.Hnbap.AccessResult),
  (text% "AltitudeAndDirection", Asn.Hnbap.AltitudeAndDirection),
  (text% "BackoffTimer", Asn.Hnbap.BackoffTimer),
  (text% "BindingID", Asn.Hnbap.BindingID),
  (text% "Cause", Asn.Hnbap.Cause),
  (text% "CauseRadioNetwork", Asn.Hnbap.CauseRadioNetwork),
  (text% "CauseTransport", Asn.Hnbap.CauseTransport),
  (text% "CauseProtocol", Asn.Hnbap.CauseProtocol),
  (text% "CauseMisc", Asn.Hnbap.CauseMisc),
  (text% "CellIdentity", Asn.Hnbap.CellIdentity),
  (text% "CELL-FACHMobilitySupport", Asn.Hnbap.CELL_FACHMobilitySupport),
  (text% "Context-ID", Asn.Hnbap.Context_ID),
  (text% "CriticalityDiagnostics", Asn.Hnbap.CriticalityDiagnostics),
  (text% "CriticalityDiagnostics-IE-List", Asn.Hnbap.CriticalityDiagnostics_IE_List),
  (text% "CriticalityDiagnostics-IE-List-Value", Asn.Hnbap.CriticalityDiagnostics_IE_List_Value),
  (text% "CSG-ID", Asn.Hnbap.CSG_ID),
  (text% "CSG-Capability", Asn.Hnbap.CSG_Capability),
  (text% "CSGMembershipStatus", Asn.Hnbap.CSGMembershipStatus),
  (text% "CGI", Asn.Hnbap.CGI),
  (text% "CI", Asn.Hnbap.CI),
  (text% "CN-DomainIndicator", Asn.Hnbap.CN_DomainIndicator),
  (text% "ESN", Asn.Hnbap.ESN),
  (text% "GeographicalLocation", Asn.Hnbap.GeographicalLocation),
  (text% "GeographicalCoordinates", Asn.Hnbap.GeographicalCoordinates),
  (text% "GTP-TEI", Asn.Hnbap.GTP_TEI),
  (text% "HNBCapacity", Asn.Hnbap.HNBCapacity),
  (text% "HNB-Cell-Access-Mode", Asn.Hnbap.HNB_Cell_Access_Mode),
  (text% "HNB-Cell-Identifier", Asn.Hnbap.HNB_Cell_Identifier),
  (text% "HNB-GWResponse", Asn.Hnbap.HNB_GWResponse),
  (text% "HNB-RNL-Identity", Asn.Hnbap.HNB_RNL_Identity),
  (text% "HNBConfigInfo", Asn.Hnbap.HNBConfigInfo),
  (text% "ConfigurationInformation", Asn.Hnbap.ConfigurationInformation),
  (text% "HNBConfigurationInformationProvided", Asn.Hnbap.HNBConfigurationInformationProvided),
  (text% "HNBConfigurationInformationMissing", Asn.Hnbap.HNBConfigurationInformationMissing),
  (text% "HNB-Location-Information", Asn.Hnbap.HNB_Location_Information),
  (text% "HNB-Identity", Asn.Hnbap.HNB_Identity),
  (text% "HNB-Identity-Info", Asn.Hnbap.HNB_Identity_Info),
  (text% "IMEI", Asn.Hnbap.IMEI),
  (text% "IMSI", Asn.Hnbap.IMSI),
  (text% "IMSIDS41", Asn.Hnbap.IMSIDS41),
  (text% "IMSIESN", Asn.Hnbap.IMSIESN),
  (text% "IP-Address", Asn.Hnbap.IP_Address),
  (text% "Ipv4Address", Asn.Hnbap.Ipv4Address),
  (text% "Ipv6Address", Asn.Hnbap.Ipv6Address),
  (text% "Iurh-Signalling-TNL-AddressList", Asn.Hnbap.Iurh_Signalling_TNL_AddressList),
  (text% "LAC", Asn.Hnbap.LAC),
  (text% "LAI", Asn.Hnbap.LAI),
  (text% "MacroCoverageInformation", Asn.Hnbap.MacroCoverageInformation),
  (text% "MacroCellID", Asn.Hnbap.MacroCellID),
  (text% "MuxPortNumber", Asn.Hnbap.MuxPortNumber),
  (text% "NeighbourCellIdentityList", Asn.Hnbap.NeighbourCellIdentityList),
  (text% "NeighbourIdentity", Asn.Hnbap.NeighbourIdentity),
  (text% "NeighbourInfoList", Asn.Hnbap.NeighbourInfoList),
  (text% "AdditionalNeighbourInfoList", Asn.Hnbap.AdditionalNeighbourInfoList),
  (text% "NeighbourInfoRequestList", Asn.Hnbap.NeighbourInfoRequestList),
  (text% "NeighbourInfoRequestItem", Asn.Hnbap.NeighbourInfoRequestItem),
  (text% "PLMNidentity", Asn.Hnbap.PLMNidentity),
  (text% "PSC", Asn.Hnbap.PSC),
  (text% "PTMSI", Asn.Hnbap.PTMSI),
  (text% "PTMSIRAI", Asn.Hnbap.PTMSIRAI),
  (text% "RAB-ID", Asn.Hnbap.RAB_ID),
  (text% "RABList", Asn.Hnbap.RABList),
  (text% "RABListItem", Asn.Hnbap.RABListItem),
  (text% "RAC", Asn.Hnbap.RAC),
  (text% "RAI", Asn.Hnbap.RAI),
  (text% "Registration-Cause", Asn.Hnbap.Registration_Cause),
  (text% "RNC-ID", Asn.Hnbap.RNC_ID),
  (text% "SAC", Asn.Hnbap.SAC),
  (text% "S-RNTIPrefix", Asn.Hnbap.S_RNTIPrefix),
  (text% "TMSILAI", Asn.Hnbap.TMSILAI),
  (text% "TMSIDS41", Asn.Hnbap.TMSIDS41),
  (text% "TransportInfo", Asn.Hnbap.TransportInfo),
  (text% "TransportLayerAddress", Asn.Hnbap.TransportLayerAddress),
  (text% "Tunnel-Information", Asn.Hnbap.Tunnel_Information),
  (text% "TypeOfError", Asn.Hnbap.TypeOfError),
  (text% "UDP-Port-Number", Asn.Hnbap.UDP_Port_Number),
  (text% "UE-Capabilities", Asn.Hnbap.UE_Capabilities),
  (text% "UTRANCellID", Asn.Hnbap.UTRANCellID),
  (text% "UE-Identity", Asn.Hnbap.UE_Identity),
  (text% "Update-cause", Asn.Hnbap.Update_cause),
  (text% "URAIdentityList", Asn.Hnbap.URAIdentityList),
  (text% "URAIdentity", Asn.Hnbap.URAIdentity),
  (text% "U-RNTI", Asn.Hnbap.U_RNTI),
  (text% "UnknownU-RNTIIndication", Asn.Hnbap.UnknownU_RNTIIndication),
  (text% "HNBRegisterRequest", Asn.Hnbap.HNBRegisterRequest),
  (text% "HNBRegisterAccept", Asn.Hnbap.HNBRegisterAccept),
  (text% "HNBRegisterReject", Asn.Hnbap.HNBRegisterReject),
  (text% "HNBDe-Register", Asn.Hnbap.HNBDe_Register),
  (text% "UERegisterRequest", Asn.Hnbap.UERegisterRequest),
  (text% "UERegisterAccept", Asn.Hnbap.UERegisterAccept),
  (text% "UERegisterReject", Asn.Hnbap.UERegisterReject),
  (text% "UEDe-Register", Asn.Hnbap.UEDe_Register),
  (text% "CSGMembershipUpdate", Asn.Hnbap.CSGMembershipUpdate),
  (text% "TNLUpdateRequest", Asn.Hnbap.TNLUpdateRequest),
  (text% "TNLUpdateResponse", Asn.Hnbap.TNLUpdateResponse),
  (text% "TNLUpdateFailure", Asn.Hnbap.TNLUpdateFailure),
  (text% "HNBConfigTransferRequest", Asn.Hnbap.HNBConfigTransferRequest),
  (text% "HNBConfigTransferResponse", Asn.Hnbap.HNBConfigTransferResponse),
  (text% "RelocationComplete", Asn.Hnbap.RelocationComplete),
  (text% "ErrorIndication", Asn.Hnbap.ErrorIndication),
  (text% "PrivateMessage", Asn.Hnbap.PrivateMessage),
  (text% "U-RNTIQueryRequest", Asn.Hnbap.U_RNTIQueryRequest),
  (text% "U-RNTIQueryResponse", Asn.Hnbap.U_RNTIQueryResponse),
  (text% "HNBAP-PDU", Asn.Hnbap.HNBAP_PDU),
  (text% "InitiatingMessage", Asn.Hnbap.InitiatingMessage),
  (text% "SuccessfulOutcome", Asn.Hnbap.SuccessfulOutcome),
  (text% "UnsuccessfulOutcome", Asn.Hnbap.UnsuccessfulOutcome),
  (text% "IE", Asn.Hnbap.IE)]

end Verif.Gen.Text
