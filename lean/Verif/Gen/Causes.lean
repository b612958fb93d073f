/-!
# Names of causes

The tables of `/repo/src/{ranap,rua,hnbap}_common.c`, with the values of the enumerations in
`/repo/include/osmocom/{ranap,rua,hnbap}/`, transcribed by a script; and the lists of all values of these
enumerations.
-/

namespace Verif.Gen.Causes

/-- A row of a `struct value_string` table (without the terminator). -/
abbrev Names := List (Nat × List Char)

/-- `ranap_cause_radio_vals`, src/ranap_common.c:92-205 -/
def ranapRadio : Names := [
  (1, "RAB pre-empted".toList),
  (2, "Treloc_overall expiry".toList),
  (3, "Treloc_prep expiry".toList),
  (4, "Treloc_complete expiry".toList),
  (5, "Tqueueing expiry".toList),
  (6, "Relocation triggered".toList),
  (7, "Treloc_alloc expiry".toList),
  (8, "unable to establish during relocation".toList),
  (9, "unknown target RNC".toList),
  (10, "Relocation cancelled".toList),
  (11, "Successful relocation".toList),
  (12, "requested ciph. and/or int. prot. algorithms not supported".toList),
  (13, "conflict with existing int. prot. and/or ciph. information".toList),
  (14, "failure in the radio interface procedure".toList),
  (15, "release due to UTRAN generated reason".toList),
  (16, "user inactivity".toList),
  (17, "time critical relocation".toList),
  (18, "requested traffic class not available".toList),
  (19, "invalid RAB parameters value".toList),
  (20, "requested max. bit-rate not available".toList),
  (21, "requested guaranteed bit-rate not available".toList),
  (22, "requested transfer delay not achievable".toList),
  (23, "invalid RAB parameters combination".toList),
  (24, "condition violation for SDU parameters".toList),
  (25, "condition violation for traffic handling priority".toList),
  (26, "condition violation for guaranteed bit-rate".toList),
  (27, "user-plane versions not supported".toList),
  (28, "Iu-UP failure".toList),
  (29, "relocation failure in target CN/RNC or target system".toList),
  (30, "Invalid RAB ID".toList),
  (31, "No remaining RAB".toList),
  (32, "interaction with other procedure".toList),
  (33, "requested maximum bit-rate for DL not available".toList),
  (34, "requested maximum bit-rate for UL not available".toList),
  (35, "requested guaranteed bit-rate for DL not available".toList),
  (36, "requested guaranteed bit-rate for UL not available".toList),
  (37, "repeated integrity checking failure".toList),
  (38, "requested request type not supported".toList),
  (39, "request superseded".toList),
  (40, "release due to UE-generated signalling connection release".toList),
  (41, "resource optimisation relocation".toList),
  (42, "requested information not available".toList),
  (43, "relocation desirable for radio reasons".toList),
  (44, "relocation not supported in target RNC or target system".toList),
  (45, "directed retry".toList),
  (46, "radio connection with UE lost".toList),
  (47, "RNC unable to establish al RFCs".toList),
  (48, "de-ciphering keys not available".toList),
  (49, "dedicated assistance data not available".toList),
  (50, "relocation target not allowed".toList),
  (51, "relocation reporting congestion".toList),
  (52, "reduce load in serving cell".toList),
  (53, "no radio resources available in target cell".toList),
  (54, "GERAN Iu-Mode failure".toList),
  (55, "access restricted due to shared networks".toList),
  (56, "incoming relocation not supported due to PUESBINE feature".toList),
  (57, "traffic load in the target cell higher than in the source cell".toList),
  (58, "MBMS: no multicast service for this UE".toList),
  (59, "MBMS: unknown UE ID".toList),
  (60, "successful MBMS session start; no data bearer necessarry".toList),
  (61, "MBMS superseded due to NNSF".toList),
  (62, "MBMS: UE linking already done".toList),
  (63, "MBMS: UE de-linking failure; no existing UE linking".toList),
  (64, "TMGI unknown".toList)]

/-- All values of `e_RANAP_CauseRadioNetwork`, include/osmocom/ranap/RANAP_CauseRadioNetwork.h -/
def ranapRadioAll : List Nat := [1, 2, 3, 4, 5, 6, 7, 8, 9, 10, 11, 12, 13, 14, 15, 16, 17, 18, 19, 20, 21, 22, 23, 24, 25, 26, 27, 28, 29, 30, 31, 32, 33, 34, 35, 36, 37, 38, 39, 40, 41, 42, 43, 44, 45, 46, 47, 48, 49, 50, 51, 52, 53, 54, 55, 56, 57, 58, 59, 60, 61, 62, 63, 64]

/-- `ranap_cause_transm_vals`, src/ranap_common.c:207-213 -/
def ranapTransm : Names := [
  (65, "signalling transport resource failure".toList),
  (66, "Iu transport connection failed to establish".toList)]

/-- All values of `e_RANAP_CauseTransmissionNetwork`, include/osmocom/ranap/RANAP_CauseTransmissionNetwork.h -/
def ranapTransmAll : List Nat := [65, 66]

/-- `ranap_cause_nas_vals`, src/ranap_common.c:215-225 -/
def ranapNas : Names := [
  (81, "user restriction; start indication".toList),
  (82, "user restriction; stop indication".toList),
  (83, "normal release".toList),
  (84, "CSG subscription expiry".toList)]

/-- All values of `e_RANAP_CauseNAS`, include/osmocom/ranap/RANAP_CauseNAS.h -/
def ranapNasAll : List Nat := [81, 82, 83, 84]

/-- `ranap_cause_prot_vals`, src/ranap_common.c:227-241 -/
def ranapProt : Names := [
  (97, "transfer sytax error".toList),
  (98, "semantic error".toList),
  (99, "message not compatible with receiver state".toList),
  (100, "syntax error: reject".toList),
  (101, "syntax error: ignore and notify".toList),
  (102, "syntax error: falsely constructed message".toList)]

/-- All values of `e_RANAP_CauseProtocol`, include/osmocom/ranap/RANAP_CauseProtocol.h -/
def ranapProtAll : List Nat := [97, 98, 99, 100, 101, 102]

/-- `ranap_cause_misc_vals`, src/ranap_common.c:243-249 -/
def ranapMisc : Names := [
  (113, "OAM intervention".toList),
  (114, "no resource available".toList),
  (115, "unspecified failure".toList),
  (116, "network optimisation".toList)]

/-- All values of `e_RANAP_CauseMisc`, include/osmocom/ranap/RANAP_CauseMisc.h -/
def ranapMiscAll : List Nat := [113, 114, 115, 116]

/-- `rua_cause_radio_vals`, src/rua_common.c:33-39 -/
def ruaRadio : Names := [
  (0, "normal".toList),
  (1, "connect failed".toList),
  (2, "network release".toList),
  (3, "unspecified".toList)]

/-- All values of `e_RUA_CauseRadioNetwork`, include/osmocom/rua/RUA_CauseRadioNetwork.h -/
def ruaRadioAll : List Nat := [0, 1, 2, 3]

/-- `rua_cause_transp_vals`, src/rua_common.c:41-45 -/
def ruaTransp : Names := [
  (0, "resource unavailable".toList),
  (1, "unspecified".toList)]

/-- All values of `e_RUA_CauseTransport`, include/osmocom/rua/RUA_CauseTransport.h -/
def ruaTranspAll : List Nat := [0, 1]

/-- `rua_cause_prot_vals`, src/rua_common.c:47-60 -/
def ruaProt : Names := [
  (0, "syntax error".toList),
  (1, "abstract syntax error; reject".toList),
  (2, "abstract syntax error; ignore and notify".toList),
  (3, "message not compatible with receiver state".toList),
  (4, "semantic error".toList),
  (5, "unspecified".toList),
  (6, "falsely constructed message".toList)]

/-- All values of `e_RUA_CauseProtocol`, include/osmocom/rua/RUA_CauseProtocol.h -/
def ruaProtAll : List Nat := [0, 1, 2, 3, 4, 5, 6]

/-- `rua_cause_misc_vals`, src/rua_common.c:62-68 -/
def ruaMisc : Names := [
  (0, "processing overload".toList),
  (1, "hardware failure".toList),
  (2, "OAM intervention".toList),
  (3, "unspecified".toList)]

/-- All values of `e_RUA_CauseMisc`, include/osmocom/rua/RUA_CauseMisc.h -/
def ruaMiscAll : List Nat := [0, 1, 2, 3]

/-- `hnbap_cause_radio_vals`, src/hnbap_common.c:31-49 -/
def hnbapRadio : Names := [
  (0, "overload".toList),
  (1, "unauthorized location".toList),
  (2, "unauthorized HNB".toList),
  (3, "HNB parameter mismatch".toList),
  (4, "invalid UE identity".toList),
  (5, "UE not allowed on this HNB".toList),
  (6, "unauthorised UE".toList),
  (7, "connection with UE lost".toList),
  (8, "UE RRC release".toList),
  (9, "HNB not registered".toList),
  (10, "unspecified".toList),
  (11, "normal".toList),
  (12, "UE relocated".toList),
  (13, "UE registered in another HNB".toList)]

/-- All values of `e_HNBAP_CauseRadioNetwork`, include/osmocom/hnbap/HNBAP_CauseRadioNetwork.h -/
def hnbapRadioAll : List Nat := [0, 1, 2, 3, 4, 5, 6, 7, 8, 9, 10, 11, 12, 13, 14, 15]

/-- `hnbap_cause_transp_vals`, src/hnbap_common.c:51-56 -/
def hnbapTransp : Names := [
  (0, "transport resource unavailable".toList),
  (1, "unspecified".toList)]

/-- All values of `e_HNBAP_CauseTransport`, include/osmocom/hnbap/HNBAP_CauseTransport.h -/
def hnbapTranspAll : List Nat := [0, 1]

/-- `hnbap_cause_prot_vals`, src/hnbap_common.c:58-71 -/
def hnbapProt : Names := [
  (0, "syntax error".toList),
  (1, "abstract syntax error; reject".toList),
  (2, "abstract syntax error; ignore and notify".toList),
  (3, "message not compatible with receiver state".toList),
  (4, "semantic error".toList),
  (5, "unspecified".toList),
  (6, "falsely constructed message".toList)]

/-- All values of `e_HNBAP_CauseProtocol`, include/osmocom/hnbap/HNBAP_CauseProtocol.h -/
def hnbapProtAll : List Nat := [0, 1, 2, 3, 4, 5, 6]

/-- `hnbap_cause_misc_vals`, src/hnbap_common.c:73-79 -/
def hnbapMisc : Names := [
  (0, "processing overload".toList),
  (1, "hardware failure".toList),
  (2, "OAM intervention".toList),
  (3, "unspecified".toList)]

/-- All values of `e_HNBAP_CauseMisc`, include/osmocom/hnbap/HNBAP_CauseMisc.h -/
def hnbapMiscAll : List Nat := [0, 1, 2, 3]

/-- `ranap_procedure_code_vals`, src/ranap_common.c:41-90 -/
def ranapProcedures : Names := [
  (0, "RAB Assignment".toList),
  (1, "Iu Release".toList),
  (2, "Relocation Preparation".toList),
  (3, "Relocation Resource Allocation".toList),
  (4, "Relocation Cancel".toList),
  (5, "SRNS Context Transfer".toList),
  (6, "Security Mode Control".toList),
  (7, "Data Volume Report".toList),
  (9, "Reset".toList),
  (10, "RAB Release Request".toList),
  (11, "Iu Release Request".toList),
  (12, "Relocation Detect".toList),
  (13, "Relocation Complete".toList),
  (14, "Paging".toList),
  (15, "Common ID".toList),
  (16, "CN Invoke Trace".toList),
  (17, "Location Reporting Control".toList),
  (18, "Location Report".toList),
  (19, "Initial UE Message".toList),
  (20, "Direct Transfer".toList),
  (21, "Overload Control".toList),
  (22, "Error Indication".toList),
  (23, "SRNS Data Forward".toList),
  (24, "Forward SRNS Context".toList),
  (25, "Private Message".toList),
  (26, "CN Deactivate Trace".toList),
  (27, "Reset Resource".toList),
  (28, "RANAP Relocation".toList),
  (29, "RAB Modify Request".toList),
  (30, "Location Related Data".toList),
  (31, "Information Transfer".toList),
  (32, "UE Specific Information".toList),
  (33, "Uplink Information Transfer".toList),
  (34, "Direct Information Transfer".toList),
  (35, "MBMS Session Start".toList),
  (36, "MBMS Session Update".toList),
  (37, "MBMS Session Stop".toList),
  (38, "MBMS UE Linking".toList),
  (39, "MBMS Registration".toList),
  (40, "MBMS CN De-Registration".toList),
  (41, "MBMS RAB Establishment Indication".toList),
  (42, "MBMS RAB Release".toList),
  (43, "Enhanced Relocation Complete".toList),
  (44, "Enhanced Relocation Complete Confirm".toList),
  (45, "RANAP Enhanced Relocation".toList),
  (46, "SRVCC Preparation".toList),
  (47, "UE Radio Capability Match".toList)]

/-- All values of `e_RANAP_ProcedureCode`, include/osmocom/ranap/RANAP_ProcedureCode.h -/
def ranapProceduresAll : List Nat := [0, 1, 2, 3, 4, 5, 6, 7, 9, 10, 11, 12, 13, 14, 15, 16, 17, 18, 19, 20, 21, 22, 23, 24, 25, 26, 27, 28, 29, 30, 31, 32, 33, 34, 35, 36, 37, 38, 39, 40, 41, 42, 43, 44, 45, 46, 47]

/-- `sabp_procedure_code_vals`, src/sabp_common.c:39-49 -/
def sabpProcedures : Names := [
  (0, "Write-Replace".toList),
  (1, "Kill".toList),
  (2, "Load-Status-Enquiry".toList),
  (3, "Message-Status-Query".toList),
  (4, "Restart-Indication".toList),
  (5, "Reset".toList),
  (6, "Failure-Indication".toList),
  (7, "Error-Indication".toList)]

/-- All values of `e_SABP_ProcedureCode`, include/osmocom/sabp/SABP_ProcedureCode.h -/
def sabpProceduresAll : List Nat := [0, 1, 2, 3, 4, 5, 6, 7]

/-- `sabp_cause_vals`, src/sabp_common.c:51-74 -/
def sabpCauses : Names := [
  (0, "Parameter not recognized".toList),
  (1, "Parameter value invalid".toList),
  (2, "Valid CN message not identified".toList),
  (3, "Service Area Identity not valid".toList),
  (4, "Unrecognised message".toList),
  (5, "Missing mandatory element".toList),
  (6, "RNC capacity exceeded".toList),
  (7, "RNC memory exceeded".toList),
  (8, "Service Area Broadcast not supported".toList),
  (9, "Service Area Broadcast not operational".toList),
  (10, "Message Reference already used".toList),
  (11, "Unspecified Error".toList),
  (12, "Transfer Syntax Error".toList),
  (13, "Semantic Error".toList),
  (14, "Message not compatible with receiver state".toList),
  (15, "Abstract Syntax Error - Reject".toList),
  (16, "Abstract Syntax Error - Ignore and Notify".toList),
  (17, "Abstract Syntax Error - Falsely constructed message".toList)]

/-- All values of `e_SABP_Cause`, include/osmocom/sabp/SABP_Cause.h -/
def sabpCausesAll : List Nat := [0, 1, 2, 3, 4, 5, 6, 7, 8, 9, 10, 11, 12, 13, 14, 15, 16, 17]

end Verif.Gen.Causes
