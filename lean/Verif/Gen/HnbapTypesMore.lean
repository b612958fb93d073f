import Verif.Gen.HnbapTypes

/-!
# The other type descriptors of HNBAP

Those of `/repo/src/hnbap/*.c` which `Verif/Gen/HnbapTypes.lean` does not have, because no information element of
a message refers to them.
-/

namespace Verif.Gen.Hnbap
open Verif.Aper

/-- `asn_DEF_HNBAP_AccessResult`, src/hnbap/HNBAP_AccessResult.c:143 -/
def HNBAP_AccessResult : Ty := .enum 2 2 true
/-- `asn_DEF_HNBAP_AdditionalNeighbourInfoList`, src/hnbap/HNBAP_AdditionalNeighbourInfoList.c:34 -/
def HNBAP_AdditionalNeighbourInfoList : Ty := .seqOf (some ⟨1, 128, false⟩) HNBAP_HNBConfigInfo
/-- `asn_DEF_HNBAP_CELL_FACHMobilitySupport`, src/hnbap/HNBAP_CELL-FACHMobilitySupport.c:141 -/
def HNBAP_CELL_FACHMobilitySupport : Ty := .enum 1 1 true
/-- `asn_DEF_HNBAP_HNBCapacity`, src/hnbap/HNBAP_HNBCapacity.c:141 -/
def HNBAP_HNBCapacity : Ty := .int ⟨0, 1000, false⟩
/-- `asn_DEF_HNBAP_MuxPortNumber`, src/hnbap/HNBAP_MuxPortNumber.c:141 -/
def HNBAP_MuxPortNumber : Ty := .int ⟨1024, 65535, false⟩
/-- `asn_DEF_HNBAP_NeighbourIdentity`, src/hnbap/HNBAP_NeighbourIdentity.c:49 -/
def HNBAP_NeighbourIdentity : Ty := .choice true (.cons false HNBAP_HNB_RNL_Identity (.cons false HNBAP_CellIdentity .nil)) .nil
/-- `asn_DEF_HNBAP_NeighbourCellIdentityList`, src/hnbap/HNBAP_NeighbourCellIdentityList.c:34 -/
def HNBAP_NeighbourCellIdentityList : Ty := .seqOf (some ⟨0, 128, false⟩) HNBAP_NeighbourIdentity
/-- `asn_DEF_HNBAP_Presence`, src/hnbap/HNBAP_Presence.c:143 -/
def HNBAP_Presence : Ty := .enum 3 3 false
/-- `asn_DEF_HNBAP_PrivateIE_ID`, src/hnbap/HNBAP_PrivateIE-ID.c:79 -/
def HNBAP_PrivateIE_ID : Ty := .choice false (.cons false (.int ⟨0, 65535, false⟩) (.cons false (.oid) .nil)) .nil
/-- `asn_DEF_privateMessage_ies_2`, src/hnbap/HNBAP_PrivateMessage.c:67 -/
def HNBAP_PrivateMessage__privateMessage_ies_2 : Ty := .seqOf (some ⟨0, 65535, false⟩) HNBAP_IE
/-- `asn_DEF_HNBAP_PrivateMessage`, src/hnbap/HNBAP_PrivateMessage.c:120 -/
def HNBAP_PrivateMessage : Ty := .seq true (.cons false HNBAP_PrivateMessage__privateMessage_ies_2 .nil)
/-- `asn_DEF_HNBAP_S_RNTIPrefix`, src/hnbap/HNBAP_S-RNTIPrefix.c:147 -/
def HNBAP_S_RNTIPrefix : Ty := .bits (some ⟨1, 16, true⟩)
/-- `asn_DEF_HNBAP_UDP_Port_Number`, src/hnbap/HNBAP_UDP-Port-Number.c:142 -/
def HNBAP_UDP_Port_Number : Ty := .octets (some ⟨2, 2, false⟩)
/-- `asn_DEF_HNBAP_Tunnel_Information`, src/hnbap/HNBAP_Tunnel-Information.c:58 -/
def HNBAP_Tunnel_Information : Ty := .seq true (.cons false HNBAP_IP_Address (.cons true HNBAP_UDP_Port_Number (.cons true HNBAP_IE_Extensions .nil)))
/-- `asn_DEF_HNBAP_URAIdentity`, src/hnbap/HNBAP_URAIdentity.c:141 -/
def HNBAP_URAIdentity : Ty := .int ⟨0, 65535, false⟩
/-- `asn_DEF_HNBAP_URAIdentityList`, src/hnbap/HNBAP_URAIdentityList.c:34 -/
def HNBAP_URAIdentityList : Ty := .seqOf (some ⟨0, 8, false⟩) HNBAP_URAIdentity

end Verif.Gen.Hnbap
