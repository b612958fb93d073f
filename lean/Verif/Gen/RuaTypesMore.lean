import Verif.Gen.RuaTypes

/-!
# The other type descriptors of RUA

Those of `/repo/src/rua/*.c` which `Verif/Gen/RuaTypes.lean` does not have, because no information element of
a message refers to them.
-/

namespace Verif.Gen.Rua
open Verif.Aper

/-- `asn_DEF_RUA_CSGMembershipStatus`, src/rua/RUA_CSGMembershipStatus.c:143 -/
def RUA_CSGMembershipStatus : Ty := .enum 2 2 true
/-- `asn_DEF_RUA_Presence`, src/rua/RUA_Presence.c:143 -/
def RUA_Presence : Ty := .enum 3 3 false
/-- `asn_DEF_RUA_PrivateIE_ID`, src/rua/RUA_PrivateIE-ID.c:79 -/
def RUA_PrivateIE_ID : Ty := .choice false (.cons false (.int ⟨0, 65535, false⟩) (.cons false (.oid) .nil)) .nil
/-- `asn_DEF_privateMessage_ies_2`, src/rua/RUA_PrivateMessage.c:67 -/
def RUA_PrivateMessage__privateMessage_ies_2 : Ty := .seqOf (some ⟨0, 65535, false⟩) RUA_IE
/-- `asn_DEF_RUA_PrivateMessage`, src/rua/RUA_PrivateMessage.c:120 -/
def RUA_PrivateMessage : Ty := .seq true (.cons false RUA_PrivateMessage__privateMessage_ies_2 .nil)

end Verif.Gen.Rua
