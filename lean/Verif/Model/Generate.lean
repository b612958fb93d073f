import Verif.Model.Factory
import Verif.Gen.RuaIes
import Verif.Gen.HnbapIes
import Verif.Gen.SabpIes

/-!
# Generating messages, all four protocols

`ranap_generate_*` (/repo/src/ranap_common.c:298-423), `rua_generate_*` (/repo/src/rua_common.c:108-205),
`hnbap_generate_*` (/repo/src/hnbap_common.c:118-217) and `sabp_generate_*` (/repo/src/sabp_common.c:81-179).
HNB gateway and HNB call them with the structures filled by the generated encode functions.
-/

namespace Verif.Generate
open Verif.Aper Verif.Ie Verif.Factory

/-- The four protocols (/repo/src/{ranap,rua,hnbap,sabp}_common.c:1). -/
inductive Proto where
  | ranap | rua | hnbap | sabp
  deriving DecidableEq, Repr

/-- `asn_DEF_*_PDU` (ranap_common.c:306, rua_common.c:116, hnbap_common.c:126, sabp_common.c:89). -/
def Proto.pdu : Proto → Ty
  | .ranap => Gen.Ranap.RANAP_RANAP_PDU
  | .rua => Gen.Rua.RUA_RUA_PDU
  | .hnbap => Gen.Hnbap.HNBAP_HNBAP_PDU
  | .sabp => Gen.Sabp.SABP_SABP_PDU

/-- `msgb_tailroom` of a fresh buffer: 1024 + 512 with a headroom of 512 (ranap_common.c:293-296,
sabp_common.c:76-79), 1024 without headroom (rua_common.c:103-106, hnbap_common.c:113-116). -/
def Proto.room : Proto → Nat
  | .ranap => 1024 + 512 - 512
  | .rua => 1024
  | .hnbap => 1024
  | .sabp => 1024 + 512 - 512

/-- `*_generate_initiating_message` (`present` = 1; ranap_common.c:319-342, rua_common.c:130-153,
hnbap_common.c:139-163, sabp_common.c:102-125), `*_generate_successful_outcome` (2; ranap_common.c:344-369,
rua_common.c:155-179, hnbap_common.c:165-190, sabp_common.c:127-152), `*_generate_unsuccessful_outcome` (3;
ranap_common.c:371-396, rua_common.c:181-205, hnbap_common.c:192-217, sabp_common.c:154-179),
`ranap_generate_outcome` (4; ranap_common.c:398-423).  `none` is NULL. -/
def generate (p : Proto) (present code crit : Nat) (t : Ty) (v : Val) : Option Bytes :=
  match encode t v with
  | none => none
  | some any => some (genPdu p.pdu p.room (pduVal present code crit any))

end Verif.Generate
