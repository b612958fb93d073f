import Verif.Basic

/-!
# PLMN, LAI and Global-RNC-ID parsing

`/repo/src/ranap_common.c` lines 498-537, `/repo/src/iu_client.c` lines 420-431.
-/

namespace Verif

/-- `struct gprs_ra_id` (libosmocore). Used in include/osmocom/ranap/iu_client.h:26 and ranap_common.c:498-537. -/
structure GprsRaId where
  mcc : Nat
  mnc : Nat
  mnc3 : Bool
  lac : BitVec 16
  rac : BitVec 8
  deriving DecidableEq, Repr

/-- `struct osmo_plmn_id` (libosmocore). Used in iu_client.c:420-431. -/
structure Plmn where
  mcc : Nat
  mnc : Nat
  mnc3 : Bool
  deriving DecidableEq, Repr

/-- `struct osmo_location_area_id` (libosmocore) Used in iu_client.c:129-146, 891-935.. -/
structure Lai where
  plmn : Plmn
  lac : BitVec 16
  deriving DecidableEq, Repr

/-- `struct osmo_routing_area_id` (libosmocore) Used in iu_client.c:51-56, 937-977.. -/
structure Rai where
  lai : Lai
  rac : BitVec 8
  deriving DecidableEq, Repr

/-- `struct osmo_rnc_id` (libosmocore) Used in iu_client.c:72-80, 420-431.. -/
structure RncId where
  plmn : Plmn
  rncId : BitVec 16
  deriving DecidableEq, Repr

namespace Lai

/-- libasn1c `asn1str_to_u16` (external): big-endian load of the first two octets;
a shorter string violates its assertion. -/
def asn1strToU16 (buf : Bytes) : Res (BitVec 16) :=
  match buf with
  | a :: b :: _ => .ok (load16be a b)
  | _ => .fault .abort

/-- libasn1c `asn1str_to_u8` (external). -/
def asn1strToU8 (buf : Bytes) : Res (BitVec 8) :=
  match buf with
  | a :: _ => .ok a
  | _ => .fault .abort

/-- `ptr[i] & 0xF` -/
def lo (b : Byte) : Nat := (b &&& 0xF).toNat
/-- `ptr[i] >> 4` -/
def hi (b : Byte) : Nat := (b >>> 4).toNat

/-- `ranap_parse_lai`, `/repo/src/ranap_common.c:498-537`: return value (0 or -1) and
`*ra_id`.  The arguments are the octets of `lai->pLMNidentity` and `lai->lAC`.
The sums fit into `uint16_t` (at most 1665), so `Nat` is exact. -/
def parseLai (plmn lac : Bytes) : Res (Int × GprsRaId) :=
  let ra : GprsRaId := ⟨0, 0, false, 0xfffe, 0⟩                             -- l.504
  match plmn with
  | [p0, p1, p2] =>                                                         -- l.507
    let ra := { ra with mcc := lo p0 * 100 + hi p0 * 10 + lo p1 }           -- l.513-515
    let ra := { ra with mnc := lo p2 * 10 + hi p2 }                         -- l.516-517
    let ra := if hi p1 ≠ 0xF then { ra with mnc := ra.mnc + hi p1 * 100 } else ra  -- l.518-519
    if lac.length ≠ 2 then .ok (-1, ra)                                     -- l.521-525
    else do
      let v ← asn1strToU16 lac                                              -- l.527
      let ra := { ra with lac := v }
      if ra.lac = 0 ∨ ra.lac = 0xfffe then .ok (-1, ra)                     -- l.530-534
      else .ok (0, ra)
  | _ => .ok (-1, ra)                                                       -- l.507-511

/-- libosmocore `osmo_plmn_from_bcd` (external; TS 24.008 10.5.1.3 digit order). -/
def plmnFromBcd (p0 p1 p2 : Byte) : Plmn :=
  let mcc := lo p0 * 100 + hi p0 * 10 + lo p1
  if hi p1 = 0xF then ⟨mcc, lo p2 * 10 + hi p2, false⟩
  else ⟨mcc, lo p2 * 100 + hi p2 * 10 + hi p1, true⟩

/-- `iu_grnc_id_parse`, `/repo/src/iu_client.c:420-431`; `none` is -1.  `rncId` is the
decoded INTEGER `grnc_id->rNC_ID`, stored into a `uint16_t`. -/
def grncIdParse (plmn : Bytes) (rncId : Nat) : Option RncId :=
  match plmn with
  | [p0, p1, p2] => some ⟨plmnFromBcd p0 p1 p2, BitVec.ofNat 16 rncId⟩
  | _ => none

end Lai
end Verif
