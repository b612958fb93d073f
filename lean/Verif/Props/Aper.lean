import Verif.Props.Ie

/-!
# The codec against recorded octets

`Model/Aper.lean` stands for libasn1c.  These examples compare it with the octets that the test suite of the
project records (`/repo/tests/test-ranap.ok`, `/repo/tests/test-hnbap.c`); whole RANAP messages are compared in
`Props/FactoryRab.lean`.
-/

namespace Verif.Props
open Verif.Aper Verif.Ie Verif.Ie.Spec Verif.Gen

/-- `MaxBitrate`, test-ranap.ok:1-11. -/
example : ([1, 2, 3, 255, 256, 257, 64000, 65535, 65536, 65537, 16000000].map fun n => encode Ranap.RANAP_MaxBitrate (.int n)) =
    [[0x00, 0x00], [0x00, 0x01], [0x00, 0x02], [0x00, 0xfe], [0x00, 0xff], [0x40, 0x01, 0x00], [0x40, 0xf9, 0xff],
      [0x40, 0xff, 0xfe], [0x40, 0xff, 0xff], [0x80, 0x01, 0x00, 0x00], [0x80, 0xf4, 0x23, 0xff]].map some := by
  decide +kernel

/-- `Cause` misc 115, test-ranap.ok:12-13. -/
example : encode Ranap.RANAP_Cause (.choice 4 (.int 115)) = some [0x42] ∧
    (match decode Ranap.RANAP_Cause [0x42] with | some (.choice 4 (.int 115)) => true | _ => false) = true := by
  decide +kernel

/-- Message octets: (direction, procedure code, value). -/
private def hnbapPdu (bs : Bytes) : Option (Nat × Int × Bytes) :=
  match decode Hnbap.HNBAP_HNBAP_PDU bs with
  | some (.choice i (.seq [some (.int pc), some (.enum _), some (.octets value)])) => some (i, pc, value)
  | _ => none

/-- HNB Register Request, test-hnbap.c:37-51. -/
def hnbapRegReq : Bytes := [0x00, 0x01,
  0x00, 0x57, 0x00, 0x00, 0x07, 0x00, 0x03, 0x00,
  0x15, 0x04, 0x80, 0x31, 0x30, 0x30, 0x30, 0x35,
  0x42, 0x39, 0x2d, 0x30, 0x30, 0x31, 0x30, 0x39,
  0x34, 0x32, 0x30, 0x35, 0x30, 0x40, 0x00, 0x08,
  0x00, 0x17, 0x50, 0x00, 0x00, 0x00, 0x00, 0x00,
  0xf0, 0x00, 0x00, 0x00, 0x00, 0x00, 0x00, 0x00,
  0x00, 0x11, 0x00, 0x05, 0x00, 0xc0, 0xa8, 0x00,
  0x32, 0x00, 0x09, 0x00, 0x03, 0x09, 0xf1, 0x99,
  0x00, 0x0b, 0x00, 0x04, 0x00, 0x00, 0x00, 0x00,
  0x00, 0x06, 0x00, 0x02, 0x40, 0x20, 0x00, 0x07,
  0x00, 0x01, 0x64, 0x00, 0x0a, 0x00, 0x02, 0x00,
  0x01]

/-- UE Register Request, test-hnbap.c:53-59. -/
def hnbapUeRegReq : Bytes := [0x00, 0x03,
  0x00, 0x1a, 0x00, 0x00, 0x03, 0x00, 0x05, 0x00,
  0x09, 0x0a, 0x62, 0x02, 0x11, 0x32, 0x54, 0x76,
  0x98, 0xf0, 0x00, 0x0c, 0x40, 0x01, 0x40, 0x00,
  0x0d, 0x00, 0x01, 0x0d]

/-- UE Register Accept, test-hnbap.c:61-67. -/
def hnbapUeRegAcc : Bytes := [0x20, 0x03,
  0x00, 0x17, 0x00, 0x00, 0x02, 0x00, 0x05, 0x00,
  0x09, 0x0a, 0x62, 0x02, 0x11, 0x32, 0x54, 0x76,
  0x98, 0xf0, 0x00, 0x04, 0x00, 0x03, 0x17, 0x00,
  0x00]

/-- The three messages decode, and so do their elements with the generated decoders. -/
example : (hnbapPdu hnbapRegReq).map (fun x => (x.1, x.2.1,
      (decodeIes Hnbap.hNBRegisterRequestIEs x.2.2 (Mem.init (α := Unit))).1.1)) = some (0, 1, 0) ∧
    (hnbapPdu hnbapUeRegReq).map (fun x => (x.1, x.2.1,
      (decodeIes Hnbap.uERegisterRequestIEs x.2.2 (Mem.init (α := Unit))).1.1)) = some (0, 3, 0) ∧
    (hnbapPdu hnbapUeRegAcc).map (fun x => (x.1, x.2.1,
      (decodeIes Hnbap.uERegisterAcceptIEs x.2.2 (Mem.init (α := Unit))).1.1)) = some (1, 3, 0) := by
  decide +kernel

/-- What the elements of the Register Request hold (test-hnbap.c:105-113): the PLMN, LAC 0x4020, RAC 0x64, SAC 1. -/
example : ((hnbapPdu hnbapRegReq).map fun x => ((decodeIes Hnbap.hNBRegisterRequestIEs x.2.2
      (Mem.init (α := Unit))).1.2.vals.filterMap fun v => match v with | some (.octets b) => some b | _ => none)) =
    some [[0x09, 0xf1, 0x99], [0x40, 0x20], [0x64], [0x00, 0x01]] := by
  decide +kernel

end Verif.Props
