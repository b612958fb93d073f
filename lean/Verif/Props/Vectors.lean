import Verif.Model.Bcd
import Verif.Model.Lai
import Verif.Model.Addr
import Verif.Model.Factory

/-!
# Validation of the model against `/repo/tests/test-helpers.ok`

What the project records about its helper functions, recomputed by the model.  (These are no proofs of properties:
they tie the definitions the theorems are about to the recorded behaviour of the program.  `test-ranap.ok` and
`test-hnbap.ok` are compared in `Props/Aper.lean`, `Props/Factory*.lean`.)
-/

namespace Verif.Props
open Verif.Bcd Verif.Addr Verif.Lai

/-! ## test_iu_helpers (test-helpers.c:43-63) -/

/-- Decoding `10325476f8` into `char outstr[32]`: "012345678", NUL, and the number of octets written. -/
example : (match Bcd.decode (List.replicate 32 0xaa) 32 [0x10, 0x32, 0x54, 0x76, 0xF8] with
    | .ok (out, rc) => (out.take 10, rc)
    | .fault _ => ([], 0)) = ([0x30, 0x31, 0x32, 0x33, 0x34, 0x35, 0x36, 0x37, 0x38, 0x00], 10) := by decide +kernel

/-- Encoding it again into `uint8_t outbuf[16]`. -/
example : (match Bcd.imsiEncode (List.replicate 16 0xaa) [0x30, 0x31, 0x32, 0x33, 0x34, 0x35, 0x36, 0x37, 0x38] with
    | .ok (out, rc) => (out.take rc, rc)
    | .fault _ => ([], 0)) = ([0x10, 0x32, 0x54, 0x76, 0xF8], 5) := by decide +kernel

/-! ## test_asn1_helpers (test-helpers.c:77-124), the functions used by the library -/

example : asn1bitstrToU32 (store32be 0xdeadbeef) = .ok 0xdeadbeef := by decide +kernel
example : Factory.u24Bits 0xdeadbeef = Aper.octetsBits [0xad, 0xbe, 0xef] := by decide +kernel

/-! ## test_ranap_common (test-helpers.c:126-207) -/

example : parseLai [0x21, 0xf3, 0x54] [0xab, 0xcd] = .ok (0, ⟨123, 45, false, 0xabcd, 0⟩) := by decide +kernel
example : parseLai [0x21, 0x43, 0x65] [0xab, 0xcd] = .ok (0, ⟨123, 456, false, 0xabcd, 0⟩) := by decide +kernel
example : ∃ ra, parseLai [0x21, 0x43] [0xab, 0xcd] = .ok (-1, ra) := ⟨_, rfl⟩
example : ∃ ra, parseLai [0x21, 0x43, 0x65] [0xab] = .ok (-1, ra) := ⟨_, rfl⟩

/-! ## test_ranap_new_transp_info_rtp, test_ranap_new_transp_info_gtp (test-helpers.c:209-321) -/

/-- f11f:f22f:f33f:f44f:f55f:f66f:f77f:f88f -/
def testIp6 : Vector Byte 16 :=
  #v[0xf1, 0x1f, 0xf2, 0x2f, 0xf3, 0x3f, 0xf4, 0x4f, 0xf5, 0x5f, 0xf6, 0x6f, 0xf7, 0x7f, 0xf8, 0x8f]
/-- 1.2.3.4 with X.213 NSAP -/
def testNsap4 : Bytes := [0x35, 0x00, 0x01, 0x01, 0x02, 0x03, 0x04, 0, 0, 0, 0, 0, 0, 0, 0, 0, 0, 0, 0, 0]
/-- `testIp6` with X.213 NSAP -/
def testNsap6 : Bytes := [0x35, 0x00, 0x00, 0xf1, 0x1f, 0xf2, 0x2f, 0xf3, 0x3f, 0xf4, 0x4f, 0xf5, 0x5f, 0xf6, 0x6f, 0xf7, 0x7f,
  0xf8, 0x8f, 0x00]

example : newTranspInfoRtp (.inet #v[1, 2, 3, 4] 0x1122) true = some ⟨⟨testNsap4, 0⟩, .bindingId [0x11, 0x22, 0, 0]⟩ := by
  decide +kernel
example : newTranspInfoRtp (.inet #v[1, 2, 3, 4] 0x1122) false = some ⟨⟨[1, 2, 3, 4], 0⟩, .bindingId [0x11, 0x22, 0, 0]⟩ := by
  decide +kernel
example : newTranspInfoRtp (.inet6 testIp6 0x1122) true = some ⟨⟨testNsap6, 0⟩, .bindingId [0x11, 0x22, 0, 0]⟩ := by
  decide +kernel
example : newTranspInfoRtp (.inet6 testIp6 0x1122) false =
    some ⟨⟨testIp6.toList, 0⟩, .bindingId [0x11, 0x22, 0, 0]⟩ := by
  decide +kernel
example : newTranspInfoRtp (.other 9) false = none := rfl

example : newTranspInfoGtp (.inet #v[1, 2, 3, 4] 0) 0x11223344 true =
    some ⟨⟨testNsap4, 0⟩, .gtpTei [0x11, 0x22, 0x33, 0x44]⟩ := by decide +kernel
example : newTranspInfoGtp (.inet #v[1, 2, 3, 4] 0) 0x11223344 false =
    some ⟨⟨[1, 2, 3, 4], 0⟩, .gtpTei [0x11, 0x22, 0x33, 0x44]⟩ := by decide +kernel
example : newTranspInfoGtp (.inet6 testIp6 0) 0x11223344 true =
    some ⟨⟨testNsap6, 0⟩, .gtpTei [0x11, 0x22, 0x33, 0x44]⟩ := by decide +kernel
example : newTranspInfoGtp (.inet6 testIp6 0) 0x11223344 false =
    some ⟨⟨testIp6.toList, 0⟩, .gtpTei [0x11, 0x22, 0x33, 0x44]⟩ := by decide +kernel
example : newTranspInfoGtp (.other 9) 0x11223344 false = none := rfl

/-! ## test_ranap_transp_layer_addr_decode, ..._decode2 (test-helpers.c:323-408) -/

/-- Textual form is a parameter: the four octets handed to `inet_ntop`. -/
example : transpLayerAddrDecode (fun ip => some ip.toList) testNsap4 = .ok (some [1, 2, 3, 4]) := by decide +kernel
example : transpLayerAddrDecode (fun ip => some ip.toList) [1, 2, 3, 4] = .ok (some [1, 2, 3, 4]) := by decide +kernel

example : transpLayerAddrDecode2 (some false) testNsap4 = .ok ⟨0, .inet #v[1, 2, 3, 4] 0, some true⟩ := by decide +kernel
example : transpLayerAddrDecode2 (some true) [1, 2, 3, 4] = .ok ⟨0, .inet #v[1, 2, 3, 4] 0, some false⟩ := by decide +kernel
example : transpLayerAddrDecode2 (some false) testNsap6 = .ok ⟨0, .inet6 testIp6 0, some true⟩ := by decide +kernel
example : transpLayerAddrDecode2 (some true) testIp6.toList = .ok ⟨0, .inet6 testIp6 0, some false⟩ := by decide +kernel

end Verif.Props
