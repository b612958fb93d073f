import Verif.Gen.TextSabp
import Verif.Proofs.AsnPart

/-!
# The tables of the parts of the SABP text
-/

namespace Verif.Gen.Text
open Verif.AsnToStruct

theorem sabp0_tables : part sabp0 = some sabp0Tables := by decide +kernel

theorem sabp1_tables : part sabp1 = some sabp1Tables := by decide +kernel

theorem sabp2_tables : part sabp2 = some sabp2Tables := by decide +kernel

theorem sabp3_tables : part sabp3 = some sabp3Tables := by decide +kernel

theorem sabp4_tables : part sabp4 = some sabp4Tables := by decide +kernel

theorem sabp5_tables : part sabp5 = some sabp5Tables := by decide +kernel

theorem sabp6_tables : part sabp6 = some sabp6Tables := by decide +kernel

theorem sabp7_tables : part sabp7 = some sabp7Tables := by decide +kernel

theorem sabp8_tables : fileTables sabp8 = sabp8Tables := by decide +kernel

end Verif.Gen.Text
