import Verif.Gen.TextHnbap
import Verif.Proofs.AsnPart

/-!
# The tables of the parts of the HNBAP text
-/

namespace Verif.Gen.Text
open Verif.AsnToStruct

theorem hnbap0_tables : part hnbap0 = some hnbap0Tables := by decide +kernel

theorem hnbap1_tables : part hnbap1 = some hnbap1Tables := by decide +kernel

theorem hnbap2_tables : part hnbap2 = some hnbap2Tables := by decide +kernel

theorem hnbap3_tables : part hnbap3 = some hnbap3Tables := by decide +kernel

theorem hnbap4_tables : part hnbap4 = some hnbap4Tables := by decide +kernel

theorem hnbap5_tables : part hnbap5 = some hnbap5Tables := by decide +kernel

theorem hnbap6_tables : part hnbap6 = some hnbap6Tables := by decide +kernel

theorem hnbap7_tables : part hnbap7 = some hnbap7Tables := by decide +kernel

theorem hnbap8_tables : fileTables hnbap8 = hnbap8Tables := by decide +kernel

end Verif.Gen.Text
