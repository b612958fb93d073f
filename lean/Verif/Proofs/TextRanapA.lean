import Verif.Gen.TextRanapA
import Verif.Proofs.AsnPart

/-!
# The tables of the parts of the RANAP text
-/

namespace Verif.Gen.Text
open Verif.AsnToStruct

theorem ranap0_tables : part ranap0 = some ranap0Tables := by decide +kernel

theorem ranap1_tables : part ranap1 = some ranap1Tables := by decide +kernel

theorem ranap2_tables : part ranap2 = some ranap2Tables := by decide +kernel

theorem ranap3_tables : part ranap3 = some ranap3Tables := by decide +kernel

theorem ranap4_tables : part ranap4 = some ranap4Tables := by decide +kernel

theorem ranap5_tables : part ranap5 = some ranap5Tables := by decide +kernel

theorem ranap6_tables : part ranap6 = some ranap6Tables := by decide +kernel

theorem ranap7_tables : part ranap7 = some ranap7Tables := by decide +kernel

theorem ranap8_tables : part ranap8 = some ranap8Tables := by decide +kernel

theorem ranap9_tables : part ranap9 = some ranap9Tables := by decide +kernel

theorem ranap10_tables : part ranap10 = some ranap10Tables := by decide +kernel

theorem ranap11_tables : part ranap11 = some ranap11Tables := by decide +kernel

theorem ranap12_tables : part ranap12 = some ranap12Tables := by decide +kernel

theorem ranap13_tables : part ranap13 = some ranap13Tables := by decide +kernel

theorem ranap14_tables : part ranap14 = some ranap14Tables := by decide +kernel

theorem ranap15_tables : part ranap15 = some ranap15Tables := by decide +kernel

theorem ranap16_tables : part ranap16 = some ranap16Tables := by decide +kernel

theorem ranap17_tables : part ranap17 = some ranap17Tables := by decide +kernel

end Verif.Gen.Text
