import Verif.Gen.TextRanapB
import Verif.Proofs.AsnPart

/-!
# The tables of the parts of the RANAP text
-/

namespace Verif.Gen.Text
open Verif.AsnToStruct

theorem ranap18_tables : part ranap18 = some ranap18Tables := by decide +kernel

theorem ranap19_tables : part ranap19 = some ranap19Tables := by decide +kernel

theorem ranap20_tables : part ranap20 = some ranap20Tables := by decide +kernel

theorem ranap21_tables : part ranap21 = some ranap21Tables := by decide +kernel

theorem ranap22_tables : part ranap22 = some ranap22Tables := by decide +kernel

theorem ranap23_tables : part ranap23 = some ranap23Tables := by decide +kernel

theorem ranap24_tables : part ranap24 = some ranap24Tables := by decide +kernel

theorem ranap25_tables : part ranap25 = some ranap25Tables := by decide +kernel

theorem ranap26_tables : part ranap26 = some ranap26Tables := by decide +kernel

theorem ranap27_tables : part ranap27 = some ranap27Tables := by decide +kernel

theorem ranap28_tables : part ranap28 = some ranap28Tables := by decide +kernel

theorem ranap29_tables : part ranap29 = some ranap29Tables := by decide +kernel

theorem ranap30_tables : part ranap30 = some ranap30Tables := by decide +kernel

theorem ranap31_tables : part ranap31 = some ranap31Tables := by decide +kernel

theorem ranap32_tables : part ranap32 = some ranap32Tables := by decide +kernel

theorem ranap33_tables : part ranap33 = some ranap33Tables := by decide +kernel

theorem ranap34_tables : part ranap34 = some ranap34Tables := by decide +kernel

theorem ranap35_tables : part ranap35 = some ranap35Tables := by decide +kernel

end Verif.Gen.Text
