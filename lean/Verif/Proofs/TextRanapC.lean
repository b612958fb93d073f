import Verif.Gen.TextRanapC
import Verif.Proofs.AsnPart

/-!
# The tables of the parts of the RANAP text
-/

namespace Verif.Gen.Text
open Verif.AsnToStruct

theorem ranap36_tables : part ranap36 = some ranap36Tables := by decide +kernel

theorem ranap37_tables : part ranap37 = some ranap37Tables := by decide +kernel

theorem ranap38_tables : part ranap38 = some ranap38Tables := by decide +kernel

theorem ranap39_tables : part ranap39 = some ranap39Tables := by decide +kernel

theorem ranap40_tables : part ranap40 = some ranap40Tables := by decide +kernel

theorem ranap41_tables : part ranap41 = some ranap41Tables := by decide +kernel

theorem ranap42_tables : part ranap42 = some ranap42Tables := by decide +kernel

theorem ranap43_tables : part ranap43 = some ranap43Tables := by decide +kernel

theorem ranap44_tables : part ranap44 = some ranap44Tables := by decide +kernel

theorem ranap45_tables : part ranap45 = some ranap45Tables := by decide +kernel

theorem ranap46_tables : part ranap46 = some ranap46Tables := by decide +kernel

theorem ranap47_tables : part ranap47 = some ranap47Tables := by decide +kernel

theorem ranap48_tables : part ranap48 = some ranap48Tables := by decide +kernel

theorem ranap49_tables : part ranap49 = some ranap49Tables := by decide +kernel

theorem ranap50_tables : part ranap50 = some ranap50Tables := by decide +kernel

theorem ranap51_tables : part ranap51 = some ranap51Tables := by decide +kernel

theorem ranap52_tables : part ranap52 = some ranap52Tables := by decide +kernel

theorem ranap53_tables : part ranap53 = some ranap53Tables := by decide +kernel

end Verif.Gen.Text
