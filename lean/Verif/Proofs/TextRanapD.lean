import Verif.Gen.TextRanapD
import Verif.Proofs.AsnPart

/-!
# The tables of the parts of the RANAP text
-/

namespace Verif.Gen.Text
open Verif.AsnToStruct

theorem ranap54_tables : part ranap54 = some ranap54Tables := by decide +kernel

theorem ranap55_tables : part ranap55 = some ranap55Tables := by decide +kernel

theorem ranap56_tables : part ranap56 = some ranap56Tables := by decide +kernel

theorem ranap57_tables : part ranap57 = some ranap57Tables := by decide +kernel

theorem ranap58_tables : part ranap58 = some ranap58Tables := by decide +kernel

theorem ranap59_tables : fileTables ranap59 = ranap59Tables := by decide +kernel

end Verif.Gen.Text
