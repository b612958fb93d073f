import Verif.Gen.TextRua
import Verif.Proofs.AsnPart

/-!
# The tables of the parts of the RUA text
-/

namespace Verif.Gen.Text
open Verif.AsnToStruct

theorem rua0_tables : part rua0 = some rua0Tables := by decide +kernel

theorem rua1_tables : part rua1 = some rua1Tables := by decide +kernel

theorem rua2_tables : fileTables rua2 = rua2Tables := by decide +kernel

end Verif.Gen.Text
