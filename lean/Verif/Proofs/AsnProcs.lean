import Verif.Gen.TextConstants
import Verif.Gen.TextProcs
import Verif.Proofs.TextRanapAll
import Verif.Spec.AsnProcs

/-!
# The procedures are those of the module of descriptions
-/

namespace Verif.Gen.Text
open Verif.AsnToStruct Verif.AsnToStruct.Spec

theorem ranap_procs : (procedures none ranapDescriptions).mapM
    (procOf (constants (text% "ProcedureCode") ranapConstants) ((ranapTables.map (·.1)).zip Ranap.all)) = some Ranap.procs := by
  kernel_rfl

end Verif.Gen.Text
