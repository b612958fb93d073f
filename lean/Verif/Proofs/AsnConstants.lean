import Verif.Gen.TextConstants
import Verif.Gen.TextNames
import Verif.Spec.AsnConstants

/-!
# The numbers of the elements are those of the modules of constants
-/

namespace Verif.Gen.Text
open Verif.AsnToStruct Verif.AsnToStruct.Spec

theorem rua_numbers : constants (text% "ProtocolIE-ID") ruaConstants = ruaNames.number := by decide +kernel
theorem hnbap_numbers : constants (text% "ProtocolIE-ID") hnbapConstants = hnbapNames.number := by decide +kernel
theorem sabp_numbers : constants (text% "ProtocolIE-ID") sabpConstants = sabpNames.number := by decide +kernel
theorem ranap_numbers : constants (text% "ProtocolIE-ID") ranapConstants = ranapNames.number := by decide +kernel

end Verif.Gen.Text
