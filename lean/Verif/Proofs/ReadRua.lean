import Verif.Gen.TextRua
import Verif.Gen.AsnIes
import Verif.Gen.TextNames
import Verif.Proofs.AsnReader
import Verif.Proofs.TextRuaAll

/-!
# The object sets in the RUA text
-/

namespace Verif.Gen.Text
open Verif.AsnToStruct Verif.AsnToStruct.Spec

theorem rua0_sets : readPart (text% "RUA") rua0 = some rua0Tables := by decide +kernel

theorem rua1_sets : readPart (text% "RUA") rua1 = some rua1Tables := by decide +kernel

theorem rua2_sets : elementSets (text% "RUA") rua2 = rua2Tables := by decide +kernel

/-- All object sets. -/
noncomputable def ruaSets : List (Text × List Row) :=
  rua0Tables ++ (rua1Tables ++ (rua2Tables))

theorem rua_elementSets : elementSets (text% "RUA") rua = ruaSets := by
  unfold rua ruaSets
  rw [readPart_sound rua0_sets, readPart_sound rua1_sets, rua2_sets]

theorem rua_specification : ruaSets.mapM (asnSet ruaNames) = some Asn.rua := by kernel_rfl

end Verif.Gen.Text
