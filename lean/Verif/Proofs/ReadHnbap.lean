import Verif.Gen.TextHnbap
import Verif.Gen.AsnIes
import Verif.Gen.TextNames
import Verif.Proofs.AsnReader
import Verif.Proofs.TextHnbapAll

/-!
# The object sets in the HNBAP text
-/

namespace Verif.Gen.Text
open Verif.AsnToStruct Verif.AsnToStruct.Spec

theorem hnbap0_sets : readPart (text% "HNBAP") hnbap0 = some hnbap0Tables := by decide +kernel

theorem hnbap1_sets : readPart (text% "HNBAP") hnbap1 = some hnbap1Tables := by decide +kernel

theorem hnbap2_sets : readPart (text% "HNBAP") hnbap2 = some hnbap2Tables := by decide +kernel

theorem hnbap3_sets : readPart (text% "HNBAP") hnbap3 = some hnbap3Tables := by decide +kernel

theorem hnbap4_sets : readPart (text% "HNBAP") hnbap4 = some hnbap4Tables := by decide +kernel

theorem hnbap5_sets : readPart (text% "HNBAP") hnbap5 = some hnbap5Tables := by decide +kernel

theorem hnbap6_sets : readPart (text% "HNBAP") hnbap6 = some hnbap6Tables := by decide +kernel

theorem hnbap7_sets : readPart (text% "HNBAP") hnbap7 = some hnbap7Tables := by decide +kernel

theorem hnbap8_sets : elementSets (text% "HNBAP") hnbap8 = hnbap8Tables := by decide +kernel

/-- All object sets. -/
noncomputable def hnbapSets : List (Text × List Row) :=
  hnbap0Tables ++ (hnbap1Tables ++ (hnbap2Tables ++ (hnbap3Tables ++ (hnbap4Tables ++ (hnbap5Tables ++ (hnbap6Tables ++ (hnbap7Tables ++ (hnbap8Tables))))))))

theorem hnbap_elementSets : elementSets (text% "HNBAP") hnbap = hnbapSets := by
  unfold hnbap hnbapSets
  rw [readPart_sound hnbap0_sets, readPart_sound hnbap1_sets, readPart_sound hnbap2_sets, readPart_sound hnbap3_sets, readPart_sound hnbap4_sets, readPart_sound hnbap5_sets, readPart_sound hnbap6_sets, readPart_sound hnbap7_sets, hnbap8_sets]

theorem hnbap_specification : hnbapSets.mapM (asnSet hnbapNames) = some Asn.hnbap := by kernel_rfl

end Verif.Gen.Text
