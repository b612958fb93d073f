import Verif.Proofs.TextHnbap
import Verif.Gen.TextNames

/-!
# The whole HNBAP text
-/

namespace Verif.Gen.Text
open Verif.AsnToStruct Verif.AsnToStruct.Spec

/-- All lines of asn1/hnbap/HNBAP-PDU-Contents.asn. -/
noncomputable def hnbap : List Text :=
  hnbap0 ++ (hnbap1 ++ (hnbap2 ++ (hnbap3 ++ (hnbap4 ++ (hnbap5 ++ (hnbap6 ++ (hnbap7 ++ (hnbap8))))))))

/-- All tables. -/
noncomputable def hnbapTables : List (Text × List Row) :=
  hnbap0Tables ++ (hnbap1Tables ++ (hnbap2Tables ++ (hnbap3Tables ++ (hnbap4Tables ++ (hnbap5Tables ++ (hnbap6Tables ++ (hnbap7Tables ++ (hnbap8Tables))))))))

theorem hnbap_names : (hnbapTables.map (·.1)).Nodup := by decide +kernel

theorem hnbap_iesDefs : iesDefs hnbap = hnbapTables := by
  refine iesDefs_of_parts ?_ hnbap_names
  unfold hnbap hnbapTables
  rw [part_sound hnbap0_tables, part_sound hnbap1_tables, part_sound hnbap2_tables, part_sound hnbap3_tables, part_sound hnbap4_tables, part_sound hnbap5_tables, part_sound hnbap6_tables, part_sound hnbap7_tables, hnbap8_tables]

theorem hnbap_messages : hnbapTables.mapM (message hnbapNames) = some Hnbap.all := by kernel_rfl

end Verif.Gen.Text
