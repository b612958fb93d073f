import Verif.Proofs.TextSabp
import Verif.Gen.TextNames

/-!
# The whole SABP text
-/

namespace Verif.Gen.Text
open Verif.AsnToStruct Verif.AsnToStruct.Spec

/-- All lines of asn1/sabp/SABP-PDU-Contents.asn. -/
noncomputable def sabp : List Text :=
  sabp0 ++ (sabp1 ++ (sabp2 ++ (sabp3 ++ (sabp4 ++ (sabp5 ++ (sabp6 ++ (sabp7 ++ (sabp8))))))))

/-- All tables. -/
noncomputable def sabpTables : List (Text × List Row) :=
  sabp0Tables ++ (sabp1Tables ++ (sabp2Tables ++ (sabp3Tables ++ (sabp4Tables ++ (sabp5Tables ++ (sabp6Tables ++ (sabp7Tables ++ (sabp8Tables))))))))

theorem sabp_names : (sabpTables.map (·.1)).Nodup := by decide +kernel

theorem sabp_iesDefs : iesDefs sabp = sabpTables := by
  refine iesDefs_of_parts ?_ sabp_names
  unfold sabp sabpTables
  rw [part_sound sabp0_tables, part_sound sabp1_tables, part_sound sabp2_tables, part_sound sabp3_tables, part_sound sabp4_tables, part_sound sabp5_tables, part_sound sabp6_tables, part_sound sabp7_tables, sabp8_tables]

theorem sabp_messages : sabpTables.mapM (message sabpNames) = some Sabp.all := by kernel_rfl

end Verif.Gen.Text
