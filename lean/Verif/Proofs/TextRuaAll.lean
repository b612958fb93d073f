import Verif.Proofs.TextRua
import Verif.Gen.TextNames

/-!
# The whole RUA text
-/

namespace Verif.Gen.Text
open Verif.AsnToStruct Verif.AsnToStruct.Spec

/-- All lines of asn1/rua/RUA-PDU-Contents.asn. -/
noncomputable def rua : List Text :=
  rua0 ++ (rua1 ++ (rua2))

/-- All tables. -/
noncomputable def ruaTables : List (Text × List Row) :=
  rua0Tables ++ (rua1Tables ++ (rua2Tables))

theorem rua_names : (ruaTables.map (·.1)).Nodup := by decide +kernel

theorem rua_iesDefs : iesDefs rua = ruaTables := by
  refine iesDefs_of_parts ?_ rua_names
  unfold rua ruaTables
  rw [part_sound rua0_tables, part_sound rua1_tables, rua2_tables]

theorem rua_messages : ruaTables.mapM (message ruaNames) = some Rua.all := by kernel_rfl

end Verif.Gen.Text
