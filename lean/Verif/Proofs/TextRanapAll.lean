import Verif.Proofs.TextRanapA
import Verif.Proofs.TextRanapB
import Verif.Proofs.TextRanapC
import Verif.Proofs.TextRanapD
import Verif.Gen.TextNames

/-!
# The whole RANAP text
-/

namespace Verif.Gen.Text
open Verif.AsnToStruct Verif.AsnToStruct.Spec

/-- All lines of asn1/ranap/RANAP-PDU-Contents.asn. -/
noncomputable def ranap : List Text :=
  ranap0 ++ (ranap1 ++ (ranap2 ++ (ranap3 ++ (ranap4 ++ (ranap5 ++ (ranap6 ++ (ranap7 ++ (ranap8 ++ (ranap9 ++ (ranap10 ++ (ranap11 ++ (ranap12 ++ (ranap13 ++ (ranap14 ++ (ranap15 ++ (ranap16 ++ (ranap17 ++ (ranap18 ++ (ranap19 ++ (ranap20 ++ (ranap21 ++ (ranap22 ++ (ranap23 ++ (ranap24 ++ (ranap25 ++ (ranap26 ++ (ranap27 ++ (ranap28 ++ (ranap29 ++ (ranap30 ++ (ranap31 ++ (ranap32 ++ (ranap33 ++ (ranap34 ++ (ranap35 ++ (ranap36 ++ (ranap37 ++ (ranap38 ++ (ranap39 ++ (ranap40 ++ (ranap41 ++ (ranap42 ++ (ranap43 ++ (ranap44 ++ (ranap45 ++ (ranap46 ++ (ranap47 ++ (ranap48 ++ (ranap49 ++ (ranap50 ++ (ranap51 ++ (ranap52 ++ (ranap53 ++ (ranap54 ++ (ranap55 ++ (ranap56 ++ (ranap57 ++ (ranap58 ++ (ranap59)))))))))))))))))))))))))))))))))))))))))))))))))))))))))))

/-- All tables. -/
noncomputable def ranapTables : List (Text × List Row) :=
  ranap0Tables ++ (ranap1Tables ++ (ranap2Tables ++ (ranap3Tables ++ (ranap4Tables ++ (ranap5Tables ++ (ranap6Tables ++ (ranap7Tables ++ (ranap8Tables ++ (ranap9Tables ++ (ranap10Tables ++ (ranap11Tables ++ (ranap12Tables ++ (ranap13Tables ++ (ranap14Tables ++ (ranap15Tables ++ (ranap16Tables ++ (ranap17Tables ++ (ranap18Tables ++ (ranap19Tables ++ (ranap20Tables ++ (ranap21Tables ++ (ranap22Tables ++ (ranap23Tables ++ (ranap24Tables ++ (ranap25Tables ++ (ranap26Tables ++ (ranap27Tables ++ (ranap28Tables ++ (ranap29Tables ++ (ranap30Tables ++ (ranap31Tables ++ (ranap32Tables ++ (ranap33Tables ++ (ranap34Tables ++ (ranap35Tables ++ (ranap36Tables ++ (ranap37Tables ++ (ranap38Tables ++ (ranap39Tables ++ (ranap40Tables ++ (ranap41Tables ++ (ranap42Tables ++ (ranap43Tables ++ (ranap44Tables ++ (ranap45Tables ++ (ranap46Tables ++ (ranap47Tables ++ (ranap48Tables ++ (ranap49Tables ++ (ranap50Tables ++ (ranap51Tables ++ (ranap52Tables ++ (ranap53Tables ++ (ranap54Tables ++ (ranap55Tables ++ (ranap56Tables ++ (ranap57Tables ++ (ranap58Tables ++ (ranap59Tables)))))))))))))))))))))))))))))))))))))))))))))))))))))))))))

theorem ranap_names : (ranapTables.map (·.1)).Nodup := by decide +kernel

theorem ranap_iesDefs : iesDefs ranap = ranapTables := by
  refine iesDefs_of_parts ?_ ranap_names
  unfold ranap ranapTables
  rw [part_sound ranap0_tables, part_sound ranap1_tables, part_sound ranap2_tables, part_sound ranap3_tables, part_sound ranap4_tables, part_sound ranap5_tables, part_sound ranap6_tables, part_sound ranap7_tables, part_sound ranap8_tables, part_sound ranap9_tables, part_sound ranap10_tables, part_sound ranap11_tables, part_sound ranap12_tables, part_sound ranap13_tables, part_sound ranap14_tables, part_sound ranap15_tables, part_sound ranap16_tables, part_sound ranap17_tables, part_sound ranap18_tables, part_sound ranap19_tables, part_sound ranap20_tables, part_sound ranap21_tables, part_sound ranap22_tables, part_sound ranap23_tables, part_sound ranap24_tables, part_sound ranap25_tables, part_sound ranap26_tables, part_sound ranap27_tables, part_sound ranap28_tables, part_sound ranap29_tables, part_sound ranap30_tables, part_sound ranap31_tables, part_sound ranap32_tables, part_sound ranap33_tables, part_sound ranap34_tables, part_sound ranap35_tables, part_sound ranap36_tables, part_sound ranap37_tables, part_sound ranap38_tables, part_sound ranap39_tables, part_sound ranap40_tables, part_sound ranap41_tables, part_sound ranap42_tables, part_sound ranap43_tables, part_sound ranap44_tables, part_sound ranap45_tables, part_sound ranap46_tables, part_sound ranap47_tables, part_sound ranap48_tables, part_sound ranap49_tables, part_sound ranap50_tables, part_sound ranap51_tables, part_sound ranap52_tables, part_sound ranap53_tables, part_sound ranap54_tables, part_sound ranap55_tables, part_sound ranap56_tables, part_sound ranap57_tables, part_sound ranap58_tables, ranap59_tables]

theorem ranap_messages : ranapTables.mapM (message ranapNames) = some Ranap.all := by kernel_rfl

end Verif.Gen.Text
