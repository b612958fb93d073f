import Verif.Proofs.CauseStr

/-! The tables of names, evaluated. -/

namespace Verif.CauseStr
open Verif.Gen.Causes

/-- No two names may coincide. -/
def noPair : Nat → Nat → Bool := fun _ _ => false
/-- The two names that coincide. -/
def synPair : Nat → Nat → Bool := fun a b => (a == 1 || a == 2) && (b == 1 || b == 2)

theorem ranap_distinct : (ranapGroups.rows.all fun r => distinct r.2.2 (ranapGroups.size - 1 - (r.2.1.toList.length + 1)) noPair) = true := by
  decide +kernel

theorem rua_distinct : (ruaGroups.rows.all fun r => distinct r.2.2 (ruaGroups.size - 1 - (r.2.1.toList.length + 1))
    (fun a b => r.1 == 3 && synPair a b)) = true := by
  decide +kernel

theorem hnbap_distinct : (hnbapGroups.rows.all fun r => distinct r.2.2 (hnbapGroups.size - 1 - (r.2.1.toList.length + 1))
    (fun a b => r.1 == 3 && synPair a b)) = true := by
  decide +kernel

theorem ranap_shown : (ranapGroups.rows.all fun r => r.2.2.all fun x =>
    shown r.2.2 (ranapGroups.size - 1 - (r.2.1.toList.length + 1)) x.1 == x.2 ++ [')']) = true := by
  decide +kernel

end Verif.CauseStr
