import Verif.Proofs.Ie

/-!
# The tables of the four protocols meet what the theorems need
-/

namespace Verif.Ie
open Verif.Aper

/-- Test for the container shape. -/
def isContainer : Ty → Bool
  | .seq _ (.cons false (.seqOf _
      (.seq false (.cons false (.int r) (.cons false (.enum a b false) (.cons false .any .nil))))) .nil) =>
    decide (0 ≤ r.lb) && !r.ext && decide (a ≤ b)
  | _ => false

/-- Test for what the theorems need of a table. -/
def goodB (m : MsgDef) : Bool :=
  decide ((m.ies.map (·.id)).Nodup) && decide ((m.ies.filter (·.opt)).length ≤ 16) &&
    m.ies.all (·.ty.ok) && isContainer m.ty

theorem isContainer_sound {t : Ty} (h : isContainer t = true) :
    ∃ ext s r c, t = .seq ext (.cons false (.seqOf s
      (.seq false (.cons false (.int r) (.cons false c (.cons false .any .nil))))) .nil) ∧
      0 ≤ r.lb ∧ r.ext = false ∧ ∃ a b, c = .enum a b false ∧ a ≤ b := by
  unfold isContainer at h
  split at h
  · next ext s r a b =>
    simp only [Bool.and_eq_true, decide_eq_true_eq, Bool.not_eq_true'] at h
    exact ⟨ext, s, r, _, rfl, h.1.1, h.1.2, a, b, rfl, h.2⟩
  · cases h

theorem goodB_sound {m : MsgDef} (h : goodB m = true) : Good m := by
  simp only [goodB, Bool.and_eq_true, decide_eq_true_eq, List.all_eq_true] at h
  exact ⟨h.1.1.1, h.1.1.2, h.1.2, isContainer_sound h.2⟩

theorem ranap_good : Gen.Ranap.all.all goodB = true := by decide +kernel
theorem rua_good : Gen.Rua.all.all goodB = true := by decide +kernel
theorem hnbap_good : Gen.Hnbap.all.all goodB = true := by decide +kernel
theorem sabp_good : Gen.Sabp.all.all goodB = true := by decide +kernel

theorem good {m : MsgDef} (h : m ∈ Spec.tables) : Good m := by
  unfold Spec.tables at h
  simp only [List.mem_append] at h
  have key : ∀ l : List MsgDef, l.all goodB = true → m ∈ l → Good m := fun l hl hm =>
    goodB_sound (List.all_eq_true.1 hl m hm)
  rcases h with ((h | h) | h) | h
  · exact key _ ranap_good h
  · exact key _ rua_good h
  · exact key _ hnbap_good h
  · exact key _ sabp_good h

/-- The empty container, for every message. -/
theorem empty_container : Spec.tables.all (fun m => decide (encode m.ty (container []) = some [0, 0, 0])) = true := by
  decide +kernel

end Verif.Ie
