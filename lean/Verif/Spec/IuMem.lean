import Verif.Spec.IuHist

/-!
# Memory of the Iu client: specification

How many records the client needs for a history, said in terms of connections, RNCs and areas.
-/

namespace Verif.Iu.Spec

open Verif.Iu

/-- Number of different elements of a list, where elements related by `R` count once. -/
def kinds {α : Type} (R : α → α → Prop) [DecidableRel R] : List α → Nat
  | [] => 0
  | a :: l => (if ∃ b ∈ l, R a b then 0 else 1) + kinds R l

/-- Number of different RNCs in registrations. -/
def rncsSeen (regs : List Registration) : Nat := kinds SameRnc (regs.map (·.rnc))

/-- Number of different areas in registrations. -/
def areasSeen (regs : List Registration) : Nat := kinds SameArea (regs.map (·.area))

/-- The list names every connection in use once, and no other. -/
def InUseAre (s : State) (conns : List ConnId) : Prop := conns.Nodup ∧ ∀ c, c ∈ conns ↔ InUse s c

end Verif.Iu.Spec
