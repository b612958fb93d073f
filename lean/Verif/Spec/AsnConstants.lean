import Verif.Spec.AsnReader

/-!
# Reading the numbers in a module of constants
-/

namespace Verif.AsnToStruct.Spec

/-- A decimal number. -/
def decimal (t : Text) : Option Nat :=
  if t ≠ [] ∧ t.all Char.isDigit then some (t.foldl (fun n c => 10 * n + (c.toNat - 48)) 0) else none

/-- `name type ::= number` on a line of its own. -/
def constant (type : Text) (line : Text) : Option (Text × Nat) :=
  match tokens false [] line with
  | [.word name, .word ty, .symbol ':', .symbol ':', .symbol '=', .word number] =>
    if ty = type then (decimal number).map fun n => (name, n) else none
  | _ => none

/-- All constants of this type in a file. -/
def constants (type : Text) (lines : List Text) : List (Text × Nat) := lines.filterMap (constant type)

end Verif.AsnToStruct.Spec
