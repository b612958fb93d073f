import Verif.Model.CauseStr

/-!
# What cause strings are for
-/

namespace Verif.CauseStr.Spec
open Verif.Gen.Causes

/-- The function puts this string into its buffer of `n` characters, whatever was in there, and stays
within the buffer. -/
def Shows (f : List Char → Cause → Res (List Char)) (n : Nat) (c : Cause) (s : List Char) : Prop :=
  ∀ buf : List Char, buf.length = n → ∃ b, f buf c = .ok b ∧ b.length = n ∧ '\x00' ∈ b ∧ text b = s

/-- The causes that RANAP defines: group and value (include/osmocom/ranap/RANAP_Cause*.h). -/
def ranapKnown (c : Cause) : Prop :=
  ∃ n : Nat, c.value = n ∧ (n ∈ match c.present with
    | 1 => ranapRadioAll | 2 => ranapTransmAll | 3 => ranapNasAll | 4 => ranapProtAll | 5 => ranapMiscAll | _ => [])

/-- The causes that RUA defines. -/
def ruaKnown (c : Cause) : Prop :=
  ∃ n : Nat, c.value = n ∧ (n ∈ match c.present with
    | 1 => ruaRadioAll | 2 => ruaTranspAll | 3 => ruaProtAll | 4 => ruaMiscAll | _ => [])

/-- The causes that HNBAP defines. -/
def hnbapKnown (c : Cause) : Prop :=
  ∃ n : Nat, c.value = n ∧ (n ∈ match c.present with
    | 1 => hnbapRadioAll | 2 => hnbapTranspAll | 3 => hnbapProtAll | 4 => hnbapMiscAll | _ => [])

/-- A 32 bit number, the argument of the name lookup. -/
@[reducible] def IsU32 (v : Int) : Prop := 0 ≤ v ∧ v < 4294967296

/-- A `long`. -/
def IsLong (v : Int) : Prop := -9223372036854775808 ≤ v ∧ v < 9223372036854775808

/-- Protocol causes "abstract syntax error (reject)" and "abstract syntax error (ignore and notify)" of RUA
and HNBAP. -/
def AbstractSyntaxError (c : Cause) : Prop := c.present = 3 ∧ (c.value = 1 ∨ c.value = 2)

end Verif.CauseStr.Spec
