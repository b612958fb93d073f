import Verif.Basic

/-! # Specification vocabulary for BCD coded digit strings (TS 25.413, TS 24.008) -/

namespace Verif.Spec.Bcd

/-- An ASCII decimal digit. -/
def IsDigit (c : Byte) : Prop := 0x30 ≤ c.toNat ∧ c.toNat ≤ 0x39

instance (c : Byte) : Decidable (IsDigit c) := by unfold IsDigit; infer_instance

/-- Numerical value of an ASCII decimal digit. -/
def digitVal (c : Byte) : Nat := c.toNat - 0x30

/-- Characters that a BCD decoder may output: `0`-`9`, `A`-`F`. -/
def IsHexUpper (c : Byte) : Prop := IsDigit c ∨ (0x41 ≤ c.toNat ∧ c.toNat ≤ 0x46)

/-- The character for a nibble. -/
def hexChar (n : Nat) : Byte := BitVec.ofNat 8 (if n < 10 then 0x30 + n else 0x37 + n)

/-- The complete digit sequence of an octet string: low nibble first; a high
nibble 15 is the filler and ends the sequence. -/
def digitChars : Bytes → Bytes
  | [] => []
  | b :: rest =>
    hexChar (b.toNat % 16) ::
      (if b.toNat / 16 = 15 then [] else hexChar (b.toNat / 16) :: digitChars rest)

/-- Digit `k` of a string as a nibble; past the end it is the filler 15. -/
def nibbleAt (s : Bytes) (k : Nat) : Nat :=
  match s[k]? with
  | some c => digitVal c
  | none => 15

/-- `t` is the TBCD form of the digit string `s`: two digits per octet, low nibble first, filler 15. -/
def Tbcd (s t : Bytes) : Prop :=
  t.length = (s.length + 1) / 2 ∧
    ∀ i b, t[i]? = some b → b.toNat % 16 = nibbleAt s (2 * i) ∧ b.toNat / 16 = nibbleAt s (2 * i + 1)

end Verif.Spec.Bcd
