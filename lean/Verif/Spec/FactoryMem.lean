import Verif.Spec.Factory
import Verif.Model.FactoryMem

/-!
# Memory the message generators leave behind
-/

namespace Verif.Factory.Spec
open Verif.Aper Verif.Ie Verif.Ie.Spec Verif.Gen.Ranap
open Verif.Aper.Spec (fits)

/-- Exactly these blocks are allocated: nothing so far was freed that was not allocated, and new blocks will be
different. -/
def Live (μ : Heap) (live : List Nat) : Prop :=
  (∃ l, replay [] μ.trace = some l ∧ l.Perm live) ∧ ∀ b ∈ live, b < μ.next

/-- The call is made with the blocks `live` allocated.  Afterwards these are still allocated, a message returned is
one more block, and `left` blocks are allocated besides: nobody has a pointer to them. -/
def Leaves (x : M (Option (Bytes × List Nat))) (left : Nat) : Prop :=
  ∀ μ live, Live μ live → ∃ lost : List Nat, lost.length = left ∧
    match (x μ).1 with
    | some (_, msg) => msg.length = 1 ∧ Live (x μ).2 (msg ++ lost ++ live)
    | none => Live (x μ).2 (lost ++ live)

/-- Number of list elements left with their values, and the array of the list. -/
def elementBlocks (n : Nat) : Nat := if n = 0 then 0 else 2 * n + 1

/-- Number of algorithms left, and the array of the list. -/
def algorithmBlocks (n : Nat) : Nat := if n = 0 then 0 else n + 1

/-- Bit 1 or 2. -/
def known (mask : Byte) : Nat := (mask.getLsbD 1).toNat + (mask.getLsbD 2).toNat

/-- A bit that stands for no algorithm is set. -/
def Unknown (mask : Byte) : Prop := ∃ i, mask.getLsbD i = true ∧ i ≠ 1 ∧ i ≠ 2

/-- The permanent identity of an IMSI has 3 to 8 octets. -/
def ImsiLength (imsi : Bytes) : Prop := 5 ≤ imsi.length ∧ imsi.length ≤ 16

open Classical in
/-- Blocks nobody has a pointer to after the call.  Elements are encoded in the order of the message; the first one
that cannot be expressed ends the function, and those before it are left behind. -/
noncomputable def leftBehind : Call → Nat
  | .reset2 d c r =>
    if ¬ ∃ c' ∈ c, ValidCause c' then 0
    else if ¬ ValidDomain d then elementBlocks 1
    else if ¬ ∀ r' ∈ r, ValidRnc r' then elementBlocks 2 else 0
  | .resetAck d r =>
    if ¬ ValidDomain d then 0
    else if ¬ ∀ r' ∈ r, ValidRnc r' then elementBlocks 1 else 0
  | .errorInd c v d r =>
    if r.isSome then 0
    else if ¬ ∀ c' ∈ c, ValidCause c' then 0
    else if ¬ ∀ v' ∈ v, fits RANAP_CriticalityDiagnostics v' = true then elementBlocks c.toList.length
    else if ¬ ∀ d' ∈ d, ValidDomain d' then elementBlocks (c.toList.length + v.toList.length) else 0
  | .initialUe _ _ r _ =>
    if ¬ ∀ r' ∈ r, r'.plmn.length = 3 then elementBlocks 1
    else if ¬ ∀ r' ∈ r, ValidRnc r' then elementBlocks 5 else 0
  | .dt _ _ => 0
  | .secModCmd2 ik ck st uia uea =>
    if Unknown uia then algorithmBlocks (if uia.getLsbD 0 then 0 else known uia)
    else if ck.isSome ∧ Unknown uea then
      known uia + ik.toList.length + algorithmBlocks (if uea.getLsbD 0 then 0 else known uea)
    else if known uia = 0 ∨ ik = none then 0
    else if ck.isSome ∧ known uea = 0 then elementBlocks 1
    else if ¬ st < 2 then elementBlocks (1 + ck.toList.length) else 0
  | .secModCompl i e =>
    if ¬ (0 ≤ i ∧ i ≤ 15) then 0
    else if ¬ (0 ≤ e ∧ e ≤ 15) then elementBlocks 1 else 0
  | .commonId _ => 0
  | .iuRelCmd _ => 0
  | .iuRelCompl => 0
  | .pagingCmd i t _ c =>
    if ¬ ∀ i' ∈ i, ImsiLength i' then elementBlocks 1
    else if 6 ≤ c.toNat then elementBlocks (2 + t.toList.length) else 0
  | .rabAssignVoice .. => 0
  | .rabAssignData .. => 0
  | .iuRelReq _ => 0
  | .rabRelReq _ c => if ¬ ∀ c' ∈ c, ValidCause c' then 1 else 0
  | .resetResource d c i r =>
    if ¬ ∀ i' ∈ i, i'.length = 1 then 0
    else if ¬ ValidDomain d then 0
    else if ¬ ∀ c' ∈ c, ValidCause c' then elementBlocks 1
    else if ¬ ∀ r' ∈ r, ValidRnc r' then elementBlocks 3 else 0

end Verif.Factory.Spec
