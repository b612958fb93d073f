import Verif.Proofs.Aper

/-!
# How many bits a decoder needs at least
-/

namespace Verif.Aper

/-- The decoder needs at least `n` bits. -/
def Needs {α : Type} (n : Nat) (d : Dec α) : Prop := ∀ i v j, d i = some (v, j) → j.bits.length + n ≤ i.bits.length

theorem needs_bind {α β : Type} {n k : Nat} {d : Dec α} {f : α → Dec β} (hd : Needs n d) (hf : ∀ a, Needs k (f a)) :
    Needs (n + k) (d >>= f) := by
  intro i v j h
  rw [bind_apply] at h
  cases hx : d i with
  | none => rw [hx] at h; cases h
  | some p =>
    obtain ⟨a, m⟩ := p
    rw [hx] at h
    have h1 := hd _ _ _ hx
    have h2 := hf a _ _ _ h
    omega

theorem needs_pure {α : Type} (a : α) : Needs 0 (pure a : Dec α) := by
  intro i v j h
  cases h
  exact Nat.le_refl _

theorem Needs.mono {α : Type} {n k : Nat} {d : Dec α} (h : Needs n d) (hk : k ≤ n) : Needs k d := by
  intro i v j hd
  have := h i v j hd
  omega

theorem splitN_rest {n : Nat} {bs a r : Bits} (h : splitN n bs = some (a, r)) : r.length + n = bs.length := by
  induction n generalizing bs a r with
  | zero => cases h; rfl
  | succ n ih =>
    cases bs with
    | nil => cases h
    | cons b bs =>
      unfold splitN at h
      split at h
      · cases h
      · next x y hx =>
        cases h
        have := ih hx
        simp only [List.length_cons]
        omega

theorem needs_take (n : Nat) : Needs n (dTake n) := by
  intro i v j h
  unfold dTake at h
  split at h
  · cases h
  · next a r hs =>
    cases h
    have := splitN_rest hs
    dsimp only
    omega

theorem needs_nat (n : Nat) : Needs n (dNat n) := by
  intro i v j h
  unfold dNat at h
  split at h
  · cases h
  · next a r hs => cases h; exact needs_take n _ _ _ hs

theorem needs_align : Needs 0 dAlign := by
  intro i v j h
  unfold dAlign at h
  split at h
  · cases h
  · next a r hs =>
    cases h
    have := needs_take _ _ _ _ hs
    omega

theorem needs_fail {α : Type} (n : Nat) : Needs n (dFail : Dec α) := by
  intro i v j h; cases h

theorem needs_bit : Needs 1 dBit := by
  unfold dBit
  exact needs_bind (k := 0) (needs_nat 1) fun _ => needs_pure _

theorem needs_rawOctets (n : Nat) : Needs 0 (dRawOctets n) := by
  unfold dRawOctets
  exact (needs_bind (k := 0) (needs_take _) fun _ => needs_pure _).mono (Nat.zero_le _)

theorem needs_frag : ∀ k, Needs 8 (dFrag k)
  | 0 => needs_fail 8
  | k + 1 => by
    unfold dFrag
    refine needs_bind (n := 0) (k := 8) needs_align fun _ => needs_bind (n := 1) (k := 7) needs_bit fun b => ?_
    cases b
    · simp only [Bool.false_eq_true, if_false]
      exact needs_bind (n := 7) (k := 0) (needs_nat 7) fun n => needs_rawOctets n
    · simp only [if_true]
      refine needs_bind (n := 1) (k := 6) needs_bit fun b => ?_
      cases b
      · simp only [Bool.false_eq_true, if_false]
        exact (needs_bind (n := 14) (k := 0) (needs_nat 14) fun n => needs_rawOctets n).mono (by decide)
      · simp only [if_true]
        refine needs_bind (n := 6) (k := 0) (needs_nat 6) fun m => ?_
        by_cases h : m = 0 ∨ 4 < m
        · rw [if_pos h]; exact needs_fail 0
        · rw [if_neg h]
          refine needs_bind (n := 0) (k := 0) (needs_rawOctets _) fun a => ?_
          exact (needs_bind (n := 8) (k := 0) (needs_frag k) fun b => needs_pure _).mono (by decide)

theorem needs_list {n : Nat} {d : Dec Val} (h : Needs n d) : ∀ k, Needs (n * k) (dList d k)
  | 0 => needs_pure _
  | k + 1 => by
    unfold dList
    rw [Nat.mul_succ, Nat.add_comm]
    exact needs_bind (k := n * k) h fun _ => needs_bind (n := n * k) (k := 0) (needs_list h k) fun _ => needs_pure _

end Verif.Aper
