import Verif.Proofs.Aper
import Verif.Proofs.AperFits
import Verif.Spec.Shape

/-!
# The form of decoded values
-/

namespace Verif.Aper
open Verif.Aper.Spec

/-- Everything the decoder yields has the property. -/
def Yields {α : Type} (P : α → Prop) (d : Dec α) : Prop := ∀ i a j, d i = some (a, j) → P a

theorem yields_pure {α : Type} {P : α → Prop} {a : α} (h : P a) : Yields P (pure a : Dec α) := by
  intro i b j hb
  rw [pure_apply] at hb
  cases hb
  exact h

theorem yields_fail {α : Type} {P : α → Prop} : Yields P (dFail : Dec α) := by intro i b j hb; cases hb

theorem yields_bind {α β : Type} {P : α → Prop} {Q : β → Prop} {d : Dec α} {f : α → Dec β} (hd : Yields P d)
    (hf : ∀ a, P a → Yields Q (f a)) : Yields Q (d >>= f) := by
  intro i b j hb
  rw [bind_apply] at hb
  cases h : d i with
  | none => rw [h] at hb; cases hb
  | some x => rw [h] at hb; exact hf x.1 (hd _ _ _ h) _ _ _ hb

theorem yields_true {α : Type} (d : Dec α) : Yields (fun _ => True) d := fun _ _ _ _ => trivial

theorem yields_map {α β : Type} {P : α → Prop} {Q : β → Prop} {d : Dec α} {f : α → β} (hd : Yields P d)
    (hf : ∀ a, P a → Q (f a)) : Yields Q (d >>= fun a => pure (f a)) :=
  yields_bind hd fun a h => yields_pure (hf a h)

theorem yields_ite {α : Type} {P : α → Prop} {c : Prop} [Decidable c] {d e : Dec α} (h1 : c → Yields P d)
    (h2 : ¬ c → Yields P e) : Yields P (if c then d else e) := by
  split
  · exact h1 (by assumption)
  · exact h2 (by assumption)

theorem splitN_length {n : Nat} {bs a r : Bits} (h : splitN n bs = some (a, r)) : a.length = n := by
  induction n generalizing bs a r with
  | zero => simp only [splitN, Option.some.injEq, Prod.mk.injEq] at h; rw [← h.1]; rfl
  | succ n ih =>
    cases bs with
    | nil => simp [splitN] at h
    | cons b bs =>
      simp only [splitN] at h
      split at h
      · cases h
      · rename_i x y e
        cases h
        simp [ih e]

theorem yields_take (n : Nat) : Yields (fun a => a.length = n) (dTake n) := by
  intro i a j h
  unfold dTake at h
  split at h
  · cases h
  · rename_i e
    cases h
    exact splitN_length e

theorem yields_nat (w : Nat) : Yields (fun n => n < 2 ^ w) (dNat w) := by
  intro i a j h
  unfold dNat at h
  split at h
  · cases h
  · rename_i e
    cases h
    have := yields_take w _ _ _ e
    rw [← this]
    exact bitsNat_lt _

theorem yields_small (range : Nat) (hr : range ≤ 65536) : Yields (fun n => codes range n = true) (dSmall range) := by
  unfold dSmall codes
  split
  · exact yields_pure (by simp)
  · split
    · intro i a j h; simpa using yields_nat _ _ _ _ h
    · split
      · refine yields_bind (yields_true _) fun _ _ i a j h => ?_
        simpa using yields_nat _ _ _ _ h
      · refine yields_bind (yields_true _) fun _ _ i a j h => ?_
        simpa using yields_nat _ _ _ _ h

theorem yields_cons (range : Nat) : Yields (fun n => codes range n = true) (dCons range) := by
  unfold dCons
  split
  · exact yields_small range (by assumption)
  · intro i a j _
    unfold codes
    rw [if_neg (by omega), if_neg (by omega), if_neg (by omega), if_neg (by omega)]

theorem yields_size (s : Size) : Yields (fun n => (s.lb = s.ub → n = s.lb) ∧ (s.ub < 65536 → s.lb ≤ n)) (dSize s) := by
  unfold dSize
  split
  · exact yields_pure ⟨fun _ => rfl, fun _ => Nat.le_refl _⟩
  · split
    · rename_i h _
      exact yields_map (yields_true _) fun a _ => ⟨fun e => absurd e h, fun _ => by omega⟩
    · rename_i h h'
      intro i a j _
      exact ⟨fun e => absurd e h, fun e => absurd e h'⟩

theorem yields_body (s : Size) (n : Nat) : Yields (fun a => a.length = n) (dBody s n) := by
  unfold dBody
  split
  · exact yields_take n
  · exact yields_bind (yields_true _) fun _ _ => yields_take n

theorem yields_optBit {α : Type} {P : α → Prop} {ext : Bool} {f : Bool → Dec α}
    (h : ∀ out, (ext = false → out = false) → Yields P (f out)) :
    Yields P (if ext = true then dBit >>= f else pure false >>= f) := by
  cases ext with
  | false => exact yields_bind (P := fun b => b = false) (yields_pure rfl) fun b hb => h b fun _ => hb
  | true => exact yields_bind (yields_true _) fun b _ => h b fun h => by cases h

theorem shapedLen_some {s : Size} {n : Nat} (h : s.ext = true ∨ (s.lb = s.ub → n = s.lb) ∧ (s.ub < 65536 → s.lb ≤ n)) :
    shapedLen (some s) n = true := by
  unfold shapedLen
  rcases h with h | ⟨h1, h2⟩
  · simp [h]
  · simp only [Bool.or_eq_true, Bool.and_eq_true, decide_eq_true_eq]
    exact .inr ⟨h1, h2⟩

theorem yields_octStr (s : Option Size) : Yields (fun b => shapedLen s b.length = true) (dOctStr s) := by
  cases s with
  | none => intro i a j _; rfl
  | some s =>
    unfold dOctStr
    simp only
    refine yields_optBit fun out ho => ?_
    split <;> rename_i h
    · intro i a j _
      refine shapedLen_some (.inl ?_)
      cases he : s.ext with
      | true => rfl
      | false => rw [ho he] at h; cases h
    · refine yields_bind (yields_size s) fun n hn => yields_map (yields_body s (8 * n)) fun a ha => ?_
      refine shapedLen_some (.inr ?_)
      rw [toOctets_length, ha]
      have : (8 * n + 7) / 8 = n := by omega
      rw [this]
      exact hn

theorem yields_bitStr (s : Option Size) : Yields (fun b => shapedLen s b.length = true) (dBitStr s) := by
  cases s with
  | none => intro i a j _; rfl
  | some s =>
    unfold dBitStr
    simp only
    refine yields_optBit fun out ho => ?_
    split <;> rename_i h
    · intro i a j _
      refine shapedLen_some (.inl ?_)
      cases he : s.ext with
      | true => rfl
      | false => rw [ho he] at h; cases h
    · refine yields_bind (yields_size s) fun n hn i a j h' => ?_
      rw [yields_body s n _ _ _ h']
      exact shapedLen_some (.inr hn)

theorem yields_int (r : Range) : Yields (fun n => shaped (.int r) (.int n) = true) (dInt r) := by
  unfold dInt
  refine yields_optBit fun out ho => ?_
  dsimp only
  split <;> rename_i h
  · intro i a j _
    cases he : r.ext with
    | true => simp [shaped, he]
    | false => rw [ho he] at h; cases h
  · refine yields_map (yields_cons _) fun a ha => ?_
    have h2 : r.lb + (a : Int) - r.lb = a := by omega
    simp only [shaped, h2, Int.toNat_natCast, ha, Bool.and_true, Bool.or_eq_true, decide_eq_true_eq]
    right
    omega

theorem yields_enum (root total : Nat) (ext : Bool) :
    Yields (fun n => shaped (.enum root total ext) (.enum n) = true) (dEnum root total ext) := by
  unfold dEnum
  refine yields_optBit fun out _ => ?_
  have key : ∀ d : Dec Nat, Yields (fun n => shaped (.enum root total ext) (.enum n) = true)
      (d >>= fun n => if n < total then pure n else dFail) := fun d => by
    refine yields_bind (yields_true _) fun n _ => ?_
    split
    · rename_i h; exact yields_pure (by simp [shaped, h])
    · exact yields_fail
  dsimp only
  split
  · exact key _
  · exact key _

theorem yields_count (s : Option Size) : Yields (fun n => shapedLen s n = true) (dCount s) := by
  cases s with
  | none => intro i a j _; rfl
  | some s =>
    unfold dCount
    simp only
    refine yields_optBit fun out ho => ?_
    split <;> rename_i h
    · intro i a j _
      refine shapedLen_some (.inl ?_)
      cases he : s.ext with
      | true => rfl
      | false => rw [ho he] at h; cases h
    · intro i a j h'
      exact shapedLen_some (.inr (yields_size s _ _ _ h'))

theorem yields_list {d : Dec Val} {P : Val → Bool} (h : Yields (fun v => P v = true) d) (n : Nat) :
    Yields (fun vs => vs.length = n ∧ vs.all P = true) (dList d n) := by
  induction n with
  | zero => exact yields_pure ⟨rfl, rfl⟩
  | succ n ih =>
    exact yields_bind h fun v hv => yields_map ih fun vs hvs => ⟨by simp [hvs.1], by simp [hv, hvs.2]⟩

theorem yields_open {α : Type} {P : α → Prop} {d : Dec α} (h : Yields P d) : Yields P (dOpen d) := by
  intro i a j hh
  unfold dOpen at hh
  split at hh
  · cases hh
  · split at hh
    · cases hh
    · rename_i e
      cases hh
      exact h _ _ _ e

mutual
theorem dec_shaped (t : Ty) : Yields (fun v => shaped t v = true) (dec t) := by
  match t with
  | .null => simp only [dec]; exact yields_pure rfl
  | .bool => simp only [dec]; exact yields_map (yields_true _) fun _ _ => rfl
  | .int r => simp only [dec]; exact yields_map (yields_int r) fun _ h => h
  | .enum root total ext => simp only [dec]; exact yields_map (yields_enum root total ext) fun _ h => h
  | .bits s => simp only [dec]; exact yields_map (yields_bitStr s) fun _ h => by simpa [shaped] using h
  | .octets s => simp only [dec]; exact yields_map (yields_octStr s) fun _ h => by simpa [shaped] using h
  | .any => simp only [dec]; exact yields_map (yields_true _) fun _ _ => rfl
  | .seq ext fs =>
    simp only [dec]
    refine yields_optBit fun out _ => yields_bind (yields_true _) fun bm _ =>
      yields_bind (decFields_shaped fs bm) fun vs hvs => ?_
    split
    · exact yields_map (yields_true _) fun _ _ => by simpa [shaped] using hvs
    · exact yields_pure (by simpa [shaped] using hvs)
  | .choice ext root adds =>
    simp only [dec]
    refine yields_optBit fun out ho => ?_
    split <;> rename_i h
    · refine yields_bind (yields_true _) fun i _ => yields_map (yields_open (decAlt_shaped adds i)) fun v hv => ?_
      have he : ext = true := by
        cases he : ext with
        | true => rfl
        | false => rw [ho he] at h; cases h
      rw [shaped, if_neg (by omega), he, Nat.add_sub_cancel, hv.1]
      rfl
    · refine yields_bind (yields_true _) fun i _ => yields_map (decAlt_shaped root i) fun v hv => ?_
      rw [shaped, if_pos hv.2, hv.1]
  | .seqOf s t =>
    simp only [dec]
    refine yields_bind (yields_count s) fun n hn => yields_map (yields_list (dec_shaped t) n) fun vs hvs => ?_
    rw [shaped, hvs.1, hn, hvs.2]
    rfl
  | .oid => simp only [dec]; exact yields_fail
theorem decFields_shaped (fs : Fields) (bm : Bits) :
    Yields (fun vs => shapedFields fs vs = true) (decFields fs bm) := by
  match fs, bm with
  | .nil, _ => simp only [decFields]; exact yields_pure rfl
  | .cons false t fs, bm =>
    simp only [decFields]
    exact yields_bind (dec_shaped t) fun v hv => yields_map (decFields_shaped fs bm) fun vs hvs => by
      rw [shapedFields, hv, hvs]; rfl
  | .cons true t fs, true :: bm =>
    simp only [decFields]
    exact yields_bind (dec_shaped t) fun v hv => yields_map (decFields_shaped fs bm) fun vs hvs => by
      rw [shapedFields, hv, hvs]; rfl
  | .cons true _ fs, false :: bm =>
    simp only [decFields]
    exact yields_map (decFields_shaped fs bm) fun vs hvs => by rw [shapedFields, hvs]
  | .cons true _ _, [] => simp only [decFields]; exact yields_fail
theorem decAlt_shaped (fs : Fields) (i : Nat) :
    Yields (fun v => shapedAlt fs i v = true ∧ i < fs.length) (decAlt fs i) := by
  match fs, i with
  | .cons _ t fs, 0 =>
    simp only [decAlt]
    intro a b c h
    exact ⟨by rw [shapedAlt]; exact dec_shaped t _ _ _ h, by simp [Fields.length]⟩
  | .cons _ _ fs, i + 1 =>
    simp only [decAlt]
    intro a b c h
    have := decAlt_shaped fs i _ _ _ h
    exact ⟨by rw [shapedAlt]; exact this.1, by simp only [Fields.length]; omega⟩
  | .nil, _ => simp only [decAlt]; exact yields_fail
end

theorem decode_shaped {t : Ty} {bs : Bytes} {v : Val} (h : decode t bs = some v) : shaped t v = true := by
  unfold decode at h
  split at h
  · cases h
  · rename_i e
    cases h
    exact dec_shaped t _ _ _ e

end Verif.Aper
