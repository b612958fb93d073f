import Verif.Proofs.AperFits

/-!
# A decoder depends on the bits it consumes only
-/

namespace Verif.Aper

/-- At this offset the decoder reads exactly these bits, whatever follows. -/
def Reads {α : Type} (d : Dec α) (off : Nat) (used : Bits) (v : α) : Prop :=
  ∀ rest, d ⟨off, used ++ rest⟩ = some (v, ⟨off + used.length, rest⟩)

/-- What a decoder returns depends on the bits it has consumed only. -/
def Local {α : Type} (d : Dec α) : Prop :=
  ∀ i v j, d i = some (v, j) → ∃ used, i.bits = used ++ j.bits ∧ j.off = i.off + used.length ∧ Reads d i.off used v

theorem reads_pure {α : Type} (off : Nat) (a : α) : Reads (pure a : Dec α) off [] a := fun _ => rfl

theorem reads_bind {α β : Type} {off : Nat} {u1 u2 : Bits} {d : Dec α} {f : α → Dec β} {a : α} {b : β} (h1 : Reads d off u1 a)
    (h2 : Reads (f a) (off + u1.length) u2 b) : Reads (d >>= f) off (u1 ++ u2) b := by
  intro rest
  rw [bind_apply, List.append_assoc, h1]
  simp only [h2 rest, List.length_append, Nat.add_assoc]

theorem local_pure {α : Type} (a : α) : Local (pure a : Dec α) := by
  intro i v j h
  cases h
  exact ⟨[], rfl, rfl, reads_pure _ _⟩

theorem local_fail {α : Type} : Local (dFail : Dec α) := by
  intro i v j h; cases h

theorem local_bind {α β : Type} {d : Dec α} {f : α → Dec β} (hd : Local d) (hf : ∀ a, Local (f a)) : Local (d >>= f) := by
  intro i v j h
  rw [bind_apply] at h
  cases hx : d i with
  | none => rw [hx] at h; cases h
  | some p =>
    obtain ⟨a, m⟩ := p
    rw [hx] at h
    obtain ⟨u1, e1, o1, r1⟩ := hd _ _ _ hx
    obtain ⟨u2, e2, o2, r2⟩ := hf a _ _ _ h
    refine ⟨u1 ++ u2, by rw [e1, e2, List.append_assoc], by rw [o2, o1, List.length_append, Nat.add_assoc], ?_⟩
    exact reads_bind r1 (o1 ▸ r2)

theorem local_ite {α : Type} {c : Prop} [Decidable c] {d e : Dec α} (hd : c → Local d) (he : ¬ c → Local e) :
    Local (if c then d else e) := by
  by_cases h : c
  · rw [if_pos h]; exact hd h
  · rw [if_neg h]; exact he h

theorem local_map {α β : Type} {f : α → β} {d : Dec α} (hd : Local d) : Local (f <$> d) := by
  have : f <$> d = d >>= fun a => pure (f a) := rfl
  rw [this]
  exact local_bind hd fun _ => local_pure _

theorem splitN_split {n : Nat} {bs a r : Bits} (h : splitN n bs = some (a, r)) : bs = a ++ r ∧ a.length = n := by
  induction n generalizing bs a r with
  | zero => cases h; exact ⟨rfl, rfl⟩
  | succ n ih =>
    cases bs with
    | nil => cases h
    | cons b bs =>
      unfold splitN at h
      split at h
      · cases h
      · next x y hx =>
        cases h
        obtain ⟨rfl, rfl⟩ := ih hx
        exact ⟨rfl, rfl⟩

theorem reads_take (off : Nat) (used : Bits) : Reads (dTake used.length) off used used := by
  intro rest
  simp only [dTake, splitN_append]

theorem local_take (n : Nat) : Local (dTake n) := by
  intro i v j h
  unfold dTake at h
  split at h
  · cases h
  · next a r hs =>
    cases h
    obtain ⟨h1, rfl⟩ := splitN_split hs
    exact ⟨_, h1, rfl, reads_take _ _⟩

theorem local_nat (n : Nat) : Local (dNat n) := by
  have : dNat n = dTake n >>= fun a => pure (bitsNat a) := by
    funext i
    rw [bind_apply]
    unfold dNat
    cases dTake n i with
    | none => rfl
    | some p => rfl
  rw [this]
  exact local_bind (local_take n) fun _ => local_pure _

theorem local_align : Local dAlign := by
  intro i v j h
  unfold dAlign at h
  split at h
  · cases h
  · next a r hs =>
    cases h
    obtain ⟨u, e, o, hr⟩ := local_take _ _ _ _ hs
    refine ⟨u, e, o, fun rest => ?_⟩
    simp only [dAlign, hr rest]

theorem local_bit : Local dBit := by
  unfold dBit
  exact local_bind (local_nat 1) fun _ => local_pure _

theorem local_rawOctets (n : Nat) : Local (dRawOctets n) := by
  unfold dRawOctets
  exact local_bind (local_take _) fun _ => local_pure _

theorem local_small (range : Nat) : Local (dSmall range) := by
  unfold dSmall
  refine local_ite (fun _ => local_pure _) fun _ => local_ite (fun _ => local_nat _) fun _ => local_ite (fun _ => ?_) fun _ => ?_
  · exact local_bind local_align fun _ => local_nat _
  · exact local_bind local_align fun _ => local_nat _

theorem local_cons (range : Nat) : Local (dCons range) := by
  unfold dCons
  refine local_ite (fun _ => local_small _) fun _ => ?_
  exact local_bind (local_small _) fun _ => local_bind local_align fun _ => local_nat _

theorem local_nsn : Local dNsn := by
  unfold dNsn
  exact local_bind local_bit fun _ => local_ite (fun _ => local_fail) fun _ => local_nat _

theorem local_len : Local dLen := by
  unfold dLen
  refine local_bind local_align fun _ => local_bind local_bit fun _ => local_ite (fun _ => ?_) fun _ => local_nat _
  exact local_bind local_bit fun _ => local_ite (fun _ => local_fail) fun _ => local_nat _

/-! ## Octets in fragments -/

theorem frag_succ (k : Nat) : dFrag (k + 1) = (do
    dAlign
    if ← dBit then
      if ← dBit then do
        let m ← dNat 6
        if m = 0 ∨ 4 < m then dFail
        else do
          let a ← dRawOctets (m * 16384)
          let b ← dFrag k
          return a ++ b
      else do dRawOctets (← dNat 14)
    else do dRawOctets (← dNat 7)) := rfl

theorem local_frag (k : Nat) : Local (dFrag k) := by
  induction k with
  | zero => exact local_fail
  | succ k ih =>
    rw [frag_succ]
    refine local_bind local_align fun _ => local_bind local_bit fun _ => local_ite (fun _ => ?_) fun _ => ?_
    · refine local_bind local_bit fun _ => local_ite (fun _ => ?_) fun _ => ?_
      · refine local_bind (local_nat _) fun _ => local_ite (fun _ => local_fail) fun _ => ?_
        exact local_bind (local_rawOctets _) fun _ => local_bind ih fun _ => local_pure _
      · exact local_bind (local_nat _) fun _ => local_rawOctets _
    · exact local_bind (local_nat _) fun _ => local_rawOctets _

theorem bind_some {α β : Type} {d : Dec α} {f : α → Dec β} {i : In} {b : β} {j : In} (h : (d >>= f) i = some (b, j)) :
    ∃ a m, d i = some (a, m) ∧ f a m = some (b, j) := by
  rw [bind_apply] at h
  cases hx : d i with
  | none => rw [hx] at h; cases h
  | some p => rw [hx] at h; exact ⟨p.1, p.2, rfl, h⟩

/-- More fuel than bits consumed is enough. -/
theorem frag_fuel {k k' : Nat} {i j : In} {v : Bytes} (h : dFrag k i = some (v, j)) (hk : i.bits.length < k' + j.bits.length) :
    dFrag k' i = some (v, j) := by
  induction k generalizing k' i v j with
  | zero => cases h
  | succ k ih =>
    cases k' with
    | zero =>
      obtain ⟨u, e, -, -⟩ := local_frag _ _ _ _ h
      rw [e, List.length_append] at hk
      omega
    | succ k' =>
      rw [frag_succ] at h ⊢
      obtain ⟨x1, i1, h1, h⟩ := bind_some h
      rw [bind_apply, h1]
      obtain ⟨x2, i2, h2, h⟩ := bind_some h
      simp only [bind_apply, h2]
      split at h
      · rename_i hx2
        rw [if_pos hx2]
        obtain ⟨x3, i3, h3, h⟩ := bind_some h
        simp only [bind_apply, h3]
        split at h
        · rename_i hx3
          rw [if_pos hx3]
          obtain ⟨x4, i4, h4, h⟩ := bind_some h
          simp only [bind_apply, h4]
          split at h
          · cases h
          · rename_i hx4
            rw [if_neg hx4]
            obtain ⟨x5, i5, h5, h⟩ := bind_some h
            simp only [bind_apply, h5]
            obtain ⟨x6, i6, h6, h⟩ := bind_some h
            obtain ⟨u1, e1, -, -⟩ := local_align _ _ _ h1
            obtain ⟨u2, e2, -, -⟩ := local_bit _ _ _ h2
            obtain ⟨u3, e3, -, -⟩ := local_bit _ _ _ h3
            obtain ⟨u4, e4, -, r4⟩ := local_nat _ _ _ _ h4
            obtain ⟨u5, e5, -, -⟩ := local_rawOctets _ _ _ _ h5
            have l4 : 1 ≤ u4.length := by
              cases u4 with
              | cons => simp
              | nil => cases r4 []
            cases h
            have hl : i.bits.length = u1.length + (u2.length + (u3.length + (u4.length + (u5.length + i5.bits.length)))) := by
              rw [e1, e2, e3, e4, e5]; simp only [List.length_append]
            rw [ih h6 (by omega)]
            rfl
        · rename_i hx3
          rw [if_neg hx3]
          simpa only [bind_apply] using h
      · rename_i hx2
        rw [if_neg hx2]
        simpa only [bind_apply] using h

theorem local_octets : Local dOctets := by
  intro i v j h
  unfold dOctets at h
  obtain ⟨u, e, o, r⟩ := local_frag _ _ _ _ h
  refine ⟨u, e, o, fun rest => ?_⟩
  unfold dOctets
  refine frag_fuel (r rest) ?_
  simp only [List.length_append]
  omega

theorem local_open {α : Type} (d : Dec α) : Local (dOpen d) := by
  intro i v j h
  unfold dOpen at h
  split at h
  · cases h
  · next bs m hs =>
    split at h
    · cases h
    · next a x hx =>
      cases h
      obtain ⟨u, e, o, r⟩ := local_octets _ _ _ hs
      refine ⟨u, e, o, fun rest => ?_⟩
      simp only [dOpen, r rest, hx]

/-! ## Types -/

theorem local_size (s : Size) : Local (dSize s) := by
  unfold dSize
  refine local_ite (fun _ => local_pure _) fun _ => local_ite (fun _ => ?_) fun _ => local_len
  exact local_bind (local_cons _) fun _ => local_pure _

theorem local_body (s : Size) (n : Nat) : Local (dBody s n) := by
  unfold dBody
  refine local_ite (fun _ => local_take _) fun _ => ?_
  exact local_bind local_align fun _ => local_take _

theorem local_ext {α : Type} {c : Bool} {f : Bool → Dec α} (hf : ∀ b, Local (f b)) :
    Local (if c = true then dBit >>= f else pure false >>= f) :=
  local_ite (fun _ => local_bind local_bit hf) fun _ => local_bind (local_pure _) hf

theorem local_octStr (s : Option Size) : Local (dOctStr s) := by
  unfold dOctStr
  cases s with
  | none => exact local_octets
  | some s =>
    refine local_ext fun _ => local_ite (fun _ => local_octets) fun _ => ?_
    exact local_bind (local_size s) fun _ => local_bind (local_body _ _) fun _ => local_pure _

theorem local_bitStr (s : Option Size) : Local (dBitStr s) := by
  unfold dBitStr
  cases s with
  | none => exact local_bind local_len fun _ => local_take _
  | some s =>
    refine local_ext fun _ => local_ite (fun _ => ?_) fun _ => ?_
    · exact local_bind local_len fun _ => local_take _
    · exact local_bind (local_size s) fun _ => local_body _ _

theorem local_int (r : Range) : Local (dInt r) := by
  unfold dInt
  refine local_ext fun _ => local_ite (fun _ => ?_) fun _ => ?_
  · exact local_bind local_len fun _ => local_bind (local_take _) fun _ => local_pure _
  · exact local_bind (local_cons _) fun _ => local_pure _

theorem local_enum (root total : Nat) (ext : Bool) : Local (dEnum root total ext) := by
  unfold dEnum
  have hj : ∀ n, Local (if n < total then pure n else dFail : Dec Nat) :=
    fun n => local_ite (fun _ => local_pure _) fun _ => local_fail
  refine local_ext fun _ => local_ite (fun _ => ?_) fun _ => ?_
  · exact local_bind (local_map local_nsn) hj
  · exact local_bind (local_cons _) hj

theorem local_count (s : Option Size) : Local (dCount s) := by
  unfold dCount
  cases s with
  | none => exact local_len
  | some s => exact local_ext fun _ => local_ite (fun _ => local_len) fun _ => local_size s

theorem local_list {d : Dec Val} (h : Local d) : ∀ k, Local (dList d k)
  | 0 => local_pure _
  | k + 1 => by
    unfold dList
    exact local_bind h fun _ => local_bind (local_list h k) fun _ => local_pure _

theorem local_skipOpen : ∀ n, Local (dSkipOpen n)
  | 0 => local_pure _
  | n + 1 => by
    unfold dSkipOpen
    exact local_bind local_octets fun _ => local_skipOpen n

theorem local_skipExt : Local dSkipExt := by
  unfold dSkipExt
  exact local_bind local_nsn fun _ => local_bind (local_take _) fun _ => local_skipOpen _

mutual
theorem local_dec : ∀ t : Ty, Local (dec t)
  | .null => by unfold dec; exact local_pure _
  | .bool => by unfold dec; exact local_bind local_bit fun _ => local_pure _
  | .int r => by unfold dec; exact local_bind (local_int r) fun _ => local_pure _
  | .enum root total ext => by unfold dec; exact local_bind (local_enum root total ext) fun _ => local_pure _
  | .bits s => by unfold dec; exact local_bind (local_bitStr s) fun _ => local_pure _
  | .octets s => by unfold dec; exact local_bind (local_octStr s) fun _ => local_pure _
  | .any => by unfold dec; exact local_bind local_octets fun _ => local_pure _
  | .seq ext fs => by
    unfold dec
    refine local_ext fun _ => local_bind (local_take _) fun _ => local_bind (local_fields fs _) fun _ => ?_
    exact local_ite (fun _ => local_bind local_skipExt fun _ => local_pure _) fun _ => local_pure _
  | .choice ext root adds => by
    unfold dec
    refine local_ext fun _ => local_ite (fun _ => ?_) fun _ => ?_
    · exact local_bind local_nsn fun _ => local_bind (local_open _) fun _ => local_pure _
    · exact local_bind (local_cons _) fun _ => local_bind (local_alt root _) fun _ => local_pure _
  | .seqOf s t => by
    unfold dec
    exact local_bind (local_count s) fun _ => local_bind (local_list (local_dec t) _) fun _ => local_pure _
  | .oid => by unfold dec; exact local_fail
theorem local_fields : ∀ (fs : Fields) (bm : Bits), Local (decFields fs bm)
  | .nil, _ => by unfold decFields; exact local_pure _
  | .cons false t fs, bm => by
    unfold decFields
    exact local_bind (local_dec t) fun _ => local_bind (local_fields fs bm) fun _ => local_pure _
  | .cons true t fs, true :: bm => by
    unfold decFields
    exact local_bind (local_dec t) fun _ => local_bind (local_fields fs bm) fun _ => local_pure _
  | .cons true _ fs, false :: bm => by
    unfold decFields
    exact local_bind (local_fields fs bm) fun _ => local_pure _
  | .cons true _ _, [] => by unfold decFields; exact local_fail
theorem local_alt : ∀ (fs : Fields) (i : Nat), Local (decAlt fs i)
  | .cons _ t _, 0 => by unfold decAlt; exact local_dec t
  | .cons _ _ fs, i + 1 => by unfold decAlt; exact local_alt fs i
  | .nil, _ => by unfold decAlt; exact local_fail
end

theorem octetsBits_append (a b : Bytes) : octetsBits (a ++ b) = octetsBits a ++ octetsBits b := by
  induction a with
  | nil => rfl
  | cons x a ih => simp only [List.cons_append, octetsBits, ih, List.append_assoc]

/-- Octets behind a value make no difference. -/
theorem decode_append {t : Ty} {bs : Bytes} {v : Val} (h : decode t bs = some v) (more : Bytes) : decode t (bs ++ more) = some v := by
  unfold decode at h ⊢
  split at h
  · cases h
  · next x j hx =>
    cases h
    obtain ⟨u, e, -, r⟩ := local_dec t _ _ _ hx
    dsimp only at e
    rw [octetsBits_append, e, List.append_assoc, r]

/-- An encoding cut short does not decode, unless there was nothing in it. -/
theorem decode_truncated {t : Ty} {v : Val} {bs cut more : Bytes} (ht : t.ok = true) (h : encode t v = some bs)
    (hb : enc t v 0 ≠ some []) (hc : bs = cut ++ more) (hm : more ≠ []) : decode t cut = none := by
  cases hd : decode t cut with
  | none => rfl
  | some w =>
    exfalso
    unfold decode at hd
    split at hd
    · cases hd
    · next x j hx =>
      obtain ⟨u, e, -, r⟩ := local_dec t _ _ _ hx
      dsimp only at e r
      unfold encode complete at h
      split at h
      · cases h
      · rename_i he; exact hb he
      · next bits hne he =>
        have h1 := enc_dec t v ht 0 bits he
        obtain ⟨pad, hp⟩ := octetsBits_toOctets bits
        cases h
        have hlen : (octetsBits (toOctets bits)).length < bits.length + 8 := by rw [octetsBits_length, toOctets_length]; omega
        have h2 := h1 pad
        rw [← hp, hc, octetsBits_append, e, List.append_assoc, r] at h2
        have h3 := congrArg (fun p => p.2.off) (Option.some.inj h2)
        dsimp only at h3
        have h4 : u.length ≤ 8 * cut.length := by rw [← octetsBits_length, e, List.length_append]; omega
        rw [hc, octetsBits_append, List.length_append, octetsBits_length, octetsBits_length] at hlen
        have : 1 ≤ more.length := by cases more with | nil => exact absurd rfl hm | cons => simp
        omega

/-- The octets of a value have a definite end. -/
theorem decode_end {t : Ty} {data : Bytes} {v : Val} (h : decode t data = some v) :
    ∃ n, n ≤ data.length ∧ (∀ k, k < n → decode t (data.take k) = none) ∧ ∀ more, decode t (data.take n ++ more) = some v := by
  unfold decode at h
  split at h
  · cases h
  · next x j hx =>
    cases h
    obtain ⟨u, e, ho, r⟩ := local_dec t _ _ _ hx
    dsimp only at e ho r
    have hle : u.length ≤ 8 * data.length := by rw [← octetsBits_length, e, List.length_append]; omega
    refine ⟨(u.length + 7) / 8, by omega, fun k hk => ?_, fun more => ?_⟩
    · cases hd : decode t (data.take k) with
      | none => rfl
      | some w =>
        exfalso
        unfold decode at hd
        split at hd
        · cases hd
        · next y m hy =>
          obtain ⟨u', e', ho', r'⟩ := local_dec t _ _ _ hy
          dsimp only at e' ho' r'
          have h1 := r' (m.bits ++ octetsBits (data.drop k))
          rw [← List.append_assoc, ← e', ← octetsBits_append, List.take_append_drop, hx] at h1
          have h2 := congrArg (fun p => p.2.off) (Option.some.inj h1)
          dsimp only at h2
          have h3 : u'.length ≤ 8 * (data.take k).length := by rw [← octetsBits_length, e', List.length_append]; omega
          rw [List.length_take] at h3
          omega
    · have hs : octetsBits data = octetsBits (data.take ((u.length + 7) / 8)) ++ octetsBits (data.drop ((u.length + 7) / 8)) := by
        rw [← octetsBits_append, List.take_append_drop]
      have hl : u.length ≤ (octetsBits (data.take ((u.length + 7) / 8))).length := by
        rw [octetsBits_length, List.length_take]; omega
      obtain ⟨w, hw⟩ : ∃ w, octetsBits (data.take ((u.length + 7) / 8)) = u ++ w := by
        rw [e] at hs
        obtain ⟨w, h1, -⟩ | ⟨w, h1, -⟩ := List.append_eq_append_iff.1 hs
        · exact ⟨w, h1⟩
        · refine ⟨[], ?_⟩
          have : w = [] := by
            have := congrArg List.length h1
            rw [List.length_append] at this
            exact List.length_eq_zero_iff.1 (by omega)
          rw [this, List.append_nil] at h1
          rw [List.append_nil]
          exact h1.symm
      unfold decode
      rw [octetsBits_append, hw, List.append_assoc, r]

/-- A CHOICE with an extension marker has at least one bit. -/
theorem choice_bits {root adds : Fields} {v : Val} : enc (.choice true root adds) v 0 ≠ some [] := by
  intro h
  cases v <;> simp only [enc, eFail, if_true] at h <;> try cases h
  have hb : ∀ b : Bool, ∃ x, eBit b 0 = some [x] := by
    intro b
    cases b
    · exact ⟨false, by decide⟩
    · exact ⟨true, by decide⟩
  split at h
  · obtain ⟨a, b, h1, -, h3⟩ := seq_some.1 h
    obtain ⟨x, hx⟩ := hb false
    rw [h1] at hx; cases hx; cases h3
  · obtain ⟨a, b, h1, -, h3⟩ := seq_some.1 h
    obtain ⟨x, hx⟩ := hb true
    rw [h1] at hx; cases hx; cases h3

end Verif.Aper
