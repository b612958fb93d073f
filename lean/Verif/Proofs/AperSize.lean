import Verif.Spec.Size
import Verif.Proofs.AperNeeds
import Verif.Proofs.AperFits

/-!
# The size of what a decoder returns
-/

namespace Verif.Aper
open Verif.Aper.Spec

/-! ## Bits needed at least -/

/-- By a constrained whole number. -/
def consMin (r : Nat) : Nat :=
  if r = 1 then 0 else if r ≤ 255 then bitsFor r else if r = 256 then 8 else if r ≤ 65536 then 16 else 8

/-- By a length or count. -/
def sizeMin : Option Size → Nat
  | none => 8
  | some s => if s.ext then 1 else if s.lb = s.ub then 0 else if s.ub < 65536 then consMin (s.ub - s.lb + 1) else 8

/-- By a string with this many bits per unit. -/
def strMin (unit : Nat) : Option Size → Nat
  | none => 8
  | some s => if s.ext then 1 else if s.lb = s.ub then unit * s.lb else sizeMin (some s)

mutual
/-- By a value. -/
def Ty.minBits : Ty → Nat
  | .null | .oid => 0
  | .bool => 1
  | .int r => if r.ext then 1 else consMin ((r.ub - r.lb).toNat + 1)
  | .enum root _ ext => if ext then 1 else consMin root
  | .bits s => strMin 1 s
  | .octets s => strMin 8 s
  | .any => 8
  | .seq ext fs => (if ext then 1 else 0) + (fs.numOpt + fs.minBits)
  | .choice ext root _ => if ext then 1 else consMin root.length
  | .seqOf s _ => sizeMin s
/-- By the mandatory components. -/
def Fields.minBits : Fields → Nat
  | .nil => 0
  | .cons opt t fs => (if opt then 0 else t.minBits) + fs.minBits
end

theorem needs_small (r : Nat) : Needs (if r = 1 then 0 else if r ≤ 255 then bitsFor r else if r = 256 then 8 else 16) (dSmall r) := by
  unfold dSmall
  split
  · exact needs_pure _
  · split
    · exact needs_nat _
    · split
      · exact needs_bind (n := 0) (k := 8) needs_align fun _ => needs_nat 8
      · exact needs_bind (n := 0) (k := 16) needs_align fun _ => needs_nat 16

theorem needs_cons (r : Nat) : Needs (consMin r) (dCons r) := by
  unfold dCons consMin
  by_cases h : r ≤ 65536
  · rw [if_pos h]
    have := needs_small r
    simp only [h, if_true]
    exact this
  · rw [if_neg h, if_neg (by omega), if_neg (by omega), if_neg (by omega), if_neg (by omega)]
    exact (needs_bind (k := 8) (needs_small _) fun m => (needs_bind (n := 0) (k := 8) needs_align fun _ =>
      (needs_nat _).mono (by omega)).mono (by omega)).mono (by omega)

theorem needs_nsn : Needs 7 dNsn := by
  unfold dNsn
  refine needs_bind (n := 1) (k := 6) needs_bit fun b => ?_
  cases b
  · exact needs_nat 6
  · exact needs_fail 6

theorem needs_len : Needs 8 dLen := by
  unfold dLen
  refine needs_bind (n := 0) (k := 8) needs_align fun _ => needs_bind (n := 1) (k := 7) needs_bit fun b => ?_
  cases b
  · exact needs_nat 7
  · refine (needs_bind (n := 1) (k := 14) needs_bit fun b => ?_).mono (by decide)
    cases b
    · exact needs_nat 14
    · exact needs_fail 14

theorem needs_octets : Needs 8 dOctets := fun i v j h => needs_frag _ i v j h

theorem needs_size {s : Size} (hs : s.ext = false) : Needs (sizeMin (some s)) (dSize s) := by
  simp only [sizeMin, dSize, hs, Bool.false_eq_true, if_false]
  split
  · exact needs_pure _
  · split
    · exact needs_bind (k := 0) (needs_cons _) fun _ => needs_pure _
    · exact needs_len

theorem needs_any {α : Type} {d : Dec α} {n : Nat} (h : Needs n d) : Needs 0 d := h.mono (Nat.zero_le _)

theorem needs_body (s : Size) (n : Nat) : Needs n (dBody s n) := by
  unfold dBody
  split
  · exact needs_take _
  · exact (needs_bind (n := 0) (k := n) needs_align fun _ => needs_take _).mono (by omega)

theorem needs_count (s : Option Size) : Needs (sizeMin s) (dCount s) := by
  cases s with
  | none => exact needs_len
  | some s =>
    cases hs : s.ext with
    | false =>
      simp only [dCount, hs, Bool.false_eq_true, if_false, pure_bind]
      exact needs_size hs
    | true =>
      simp only [dCount, sizeMin, hs, if_true]
      refine needs_bind (n := 1) (k := 0) needs_bit fun b => ?_
      cases b
      · simp only [Bool.false_eq_true, if_false, dSize]
        split
        · exact needs_pure _
        · split
          · exact (needs_bind (k := 0) (needs_cons _) fun _ => needs_pure _).mono (Nat.zero_le _)
          · exact needs_any needs_len
      · exact needs_any needs_len

theorem needs_size_any (s : Size) : Needs 0 (dSize s) := by
  unfold dSize
  split
  · exact needs_pure _
  · split
    · exact (needs_bind (k := 0) (needs_cons _) fun _ => needs_pure _).mono (Nat.zero_le _)
    · exact needs_any needs_len

theorem needs_bitStr (s : Option Size) : Needs (strMin 1 s) (dBitStr s) := by
  cases s with
  | none => exact needs_bind (n := 8) (k := 0) needs_len fun _ => needs_any (needs_take _)
  | some s =>
    cases hs : s.ext with
    | false =>
      simp only [dBitStr, strMin, hs, Bool.false_eq_true, if_false, pure_bind]
      split
      · next he =>
        simp only [dSize, he, if_true, pure_bind]
        exact (needs_body _ _).mono (by omega)
      · exact needs_bind (k := 0) (needs_size hs) fun _ => needs_any (needs_body _ _)
    | true =>
      simp only [dBitStr, strMin, hs, if_true]
      refine needs_bind (n := 1) (k := 0) needs_bit fun b => ?_
      cases b
      · exact needs_bind (n := 0) (k := 0) (needs_size_any s) fun _ => needs_any (needs_body _ _)
      · exact (needs_bind (n := 8) (k := 0) needs_len fun _ => needs_any (needs_take _)).mono (by decide)

theorem needs_octStr (s : Option Size) : Needs (strMin 8 s) (dOctStr s) := by
  cases s with
  | none => exact needs_octets
  | some s =>
    cases hs : s.ext with
    | false =>
      simp only [dOctStr, strMin, hs, Bool.false_eq_true, if_false, pure_bind]
      split
      · next he =>
        simp only [dSize, he, if_true, pure_bind]
        exact needs_bind (k := 0) (needs_body _ _) fun _ => needs_pure _
      · exact needs_bind (k := 0) (needs_size hs) fun _ =>
          (needs_bind (k := 0) (needs_body _ _) fun _ => needs_pure _).mono (Nat.zero_le _)
    | true =>
      simp only [dOctStr, strMin, hs, if_true]
      refine needs_bind (n := 1) (k := 0) needs_bit fun b => ?_
      cases b
      · exact needs_bind (n := 0) (k := 0) (needs_size_any s) fun _ =>
          (needs_bind (k := 0) (needs_body _ _) fun _ => needs_pure _).mono (Nat.zero_le _)
      · exact needs_any needs_octets

theorem needs_int (r : Range) : Needs (if r.ext then 1 else consMin ((r.ub - r.lb).toNat + 1)) (dInt r) := by
  unfold dInt
  cases r.ext with
  | false =>
    simp only [Bool.false_eq_true, if_false, pure_bind]
    exact needs_bind (k := 0) (needs_cons _) fun _ => needs_pure _
  | true =>
    simp only [if_true]
    refine needs_bind (n := 1) (k := 0) needs_bit fun b => ?_
    cases b
    · exact (needs_bind (k := 0) (needs_cons _) fun _ => needs_pure _).mono (Nat.zero_le _)
    · exact (needs_bind (n := 8) (k := 0) needs_len fun n =>
        (needs_bind (k := 0) (needs_take _) fun _ => needs_pure _).mono (Nat.zero_le _)).mono (Nat.zero_le _)

theorem needs_enum (root total : Nat) (ext : Bool) : Needs (if ext then 1 else consMin root) (dEnum root total ext) := by
  unfold dEnum
  have last : ∀ n, Needs 0 (if n < total then (pure n : Dec Nat) else dFail) := by
    intro n
    split
    · exact needs_pure _
    · exact needs_fail _
  cases ext with
  | false =>
    simp only [Bool.false_eq_true, if_false, pure_bind]
    exact needs_bind (k := 0) (needs_cons _) last
  | true =>
    simp only [if_true]
    refine needs_bind (n := 1) (k := 0) needs_bit fun b => ?_
    cases b
    · exact needs_bind (n := 0) (k := 0) (needs_any (needs_cons _)) last
    · have : ((· + root) <$> dNsn : Dec Nat) = dNsn >>= fun n => pure (n + root) := rfl
      simp only [if_true, this]
      exact needs_bind (n := 0) (k := 0)
        ((needs_bind (n := 7) (k := 0) needs_nsn fun _ => needs_pure _).mono (by decide)) last

theorem needs_skipOpen : ∀ n, Needs 0 (dSkipOpen n)
  | 0 => needs_pure _
  | n + 1 => (needs_bind (n := 8) (k := 0) needs_octets fun _ => needs_skipOpen n).mono (by decide)

theorem needs_skipExt : Needs 0 dSkipExt :=
  (needs_bind (n := 7) (k := 0) needs_nsn fun _ => (needs_bind (k := 0) (needs_take _) fun _ => needs_skipOpen _).mono
    (Nat.zero_le _)).mono (by decide)

theorem needs_open {α : Type} (d : Dec α) : Needs 8 (dOpen d) := by
  intro i v j h
  unfold dOpen at h
  split at h
  · cases h
  · next bs k hk =>
    have := needs_octets _ _ _ hk
    split at h
    · cases h
    · cases h; exact this

mutual
theorem needs_dec (t : Ty) : Needs t.minBits (dec t) := by
  cases t with
  | null => simp only [dec, Ty.minBits]; exact needs_pure _
  | oid => simp only [dec, Ty.minBits]; exact needs_fail _
  | bool => simp only [dec, Ty.minBits]; exact needs_bind (n := 1) (k := 0) needs_bit fun _ => needs_pure _
  | int r => simp only [dec, Ty.minBits]; exact needs_bind (k := 0) (needs_int r) fun _ => needs_pure _
  | enum a b c => simp only [dec, Ty.minBits]; exact needs_bind (k := 0) (needs_enum a b c) fun _ => needs_pure _
  | bits s => simp only [dec, Ty.minBits]; exact needs_bind (k := 0) (needs_bitStr s) fun _ => needs_pure _
  | octets s => simp only [dec, Ty.minBits]; exact needs_bind (k := 0) (needs_octStr s) fun _ => needs_pure _
  | any => simp only [dec, Ty.minBits]; exact needs_bind (n := 8) (k := 0) needs_octets fun _ => needs_pure _
  | seq ext fs =>
    simp only [dec, Ty.minBits]
    have last : ∀ (out : Bool) (vs : List (Option Val)), Needs 0 (if out = true then (do dSkipExt; return Val.seq vs) else (return Val.seq vs : Dec Val)) := by
      intro out vs
      split
      · exact needs_bind (n := 0) (k := 0) needs_skipExt fun _ => needs_pure _
      · exact needs_pure _
    cases ext
    · exact needs_bind (n := 0) (k := fs.numOpt + fs.minBits) (needs_pure _) fun out =>
        needs_bind (n := fs.numOpt) (k := fs.minBits) (needs_take _) fun bm =>
          needs_bind (n := fs.minBits) (k := 0) (needs_fields fs bm) fun vs => last out vs
    · exact needs_bind (n := 1) (k := fs.numOpt + fs.minBits) needs_bit fun out =>
        needs_bind (n := fs.numOpt) (k := fs.minBits) (needs_take _) fun bm =>
          needs_bind (n := fs.minBits) (k := 0) (needs_fields fs bm) fun vs => last out vs
  | choice ext root adds =>
    simp only [dec, Ty.minBits]
    cases ext with
    | false =>
      simp only [Bool.false_eq_true, if_false, pure_bind]
      exact needs_bind (n := consMin root.length) (k := 0) (needs_cons _) fun i =>
        needs_bind (n := 0) (k := 0) (needs_alt root i) fun _ => needs_pure _
    | true =>
      simp only [if_true]
      refine needs_bind (n := 1) (k := 0) needs_bit fun b => ?_
      cases b
      · exact (needs_bind (n := consMin root.length) (k := 0) (needs_cons _) fun i =>
          needs_bind (n := 0) (k := 0) (needs_alt root i) fun _ => needs_pure _).mono (Nat.zero_le _)
      · exact (needs_bind (n := 7) (k := 0) needs_nsn fun i =>
          (needs_bind (n := 8) (k := 0) (needs_open _) fun _ => needs_pure _).mono (by decide)).mono (by decide)
  | seqOf s t =>
    simp only [dec, Ty.minBits]
    exact needs_bind (k := 0) (needs_count s) fun n =>
      (needs_bind (k := 0) (needs_list (needs_any (needs_dec t)) n) fun _ => needs_pure _).mono (by omega)
theorem needs_fields (fs : Fields) (bm : Bits) : Needs fs.minBits (decFields fs bm) := by
  cases fs with
  | nil => simp only [decFields, Fields.minBits]; exact needs_pure _
  | cons opt t fs =>
    cases opt with
    | false =>
      simp only [decFields, Fields.minBits, Bool.false_eq_true, if_false]
      exact needs_bind (needs_dec t) fun _ => needs_bind (k := 0) (needs_fields fs bm) fun _ => needs_pure _
    | true =>
      simp only [Fields.minBits, if_true]
      cases bm with
      | nil => simp only [decFields]; exact needs_fail _
      | cons b bm =>
        cases b with
        | false =>
          simp only [decFields]
          exact needs_bind (n := 0 + fs.minBits) (k := 0) ((needs_fields fs bm).mono (by omega)) fun _ => needs_pure _
        | true =>
          simp only [decFields]
          exact needs_bind (n := 0) (needs_any (needs_dec t)) fun _ =>
            needs_bind (k := 0) (needs_fields fs bm) fun _ => needs_pure _
theorem needs_alt (fs : Fields) (i : Nat) : Needs 0 (decAlt fs i) := by
  cases fs with
  | nil => simp only [decAlt]; exact needs_fail _
  | cons opt t fs =>
    cases i with
    | zero => simp only [decAlt]; exact needs_any (needs_dec t)
    | succ i => simp only [decAlt]; exact needs_alt fs i
end

/-! ## Growth -/

/-- Results have measure at most `g` for each bit read, and `b` more. -/
def Cost {α : Type} (f : α → Nat) (g b : Nat) (d : Dec α) : Prop :=
  ∀ i v j, d i = some (v, j) → f v + g * j.bits.length ≤ g * i.bits.length + b

theorem cost_bind {α β : Type} {f : α → Nat} {h : β → Nat} {g b c : Nat} {d : Dec α} {k : α → Dec β} (hd : Cost f g b d)
    (hk : ∀ a, Cost h g (f a + c) (k a)) : Cost h g (b + c) (d >>= k) := by
  intro i v j e
  rw [bind_apply] at e
  cases hx : d i with
  | none => rw [hx] at e; cases e
  | some p =>
    obtain ⟨a, m⟩ := p
    rw [hx] at e
    have h1 := hd _ _ _ hx
    have h2 := hk a _ _ _ e
    omega

theorem cost_pure {α : Type} {f : α → Nat} {g b : Nat} (a : α) (h : f a ≤ b) : Cost f g b (pure a : Dec α) := by
  intro i v j e
  cases e
  omega

theorem cost_fail {α : Type} {f : α → Nat} {g b : Nat} : Cost f g b (dFail : Dec α) := by
  intro i v j e; cases e

/-- What is read without being kept. -/
theorem cost_skip {α : Type} {g n : Nat} {d : Dec α} (h : Needs n d) : Cost (fun _ => 0) g 0 d := by
  intro i v j e
  have := h _ _ _ e
  have := Nat.mul_le_mul_left g (show j.bits.length ≤ i.bits.length by omega)
  dsimp only
  omega

theorem cost_then {α β : Type} {h : β → Nat} {g c n : Nat} {d : Dec α} {k : α → Dec β} (hd : Needs n d)
    (hk : ∀ a, Cost h g c (k a)) : Cost h g c (d >>= k) := by
  have := cost_bind (c := c) (cost_skip (g := g) hd) (fun a => show Cost h g (0 + c) (k a) by rw [Nat.zero_add]; exact hk a)
  rwa [Nat.zero_add] at this

theorem Cost.mono {α : Type} {f : α → Nat} {g b g' b' n : Nat} {d : Dec α} (h : Cost f g b d) (hn : Needs n d) (hg : g ≤ g')
    (hb : b ≤ b') : Cost f g' b' d := by
  intro i v j e
  have h1 := h _ _ _ e
  have h2 := hn _ _ _ e
  obtain ⟨x, rfl⟩ := Nat.exists_eq_add_of_le hg
  have := Nat.mul_le_mul_left x (show j.bits.length ≤ i.bits.length by omega)
  rw [Nat.add_mul, Nat.add_mul]
  omega

theorem splitN_taken {n : Nat} {bs a r : Bits} (h : splitN n bs = some (a, r)) : a.length = n := by
  induction n generalizing bs a r with
  | zero => cases h; rfl
  | succ n ih =>
    cases bs with
    | nil => cases h
    | cons b bs =>
      unfold splitN at h
      split at h
      · cases h
      · next x y hx =>
        cases h
        simp only [List.length_cons, ih hx]

theorem cost_take (n : Nat) : Cost List.length 1 0 (dTake n) := by
  intro i v j h
  have h1 := needs_take n _ _ _ h
  unfold dTake at h
  split at h
  · cases h
  · next a r hs =>
    cases h
    have := splitN_taken hs
    dsimp only at h1 ⊢
    omega

theorem cost_body (s : Size) (n : Nat) : Cost List.length 1 0 (dBody s n) := by
  unfold dBody
  split
  · exact cost_take _
  · exact cost_then needs_align fun _ => cost_take _

/-- Of octets, eight times as many bits. -/
theorem cost_raw (n : Nat) : Cost (fun b : Bytes => 8 * b.length) 1 0 (dRawOctets n) := by
  intro i v j h
  unfold dRawOctets at h
  rw [bind_apply] at h
  cases hx : dTake (8 * n) i with
  | none => rw [hx] at h; cases h
  | some p =>
    obtain ⟨a, m⟩ := p
    rw [hx] at h
    have h1 := needs_take _ _ _ _ hx
    have h2 : a.length = 8 * n := by
      unfold dTake at hx
      split at hx
      · cases hx
      · next hs => cases hx; exact splitN_taken hs
    cases h
    dsimp only
    rw [toOctets_length, h2]
    omega

theorem cost_frag : ∀ k, Cost (fun b : Bytes => 8 * b.length) 1 0 (dFrag k)
  | 0 => cost_fail
  | k + 1 => by
    unfold dFrag
    refine cost_then needs_align fun _ => cost_then needs_bit fun b => ?_
    cases b
    · simp only [Bool.false_eq_true, if_false]
      exact cost_then (needs_nat 7) fun n => cost_raw n
    · simp only [if_true]
      refine cost_then needs_bit fun b => ?_
      cases b
      · simp only [Bool.false_eq_true, if_false]
        exact cost_then (needs_nat 14) fun n => cost_raw n
      · simp only [if_true]
        refine cost_then (needs_nat 6) fun m => ?_
        by_cases h : m = 0 ∨ 4 < m
        · rw [if_pos h]; exact cost_fail
        · rw [if_neg h]
          refine cost_bind (b := 0) (c := 0) (cost_raw _) fun a => ?_
          have : Cost (fun b : Bytes => 8 * b.length) 1 (0 + 8 * a.length) (dFrag k >>= fun b => pure (a ++ b)) :=
            cost_bind (b := 0) (c := 8 * a.length) (cost_frag k) fun b => cost_pure _ (by
              rw [List.length_append]; omega)
          simpa using this

theorem cost_octets : Cost (fun b : Bytes => 8 * b.length) 1 0 dOctets := fun i v j h => cost_frag _ i v j h

theorem cost_bitStr (s : Option Size) : Cost List.length 1 0 (dBitStr s) := by
  cases s with
  | none => exact cost_then needs_len fun _ => cost_take _
  | some s =>
    have both : ∀ out : Bool, Cost List.length 1 0 (if out = true then (do dTake (← dLen)) else do
        let n ← dSize s
        dBody s n) := by
      intro out
      cases out
      · exact cost_then (needs_size_any s) fun _ => cost_body _ _
      · exact cost_then needs_len fun _ => cost_take _
    simp only [dBitStr]
    cases s.ext
    · exact cost_then (needs_pure false) both
    · exact cost_then needs_bit both

theorem cost_octStr (s : Option Size) : Cost List.length 1 0 (dOctStr s) := by
  have few : Cost List.length 1 0 dOctets := fun i v j h => by
    have := cost_octets i v j h
    dsimp only at this
    omega
  cases s with
  | none => exact few
  | some s =>
    have both : ∀ out : Bool, Cost List.length 1 0 (if out = true then dOctets else do
        let n ← dSize s
        return toOctets (← dBody s (8 * n))) := by
      intro out
      cases out
      · refine cost_then (needs_size_any s) fun _ =>
          cost_bind (b := 0) (c := 0) (cost_body _ _) fun a => cost_pure _ ?_
        rw [toOctets_length]
        omega
      · exact few
    simp only [dOctStr]
    cases s.ext
    · exact cost_then (needs_pure false) both
    · exact cost_then needs_bit both

/-- Of an open type, as of its contents. -/
theorem cost_open {α : Type} {f : α → Nat} {g b : Nat} {d : Dec α} (h : Cost f g b d) : Cost f g b (dOpen d) := by
  intro i v j e
  unfold dOpen at e
  split at e
  · cases e
  · next bs k hk =>
    have h1 := cost_octets _ _ _ hk
    split at e
    · cases e
    · next a r ha =>
      cases e
      have h2 := h _ _ _ ha
      dsimp only at h1 h2
      rw [octetsBits_length] at h2
      have := Nat.mul_le_mul_left g (show 8 * bs.length + j.bits.length ≤ i.bits.length by omega)
      rw [Nat.mul_add] at this
      omega

/-- Of a list whose elements take at least `m` bits. -/
theorem cost_list {g b m x : Nat} {d : Dec Val} (h : Cost cells g b d) (hn : Needs m d) (hx : b + 1 ≤ x * m) :
    ∀ n, Cost cellsAll (g + x) 0 (dList d n)
  | 0 => cost_pure _ (by simp [cellsAll])
  | n + 1 => by
    intro i v j e
    unfold dList at e
    rw [bind_apply] at e
    cases e1 : d i with
    | none => rw [e1] at e; cases e
    | some p =>
      obtain ⟨a, k⟩ := p
      rw [e1] at e
      dsimp only at e
      rw [bind_apply] at e
      cases e2 : dList d n k with
      | none => rw [e2] at e; cases e
      | some p =>
        obtain ⟨as, l⟩ := p
        rw [e2] at e
        cases e
        have h1 := h _ _ _ e1
        have h2 := hn _ _ _ e1
        have h3 := cost_list h hn hx n _ _ _ e2
        have h4 := Nat.mul_le_mul_left x h2
        rw [Nat.mul_add] at h4
        rw [Nat.add_mul, Nat.add_mul] at h3 ⊢
        simp only [cellsAll]
        omega

mutual
/-- Cells per bit of a value, and cells more: at most that many. -/
def Ty.growth : Ty → Nat × Nat
  | .null | .bool | .int _ | .enum .. => (0, 1)
  | .bits _ | .octets _ | .any => (1, 1)
  | .seq _ fs => (fs.growth.1, fs.growth.2 + 1)
  | .choice _ root adds => (max root.worst.1 adds.worst.1, max root.worst.2 adds.worst.2 + 1)
  | .seqOf _ t => (t.growth.1 + (t.growth.2 + t.minBits) / t.minBits, 1)
  | .oid => (0, 0)
/-- Of the components together. -/
def Fields.growth : Fields → Nat × Nat
  | .nil => (0, 0)
  | .cons _ t fs => (max t.growth.1 fs.growth.1, max 1 t.growth.2 + fs.growth.2)
/-- Of the worst alternative. -/
def Fields.worst : Fields → Nat × Nat
  | .nil => (0, 0)
  | .cons _ t fs => (max t.growth.1 fs.worst.1, max t.growth.2 fs.worst.2)
end

mutual
/-- No list in the type has elements that may take no bits at all. -/
def Ty.solid : Ty → Bool
  | .seq _ fs => fs.solid
  | .choice _ root adds => root.solid && adds.solid
  | .seqOf _ t => t.solid && decide (0 < t.minBits)
  | _ => true
/-- In any component. -/
def Fields.solid : Fields → Bool
  | .nil => true
  | .cons _ t fs => t.solid && fs.solid
end

mutual
theorem cost_dec (t : Ty) (hs : t.solid = true) : Cost cells t.growth.1 t.growth.2 (dec t) := by
  cases t with
  | null => simp only [dec, Ty.growth]; exact cost_pure _ (by simp [cells])
  | oid => simp only [dec, Ty.growth]; exact cost_fail
  | bool =>
    simp only [dec, Ty.growth]
    exact cost_then needs_bit fun _ => cost_pure _ (by simp [cells])
  | int r =>
    simp only [dec, Ty.growth]
    exact cost_then (needs_int r) fun _ => cost_pure _ (by simp [cells])
  | enum a b c =>
    simp only [dec, Ty.growth]
    exact cost_then (needs_enum a b c) fun _ => cost_pure _ (by simp [cells])
  | bits s =>
    simp only [dec, Ty.growth]
    exact cost_bind (b := 0) (c := 1) (cost_bitStr s) fun _ => cost_pure _ (by simp only [cells]; omega)
  | octets s =>
    simp only [dec, Ty.growth]
    exact cost_bind (b := 0) (c := 1) (cost_octStr s) fun _ => cost_pure _ (by simp only [cells]; omega)
  | any =>
    simp only [dec, Ty.growth]
    exact cost_bind (b := 0) (c := 1) cost_octets fun _ => cost_pure _ (by simp only [cells]; omega)
  | seq ext fs =>
    simp only [dec, Ty.growth]
    simp only [Ty.solid] at hs
    have last : ∀ (out : Bool) (vs : List (Option Val)), Cost cells fs.growth.1 (cellsOpt vs + 1)
        (if out = true then (do dSkipExt; return Val.seq vs) else (return Val.seq vs : Dec Val)) := by
      intro out vs
      split
      · exact cost_then needs_skipExt fun _ =>
          cost_pure _ (by simp only [cells]; omega)
      · exact cost_pure _ (by simp only [cells]; omega)
    have mid : ∀ out : Bool, Cost cells fs.growth.1 (fs.growth.2 + 1) (do
        let bm ← dTake fs.numOpt
        let vs ← decFields fs bm
        if out then do
          dSkipExt
          return .seq vs
        else return .seq vs) := by
      intro out
      refine cost_then (needs_take _) fun bm => ?_
      refine cost_bind (b := fs.growth.2) (c := 1) (cost_fields fs hs bm) fun vs => last out vs
    cases ext
    · exact cost_then (needs_pure false) fun out => mid out
    · exact cost_then needs_bit
        fun out => mid out
  | choice ext root adds =>
    simp only [dec, Ty.growth]
    simp only [Ty.solid, Bool.and_eq_true] at hs
    have both : ∀ out : Bool, Cost cells (max root.worst.1 adds.worst.1) (max root.worst.2 adds.worst.2 + 1) (if out = true then (do
          let i ← dNsn
          return .choice (i + root.length) (← dOpen (decAlt adds i)) : Dec Val)
        else do
          let i ← dCons root.length
          return .choice i (← decAlt root i)) := by
      intro out
      cases out
      · refine cost_then (needs_cons _) fun i => ?_
        refine cost_bind (b := max root.worst.2 adds.worst.2) (c := 1)
          ((cost_alt root hs.1 i).mono (needs_alt root i) (Nat.le_max_left _ _) (Nat.le_max_left _ _)) fun v => cost_pure _ ?_
        simp only [cells]
        omega
      · refine cost_then needs_nsn fun i => ?_
        refine cost_bind (b := max root.worst.2 adds.worst.2) (c := 1)
          ((cost_open (cost_alt adds hs.2 i)).mono (needs_open _) (Nat.le_max_right _ _) (Nat.le_max_right _ _))
          fun v => cost_pure _ ?_
        simp only [cells]
        omega
    cases ext
    · exact cost_then (needs_pure false) both
    · exact cost_then needs_bit both
  | seqOf s t =>
    simp only [dec, Ty.growth]
    simp only [Ty.solid, Bool.and_eq_true, decide_eq_true_eq] at hs
    refine cost_then (needs_count s) fun n => ?_
    refine cost_bind (b := 0) (c := 1) (cost_list (cost_dec t hs.1) (needs_dec t) ?_ n) fun vs => cost_pure _ ?_
    · have := Nat.div_add_mod (t.growth.2 + t.minBits) t.minBits
      have := Nat.mod_lt (t.growth.2 + t.minBits) hs.2
      rw [Nat.mul_comm]
      omega
    · simp only [cells]
      omega
theorem cost_fields (fs : Fields) (hs : fs.solid = true) (bm : Bits) : Cost cellsOpt fs.growth.1 fs.growth.2 (decFields fs bm) := by
  cases fs with
  | nil => simp only [decFields, Fields.growth]; exact cost_pure _ (by simp [cellsOpt])
  | cons opt t fs =>
    simp only [Fields.solid, Bool.and_eq_true] at hs
    have here : ∀ bm, Cost cellsOpt (max t.growth.1 fs.growth.1) (max 1 t.growth.2 + fs.growth.2) (do
        let v ← dec t
        return some v :: (← decFields fs bm)) := by
      intro bm
      refine cost_bind (b := max 1 t.growth.2) (c := fs.growth.2)
        ((cost_dec t hs.1).mono (needs_dec t) (Nat.le_max_left _ _) (Nat.le_max_right _ _)) fun v => ?_
      rw [Nat.add_comm]
      refine cost_bind (b := fs.growth.2) (c := cells v)
        ((cost_fields fs hs.2 bm).mono (needs_fields fs bm) (Nat.le_max_right _ _) (Nat.le_refl _)) fun vs => cost_pure _ ?_
      simp only [cellsOpt]
      omega
    simp only [Fields.growth]
    cases opt with
    | false => simp only [decFields]; exact here bm
    | true =>
      cases bm with
      | nil => simp only [decFields]; exact cost_fail
      | cons b bm =>
        cases b with
        | true => simp only [decFields]; exact here bm
        | false =>
          simp only [decFields]
          rw [Nat.add_comm]
          refine cost_bind (b := fs.growth.2) (c := max 1 t.growth.2)
            ((cost_fields fs hs.2 bm).mono (needs_fields fs bm) (Nat.le_max_right _ _) (Nat.le_refl _)) fun vs => cost_pure _ ?_
          simp only [cellsOpt]
          omega
theorem cost_alt (fs : Fields) (hs : fs.solid = true) (i : Nat) : Cost cells fs.worst.1 fs.worst.2 (decAlt fs i) := by
  cases fs with
  | nil => simp only [decAlt]; exact cost_fail
  | cons opt t fs =>
    simp only [Fields.solid, Bool.and_eq_true] at hs
    simp only [Fields.worst]
    cases i with
    | zero =>
      simp only [decAlt]
      exact (cost_dec t hs.1).mono (needs_dec t) (Nat.le_max_left _ _) (Nat.le_max_left _ _)
    | succ i =>
      simp only [decAlt]
      exact (cost_alt fs hs.2 i).mono (needs_alt fs i) (Nat.le_max_right _ _) (Nat.le_max_right _ _)
end

/-- Of what `aper_decode` returns. -/
theorem decode_cells {t : Ty} (hs : t.solid = true) {bs : Bytes} {v : Val} (h : decode t bs = some v) :
    cells v ≤ t.growth.1 * (8 * bs.length) + t.growth.2 := by
  unfold decode at h
  split at h
  · cases h
  · next a j hd =>
    cases h
    have := cost_dec t hs _ _ _ hd
    dsimp only at this
    rw [octetsBits_length] at this
    omega

end Verif.Aper
