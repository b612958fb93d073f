import Verif.Proofs.Aper
import Verif.Spec.Fits

/-!
# Which values encode, and how long the encoding is
-/

namespace Verif.Aper
open Spec

/-- An encoder that succeeds at every offset with at most `n` bits, or fails at every offset. -/
def Is (b : Bool) (n : Nat) (e : Enc) : Prop :=
  ∀ off, match e off with
    | none => b = false
    | some bs => b = true ∧ bs.length ≤ n

theorem Is.mono {b : Bool} {n k : Nat} {e : Enc} (h : Is b n e) (hk : n ≤ k) : Is b k e := by
  intro off
  have := h off
  split at this
  · exact this
  · exact ⟨this.1, by omega⟩

theorem is_false {e : Enc} {n k : Nat} (h : Is false n e) : Is false k e := by
  intro off
  have := h off
  split at this
  · rfl
  · cases this.1

theorem is_fail (n : Nat) : Is false n eFail := fun _ => rfl
theorem is_nil : Is true 0 eNil := fun _ => ⟨rfl, Nat.le_refl 0⟩
theorem is_raw (bs : Bits) : Is true bs.length (eRaw bs) := fun _ => ⟨rfl, Nat.le_refl _⟩

theorem is_seq {b c : Bool} {n k : Nat} {e f : Enc} (he : Is b n e) (hf : Is c k f) : Is (b && c) (n + k) (e +++ f) := by
  intro off
  unfold Enc.seq
  have h1 := he off
  split at h1
  · next h => simp [h, h1]
  · next x h =>
    simp only [h]
    have h2 := hf (off + x.length)
    split at h2
    · next h' => simp [h', h2]
    · next y h' => simp only [h', h1.1, h2.1, List.length_append, Bool.and_self, true_and]; omega

theorem is_nat {w n : Nat} (h : n < 2 ^ w) : Is true w (eNat w n) := by
  intro off
  simp [eNat, h, natBits_length]

theorem is_bit (b : Bool) : Is true 1 (eBit b) := is_nat (by cases b <;> decide)

theorem is_align : Is true 7 eAlign := by
  intro off
  simp only [eAlign, List.length_replicate, true_and]
  unfold padLen
  omega

theorem is_cast {b c : Bool} {n : Nat} {e : Enc} (h : Is b n e) (hb : b = c) : Is c n e := hb ▸ h

/-- Bits for a constrained whole number. -/
def smallBits (range : Nat) : Nat := if range = 1 then 0 else if range ≤ 255 then bitsFor range else 23

theorem is_small {range n : Nat} (hr : range ≤ 65536) : Is (decide (n < range)) (smallBits range) (eSmall range n) := by
  unfold eSmall smallBits
  by_cases h0 : range ≤ n
  · rw [if_pos h0]; exact is_cast (is_fail _) (by simp [h0])
  rw [if_neg h0]
  have hd : decide (n < range) = true := by simp; omega
  rw [hd]
  by_cases h1 : range = 1
  · rw [if_pos h1, if_pos h1]; exact is_nil
  rw [if_neg h1, if_neg h1]
  by_cases h2 : range ≤ 255
  · rw [if_pos h2, if_pos h2]
    refine is_nat (Nat.lt_of_le_of_lt (by omega : n ≤ range - 1) ?_)
    exact Nat.lt_log2_self
  rw [if_neg h2, if_neg h2]
  by_cases h3 : range = 256
  · rw [if_pos h3]; exact (is_seq is_align (is_nat (w := 8) (by omega))).mono (by omega)
  · rw [if_neg h3]; exact (is_seq is_align (is_nat (w := 16) (by omega))).mono (by omega)

theorem octetsFor_lt (n : Nat) : n < 2 ^ (8 * octetsFor n) := by
  refine Nat.lt_of_lt_of_le Nat.lt_log2_self (Nat.pow_le_pow_right (by decide) ?_)
  unfold octetsFor; omega

theorem log2_mono {a b : Nat} (h : a ≤ b) : Nat.log2 a ≤ Nat.log2 b := by
  by_cases ha : a = 0
  · simp [ha]
  by_cases hb : b = 0
  · omega
  exact (Nat.le_log2 hb).2 (Nat.le_trans (Nat.log2_self_le ha) h)

theorem octetsFor_mono {a b : Nat} (h : a ≤ b) : octetsFor a ≤ octetsFor b := by
  unfold octetsFor
  have := log2_mono h
  omega

theorem octetsFor_le8 {a : Nat} (h : a < 2 ^ 64) : octetsFor a ≤ 8 := by
  unfold octetsFor
  by_cases ha : a = 0
  · simp [ha]
  have := (Nat.log2_lt ha).2 h
  omega

def consBits (range : Nat) : Nat := if range ≤ 65536 then smallBits range else 74

theorem is_cons {range n : Nat} (hr : range ≤ 2 ^ 64) : Is (decide (n < range)) (consBits range) (eCons range n) := by
  unfold eCons consBits
  by_cases h0 : range ≤ n
  · rw [if_pos h0]; exact is_cast (is_fail _) (by simp [h0])
  rw [if_neg h0]
  by_cases h1 : range ≤ 65536
  · rw [if_pos h1, if_pos h1]; exact is_small h1
  rw [if_neg h1, if_neg h1]
  have ho : octetsFor n ≤ octetsFor (range - 1) := octetsFor_mono (by omega)
  have ho8 : octetsFor (range - 1) ≤ 8 := octetsFor_le8 (by omega)
  have hp := octetsFor_pos n
  have h2 : octetsFor (range - 1) ≥ 1 := by unfold octetsFor; omega
  have e1 : Is true 3 (eSmall (octetsFor (range - 1)) (octetsFor n - 1)) := by
    have := is_small (range := octetsFor (range - 1)) (n := octetsFor n - 1) (by omega)
    refine (is_cast this (by simp; omega)).mono ?_
    generalize octetsFor (range - 1) = r at ho8
    have : r = 0 ∨ r = 1 ∨ r = 2 ∨ r = 3 ∨ r = 4 ∨ r = 5 ∨ r = 6 ∨ r = 7 ∨ r = 8 := by omega
    rcases this with rfl | rfl | rfl | rfl | rfl | rfl | rfl | rfl | rfl <;> decide
  refine is_cast ((is_seq e1 (is_seq is_align (is_nat (octetsFor_lt n)))).mono ?_) ?_
  · omega
  · simp; omega

theorem is_nsn (n : Nat) : Is (decide (n < 64)) 7 (eNsn n) := by
  unfold eNsn
  by_cases h : n < 64
  · rw [if_pos h]; exact is_cast (is_seq (is_bit false) (is_nat (w := 6) (by omega))) (by simp [h])
  · rw [if_neg h]; exact is_cast (is_fail _) (by simp [h])

theorem is_len (n : Nat) : Is (decide (n < 16384)) 23 (eLen n) := by
  unfold eLen
  by_cases h : n < 128
  · rw [if_pos h]
    refine is_cast ((is_seq is_align (is_seq (is_bit false) (is_nat (w := 7) (by omega)))).mono (by omega)) ?_
    simp; omega
  rw [if_neg h]
  by_cases h2 : n < 16384
  · rw [if_pos h2]
    exact is_cast (is_seq is_align (is_seq (is_bit true) (is_seq (is_bit false) (is_nat (w := 14) (by omega))))) (by simp [h2])
  · rw [if_neg h2]; exact is_cast ((is_seq is_align (is_fail 0)).mono (by omega)) (by simp [h2])

theorem is_frag (k : Nat) (bs : Bytes) (h : bs.length / 16384 + 1 ≤ k) : Is true (8 * bs.length + 23 * k) (eFrag k bs) := by
  induction k generalizing bs with
  | zero => omega
  | succ k ih =>
    unfold eFrag
    by_cases hl : bs.length < 16384
    · rw [if_pos hl]
      refine (is_cast (is_seq (is_len bs.length) (is_raw (octetsBits bs))) (by simp [hl])).mono ?_
      rw [octetsBits_length]; omega
    · rw [if_neg hl]
      have hm : 1 ≤ min 4 (bs.length / 16384) := by omega
      have hm4 : min 4 (bs.length / 16384) ≤ 4 := by omega
      have hml : min 4 (bs.length / 16384) * 16384 ≤ bs.length := by omega
      generalize min 4 (bs.length / 16384) = m at hm hm4 hml
      have hr := ih (bs.drop (m * 16384)) (by simp only [List.length_drop]; omega)
      refine (is_seq is_align (is_seq (is_bit true) (is_seq (is_bit true) (is_seq (is_nat (w := 6) (n := m) (by omega))
        (is_seq (is_raw (octetsBits (bs.take (m * 16384)))) hr))))).mono ?_
      simp only [octetsBits_length, List.length_take, List.length_drop]
      omega

/-- Bits for unconstrained octets. -/
def octBits (n : Nat) : Nat := 8 * n + 23 * (n / 16384 + 1)

theorem is_octets (bs : Bytes) : Is true (octBits bs.length) (eOctets bs) := is_frag _ bs (Nat.le_refl _)

theorem toOctets_length (bs : Bits) : (toOctets bs).length = (bs.length + 7) / 8 := by
  fun_induction toOctets bs with
  | case1 b7 b6 b5 b4 b3 b2 b1 b0 rest ih =>
    simp only [List.length_cons, ih]
    omega
  | case2 => simp
  | case3 bs h1 h2 =>
    simp only [List.length_singleton]
    have hlt : bs.length < 8 := by
      match bs, h1 with
      | [], _ => simp
      | [_], _ => simp
      | [_, _], _ => simp
      | [_, _, _], _ => simp
      | [_, _, _, _], _ => simp
      | [_, _, _, _, _], _ => simp
      | [_, _, _, _, _, _], _ => simp
      | [_, _, _, _, _, _, _], _ => simp
      | a :: b :: c :: d :: e :: f :: g :: h :: r, h1 => exact absurd rfl (h1 a b c d e f g h r)
    have : bs.length ≠ 0 := fun h => h2 (List.length_eq_zero_iff.1 h)
    omega

/-- Octets of a value on its own. -/
def openOcts (n : Nat) : Nat := n / 8 + 1

theorem complete_is {b : Bool} {n : Nat} {e : Enc} (h : Is b n e) :
    match complete e with
    | none => b = false
    | some bs => b = true ∧ bs.length ≤ openOcts n := by
  unfold complete openOcts
  have := h 0
  split at this
  · next he => simp [he, this]
  · next x he =>
    simp only [he]
    cases x with
    | nil => simp [this.1]
    | cons a x =>
      have hl := this.2
      simp only [List.length_cons] at hl
      refine ⟨this.1, ?_⟩
      rw [toOctets_length]
      simp only [List.length_cons]
      omega

theorem octBits_mono {a b : Nat} (h : a ≤ b) : octBits a ≤ octBits b := by unfold octBits; omega

theorem is_open {b : Bool} {n : Nat} {e : Enc} (h : Is b n e) : Is b (octBits (openOcts n)) (eOpen e) := by
  intro off
  have := complete_is h
  split at this
  · next he => simp [eOpen, he, this]
  · next x he =>
    have e : eOpen e off = eOctets x off := by simp [eOpen, he]
    rw [e]
    have h2 := is_octets x off
    split at h2
    · next h3 => simp at h2
    · next y h3 => exact ⟨this.1, Nat.le_trans h2.2 (octBits_mono this.2)⟩

def sizeBits (s : Size) : Nat := if s.lb = s.ub then 0 else if s.ub < 65536 then consBits (s.ub - s.lb + 1) else 23

theorem is_size (s : Size) (n : Nat) : Is (decide (s.lb ≤ n ∧ n ≤ s.ub ∧ (s.lb = s.ub ∨ s.ub < 65536 ∨ n < 16384)))
    (sizeBits s) (eSize s n) := by
  unfold eSize sizeBits
  by_cases h0 : n < s.lb ∨ s.ub < n
  · rw [if_pos h0]; exact is_cast (is_fail _) (by simp; omega)
  rw [if_neg h0]
  by_cases h1 : s.lb = s.ub
  · rw [if_pos h1, if_pos h1]; exact is_cast is_nil (by simp; omega)
  rw [if_neg h1, if_neg h1]
  by_cases h2 : s.ub < 65536
  · rw [if_pos h2, if_pos h2]
    have := is_cons (range := s.ub - s.lb + 1) (n := n - s.lb) (by omega)
    exact is_cast this (by rw [decide_eq_decide]; omega)
  · rw [if_neg h2, if_neg h2]; exact is_cast (is_len n) (by rw [decide_eq_decide]; omega)

theorem is_body (s : Size) (bs : Bits) : Is true (7 + bs.length) (eBody s bs) := by
  unfold eBody
  split
  · exact (is_raw bs).mono (by omega)
  · exact is_seq is_align (is_raw bs)

def sBits (s : Option Size) : Nat :=
  match s with
  | none => 23
  | some s => if s.ext then 1 + max 23 (sizeBits s) else sizeBits s

theorem is_bitStr (s : Option Size) (bs : Bits) : Is (fitsLen s bs.length) (sBits s + 7 + bs.length) (eBitStr s bs) := by
  unfold eBitStr fitsLen sBits
  cases s with
  | none => exact is_cast ((is_seq (is_len bs.length) (is_raw bs)).mono (by simp only; omega)) (by simp)
  | some s =>
    simp only
    by_cases hx : s.ext = true
    · rw [if_pos hx, if_pos hx]
      by_cases hr : s.lb ≤ bs.length ∧ bs.length ≤ s.ub
      · rw [if_pos hr, if_pos hr]
        refine is_cast ((is_seq (is_bit false) (is_seq (is_size s bs.length) (is_body s bs))).mono (by omega)) ?_
        simp [hr]
      · rw [if_neg hr, if_neg hr]
        refine is_cast ((is_seq (is_bit true) (is_seq (is_len bs.length) (is_raw bs))).mono (by omega)) ?_
        simp [hx]
    · rw [if_neg hx, if_neg hx]
      refine is_cast ((is_seq (is_size s bs.length) (is_body s bs)).mono (by omega)) ?_
      by_cases hr : s.lb ≤ bs.length ∧ bs.length ≤ s.ub
      · rw [if_pos hr]; simp [hr]
      · rw [if_neg hr]; simp [hx]; omega

theorem is_octStr (s : Option Size) (bs : Bytes) : Is (fitsOct s bs.length) (sBits s + 8 + octBits bs.length) (eOctStr s bs) := by
  have ho := is_octets bs
  unfold eOctStr fitsOct sBits
  cases s with
  | none => exact ho.mono (by simp only; omega)
  | some s =>
    simp only
    have hl := octetsBits_length bs
    have hb : 7 + (octetsBits bs).length ≤ 8 + octBits bs.length := by unfold octBits; omega
    by_cases hx : s.ext = true
    · rw [if_pos hx, if_pos hx]
      by_cases hr : s.lb ≤ bs.length ∧ bs.length ≤ s.ub
      · rw [if_pos hr, if_pos hr]
        refine is_cast ((is_seq (is_bit false) (is_seq (is_size s bs.length) (is_body s _))).mono (by omega)) ?_
        simp [hr]
      · rw [if_neg hr, if_neg hr]
        refine is_cast ((is_seq (is_bit true) ho).mono (by omega)) ?_
        simp [hx]
    · rw [if_neg hx, if_neg hx]
      refine is_cast ((is_seq (is_size s bs.length) (is_body s _)).mono (by omega)) ?_
      by_cases hr : s.lb ≤ bs.length ∧ bs.length ≤ s.ub
      · rw [if_pos hr]; simp [hr]
      · rw [if_neg hr]; simp [hx]; omega

theorem is_count (s : Option Size) (n : Nat) : Is (fitsLen s n) (sBits s) (eCount s n) := by
  unfold eCount fitsLen sBits
  cases s with
  | none => exact is_len n
  | some s =>
    simp only
    by_cases hx : s.ext = true
    · rw [if_pos hx, if_pos hx]
      by_cases hr : s.lb ≤ n ∧ n ≤ s.ub
      · rw [if_pos hr, if_pos hr]
        exact is_cast ((is_seq (is_bit false) (is_size s n)).mono (by omega)) (by simp [hr])
      · rw [if_neg hr, if_neg hr]
        exact is_cast ((is_seq (is_bit true) (is_len n)).mono (by omega)) (by simp [hx])
    · rw [if_neg hx, if_neg hx]
      refine is_cast (is_size s n) ?_
      by_cases hr : s.lb ≤ n ∧ n ≤ s.ub
      · rw [if_pos hr]; simp [hr]
      · rw [if_neg hr]; simp [hx]; omega

/-- Range of an INTEGER. -/
def rangeOf (r : Range) : Nat := (r.ub - r.lb).toNat + 1

theorem is_int {r : Range} (hr : rangeOf r ≤ 2 ^ 64) (n : Int) :
    Is (decide (r.lb ≤ n ∧ n ≤ r.ub)) (1 + consBits (rangeOf r)) (eInt r n) := by
  unfold eInt
  unfold rangeOf at *
  by_cases h : n < r.lb ∨ r.ub < n
  · rw [if_pos h]; exact is_cast (is_fail _) (by simp; omega)
  rw [if_neg h]
  have hc := is_cons (n := (n - r.lb).toNat) hr
  have hd : decide ((n - r.lb).toNat < (r.ub - r.lb).toNat + 1) = decide (r.lb ≤ n ∧ n ≤ r.ub) := by
    rw [decide_eq_decide]; omega
  split
  · exact is_cast (is_seq (is_bit false) hc) (by rw [Bool.true_and, hd])
  · exact (is_cast hc hd).mono (by omega)

theorem is_enum {root total : Nat} {ext : Bool} (hr : root ≤ 2 ^ 64) (n : Nat) :
    Is (decide (n < root) || (ext && decide (n < total) && decide (n - root < 64))) (8 + consBits root)
      (eEnum root total ext n) := by
  unfold eEnum
  have hc := is_cons (n := n) hr
  by_cases hx : ext = true
  · rw [if_pos hx]
    by_cases h : n < root
    · rw [if_pos h]
      exact is_cast ((is_seq (is_bit false) hc).mono (by omega)) (by simp [h])
    · rw [if_neg h]
      by_cases h2 : n < total
      · rw [if_pos h2]
        exact is_cast ((is_seq (is_bit true) (is_nsn (n - root))).mono (by omega)) (by simp [h, hx, h2])
      · rw [if_neg h2]; exact is_cast (is_fail _) (by simp [h, h2])
  · rw [if_neg hx]
    by_cases h : n < root
    · rw [if_pos h]; exact is_cast (hc.mono (by omega)) (by simp [h])
    · rw [if_neg h]; exact is_cast (is_fail _) (by simp [h, hx])

/-! ## Types -/

mutual
/-- Ranges of at most 2^64 values. -/
def Ty.sane : Ty → Bool
  | .int r => decide (rangeOf r ≤ 2 ^ 64)
  | .enum root _ _ => decide (root ≤ 2 ^ 64)
  | .seq _ fs => fs.sane
  | .choice _ root adds => decide (root.length ≤ 2 ^ 64) && root.sane && adds.sane
  | .seqOf _ t => t.sane
  | _ => true
def Fields.sane : Fields → Bool
  | .nil => true
  | .cons _ t fs => t.sane && fs.sane
end

/-- Sum over a list. -/
def sumOf (f : Val → Nat) : List Val → Nat
  | [] => 0
  | v :: vs => f v + sumOf f vs

mutual
/-- A bound for the number of bits of an encoding. -/
def maxBits : Ty → Val → Nat
  | .bool, .bool _ => 1
  | .int r, .int _ => 1 + consBits (rangeOf r)
  | .enum root _ _, .enum _ => 8 + consBits root
  | .bits s, .bits b => sBits s + 7 + b.length
  | .octets s, .octets b => sBits s + 8 + octBits b.length
  | .any, .octets b => octBits b.length
  | .seq _ fs, .seq vs => 1 + vs.length + maxFields fs vs
  | .choice _ root adds, .choice i v =>
    max (1 + consBits root.length + maxAlt root i v) (8 + octBits (openOcts (maxAlt adds (i - root.length) v)))
  | .seqOf s t, .list vs => sBits s + sumOf (maxBits t) vs
  | _, _ => 0
def maxFields : Fields → List (Option Val) → Nat
  | .cons _ t fs, some v :: vs => maxBits t v + maxFields fs vs
  | .cons _ _ fs, none :: vs => maxFields fs vs
  | _, _ => 0
def maxAlt : Fields → Nat → Val → Nat
  | .cons _ t _, 0, v => maxBits t v
  | .cons _ _ fs, i + 1, v => maxAlt fs i v
  | .nil, _, _ => 0
end

theorem optBits_length_le (fs : Fields) (vs : List (Option Val)) : (optBits fs vs).length ≤ vs.length := by
  induction vs generalizing fs with
  | nil => cases fs with
    | nil => simp [optBits]
    | cons o t fs => cases o <;> simp [optBits]
  | cons v vs ih =>
    cases fs with
    | nil => simp [optBits]
    | cons o t fs =>
      have := ih fs
      cases o <;> simp [optBits] <;> omega

theorem is_optional (ext : Bool) : Is true 1 (if ext then eBit false else eNil) := by
  cases ext
  · exact is_nil.mono (by omega)
  · exact is_bit false

mutual
theorem enc_is (t : Ty) (v : Val) (ht : t.sane = true) : Is (fits t v) (maxBits t v) (enc t v) := by
  match t, v with
  | .null, .null => simpa [enc, fits, maxBits] using is_nil
  | .bool, .bool b => simpa [enc, fits, maxBits] using is_bit b
  | .int r, .int n =>
    simp only [Ty.sane, decide_eq_true_eq] at ht
    simpa only [enc, fits, maxBits] using is_int ht n
  | .enum root total ext, .enum n =>
    simp only [Ty.sane, decide_eq_true_eq] at ht
    simpa only [enc, fits, maxBits] using is_enum ht n
  | .bits s, .bits b => simpa only [enc, fits, maxBits] using is_bitStr s b
  | .octets s, .octets b => simpa only [enc, fits, maxBits] using is_octStr s b
  | .any, .octets b => simpa only [enc, fits, maxBits] using is_octets b
  | .seq ext fs, .seq vs =>
    simp only [Ty.sane] at ht
    simp only [enc, fits, maxBits]
    have hl := optBits_length_le fs vs
    exact is_cast ((is_seq (is_optional ext) (is_seq (is_raw (optBits fs vs)) (encFields_is fs vs ht))).mono (by omega))
      (by simp)
  | .choice ext root adds, .choice i v =>
    simp only [Ty.sane, Bool.and_eq_true, decide_eq_true_eq] at ht
    simp only [enc, fits, maxBits]
    by_cases h : i < root.length
    · rw [if_pos h, if_pos h]
      refine is_cast ((is_seq (is_optional ext) (is_seq (is_cons (n := i) ht.1.1) (encAlt_is root i v ht.1.2))).mono ?_) ?_
      · omega
      · simp [h]
    · rw [if_neg h, if_neg h]
      by_cases hx : ext = true
      · rw [if_pos hx]
        refine is_cast ((is_seq (is_bit true) (is_seq (is_nsn (i - root.length))
          (is_open (encAlt_is adds (i - root.length) v ht.2)))).mono ?_) ?_
        · omega
        · simp [hx]
      · rw [if_neg hx]; exact is_cast (is_fail _) (by simp [hx])
  | .seqOf s t, .list vs =>
    simp only [Ty.sane] at ht
    simp only [enc, fits, maxBits]
    exact is_seq (is_count s vs.length) (encList_is t vs ht)
  | .oid, v => cases v <;> (simp only [enc, fits]; exact is_fail _)
  | .null, .bool _ | .null, .int _ | .null, .enum _ | .null, .bits _ | .null, .octets _ | .null, .seq _ | .null, .choice .. | .null, .list _ => simp only [enc, fits]; exact is_fail _
  | .bool, .null | .bool, .int _ | .bool, .enum _ | .bool, .bits _ | .bool, .octets _ | .bool, .seq _ | .bool, .choice .. | .bool, .list _ => simp only [enc, fits]; exact is_fail _
  | .int _, .null | .int _, .bool _ | .int _, .enum _ | .int _, .bits _ | .int _, .octets _ | .int _, .seq _ | .int _, .choice .. | .int _, .list _ => simp only [enc, fits]; exact is_fail _
  | .enum .., .null | .enum .., .bool _ | .enum .., .int _ | .enum .., .bits _ | .enum .., .octets _ | .enum .., .seq _ | .enum .., .choice .. | .enum .., .list _ => simp only [enc, fits]; exact is_fail _
  | .bits _, .null | .bits _, .bool _ | .bits _, .int _ | .bits _, .enum _ | .bits _, .octets _ | .bits _, .seq _ | .bits _, .choice .. | .bits _, .list _ => simp only [enc, fits]; exact is_fail _
  | .octets _, .null | .octets _, .bool _ | .octets _, .int _ | .octets _, .enum _ | .octets _, .bits _ | .octets _, .seq _ | .octets _, .choice .. | .octets _, .list _ => simp only [enc, fits]; exact is_fail _
  | .any, .null | .any, .bool _ | .any, .int _ | .any, .enum _ | .any, .bits _ | .any, .seq _ | .any, .choice .. | .any, .list _ => simp only [enc, fits]; exact is_fail _
  | .seq .., .null | .seq .., .bool _ | .seq .., .int _ | .seq .., .enum _ | .seq .., .bits _ | .seq .., .octets _ | .seq .., .choice .. | .seq .., .list _ => simp only [enc, fits]; exact is_fail _
  | .choice .., .null | .choice .., .bool _ | .choice .., .int _ | .choice .., .enum _ | .choice .., .bits _ | .choice .., .octets _ | .choice .., .seq _ | .choice .., .list _ => simp only [enc, fits]; exact is_fail _
  | .seqOf .., .null | .seqOf .., .bool _ | .seqOf .., .int _ | .seqOf .., .enum _ | .seqOf .., .bits _ | .seqOf .., .octets _ | .seqOf .., .seq _ | .seqOf .., .choice .. => simp only [enc, fits]; exact is_fail _
theorem encList_is (t : Ty) (vs : List Val) (ht : t.sane = true) : Is (vs.all (fits t)) (sumOf (maxBits t) vs)
    (eList (enc t) vs) := by
  match vs with
  | [] => simpa [eList, sumOf] using is_nil
  | v :: vs =>
    simp only [eList, List.all_cons, sumOf]
    exact is_seq (enc_is t v ht) (encList_is t vs ht)
theorem encFields_is (fs : Fields) (vs : List (Option Val)) (hf : fs.sane = true) :
    Is (fitsFields fs vs) (maxFields fs vs) (encFields fs vs) := by
  match fs, vs with
  | .nil, [] => simpa [encFields, fitsFields, maxFields] using is_nil
  | .nil, _ :: _ => simp only [encFields, fitsFields]; exact is_fail _
  | .cons o t fs, [] => cases o <;> (simp only [encFields, fitsFields]; exact is_fail _)
  | .cons o t fs, some v :: vs =>
    simp only [Fields.sane, Bool.and_eq_true] at hf
    have := is_seq (enc_is t v hf.1) (encFields_is fs vs hf.2)
    cases o <;> simpa only [encFields, fitsFields, maxFields] using this
  | .cons true t fs, none :: vs =>
    simp only [Fields.sane, Bool.and_eq_true] at hf
    simpa only [encFields, fitsFields, maxFields] using encFields_is fs vs hf.2
  | .cons false t fs, none :: vs => simp only [encFields, fitsFields]; exact is_fail _
theorem encAlt_is (fs : Fields) (i : Nat) (v : Val) (hf : fs.sane = true) :
    Is (fitsAlt fs i v) (maxAlt fs i v) (encAlt fs i v) := by
  match fs, i with
  | .nil, _ => simp only [encAlt, fitsAlt]; exact is_fail _
  | .cons o t fs, 0 =>
    simp only [Fields.sane, Bool.and_eq_true] at hf
    simpa only [encAlt, fitsAlt, maxAlt] using enc_is t v hf.1
  | .cons o t fs, i + 1 =>
    simp only [Fields.sane, Bool.and_eq_true] at hf
    simpa only [encAlt, fitsAlt, maxAlt] using encAlt_is fs i v hf.2
end

/-- A value encodes iff it is one of the type. -/
theorem encode_isSome {t : Ty} (ht : t.sane = true) (v : Val) : (encode t v).isSome = fits t v := by
  have := complete_is (enc_is t v ht)
  unfold encode
  split at this
  · next h => simp [h, this]
  · next h => simp [h, this.1]

/-- The number of octets. -/
theorem encode_length {t : Ty} (ht : t.sane = true) {v : Val} {bs : Bytes} (h : encode t v = some bs) :
    bs.length ≤ openOcts (maxBits t v) := by
  have := complete_is (enc_is t v ht)
  unfold encode at h
  rw [h] at this
  exact this.2

theorem encode_exists {t : Ty} (ht : t.sane = true) {v : Val} (h : fits t v = true) :
    ∃ bs, encode t v = some bs ∧ bs.length ≤ openOcts (maxBits t v) := by
  have h1 := encode_isSome ht v
  rw [h, Option.isSome_iff_exists] at h1
  obtain ⟨bs, hb⟩ := h1
  exact ⟨bs, hb, encode_length ht hb⟩

end Verif.Aper
