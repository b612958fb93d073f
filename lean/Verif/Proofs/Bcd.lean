import Verif.Model.Bcd
import Verif.Spec.Bcd

namespace Verif.Bcd
open Verif.Spec.Bcd

theorem lo_char (b : Byte) : bcd2char (loNibble b) = hexChar (b.toNat % 16) := by
  revert b; decide +kernel

theorem hi_char (b : Byte) : bcd2char (hiNibble b) = hexChar (b.toNat / 16) := by
  revert b; decide +kernel

theorem hi_F (b : Byte) : (bcd2char (hiNibble b) = 0x46) ↔ b.toNat / 16 = 15 := by
  revert b; decide +kernel

theorem bufWrite_append (p : Bytes) (x v : Byte) (q : Bytes) :
    bufWrite (p ++ x :: q) p.length v = .ok (p ++ v :: q) := by
  simp [bufWrite]

/-- where the decode loop stops because of `out_len` -/
def cap (outLen : Nat) : Nat := if outLen % 2 = 0 then outLen - 1 else outLen

theorem decodeLoop_eq (outLen : Nat) (inp p q : Bytes)
    (hlen : p.length + q.length = outLen) (he : p.length % 2 = 0) (hlt : p.length < outLen) :
    decodeLoop outLen inp (p ++ q) p.length =
      .ok (p ++ (digitChars inp).take (cap outLen - p.length) ++
            q.drop ((digitChars inp).take (cap outLen - p.length)).length,
           p.length + ((digitChars inp).take (cap outLen - p.length)).length) := by
  induction inp generalizing p q with
  | nil => simp [decodeLoop, digitChars]
  | cons ch rest ih =>
    obtain ⟨x, q1, rfl⟩ : ∃ x q1, q = x :: q1 := by
      cases q with
      | nil => simp at hlen; omega
      | cons x q1 => exact ⟨x, q1, rfl⟩
    simp only [List.length_cons] at hlen
    unfold decodeLoop
    rw [bufWrite_append]
    simp only [Res.ok_bind]
    by_cases hcap : p.length + 1 + 1 ≥ outLen
    · have hc : cap outLen - p.length = 1 := by unfold cap; split <;> omega
      simp [hcap, hc, digitChars, lo_char]
    · obtain ⟨y, q2, rfl⟩ : ∃ y q2, q1 = y :: q2 := by
        cases q1 with
        | nil => simp at hlen; omega
        | cons x q1 => exact ⟨x, q1, rfl⟩
      simp only [List.length_cons] at hlen
      simp only [hcap, if_false]
      by_cases hF : ch.toNat / 16 = 15
      · have hc : ∃ k, cap outLen - p.length = k + 1 := ⟨cap outLen - p.length - 1, by unfold cap; split <;> omega⟩
        obtain ⟨k, hk⟩ := hc
        have := (hi_F ch).2 hF
        simp [this, digitChars, hF, hk, lo_char]
      · have hF' : ¬ bcd2char (hiNibble ch) = 0x46 := fun h => hF ((hi_F ch).1 h)
        simp only [hF', if_false]
        have hw := bufWrite_append (p ++ [bcd2char (loNibble ch)]) y (bcd2char (hiNibble ch)) q2
        simp only [List.length_append, List.length_cons, List.length_nil, List.append_assoc,
          List.cons_append, List.nil_append, Nat.zero_add] at hw
        rw [hw]
        simp only [Res.ok_bind]
        have := ih (p ++ [bcd2char (loNibble ch), bcd2char (hiNibble ch)]) q2
          (by simp; omega) (by simp; omega) (by simp; omega)
        simp only [List.length_append, List.length_cons, List.length_nil, List.append_assoc,
          List.cons_append, List.nil_append, Nat.zero_add] at this
        rw [this]
        have hc : cap outLen - p.length = (cap outLen - (p.length + 2)) + 2 := by
          unfold cap; split <;> omega
        rw [hc]
        simp [digitChars, hF, lo_char, hi_char]
        omega

theorem decode_eq (out inp : Bytes) :
    decode out out.length inp =
      if out.length = 0 ∨ (out.length % 2 = 1 ∧ out.length ≤ (digitChars inp).length) then
        .fault .oobWrite
      else
        .ok ((digitChars inp).take (out.length - 1) ++ 0 ::
              out.drop (((digitChars inp).take (out.length - 1)).length + 1),
             ((digitChars inp).take (out.length - 1)).length + 1) := by
  by_cases h0 : out.length = 0
  · have : out = [] := List.length_eq_zero_iff.1 h0
    subst this
    cases inp <;> simp [decode, decodeLoop, bufWrite]
  · have h := decodeLoop_eq out.length inp [] out (by simp) (by simp) (by simp; omega)
    simp only [List.nil_append, List.length_nil, Nat.sub_zero, Nat.zero_add] at h
    unfold decode
    rw [h]
    simp only [Res.ok_bind, h0, false_or]
    by_cases hov : out.length % 2 = 1 ∧ out.length ≤ (digitChars inp).length
    · have hc : cap out.length = out.length := by unfold cap; split <;> omega
      simp only [hov, and_self, if_true, hc]
      have : (List.take out.length (digitChars inp)).length = out.length := by
        simp; omega
      simp [bufWrite, this]
    · simp only [hov, if_false]
      have hk : (digitChars inp).take (cap out.length) = (digitChars inp).take (out.length - 1) := by
        unfold cap
        split
        · rfl
        · rw [List.take_of_length_le, List.take_of_length_le] <;> omega
      rw [hk]
      generalize hs : (digitChars inp).take (out.length - 1) = s
      have hsl : s.length ≤ out.length - 1 := by rw [← hs]; simp; omega
      obtain ⟨x, q, hq⟩ : ∃ x q, out.drop s.length = x :: q := by
        cases hd : out.drop s.length with
        | nil => simp at hd; omega
        | cons x q => exact ⟨x, q, rfl⟩
      have hq2 : out.drop (s.length + 1) = q := by
        rw [← List.drop_drop, hq]; simp
      rw [hq, bufWrite_append, hq2]
      simp

/-- the TBCD octets of a character string, by pairs -/
def tbcd : Bytes → Bytes
  | [] => []
  | [c] => [((0x0f : Byte) <<< 4) ||| (char2bcd c &&& 0x0f)]
  | c :: d :: rest => (((char2bcd d &&& 0x0f) <<< 4) ||| (char2bcd c &&& 0x0f)) :: tbcd rest

theorem tbcd_length (s : Bytes) : (tbcd s).length = (s.length + 1) / 2 := by
  fun_induction tbcd s with
  | case1 => rfl
  | case2 => simp
  | case3 c d rest ih => simp [ih]; omega

theorem encodeLoop_eq (pre rest p q : Bytes) (hpre : pre.length % 2 = 0) :
    encodeLoop (pre ++ rest) ((pre ++ rest).length % 2 = 1) ((rest.length + 1) / 2) p.length
      pre.length (p ++ q) =
      if (tbcd rest).length ≤ q.length then .ok (p ++ tbcd rest ++ q.drop (tbcd rest).length)
      else .fault .oobWrite := by
  induction rest using tbcd.induct generalizing pre p q with
  | case1 => simp [encodeLoop, tbcd]
  | case2 c =>
    have h1 : bufRead (pre ++ [c] ++ [0]) pre.length = .ok c := by simp [bufRead]
    simp only [List.length_singleton, Nat.reduceAdd, Nat.reduceDiv, encodeLoop, h1, Res.ok_bind]
    have h2 : (decide ((pre ++ [c]).length % 2 = 1) = true) ∧ pre.length + 1 = (pre ++ [c]).length := by
      simp; omega
    simp only [h2, and_self, if_true, tbcd]
    cases q with
    | nil => simp [bufWrite]
    | cons x q1 => rw [bufWrite_append]; simp
  | case3 c d rest ih =>
    have h1 : bufRead (pre ++ c :: d :: rest ++ [0]) pre.length = .ok c := by simp [bufRead]
    have h1' : bufRead (pre ++ c :: d :: rest ++ [0]) (pre.length + 1) = .ok d := by
      simp [bufRead]
    have hn : ((c :: d :: rest).length + 1) / 2 = (rest.length + 1) / 2 + 1 := by simp; omega
    rw [hn]
    simp only [encodeLoop, h1, h1', Res.ok_bind]
    have h2 : ¬ ((decide ((pre ++ c :: d :: rest).length % 2 = 1) = true) ∧
        pre.length + 1 = (pre ++ c :: d :: rest).length) := by
      simp
    simp only [h2, if_false, tbcd]
    cases q with
    | nil => simp [bufWrite]
    | cons x q1 =>
      rw [bufWrite_append]
      have := ih (pre ++ [c, d]) (p ++ [((char2bcd d &&& 0x0f) <<< 4) ||| (char2bcd c &&& 0x0f)]) q1
        (by simp; omega)
      simp only [List.append_assoc, List.length_append, List.length_cons, List.length_nil,
        List.cons_append, List.nil_append, Nat.zero_add] at this
      simp only [Res.ok_bind, List.length_append, List.length_cons]
      rw [show pre.length + 1 + 1 = pre.length + 2 by omega, 
        show pre.length + (rest.length + 1 + 1) = pre.length + (rest.length + 2) by omega]
      rw [this]
      simp

theorem imsiEncode_eq (out str : Bytes) :
    imsiEncode out str =
      if (tbcd str).length ≤ out.length then
        .ok (tbcd str ++ out.drop (tbcd str).length, (tbcd str).length)
      else .fault .oobWrite := by
  have h := encodeLoop_eq [] str [] out (by simp)
  simp only [List.nil_append, List.length_nil] at h
  unfold imsiEncode
  have ho : str.length / 2 + (if str.length % 2 = 1 then 1 else 0) = (str.length + 1) / 2 := by
    split <;> omega
  simp only [ho]
  rw [h]
  split
  · simp [tbcd_length]
  · simp

theorem byte_pair (c d : Byte) (hc : IsDigit c) (hd : IsDigit d) :
    let b := ((char2bcd d &&& 0x0f) <<< 4) ||| (char2bcd c &&& 0x0f)
    b.toNat % 16 = digitVal c ∧ b.toNat / 16 = digitVal d := by
  revert c d
  have : ∀ i < 256, ∀ j < 256, IsDigit (BitVec.ofNat 8 i) → IsDigit (BitVec.ofNat 8 j) →
      let b := ((char2bcd (BitVec.ofNat 8 j) &&& 0x0f) <<< 4) ||| (char2bcd (BitVec.ofNat 8 i) &&& 0x0f)
      b.toNat % 16 = digitVal (BitVec.ofNat 8 i) ∧ b.toNat / 16 = digitVal (BitVec.ofNat 8 j) := by
    have h10 : ∀ i < 10, ∀ j < 10,
      let b := ((char2bcd (BitVec.ofNat 8 (0x30 + j)) &&& 0x0f) <<< 4) ||| (char2bcd (BitVec.ofNat 8 (0x30 + i)) &&& 0x0f)
      b.toNat % 16 = digitVal (BitVec.ofNat 8 (0x30 + i)) ∧ b.toNat / 16 = digitVal (BitVec.ofNat 8 (0x30 + j)) := by
      decide +kernel
    intro i hi j hj h1 h2
    have e1 : (BitVec.ofNat 8 i).toNat = i := by simp; omega
    have e2 : (BitVec.ofNat 8 j).toNat = j := by simp; omega
    unfold IsDigit at h1 h2
    rw [e1] at h1; rw [e2] at h2
    have := h10 (i - 0x30) (by omega) (j - 0x30) (by omega)
    rw [show 0x30 + (i - 0x30) = i by omega, show 0x30 + (j - 0x30) = j by omega] at this
    exact this
  intro c d hc hd
  have := this c.toNat c.isLt d.toNat d.isLt (by simpa using hc) (by simpa using hd)
  simpa using this

theorem byte_last (c : Byte) (hc : IsDigit c) :
    let b := ((0x0f : Byte) <<< 4) ||| (char2bcd c &&& 0x0f)
    b.toNat % 16 = digitVal c ∧ b.toNat / 16 = 15 := by
  revert c; decide +kernel

theorem hexChar_digit (c : Byte) (hc : IsDigit c) : hexChar (digitVal c) = c := by
  revert c; decide +kernel

theorem digitVal_lt (c : Byte) (hc : IsDigit c) : digitVal c < 10 := by
  unfold IsDigit at hc; unfold digitVal; omega

theorem digitChars_tbcd (s : Bytes) (h : ∀ c ∈ s, IsDigit c) : digitChars (tbcd s) = s := by
  fun_induction tbcd s with
  | case1 => rfl
  | case2 c =>
    have hc := h c (by simp)
    have := byte_last c hc
    simp only at this
    simp only [digitChars, this, if_true, hexChar_digit c hc]
  | case3 c d rest ih =>
    have hc := h c (by simp)
    have hd := h d (by simp)
    have := byte_pair c d hc hd
    simp only at this
    have hlt := digitVal_lt d hd
    have hne : ¬ digitVal d = 15 := by omega
    simp only [digitChars, this, if_neg hne, hexChar_digit c hc, hexChar_digit d hd]
    rw [ih (fun x hx => h x (by simp [hx]))]

theorem tbcd_layout (s : Bytes) (h : ∀ c ∈ s, IsDigit c) (i : Nat) (hi : i < (tbcd s).length) :
    ((tbcd s)[i]).toNat % 16 = nibbleAt s (2 * i) ∧
    ((tbcd s)[i]).toNat / 16 = nibbleAt s (2 * i + 1) := by
  fun_induction tbcd s generalizing i with
  | case1 => simp at hi
  | case2 c =>
    have : i = 0 := by simp at hi; omega
    subst this
    have := byte_last c (h c (by simp))
    simpa [nibbleAt] using this
  | case3 c d rest ih =>
    cases i with
    | zero =>
      have := byte_pair c d (h c (by simp)) (h d (by simp))
      simpa [nibbleAt] using this
    | succ i =>
      have := ih (fun x hx => h x (by simp [hx])) i (by simpa using hi)
      simpa [nibbleAt, Nat.mul_add] using this

theorem digitChars_hex (inp : Bytes) : ∀ c ∈ digitChars inp, IsHexUpper c := by
  have hx : ∀ n < 16, IsHexUpper (hexChar n) := by
    intro n hn
    have : ∀ n < 16, (0x30 ≤ (hexChar n).toNat ∧ (hexChar n).toNat ≤ 0x39) ∨
      (0x41 ≤ (hexChar n).toNat ∧ (hexChar n).toNat ≤ 0x46) := by decide
    exact this n hn
  induction inp with
  | nil => simp [digitChars]
  | cons b rest ih =>
    intro c hc
    simp only [digitChars, List.mem_cons] at hc
    have hb := b.isLt
    rcases hc with rfl | hc
    · exact hx _ (by omega)
    · split at hc
      · simp at hc
      · simp only [List.mem_cons] at hc
        rcases hc with rfl | hc
        · exact hx _ (by omega)
        · exact ih c hc

end Verif.Bcd
