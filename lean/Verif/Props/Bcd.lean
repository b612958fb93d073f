import Verif.Proofs.Bcd

/-!
# C01-C05: BCD coded digit strings

`Bcd.imsiEncode out s` / `Bcd.decode out out.length inp` model
`ranap_imsi_encode` / `ranap_bcd_decode` called with a buffer of `out.length`
octets and with `out_len = sizeof(buffer)`.
-/

namespace Verif.Props
open Verif.Bcd Verif.Spec.Bcd

/-- **C01.** Encoding any decimal string and decoding the octets gives the string
back, NUL terminated, with the documented return values. -/
theorem C01_imsi_round_trip (s : Bytes) (hs : ∀ c ∈ s, IsDigit c)
    (enc dec : Buf) (henc : (s.length + 1) / 2 ≤ enc.length) (hdec : s.length + 1 ≤ dec.length) :
    ∃ buf n, imsiEncode enc s = .ok (buf, n) ∧ n = (s.length + 1) / 2 ∧
      ∃ out, decode dec dec.length (buf.take n) = .ok (out, s.length + 1) ∧
        out.take (s.length + 1) = s ++ [0] := by
  refine ⟨tbcd s ++ enc.drop (tbcd s).length, (tbcd s).length, ?_, tbcd_length s, ?_⟩
  · rw [imsiEncode_eq, if_pos (by rw [tbcd_length]; exact henc)]
  · have hd : digitChars (tbcd s) = s := digitChars_tbcd s hs
    have ht : s.take (dec.length - 1) = s := List.take_of_length_le (by omega)
    refine ⟨s ++ 0 :: dec.drop (s.length + 1), ?_, ?_⟩
    · rw [List.take_left, decode_eq, hd, if_neg (by omega), ht]
    · rw [show s ++ 0 :: dec.drop (s.length + 1) = (s ++ [0]) ++ dec.drop (s.length + 1) by simp]
      exact List.take_left' (by simp)

/-- non-vacuity: a 15 digit IMSI, the code's own 16 octet buffers -/
example : (∀ c ∈ ([0x30,0x30,0x31,0x30,0x31,0x32,0x33,0x34,0x35,0x36,0x37,0x38,0x39,0x30,0x31] : Bytes),
    IsDigit c) ∧ (15 + 1) / 2 ≤ (List.replicate 16 (0 : Byte)).length ∧
    15 + 1 ≤ (List.replicate 16 (0 : Byte)).length := by decide

/-- **C02, full statement**: no execution of `ranap_bcd_decode` leaves its buffer. -/
def C02_full : Prop := ∀ (out : Buf) (inp : Bytes), (decode out out.length inp).isOk = true

/-- **C02**, exact set of overruns: an empty buffer, or an odd-sized buffer that is
not larger than the number of digits in the input. -/
theorem C02_overrun_iff (out : Buf) (inp : Bytes) :
    decode out out.length inp = .fault .oobWrite ↔
      out.length = 0 ∨ (out.length % 2 = 1 ∧ out.length ≤ (digitChars inp).length) := by
  rw [decode_eq]; split <;> simp_all

/-- **C02 is violated** by the code: every odd buffer size can be overrun. -/
theorem C02_violated_every_odd_size (out : Buf) (h : out.length % 2 = 1) :
    ∃ inp, decode out out.length inp = .fault .oobWrite := by
  refine ⟨List.replicate out.length 0, (C02_overrun_iff _ _).2 (Or.inr ⟨h, ?_⟩)⟩
  have : ∀ n, n ≤ (digitChars (List.replicate n 0#8)).length := by
    intro n
    induction n with
    | zero => simp
    | succ n ih => simp [List.replicate_succ, digitChars]; omega
  exact this _

theorem C02_violated : ¬ C02_full := by
  intro h
  obtain ⟨inp, hi⟩ := C02_violated_every_odd_size [0] (by decide)
  have := h [0] inp
  rw [hi] at this
  simp [Res.isOk] at this

/-- **C02, proved part**: buffers of even, non-zero size are never overrun (whatever
the input), and odd-sized ones are not if they are larger than the digit string.
Missing: odd-sized buffers with longer input, where the code is wrong. -/
theorem C02_bcd_decode_in_bounds_partial (out : Buf) (inp : Bytes)
    (h : (out.length % 2 = 0 ∧ out.length ≠ 0) ∨ (digitChars inp).length < out.length) :
    (decode out out.length inp).isOk = true := by
  rw [decode_eq, if_neg (by omega)]; rfl

example : ((List.replicate 16 (0 : Byte)).length % 2 = 0 ∧ (List.replicate 16 (0 : Byte)).length ≠ 0) := by
  decide

/-- **C03.** Whenever the buffer is not overrun: the output is a NUL terminated
string over `0-9A-F`, a prefix of the input's digits, cut only if the buffer is
full; the return value counts the NUL; nothing behind the NUL is touched. -/
theorem C03_bcd_decode_format (out : Buf) (inp : Bytes) (buf : Buf) (n : Nat)
    (h : decode out out.length inp = .ok (buf, n)) :
    ∃ s, buf.take n = s ++ [0] ∧ n = s.length + 1 ∧ s <+: digitChars inp ∧
      (∀ c ∈ s, IsHexUpper c) ∧ (s = digitChars inp ∨ n = out.length) ∧
      buf.length = out.length ∧ buf.drop n = out.drop n := by
  rw [decode_eq] at h
  split at h
  · cases h
  · rename_i hno
    simp only [Res.ok.injEq, Prod.mk.injEq] at h
    obtain ⟨rfl, rfl⟩ := h
    have hlen : (List.take (out.length - 1) (digitChars inp)).length ≤ out.length - 1 := by
      simp; omega
    have hdef : (List.take (out.length - 1) (digitChars inp)).length =
      min (out.length - 1) (digitChars inp).length := by simp
    refine ⟨(digitChars inp).take (out.length - 1), ?_, rfl, List.take_prefix _ _, ?_, ?_, ?_, ?_⟩
    · generalize (digitChars inp).take (out.length - 1) = s
      rw [show s ++ 0 :: out.drop (s.length + 1) = (s ++ [0]) ++ out.drop (s.length + 1) by simp]
      exact List.take_left' (by simp)
    · intro c hc
      exact digitChars_hex inp c (List.mem_of_mem_take hc)
    · by_cases hc : (digitChars inp).length ≤ out.length - 1
      · exact Or.inl (List.take_of_length_le hc)
      · right; rw [hdef]; omega
    · generalize (digitChars inp).take (out.length - 1) = s at *
      simp; omega
    · generalize (digitChars inp).take (out.length - 1) = s
      rw [show s ++ 0 :: out.drop (s.length + 1) = (s ++ [0]) ++ out.drop (s.length + 1) by simp]
      exact List.drop_left' (by simp)

/-- non-vacuity: a truncating call -/
example : decode [7, 7, 7, 7] 4 [0x21, 0x43, 0x65] = .ok ([0x31, 0x32, 0x33, 0], 4) := by decide

/-- **C04, full statement**: `ranap_imsi_encode` never leaves its output buffer. -/
def C04_full : Prop := ∀ (out : Buf) (s : Bytes), (imsiEncode out s).isOk = true

/-- **C04**, exact set of overruns. -/
theorem C04_overrun_iff (out : Buf) (s : Bytes) :
    imsiEncode out s = .fault .oobWrite ↔ out.length < (s.length + 1) / 2 := by
  rw [imsiEncode_eq, tbcd_length]; split <;> simp <;> omega

/-- **C04 is violated**: for every buffer size there is a string of digits that
overruns it; the `out_len` argument does not help. -/
theorem C04_violated_every_size (out : Buf) :
    ∃ s, (∀ c ∈ s, IsDigit c) ∧ imsiEncode out s = .fault .oobWrite := by
  refine ⟨List.replicate (2 * out.length + 1) 0x30, ?_, ?_⟩
  · intro c hc
    rw [List.eq_of_mem_replicate hc]; decide
  · rw [C04_overrun_iff, List.length_replicate]; omega

theorem C04_violated : ¬ C04_full := by
  intro h
  obtain ⟨s, -, hs⟩ := C04_violated_every_size []
  have := h [] s
  rw [hs] at this
  simp [Res.isOk] at this

/-- **C04, proved part**: strings of at most `2 * sizeof(buffer)` characters are safe
and nothing behind the written octets is touched.
Missing: longer strings, where the code overruns the buffer. -/
theorem C04_imsi_encode_in_bounds_partial (out : Buf) (s : Bytes) (h : s.length ≤ 2 * out.length) :
    ∃ buf n, imsiEncode out s = .ok (buf, n) ∧ n = (s.length + 1) / 2 ∧
      buf.length = out.length ∧ buf.drop n = out.drop n := by
  refine ⟨tbcd s ++ out.drop (tbcd s).length, (tbcd s).length, ?_, tbcd_length s, ?_, ?_⟩
  · rw [imsiEncode_eq, if_pos (by rw [tbcd_length]; omega)]
  · simp [tbcd_length]; omega
  · exact List.drop_left

example : ([0x39, 0x38, 0x37] : Bytes).length ≤ 2 * ([0, 0] : Buf).length := by decide

/-- **C05.** TBCD layout: octet `i` carries digit `2i` in the low and digit `2i+1`
(15 past the end) in the high nibble. -/
theorem C05_tbcd_layout (out : Buf) (s : Bytes) (hs : ∀ c ∈ s, IsDigit c) (buf : Buf) (n : Nat)
    (h : imsiEncode out s = .ok (buf, n)) (i : Nat) (hi : i < n) :
    ∃ b, buf[i]? = some b ∧ b.toNat % 16 = nibbleAt s (2 * i) ∧
      b.toNat / 16 = nibbleAt s (2 * i + 1) := by
  rw [imsiEncode_eq] at h
  split at h
  · simp only [Res.ok.injEq, Prod.mk.injEq] at h
    obtain ⟨rfl, rfl⟩ := h
    refine ⟨(tbcd s)[i], ?_, tbcd_layout s hs i hi⟩
    rw [List.getElem?_append_left hi, List.getElem?_eq_getElem hi]
  · cases h

/-- **C05.** Two different digit strings never get the same octets. -/
theorem C05_imsi_encode_injective (o₁ o₂ : Buf) (s₁ s₂ : Bytes)
    (h₁ : ∀ c ∈ s₁, IsDigit c) (h₂ : ∀ c ∈ s₂, IsDigit c)
    (b₁ b₂ : Buf) (n₁ n₂ : Nat)
    (e₁ : imsiEncode o₁ s₁ = .ok (b₁, n₁)) (e₂ : imsiEncode o₂ s₂ = .ok (b₂, n₂))
    (heq : b₁.take n₁ = b₂.take n₂) : s₁ = s₂ := by
  rw [imsiEncode_eq] at e₁ e₂
  split at e₁
  · split at e₂
    · simp only [Res.ok.injEq, Prod.mk.injEq] at e₁ e₂
      obtain ⟨rfl, rfl⟩ := e₁
      obtain ⟨rfl, rfl⟩ := e₂
      rw [List.take_left, List.take_left] at heq
      rw [← digitChars_tbcd s₁ h₁, ← digitChars_tbcd s₂ h₂, heq]
    · cases e₂
  · cases e₁

/-- non-vacuity: the odd/even boundary -/
example : imsiEncode [0, 0] [0x31, 0x32, 0x33] = .ok ([0x21, 0xf3], 2) ∧
    imsiEncode [0, 0] [0x31, 0x32, 0x33, 0x34] = .ok ([0x21, 0x43], 2) := by decide

end Verif.Props
