import Verif.Model.Aper

/-!
# Aligned PER round trip

`RT e d v`: whatever `e` writes, at any offset and in front of anything, `d` reads back as `v`,
consuming exactly what was written.
-/

namespace Verif.Aper

def RT {α : Type} (e : Enc) (d : Dec α) (v : α) : Prop :=
  ∀ off bs, e off = some bs → ∀ rest, d ⟨off, bs ++ rest⟩ = some (v, ⟨off + bs.length, rest⟩)

/-! ## Plumbing -/

theorem seq_some {e f : Enc} {off : Nat} {bs : Bits} :
    (e +++ f) off = some bs ↔ ∃ a b, e off = some a ∧ f (off + a.length) = some b ∧ bs = a ++ b := by
  unfold Enc.seq
  cases he : e off with
  | none => simp
  | some a =>
    simp only
    cases hf : f (off + a.length) with
    | none => simp [hf]
    | some b =>
      simp only [Option.some.injEq]
      constructor
      · rintro rfl; exact ⟨a, b, rfl, hf, rfl⟩
      · rintro ⟨a', b', rfl, hb, rfl⟩
        rw [hf] at hb
        cases hb; rfl

theorem bind_apply {α β : Type} (d : Dec α) (f : α → Dec β) (i : In) :
    (d >>= f) i = (match d i with | none => none | some (a, j) => f a j) := by
  show (d i >>= fun p => f p.1 p.2) = _
  cases d i with
  | none => rfl
  | some p => rfl

theorem pure_apply {α : Type} (a : α) (i : In) : (pure a : Dec α) i = some (a, i) := rfl

theorem rt_fail {α : Type} (d : Dec α) (v : α) : RT eFail d v := by
  intro off bs h; simp [eFail] at h

theorem rt_pure {α : Type} (v : α) : RT eNil (pure v) v := by
  intro off bs h rest
  simp only [eNil, Option.some.injEq] at h
  subst h; rfl

theorem rt_bind {α β : Type} {e f : Enc} {d : Dec α} {g : α → Dec β} {a : α} {b : β}
    (h1 : RT e d a) (h2 : RT f (g a) b) : RT (e +++ f) (d >>= g) b := by
  intro off bs h rest
  obtain ⟨x, y, hx, hy, rfl⟩ := seq_some.1 h
  rw [bind_apply, List.append_assoc, h1 off x hx (y ++ rest)]
  simp only
  rw [h2 _ y hy rest]
  simp [Nat.add_assoc]

theorem rt_bind_pure {α β : Type} {f : Enc} {g : α → Dec β} {a : α} {b : β}
    (h2 : RT f (g a) b) : RT f (pure a >>= g) b := by
  intro off bs h rest
  rw [bind_apply, pure_apply]
  exact h2 off bs h rest

theorem rt_map {α β : Type} {e : Enc} {d : Dec α} {a : α} {g : α → β}
    (h : RT e d a) : RT e (d >>= fun x => pure (g x)) (g a) := by
  intro off bs hb rest
  rw [bind_apply, h off bs hb rest]
  rfl

theorem rt_nil_seq {α : Type} {e : Enc} {d : Dec α} {v : α} (h : RT e d v) : RT (eNil +++ e) d v := by
  intro off bs hb rest
  obtain ⟨x, y, hx, hy, rfl⟩ := seq_some.1 hb
  simp only [eNil, Option.some.injEq] at hx
  subst hx
  exact h off y hy rest

theorem rt_ite {α : Type} {c : Prop} [Decidable c] {e f : Enc} {d : Dec α} {v : α}
    (h1 : c → RT e d v) (h2 : ¬ c → RT f d v) : RT (if c then e else f) d v := by
  by_cases h : c
  · rw [if_pos h]; exact h1 h
  · rw [if_neg h]; exact h2 h

/-! ## Bits -/

theorem natBits_length (w n : Nat) : (natBits w n).length = w := by
  induction w with
  | zero => rfl
  | succ w ih => simp [natBits, ih]

theorem foldl_natBits (w n a : Nat) :
    (natBits w n).foldl (fun a b => 2 * a + b.toNat) a = a * 2 ^ w + n % 2 ^ w := by
  induction w generalizing a with
  | zero => simp [natBits, Nat.mod_one]
  | succ w ih =>
    simp only [natBits, List.foldl_cons]
    rw [ih, Nat.mod_pow_succ, ← Nat.toNat_testBit, Nat.add_mul, Nat.pow_succ]
    rw [Nat.mul_comm (2 ^ w) (n.testBit w).toNat]
    have : 2 * a * 2 ^ w = a * (2 ^ w * 2) := by
      rw [Nat.mul_comm 2 a, Nat.mul_assoc, Nat.mul_comm 2 (2 ^ w)]
    omega

theorem bitsNat_natBits {w n : Nat} (h : n < 2 ^ w) : bitsNat (natBits w n) = n := by
  unfold bitsNat
  rw [foldl_natBits, Nat.mod_eq_of_lt h]
  simp

theorem natBits8 (n : Nat) : natBits 8 n =
    [n.testBit 7, n.testBit 6, n.testBit 5, n.testBit 4, n.testBit 3, n.testBit 2, n.testBit 1, n.testBit 0] :=
  rfl

theorem octetsBits_length (bs : Bytes) : (octetsBits bs).length = 8 * bs.length := by
  induction bs with
  | nil => rfl
  | cons b bs ih => simp [octetsBits, natBits_length, ih]; omega

theorem toOctets_cons (b : Byte) (rest : Bits) :
    toOctets (natBits 8 b.toNat ++ rest) = b :: toOctets rest := by
  rw [natBits8]
  simp only [List.cons_append, List.nil_append, toOctets]
  rw [← natBits8, bitsNat_natBits b.isLt]
  simp

theorem toOctets_octetsBits (bs : Bytes) : toOctets (octetsBits bs) = bs := by
  induction bs with
  | nil => rfl
  | cons b bs ih => rw [octetsBits, toOctets_cons, ih]

theorem foldl_lt (bs : Bits) (a : Nat) :
    bs.foldl (fun a b => 2 * a + b.toNat) a < (a + 1) * 2 ^ bs.length := by
  induction bs generalizing a with
  | nil => simp
  | cons b bs ih =>
    simp only [List.foldl_cons, List.length_cons]
    refine Nat.lt_of_lt_of_le (ih _) ?_
    rw [Nat.pow_succ, Nat.mul_comm (2 ^ bs.length) 2, ← Nat.mul_assoc]
    apply Nat.mul_le_mul_right
    have : b.toNat ≤ 1 := by cases b <;> decide
    omega

theorem bitsNat_lt (bs : Bits) : bitsNat bs < 2 ^ bs.length := by
  have := foldl_lt bs 0
  simpa [bitsNat] using this

/-- Eight bits are the bits of their number. -/
theorem natBits_bitsNat8 (b7 b6 b5 b4 b3 b2 b1 b0 : Bool) :
    natBits 8 (bitsNat [b7, b6, b5, b4, b3, b2, b1, b0]) = [b7, b6, b5, b4, b3, b2, b1, b0] := by
  revert b7 b6 b5 b4 b3 b2 b1 b0; decide +kernel

theorem octet_bits (b7 b6 b5 b4 b3 b2 b1 b0 : Bool) :
    natBits 8 (BitVec.ofNat 8 (bitsNat [b7, b6, b5, b4, b3, b2, b1, b0])).toNat =
      [b7, b6, b5, b4, b3, b2, b1, b0] := by
  rw [BitVec.toNat_ofNat, Nat.mod_eq_of_lt (by simpa using bitsNat_lt [b7, b6, b5, b4, b3, b2, b1, b0])]
  exact natBits_bitsNat8 ..

/-- Packing into octets appends fewer than eight zero bits. -/
theorem octetsBits_toOctets (bs : Bits) : ∃ pad, octetsBits (toOctets bs) = bs ++ pad := by
  fun_induction toOctets bs with
  | case1 b7 b6 b5 b4 b3 b2 b1 b0 rest ih =>
    obtain ⟨pad, ih⟩ := ih
    refine ⟨pad, ?_⟩
    rw [octetsBits, octet_bits, ih]
    rfl
  | case2 => exact ⟨[], rfl⟩
  | case3 bs h1 h2 =>
    refine ⟨List.replicate (8 - bs.length) false, ?_⟩
    have hl : bs.length < 8 := by
      rcases bs with _ | ⟨b7, _ | ⟨b6, _ | ⟨b5, _ | ⟨b4, _ | ⟨b3, _ | ⟨b2, _ | ⟨b1, _ | ⟨b0, r⟩⟩⟩⟩⟩⟩⟩⟩
      all_goals first
        | exact absurd rfl (h1 _ _ _ _ _ _ _ _ _)
        | (simp only [List.length_cons, List.length_nil]; omega)
    obtain ⟨b7, b6, b5, b4, b3, b2, b1, b0, h⟩ : ∃ b7 b6 b5 b4 b3 b2 b1 b0,
        bs ++ List.replicate (8 - bs.length) false = [b7, b6, b5, b4, b3, b2, b1, b0] := by
      have hlen : (bs ++ List.replicate (8 - bs.length) false).length = 8 := by simp; omega
      generalize bs ++ List.replicate (8 - bs.length) false = l at hlen
      rcases l with _ | ⟨b7, _ | ⟨b6, _ | ⟨b5, _ | ⟨b4, _ | ⟨b3, _ | ⟨b2, _ | ⟨b1, _ | ⟨b0, r⟩⟩⟩⟩⟩⟩⟩⟩
      all_goals simp at hlen
      subst hlen
      exact ⟨_, _, _, _, _, _, _, _, rfl⟩
    rw [octetsBits, h, octet_bits]
    simp [octetsBits]

theorem splitN_append (a rest : Bits) : splitN a.length (a ++ rest) = some (a, rest) := by
  induction a with
  | nil => rfl
  | cons b a ih => simp [splitN, ih]

theorem rt_take (bs : Bits) : RT (eRaw bs) (dTake bs.length) bs := by
  intro off bs' h rest
  simp only [eRaw, Option.some.injEq] at h
  subst h
  simp only [dTake, splitN_append]

theorem rt_take' {bs : Bits} {n : Nat} (h : bs.length = n) : RT (eRaw bs) (dTake n) bs := by
  subst h; exact rt_take bs

theorem rt_nat (w n : Nat) : RT (eNat w n) (dNat w) n := by
  intro off bs h rest
  simp only [eNat] at h
  split at h
  · next hn =>
    cases h
    have h := rt_take' (natBits_length w n) off _ rfl rest
    simp only [dNat, h, bitsNat_natBits hn]
  · cases h

theorem rt_bit (b : Bool) : RT (eBit b) dBit b := by
  have h := rt_map (g := fun n => decide (n = 1)) (rt_nat 1 b.toNat)
  have e : decide (b.toNat = 1) = b := by cases b <;> rfl
  rw [e] at h
  exact h

theorem rt_align : RT eAlign dAlign () := by
  intro off bs h rest
  simp only [eAlign, Option.some.injEq] at h
  subst h
  have h := rt_take' (List.length_replicate (n := padLen off) (a := false)) off _ rfl rest
  simp only [dAlign, h]

/-! ## Whole numbers and lengths -/

theorem rt_small (range n : Nat) : RT (eSmall range n) (dSmall range) n := by
  unfold eSmall dSmall
  refine rt_ite (fun _ => rt_fail _ _) (fun h => ?_)
  by_cases h1 : range = 1
  · rw [if_pos h1, if_pos h1]
    have : n = 0 := by omega
    subst this
    exact rt_pure 0
  · rw [if_neg h1, if_neg h1]
    by_cases h2 : range ≤ 255
    · rw [if_pos h2, if_pos h2]; exact rt_nat _ _
    · rw [if_neg h2, if_neg h2]
      by_cases h3 : range = 256
      · rw [if_pos h3, if_pos h3]; exact rt_bind rt_align (rt_nat _ _)
      · rw [if_neg h3, if_neg h3]; exact rt_bind rt_align (rt_nat _ _)

theorem octetsFor_pos (n : Nat) : octetsFor n - 1 + 1 = octetsFor n := by
  unfold octetsFor; omega

theorem rt_cons (range n : Nat) : RT (eCons range n) (dCons range) n := by
  unfold eCons dCons
  refine rt_ite (fun _ => rt_fail _ _) (fun h => ?_)
  by_cases h1 : range ≤ 65536
  · rw [if_pos h1, if_pos h1]; exact rt_small _ _
  · rw [if_neg h1, if_neg h1]
    refine rt_bind (rt_small _ _) (rt_bind rt_align ?_)
    rw [octetsFor_pos]
    exact rt_nat _ _

theorem rt_nsn (n : Nat) : RT (eNsn n) dNsn n := by
  unfold eNsn dNsn
  refine rt_ite (fun _ => ?_) (fun _ => rt_fail _ _)
  exact rt_bind (rt_bit false) (rt_nat _ _)

theorem seq_ite (c : Prop) [Decidable c] (e f g : Enc) :
    (e +++ if c then f else g) = if c then e +++ f else e +++ g := by
  split <;> rfl

theorem rt_len (n : Nat) : RT (eLen n) dLen n := by
  unfold eLen dLen
  refine rt_bind rt_align ?_
  refine rt_ite (fun _ => ?_) (fun _ => rt_ite (fun _ => ?_) (fun _ => rt_fail _ _))
  · exact rt_bind (rt_bit false) (rt_nat _ _)
  · exact rt_bind (rt_bit true) (rt_bind (rt_bit false) (rt_nat _ _))

theorem rt_rawOctets (bs : Bytes) {n : Nat} (h : bs.length = n) :
    RT (eRaw (octetsBits bs)) (dRawOctets n) bs := by
  subst h
  have h := rt_map (g := toOctets) (rt_take' (octetsBits_length bs))
  rw [toOctets_octetsBits] at h
  exact h

theorem assoc_run (e f g : Enc) (off : Nat) (bs : Bits) :
    (e +++ f +++ g) off = some bs ↔ ((e +++ f) +++ g) off = some bs := by
  constructor
  · intro h
    obtain ⟨a, b, ha, hb, rfl⟩ := seq_some.1 h
    obtain ⟨c, d, hc, hd, rfl⟩ := seq_some.1 hb
    refine seq_some.2 ⟨a ++ c, d, seq_some.2 ⟨a, c, ha, hc, rfl⟩, ?_, by simp⟩
    rw [List.length_append, ← Nat.add_assoc]; exact hd
  · intro h
    obtain ⟨a, b, ha, hb, rfl⟩ := seq_some.1 h
    obtain ⟨c, d, hc, hd, rfl⟩ := seq_some.1 ha
    refine seq_some.2 ⟨c, d ++ b, hc, seq_some.2 ⟨d, b, hd, ?_, rfl⟩, by simp⟩
    rw [List.length_append, ← Nat.add_assoc] at hb; exact hb

theorem rt_assoc {α : Type} {e f g : Enc} {d : Dec α} {v : α} (h : RT (e +++ f +++ g) d v) :
    RT ((e +++ f) +++ g) d v := fun off bs hb => h off bs ((assoc_run e f g off bs).2 hb)

theorem rt_frag (k : Nat) (bs : Bytes) (f : Nat) (hf : k ≤ f) : RT (eFrag k bs) (dFrag f) bs := by
  induction k generalizing bs f with
  | zero => exact rt_fail _ _
  | succ k ih =>
    obtain ⟨f, rfl⟩ : ∃ g, f = g + 1 := ⟨f - 1, by omega⟩
    unfold eFrag dFrag
    refine rt_ite (fun h => ?_) (fun h => ?_)
    · unfold eLen
      refine rt_assoc (rt_bind rt_align ?_)
      by_cases h1 : bs.length < 128
      · rw [if_pos h1]
        exact rt_assoc (rt_bind (rt_bit false) (rt_bind (rt_nat _ _) (rt_rawOctets bs rfl)))
      · rw [if_neg h1, if_pos h]
        refine rt_assoc (rt_bind (rt_bit true) (rt_assoc (rt_bind (rt_bit false) ?_)))
        exact rt_bind (rt_nat _ _) (rt_rawOctets bs rfl)
    · refine rt_bind rt_align (rt_bind (rt_bit true) (rt_bind (rt_bit true) (rt_bind (rt_nat _ _) ?_)))
      have h0 : ¬ (min 4 (bs.length / 16384) = 0 ∨ 4 < min 4 (bs.length / 16384)) := by omega
      rw [if_neg h0]
      have hl : (bs.take (min 4 (bs.length / 16384) * 16384)).length = min 4 (bs.length / 16384) * 16384 := by
        rw [List.length_take]; omega
      refine rt_bind (rt_rawOctets _ hl) ?_
      have h2 := rt_map (g := fun b => bs.take (min 4 (bs.length / 16384) * 16384) ++ b)
        (ih (bs.drop (min 4 (bs.length / 16384) * 16384)) f (by omega))
      rw [List.take_append_drop] at h2
      exact h2

theorem eFrag_length {k : Nat} {bs : Bytes} {off : Nat} {out : Bits} (h : eFrag k bs off = some out) :
    bs.length ≤ out.length := by
  induction k generalizing bs off out with
  | zero => simp [eFrag, eFail] at h
  | succ k ih =>
    unfold eFrag at h
    split at h
    · obtain ⟨a, b, -, hb, rfl⟩ := seq_some.1 h
      simp only [eRaw, Option.some.injEq] at hb
      subst hb
      simp [octetsBits_length]; omega
    · obtain ⟨a, b, -, hb, rfl⟩ := seq_some.1 h
      obtain ⟨a1, b1, -, hb1, rfl⟩ := seq_some.1 hb
      obtain ⟨a2, b2, -, hb2, rfl⟩ := seq_some.1 hb1
      obtain ⟨a3, b3, -, hb3, rfl⟩ := seq_some.1 hb2
      obtain ⟨a4, b4, ha, hb4, rfl⟩ := seq_some.1 hb3
      have := ih hb4
      simp only [eRaw, Option.some.injEq] at ha
      subst ha
      simp only [List.length_append, octetsBits_length, List.length_take, List.length_drop] at this ⊢
      omega

theorem rt_octets (bs : Bytes) : RT (eOctets bs) dOctets bs := by
  intro off out h rest
  unfold eOctets at h
  have hl := eFrag_length h
  show dFrag ((out ++ rest).length + 1) ⟨off, out ++ rest⟩ = _
  refine rt_frag _ bs _ ?_ off out h rest
  rw [List.length_append]
  have : bs.length / 16384 ≤ bs.length := Nat.div_le_self _ _
  omega

theorem complete_dec {α : Type} {e : Enc} {d : Dec α} {v : α} {bs : Bytes} (h : RT e d v)
    (hc : complete e = some bs) : ∃ j, d ⟨0, octetsBits bs⟩ = some (v, j) := by
  unfold complete at hc
  split at hc
  · cases hc
  · next h0 =>
    cases hc
    have := h 0 [] h0 (octetsBits [0])
    exact ⟨_, this⟩
  · next out _ h0 =>
    cases hc
    obtain ⟨pad, hp⟩ := octetsBits_toOctets out
    rw [hp]
    exact ⟨_, h 0 out h0 pad⟩

theorem rt_open {α : Type} {e : Enc} {d : Dec α} {v : α} (h : RT e d v) : RT (eOpen e) (dOpen d) v := by
  intro off out hb rest
  unfold eOpen at hb
  split at hb
  · cases hb
  · next bs hc =>
    unfold dOpen
    rw [rt_octets bs off out hb rest]
    simp only
    obtain ⟨j, hj⟩ := complete_dec h hc
    rw [hj]

theorem rt_size (s : Size) (n : Nat) : RT (eSize s n) (dSize s) n := by
  unfold eSize dSize
  refine rt_ite (fun _ => rt_fail _ _) (fun h => ?_)
  by_cases h1 : s.lb = s.ub
  · rw [if_pos h1, if_pos h1]
    have : n = s.lb := by omega
    subst this
    exact rt_pure _
  · rw [if_neg h1, if_neg h1]
    by_cases h2 : s.ub < 65536
    · rw [if_pos h2, if_pos h2]
      have := rt_map (g := fun k => k + s.lb) (rt_cons (s.ub - s.lb + 1) (n - s.lb))
      have e : n - s.lb + s.lb = n := by omega
      rw [e] at this
      exact this
    · rw [if_neg h2, if_neg h2]; exact rt_len _

theorem rt_body (s : Size) (bs : Bits) {n : Nat} (hn : bs.length = n) : RT (eBody s bs) (dBody s n) bs := by
  subst hn
  unfold eBody dBody
  have e : bs = [] ↔ bs.length = 0 := by simp
  by_cases h : (s.lb = s.ub ∧ bs.length ≤ 16) ∨ bs = []
  · rw [if_pos h, if_pos (by rwa [e] at h)]; exact rt_take _
  · rw [if_neg h, if_neg (by rwa [e] at h)]; exact rt_bind rt_align (rt_take _)

theorem rt_octStr (s : Option Size) (bs : Bytes) : RT (eOctStr s bs) (dOctStr s) bs := by
  have key : ∀ s : Size, RT (eSize s bs.length +++ eBody s (octetsBits bs))
      (dSize s >>= fun n => dBody s (8 * n) >>= fun b => pure (toOctets b)) bs := by
    intro s
    refine rt_bind (rt_size s _) ?_
    have := rt_map (g := toOctets) (rt_body s (octetsBits bs) (octetsBits_length bs))
    rw [toOctets_octetsBits] at this
    exact this
  cases s with
  | none => exact rt_octets bs
  | some s =>
    unfold eOctStr dOctStr
    simp only
    by_cases hx : s.ext = true
    · rw [if_pos hx, if_pos hx]
      refine rt_ite (fun _ => ?_) (fun _ => ?_)
      · exact rt_bind (rt_bit false) (key s)
      · exact rt_bind (rt_bit true) (rt_octets bs)
    · rw [if_neg hx, if_neg hx]
      exact rt_bind_pure (key s)

theorem rt_bitStr (s : Option Size) (bs : Bits) : RT (eBitStr s bs) (dBitStr s) bs := by
  have key : ∀ s : Size, RT (eSize s bs.length +++ eBody s bs) (dSize s >>= fun n => dBody s n) bs :=
    fun s => rt_bind (rt_size s _) (rt_body s bs rfl)
  cases s with
  | none => exact rt_bind (rt_len _) (rt_take bs)
  | some s =>
    unfold eBitStr dBitStr
    simp only
    by_cases hx : s.ext = true
    · rw [if_pos hx, if_pos hx]
      refine rt_ite (fun _ => ?_) (fun _ => ?_)
      · exact rt_bind (rt_bit false) (key s)
      · exact rt_bind (rt_bit true) (rt_bind (rt_len _) (rt_take bs))
    · rw [if_neg hx, if_neg hx]
      exact rt_bind_pure (key s)

theorem rt_int (r : Range) (n : Int) : RT (eInt r n) (dInt r) n := by
  unfold eInt dInt
  refine rt_ite (fun _ => rt_fail _ _) (fun h => ?_)
  have key : RT (eCons ((r.ub - r.lb).toNat + 1) (n - r.lb).toNat)
      (dCons ((r.ub - r.lb).toNat + 1) >>= fun k => pure (r.lb + (k : Int))) n := by
    have := rt_map (g := fun k : Nat => r.lb + (k : Int))
      (rt_cons ((r.ub - r.lb).toNat + 1) (n - r.lb).toNat)
    have e : r.lb + ((n - r.lb).toNat : Int) = n := by omega
    rw [e] at this
    exact this
  by_cases hx : r.ext = true
  · rw [if_pos hx, if_pos hx]; exact rt_bind (rt_bit false) key
  · rw [if_neg hx, if_neg hx]; exact rt_bind_pure key

theorem rt_enum (root total : Nat) (ext : Bool) (n : Nat) (hrt : root ≤ total) :
    RT (eEnum root total ext n) (dEnum root total ext) n := by
  unfold eEnum dEnum
  cases ext with
  | false =>
    simp only [if_neg Bool.false_ne_true]
    refine rt_ite (fun h => rt_bind_pure ?_) (fun _ => rt_fail _ _)
    intro off bs hb rest
    have := rt_cons root n off bs hb rest
    simp only [if_neg Bool.false_ne_true, bind_apply, this, if_pos (Nat.lt_of_lt_of_le h hrt)]
    rfl
  | true =>
    simp only [if_true]
    refine rt_ite (fun h => rt_bind (rt_bit false) ?_) (fun h => rt_ite (fun h2 => rt_bind (rt_bit true) ?_) (fun _ => rt_fail _ _))
    · intro off bs hb rest
      have := rt_cons root n off bs hb rest
      simp only [if_neg Bool.false_ne_true, bind_apply, this, if_pos (Nat.lt_of_lt_of_le h hrt)]
      rfl
    · intro off bs hb rest
      have := rt_nsn (n - root) off bs hb rest
      have e : n - root + root = n := by omega
      have h3 : ((· + root) <$> dNsn : Dec Nat) ⟨off, bs ++ rest⟩ = some (n, ⟨off + bs.length, rest⟩) := by
        show (dNsn >>= fun a => pure (a + root)) _ = _
        rw [bind_apply, this]
        simp only [pure_apply, e]
      simp only [if_true, bind_apply, h3, if_pos h2, pure_apply]

theorem rt_count (s : Option Size) (n : Nat) : RT (eCount s n) (dCount s) n := by
  cases s with
  | none => exact rt_len n
  | some s =>
    unfold eCount dCount
    simp only
    by_cases hx : s.ext = true
    · rw [if_pos hx, if_pos hx]
      refine rt_ite (fun _ => ?_) (fun _ => ?_)
      · exact rt_bind (rt_bit false) (rt_size s n)
      · exact rt_bind (rt_bit true) (rt_len n)
    · rw [if_neg hx, if_neg hx]
      exact rt_bind_pure (rt_size s n)

theorem rt_list {e : Val → Enc} {d : Dec Val} (vs : List Val) (h : ∀ v ∈ vs, RT (e v) d v) :
    RT (eList e vs) (dList d vs.length) vs := by
  induction vs with
  | nil => exact rt_pure []
  | cons v vs ih =>
    refine rt_bind (h v List.mem_cons_self) ?_
    exact rt_map (g := fun vs => v :: vs) (ih fun w hw => h w (List.mem_cons_of_mem _ hw))

/-! ## Types -/

mutual
/-- Enumerations have at least their root values (true of every descriptor). -/
def Ty.ok : Ty → Bool
  | .enum root total _ => decide (root ≤ total)
  | .seq _ fs => fs.ok
  | .choice _ root adds => root.ok && adds.ok
  | .seqOf _ t => t.ok
  | _ => true
def Fields.ok : Fields → Bool
  | .nil => true
  | .cons _ t fs => t.ok && fs.ok
end

theorem encFields_len {fs : Fields} {vs : List (Option Val)} {off : Nat} {bs : Bits}
    (h : encFields fs vs off = some bs) : (optBits fs vs).length = fs.numOpt := by
  induction vs generalizing fs off bs with
  | nil =>
    cases fs with
    | nil => rfl
    | cons o t fs => cases o <;> simp [encFields, eFail] at h
  | cons v vs ih =>
    cases fs with
    | nil => simp [encFields, eFail] at h
    | cons o t fs =>
      cases v with
      | none =>
        cases o with
        | false => simp [encFields, eFail] at h
        | true =>
          simp only [encFields] at h
          simp [optBits, Fields.numOpt, ih h]
      | some v =>
        simp only [encFields] at h
        obtain ⟨a, b, -, hb, -⟩ := seq_some.1 h
        cases o <;> simp [optBits, Fields.numOpt, ih hb]

mutual
theorem enc_dec (t : Ty) (v : Val) (ht : t.ok = true) : RT (enc t v) (dec t) v := by
  match t, v with
  | .null, .null => simp only [enc, dec]; exact rt_pure _
  | .bool, .bool b => simp only [enc, dec]; exact rt_map (g := Val.bool) (rt_bit b)
  | .int r, .int n => simp only [enc, dec]; exact rt_map (g := Val.int) (rt_int r n)
  | .enum root total ext, .enum n =>
    simp only [enc, dec]
    exact rt_map (g := Val.enum) (rt_enum root total ext n (by simpa [Ty.ok] using ht))
  | .bits s, .bits b => simp only [enc, dec]; exact rt_map (g := Val.bits) (rt_bitStr s b)
  | .octets s, .octets b => simp only [enc, dec]; exact rt_map (g := Val.octets) (rt_octStr s b)
  | .any, .octets b => simp only [enc, dec]; exact rt_map (g := Val.octets) (rt_octets b)
  | .seq ext fs, .seq vs =>
    simp only [enc, dec]
    have hf := encFields_dec fs vs (by simpa [Ty.ok] using ht)
    have key : RT (eRaw (optBits fs vs) +++ encFields fs vs)
        (dTake fs.numOpt >>= fun bm => decFields fs bm >>= fun vs => pure (Val.seq vs)) (Val.seq vs) := by
      intro off bs hb rest
      obtain ⟨a, b, ha, hb', rfl⟩ := seq_some.1 hb
      have hlen := encFields_len hb'
      exact rt_bind (rt_take' hlen) (rt_map (g := Val.seq) hf) off _ hb rest
    cases ext with
    | true =>
      simp only [if_true]
      refine rt_bind (rt_bit false) ?_
      simp only [if_neg Bool.false_ne_true]
      exact key
    | false =>
      simp only [if_neg Bool.false_ne_true]
      exact rt_nil_seq (rt_bind_pure key)
  | .choice ext root adds, .choice i v =>
    simp only [enc, dec]
    have h2 : root.ok = true ∧ adds.ok = true := by simpa [Ty.ok] using ht
    have hr := encAlt_dec root i v h2.1
    have ha := encAlt_dec adds (i - root.length) v h2.2
    have key : RT (eCons root.length i +++ encAlt root i v)
        (dCons root.length >>= fun i => decAlt root i >>= fun v => pure (Val.choice i v)) (Val.choice i v) :=
      rt_bind (rt_cons _ _) (rt_map (g := Val.choice i) hr)
    refine rt_ite (fun h => ?_) (fun h => ?_)
    · cases ext with
      | true =>
        simp only [if_true]
        refine rt_bind (rt_bit false) ?_
        simp only [if_neg Bool.false_ne_true]
        exact key
      | false =>
        simp only [if_neg Bool.false_ne_true]
        exact rt_nil_seq (rt_bind_pure key)
    · cases ext with
      | true =>
        simp only [if_true]
        refine rt_bind (rt_bit true) ?_
        simp only [if_true]
        refine rt_bind (rt_nsn _) ?_
        have e : i - root.length + root.length = i := by omega
        rw [e]
        exact rt_map (g := Val.choice i) (rt_open ha)
      | false =>
        simp only [if_neg Bool.false_ne_true]
        exact rt_fail _ _
  | .seqOf s t, .list vs =>
    simp only [enc, dec]
    refine rt_bind (rt_count s _) ?_
    exact rt_map (g := Val.list) (rt_list vs fun v _ => enc_dec t v (by simpa [Ty.ok] using ht))
  | .null, .bool _ | .null, .int _ | .null, .enum _ | .null, .bits _ | .null, .octets _ | .null, .seq _
  | .null, .choice _ _ | .null, .list _ => simp only [enc]; exact rt_fail _ _
  | .bool, .null | .bool, .int _ | .bool, .enum _ | .bool, .bits _ | .bool, .octets _ | .bool, .seq _
  | .bool, .choice _ _ | .bool, .list _ => simp only [enc]; exact rt_fail _ _
  | .int _, .null | .int _, .bool _ | .int _, .enum _ | .int _, .bits _ | .int _, .octets _ | .int _, .seq _
  | .int _, .choice _ _ | .int _, .list _ => simp only [enc]; exact rt_fail _ _
  | .enum .., .null | .enum .., .bool _ | .enum .., .int _ | .enum .., .bits _ | .enum .., .octets _
  | .enum .., .seq _ | .enum .., .choice _ _ | .enum .., .list _ => simp only [enc]; exact rt_fail _ _
  | .bits _, .null | .bits _, .bool _ | .bits _, .int _ | .bits _, .enum _ | .bits _, .octets _
  | .bits _, .seq _ | .bits _, .choice _ _ | .bits _, .list _ => simp only [enc]; exact rt_fail _ _
  | .octets _, .null | .octets _, .bool _ | .octets _, .int _ | .octets _, .enum _ | .octets _, .bits _
  | .octets _, .seq _ | .octets _, .choice _ _ | .octets _, .list _ => simp only [enc]; exact rt_fail _ _
  | .any, .null | .any, .bool _ | .any, .int _ | .any, .enum _ | .any, .bits _
  | .any, .seq _ | .any, .choice _ _ | .any, .list _ => simp only [enc]; exact rt_fail _ _
  | .seq .., .null | .seq .., .bool _ | .seq .., .int _ | .seq .., .enum _ | .seq .., .bits _
  | .seq .., .octets _ | .seq .., .choice _ _ | .seq .., .list _ => simp only [enc]; exact rt_fail _ _
  | .choice .., .null | .choice .., .bool _ | .choice .., .int _ | .choice .., .enum _ | .choice .., .bits _
  | .choice .., .octets _ | .choice .., .seq _ | .choice .., .list _ => simp only [enc]; exact rt_fail _ _
  | .seqOf .., .null | .seqOf .., .bool _ | .seqOf .., .int _ | .seqOf .., .enum _ | .seqOf .., .bits _
  | .seqOf .., .octets _ | .seqOf .., .seq _ | .seqOf .., .choice _ _ => simp only [enc]; exact rt_fail _ _
  | .oid, _ => simp only [enc]; exact rt_fail _ _
theorem encFields_dec (fs : Fields) (vs : List (Option Val)) (hf : fs.ok = true) :
    RT (encFields fs vs) (decFields fs (optBits fs vs)) vs := by
  match fs, vs with
  | .nil, [] => simp only [encFields, decFields]; exact rt_pure _
  | .nil, _ :: _ => simp only [encFields]; exact rt_fail _ _
  | .cons true _ _, [] | .cons false _ _, [] => simp only [encFields]; exact rt_fail _ _
  | .cons false t fs, none :: vs => simp only [encFields]; exact rt_fail _ _
  | .cons false t fs, some v :: vs =>
    have h2 : t.ok = true ∧ fs.ok = true := by simpa [Fields.ok] using hf
    simp only [encFields, optBits, decFields]
    refine rt_bind (enc_dec t v h2.1) ?_
    exact rt_map (g := fun vs => some v :: vs) (encFields_dec fs vs h2.2)
  | .cons true t fs, some v :: vs =>
    have h2 : t.ok = true ∧ fs.ok = true := by simpa [Fields.ok] using hf
    simp only [encFields, optBits, Option.isSome_some, decFields]
    refine rt_bind (enc_dec t v h2.1) ?_
    exact rt_map (g := fun vs => some v :: vs) (encFields_dec fs vs h2.2)
  | .cons true t fs, none :: vs =>
    have h2 : t.ok = true ∧ fs.ok = true := by simpa [Fields.ok] using hf
    simp only [encFields, optBits, Option.isSome_none, decFields]
    exact rt_map (g := fun vs => none :: vs) (encFields_dec fs vs h2.2)
theorem encAlt_dec (fs : Fields) (i : Nat) (v : Val) (hf : fs.ok = true) :
    RT (encAlt fs i v) (decAlt fs i) v := by
  match fs, i with
  | .nil, _ => simp only [encAlt]; exact rt_fail _ _
  | .cons _ t fs, 0 =>
    have h2 : t.ok = true ∧ fs.ok = true := by simpa [Fields.ok] using hf
    simp only [encAlt, decAlt]; exact enc_dec t v h2.1
  | .cons _ t fs, i + 1 =>
    have h2 : t.ok = true ∧ fs.ok = true := by simpa [Fields.ok] using hf
    simp only [encAlt, decAlt]; exact encAlt_dec fs i v h2.2
end

/-- What a type's encoder produces, its decoder reads back. -/
theorem decode_encode {t : Ty} {v : Val} {bs : Bytes} (ht : t.ok = true) (h : encode t v = some bs) :
    decode t bs = some v := by
  unfold decode
  obtain ⟨j, hj⟩ := complete_dec (enc_dec t v ht) h
  rw [hj]

end Verif.Aper
