import Verif.Props.FactorySec
import Verif.Proofs.FactoryRx
import Verif.Model.Hnb

/-! # C127: an IMSI string that is not all digits is taken for somebody's IMSI

`ranap_imsi_encode` (iu_helpers.c:67-91) returns the number of octets only: there is no way for it to refuse a
string.  What a character other than a digit becomes decides who is paged, whom Common ID names and who is
registered. -/

namespace Verif.Props
open Verif.Spec.Bcd Verif.Factory Verif.Factory.Spec Verif.Aper
open Verif.Bcd (char2bcd tbcd imsiEncode imsiEncode_eq)

/-! ## Specification -/

/-- The character the encoder reads in place of `c`: digits and `A`-`F` stand for themselves, `a`-`f` for `A`-`F`,
and everything else for the digit `0`. -/
def readAs (c : Byte) : Byte :=
  if IsDigit c ∨ (0x41 ≤ c.toNat ∧ c.toNat ≤ 0x46) then c
  else if 0x61 ≤ c.toNat ∧ c.toNat ≤ 0x66 then BitVec.ofNat 8 (c.toNat - 0x20)
  else 0x30

/-- The string `s` is taken for the IMSI `t`: read that way it is `t`, or it is `t` of odd length followed by an
`F`, which is what fills up the last octet of such an IMSI anyway. -/
def TakenFor (s t : Bytes) : Prop :=
  s.map readAs = t ∨ (t.length % 2 = 1 ∧ s.map readAs = t ++ [0x46])

/-! ## Proofs about the octets -/

theorem char_readAs (c : Byte) : char2bcd (readAs c) = char2bcd c := by revert c; decide +kernel

theorem digit_readAs (c : Byte) (h : IsDigit c) : readAs c = c := by unfold readAs; rw [if_pos (Or.inl h)]

theorem map_digits {s : Bytes} (h : ∀ c ∈ s, IsDigit c) : s.map readAs = s := by
  rw [List.map_congr_left (fun c hc => digit_readAs c (h c hc)), List.map_id']

theorem tbcd_readAs (s : Bytes) : tbcd (s.map readAs) = tbcd s := by
  fun_induction tbcd s with
  | case1 => rfl
  | case2 c => simp [tbcd, char_readAs]
  | case3 c d rest ih => simp [tbcd, char_readAs, ih]

theorem tbcd_filler (s : Bytes) (h : s.length % 2 = 1) : tbcd (s ++ [0x46]) = tbcd s := by
  fun_induction tbcd s with
  | case1 => simp at h
  | case2 c =>
    have h : char2bcd 0x46 &&& 0x0f = 0x0f := by decide
    simp only [List.cons_append, List.nil_append, tbcd, h]
  | case3 c d rest ih => simp only [List.cons_append, tbcd, ih (by simp only [List.length_cons] at h; omega)]

theorem TakenFor.octets {s t : Bytes} (h : TakenFor s t) : tbcd s = tbcd t := by
  rcases h with h | ⟨ho, h⟩
  · rw [← tbcd_readAs, h]
  · rw [← tbcd_readAs, h, tbcd_filler t ho]

/-- Both nibbles of every octet as characters. -/
def nibbles : Bytes → Bytes
  | [] => []
  | b :: rest => hexChar (b.toNat % 16) :: hexChar (b.toNat / 16) :: nibbles rest

theorem nib_low (n : Byte) (c : Byte) (h : n.toNat < 16) :
    hexChar (((n <<< 4) ||| (char2bcd c &&& 0x0f)).toNat % 16) = readAs c := by
  obtain ⟨m, rfl⟩ : ∃ m : Fin 16, n = BitVec.ofNat 8 m.val := ⟨⟨n.toNat, h⟩, by simp⟩
  revert c m; decide +kernel

theorem nib_high (n : Byte) (c : Byte) (h : n.toNat < 16) :
    hexChar ((((char2bcd c &&& 0x0f) <<< 4) ||| n).toNat / 16) = readAs c := by
  obtain ⟨m, rfl⟩ : ∃ m : Fin 16, n = BitVec.ofNat 8 m.val := ⟨⟨n.toNat, h⟩, by simp⟩
  revert c m; decide +kernel

theorem nib_lt (c : Byte) : (char2bcd c &&& 0x0f).toNat < 16 := by revert c; decide +kernel

theorem nib_F (c : Byte) : hexChar ((((0x0f : Byte) <<< 4) ||| (char2bcd c &&& 0x0f)).toNat / 16) = 0x46 := by
  revert c; decide +kernel

theorem nibbles_tbcd (s : Bytes) : nibbles (tbcd s) = s.map readAs ++ if s.length % 2 = 1 then [0x46] else [] := by
  fun_induction tbcd s with
  | case1 => rfl
  | case2 c => simp only [nibbles, nib_low _ c (by decide : (0x0f : Byte).toNat < 16), nib_F]; rfl
  | case3 c d rest ih =>
    simp only [nibbles, nib_low _ c (nib_lt d), nib_high _ d (nib_lt c), ih, List.map_cons, List.cons_append,
      List.length_cons, show (rest.length + 1 + 1) % 2 = rest.length % 2 by omega]

theorem takenFor_of_tbcd {s t : Bytes} (ht : ∀ c ∈ t, IsDigit c) (h : tbcd s = tbcd t) : TakenFor s t := by
  have hn := congrArg nibbles h
  rw [nibbles_tbcd, nibbles_tbcd, map_digits ht] at hn
  by_cases h1 : s.length % 2 = 1 <;> by_cases h2 : t.length % 2 = 1
  · simp only [h1, h2, if_true] at hn
    exact .inl (List.append_cancel_right hn)
  · simp only [h1, h2, if_true, if_false, List.append_nil] at hn
    have : (0x46 : Byte) ∈ t := by rw [← hn]; simp
    exact absurd (ht _ this) (by decide)
  · simp only [h1, h2, if_true, if_false, List.append_nil] at hn
    exact .inr ⟨h2, hn⟩
  · simp only [h1, h2, if_false, List.append_nil] at hn
    exact .inl hn

/-! ## C127 -/

/-- **C127, as a user expects it.** A message that names a subscriber was made from that subscriber's IMSI. -/
def C127_full : Prop :=
  (∀ s t bs, ValidImsi t → commonId (some s) = .ok (some bs) → commonId (some t) = .ok (some bs) → s = t) ∧
  (∀ s t tmsi isPs cause bs, ValidImsi t → pagingCmd (some s) tmsi isPs cause = .ok (some bs) →
    pagingCmd (some t) tmsi isPs cause = .ok (some bs) → s = t)

/-- **C127.** The octets of a string are those of an IMSI exactly if the string is taken for that IMSI. -/
theorem C127_octets {out out' b b' : Buf} {n n' : Nat} {s t : Bytes} (ht : ∀ c ∈ t, IsDigit c)
    (e : imsiEncode out s = .ok (b, n)) (e' : imsiEncode out' t = .ok (b', n')) :
    b.take n = b'.take n' ↔ TakenFor s t := by
  rw [imsiEncode_eq] at e e'
  split at e
  · split at e'
    · simp only [Res.ok.injEq, Prod.mk.injEq] at e e'
      obtain ⟨rfl, rfl⟩ := e
      obtain ⟨rfl, rfl⟩ := e'
      rw [List.take_left, List.take_left]
      exact ⟨takenFor_of_tbcd ht, TakenFor.octets⟩
    · cases e'
  · cases e

/-- non-vacuity: "1x3" and "103"; "123F" and "123" -/
example : imsiEncode [0, 0] [0x31, 0x78, 0x33] = .ok ([0x01, 0xf3], 2) ∧
    imsiEncode [0, 0] [0x31, 0x30, 0x33] = .ok ([0x01, 0xf3], 2) ∧ TakenFor [0x31, 0x78, 0x33] [0x31, 0x30, 0x33] ∧
    imsiEncode [0, 0] [0x31, 0x32, 0x33, 0x46] = .ok ([0x21, 0xf3], 2) ∧
    TakenFor [0x31, 0x32, 0x33, 0x46] [0x31, 0x32, 0x33] :=
  ⟨by decide, by decide, .inl (by decide), by decide, .inr ⟨by decide, by decide⟩⟩

/-- **C127.** Whatever buffer it is given, the encoder does the same with a string as with what it reads it as. -/
theorem C127_read_as (out : Buf) (s : Bytes) : imsiEncode out s = imsiEncode out (s.map readAs) := by
  rw [imsiEncode_eq, imsiEncode_eq, tbcd_readAs]

/-- The whole encoder, for a string taken for an IMSI. -/
theorem encode_takenFor (out : Buf) {s t : Bytes} (h : TakenFor s t) : imsiEncode out s = imsiEncode out t := by
  rw [imsiEncode_eq, imsiEncode_eq, h.octets]

theorem takenFor_length {s t : Bytes} (h : TakenFor s t) :
    s.length = t.length ∨ t.length % 2 = 1 ∧ s.length = t.length + 1 := by
  rcases h with h | ⟨ho, h⟩
  · exact .inl (by rw [← h, List.length_map])
  · exact .inr ⟨ho, by have := congrArg List.length h; simpa using this⟩

/-- **C127.** Common ID made from any string at all is the one for a subscriber exactly if the string is taken for
that subscriber's IMSI. -/
theorem C127_common_id (s t : Bytes) (ht : ValidImsi t) :
    commonId (some s) = commonId (some t) ↔ TakenFor s t := by
  constructor
  · intro h
    obtain ⟨t1, t2, t3⟩ := (permanentId_any t).1 (by have := ht.2.2; omega)
    obtain ⟨bs, e, hs⟩ := (commonId_says t1 t2 t3).1 ht.2
    rw [e] at h
    by_cases hl : s.length ≤ 32
    · obtain ⟨s1, s2, s3⟩ := (permanentId_any s).1 hl
      have hb := commonId_says s1 s2 s3
      by_cases h5 : 5 ≤ s.length ∧ s.length ≤ 16
      · obtain ⟨bs', e', hs'⟩ := hb.1 h5
        rw [e'] at h
        obtain rfl : bs' = bs := by injection h with h; injection h
        have := says_unique hs' hs
        simp only [List.cons.injEq, Prod.mk.injEq, Val.choice.injEq, Val.octets.injEq, true_and, and_true] at this
        exact takenFor_of_tbcd ht.1 this
      · rw [hb.2 h5] at h; cases h
    · have := (permanentId_any s).2 (by omega)
      simp only [commonId, this] at h
      cases h
  · intro h
    simp only [commonId, permanentId, encode_takenFor _ h]

/-- **C127.** The same of paging, in either domain, with any temporary identity and any cause there is. -/
theorem C127_paging (s t : Bytes) (tmsi : Option (BitVec 32)) (isPs : Bool) (cause : BitVec 32) (ht : ValidImsi t)
    (hc : cause.toNat < 6) :
    pagingCmd (some s) tmsi isPs cause = pagingCmd (some t) tmsi isPs cause ↔ TakenFor s t := by
  constructor
  · intro h
    obtain ⟨t1, t2, t3⟩ := (permanentId_any t).1 (by have := ht.2.2; omega)
    obtain ⟨bs, e, hs⟩ := (pagingCmd_says tmsi isPs cause t1 t2 t3).1 ⟨ht.2, hc⟩
    rw [e] at h
    by_cases hl : s.length ≤ 32
    · obtain ⟨s1, s2, s3⟩ := (permanentId_any s).1 hl
      have hb := pagingCmd_says tmsi isPs cause s1 s2 s3
      by_cases h5 : 5 ≤ s.length ∧ s.length ≤ 16
      · obtain ⟨bs', e', hs'⟩ := hb.1 ⟨h5, hc⟩
        rw [e'] at h
        obtain rfl : bs' = bs := by injection h with h; injection h
        have := says_unique hs' hs
        simp only [List.cons_append, List.cons.injEq, Prod.mk.injEq, Val.choice.injEq, Val.octets.injEq, true_and,
          and_true] at this
        exact takenFor_of_tbcd ht.1 this
      · rw [hb.2 (fun h => h5 h.1)] at h; cases h
    · have := (permanentId_any s).2 (by omega)
      simp only [pagingCmd, this] at h
      cases h
  · intro h
    simp only [pagingCmd, permanentId, encode_takenFor _ h]

/-- **C127.** The test program registers a string as the subscriber it is taken for, from every state. -/
theorem C127_ue_register (env : Hnb.Env) (e : Hnb.State) {s t : Bytes} (h : TakenFor s t) :
    Hnb.step env e (.ueRegister s) = Hnb.step env e (.ueRegister t) := by
  simp only [Hnb.step, Hnb.ueRegisterTx, encode_takenFor _ h]

/-- "20408x000000000" -/
def imsiX : Bytes := [0x32, 0x30, 0x34, 0x30, 0x38, 0x78, 0x30, 0x30, 0x30, 0x30, 0x30, 0x30, 0x30, 0x30, 0x30]
/-- non-vacuity: the typing error is taken for a subscriber, and so is the IMSI with an `f` behind it -/
example : ValidImsi imsi15 ∧ TakenFor imsiX imsi15 ∧ imsiX ≠ imsi15 ∧ TakenFor (imsi15 ++ [0x66]) imsi15 ∧
    ¬ TakenFor (imsi15 ++ [0x30]) imsi15 :=
  ⟨⟨by decide, by decide, by decide⟩, .inl (by decide), by decide, .inr ⟨by decide, by decide⟩,
    by rintro (h | ⟨-, h⟩) <;> exact absurd h (by decide)⟩

/-- **C127.** With a character in it that is neither a digit nor a letter from `a` to `f`, a string always names
somebody else: the subscriber with `0` in that place. -/
theorem C127_somebody_else {s : Bytes} (hl : 5 ≤ s.length ∧ s.length ≤ 16)
    (hc : ∀ c ∈ s, ¬ (0x41 ≤ c.toNat ∧ c.toNat ≤ 0x46) ∧ ¬ (0x61 ≤ c.toNat ∧ c.toNat ≤ 0x66)) :
    ∃ t bs v, ValidImsi t ∧ t.length = s.length ∧
      (∀ (i : Nat) (c : Byte), s[i]? = some c → t[i]? = some (if IsDigit c then c else 0x30)) ∧
      commonId (some s) = .ok (some bs) ∧ IsImsi t v ∧ Says bs 1 15 [(23, v)] := by
  have hr : ∀ c ∈ s, readAs c = if IsDigit c then c else 0x30 := by
    intro c h
    obtain ⟨h1, h2⟩ := hc c h
    unfold readAs
    by_cases hd : IsDigit c
    · rw [if_pos (Or.inl hd), if_pos hd]
    · rw [if_neg (fun h => h.elim hd h1), if_neg h2, if_neg hd]
  have hv : ValidImsi (s.map readAs) := by
    refine ⟨?_, by simpa using hl⟩
    intro c h
    obtain ⟨d, hd, rfl⟩ := List.mem_map.1 h
    rw [hr d hd]
    split
    · assumption
    · decide
  obtain ⟨bs, v, e1, e2, e3⟩ := (C65_common_id (s.map readAs) hv.1 (by have := hv.2.2; omega)).1 hv
  refine ⟨s.map readAs, bs, v, hv, by simp, ?_, ?_, e2, e3⟩
  · intro i c h
    rw [List.getElem?_map, h, Option.map_some, hr c (List.mem_of_getElem? h)]
  · rw [← e1]; exact (C127_common_id _ _ hv).2 (.inl rfl)

example : (5 ≤ imsiX.length ∧ imsiX.length ≤ 16) ∧
    ∀ c ∈ imsiX, ¬ (0x41 ≤ c.toNat ∧ c.toNat ≤ 0x46) ∧ ¬ (0x61 ≤ c.toNat ∧ c.toNat ≤ 0x66) := by decide

/-- **C127, for digit strings.** Two strings of digits never give the same message.  Missing: strings with other
characters (`C127_violated`; `C127_common_id` and `C127_paging` say exactly whom those name). -/
theorem C127_partial {s t : Bytes} (hs : ∀ c ∈ s, IsDigit c) (ht : ValidImsi t) :
    (commonId (some s) = commonId (some t) → s = t) ∧
    (∀ tmsi isPs cause, cause.toNat < 6 → pagingCmd (some s) tmsi isPs cause = pagingCmd (some t) tmsi isPs cause →
      s = t) := by
  have key : TakenFor s t → s = t := by
    rintro (h | ⟨-, h⟩)
    · rw [← map_digits hs, h]
    · rw [map_digits hs] at h
      exact absurd (hs 0x46 (by rw [h]; simp)) (by decide)
  exact ⟨fun h => key ((C127_common_id s t ht).1 h), fun tmsi isPs cause hc h => key ((C127_paging s t tmsi isPs cause ht hc).1 h)⟩

/-- **C127 is false of the code.** "20408x000000000" is sent as 204080000000000. -/
theorem C127_violated : ¬ C127_full := by
  intro h
  have hv : ValidImsi imsi15 := ⟨by decide, by decide, by decide⟩
  obtain ⟨bs, v, e, -, -⟩ := (C65_common_id imsi15 hv.1 (by decide)).1 hv
  have := h.1 imsiX imsi15 bs hv (((C127_common_id imsiX imsi15 hv).2 (.inl (by decide))).trans e) e
  exact absurd this (by decide)

end Verif.Props
