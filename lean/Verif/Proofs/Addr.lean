import Verif.Spec.Addr

namespace Verif.Addr
open Verif.Spec.Addr

theorem slice_append (p q : Bytes) {n : Nat} (v : Vector Byte n) :
    slice (p ++ v.toList ++ q) p.length n = .ok v := by
  unfold slice
  rw [dif_pos (by simp)]
  congr 1
  apply Vector.ext
  intro i hi
  rw [Vector.getElem_ofFn]
  simp [List.getElem_append, hi]

theorem slice_append' (p q : Bytes) {n : Nat} (v : Vector Byte n) (k : Nat) (hk : p.length = k) :
    slice (p ++ v.toList ++ q) k n = .ok v := by
  subst hk; exact slice_append p q v

theorem slice_ok (buf : Bytes) (off n : Nat) (h : off + n ≤ buf.length) :
    ∃ v : Vector Byte n, slice buf off n = .ok v ∧
      buf = buf.take off ++ v.toList ++ buf.drop (off + n) := by
  let v : Vector Byte n := ⟨((buf.drop off).take n).toArray, by simp; omega⟩
  have hv : v.toList = (buf.drop off).take n := rfl
  have hb : buf = buf.take off ++ v.toList ++ buf.drop (off + n) := by
    rw [hv, List.append_assoc, ← List.drop_drop, List.take_append_drop, List.take_append_drop]
  refine ⟨v, ?_, hb⟩
  have := slice_append (buf.take off) (buf.drop (off + n)) v
  rw [← hb] at this
  rwa [List.length_take, Nat.min_eq_left (by omega)] at this

theorem slice_full {n : Nat} (v : Vector Byte n) : slice v.toList 0 n = .ok v := by
  have := slice_append [] [] v
  simpa using this

theorem decode2_of_format (x : Option Bool) (buf : Bytes) (a : SockAddr) (f : Bool)
    (h : Format buf a f) :
    transpLayerAddrDecode2 x buf = .ok ⟨0, a, x.map fun _ => f⟩ := by
  cases h with
  | raw4 ip =>
    unfold transpLayerAddrDecode2
    simp [slice_full]
  | raw6 ip =>
    unfold transpLayerAddrDecode2
    simp [slice_full]
  | nsap4 ip pad hp =>
    have hs := slice_append' [0x35, 0x00, 0x01] pad ip 3 rfl
    unfold transpLayerAddrDecode2
    rw [hs]
    have hl : ([0x35, 0x00, 0x01] ++ ip.toList ++ pad : Bytes).length = 7 + pad.length := by
      simp; omega
    rw [hl, if_pos ⟨by omega, by simp⟩]
    simp [bufRead, load16be]
  | nsap6 ip pad =>
    have hs := slice_append' [0x35, 0x00, 0x00] [pad] ip 3 rfl
    unfold transpLayerAddrDecode2
    rw [hs]
    have hl : ([0x35, 0x00, 0x00] ++ ip.toList ++ [pad] : Bytes).length = 20 := by
      simp
    rw [hl, if_pos ⟨by omega, by simp⟩]
    simp [bufRead, load16be]

theorem load16be_hi (a b : Byte) : (load16be a b).extractLsb' 8 8 = a := by
  apply BitVec.eq_of_getLsbD_eq
  intro i hi
  simp only [BitVec.getLsbD_extractLsb', hi, load16be, BitVec.getLsbD_append]
  simp [hi]

theorem load16be_lo (a b : Byte) : (load16be a b).extractLsb' 0 8 = b := by
  apply BitVec.eq_of_getLsbD_eq
  intro i hi
  simp only [BitVec.getLsbD_extractLsb', hi, load16be, BitVec.getLsbD_append]
  simp [hi]

theorem load16be_eq_zero (a b : Byte) : load16be a b = 0 ↔ a = 0 ∧ b = 0 := by
  constructor
  · intro h
    have h1 := load16be_hi a b
    have h2 := load16be_lo a b
    rw [h] at h1 h2
    exact ⟨by rw [← h1]; rfl, by rw [← h2]; rfl⟩
  · rintro ⟨rfl, rfl⟩; rfl

theorem load16be_eq_one (a b : Byte) : load16be a b = 1 ↔ a = 0 ∧ b = 1 := by
  constructor
  · intro h
    have h1 := load16be_hi a b
    have h2 := load16be_lo a b
    rw [h] at h1 h2
    exact ⟨by rw [← h1]; rfl, by rw [← h2]; rfl⟩
  · rintro ⟨rfl, rfl⟩; rfl

theorem decode2_cases (x : Option Bool) (buf : Bytes) :
    (∃ a f, Format buf a f) ∨ transpLayerAddrDecode2 x buf = .ok ⟨-22, .unspec, x⟩ := by
  by_cases h1 : (buf.length = 7 ∨ buf.length = 20) ∧ buf[0]? = some 0x35
  · obtain ⟨hl, h0⟩ := h1
    match hb : buf with
    | b0 :: b1 :: b2 :: rest =>
      simp only [List.length_cons, List.getElem?_cons_zero, Option.some.injEq] at hl h0
      subst h0
      by_cases hz : load16be b1 b2 = 0
      · obtain ⟨rfl, rfl⟩ := (load16be_eq_zero _ _).1 hz
        by_cases h20 : rest.length = 17
        · left
          obtain ⟨v, -, hv⟩ := slice_ok rest 0 16 (by omega)
          obtain ⟨t, ht⟩ : ∃ t, rest.drop (0 + 16) = [t] := by
            apply List.length_eq_one_iff.1; simp; omega
          rw [ht] at hv
          refine ⟨.inet6 v 0, true, ?_⟩
          rw [hv]
          exact Format.nsap6 v t
        · right
          unfold transpLayerAddrDecode2
          rw [if_pos ⟨by simpa using hl, by simp⟩]
          have hz' : load16be 0#8 0#8 = 0#16 := hz
          simp [bufRead, hz', h20, EINVAL]
      · by_cases ho : load16be b1 b2 = 1
        · obtain ⟨rfl, rfl⟩ := (load16be_eq_one _ _).1 ho
          left
          obtain ⟨v, -, hv⟩ := slice_ok rest 0 4 (by omega)
          refine ⟨.inet v 0, true, ?_⟩
          rw [hv]
          exact Format.nsap4 v _ (by simp; omega)
        · right
          unfold transpLayerAddrDecode2
          rw [if_pos ⟨by simpa using hl, by simp⟩]
          have hz' : ¬ load16be b1 b2 = 0#16 := hz
          have ho' : ¬ load16be b1 b2 = 1#16 := ho
          simp [bufRead, hz', ho', EINVAL]
    | [] => simp at hl
    | [_] => simp at hl
    | [_, _] => simp at hl
  · by_cases h4 : buf.length = 4
    · left
      exact ⟨_, _, Format.raw4 ⟨buf.toArray, by simpa using h4⟩⟩
    · by_cases h16 : buf.length = 16
      · left
        exact ⟨_, _, Format.raw6 ⟨buf.toArray, by simpa using h16⟩⟩
      · right
        unfold transpLayerAddrDecode2
        rw [if_neg h1, if_neg h4, if_neg h16]; rfl

theorem load32_store32 (v : BitVec 32) :
    load32be (v.extractLsb' 24 8) (v.extractLsb' 16 8) (v.extractLsb' 8 8) (v.extractLsb' 0 8) = v := by
  apply BitVec.eq_of_getLsbD_eq
  intro i hi
  simp only [load32be, BitVec.getLsbD_append, BitVec.getLsbD_extractLsb']
  by_cases h1 : i < 8
  · simp [h1]
  · by_cases h2 : i - 8 < 8
    · simp [h1, h2]; congr 1; omega
    · by_cases h3 : i - 8 - 8 < 8
      · simp [h1, h2, h3]; congr 1; omega
      · simp [h1, h2, h3]
        have : i - 8 - 8 - 8 < 8 := by omega
        simp [this]; congr 1; omega

theorem assoc_load (p : BitVec 16) (c d : Byte) :
    let r := load32be (p.extractLsb' 8 8) (p.extractLsb' 0 8) c d
    (r &&& 0xFFFF = 0 ↔ c = 0 ∧ d = 0) ∧ ((r >>> 16) &&& 0xFFFF).setWidth 16 = p := by
  intro r
  constructor
  · constructor
    · intro h
      have key : ∀ i, i < 16 → r.getLsbD i = false := by
        intro i hi
        have := congrArg (fun v => BitVec.getLsbD v i) h
        simp only [BitVec.getLsbD_and] at this
        have hm : (0xFFFF : BitVec 32).getLsbD i = true := by
          have : ∀ i < 16, (0xFFFF : BitVec 32).getLsbD i = true := by decide
          exact this i hi
        rw [hm, Bool.and_true] at this
        simpa using this
      constructor
      · apply BitVec.eq_of_getLsbD_eq
        intro i hi
        have := key (i + 8) (by omega)
        simp only [r, load32be, BitVec.getLsbD_append] at this
        simpa [hi] using this
      · apply BitVec.eq_of_getLsbD_eq
        intro i hi
        have := key i (by omega)
        simp only [r, load32be, BitVec.getLsbD_append] at this
        simpa [hi] using this
    · rintro ⟨rfl, rfl⟩
      apply BitVec.eq_of_getLsbD_eq
      intro i hi
      have hm : ∀ i < 32, ¬ i < 16 → (0xFFFF : BitVec 32).getLsbD i = false := by decide
      simp only [r, load32be, BitVec.getLsbD_append, BitVec.getLsbD_and]
      by_cases h1 : i < 8
      · simp [h1]
      · by_cases h2 : i - 8 < 8
        · simp [h1, h2]
        · have := hm i hi (by omega)
          rw [this]; simp
  · apply BitVec.eq_of_getLsbD_eq
    intro i hi
    have hm : (0xFFFF : BitVec 32).getLsbD i = true := by
      have : ∀ i < 16, (0xFFFF : BitVec 32).getLsbD i = true := by decide
      exact this i hi
    simp only [r, BitVec.getLsbD_setWidth, BitVec.getLsbD_and, BitVec.getLsbD_ushiftRight, hm, hi,
      load32be, BitVec.getLsbD_append, BitVec.getLsbD_extractLsb']
    have h1 : ¬ (16 + i < 8) := by omega
    have h2 : ¬ (16 + i - 8 < 8) := by omega
    by_cases h3 : i < 8
    · have h3' : 16 + i - 8 - 8 < 8 := by omega
      simp [h1, h2, h3']
      rw [show 16 + i - 8 - 8 = i by omega]
    · have h3' : ¬ 16 + i - 8 - 8 < 8 := by omega
      simp [h1, h2, h3']
      have : 16 + i - 8 - 8 - 8 < 8 := by omega
      simp [this]
      rw [show 8 + (16 + i - 8 - 8 - 8) = i by omega]

end Verif.Addr
