import Verif.Model.Lai

/-!
# C12-C13: location area and PLMN parsing
-/

namespace Verif.Props
open Verif.Lai

/-- Specification (TS 25.413 9.2.3.55): the six digits of a PLMN identity, bits 4-1 of
octet n carrying digit 2n-1 and bits 8-5 digit 2n. -/
def plmnDigits (p0 p1 p2 : Byte) : List Nat :=
  [p0.toNat % 16, p0.toNat / 16, p1.toNat % 16, p1.toNat / 16, p2.toNat % 16, p2.toNat / 16]

/-- MCC: the first three digits; MNC: the last three, or two if digit four is filler -/
def plmnSpec (p0 p1 p2 : Byte) : Nat × Nat :=
  match plmnDigits p0 p1 p2 with
  | [a, b, c, d, e, f] => (100 * a + 10 * b + c, if d = 15 then 10 * e + f else 100 * d + 10 * e + f)
  | _ => (0, 0)

theorem lo_eq (b : Byte) : lo b = b.toNat % 16 := by revert b; decide +kernel
theorem hi_eq (b : Byte) : hi b = b.toNat / 16 := by revert b; decide +kernel

/-- **C12.** `ranap_parse_lai` never faults, succeeds iff sizes are 3 and 2 and the LAC
is neither 0 nor 0xfffe, and then yields the specified MCC, MNC, LAC and RAC 0. -/
theorem C12_parse_lai (plmn lac : Bytes) :
    ∃ rc ra, parseLai plmn lac = .ok (rc, ra) ∧
      (rc = 0 ↔ plmn.length = 3 ∧ lac.length = 2 ∧ lac ≠ [0x00, 0x00] ∧ lac ≠ [0xff, 0xfe]) ∧
      (rc = 0 ∨ rc = -1) ∧
      (rc = 0 → ∃ p0 p1 p2 l0 l1, plmn = [p0, p1, p2] ∧ lac = [l0, l1] ∧
        (ra.mcc, ra.mnc) = plmnSpec p0 p1 p2 ∧
        ra.lac.toNat = 256 * l0.toNat + l1.toNat ∧ ra.rac = 0 ∧ ra.mnc3 = false) := by
  have hl16 : ∀ a b : Byte, (load16be a b).toNat = 256 * a.toNat + b.toNat := by
    intro a b
    simp only [load16be]
    rw [BitVec.toNat_append, Nat.shiftLeft_eq]
    rw [Nat.mul_comm, ← Nat.two_pow_add_eq_or_of_lt (i := 8) b.isLt]
  match plmn with
  | [p0, p1, p2] =>
    match lac with
    | [l0, l1] =>
      have h0 : load16be l0 l1 = 0 ↔ [l0, l1] = ([0x00, 0x00] : Bytes) := by
        rw [← BitVec.toNat_inj, hl16]
        simp only [List.cons.injEq, and_true, ← BitVec.toNat_inj]
        have := l0.isLt; have := l1.isLt
        simp; omega
      have h1 : load16be l0 l1 = 0xfffe ↔ [l0, l1] = ([0xff, 0xfe] : Bytes) := by
        rw [← BitVec.toNat_inj, hl16]
        simp only [List.cons.injEq, and_true, ← BitVec.toNat_inj]
        have := l0.isLt; have := l1.isLt
        simp; omega
      have hspec : ∀ ra : GprsRaId, ra.mcc = lo p0 * 100 + hi p0 * 10 + lo p1 →
          ra.mnc = (if hi p1 ≠ 0xF then lo p2 * 10 + hi p2 + hi p1 * 100 else lo p2 * 10 + hi p2) →
          (ra.mcc, ra.mnc) = plmnSpec p0 p1 p2 := by
        intro ra hm hn
        rw [hm, hn]
        simp only [plmnSpec, plmnDigits, lo_eq, hi_eq]
        by_cases hF : p1.toNat / 16 = 15
        · simp [hF]; omega
        · simp [hF]; omega
      unfold parseLai
      simp only [List.length_cons, List.length_nil, asn1strToU16, Res.ok_bind]
      by_cases hbad : load16be l0 l1 = 0 ∨ load16be l0 l1 = 0xfffe
      · rw [if_neg (by simp), if_pos hbad]
        refine ⟨-1, _, rfl, ?_, Or.inr rfl, by simp⟩
        rw [h0, h1] at hbad
        simp only [ne_eq]
        constructor
        · intro hh; omega
        · rintro ⟨-, -, h, h'⟩; exact absurd hbad (by simp only [h, h', or_self, not_false_eq_true])
      · refine ⟨0, ⟨lo p0 * 100 + hi p0 * 10 + lo p1,
          if hi p1 ≠ 0xF then lo p2 * 10 + hi p2 + hi p1 * 100 else lo p2 * 10 + hi p2, false,
          load16be l0 l1, 0⟩, ?_, ?_, Or.inl rfl, ?_⟩
        · by_cases hF : hi p1 ≠ 0xF
          · rw [if_pos hF, if_neg (by simp), if_neg hbad, if_pos hF]
          · rw [if_neg hF, if_neg (by simp), if_neg hbad, if_neg hF]
        · rw [h0, h1] at hbad
          simp only [not_or] at hbad
          simp only [true_iff]
          exact ⟨trivial, trivial, hbad.1, hbad.2⟩
        · intro _
          exact ⟨p0, p1, p2, l0, l1, rfl, rfl, hspec _ rfl rfl, hl16 _ _, rfl, rfl⟩
    | [] => unfold parseLai; exact ⟨-1, _, if_pos (by simp), by simp, Or.inr rfl, by simp⟩
    | [_] => unfold parseLai; exact ⟨-1, _, if_pos (by simp), by simp, Or.inr rfl, by simp⟩
    | _ :: _ :: _ :: _ => unfold parseLai; exact ⟨-1, _, if_pos (by simp), by simp, Or.inr rfl, by simp⟩
  | [] => exact ⟨-1, _, rfl, by simp, Or.inr rfl, by simp⟩
  | [_] => exact ⟨-1, _, rfl, by simp, Or.inr rfl, by simp⟩
  | [_, _] => exact ⟨-1, _, rfl, by simp, Or.inr rfl, by simp⟩
  | _ :: _ :: _ :: _ :: _ => exact ⟨-1, _, rfl, by simp, Or.inr rfl, by simp⟩

/-- non-vacuity: the 3-digit and the 2-digit MNC of the repository's own test -/
example : parseLai [0x21, 0x43, 0x65] [0xab, 0xcd] = .ok (0, ⟨123, 456, false, 0xabcd, 0⟩) ∧
    parseLai [0x21, 0xf3, 0x54] [0xab, 0xcd] = .ok (0, ⟨123, 45, false, 0xabcd, 0⟩) := by decide

/-- **C13, full statement**: the PLMN octets mean the same MCC/MNC in an LAI and in a
Global-RNC-ID. -/
def C13_full : Prop :=
  ∀ (p0 p1 p2 l0 l1 : Byte) (rnc : Nat) (ra : GprsRaId) (r : RncId),
    parseLai [p0, p1, p2] [l0, l1] = .ok (0, ra) → grncIdParse [p0, p1, p2] rnc = some r →
      (r.plmn.mcc, r.plmn.mnc, r.plmn.mnc3) = (ra.mcc, ra.mnc, ra.mnc3)

/-- **C13 is violated**: `21 43 65` is MNC 456 in the LAI but 564 in the RNC id. -/
theorem C13_violated : ¬ C13_full := by
  intro h
  have := h 0x21 0x43 0x65 0xab 0xcd 7 _ _ rfl rfl
  revert this
  decide

/-- **C13**, exact agreement set of the numerical MCC/MNC: the MCC always agrees; the
MNC agrees iff it is a 2-digit MNC, or its first and third digits are such that
both readings coincide (11 d4 = 10 d5 + d6). -/
theorem C13_agreement_iff (p0 p1 p2 l0 l1 : Byte) (rnc : Nat) (ra : GprsRaId) (r : RncId)
    (h1 : parseLai [p0, p1, p2] [l0, l1] = .ok (0, ra)) (h2 : grncIdParse [p0, p1, p2] rnc = some r) :
    r.plmn.mcc = ra.mcc ∧
    (r.plmn.mnc = ra.mnc ↔ p1.toNat / 16 = 15 ∨
      11 * (p1.toNat / 16) = 10 * (p2.toNat % 16) + p2.toNat / 16) := by
  obtain ⟨rc, ra', hp, -, -, hs⟩ := C12_parse_lai [p0, p1, p2] [l0, l1]
  rw [h1] at hp
  simp only [Res.ok.injEq, Prod.mk.injEq] at hp
  obtain ⟨rfl, rfl⟩ := hp
  obtain ⟨q0, q1, q2, _, _, hq, -, hm, -⟩ := hs rfl
  simp only [List.cons.injEq, and_true] at hq
  obtain ⟨rfl, rfl, rfl⟩ := hq
  simp only [grncIdParse, Option.some.injEq] at h2
  subst h2
  simp only [plmnSpec, plmnDigits, Prod.mk.injEq] at hm
  obtain ⟨hc, hn⟩ := hm
  rw [hc, hn]
  simp only [plmnFromBcd, lo_eq, hi_eq]
  by_cases hF : p1.toNat / 16 = 15
  · simp [hF]; omega
  · simp [hF]; omega

/-- **C13, proved part**: full agreement for 2-digit MNCs (filler present).
Missing: 3-digit MNCs, where the code disagrees with itself. -/
theorem C13_plmn_agreement_partial (p0 p1 p2 l0 l1 : Byte) (rnc : Nat) (ra : GprsRaId) (r : RncId)
    (hF : p1.toNat / 16 = 15)
    (h1 : parseLai [p0, p1, p2] [l0, l1] = .ok (0, ra)) (h2 : grncIdParse [p0, p1, p2] rnc = some r) :
    (r.plmn.mcc, r.plmn.mnc, r.plmn.mnc3) = (ra.mcc, ra.mnc, ra.mnc3) := by
  have ha := C13_agreement_iff p0 p1 p2 l0 l1 rnc ra r h1 h2
  have h3 : ra.mnc3 = false := by
    obtain ⟨rc, ra', hp, -, -, hs⟩ := C12_parse_lai [p0, p1, p2] [l0, l1]
    rw [h1] at hp
    simp only [Res.ok.injEq, Prod.mk.injEq] at hp
    obtain ⟨rfl, rfl⟩ := hp
    obtain ⟨_, _, _, _, _, -, -, -, -, -, h⟩ := hs rfl
    exact h
  have h4 : r.plmn.mnc3 = false := by
    simp only [grncIdParse, Option.some.injEq] at h2
    subst h2
    simp [plmnFromBcd, hi_eq, hF]
  rw [ha.1, ha.2.2 (Or.inl hF), h3, h4]

example : (0xf3 : Byte).toNat / 16 = 15 ∧
    parseLai [0x21, 0xf3, 0x54] [0xab, 0xcd] = .ok (0, ⟨123, 45, false, 0xabcd, 0⟩) ∧
    grncIdParse [0x21, 0xf3, 0x54] 23 = some ⟨⟨123, 45, false⟩, 23⟩ := by decide

end Verif.Props
