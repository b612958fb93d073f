import Verif.Proofs.FactoryVals

/-!
# Generated messages: Reset, Reset Acknowledge, Direct Transfer (C52, C53)

`Says bs direction code want` (Spec/Factory.lean): `bs` is the complete message with exactly these
elements.
-/

namespace Verif.Props
open Verif.Aper Verif.Ie Verif.Ie.Spec Verif.Rx.Spec Verif.Wire Verif.Gen.Ranap Verif.Factory Verif.Factory.Spec
open Verif.Aper.Spec (fits)

/-! ## C52: Reset, Reset Acknowledge, Reset Resource -/

/-- **C52.** Reset: with valid arguments the message carries exactly them, the Global-RNC-ID iff it is
given; otherwise NULL is returned. -/
theorem C52_reset (d : Nat) (c : Cause) (rnc : Option RncId) :
    (ValidDomain d ∧ ValidCause c ∧ (∀ r ∈ rnc, ValidRnc r) →
      ∃ bs, reset2 d (some c) rnc = .ok (some bs) ∧
        Says bs 1 9 ([(4, causeVal c), (3, .enum d)] ++ opt 86 rncVal rnc)) ∧
    (¬ (ValidDomain d ∧ ValidCause c ∧ ∀ r ∈ rnc, ValidRnc r) → reset2 d (some c) rnc = .ok none) := by
  have hd := domain_fits d
  have hc := cause_fits c
  have hb := openOcts_le (domain_bound d)
  suffices h : (ValidDomain d ∧ ValidCause c ∧ (∀ r ∈ rnc, ValidRnc r) →
      ∃ bs, reset2 d (some c) rnc = .ok (some bs) ∧
        Says bs 1 9 ([(4, c.toVal), (3, .enum d)] ++ opt 86 rncVal rnc)) ∧
      (¬ (ValidDomain d ∧ ValidCause c ∧ ∀ r ∈ rnc, ValidRnc r) → reset2 d (some c) rnc = .ok none) from
    ⟨fun v => causeVal_eq v.2.1 ▸ h.1 v, h.2⟩
  cases rnc with
  | none =>
    refine is_resetIEs.both (c := [(resetIEs.ies[0], c.toVal), (resetIEs.ies[1], .enum d)]) (by with_unfolding_all rfl) ?_ ?_
    · simp [allFit, resetIEs, hd, hc, and_comm]
    · rintro ⟨_, h, _⟩
      have := openOcts_le (cause_bound h)
      simp [bound, resetIEs]; omega
  | some r =>
    have hr := rnc_fits r
    refine is_resetIEs.both
      (c := [(resetIEs.ies[0], c.toVal), (resetIEs.ies[1], .enum d), (resetIEs.ies[2], r.toVal)]) (by with_unfolding_all rfl) ?_ ?_
    · simp [allFit, resetIEs, hd, hc, hr, and_left_comm]
    · rintro ⟨_, h, h'⟩
      have := openOcts_le (cause_bound h)
      have := openOcts_le (rnc_bound (h' r rfl))
      simp [bound, resetIEs]; omega

/-- A valid argument for the examples. -/
def cause46 : Cause := ⟨1, 46⟩
def rnc926 : RncId := ⟨[0x09, 0x01, 0x99], 0x926⟩

example : ValidDomain 0 ∧ ValidCause cause46 ∧ ∀ r ∈ some rnc926, ValidRnc r := by decide
example : ¬ ValidCause ⟨1, 65⟩ := by decide

/-- validation against tests/test-ranap.ok (ranap_new_msg_reset) -/
example : reset 0 (some cause46) =
    .ok (some [0x00, 0x09, 0x00, 0x0e, 0x00, 0x00, 0x02, 0x00, 0x04, 0x40, 0x02, 0x0b, 0x40, 0x00, 0x03, 0x00, 0x01, 0x00]) := by
  decide +kernel

/-- **C52.** Without a cause there is no Reset. -/
theorem C52_reset_no_cause (d : Nat) (rnc : Option RncId) : reset2 d none rnc = .ok none := by
  cases rnc <;> rfl

/-- **C52.** Reset Acknowledge. -/
theorem C52_reset_ack (d : Nat) (rnc : Option RncId) :
    (ValidDomain d ∧ (∀ r ∈ rnc, ValidRnc r) →
      ∃ bs, resetAck d rnc = .ok (some bs) ∧ Says bs 2 9 ([(3, .enum d)] ++ opt 86 rncVal rnc)) ∧
    (¬ (ValidDomain d ∧ ∀ r ∈ rnc, ValidRnc r) → resetAck d rnc = .ok none) := by
  have hd := domain_fits d
  have hb := openOcts_le (domain_bound d)
  cases rnc with
  | none =>
    refine is_resetAcknowledgeIEs.both (c := [(resetAcknowledgeIEs.ies[0], .enum d)]) (by with_unfolding_all rfl) ?_ ?_
    · simp [allFit, resetAcknowledgeIEs, hd]
    · rintro -
      simp [bound, resetAcknowledgeIEs]; omega
  | some r =>
    have hr := rnc_fits r
    refine is_resetAcknowledgeIEs.both
      (c := [(resetAcknowledgeIEs.ies[0], .enum d), (resetAcknowledgeIEs.ies[2], r.toVal)])
      (by with_unfolding_all rfl) ?_ ?_
    · simp [allFit, resetAcknowledgeIEs, hd, hr]
    · rintro ⟨_, h'⟩
      have := openOcts_le (rnc_bound (h' r rfl))
      simp [bound, resetAcknowledgeIEs]; omega

example : ValidDomain 0 ∧ ∀ r ∈ some rnc926, ValidRnc r := by decide

/-- validation against tests/test-ranap.ok (ranap_new_msg_reset_ack) -/
example : resetAck 0 (some rnc926) =
    .ok (some [0x20, 0x09, 0x00, 0x11, 0x00, 0x00, 0x02, 0x00, 0x03, 0x00, 0x01, 0x00, 0x00, 0x56, 0x40, 0x05, 0x09, 0x01,
      0x99, 0x09, 0x26]) := by decide +kernel

/-! ## C53: Direct Transfer -/

/-- **C53.** Direct Transfer: up to 1004 octets of NAS-PDU the message carries exactly them, and the
SAPI, which is SAPI 3 iff the argument is 3 and SAPI 0 otherwise. -/
theorem C53_direct_transfer (sapi : Byte) (nas : Bytes) (h : nas.length ≤ 1004) :
    ∃ bs, dt sapi nas = .ok (some bs) ∧
      Says bs 1 20 [(16, .octets nas), (59, .enum (if sapi = 3 then 1 else 0))] := by
  exact (dt_both sapi nas).1 h

example : ([0x05, 0x08, 0x02] : Bytes).length ≤ 1004 := by decide

/-- validation against tests/test-ranap.ok (ranap_new_msg_dt, SAPI 0) -/
example : dt 0 [0xaa, 0xbb, 0xcc] = .ok (some [0x00, 0x14, 0x40, 0x10, 0x00, 0x00, 0x02, 0x00, 0x10, 0x40, 0x04, 0x03,
    0xaa, 0xbb, 0xcc, 0x00, 0x3b, 0x40, 0x01, 0x00]) := by decide +kernel

/-- **C53, C60.** A longer NAS-PDU gives a message buffer without any contents. -/
theorem C53_too_long (sapi : Byte) (nas : Bytes) (h : 1004 < nas.length) : dt sapi nas = .ok (some []) :=
  (dt_both sapi nas).2 h

example : 1004 < (List.replicate 1005 0 : Bytes).length := by rw [List.length_replicate]; decide

end Verif.Props
