import Verif.Gen.AsnTable
import Verif.Proofs.IeSize
import Verif.Props.Ie
import Verif.Props.Dispatch

/-!
# C96: what is decoded is not much larger than what was received

`cells` counts the C objects a decoded value consists of (`Verif/Spec/Size.lean`); each is at most as large as the largest
structure of the generated headers, so the number of octets is proportional.
-/

namespace Verif.Props
open Verif.Aper Verif.Aper.Spec Verif.Ie Verif.Ie.Spec Verif.Rx Verif.Rx.Spec Verif.Asn Verif.Gen.AsnTable

theorem types_check : (same ++ messages ++ lists ++ others).all (fun t => t.c.solid && decide (t.c.growth.1 ≤ 9) &&
    decide (t.c.growth.2 ≤ 48)) = true := by decide +kernel

/-- **C96** for a type: at most 72 cells for each octet decoded, and 48 more. -/
theorem C96_value {t : NamedTy} (ht : t ∈ same ++ messages ++ lists ++ others) {bs : Bytes} {v : Val}
    (h : decode t.c bs = some v) : cells v ≤ 72 * bs.length + 48 := by
  have := List.all_eq_true.1 types_check t ht
  simp only [Bool.and_eq_true, decide_eq_true_eq] at this
  have h1 := decode_cells this.1.1 h
  have h2 := Nat.mul_le_mul_right (8 * bs.length) this.1.2
  omega

/-- **C96** for strings, whatever the type: all octet strings of a value together are not longer than what was decoded. -/
theorem C96_octets {t : Ty} {bs : Bytes} {v : Val} (h : decode t bs = some v) : octetsIn v ≤ bs.length :=
  decode_octetsIn h

/-- **C96** for the contents of a message: all elements decoded, even those which a later one with the same id replaces, have
at most 72 cells for each octet received.  There is at most one element for every two octets. -/
theorem C96_message {m : MsgDef} (hm : m ∈ tables) {bs : Bytes} {l : List Ie} (h : Carries m bs l) :
    messageCells m l ≤ 72 * bs.length ∧ 2 * l.length ≤ bs.length := by
  have := carries_size hm h
  exact ⟨messageCells_le hm h, by omega⟩

/-- **C96** for the structure which the decode function of a message fills, whether it succeeds or not. -/
theorem C96_structure {α : Type} {m : MsgDef} (hm : m ∈ tables) (bs : Bytes) (μ : Mem α) :
    cellsOpt (decodeIes m bs μ).1.2.vals ≤ 72 * bs.length + m.ies.length := by
  cases hd : decode m.ty bs with
  | none =>
    unfold decodeIes
    rw [hd]
    dsimp only
    rw [zero_cells]
    omega
  | some v =>
    obtain ⟨l, rfl⟩ := elements_dec (good hm) hd
    rw [decodeIes_carries hd μ]
    dsimp only
    have h1 := decodeRows_cells m l m.zero (μ.alloc true).2
    have h2 := messageCells_le hm hd
    rw [zero_cells] at h1
    omega

/-- **C96** for a whole RANAP message: the value whose elements are decoded is not longer than the message. -/
theorem C96_pdu {data : Bytes} {p c crit : Nat} {value : Bytes} (h : IsPdu data p c crit value) :
    value.length ≤ data.length := by
  have h := isPdu_iff.1 h
  unfold decodePdu at h
  split at h
  · next i pc cr w hd =>
    cases h
    have := decode_octetsIn hd
    simp only [octetsIn, octetsInOpt] at this
    omega
  · cases h

example : IsPdu dtPdu 1 20 1 dtBytes := isPdu_iff.2 dtPdu_decodes

/-- The Direct Transfer with a NAS PDU of three octets: 8 cells (the members, the contents of the string, and the absent
ones) for 16 octets. -/
example : Carries Gen.Ranap.directTransferIEs dtBytes [ieNas3, ieSapi] ∧
    messageCells Gen.Ranap.directTransferIEs [ieNas3, ieSapi] = 5 ∧ dtBytes.length = 16 ∧
    cellsOpt (decodeIes Gen.Ranap.directTransferIEs dtBytes (Mem.init (α := Unit))).1.2.vals = 8 :=
  ⟨dt_carries, by decide +kernel, by decide +kernel, by decide +kernel⟩

/-- There may be more cells than octets: 17 formats of nothing in ten octets. -/
example : ∃ bs v, decode Ranap.SDU_FormatInformationParameters.c bs = some v ∧ bs.length = 10 ∧ cells v = 86 := by
  refine ⟨[0x40, 0, 0, 0, 0, 0, 0, 0, 0, 0], _, rfl, rfl, ?_⟩
  decide +kernel

end Verif.Props
