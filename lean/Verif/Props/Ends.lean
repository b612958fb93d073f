import Verif.Proofs.AperLocal
import Verif.Props.Dispatch

/-!
# C99: where a message ends

Octets behind a message make no difference, and a message cut short is not taken for another one.
-/

namespace Verif.Props
open Verif.Aper Verif.Ie Verif.Ie.Spec Verif.Rx Verif.Rx.Spec

/-- **C99** for a value of any type: there is a place where it ends; with fewer octets nothing is decoded, with more of them,
whatever they are, the same value. -/
theorem C99_end {t : Ty} {data : Bytes} {v : Val} (h : decode t data = some v) :
    ∃ n, n ≤ data.length ∧ (∀ k, k < n → decode t (data.take k) = none) ∧ ∀ more, decode t (data.take n ++ more) = some v :=
  decode_end h

/-- The PDUs of the four protocols. -/
def pduTypes : List Ty := [Gen.Ranap.RANAP_RANAP_PDU, Gen.Rua.RUA_RUA_PDU, Gen.Hnbap.HNBAP_HNBAP_PDU, Gen.Sabp.SABP_SABP_PDU]

/-- **C99** for what is sent: the PDU ends with its last octet, none can be missing. -/
theorem C99_sent {t : Ty} (ht : t ∈ pduTypes) {v : Val} {bs : Bytes} (h : encode t v = some bs) :
    (∀ k, k < bs.length → decode t (bs.take k) = none) ∧ ∀ more, decode t (bs ++ more) = some v := by
  have hok : t.ok = true := by
    revert t
    intro t ht _
    have : pduTypes.all (fun t => t.ok) = true := by decide +kernel
    exact List.all_eq_true.1 this t ht
  have hne : enc t v 0 ≠ some [] := by
    simp only [pduTypes, List.mem_cons, List.not_mem_nil, or_false] at ht
    rcases ht with rfl | rfl | rfl | rfl <;> exact choice_bits
  refine ⟨fun k hk => ?_, fun more => decode_append (decode_encode hok h) more⟩
  refine decode_truncated (more := bs.drop k) hok h hne (List.take_append_drop k bs).symm fun hd => ?_
  have := congrArg List.length hd
  rw [List.length_drop, List.length_nil] at this
  omega

theorem isPdu_append {data value : Bytes} {direction code crit : Nat} (h : IsPdu data direction code crit value) (more : Bytes) :
    IsPdu (data ++ more) direction code crit value := by
  obtain ⟨h1, pc, h2, h3⟩ := h
  exact ⟨h1, pc, h2, decode_append h3 more⟩

theorem decode2_append {sw : Switch} {dflt : Int} {data value : Bytes} {direction code crit : Nat}
    (h : IsPdu data direction code crit value) (more : Bytes) (μ : Mem Message) :
    decode2 sw dflt (data ++ more) μ = decode2 sw dflt data μ := by
  unfold decode2
  rw [isPdu_iff.1 h, isPdu_iff.1 (isPdu_append h more)]

/-- **C99** for the receive functions: what they return and everything they do, handler calls included, is the same with any
octets behind the PDU. -/
theorem C99_behind {data value : Bytes} {direction code crit : Nat} (h : IsPdu data direction code crit value) (more : Bytes)
    (μ : Mem Message) :
    cnRxCo (data ++ more) μ = cnRxCo data μ ∧ cnRxCl (data ++ more) μ = cnRxCl data μ ∧
    ranRxCo (data ++ more) μ = ranRxCo data μ := by
  unfold cnRxCo cnRxCl ranRxCo
  simp only [decode2_append h, and_self]

/-- **C99** for the receive functions: a PDU that was encoded, cut anywhere, is refused with -1 and nothing else happens. -/
theorem C99_cut_short {v : Val} {bs : Bytes} (h : encode Gen.Ranap.RANAP_RANAP_PDU v = some bs) {k : Nat} (hk : k < bs.length)
    (μ : Mem Message) :
    cnRxCo (bs.take k) μ = (-1, μ) ∧ cnRxCl (bs.take k) μ = (-1, μ) ∧ ranRxCo (bs.take k) μ = (-1, μ) := by
  have hd := (C99_sent (by simp [pduTypes]) h).1 k hk
  have hp : decodePdu (bs.take k) = none := by unfold decodePdu; rw [hd]
  have h2 : ∀ sw dflt, decode2 sw dflt (bs.take k) μ = ((-1, Message.zero), μ) := by
    intro sw dflt; unfold decode2; rw [hp]
  unfold cnRxCo cnRxCl ranRxCo
  simp only [h2]
  exact ⟨rfl, rfl, rfl⟩

/-- **C99** for the contents of a message: octets behind the last element make no difference. -/
theorem C99_contents {α : Type} {m : MsgDef} {bs : Bytes} {l : List Ie} (h : Carries m bs l) (more : Bytes) (μ : Mem α) :
    decodeIes m (bs ++ more) μ = decodeIes m bs μ := by
  unfold Carries at h
  unfold decodeIes
  rw [h, decode_append h more]

/-- Elements, each with some octets to be put behind its value. -/
def padded (ps : List (Ie × Bytes)) : List Ie := ps.map fun p => { p.1 with value := p.1.value ++ p.2 }

theorem padded_last (id : Nat) (ps : List (Ie × Bytes)) :
    (lastWith id (ps.map (·.1)) = none ∧ lastWith id (padded ps) = none) ∨
    ∃ p ∈ ps, p.1.id = id ∧ lastWith id (ps.map (·.1)) = some p.1 ∧
      lastWith id (padded ps) = some { p.1 with value := p.1.value ++ p.2 } := by
  have e1 : (ps.map (·.1)).filter (fun ie => decide (ie.id = id)) = (ps.filter fun p => decide (p.1.id = id)).map (·.1) := by
    rw [List.filter_map]; rfl
  have e2 : (padded ps).filter (fun ie => decide (ie.id = id)) =
      (ps.filter fun p => decide (p.1.id = id)).map fun p => { p.1 with value := p.1.value ++ p.2 } := by
    unfold padded; rw [List.filter_map]; rfl
  unfold lastWith
  rw [e1, e2, List.getLast?_map, List.getLast?_map]
  cases hl : (ps.filter fun p => decide (p.1.id = id)).getLast? with
  | none => exact .inl ⟨rfl, rfl⟩
  | some p =>
    have := List.mem_filter.1 (List.mem_of_getLast? hl)
    exact .inr ⟨p, this.1, of_decide_eq_true this.2, rfl, rfl⟩

/-- **C99** for elements: a message with valid elements is accepted, and read the same, with any octets behind the values
inside of the elements. -/
theorem C99_elements {α : Type} {m : MsgDef} (hm : m ∈ tables) {ps : List (Ie × Bytes)} {b1 b2 : Bytes}
    (h1 : Carries m b1 (ps.map (·.1))) (h2 : Carries m b2 (padded ps)) (hv : ∀ ie ∈ ps.map (·.1), Valid m ie) (μ1 μ2 : Mem α) :
    (decodeIes m b1 μ1).1.1 = 0 ∧ (decodeIes m b2 μ2).1.1 = 0 ∧
    ∀ k d, Row m k d → (decodeIes m b2 μ2).1.2.vals[k]? = (decodeIes m b1 μ1).1.2.vals[k]? ∧
      (d.opt = true → bit m (decodeIes m b2 μ2).1.2 k = bit m (decodeIes m b1 μ1).1.2 k) := by
  have hv2 : ∀ ie ∈ padded ps, Valid m ie := by
    intro ie hie
    obtain ⟨p, hp, rfl⟩ := List.mem_map.1 hie
    obtain ⟨d, hd, hid, hs⟩ := hv p.1 (List.mem_map.2 ⟨p, hp, rfl⟩)
    obtain ⟨v, hv⟩ := Option.isSome_iff_exists.1 hs
    exact ⟨d, hd, hid, by rw [decode_append hv]; rfl⟩
  have r1 := (C48_accepts_iff hm h1 μ1).2 hv
  have r2 := (C48_accepts_iff hm h2 μ2).2 hv2
  refine ⟨r1, r2, fun k d hr => ?_⟩
  obtain ⟨a1, a2⟩ := C47_last_wins hm h1 μ1 r1 hr
  obtain ⟨c1, c2⟩ := C47_last_wins hm h2 μ2 r2 hr
  constructor
  · rw [a1, c1]
    rcases padded_last d.id ps with ⟨e1, e2⟩ | ⟨p, hp, hid, e1, e2⟩
    · rw [e1, e2]
    · rw [e1, e2]
      dsimp only
      obtain ⟨d', hd', hid', hs⟩ := hv p.1 (List.mem_map.2 ⟨p, hp, rfl⟩)
      obtain ⟨k', hk'⟩ := List.mem_iff_getElem?.1 hd'
      obtain ⟨-, rfl⟩ := row_unique (good hm) hr hk' (hid.symm.trans hid'.symm)
      obtain ⟨v, hv⟩ := Option.isSome_iff_exists.1 hs
      rw [hv, decode_append hv]
  · intro ho
    rw [Bool.eq_iff_iff, a2 ho, c2 ho]
    constructor
    · rintro ⟨ie, hi, he⟩
      obtain ⟨p, hp, rfl⟩ := List.mem_map.1 hi
      exact ⟨p.1, List.mem_map.2 ⟨p, hp, rfl⟩, he⟩
    · rintro ⟨ie, hi, he⟩
      obtain ⟨p, hp, rfl⟩ := List.mem_map.1 hi
      exact ⟨_, List.mem_map.2 ⟨p, hp, rfl⟩, he⟩

/-! ## Cases -/

example : IsPdu dtPdu 1 20 1 dtBytes ∧ dtPdu.length = 20 := ⟨isPdu_iff.2 dtPdu_decodes, by decide⟩
example : encode Gen.Ranap.RANAP_RANAP_PDU (.choice 0 (.seq [some (.int 20), some (.enum 1), some (.octets dtBytes)])) =
    some dtPdu := by decide +kernel

/-- The Direct Transfer with two octets behind the NAS PDU, inside of the element. -/
example : Carries Gen.Ranap.directTransferIEs dtBytes ([(ieNas3, [0x55, 0x66]), (ieSapi, [])].map (·.1)) ∧
    Carries Gen.Ranap.directTransferIEs
      [0x00, 0x00, 0x02, 0x00, 0x10, 0x40, 0x06, 0x03, 0xaa, 0xbb, 0xcc, 0x55, 0x66, 0x00, 0x3b, 0x40, 0x01, 0x00]
      (padded [(ieNas3, [0x55, 0x66]), (ieSapi, [])]) ∧
    ∀ ie ∈ [(ieNas3, [0x55, 0x66]), (ieSapi, [])].map (·.1), Valid Gen.Ranap.directTransferIEs ie :=
  ⟨dt_carries, carries dt_mem (by decide +kernel), dt_valid⟩

end Verif.Props
