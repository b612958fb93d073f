import Verif.Proofs.FactoryRx
import Verif.Props.Factory

/-!
# Generated messages are understood by the receive functions (C66)
-/

namespace Verif.Props
open Verif.Aper Verif.Ie Verif.Ie.Spec Verif.Rx Verif.Rx.Spec Verif.Wire Verif.Gen.Ranap Verif.Factory Verif.Factory.Spec

/-- **C42.** What the hypotheses about received octets mean on the wire: the octets direction, procedure code,
criticality, length, value (with length and elements as in `Spec/Wire.lean`) are a PDU, and the octets of a list of
elements carry these elements. -/
theorem C42_wire {direction code crit : Nat} (hd : 1 ≤ direction ∧ direction ≤ 4) (hc : code < 256) (hk : crit < 3)
    {m : MsgDef} (hm : m ∈ tables) {l : List Ie} (hl : ∀ ie ∈ l, ie.id < 65536 ∧ ie.crit < 3)
    (hlen : (containerOctets l).length < 16384) :
    IsPdu (pduOctets direction code crit (containerOctets l)) direction code crit (containerOctets l) ∧
    Carries m (containerOctets l) l := by
  constructor
  · obtain ⟨b, e1, e2, -⟩ := ranap_pdu direction code crit (containerOctets l) hd.1 hd.2 hc hk
    rw [e2 hlen] at e1
    have := decode_encode (t := RANAP_RANAP_PDU) (by decide +kernel) e1
    exact ⟨hd.1, code, Int.toNat_natCast _, this⟩
  · have hcl := containerOctets_length l
    have hfl : 4 * l.length ≤ (l.flatMap ieOctets).length := by
      clear hcl hlen hl
      induction l with
      | nil => simp
      | cons x l ih =>
        simp only [List.flatMap_cons, List.length_append, List.length_cons, ieOctets_length]
        split <;> omega
    refine carries_encode (good hm) (encode_container hm (by omega) fun ie hie => ?_)
    have := mem_flatMap_length hie
    exact ⟨(hl ie hie).1, (hl ie hie).2, by omega⟩

/-- The Direct Transfer of the test suite. -/
example : dtPdu = pduOctets 1 20 1 (containerOctets [ieNas3, ieSapi]) ∧
    (containerOctets [ieNas3, ieSapi]).length < 16384 := by decide +kernel

/-- The handler is called exactly once, with a message that holds exactly the wanted elements; in the
end all memory has been freed. -/
def Understood (result : Int × Mem Message) (direction code : Nat) (m : MsgDef) (want : List (Nat × Val)) : Prop :=
  result.1 = 0 ∧ Clean result.2.trace ∧
    ∃ crit s, calls result.2.trace = [⟨direction, code, crit, some (m.name, s)⟩] ∧ HoldsExactly m want s

theorem understood {msgs : Nat → Nat → Option MsgDef} {bs : Bytes} {direction code : Nat} {want : List (Nat × Val)}
    {m : MsgDef} {result : Int × Mem Message} (h : Says bs direction code want) (hn : (want.map (·.1)).Nodup)
    (hm : msgs direction code = some m) (hp : msgs direction code = protocolMsg direction code)
    (h0 : ∀ crit l, Pdu msgs bs direction code crit m l → (∀ ie ∈ l, Valid m ie) →
      result.1 = 0 ∧ Delivered result.2.trace direction code crit m l ∧ (Clean result.2.trace ↔ NoRepeatedOwner m l)) :
    Understood result direction code m want := by
  obtain ⟨p, m', l, h1, h2, h3, h4, h5, h6⟩ := says_pdu h
  have : m' = m := by
    rw [hm, protocolMsg, h1] at hp
    exact Option.some.inj (h2.symm.trans hp.symm)
  subst this
  obtain ⟨a, ⟨s, before, live, -, b1, b2, -⟩, c⟩ := h0 p.crit l ⟨_, isPdu_iff.2 h4, hm, h5⟩ (elements_valid h6)
  exact ⟨a, c.2 (noRepeatedOwner_of_distinct (by rw [elements_map h6]; exact hn)), _, s, b1, holds_exactly h3 h6 hn b2⟩

/-- **C66.** Every complete message with distinct elements is understood by the receive function of the
RAN, if that supports it: the handler gets exactly what the message was made of. -/
theorem C66_ran_understands {bs : Bytes} {direction code : Nat} {want : List (Nat × Val)} {m : MsgDef}
    (h : Says bs direction code want) (hn : (want.map (·.1)).Nodup) (hm : ranCoMsg direction code = some m) :
    Understood (ranRxCo bs Mem.init) direction code m want := by
  refine understood h hn hm ?_ fun crit l hp hv => ?_
  · unfold ranCoMsg at hm ⊢
    split at hm
    · rw [if_pos (by assumption)]
    · cases hm
  · exact ⟨(C42_ran_co bs).1.2 ⟨_, _, _, _, _, hp, hv⟩, (C42_ran_co bs).2.2 _ _ _ _ _ hp hv,
      (C44_delivered_leak_iff hv).2.2 hp⟩

/-- **C66.** ... and by that of the core network, for connection oriented messages. -/
theorem C66_cn_understands {bs : Bytes} {direction code : Nat} {want : List (Nat × Val)} {m : MsgDef}
    (h : Says bs direction code want) (hn : (want.map (·.1)).Nodup) (hm : cnCoMsg direction code = some m)
    (hx : ¬ (direction = 2 ∧ code = 0)) :
    Understood (cnRxCo bs Mem.init) direction code m want := by
  refine understood h hn hm ?_ fun crit l hp hv => ?_
  · unfold cnCoMsg at hm ⊢
    rw [if_neg hx] at hm ⊢
    split at hm
    · rw [if_pos (by assumption)]
    · cases hm
  · exact ⟨(C42_cn_co bs).1.2 ⟨_, _, _, _, _, hp, hv⟩, (C42_cn_co bs).2.2 _ _ _ _ _ hp hv,
      (C44_delivered_leak_iff hv).1 hp⟩

/-- **C66.** ... and for connectionless messages, except those it decodes as something else (C45). -/
theorem C66_cn_cl_understands {bs : Bytes} {direction code : Nat} {want : List (Nat × Val)} {m : MsgDef}
    (h : Says bs direction code want) (hn : (want.map (·.1)).Nodup) (hm : cnClMsg direction code = some m)
    (hx : ¬ (direction = 2 ∧ (code = 31 ∨ code = 34))) :
    Understood (cnRxCl bs Mem.init) direction code m want := by
  refine understood h hn hm ?_ fun crit l hp hv => ?_
  · unfold cnClMsg at hm ⊢
    rw [if_neg (by omega), if_neg (by omega)] at hm ⊢
    split at hm
    · rw [if_pos (by assumption)]
    · cases hm
  · obtain ⟨value, hd, -, hc⟩ := hp
    obtain ⟨a, -, c⟩ := C43_known_partial hd hm
    exact ⟨a.2 ⟨l, hc, hv⟩, c l hc hv, (C44_delivered_leak_iff hv).2.1 ⟨value, hd, hm, hc⟩⟩

/-- **C66, C53.** A Direct Transfer with up to 1004 octets reaches the handler on either side unchanged. -/
theorem C66_direct_transfer (sapi : Byte) (nas : Bytes) (h : nas.length ≤ 1004) :
    ∃ bs, dt sapi nas = .ok (some bs) ∧
      Understood (ranRxCo bs Mem.init) 1 20 directTransferIEs
        [(16, .octets nas), (59, .enum (if sapi = 3 then 1 else 0))] ∧
      Understood (cnRxCo bs Mem.init) 1 20 directTransferIEs
        [(16, .octets nas), (59, .enum (if sapi = 3 then 1 else 0))] := by
  obtain ⟨bs, h1, h2⟩ := C53_direct_transfer sapi nas h
  exact ⟨bs, h1, C66_ran_understands h2 (by simp) rfl, C66_cn_understands h2 (by simp) rfl (by decide)⟩

example : ([0x05, 0x08, 0x02] : Bytes).length ≤ 1004 := by decide

end Verif.Props
