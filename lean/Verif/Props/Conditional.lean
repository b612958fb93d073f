import Verif.Props.Rua
import Verif.Props.FactoryEmpty

/-!
# C106: elements that shall be present under a condition

The ASN.1 specification marks two elements of messages the library generates as conditional.
-/

namespace Verif.Props
open Verif.Aper Verif.Ie Verif.Ie.Spec Verif.Rua Verif.Factory Verif.Factory.Spec

/-- asn1/ranap/RANAP-PDU-Contents.asn:1928 (Initial UE Message), RAC (55): "This IE shall be present if the CN Domain Indicator IE
(3) is set to PS domain (1)". -/
def RacIfPs (want : List (Nat × Val)) : Prop := want.lookup 3 = some (.enum 1) → (want.lookup 55).isSome = true

/-- asn1/rua/RUA-PDU-Contents.asn:124 (Disconnect), RANAP message (4): "RANAP message shall be included if Cause value (1) is normal"
(radio network cause 0). -/
def RanapIfNormal (want : List (Nat × Val)) : Prop := want.lookup 1 = some (.choice 0 (.enum 0)) → (want.lookup 4).isSome = true

/-- **C106, full statement**: every Initial UE Message and every RUA Disconnect the library generates satisfies its condition. -/
def C106_full : Prop :=
  (∀ connId isPs r nas bs want, initialUe connId isPs (some r) nas = .ok (some bs) → Says bs 1 19 want → RacIfPs want) ∧
  (∀ isPs ctx p want, Conveys (newDisc isPs ctx p) 3 want → RanapIfNormal want)

/-- What a receiver of a Disconnect sees is determined by the message. -/
theorem conveys_lookup {r : Res Run} {code : Nat} {want want' : List (Nat × Val)} (h : Conveys r code want)
    (h' : Conveys r code want') {m : MsgDef} (hm : Rua.Spec.message code = some m) {k : Nat} {d : IeDef} (hr : Row m k d) :
    want.lookup d.id = want'.lookup d.id := by
  obtain ⟨tr, bs, h1, -, m1, crit, value, h2, h3, h4⟩ := h
  obtain ⟨tr', bs', h1', -, m1', crit', value', h2', h3', h4'⟩ := h'
  rw [hm] at h2 h2'
  cases h2
  cases h2'
  rw [h1] at h1'
  cases h1'
  rw [h3] at h3'
  cases h3'
  have e := ((h4 ⟨0, []⟩).2 k d hr).1
  have e' := ((h4' ⟨0, []⟩).2 k d hr).1
  rw [e] at e'
  exact Option.some.inj e'

/-- **C106**, what the code does, RANAP: the routing area code is never there, so the message is proper in the CS domain only. -/
theorem C106_rac_iff (connId : BitVec 32) (isPs : Bool) (r : RncId) (nas : Bytes) (hr : ValidRnc r) (hn : nas.length ≤ 966) :
    ∃ bs want, initialUe connId isPs (some r) nas = .ok (some bs) ∧ Says bs 1 19 want ∧ want.lookup 55 = none ∧
      (RacIfPs want ↔ isPs = false) := by
  obtain ⟨bs, h1, h2⟩ := (C65_initial_ue connId isPs r nas).1 hr hn
  refine ⟨bs, _, h1, h2, rfl, ?_⟩
  cases isPs with
  | false =>
    refine ⟨fun _ => rfl, fun _ h => ?_⟩
    have : (Val.enum 0) = .enum 1 := Option.some.inj h
    cases this
  | true => exact ⟨fun h => Bool.noConfusion (h rfl), fun h => by cases h⟩

/-- **C106**, what the code does, RUA: the cause is always "normal"; the RANAP message is there iff one was given that is not empty. -/
theorem C106_ranap_iff (isPs : Bool) (ctx : BitVec 32) (p : Option Bytes) (hl : ∀ b ∈ p, b.length ≤ 992) (want : List (Nat × Val))
    (h : Conveys (newDisc isPs ctx p) 3 want) : RanapIfNormal want ↔ ∃ b ∈ p, b ≠ [] := by
  have h0 := C58_disconnect isPs ctx p hl
  have e1 := conveys_lookup h h0 (m := Gen.Rua.disconnectIEs) rfl (k := 2) rfl
  have e4 := conveys_lookup h h0 (m := Gen.Rua.disconnectIEs) rfl (k := 3) rfl
  have e1' : want.lookup 1 = some (.choice 0 (.enum 0)) := e1
  unfold RanapIfNormal
  rw [e1']
  match p with
  | none =>
    have e4' : want.lookup 4 = none := e4
    simp [e4']
  | some [] =>
    have e4' : want.lookup 4 = none := e4
    simp [e4']
  | some (b :: bs) =>
    have e4' : want.lookup 4 = some (.octets (b :: bs)) := e4
    simp [e4']

/-- **C106 is violated** by both. -/
theorem C106_violated : ¬ C106_full ∧
    (∃ connId r nas bs want, initialUe connId true (some r) nas = .ok (some bs) ∧ Says bs 1 19 want ∧ ¬ RacIfPs want) ∧
    (∃ ctx want, Conveys (newDisc true ctx none) 3 want ∧ ¬ RanapIfNormal want) := by
  have h1 : ∃ connId r nas bs want, initialUe connId true (some r) nas = .ok (some bs) ∧ Says bs 1 19 want ∧ ¬ RacIfPs want := by
    obtain ⟨bs, want, h1, h2, -, h3⟩ := C106_rac_iff 23 true rnc926 [0xaa] (by decide) (by decide)
    exact ⟨_, _, _, bs, want, h1, h2, fun h => by cases h3.1 h⟩
  have h2 : ∃ ctx want, Conveys (newDisc true ctx none) 3 want ∧ ¬ RanapIfNormal want := by
    have hc := C58_disconnect true 1 none (by simp)
    refine ⟨1, _, hc, fun h => ?_⟩
    obtain ⟨b, hb, -⟩ := (C106_ranap_iff true 1 none (by simp) _ hc).1 h
    cases hb
  refine ⟨fun hf => ?_, h1, h2⟩
  obtain ⟨connId, r, nas, bs, want, g1, g2, g3⟩ := h1
  exact g3 (hf.1 _ _ _ _ _ _ g1 g2)

/-- **C106**, what can be relied on: an Initial UE Message for the CS domain, and a Disconnect with a RANAP message, are proper. -/
theorem C106_partial :
    (∀ connId r nas bs want, ValidRnc r → nas.length ≤ 966 → initialUe connId false (some r) nas = .ok (some bs) →
      Says bs 1 19 want → RacIfPs want) ∧
    (∀ isPs ctx p want, p ≠ [] → p.length ≤ 992 → Conveys (newDisc isPs ctx (some p)) 3 want → RanapIfNormal want) := by
  refine ⟨fun connId r nas bs want hr hn h hs => ?_, fun isPs ctx p want hp hl h => ?_⟩
  · obtain ⟨bs', want', h1, h2, -, h3⟩ := C106_rac_iff connId false r nas hr hn
    rw [h] at h1
    cases h1
    rw [says_unique hs h2]
    exact h3.2 rfl
  · exact (C106_ranap_iff isPs ctx (some p) (by simpa using hl) want h).2 ⟨p, rfl, hp⟩

example : ValidRnc rnc926 ∧ (∃ bs, initialUe 23 false (some rnc926) [0xaa] = .ok (some bs)) ∧
    ∃ want, Conveys (newDisc true 7 (some [1, 2])) 3 want := by
  obtain ⟨bs, -, h1, -⟩ := C106_rac_iff 23 false rnc926 [0xaa] (by decide) (by decide)
  exact ⟨by decide, ⟨bs, h1⟩, _, C58_disconnect true 7 (some [1, 2]) (by simp)⟩

end Verif.Props
