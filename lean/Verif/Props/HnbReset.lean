import Verif.Props.HnbPaging

/-!
# C102: a RESET of the HNB emulator is acknowledged

The HNB emulator, the Iu client and a gateway between them as in C92; RESET and its acknowledgement go through RUA
Connectionless Transfers.
-/

namespace Verif.Props
open Verif.Aper Verif.Ie Verif.Ie.Spec Verif.Hnb Verif.Hnb.Spec Verif.Factory.Spec Verif.Linked
open Verif.Linked.Spec (ClMsg elem Has domainOf clBody)

/-- The octets, handed to RUA, make a Connectionless Transfer; whatever RUA Connectionless Transfer they arrive in, the
emulator survives it, does not answer, and nothing of it changes. -/
def TakenSilently (bs : Bytes) : Prop :=
  (∃ tr data, Rua.newUdt (some bs) = .ok ⟨tr, some ⟨data, 19⟩⟩ ∧ Cl data bs) ∧
  ∀ data, Cl data bs → ∀ hnb e, Reach hnb e → Hnb.step hnb e (.recv 19 data) = .ok e

/-- A connectionless message which is no Paging. -/
theorem taken_silently {hnb : Hnb.Env} {e : Hnb.State} {data bs : Bytes} {p c : Nat} {l : List Ie} (hr : Reach hnb e)
    (hd : Cl data bs) (hm : ClMsg bs p c l) (hc : c ≠ 14) : Hnb.step hnb e (.recv 19 data) = .ok e := by
  rcases step_result (env := hnb) (reach_frame hr).1 (.recv 19 data) with ⟨hk, -⟩ | ⟨-, s', hs, he⟩
  · exfalso
    rcases hk with ⟨-, ⟨-, p, c, l, hk, -⟩ | ⟨hk, -⟩⟩
    · exact co_cl hk hd
    · exact absurd hk (by decide)
  · rw [hs]
    unfold Effect at he
    dsimp only at he
    split at he
    · rcases he with ⟨a, ha, -⟩ | ⟨t, ht, rfl⟩ | ⟨-, -, rfl⟩
      · obtain ⟨p, c, l, hk⟩ := asks_co ha
        exact absurd hd (fun hc => co_cl hk hc)
      · exfalso
        cases ht with
        | imsi h hm' hi =>
          obtain rfl := cl_unique hd h
          exact hc (clMsg_unique hm hm').2.1
        | noImsi h hm' hi =>
          obtain rfl := cl_unique hd h
          exact hc (clMsg_unique hm hm').2.1
        | outcome h hm' =>
          obtain rfl := cl_unique hd h
          obtain ⟨crit, m, ⟨v, h1, -⟩, -⟩ := hm
          have := (Rx.isPdu_iff.1 h1).symm.trans (Rx.isPdu_iff.1 hm')
          simp only [Option.some.injEq, Prod.mk.injEq] at this
          exact hc this.2.1
      · rfl
    · split at he
      · rename_i h; exact absurd h.2 (by decide)
      · rw [he]

theorem resetAck_length {d : Nat} {bs : Bytes} (h : Factory.resetAck d none = .ok (some bs)) : bs.length ≤ 400 := by
  have bd := Factory.openOcts_le (Factory.domain_bound d)
  have hb := Factory.is_resetAcknowledgeIEs.short (c := [(Gen.Ranap.resetAcknowledgeIEs.ies[0], .enum d)])
    (by with_unfolding_all rfl) (Res.ok.inj h)
  simp only [Factory.bound, Gen.Ranap.resetAcknowledgeIEs, List.getElem_cons_zero] at hb
  omega

/-- **C102.** The command "ranap reset (cs|ps)" of an emulator with room in its queue sends one message with a RANAP message
in it; whatever state the client is in, and whatever address the RANAP message comes from, it answers it with one RESET
ACKNOWLEDGE for this domain, to this address, and does nothing else; and the emulator survives the answer. -/
theorem C102_acknowledged {hnb : Hnb.Env} (e : Hnb.State) (isPs : Bool) (hq : e.queue.length < 16) :
    ∃ e' m, Hnb.step hnb e (.reset isPs) = .ok e' ∧ e' = { e with queue := e.queue ++ [m] } ∧
      (∃ ranap, Cl m.data ranap) ∧ ∀ ranap, Cl m.data ranap →
      ∀ (env : Iu.Env) (s : Iu.State) (a : Iu.SccpAddr), ∃ bs,
        Answers env s (.unitdataInd a ranap) (.unitdataReq a) bs ∧ Says bs 2 9 [(3, .enum (psOrCs isPs))] ∧
        TakenSilently bs := by
  obtain ⟨e', h1, h2⟩ := C90_reset (env := hnb) e isPs
  unfold Sends at h2
  rw [if_neg (by omega)] at h2
  obtain ⟨m, ⟨-, ranap, h3, h4⟩, rfl⟩ := h2
  refine ⟨_, m, h1, rfl, ⟨ranap, cl_of h4⟩, fun r hr env s a => ?_⟩
  obtain rfl := cl_unique (cl_of h4) hr
  obtain ⟨l, g1, g2⟩ := says_cl h3 (by simp) (m := Gen.Ranap.resetIEs) (by with_unfolding_all rfl) (by with_unfolding_all rfl)
  have k1 : 1 < Gen.Ranap.resetIEs.ies.length := by decide
  have k2 : 2 < Gen.Ranap.resetIEs.ies.length := by decide
  have e3 : elem Gen.Ranap.resetIEs l 3 = some (.enum (psOrCs isPs)) := (g2 _ (List.getElem_mem k1)).trans (by with_unfolding_all rfl)
  have e86 : elem Gen.Ranap.resetIEs l 86 = none := (g2 _ (List.getElem_mem k2)).trans (by with_unfolding_all rfl)
  have hv : ∀ ie ∈ l, Valid Gen.Ranap.resetIEs ie := by
    obtain ⟨crit, m, ⟨value, -, hm, -⟩, hv⟩ := g1
    cases (show some Gen.Ranap.resetIEs = some m from hm)
    exact hv
  have hn : (Gen.Ranap.resetIEs.ies.map (·.id)).Nodup := by decide +kernel
  have h86 : ¬ Has l 86 := fun h => by
    obtain ⟨v, hv⟩ := (elem_has (id := 86) (d := Gen.Ranap.resetIEs.ies[2]) hn (by with_unfolding_all rfl) hv).2 h
    rw [e86] at hv
    cases hv
  have hm : (linked env).decodeCl ranap = some ⟨1, 9, clBody 1 9 l⟩ := by
    rw [decodeCl_iff]
    exact .inl ⟨1, 9, l, g1, rfl⟩
  obtain ⟨bs, hb, hs⟩ := (C52_reset_ack (psOrCs isPs) none).1 ⟨by cases isPs <;> decide, fun r hr => by cases hr⟩
  refine ⟨bs, ⟨.resetAck (psOrCs isPs) none, _, hb, C37_reset_ack ?_ ⟨bs, hb⟩⟩, hs, ?_, fun data hd hnb e hr => ?_⟩
  · rw [hm, clBody, if_pos ⟨rfl, rfl⟩, if_neg h86, e3]; rfl
  · have := resetAck_length hb
    obtain ⟨tr, data, h6, -, h7⟩ := C58_udt bs (by omega)
    exact ⟨tr, data, h6, cl_of h7⟩
  · obtain ⟨l', q1, -⟩ := says_cl hs (by simp [opt]) (m := Gen.Ranap.resetAcknowledgeIEs) (by with_unfolding_all rfl)
      (by with_unfolding_all rfl)
    exact taken_silently hr hd q1 (by decide)

/-- the hypothesis, and the two commands are different -/
example : Hnb.init.queue.length < 16 := by decide
example : psOrCs false ≠ psOrCs true := by decide

end Verif.Props
