import Verif.Props.Linked

/-!
# C91: from the octets of an outcome to the event
-/

namespace Verif.Props
open Verif.Aper Verif.Ie Verif.Ie.Spec Verif.Rx Verif.Rx.Spec Verif.Gen.Ranap
open Verif.Iu Verif.Iu.Spec Verif.Linked Verif.Linked.Spec

variable {env : Env}

/-- The labels of an event for a context. -/
theorem ev_cbs {s s' : State} {u : Ue} {e : Event} {ls : List Lbl} (hi : Inv s) (hu : u ∈ s.ues)
    (h : EvShape env s u.ptr e ls s') :
    cbsOf ls = if env.hasEventCb = true ∧ u.notification = true then [.event (some (u.ptr, u.conn)) e] else [] := by
  rcases h with ⟨h, rfl, -⟩ | ⟨w, hw, ⟨h1, h2, as, rfl, has⟩ | ⟨h1, h2, rfl, -⟩⟩
  · rw [if_neg (by simp [h])]; rfl
  · obtain ⟨e1, e2⟩ := find_live hw
    obtain rfl := ue_inj hi.ueNodup e1 hu e2
    rw [if_pos ⟨h1, h2⟩, show (Lbl.cb (.event (some (w.ptr, w.conn)) e) :: as) = [Lbl.cb (.event (some (w.ptr, w.conn)) e)] ++ as from rfl,
      cbsOf_append, ApiLbls.cbsOf has]
    rfl
  · obtain ⟨e1, e2⟩ := find_live hw
    obtain rfl := ue_inj hi.ueNodup e1 hu e2
    rw [if_neg (by simp [h2])]; rfl

/-- **C91.** The octets of a connection oriented message on the connection of a context (but for Direct Transfers, see C74, and
those which kill the process, see C72): the user is told, for this context, what the outcome in it is about, if events
are on; they are told nothing else. -/
theorem C91_events {ops : List Op} {s : State} {u : Ue} {data : Bytes} {direction code : Nat} {l : List Ie}
    (hc : CallbacksOk (linked env)) (hl : LinkOk (linked env)) (hr : RunOk (linked env) init ops)
    (h0 : run (linked env) ops init = .ok ((), s)) (hu : u ∈ s.ues) (h : CoMsg data direction code l)
    (hk : ¬ Kills s (.dataInd u.conn data)) (hn : ¬ (direction = 1 ∧ code = 20)) :
    ∃ s' d, step (linked env) (.dataInd u.conn data) s = .ok (0, s') ∧ Happened s s' d ∧
      callbacks d = if env.hasEventCb = true ∧ u.notification = true
        then (eventOf direction code l).toList.map (.event (some (u.ptr, u.conn))) else [] := by
  rw [← C72_exactly_these_kill (op := .dataInd u.conn data) hc hl hr h0 trivial] at hk
  cases hs : step (linked env) (.dataInd u.conn data) s with
  | fault e => exact absurd ⟨e, hs⟩ hk
  | ok x =>
    obtain ⟨rc, s'⟩ := x
    obtain ⟨d, hd⟩ := step_happened hs
    have hi := reach_inv h0
    have hci := run_cinv h0 CInv.init (Demo.runOk_fresh hr)
    have hm : (linked env).decodeCo data = some ⟨direction, code, coBody direction code l⟩ := decodeCo_iff.2 ⟨_, _, _, h, rfl⟩
    obtain ⟨ls, hp, h'⟩ := wp_ok (pl_dataInd u.conn data s) hs
    have hx : HasCtx s u.conn := ⟨u, hu, rfl⟩
    obtain ⟨d', hd', _, hcbs⟩ := hp.delta
    obtain rfl : d = d' := List.append_cancel_left (hd.symm.trans hd')
    rcases h' with ⟨v, hv, h'⟩ | ⟨hnone, _⟩ | ⟨addr, ls', hnone, _⟩
    · obtain ⟨hv1, hv2⟩ := ctxFind_some hv
      obtain rfl := conn_inj hci.conns hv1 hu hv2
      rcases h' with ⟨hno, _⟩ | ⟨m, hm', rfl, h'⟩
      · rw [hm] at hno; cases hno
      · rw [hm] at hm'
        cases hm'
        refine ⟨s', d, rfl, hd, ?_⟩
        have hev : (linked env).hasEventCb = env.hasEventCb := rfl
        rw [hcbs]
        rcases h' with ⟨e1, e2, -⟩ | ⟨e1, e2, c, w, rc, -, -, rfl, -⟩ | ⟨e1, e2, e3⟩ | ⟨e1, e2, e3⟩ | ⟨e1, e2, it, r, e3, e4⟩ | ⟨rfl, -, -, -, e3, e4, e5⟩
        · exact absurd ⟨e1, e2⟩ hn
        · obtain rfl : direction = 1 := e1
          obtain rfl : code = 11 := e2
          simp [eventOf, cbsOf]
        · rw [ev_cbs hi hu e3, hev]
          obtain rfl : direction = 2 := e1
          obtain rfl : code = 6 := e2
          rfl
        · rw [ev_cbs hi hu e3, hev]
          obtain rfl : direction = 2 := e1
          obtain rfl : code = 1 := e2
          rfl
        · rw [ev_cbs hi hu e4, hev]
          obtain rfl : direction = 4 := e1
          obtain rfl : code = 0 := e2
          have : rabsOf (elem rAB_AssignmentResponseIEs l 52) = some it :: r := by
            have e3 : Body.rabAssResp _ = Body.rabAssResp _ := e3
            simp only [Body.rabAssResp.injEq] at e3
            split at e3
            · exact Option.some.inj e3
            · cases e3
          simp [eventOf, this]
        · have : eventOf direction code l = none := by
            have e3 : ¬ (direction = 2 ∧ code = 6) := e3
            have e4 : ¬ (direction = 2 ∧ code = 1) := e4
            unfold eventOf
            rw [if_neg e3, if_neg e4]
            split
            · rename_i hd
              split
              · rename_i rab r hrab
                exfalso
                apply e5
                refine ⟨hd.1, hd.2, rab, r, ?_⟩
                obtain ⟨rfl, rfl⟩ := hd
                have hh : Has l 52 := Classical.byContradiction fun hh => by rw [elem_none hh] at hrab; cases hrab
                show Body.rabAssResp _ = _
                rw [if_pos hh, hrab]
              · rfl
            · rfl
          rw [this]
          simp [cbsOf]
    · exact absurd hx (ctxFind_none.1 hnone)
    · exact absurd hx (ctxFind_none.1 hnone)

theorem rabResponse_mem : rAB_AssignmentResponseIEs ∈ tables := by
  unfold tables
  simp only [List.mem_append]
  refine Or.inl (Or.inl (Or.inl ?_))
  unfold Gen.Ranap.all
  repeat (first | exact List.mem_cons_self | apply List.mem_cons_of_mem)

/-- The hypotheses of C91: a RAB Assignment Response with the RAB 5 on the connection of a context. -/
example : ∃ s u data l, run (linked Demo.env) [.connectInd 10 (Demo.addr 1) initialOctets] init = .ok ((), s) ∧ u ∈ s.ues ∧
    CoMsg data 4 0 l ∧ ¬ Kills s (.dataInd u.conn data) ∧ eventOf 4 0 l = some (.rabAssign [0x00, 0x28]) := by
  obtain ⟨s, h0, ⟨u, hu, -⟩, -⟩ := demo_ctx
  have hv : eventOf 4 0 [⟨52, 1, [0x00, 0x00, 0x01, 0x00, 0x33, 0x40, 0x02, 0x00, 0x28]⟩] = some (.rabAssign [0x00, 0x28]) := by
    with_unfolding_all rfl
  have h : CoMsg _ 4 0 [⟨52, 1, [0x00, 0x00, 0x01, 0x00, 0x33, 0x40, 0x02, 0x00, 0x28]⟩] :=
    coMsg_octets (crit := 1) (by decide) (by decide) (by decide) rabResponse_mem (by decide) (by decide +kernel)
      (by with_unfolding_all rfl) (validB_sound (by decide +kernel))
  refine ⟨s, u, _, _, h0, hu, h, ?_, hv⟩
  rintro ⟨p, c, l, h', ⟨-, hf⟩ | ⟨hf, -⟩⟩
  · obtain ⟨rfl, rfl, rfl⟩ := coMsg_unique h h'
    rcases hf with ⟨hf, -⟩ | ⟨hf, -⟩ | ⟨-, -, -, hf⟩
    · cases hf
    · cases hf
    · unfold eventOf at hv
      rw [hf] at hv
      cases hv
  · exact hf ⟨u, hu, rfl⟩

end Verif.Props
