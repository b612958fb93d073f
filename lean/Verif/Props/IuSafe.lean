import Verif.Proofs.IuLoop
import Verif.Props.IuRegistry

/-!
# C22, C24, C25, C39: connections, memory safety
-/

namespace Verif.Props
open Verif.Iu Verif.Iu.Spec

variable {env : Env}

/-- **C22.** If new connections never get an id that is in use, connection ids of contexts
and of cached requests are pairwise different, in any history, for any user. -/
theorem C22_one_context_per_connection {ops : List Op} {s : State} (h : run env ops init = .ok ((), s))
    (hf : FreshConns env init ops) :
    s.ues.Pairwise (fun a b => a.conn ≠ b.conn) ∧ s.cache.Pairwise (fun a b => a.1 ≠ b.1) ∧
    ∀ u ∈ s.ues, ∀ e ∈ s.cache, u.conn ≠ e.1 := by
  have hi := run_cinv h CInv.init hf
  exact ⟨List.pairwise_map.1 hi.conns, List.pairwise_map.1 hi.cached, hi.disj⟩

/-- The discipline is met by a history with three connections, one with an empty request. -/
example : FreshConns Demo.env init (demoOps ++ [.connectInd 13 (Demo.addr 1) []]) ∧
    ∃ s, run Demo.env (demoOps ++ [.connectInd 13 (Demo.addr 1) []]) init = .ok ((), s) ∧
      (s.ues.length = 3 && s.cache.length = 1) = true :=
  ⟨Demo.runOk_fresh (Demo.runOk_sound (by decide +kernel)), Demo.after_iff.1 (by decide +kernel)⟩

/-- The discipline is needed: an id reused while its context lives gives two contexts. -/
example : ∃ s, run Demo.env [.connectInd 10 (Demo.addr 1) [1], .connectInd 10 (Demo.addr 1) [1]] init = .ok ((), s) ∧
    decide (s.ues.map (·.conn) = [10, 10]) = true := Demo.after_iff.1 (by decide +kernel)

/-- **C24.** If callbacks and API callers pass only live contexts and generable messages, a
LINK_INVALIDATED handler frees at most its own context, and SCCP does not reuse connection
ids, then an execution fails only because of what a received message contains.  (What
callbacks do when called for a dead context is not restricted, so they never are.) -/
theorem C24_only_hazards {ops : List Op} {e : Fault} (hc : CallbacksOk env) (hl : LinkOk env)
    (hr : RunOk env init ops) (h : run env ops init = .fault e) :
    ∃ op ∈ ops, ∃ m, opMsg env op = some m ∧ Hazard env m e := by
  have := run_safe hc hl Inv.init CInv.init hr
  unfold wp at this
  rw [h] at this
  exact this

/-- **C24.** In particular there is no use of a freed context, no endless loop over the list
of contexts, and no access to a NULL message unless the peer asked for a release with a
cause for which no Iu Release Command can be generated. -/
theorem C24_no_use_after_free {ops : List Op} {e : Fault} (hc : CallbacksOk env) (hl : LinkOk env)
    (hr : RunOk env init ops) (hg : ∀ m, ∃ o, env.gen m = .ok o) (h : run env ops init = .fault e) :
    e ≠ .useAfterFree ∧ e ≠ .diverge ∧
    (e = .nullDeref → ∃ op ∈ ops, ∃ m c, opMsg env op = some m ∧ m.body = .iuReleaseReq c ∧
      env.gen (.iuRelCmd c) = .ok none) := by
  obtain ⟨op, hop, m, hm, hz⟩ := C24_only_hazards hc hl hr h
  have hgf : ∀ m e, env.gen m ≠ .fault e := by
    intro m e hh
    obtain ⟨o, ho⟩ := hg m
    rw [ho] at hh; cases hh
  cases hz with
  | cause c h1 h2 => exact ⟨by decide, by decide, fun _ => ⟨op, hop, m, c, hm, h1, h2⟩⟩
  | causeFault c _ _ h => exact absurd h (hgf _ _)
  | reset _ _ _ _ h => exact absurd h (hgf _ _)
  | _ => exact ⟨by decide, by decide, fun h => by cases h⟩

/-- A user that frees its context when the link is lost, and answers uplink messages. -/
def wellBehaved : Env := { Demo.env with
  cb := fun _ o => match o with
    | .event (some (p, _)) .linkInvalidated => .call (.freeUe (some p)) fun _ => .done
    | .recv p _ nas _ _ => .call (.tx (some p) nas 0) fun _ => .done
    | _ => .done }

theorem wellBehaved_ok : CallbacksOk wellBehaved ∧ LinkOk wellBehaved := by
  refine ⟨?_, ?_⟩
  · intro s o hg
    cases o with
    | sap => trivial
    | recv p c nas ra sai =>
      refine ⟨⟨?_, ?_⟩, fun _ _ _ => trivial⟩
      · intro q hq; simp [args] at hq; subst hq; exact LiveConn.live hg
      · intro m hm; cases hm; exact ⟨[], rfl⟩
    | event ue e =>
      cases ue with
      | none => trivial
      | some x =>
        cases e with
        | linkInvalidated =>
          refine ⟨⟨?_, ?_⟩, fun _ _ _ => trivial⟩
          · intro q hq; simp [args] at hq; subst hq; exact LiveConn.live hg
          · intro m hm; cases hm
        | _ => trivial
  · intro s p c
    exact ⟨fun q h => by cases h; rfl, fun _ => trivial⟩

/-- The hypotheses of C24 hold of a history in which two contexts are invalidated together
and the peer then sends a poisonous message, which is what fails. -/
example : CallbacksOk wellBehaved ∧ LinkOk wellBehaved ∧
    RunOk wellBehaved init [.connectInd 10 (Demo.addr 1) [1], .connectInd 11 (Demo.addr 1) [3],
      .pcstateInd 1 .inaccessible .available, .connectInd 12 (Demo.addr 1) [8]] ∧
    run wellBehaved [.connectInd 10 (Demo.addr 1) [1], .connectInd 11 (Demo.addr 1) [3],
      .pcstateInd 1 .inaccessible .available, .connectInd 12 (Demo.addr 1) [8]] init = .fault .abort := by
  exact ⟨wellBehaved_ok.1, wellBehaved_ok.2, Demo.runOk_sound (by decide +kernel), by decide +kernel⟩

/-- **C25, full statement**: as `C25_own_context_partial`, but the handler of LINK_INVALIDATED may free any live context. -/
def C25_full : Prop :=
  ∀ (env : Env) (ops : List Op) (s : State) (op : Op), CallbacksOk env → RunOk env init ops → run env ops init = .ok ((), s) →
    ((∃ a c, op = .noticeInd a c) ∨ ∃ pc sp rem, op = .pcstateInd pc sp rem) → ∃ rc s', step env op s = .ok (rc, s')

/-- A user for whom the contexts 1 and 2 belong to one subscriber: when one of them loses its link, the other one is freed
if it still exists. -/
def sibling (p : Ptr) : Ptr := if p = 1 then 2 else 1

@[inherit_doc sibling]
def siblingFreeing : Env := { Demo.env with
  cb := fun s o => match o with
    | .event (some (p, _)) .linkInvalidated =>
      if s.ues.any (·.ptr == sibling p) then .call (.freeUe (some (sibling p))) fun _ => .done else .done
    | _ => .done }

/-- **C25 does not hold.** Two contexts of one RNC; the handler called for the first frees
the second, which is live; the loop then continues with the freed one. -/
theorem C25_sibling_freed :
    run siblingFreeing [.connectInd 10 (Demo.addr 1) [1], .connectInd 11 (Demo.addr 1) [3],
      .pcstateInd 1 .inaccessible .available] init = .fault .useAfterFree := by decide +kernel

theorem siblingFreeing_ok : CallbacksOk siblingFreeing := by
  intro s o _
  unfold siblingFreeing
  dsimp only
  split
  · split
    · rename_i h
      obtain ⟨u, hu, hq⟩ := List.any_eq_true.1 h
      refine ⟨⟨fun q h => ?_, fun m hm => by cases hm⟩, fun _ _ _ => trivial⟩
      simp [args] at h
      subst h
      exact ⟨u, hu, by simpa using hq⟩
    · trivial
  · trivial

theorem C25_violated : ¬ C25_full := by
  intro h
  have h0 := Demo.run_stateAfter (env := siblingFreeing) (ops := [.connectInd 10 (Demo.addr 1) [1], .connectInd 11 (Demo.addr 1) [3]])
    (by decide +kernel)
  obtain ⟨rc, s', h1⟩ := h siblingFreeing _ _ (.pcstateInd 1 .inaccessible .available) siblingFreeing_ok
    (Demo.runOk_sound (by decide +kernel)) h0 (.inr ⟨_, _, _, rfl⟩)
  have h2 : step siblingFreeing (.pcstateInd 1 .inaccessible .available)
      (Demo.stateAfter siblingFreeing [.connectInd 10 (Demo.addr 1) [1], .connectInd 11 (Demo.addr 1) [3]]) =
      .fault .useAfterFree := by decide +kernel
  rw [h2] at h1
  cases h1

/-- What holds instead (**C25, partial**): a handler that frees nothing but its own context
never breaks the loops over contexts, whatever else it does with live contexts. -/
theorem C25_own_context_partial {ops : List Op} {s : State} {op : Op} (hc : CallbacksOk env) (hl : LinkOk env)
    (hr : RunOk env init ops) (h : run env ops init = .ok ((), s))
    (hop : (∃ a c, op = .noticeInd a c) ∨ ∃ pc sp rem, op = .pcstateInd pc sp rem) :
    ∃ rc s', step env op s = .ok (rc, s') := by
  have hf : FreshConns env init ops := Demo.runOk_fresh hr
  have hs := sf_step hc hl (op := op) (reach_inv h) (run_cinv h CInv.init hf)
    (by rcases hop with ⟨a, c, rfl⟩ | ⟨pc, sp, rem, rfl⟩ <;> trivial)
  unfold wp at hs
  cases hst : step env op s with
  | ok x => exact ⟨x.1, x.2, rfl⟩
  | fault e =>
    rw [hst] at hs
    obtain ⟨m, hm, _⟩ := hs
    rcases hop with ⟨a, c, rfl⟩ | ⟨pc, sp, rem, rfl⟩ <;> cases hm

/-- The hypotheses are met with two contexts in the list; both are then gone. -/
example : RunOk wellBehaved init [.connectInd 10 (Demo.addr 1) [1], .connectInd 11 (Demo.addr 1) [3]] ∧
    (∃ s, run wellBehaved [.connectInd 10 (Demo.addr 1) [1], .connectInd 11 (Demo.addr 1) [3]] init = .ok ((), s) ∧
      decide (s.ues.length = 2) = true) ∧
    ∃ s, run wellBehaved [.connectInd 10 (Demo.addr 1) [1], .connectInd 11 (Demo.addr 1) [3],
      .pcstateInd 1 .inaccessible .available] init = .ok ((), s) ∧ decide (s.ues = []) = true :=
  ⟨Demo.runOk_sound (by decide +kernel), Demo.after_iff.1 (by decide +kernel), Demo.after_iff.1 (by decide +kernel)⟩

/-- **C39, full statement**: in every state that proper use can lead to, every primitive is handled without a failure. -/
def C39_full : Prop :=
  ∀ (env : Env) (ops : List Op) (s : State) (op : Op), CallbacksOk env → LinkOk env → RunOk env init ops →
    run env ops init = .ok ((), s) → OpOk env s op → ∃ rc s', step env op s = .ok (rc, s')

/-- **C39 does not hold.** Four messages that make the process abort or read out of bounds:
NAS PDU longer than 256 octets, Initial UE Message with an empty SAC, RAB Assignment Response
with an empty list, Iu Release Request whose cause is missing. -/
theorem C39_four_messages :
    run Demo.env [.connectInd 10 (Demo.addr 1) [8]] init = .fault .abort ∧
    run Demo.env [.connectInd 10 (Demo.addr 1) [9]] init = .fault .abort ∧
    run Demo.env [.connectInd 10 (Demo.addr 1) [1], .dataInd 10 [7]] init = .fault .oobRead ∧
    run Demo.env [.connectInd 10 (Demo.addr 1) [1], .dataInd 10 [10]] init = .fault .nullDeref := by
  decide +kernel

theorem C39_violated : ¬ C39_full := by
  intro h
  obtain ⟨rc, s', h1⟩ := h Demo.env [] init (.connectInd 10 (Demo.addr 1) [8]) (fun _ _ _ => trivial) (fun _ _ _ => trivial)
    trivial rfl (by rintro (⟨u, hu, -⟩ | ⟨e, he, -⟩) <;> simp [init] at *)
  have h2 : step Demo.env (.connectInd 10 (Demo.addr 1) [8]) init = .fault .abort := by decide +kernel
  rw [h2] at h1
  cases h1

/-- **C39, partial.** A primitive whose message has none of the hazardous contents is
handled without a failure, in any state a well behaved user can reach. -/
theorem C39_no_crash_partial {ops : List Op} {s : State} {op : Op} (hc : CallbacksOk env) (hl : LinkOk env)
    (hr : RunOk env init ops) (h : run env ops init = .ok ((), s)) (ho : OpOk env s op)
    (hz : ∀ m e, opMsg env op = some m → ¬ Hazard env m e) :
    ∃ rc s', step env op s = .ok (rc, s') := by
  have hs := sf_step hc hl (op := op) (reach_inv h) (run_cinv h CInv.init (Demo.runOk_fresh hr)) ho
  unfold wp at hs
  cases hst : step env op s with
  | ok x => exact ⟨x.1, x.2, rfl⟩
  | fault e =>
    rw [hst] at hs
    obtain ⟨m, hm, h⟩ := hs
    exact absurd h (hz m e hm)

/-- A message without hazards. -/
example : opMsg Demo.env (.dataInd 10 [4]) ≠ none ∧
    ∀ m e, opMsg Demo.env (.dataInd 10 [4]) = some m → ¬ Hazard Demo.env m e := by
  refine ⟨by decide +kernel, ?_⟩
  intro m e hm hz
  have : m = ⟨PR_initiatingMessage, id_DirectTransfer,
    .directTransfer ⟨[0xcc], some ([0x62, 0xf2, 0x24], [0x00, 0x05]), some [9], some [0x00, 0x01]⟩⟩ := by
    have h2 : opMsg Demo.env (.dataInd 10 [4]) = some ⟨PR_initiatingMessage, id_DirectTransfer,
      .directTransfer ⟨[0xcc], some ([0x62, 0xf2, 0x24], [0x00, 0x05]), some [9], some [0x00, 0x01]⟩⟩ := by
      decide +kernel
    rw [h2] at hm; cases hm; rfl
  subst this
  cases hz with
  | nasDt ies h1 h2 => cases h1; simp at h2
  | sacDt ies b h1 h2 h3 => cases h1; cases h2; simp at h3
  | racDt ies h1 h2 => cases h1; cases h2
  | nasInitial ies h1 => cases h1
  | sacInitial ies h1 => cases h1
  | racInitial ies h1 => cases h1
  | rab h1 => cases h1
  | cause c h1 => cases h1
  | causeFault c _ h1 => cases h1
  | reset _ _ _ h1 => cases h1
  | union h =>
    rcases h with ⟨_, h, _⟩ | ⟨_, _, h⟩ | ⟨_, h, _⟩ | ⟨_, h, _⟩ | ⟨_, h, _⟩ | ⟨h, _⟩
    · revert h; decide
    · exact h ⟨_, rfl⟩
    · revert h; decide
    · revert h; decide
    · revert h; decide
    · revert h; decide

end Verif.Props
