import Verif.Proofs.IuDialogue
import Verif.Props.Demo
import Verif.Props.IuRegistry

/-!
# C107, C108: the requests made to SCCP about a connection

All requests follow the rules of connection-oriented SCCP, except after SCCP has ended a connection.  Connections whose first
message is refused are confirmed and never ended.
-/

namespace Verif.Props
open Verif.Iu Verif.Iu.Spec

variable {env : Env}

/-- **C107**, as one would expect it: in every history, whatever the user does, every request about a connection is made when
SCCP allows it: a connection is confirmed exactly when it has been indicated, data are sent on and a disconnect is requested
for confirmed connections that have not ended. -/
def C107_full : Prop :=
  ∀ (env : Env) (ops : List Op) (s : State) (c : ConnId), run env ops init = .ok ((), s) → FreshConns env init ops →
    Phase.idle.Proper (dialogue env c init ops)

def cleared : List Op :=
  [.connectInd 10 (Demo.addr 1) [1], .api (.txReleaseFree 1 none 5000), .disconnectInd 10 []]

/-- It is not so: the context of a connection that SCCP has ended is freed with a disconnect request for that connection, here
by the library itself. -/
theorem C107_violated : ¬ C107_full := by
  intro h
  have hok : Demo.after Demo.env cleared (fun _ => true) = true := by decide +kernel
  have hf : FreshConns Demo.env init cleared := Demo.runOk_fresh (Demo.runOk_sound (by decide +kernel))
  have := h Demo.env cleared _ 10 (Demo.run_stateAfter hok) hf
  exact absurd this (by decide +kernel)

/-- What is said about the connection in this history. -/
example : dialogue Demo.env 10 init cleared = [.connectInd, .connectResp, .dataReq, .disconnectInd, .disconnectReq] := by
  decide +kernel

/-- **C107**, how it fails: a request that is not allowed is data or a disconnect request on a connection that SCCP has ended
and not indicated again.  So there is never a second confirmation, one for a connection not indicated, a request before the
confirmation or one after a disconnect request of one's own. -/
theorem C107_only_after_end {ops : List Op} {s : State} {c : ConnId} (h : run env ops init = .ok ((), s))
    (hf : FreshConns env init ops) {a b : List Say} {x : Say} (hd : dialogue env c init ops = a ++ x :: b)
    (hx : ¬ (Phase.idle.after a).allows x) : Phase.idle.after a = .cleared ∧ (x = .dataReq ∨ x = .disconnectReq) := by
  have := (run_talk h (Inv.init) CInv.init hf (Fit.init (c := c)) (by decide : Phase.idle ≠ .pending)).1
  rw [hd] at this
  exact tolerates_split this hx

/-- **C107** for connections that SCCP does not end: all requests are allowed. -/
theorem C107_partial {ops : List Op} {s : State} {c : ConnId} (h : run env ops init = .ok ((), s)) (hf : FreshConns env init ops)
    (hd : ∀ d, .disconnectInd c d ∉ ops) : Phase.idle.Proper (dialogue env c init ops) := by
  have := (run_talk h (Inv.init) CInv.init hf (Fit.init (c := c)) (by decide : Phase.idle ≠ .pending)).1
  refine proper_of_tolerates (by decide) (fun hm => ?_) this
  obtain ⟨d, hd'⟩ := dialogue_ind hm
  exact hd d hd'

/-- **C107**: no indicated connection is left unconfirmed. -/
theorem C107_confirmed {ops : List Op} {s : State} {c : ConnId} (h : run env ops init = .ok ((), s)) (hf : FreshConns env init ops) :
    Phase.idle.after (dialogue env c init ops) ≠ .pending :=
  (run_talk h (Inv.init) CInv.init hf (Fit.init (c := c)) (by decide : Phase.idle ≠ .pending)).2.2

/-- **C107**: a connection with a context is confirmed and has not been ended by the client; one whose first message is awaited
has not been ended by SCCP either. -/
theorem C107_context {ops : List Op} {s : State} {c : ConnId} (h : run env ops init = .ok ((), s)) (hf : FreshConns env init ops) :
    (HasCtx s c → Phase.idle.after (dialogue env c init ops) = .active ∨ Phase.idle.after (dialogue env c init ops) = .cleared) ∧
    ((∃ e ∈ s.cache, e.1 = c) → Phase.idle.after (dialogue env c init ops) = .active) :=
  have := (run_talk h (Inv.init) CInv.init hf (Fit.init (c := c)) (by decide : Phase.idle ≠ .pending)).2.1
  ⟨this.ctx, this.cached⟩

def talkative : List Op :=
  [.connectInd 10 (Demo.addr 1) [], .connectInd 11 (Demo.addr 1) [1], .dataInd 10 [1], .dataInd 11 [6], .api (.freeUe (some 1)),
   .dataInd 10 [6], .connectInd 11 (Demo.addr 1) [2], .api (.freeUe (some 2))]

/-- A history in which connections are confirmed, used and ended, one of them twice. -/
example : dialogue Demo.env 10 init talkative = [.connectInd, .connectResp, .dataReq, .disconnectReq] ∧
    dialogue Demo.env 11 init talkative = [.connectInd, .connectResp, .dataReq, .disconnectReq, .connectInd, .connectResp] ∧
    (∃ s, run Demo.env talkative init = .ok ((), s)) ∧ FreshConns Demo.env init talkative :=
  ⟨by decide +kernel, by decide +kernel, ⟨_, Demo.run_stateAfter (by decide +kernel)⟩,
    Demo.runOk_fresh (Demo.runOk_sound (by decide +kernel))⟩

/-- **C108**, as one would expect it: a connection that is confirmed and has not ended has a context, or its first message is
awaited. -/
def C108_full : Prop :=
  ∀ (env : Env) (ops : List Op) (s : State) (c : ConnId), run env ops init = .ok ((), s) → FreshConns env init ops →
    Phase.idle.after (dialogue env c init ops) = .active → InUse s c

/-- It is not so: a connection whose first message is refused, here for its location area code 0, is confirmed and left alone. -/
theorem C108_violated : ¬ C108_full := by
  intro h
  have hok : Demo.after Demo.env [.connectInd 10 (Demo.addr 1) [11]] (fun _ => true) = true := by decide +kernel
  have := h Demo.env _ _ 10 (Demo.run_stateAfter hok) (Demo.runOk_fresh (Demo.runOk_sound (by decide +kernel)))
    (by decide +kernel)
  exact absurd this (by decide +kernel)

/-- **C108**, exactly: after an operation a connection is confirmed and left alone iff it was before and SCCP said neither that
it is indicated anew nor that it has ended, or this operation brought its first message and that was refused. -/
theorem C108_exact {ops : List Op} {op : Op} {s s' : State} {rc : Int} {c : ConnId} (h : run env ops init = .ok ((), s))
    (hs : step env op s = .ok (rc, s')) (hf : FreshConns env init (ops ++ [op])) :
    Orphan c (Phase.idle.after (dialogue env c init (ops ++ [op]))) s' ↔
      (Orphan c (Phase.idle.after (dialogue env c init ops)) s ∧ (∀ a d, op ≠ .connectInd c a d) ∧ ∀ d, op ≠ .disconnectInd c d) ∨
      Refused env c s op := by
  obtain ⟨hf1, hf2⟩ := freshConns_append h hf
  have hr := (run_talk h (Inv.init) CInv.init hf1 (Fit.init (c := c)) (by decide : Phase.idle ≠ .pending))
  obtain ⟨d, t1, _, _, t4, _⟩ := step_talk hs (reach_inv h).pinv (run_cinv h CInv.init hf1).cached (hf2.1 c) hr.2.1
  rw [dialogue_append h, dialogue_cons hs t1, after_append]
  simp only [dialogue, List.append_nil]
  rw [t4, heard_nil]

/-- **C108** when no first message is refused. -/
theorem C108_partial {ops : List Op} {s : State} {c : ConnId} (h : run env ops init = .ok ((), s)) (hf : FreshConns env init ops)
    (hr : NoneRefused env c init ops)
    (ha : Phase.idle.after (dialogue env c init ops) = .active) : InUse s c := by
  apply Classical.byContradiction
  intro hn
  exact run_notOrphan h Inv.init CInv.init hf (Fit.init (c := c)) (fun x => by cases x.1) hr ⟨ha, hn⟩

/-- A connection that gets its context with its second message, and another one, ended. -/
example : (∃ s, run Demo.env talkative init = .ok ((), s)) ∧
    NoneRefused Demo.env 11 init talkative ∧ Phase.idle.after (dialogue Demo.env 11 init talkative) = .active :=
  ⟨⟨_, Demo.run_stateAfter (by decide +kernel)⟩, by decide +kernel, by decide +kernel⟩

/-- **C108**: such a connection stays like this, and nothing more is ever said about it, until SCCP ends it or indicates it
anew, whatever the user does. -/
theorem C108_forever {ops more : List Op} {s s' : State} {c : ConnId} (h : run env ops init = .ok ((), s))
    (h' : run env more s = .ok ((), s')) (ho : Orphan c (Phase.idle.after (dialogue env c init ops)) s)
    (hc : ∀ a d, .connectInd c a d ∉ more) (hd : ∀ d, .disconnectInd c d ∉ more) :
    dialogue env c s more = [] ∧ Orphan c (Phase.idle.after (dialogue env c init (ops ++ more))) s' := by
  obtain ⟨h1, h2⟩ := run_quiet h' ho.2 hc hd
  rw [dialogue_append h, h1, List.append_nil]
  exact ⟨rfl, ho.1, h2⟩

/-- The connection of the violation, after a paging, another connection that comes and goes, and data on it. -/
example : Orphan 10 (Phase.idle.after (dialogue Demo.env 10 init [.connectInd 10 (Demo.addr 1) [11]]))
      (Demo.stateAfter Demo.env [.connectInd 10 (Demo.addr 1) [11]]) ∧
    Refused Demo.env 10 init (.connectInd 10 (Demo.addr 1) [11]) ∧
    ∃ s', run Demo.env ([.connectInd 10 (Demo.addr 1) [11]] ++
      [.connectInd 11 (Demo.addr 1) [1], .dataInd 10 [1], .api (.pageCs [0x31] none 5), .api (.freeUe (some 1))]) init = .ok ((), s') ∧
      decide (¬ InUse s' 10) = true :=
  ⟨⟨by decide +kernel, by decide +kernel⟩, by decide +kernel, Demo.after_iff.1 (by decide +kernel)⟩

end Verif.Props
