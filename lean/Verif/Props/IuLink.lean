import Verif.Proofs.IuLink
import Verif.Proofs.IuFrame
import Verif.Proofs.IuKeep
import Verif.Props.IuRelease

/-!
# C35, C36, C41: loss of a remote node; connections do not interfere
-/

namespace Verif.Props
open Verif.Iu Verif.Iu.Spec

variable {env : Env}

/-- The context belongs to an RNC whose SCCP address satisfies a test. -/
def Affected (hit : SccpAddr → Prop) (s : State) (u : Ue) : Prop := ∃ r ∈ s.rncs, r.ptr = u.rnc ∧ hit r.addr

/-- "From `s` to `s'`, the links of exactly those contexts were lost whose RNC's address satisfies
the test": the user is told LINK_INVALIDATED once per such context (if its events are on), RNC by RNC,
and gets no other callback; those marked free-on-release are freed; all other contexts and
their timers, all RNCs and all cached connection requests stay; primitives only concern
connections of the affected contexts. -/
structure LinksLost (env : Env) (hit : SccpAddr → Prop) [DecidablePred hit] (s s' : State) (d : List Out) : Prop where
  told : callbacks d = (s.rncs.filter (fun r => hit r.addr)).flatMap fun r => (s.ues.filter (·.rnc = r.ptr)).flatMap (dueLinkEvent env)
  freed : ∀ u ∈ s'.ues, Affected hit s u → u.freeOnRelease = false
  kept : ∀ u ∈ s.ues, ¬ Affected hit s u → u ∈ s'.ues
  noNew : s'.ues.Sublist s.ues
  onlyMarked : Inert env → ∀ u ∈ s.ues, u.freeOnRelease = false → u ∈ s'.ues
  timers : ∀ u ∈ s.ues, ¬ Affected hit s u → ∀ x, (u.ptr, x) ∈ s'.timers ↔ (u.ptr, x) ∈ s.timers
  rncs : s'.rncs = s.rncs
  cache : s'.cache = s.cache
  prims : ∀ o ∈ d, ∀ c, outConn o = some c → ∃ u ∈ s.ues, Affected hit s u ∧ u.conn = c

theorem links_lost {hit : SccpAddr → Prop} [DecidablePred hit] {test : SccpAddr → Bool} (ht : ∀ a, test a = true ↔ hit a)
    {ops : List Op} {s s' : State} {d : List Out}
    (hc : OwnCallbacks env) (h0 : run env ops init = .ok ((), s)) (hf : FreshConns env init ops)
    (h : rncLoop env test s.rncs s = .ok ((), s')) (hd : Happened s s' d) : LinksLost env hit s s' d := by
  have hi := reach_inv h0
  have hci := run_cinv h0 CInv.init hf
  have htest : (fun r : Rnc => test r.addr) = fun r => decide (hit r.addr) := by
    funext r
    rw [Bool.eq_iff_iff, ht, decide_eq_true_eq]
  have he := wp_ok (ow_rncLoop hc test s.rncs s hi.ueNodup hci.conns hi.reg.nodup) h
  have hr : ∀ u : Ue, u.rnc ∈ (s.rncs.filter fun r => test r.addr).map (·.ptr) ↔ Affected hit s u := by
    intro u
    rw [List.mem_map]
    constructor
    · rintro ⟨r, hr, hp⟩
      exact ⟨r, (List.mem_filter.1 hr).1, hp, (ht _).1 (List.mem_filter.1 hr).2⟩
    · rintro ⟨r, hr, hp, hh⟩
      exact ⟨r, List.mem_filter.2 ⟨hr, (ht _).2 hh⟩, hp⟩
  obtain ⟨d', hd', hcb, hout⟩ := he.trace
  have : d = d' := List.append_cancel_left (hd.symm.trans hd')
  subst this
  refine ⟨?_, fun u hu ha => he.gone u hu ((hr u).2 ha), fun u hu ha => he.others u hu fun h => ha ((hr u).1 h), he.sub,
    fun hin => (keep_rncLoop hin _ _ hi.ueNodup h).keep, ?_, he.rncs, he.cache, ?_⟩
  · rw [hcb, htest, List.flatMap_map]
    rfl
  · intro u hu ha x
    refine he.timers (u.ptr, x) ?_
    intro v hv hvr hvp
    rw [ue_inj hi.ueNodup hv hu hvp] at hvr
    exact ha ((hr u).1 hvr)
  · intro o ho c hoc
    obtain ⟨u, hu, hur, huc⟩ := hout o ho c hoc
    exact ⟨u, hu, (hr u).1 hur, huc⟩

/-- The address has this point code and the subsystem number of RANAP. -/
def AtPc (pc : BitVec 32) (a : SccpAddr) : Prop := a.pc = some pc ∧ a.ssn = some SSN_RANAP
instance (pc : BitVec 32) : DecidablePred (AtPc pc) := fun _ => inferInstanceAs (Decidable (_ ∧ _))

/-- One of the two indications says the node is not reachable. -/
def Unreachable (sp : SpStatus) (rem : RemStatus) : Prop :=
  sp = .inaccessible ∨ rem = .unavailableUnknown ∨ rem = .unequipped ∨ rem = .inaccessible

theorem pcDecision_iff (sp : SpStatus) (rem : RemStatus) : (pcDecision sp rem).2 = true ↔ Unreachable sp rem := by
  unfold Unreachable
  cases sp <;> cases rem <;> simp [pcDecision]

/-- **C35.** N-PCSTATE.ind: the links of exactly the contexts at that point code are lost if the
node is said to be unreachable; otherwise nothing at all happens. -/
theorem C35_pcstate {ops : List Op} {s s' : State} {rc : Int} {d : List Out} {pc : BitVec 32} {sp : SpStatus} {rem : RemStatus}
    (hc : OwnCallbacks env) (h0 : run env ops init = .ok ((), s)) (hf : FreshConns env init ops)
    (h : step env (.pcstateInd pc sp rem) s = .ok (rc, s')) (hd : Happened s s' d) :
    (Unreachable sp rem → LinksLost env (AtPc pc) s s' d) ∧ (¬ Unreachable sp rem → s' = s) := by
  have h : (do handlePcstate env pc sp rem; pure (-1) : M Int) s = .ok (rc, s') := h
  obtain ⟨_, s1, h1, h2⟩ := bind_ok.1 h
  cases h2
  unfold handlePcstate at h1
  constructor
  · intro hu
    rw [if_pos ((pcDecision_iff sp rem).2 hu)] at h1
    simp only [bind_eq, get_run] at h1
    refine links_lost ?_ hc h0 hf h1 hd
    intro a
    simp only [SccpAddr.samePcSsn, makeAddrPcSsn, AtPc, Bool.and_eq_true]
    exact and_congr decide_eq_true_iff decide_eq_true_iff
  · intro hu
    rw [if_neg (fun h => hu ((pcDecision_iff sp rem).1 h))] at h1
    cases h1
    rfl

/-- **C36.** N-NOTICE.ind: nothing happens if the cause is congestion (of the subsystem, 2, or of the network, 6);
otherwise the links of exactly the contexts are lost whose RNC's address equals the
calling address. -/
theorem C36_notice {ops : List Op} {s s' : State} {rc : Int} {d : List Out} {calling : SccpAddr} {cause : Nat}
    (hc : OwnCallbacks env) (h0 : run env ops init = .ok ((), s)) (hf : FreshConns env init ops)
    (h : step env (.noticeInd calling cause) s = .ok (rc, s')) (hd : Happened s s' d) :
    (cause ≠ 2 ∧ cause ≠ 6 → LinksLost env (fun a => env.riEq a calling = true) s s' d) ∧
    (cause = 2 ∨ cause = 6 → s' = s) := by
  have h : (do handleNotice env calling cause; pure (-1) : M Int) s = .ok (rc, s') := h
  obtain ⟨_, s1, h1, h2⟩ := bind_ok.1 h
  cases h2
  unfold handleNotice at h1
  constructor
  · rintro ⟨h2, h5⟩
    rw [if_neg (fun h => h.elim h2 h5)] at h1
    simp only [bind_eq, get_run] at h1
    exact links_lost (fun a => .rfl) hc h0 hf h1 hd
  · intro hu
    rw [if_pos (show cause = RETURN_CAUSE_SUBSYSTEM_CONGESTION ∨ cause = RETURN_CAUSE_NETWORK_CONGESTION from hu)] at h1
    cases h1
    rfl

/-- Three contexts at two RNCs, one of them marked: the first RNC is lost. -/
example : OwnCallbacks Demo.env ∧
    FreshConns Demo.env init [.connectInd 10 (Demo.addr 1) [1], .connectInd 11 (Demo.addr 1) [3], .connectInd 12 (Demo.addr 2) [14],
      .api (.txReleaseFree 1 none 10)] ∧
    Unreachable .accessible .unequipped ∧
    (∃ s, run Demo.env [.connectInd 10 (Demo.addr 1) [1], .connectInd 11 (Demo.addr 1) [3], .connectInd 12 (Demo.addr 2) [14],
        .api (.txReleaseFree 1 none 10)] init = .ok ((), s) ∧
      decide (s.ues.map (fun u => (u.conn, u.rnc)) = [(12, 3), (11, 0), (10, 0)] ∧
        s.rncs.map (fun r => (r.ptr, r.addr.pc)) = [(3, some 2), (0, some 1)] ∧ s.timers.length = 1) = true) ∧
    (∃ s, run Demo.env [.connectInd 10 (Demo.addr 1) [1], .connectInd 11 (Demo.addr 1) [3], .connectInd 12 (Demo.addr 2) [14],
        .api (.txReleaseFree 1 none 10), .pcstateInd 1 .accessible .unequipped] init = .ok ((), s) ∧
      decide (s.ues.map (fun u => (u.conn, u.rnc)) = [(12, 3), (11, 0)] ∧ s.timers = [] ∧
        s.trace.drop 10 = [.event (some (2, 11)) .linkInvalidated, .sap (.disconnectReq 10) 0]) = true) ∧
    (∃ s, run Demo.env [.connectInd 10 (Demo.addr 1) [1], .connectInd 11 (Demo.addr 1) [3], .connectInd 12 (Demo.addr 2) [14],
        .api (.txReleaseFree 1 none 10), .noticeInd (Demo.addr 2) 1] init = .ok ((), s) ∧
      decide (s.ues.map (fun u => (u.conn, u.rnc)) = [(12, 3), (11, 0), (10, 0)] ∧
        s.trace.drop 10 = [.event (some (4, 12)) .linkInvalidated]) = true) :=
  ⟨fun _ _ => trivial, Demo.runOk_fresh (Demo.runOk_sound (by decide +kernel)), .inr (.inr (.inl rfl)),
    Demo.after_iff.1 (by decide +kernel), Demo.after_iff.1 (by decide +kernel), Demo.after_iff.1 (by decide +kernel)⟩

/-- **C41.** A primitive on one connection, with callbacks that act only on the context they are
given: the contexts of all other connections are the same, in the same order, likewise their
cached requests; their timers are the same; and every primitive and callback is about this connection
(or about none: NEW_AREA). -/
theorem C41_no_interference {ops : List Op} {s s' : State} {rc : Int} {op : Op} {c : ConnId} {d : List Out}
    (hc : OwnCallbacks env) (h0 : run env ops init = .ok ((), s)) (ho : opConn op = some c)
    (h : step env op s = .ok (rc, s')) (hd : Happened s s' d) :
    s'.ues.filter (fun u => u.conn ≠ c) = s.ues.filter (fun u => u.conn ≠ c) ∧
    s'.cache.filter (fun e => e.1 ≠ c) = s.cache.filter (fun e => e.1 ≠ c) ∧
    (∀ u ∈ s.ues, u.conn ≠ c → ∀ x, (u.ptr, x) ∈ s'.timers ↔ (u.ptr, x) ∈ s.timers) ∧
    ∀ o ∈ d, ∀ c', outConn o = some c' → c' = c := by
  obtain ⟨h1, h2, h3, d', hd', h4⟩ := step_frame hc (reach_inv h0) h ho
  have : d = d' := List.append_cancel_left (hd.symm.trans hd')
  subst this
  exact ⟨h1, h2, h3, h4⟩

/-- Three connections, one waiting for its first message; a disconnection with a message on one of them. -/
example : ∃ s, run Demo.env [.connectInd 10 (Demo.addr 1) [1], .connectInd 11 (Demo.addr 1) [3], .connectInd 12 (Demo.addr 2) [],
      .api (.txReleaseFree 1 none 10), .api (.txReleaseFree 2 none 7), .disconnectInd 10 [4]] init = .ok ((), s) ∧
    decide (s.ues.map (fun u => u.conn) = [11] ∧ s.timers = [(2, 7)] ∧ s.cache.map (·.1) = [12] ∧
      s.trace.length = 11) = true := Demo.after_iff.1 (by decide +kernel)

end Verif.Props
