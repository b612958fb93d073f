import Verif.Props.IuFlow

/-!
# C111: a RESET ends the connections of the RNC that sent it
-/

namespace Verif.Props
open Verif.Iu Verif.Iu.Spec

variable {env : Env}

/-- The RNC that a Global-RNC-ID names (`none` if its PLMN has not three octets). -/
def namedRnc (g : GRncId) : Option RncId :=
  match g.plmn with
  | [q0, q1, q2] => some ⟨⟨mcc q0 q1, rncMnc q1 q2, q1.toNat / 16 ≠ 15⟩, BitVec.ofNat 16 g.rncId⟩
  | _ => none

/-- The context belongs to the RNC with this identity. -/
def OfRnc (s : State) (id : RncId) (u : Ue) : Prop := ∃ r ∈ s.rncs, r.ptr = u.rnc ∧ SameRnc r.rncId id

/-- The user of the client has been told that the context is of no use any more, or it is gone. -/
def Ended (s' : State) (d : List Out) (u : Ue) : Prop :=
  .event (some (u.ptr, u.conn)) .linkInvalidated ∈ d ∨ .event (some (u.ptr, u.conn)) .iuRelease ∈ d ∨ ¬ Live s' u.ptr

/-- **C111 in full.** When an RNC says that it starts afresh, all contexts of this RNC end. -/
def C111_full : Prop :=
  ∀ (env : Env) (ops : List Op) (s s' : State) (a : SccpAddr) (data : Bytes) (dom : Nat) (g : GRncId) (id : RncId) (rc : Int)
    (d : List Out), run env ops init = .ok ((), s) →
    env.decodeCl data = some ⟨PR_initiatingMessage, id_Reset, .reset dom (some g)⟩ → namedRnc g = some id →
    step env (.unitdataInd a data) s = .ok (rc, s') → Happened s s' d →
    ∀ u ∈ s.ues, OfRnc s id u → Ended s' d u

/-- **C111.** What a RESET does, whichever RNC sent it and whatever becomes of the answer: no context is touched, none ends, no
timer is started or stopped, and the user of the client is not told. -/
theorem C111_contexts_stay {s s' : State} {a : SccpAddr} {data : Bytes} {dom : Nat} {g : Option GRncId} {rc : Int} {d : List Out}
    (hm : env.decodeCl data = some ⟨PR_initiatingMessage, id_Reset, .reset dom g⟩)
    (h : step env (.unitdataInd a data) s = .ok (rc, s')) (hd : Happened s s' d) :
    s'.ues = s.ues ∧ s'.rncs = s.rncs ∧ s'.timers = s.timers ∧ s'.cache = s.cache ∧ callbacks d = [] ∧
    ∀ u ∈ s.ues, ¬ Ended s' d u := by
  have key : s'.ues = s.ues ∧ s'.rncs = s.rncs ∧ s'.timers = s.timers ∧ s'.cache = s.cache ∧ callbacks d = [] := by
    unfold step at h
    simp only [hm] at h
    unfold handleCl at h
    rw [if_pos rfl, if_pos rfl] at h
    simp only [bind_eq, handleClReset] at h
    cases hg : env.gen (.resetAck dom g) with
    | fault e => simp [hg, M.lift] at h
    | ok o =>
      cases o with
      | none =>
        simp only [hg, lift_ok_run, pure_run] at h
        cases h
        have : d = [] := by
          have := hd
          unfold Happened at this
          exact List.append_cancel_left (this.symm.trans (List.append_nil _).symm)
        subst this
        exact ⟨rfl, rfl, rfl, rfl, rfl⟩
      | some b =>
        simp only [hg, lift_ok_run, sapDown, emit, get_run, modify_run, pure_run, bind_eq] at h
        cases h
        have : d = _ := (List.append_cancel_left (hd : _ ++ _ = _ ++ d)).symm
        subst this
        exact ⟨rfl, rfl, rfl, rfl, rfl⟩
  obtain ⟨h1, h2, h3, h4, h5⟩ := key
  refine ⟨h1, h2, h3, h4, h5, fun u hu he => ?_⟩
  have no : ∀ e, Out.event (some (u.ptr, u.conn)) e ∉ d := fun e hin => by
    have : Out.event (some (u.ptr, u.conn)) e ∈ callbacks d := List.mem_filter.2 ⟨hin, rfl⟩
    rw [h5] at this
    cases this
  rcases he with he | he | he
  · exact no _ he
  · exact no _ he
  · exact he ⟨u, by rw [h1]; exact hu, rfl⟩

/-- **C111, exactly.** The contexts of an RNC end with its RESET only if there are none. -/
theorem C111_partial {s s' : State} {a : SccpAddr} {data : Bytes} {dom : Nat} {g : GRncId} {id : RncId} {rc : Int}
    {d : List Out} (hm : env.decodeCl data = some ⟨PR_initiatingMessage, id_Reset, .reset dom (some g)⟩)
    (_hn : namedRnc g = some id) (h : step env (.unitdataInd a data) s = .ok (rc, s')) (hd : Happened s s' d) :
    (∀ u ∈ s.ues, OfRnc s id u → Ended s' d u) ↔ ∀ u ∈ s.ues, ¬ OfRnc s id u :=
  ⟨fun hall u hu ho => (C111_contexts_stay hm h hd).2.2.2.2.2 u hu (hall u hu ho), fun hno u hu ho => absurd ho (hno u hu)⟩

/-- **C111**, the other message of that kind: a RESET RESOURCE (procedure 27), which names the connections that end, has no
effect at all; it is not even acknowledged. -/
theorem C111_reset_resource {s s' : State} {a : SccpAddr} {data : Bytes} {m : Msg} {rc : Int}
    (hm : env.decodeCl data = some m) (hp : m.proc = 27) (h : step env (.unitdataInd a data) s = .ok (rc, s')) : s' = s :=
  C37_others_ignored (fun m' hm' hx => by
    cases hm.symm.trans hm'
    exact absurd (hp.symm.trans hx.2) (by decide)) h

/-- An RNC with one context sends a RESET. -/
def resetDemo : List Op := [.connectInd 10 (Demo.addr 1) [1]]

example : Demo.after Demo.env resetDemo (fun s =>
    s.ues.any fun u => s.rncs.any fun r => r.ptr = u.rnc ∧ namedRnc ⟨[0x62, 0xf2, 0x24], 1⟩ = some r.rncId) = true := by
  decide +kernel

/-- **C111 does not hold.** -/
theorem C111_violated : ¬ C111_full := by
  intro hf
  have hr := Demo.run_stateAfter (env := Demo.env) (ops := resetDemo) (by decide +kernel)
  have hm : Demo.env.decodeCl [1] = some ⟨PR_initiatingMessage, id_Reset, .reset 0 (some ⟨[0x62, 0xf2, 0x24], 1⟩)⟩ := by
    decide +kernel
  have hs := C37_reset_ack (env := Demo.env) (s := Demo.stateAfter Demo.env resetDemo) (a := Demo.addr 1) hm ⟨[], rfl⟩
  have ⟨u, hu, r, hrm, hp, hs'⟩ : ∃ u ∈ (Demo.stateAfter Demo.env resetDemo).ues,
      ∃ r ∈ (Demo.stateAfter Demo.env resetDemo).rncs, r.ptr = u.rnc ∧ SameRnc r.rncId ⟨⟨262, 42, false⟩, 1⟩ := by
    decide +kernel
  exact (C111_contexts_stay hm hs rfl).2.2.2.2.2 u hu
    (hf Demo.env resetDemo _ _ (Demo.addr 1) [1] 0 ⟨[0x62, 0xf2, 0x24], 1⟩ ⟨⟨262, 42, false⟩, 1⟩ _ _ hr hm (by decide +kernel) hs rfl
      u hu ⟨r, hrm, hp, hs'⟩)

end Verif.Props
