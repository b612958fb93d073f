import Verif.Model.IuInit
import Verif.Proofs.IuEff
import Verif.Props.Demo

/-!
# C100: `ranap_iu_init` tells its caller whether the client can be used
-/

namespace Verif.Props
open Verif.Iu Verif.IuInit

/-- Nobody uses the RANAP subsystem number of the instance. -/
def SsnFree (insts : List Sccp) (i : Nat) : Prop := ∃ x, insts[i]? = some x ∧ SSN_RANAP ∉ x.users

/-- **C100**, full statement: when `ranap_iu_init` has returned 0, every operation of the client does what it does in
`Iu.step`, the model in which the client can reach SCCP and its user. -/
def C100_full : Prop := ∀ (env : Env) (g g' : Setup) (a : Args), ranapIuInit g a = .ok (0, g') → a.recvCb = true →
  ∀ op s, IuInit.step env g' op s = Iu.step { env with hasEventCb := a.eventCb } op s

/-- One instance with point code 1 and without users. -/
def oneInst : List Sccp := [⟨[], some 1⟩]

/-- The user answers each NAS message. -/
def answering : Env := { Demo.env with cb := fun _ o => match o with
  | .recv ue .. => .call (.tx (some ue) [1] 0) fun _ => .done
  | _ => .done }

/-- **C100.** The full statement is false.  Set up twice, with 0 returned twice, the client accepts connections, and the
first answer of its user kills the program. -/
theorem C100_violated : ¬ C100_full ∧
    (∃ g s, IuInit.run answering [.init ⟨0, true, true⟩, .init ⟨0, true, true⟩, .op (.connectInd 1 (Demo.addr 2) [])]
      (fresh oneInst) init = .ok ([0, 0, -1], g, s)) ∧
    IuInit.run answering [.init ⟨0, true, true⟩, .init ⟨0, true, true⟩, .op (.connectInd 1 (Demo.addr 2) [1])]
      (fresh oneInst) init = .fault .nullDeref := by
  refine ⟨?_, ⟨_, _, rfl⟩, by decide +kernel⟩
  intro h
  have := h Demo.env ⟨true, true, none, ⟨0, none, none, none⟩, [⟨[SSN_RANAP], none⟩]⟩
    ⟨true, true, none, ⟨0, none, none, none⟩, [⟨[SSN_RANAP], none⟩]⟩ ⟨0, true, true⟩ rfl rfl (.unitdataInd (Demo.addr 1) [1]) init
  revert this
  decide +kernel

/-! ## What holds -/

theorem step_bound {env : Env} {g : Setup} (h : g.scu.isSome = true) (hr : g.recvCb = true) (op : Op) (s : State) :
    IuInit.step env g op s = Iu.step { env with hasEventCb := g.eventCb } op s := by
  unfold IuInit.step
  cases Iu.step { env with hasEventCb := g.eventCb } op s with
  | fault f => rfl
  | ok x =>
    obtain ⟨rc, s'⟩ := x
    simp [hr, Option.isNone_iff_eq_none, Option.isSome_iff_ne_none.1 h]

/-- **C100**, the part that holds: set up on an instance whose RANAP subsystem number is free, the client does what it does
in `Iu.step`, which is what all other theorems about the client are about.
Missing: subsystem numbers in use (see `C100_violated`). -/
theorem C100_partial {env : Env} {g : Setup} {a : Args} (hf : SsnFree g.insts a.inst) (hr : a.recvCb = true) :
    ∃ g', ranapIuInit g a = .ok (0, g') ∧
      ∀ op s, IuInit.step env g' op s = Iu.step { env with hasEventCb := a.eventCb } op s := by
  obtain ⟨i, hi, hn⟩ := hf
  unfold ranapIuInit
  simp only [hi, List.contains_iff_mem, hn, if_false]
  refine ⟨_, rfl, ?_⟩
  intro op s
  cases i.pc <;> exact step_bound rfl (by exact hr) op s

example : SsnFree oneInst 0 := ⟨_, rfl, by simp⟩

/-! ## Exactly when the client is connected to SCCP -/

/-- The instances that a history sets the client up on, one after the other. -/
def setups : List Call → List Args
  | [] => []
  | .init a :: cs => a :: setups cs
  | .op _ :: cs => setups cs

/-- What the calls of `ranap_iu_init` so far, oldest first, have left, on a program that began with the instances `insts`. -/
structure SetUp (insts : List Sccp) (done : List Args) (g : Setup) : Prop where
  pcs : ∀ i : Nat, (g.insts[i]?).map (·.pc) = (insts[i]?).map (·.pc)
  free : ∀ i, SsnFree g.insts i ↔ SsnFree insts i ∧ ∀ a ∈ done, a.inst ≠ i
  /-- connected to SCCP iff the subsystem number was free and this instance was not used before -/
  scu : ∀ pre a, done = pre ++ [a] →
    (g.scu = some a.inst ∨ g.scu = none) ∧ (g.scu = some a.inst ↔ SsnFree insts a.inst ∧ ∀ b ∈ pre, b.inst ≠ a.inst)
  /-- the callbacks given last -/
  cbs : ∀ pre a, done = pre ++ [a] → g.recvCb = a.recvCb ∧ g.eventCb = a.eventCb
  /-- the address of the last instance that has a point code -/
  addr : ∀ pre a post pc, done = pre ++ a :: post → (insts[a.inst]?).bind (·.pc) = some pc →
    (∀ b ∈ post, (insts[b.inst]?).bind (·.pc) = none) → g.localAddr = makeAddrPcSsn pc SSN_RANAP
  none : done = [] → g.scu = none

theorem setUp_init {insts : List Sccp} {done : List Args} {g g' : Setup} {a : Args} {rc : Int} (h : SetUp insts done g)
    (hi : ranapIuInit g a = .ok (rc, g')) : rc = 0 ∧ SetUp insts (done ++ [a]) g' := by
  unfold ranapIuInit at hi
  cases hx : g.insts[a.inst]? with
  | none => simp [hx] at hi
  | some x =>
    have hpc := h.pcs a.inst
    have hfree := h.free a.inst
    rw [hx] at hpc
    have hbind : (insts[a.inst]?).bind (·.pc) = x.pc := by
      cases hy : insts[a.inst]? with
      | none => rw [hy] at hpc; simp at hpc
      | some y => rw [hy] at hpc; simpa using hpc.symm
    have hlen : a.inst < g.insts.length := by
      rcases Nat.lt_or_ge a.inst g.insts.length with h | h
      · exact h
      · rw [List.getElem?_eq_none h] at hx; simp at hx
    simp only [hx] at hi
    have addr' : ∀ g' : Setup, g'.localAddr = (match x.pc with
        | some pc => makeAddrPcSsn pc SSN_RANAP | none => g.localAddr) →
        ∀ pre b post pc, done ++ [a] = pre ++ b :: post → (insts[b.inst]?).bind (·.pc) = some pc →
          (∀ c ∈ post, (insts[c.inst]?).bind (·.pc) = none) → g'.localAddr = makeAddrPcSsn pc SSN_RANAP := by
      intro g' hg pre b post pc he hb hp
      rcases List.eq_nil_or_concat post with rfl | ⟨post', c, rfl⟩
      · obtain ⟨_, h2⟩ := List.append_inj' he rfl
        obtain rfl : a = b := by simpa using h2
        rw [hbind] at hb
        rw [hg, hb]
      · have he' : done ++ [a] = (pre ++ b :: post') ++ [c] := by rw [he]; simp
        obtain ⟨h1, h2⟩ := List.append_inj' he' rfl
        obtain rfl : a = c := by simpa using h2
        have hn := hp a (by simp)
        rw [hbind] at hn
        rw [hg, hn]
        exact h.addr pre b post' pc h1 hb (fun c hc => hp c (by simp [hc]))
    have last : ∀ pre b, done ++ [a] = pre ++ [b] → pre = done ∧ b = a := by
      intro pre b he
      obtain ⟨h1, h2⟩ := List.append_inj' he rfl
      exact ⟨h1.symm, by simpa using h2.symm⟩
    by_cases hu : x.users.contains SSN_RANAP = true
    · have hnf : ¬ SsnFree g.insts a.inst := by
        rintro ⟨y, hy, hn⟩
        rw [hx] at hy
        obtain rfl := Option.some.inj hy
        exact hn (List.contains_iff_mem.1 hu)
      have key : rc = 0 ∧ g'.insts = g.insts ∧ g'.scu = none ∧ g'.recvCb = a.recvCb ∧ g'.eventCb = a.eventCb ∧
          g'.localAddr = (match x.pc with | some pc => makeAddrPcSsn pc SSN_RANAP | none => g.localAddr) := by
        cases hp : x.pc <;> simp only [hp, hu, if_true, Res.ok.injEq, Prod.mk.injEq] at hi <;>
          (obtain ⟨rfl, rfl⟩ := hi; exact ⟨rfl, rfl, rfl, rfl, rfl, rfl⟩)
      obtain ⟨k0, k1, k2, k3, k4, k5⟩ := key
      refine ⟨k0, ⟨?_, ?_, ?_, ?_, addr' g' k5, by simp⟩⟩
      · intro i; rw [k1]; exact h.pcs i
      · intro i
        rw [k1, h.free i]
        constructor
        · rintro ⟨h1, h2⟩
          refine ⟨h1, ?_⟩
          intro b hb
          rcases List.mem_append.1 hb with hb | hb
          · exact h2 b hb
          · rw [List.mem_singleton.1 hb]
            rintro rfl
            exact hnf (hfree.2 ⟨h1, h2⟩)
        · rintro ⟨h1, h2⟩
          exact ⟨h1, fun b hb => h2 b (List.mem_append_left _ hb)⟩
      · intro pre b he
        obtain ⟨rfl, rfl⟩ := last pre b he
        exact ⟨.inr k2, by rw [k2]; simp only [reduceCtorEq, false_iff]; exact fun hh => hnf (hfree.2 hh)⟩
      · intro pre b he
        obtain ⟨rfl, rfl⟩ := last pre b he
        exact ⟨k3, k4⟩
    · have hf : SsnFree g.insts a.inst := ⟨x, hx, fun hm => hu (List.contains_iff_mem.2 hm)⟩
      have key : rc = 0 ∧ g'.insts = g.insts.set a.inst { x with users := SSN_RANAP :: x.users } ∧ g'.scu = some a.inst ∧
          g'.recvCb = a.recvCb ∧ g'.eventCb = a.eventCb ∧
          g'.localAddr = (match x.pc with | some pc => makeAddrPcSsn pc SSN_RANAP | none => g.localAddr) := by
        cases hp : x.pc <;> simp only [hp, hu, Bool.false_eq_true, if_false, Res.ok.injEq, Prod.mk.injEq] at hi <;>
          (obtain ⟨rfl, rfl⟩ := hi; exact ⟨rfl, by rw [← hp], rfl, rfl, rfl, rfl⟩)
      obtain ⟨k0, k1, k2, k3, k4, k5⟩ := key
      refine ⟨k0, ⟨?_, ?_, ?_, ?_, addr' g' k5, by simp⟩⟩
      · intro i
        rw [k1, ← h.pcs i, List.getElem?_set]
        split
        · rename_i e; subst e; rw [hx]; simp [hlen]
        · rfl
      · intro i
        by_cases hia : a.inst = i
        · subst hia
          constructor
          · rintro ⟨y, hy, hn⟩
            rw [k1, List.getElem?_set_self hlen] at hy
            obtain rfl := Option.some.inj hy
            simp at hn
          · rintro ⟨_, h2⟩
            exact absurd rfl (h2 a (by simp))
        · have : SsnFree g'.insts i ↔ SsnFree g.insts i := by
            unfold SsnFree
            rw [k1, List.getElem?_set_ne hia]
          rw [this, h.free i]
          simp only [List.mem_append, List.mem_singleton]
          constructor
          · rintro ⟨h1, h2⟩
            refine ⟨h1, ?_⟩
            rintro b (hb | rfl)
            · exact h2 b hb
            · exact hia
          · rintro ⟨h1, h2⟩
            exact ⟨h1, fun b hb => h2 b (.inl hb)⟩
      · intro pre b he
        obtain ⟨rfl, rfl⟩ := last pre b he
        exact ⟨.inl k2, by rw [k2]; simp only [true_iff]; exact hfree.1 hf⟩
      · intro pre b he
        obtain ⟨rfl, rfl⟩ := last pre b he
        exact ⟨k3, k4⟩

theorem setUp_fresh (insts : List Sccp) : SetUp insts [] (fresh insts) :=
  ⟨fun _ => rfl, fun i => by simp [fresh], by simp, by simp, by simp, fun _ => rfl⟩

theorem setUp_run {env : Env} {insts : List Sccp} : ∀ {cs : List Call} {done : List Args} {g g' : Setup} {s s' : State}
    {rcs : List Int}, SetUp insts done g → IuInit.run env cs g s = .ok (rcs, g', s') →
    SetUp insts (done ++ setups cs) g' ∧ ∀ (i : Nat) (a : Args), cs[i]? = some (Call.init a) → rcs[i]? = some 0
  | [], done, g, g', s, s', rcs, h, hr => by
    simp only [IuInit.run, Res.ok.injEq, Prod.mk.injEq] at hr
    obtain ⟨_, rfl, _⟩ := hr
    exact ⟨by simpa [setups] using h, by simp⟩
  | .init a :: cs, done, g, g', s, s', rcs, h, hr => by
    simp only [IuInit.run] at hr
    cases hi : ranapIuInit g a with
    | fault f => simp [hi] at hr
    | ok x =>
      obtain ⟨rc, g1⟩ := x
      simp only [hi] at hr
      cases h2 : IuInit.run env cs g1 s with
      | fault f => simp [h2] at hr
      | ok y =>
        obtain ⟨rcs', g2, s2⟩ := y
        simp only [h2, Res.ok.injEq, Prod.mk.injEq] at hr
        obtain ⟨rfl, rfl, rfl⟩ := hr
        obtain ⟨h0, h1⟩ := setUp_init h hi
        obtain ⟨h3, h4⟩ := setUp_run h1 h2
        refine ⟨by simpa [setups] using h3, ?_⟩
        intro i b hb
        cases i with
        | zero => simp [h0]
        | succ i => exact h4 i b (by simpa using hb)
  | .op o :: cs, done, g, g', s, s', rcs, h, hr => by
    simp only [IuInit.run] at hr
    cases hi : IuInit.step env g o s with
    | fault f => simp [hi] at hr
    | ok x =>
      obtain ⟨rc, s1⟩ := x
      simp only [hi] at hr
      cases h2 : IuInit.run env cs g s1 with
      | fault f => simp [h2] at hr
      | ok y =>
        obtain ⟨rcs', g2, s2⟩ := y
        simp only [h2, Res.ok.injEq, Prod.mk.injEq] at hr
        obtain ⟨rfl, rfl, rfl⟩ := hr
        obtain ⟨h3, h4⟩ := setUp_run h h2
        refine ⟨by simpa [setups] using h3, ?_⟩
        intro i b hb
        cases i with
        | zero => simp at hb
        | succ i => exact h4 i b (by simpa using hb)

/-- **C100.** In every history, `ranap_iu_init` returns 0 whatever happened; the client is connected to SCCP exactly if
the subsystem number of the instance given last was free at the beginning, and `ranap_iu_init` was not called for this
instance before; the callbacks are those given last. -/
theorem C100_bound {env : Env} {insts : List Sccp} {cs : List Call} {rcs : List Int} {g : Setup} {s : State}
    (h : IuInit.run env cs (fresh insts) init = .ok (rcs, g, s)) :
    (∀ (i : Nat) (a : Args), cs[i]? = some (Call.init a) → rcs[i]? = some 0) ∧
    ∀ pre a, setups cs = pre ++ [a] →
      (g.scu = some a.inst ∨ g.scu = none) ∧ (g.scu = some a.inst ↔ SsnFree insts a.inst ∧ ∀ b ∈ pre, b.inst ≠ a.inst) ∧
      g.recvCb = a.recvCb ∧ g.eventCb = a.eventCb := by
  obtain ⟨h1, h2⟩ := setUp_run (setUp_fresh insts) h
  simp only [List.nil_append] at h1
  exact ⟨h2, fun pre a he => ⟨(h1.scu pre a he).1, (h1.scu pre a he).2, h1.cbs pre a he⟩⟩

/-- **C100.** The address messages are sent from is that of the last instance with a point code: an instance without one
leaves the address of another one in place. -/
theorem C100_address {env : Env} {insts : List Sccp} {cs : List Call} {rcs : List Int} {g : Setup} {s : State}
    (h : IuInit.run env cs (fresh insts) init = .ok (rcs, g, s)) (pre : List Args) (a : Args) (post : List Args)
    (pc : BitVec 32) (he : setups cs = pre ++ a :: post) (hpc : (insts[a.inst]?).bind (·.pc) = some pc)
    (hp : ∀ b ∈ post, (insts[b.inst]?).bind (·.pc) = none) : g.localAddr = makeAddrPcSsn pc SSN_RANAP := by
  have h1 := (setUp_run (setUp_fresh insts) h).1
  simp only [List.nil_append] at h1
  exact h1.addr pre a post pc he hpc hp

/-! ## What kills a client that is not connected -/

/-- Calls that hand a primitive for a context to SCCP. -/
def sendsFor : Api → Bool
  | .freeUe ue => ue.isSome
  | .tx ue _ _ => ue.isSome
  | .txRelease .. | .txReleaseFree .. | .txSecModeCmd .. | .txCommonId .. | .rabAct .. => true
  | _ => false

theorem step_unbound {env : Env} {g : Setup} {op : Op} {s : State} (hg : g.scu = none)
    (h : wp (fun _ => True) (Iu.step { env with hasEventCb := g.eventCb } op)
      (fun _ s' => ∃ d, s'.trace = s.trace ++ d ∧ d.any viaGlobal = true) s) :
    ∃ f, IuInit.step env g op s = .fault f := by
  unfold IuInit.step
  unfold wp at h
  cases hs : Iu.step { env with hasEventCb := g.eventCb } op s with
  | fault f => exact ⟨f, rfl⟩
  | ok x =>
    obtain ⟨rc, s'⟩ := x
    rw [hs] at h
    obtain ⟨d, hd, ha⟩ := h
    refine ⟨.nullDeref, ?_⟩
    simp only [hd, hg, List.drop_left, ha, Option.isNone_none, Bool.and_true, if_true]

/-- **C100.** A client that is not connected is killed by every call that transmits something for a context: an answer, a
release, security mode, common id, a RAB assignment, and already by `ranap_iu_free_ue`. -/
theorem C100_unusable {env : Env} {g : Setup} (hg : g.scu = none) {a : Api} (ha : sendsFor a = true) (s : State) :
    ∃ f, IuInit.step env g (.api a) s = .fault f := by
  apply step_unbound hg
  cases a with
  | freeUe ue =>
    cases ue with
    | none => simp [sendsFor] at ha
    | some p =>
      simp only [Iu.step, runApi, freeUe, wp_bind, wp_deref, wp_modify, wp_sapDown, wp_pure]
      cases s.ues.find? (·.ptr = p) <;> simp [viaGlobal]
  | tx ue nas sapi =>
    cases ue with
    | none => simp [sendsFor] at ha
    | some p =>
      simp only [Iu.step, runApi, iuTx, txBuf, genMsg, txData, wp_bind, wp_deref, wp_modify, wp_lift]
      cases s.ues.find? (·.ptr = p) with
      | none => trivial
      | some u => rcases env.gen _ with (_ | _) | _ <;> simp [viaGlobal]
  | txRelease p c =>
    simp only [Iu.step, runApi, iuTxRelease, genMsg, txData, wp_bind, wp_lift]
    rcases env.gen _ with (_ | _) | _ <;> simp only [wp_fault, wp_pure, wp_deref]
    cases s.ues.find? (·.ptr = p) <;> simp [viaGlobal]
  | txReleaseFree p c t =>
    simp only [Iu.step, runApi, iuTxReleaseFree, iuTxRelease, genMsg, txData, wp_bind, wp_lift, wp_deref, wp_modify]
    cases s.ues.find? (·.ptr = p) with
    | none => trivial
    | some u =>
      simp only
      rcases env.gen _ with (_ | _) | _ <;> simp only [wp_fault, wp_pure, wp_deref]
      split <;> simp [viaGlobal]
  | txSecModeCmd p ik ck a b =>
    simp only [Iu.step, runApi, iuTxSecModeCmd, genMsg, txData, wp_bind, wp_lift]
    rcases env.gen _ with (_ | _) | _ <;> simp only [wp_fault, wp_pure, wp_deref]
    cases s.ues.find? (·.ptr = p) <;> simp [viaGlobal]
  | txCommonId p i =>
    simp only [Iu.step, runApi, iuTxCommonId, genMsg, txData, wp_bind, wp_lift, wp_deref]
    cases s.ues.find? (·.ptr = p) with
    | none => trivial
    | some u =>
      simp only
      rcases env.gen _ with (_ | _) | _ <;> simp [viaGlobal]
  | rabAct p m =>
    simp only [Iu.step, runApi, iuRabAct, txData, wp_bind, wp_deref]
    cases s.ues.find? (·.ptr = p) <;> simp [viaGlobal]
  | _ => simp [sendsFor] at ha

/-- **C100.** So is it by every RESET it has an answer for. -/
theorem C100_unusable_reset {env : Env} {g : Setup} (hg : g.scu = none) {data : Bytes} {domain : Nat} {rnc : Option GRncId}
    {ack : Bytes} (hd : env.decodeCl data = some ⟨PR_initiatingMessage, id_Reset, .reset domain rnc⟩)
    (ha : env.gen (.resetAck domain rnc) = .ok (some ack)) (calling : SccpAddr) (s : State) :
    ∃ f, IuInit.step env g (.unitdataInd calling data) s = .fault f := by
  apply step_unbound hg
  simp [Iu.step, hd, handleCl, handleClReset, ha, wp_bind, viaGlobal]

/-- Concrete: set up twice, the client is not connected, but has the context of a UE. -/
example : ∃ g s, IuInit.run Demo.env [.init ⟨0, true, true⟩, .init ⟨0, true, true⟩, .op (.connectInd 1 (Demo.addr 2) [1])]
    (fresh oneInst) init = .ok ([0, 0, 0], g, s) ∧ g.scu = none ∧ g.localAddr = Demo.addr 1 ∧ s.ues.length = 1 :=
  ⟨_, _, rfl, rfl, rfl, rfl⟩

/-- Concrete: two instances, the second without a point code. -/
example : ∃ g, IuInit.run Demo.env [.init ⟨0, true, true⟩, .init ⟨1, true, false⟩]
    (fresh [⟨[], some 1⟩, ⟨[], none⟩]) init = .ok ([0, 0], g, init) ∧ g.scu = some 1 ∧ g.eventCb = false ∧
      g.localAddr = Demo.addr 1 := ⟨_, rfl, rfl, rfl, rfl⟩

example : Demo.env.decodeCl [1] = some ⟨PR_initiatingMessage, id_Reset, .reset 0 (some ⟨[0x62, 0xf2, 0x24], 1⟩)⟩ ∧
    Demo.env.gen (.resetAck 0 (some ⟨[0x62, 0xf2, 0x24], 1⟩)) = .ok (some []) := by decide

end Verif.Props
