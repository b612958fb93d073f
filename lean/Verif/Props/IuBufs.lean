import Verif.Proofs.IuBufs
import Verif.Proofs.IuHist
import Verif.Props.Demo

/-!
# C63: buffers of NAS messages
-/

namespace Verif.Props
open Verif.Iu Verif.Iu.Spec

/-- **C63**, full statement: after every history, every NAS buffer the client allocated for a
received message, and every NAS buffer handed to `ranap_iu_tx`, has been freed exactly once. -/
def C63_full : Prop := ∀ (env : Env) (ops : List Op) (s : State), run env ops init = .ok ((), s) →
  s.nasBufs = 0 ∧ s.txBufs = 0

/-- **C63.** The full statement is false: the buffer is lost when the location of a received message is not
acceptable (Initial UE Message, Direct Transfer) and when `ranap_iu_tx` has no destination. -/
theorem C63_violated : ¬ C63_full ∧
    (∃ s, run Demo.env [.connectInd 10 (Demo.addr 1) [11]] init = .ok ((), s) ∧ s.nasBufs = 1 ∧ s.txBufs = 0) ∧
    (∃ s, run Demo.env [.connectInd 10 (Demo.addr 1) [1], .dataInd 10 [15]] init = .ok ((), s) ∧
      s.nasBufs = 1 ∧ s.txBufs = 0) ∧
    (∃ s, run Demo.env [.api (.tx none [1] 0)] init = .ok ((), s) ∧ s.nasBufs = 0 ∧ s.txBufs = 1) := by
  have h1 : ∃ s, run Demo.env [.connectInd 10 (Demo.addr 1) [11]] init = .ok ((), s) ∧ s.nasBufs = 1 ∧ s.txBufs = 0 := by
    obtain ⟨s, h, e⟩ := (Demo.after_iff (P := fun s => decide (s.nasBufs = 1 ∧ s.txBufs = 0))).1
      (show Demo.after Demo.env [.connectInd 10 (Demo.addr 1) [11]] _ = true by decide +kernel)
    exact ⟨s, h, of_decide_eq_true e⟩
  refine ⟨fun hf => ?_, h1, ?_, ?_⟩
  · obtain ⟨s, h, e, _⟩ := h1
    exact absurd ((hf _ _ _ h).1.symm.trans e) (by decide)
  · obtain ⟨s, h, e⟩ := (Demo.after_iff (P := fun s => decide (s.nasBufs = 1 ∧ s.txBufs = 0))).1
      (show Demo.after Demo.env [.connectInd 10 (Demo.addr 1) [1], .dataInd 10 [15]] _ = true by decide +kernel)
    exact ⟨s, h, of_decide_eq_true e⟩
  · obtain ⟨s, h, e⟩ := (Demo.after_iff (P := fun s => decide (s.nasBufs = 0 ∧ s.txBufs = 1))).1
      (show Demo.after Demo.env [.api (.tx none [1] 0)] _ = true by decide +kernel)
    exact ⟨s, h, of_decide_eq_true e⟩

variable {env : Env}

/-- **C63.** The buffers lost on the receiving side, exactly: one for every refused message. In particular no
buffer is freed twice. -/
theorem C63_received {ops : List Op} {s : State} (h : run env ops init = .ok ((), s)) :
    s.nasBufs = refusals env init ops := by
  have key : ∀ (ops : List Op) (s0 s : State), run env ops s0 = .ok ((), s) → s.nasBufs = s0.nasBufs + refusals env s0 ops := by
    intro ops
    induction ops with
    | nil => intro s0 s h; cases h; simp [refusals]
    | cons op ops ih =>
      intro s0 s h
      obtain ⟨rc, s1, h1, h2⟩ := run_cons h
      rw [ih _ _ h2, step_nas h1, refusals, h1]
      simp only
      omega
  have := key ops init s h
  rw [this]
  exact Int.zero_add _

/-- **C63**, the part that holds: a history without refused messages leaves no buffer of a received message behind.
Missing: refused messages (see `C63_violated`). -/
theorem C63_received_partial {ops : List Op} {s : State} (h : run env ops init = .ok ((), s))
    (hr : ∀ pre op post s0, ops = pre ++ op :: post → run env pre init = .ok ((), s0) → refused env s0 op = false) :
    s.nasBufs = 0 := by
  have key : ∀ (ops pre : List Op) (s0 s : State), run env pre init = .ok ((), s0) → run env ops s0 = .ok ((), s) →
      (∀ pre' op post s0, pre ++ ops = pre' ++ op :: post → run env pre' init = .ok ((), s0) → refused env s0 op = false) →
      s0.nasBufs = 0 → s.nasBufs = 0 := by
    intro ops
    induction ops with
    | nil => intro pre s0 s _ h _ h0; cases h; exact h0
    | cons op ops ih =>
      intro pre s0 s hp h hr h0
      obtain ⟨rc, s1, h1, h2⟩ := run_cons h
      have e := step_nas h1
      rw [hr pre op ops s0 rfl hp] at e
      refine ih (pre ++ [op]) s1 s ?_ h2 (by simpa using hr) (by simpa [h0] using e)
      have : ∀ (l : List Op) (a : State), run env l a = .ok ((), s0) → run env (l ++ [op]) a = .ok ((), s1) := by
        intro l
        induction l with
        | nil => intro a h; cases h; exact bind_ok.2 ⟨rc, s1, h1, rfl⟩
        | cons o l ih =>
          intro a h
          obtain ⟨rc', a', h1', h2'⟩ := run_cons h
          exact bind_ok.2 ⟨rc', a', h1', ih _ h2'⟩
      exact this pre init hp
  exact key ops [] init s rfl h hr rfl

/-- Messages with an acceptable location, and without any. -/
example : ∃ s, run Demo.env [.connectInd 10 (Demo.addr 1) [1], .dataInd 10 [4], .dataInd 10 [15], .dataInd 10 [4]] init = .ok ((), s) ∧
    s.nasBufs = 1 := by
  obtain ⟨s, h, e⟩ := (Demo.after_iff (P := fun s => decide (s.nasBufs = 1))).1
    (show Demo.after Demo.env [.connectInd 10 (Demo.addr 1) [1], .dataInd 10 [4], .dataInd 10 [15], .dataInd 10 [4]] _ = true
      by decide +kernel)
  exact ⟨s, h, of_decide_eq_true e⟩

/-- A refused message and one that is not. -/
example : refused Demo.env init (.connectInd 10 (Demo.addr 1) [11]) = true ∧
    refused Demo.env init (.connectInd 10 (Demo.addr 1) [1]) = false ∧
    initialUe Demo.env init (.connectInd 10 (Demo.addr 1) [1]) ≠ none := by
  refine ⟨by decide +kernel, by decide +kernel, fun h => ?_⟩
  have : (initialUe Demo.env init (.connectInd 10 (Demo.addr 1) [1])).isSome = true := by decide +kernel
  rw [h] at this
  cases this

/-- **C63.** Every API call from outside a callback frees the NAS buffer it is given, exactly once, unless
it is `ranap_iu_tx` without a destination, which does not free it. -/
theorem C63_sent_exact {a : Api} {s s' : State} {rc : Int} (h : step env (.api a) s = .ok (rc, s')) :
    s'.txBufs = s.txBufs + if unsetDst a then 1 else 0 :=
  wp_ok (tx_runApi a s) h

/-- **C63**, the part that holds: as long as the user, inside and outside of callbacks, never transmits without a
destination, no NAS buffer handed over for transmission is left behind, whatever the calls return.
Missing: calls without a destination (see `C63_violated`). -/
theorem C63_sent_partial {ops : List Op} {s : State} (h : run env ops init = .ok ((), s))
    (hcb : ∀ s o, DstSet (env.cb s o)) (hops : ∀ a, Op.api a ∈ ops → unsetDst a = false) :
    s.txBufs = 0 := by
  have key : ∀ (ops : List Op) (s0 s : State), run env ops s0 = .ok ((), s) → (∀ a, Op.api a ∈ ops → unsetDst a = false) →
      s0.txBufs = 0 → s.txBufs = 0 := by
    intro ops
    induction ops with
    | nil => intro s0 s h _ h0; cases h; exact h0
    | cons op ops ih =>
      intro s0 s h hops h0
      obtain ⟨rc, s1, h1, h2⟩ := run_cons h
      refine ih _ _ h2 (fun a ha => hops a (List.mem_cons_of_mem _ ha)) ?_
      refine wp_ok (pres_step (P := fun b => b = 0) (A := fun a => unsetDst a = false) (S := DstSet) ?_ ?_ hcb op ?_ s0 h0) h1
      · intro a ha s hs
        refine wp_mono (tx_runApi a s) ?_
        intro _ s' e
        rw [ha] at e
        simp only at hs ⊢
        rw [e, hs]; rfl
      · exact fun a k h => h
      · rintro a rfl
        exact hops a List.mem_cons_self
  exact key ops init s h hops rfl

/-- **C63.** Whatever the user does, no buffer handed over for transmission is freed twice. -/
theorem C63_not_twice {ops : List Op} {s : State} (h : run env ops init = .ok ((), s)) :
    0 ≤ s.txBufs ∧ 0 ≤ s.nasBufs := by
  constructor
  · have key : ∀ (ops : List Op) (s0 s : State), run env ops s0 = .ok ((), s) → 0 ≤ s0.txBufs → 0 ≤ s.txBufs := by
      intro ops
      induction ops with
      | nil => intro s0 s h h0; cases h; exact h0
      | cons op ops ih =>
        intro s0 s h h0
        obtain ⟨rc, s1, h1, h2⟩ := run_cons h
        refine ih _ _ h2 ?_
        refine wp_ok (pres_step (P := fun b => 0 ≤ b) (A := fun _ => True) (S := fun _ => True) ?_
          (fun _ _ _ => ⟨trivial, fun _ => trivial⟩) (fun _ _ => trivial) op (fun _ _ => trivial) s0 h0) h1
        intro a _ s hs
        refine wp_mono (tx_runApi a s) ?_
        intro _ s' e
        simp only at hs ⊢
        rw [e]
        split <;> omega
    exact key ops init s h (by decide)
  · rw [C63_received h]
    have : ∀ (ops : List Op) (s0 : State), 0 ≤ refusals env s0 ops := by
      intro ops
      induction ops with
      | nil => exact fun _ => by simp [refusals]
      | cons op ops ih =>
        intro s0
        unfold refusals
        split <;> split <;> first | (have := ih (by assumption); omega) | omega
    exact this _ _

/-- Transmission to a context: the buffer is freed. -/
example : ∃ s, run Demo.env [.connectInd 10 (Demo.addr 1) [1], .api (.tx (some 1) [5] 0)] init = .ok ((), s) ∧
    s.txBufs = 0 ∧ s.trace.length = 4 := by
  obtain ⟨s, h, e⟩ := (Demo.after_iff (P := fun s => decide (s.txBufs = 0 ∧ s.trace.length = 4))).1
    (show Demo.after Demo.env [.connectInd 10 (Demo.addr 1) [1], .api (.tx (some 1) [5] 0)] _ = true by decide +kernel)
  exact ⟨s, h, of_decide_eq_true e⟩

/-- Callbacks that transmit to the context they are given. -/
example : ∀ (s : State) (o : Out), DstSet ((fun _ o => match o with
    | .recv p _ nas _ _ => .call (.tx (some p) nas 0) fun _ => .done
    | _ => .done : State → Out → Script) s o) := by
  intro s o
  cases o <;> simp [DstSet, unsetDst]

end Verif.Props
