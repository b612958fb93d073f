import Verif.Spec.HnbAmount
import Verif.Props.HnbOut

/-!
# C131: the HNB emulator sends what it is told or asked to send
-/

namespace Verif.Props
open Verif.Hnb Verif.Hnb.Spec

variable {env : Hnb.Env}

theorem effect_reason {s s' : Hnb.State} {op : Hnb.Op} (he : Effect env s op s') :
    out s' = out s ∨ ∃ m, out s' = out s ++ [m] ∧ (isCommand op = true ∨
      ∃ data a c, op = .recv 19 data ∧ Asks env s data a ∧ s.chan = some c ∧ IsReply m c.connId a) := by
  rcases effect_out he with ho | ⟨-, h1, m, h2, -⟩
  · exact .inl ho
  · have hm : out s' = out s ++ [m] := by
      unfold out
      rw [h1, h2, List.append_assoc]
    by_cases hc : isCommand op = true
    · exact .inr ⟨m, hm, .inl hc⟩
    · have same : s'.queue = s.queue → False := fun e => by
        rw [e] at h2
        simpa using congrArg List.length h2
      cases op with
      | recv ppid data =>
        unfold Effect at he
        dsimp only at he
        split at he
        next hp =>
          obtain ⟨-, rfl⟩ := hp
          rcases he with ⟨a, ha, h⟩ | ⟨t, -, rfl⟩ | ⟨-, -, rfl⟩
          · rcases replied_state h with rfl | ⟨-, c, m', hch, hr, rfl⟩
            · exact absurd rfl same
            · have : m' = m := by simpa using h2
              exact .inr ⟨m, hm, .inr ⟨data, a, c, rfl, ha, hch, this ▸ hr⟩⟩
          · exact absurd rfl same
          · exact absurd rfl same
        · split at he
          · rcases he with ⟨n, -, rfl⟩ | ⟨t, ctx, -, rfl⟩ | ⟨-, -, rfl⟩ <;> exact absurd rfl same
          · subst he
            exact absurd rfl same
      | notification => cases he; exact absurd rfl same
      | closed => cases he; exact absurd rfl same
      | writable =>
        unfold Effect at he
        dsimp only at he
        split at he <;> subst he
        · simp only at h2
          have := congrArg List.length h2
          simp at this
        · exact absurd rfl same
      | register | deregister | ueRegister imsi | reset isPs | channel isPs imsi => exact absurd rfl hc

/-- **C131.** Whatever happens, the emulator adds nothing to what it sends, or one message: on a command, or as the answer to a message
on RUA that asks for it, on the channel that is open. -/
theorem C131_reason {s s' : Hnb.State} {op : Hnb.Op} (hr : Reach env s) (hs : Hnb.step env s op = .ok s') :
    out s' = out s ∨ ∃ m, out s' = out s ++ [m] ∧ (isCommand op = true ∨
      ∃ data a c, op = .recv 19 data ∧ Asks env s data a ∧ s.chan = some c ∧ IsReply m c.connId a) :=
  effect_reason (reach_effect hr hs)

/-- **C131.** So in a history no more messages are sent than there were commands and messages on RUA. -/
theorem C131_history {ops : List Hnb.Op} {s : Hnb.State} (h : Hnb.run env Hnb.init ops = .ok s) :
    (out s).length ≤ ops.countP isCommand + ops.countP isRua := by
  refine run_induct (P := fun ops s => (out s).length ≤ ops.countP isCommand + ops.countP isRua) (Nat.le_refl _) ?_ h
  intro ops s op s' _ ih he
  rw [List.countP_append, List.countP_append]
  rcases effect_reason he with ho | ⟨m, ho, hc | ⟨data, a, c, rfl, -⟩⟩
  · rw [ho]
    omega
  · rw [ho, List.length_append, List.countP_singleton (p := isCommand), if_pos hc, List.length_singleton]
    omega
  · rw [ho, List.length_append, List.countP_singleton (p := isRua), if_pos (show isRua (.recv 19 data) = true from rfl), List.length_singleton]
    omega

/-- **C131.** Before the user has opened a channel in the CS domain, nothing is answered: no more messages are sent than there were
commands. -/
theorem C131_unopened {ops : List Hnb.Op} {s : Hnb.State} (h : Hnb.run env Hnb.init ops = .ok s)
    (ho : ∀ op ∈ ops, isCsChannel op = false) : (out s).length ≤ ops.countP isCommand := by
  have key : (∀ op ∈ ops, isCsChannel op = false) → s.chan = none ∧ (out s).length ≤ ops.countP isCommand := by
    refine run_induct (P := fun ops s => (∀ op ∈ ops, isCsChannel op = false) → s.chan = none ∧ (out s).length ≤ ops.countP isCommand)
      (fun _ => ⟨rfl, Nat.le_refl _⟩) ?_ h
    intro ops s op s' _ ih he hq
    obtain ⟨i1, i2⟩ := ih fun o hm => hq o (List.mem_append_left _ hm)
    have h1 := hq op (List.mem_append_right _ (List.mem_singleton.2 rfl))
    refine ⟨?_, ?_⟩
    · rw [(effect_chan he).2]
      cases op with
      | channel isPs imsi =>
        cases isPs
        · cases h1
        · exact i1
      | _ => exact i1
    · rw [List.countP_append]
      rcases effect_reason he with ho | ⟨m, ho, hc | ⟨data, a, c, -, -, hch, -⟩⟩
      · rw [ho]
        omega
      · rw [ho, List.length_append, List.countP_singleton, if_pos hc, List.length_singleton]
        omega
      · rw [i1] at hch
        cases hch
  exact (key ho).2

/-- **C131.** Nor does it send anything when it was told nothing, whatever it receives. -/
theorem C131_silent {ops : List Hnb.Op} {s : Hnb.State} (h : Hnb.run env Hnb.init ops = .ok s)
    (ho : ∀ op ∈ ops, isCommand op = false) : out s = [] := by
  have h1 := C131_unopened h fun op hm => by
    have := ho op hm
    cases op <;> first | rfl | cases this
  rw [List.countP_eq_zero.2 fun op hm => by simp [ho op hm]] at h1
  exact List.length_eq_zero_iff.1 (by omega)

/-- The bound of `C131_history` is reached: a channel is opened, and an Identity Request is answered. Without the channel it is not. -/
example : ∃ data, (∃ s, Hnb.run demoHnb Hnb.init [.channel false [], .recv 19 data] = .ok s ∧ (out s).length = 2) ∧
    ∃ s, Hnb.run demoHnb Hnb.init [.recv 19 data] = .ok s ∧ out s = [] := by
  obtain ⟨data, l, h5, h6, -⟩ := gateway_nas [0x05, 0x18, 0x01] (by decide) false 42
  have hm : Mm (nasOf l) 0x18 [0x01] := ⟨0x05, 0x18, h6, by decide, by decide⟩
  have ha : ∀ s, Asks demoHnb s data (.nas identityResponse) := fun s => .nas h5 (.identity hm)
  refine ⟨data, ?_, ?_⟩
  · obtain ⟨s, h3, h4⟩ := channel_sends Hnb.init false []
    have hr : Hnb.run demoHnb Hnb.init [.channel false []] = .ok s := by
      simp only [Hnb.run, Hnb.step, h3]
    unfold Sends at h4
    rw [if_neg (by decide)] at h4
    obtain ⟨m, -, rfl⟩ := h4
    obtain ⟨s1, h7, h8⟩ := C84_answers_partial ⟨_, hr⟩ rfl (ha _) (not_kills h5 (by decide) fun _ => not_fatal hm (by decide) (by decide))
    have hr' : Hnb.run demoHnb Hnb.init ([.channel false []] ++ [.recv 19 data]) = .ok s1 := by
      rw [run_append, hr]
      simp only [Hnb.run, h7]
    unfold Replied at h8
    obtain ⟨m', -, rfl⟩ := h8
    exact ⟨_, hr', rfl⟩
  · obtain ⟨s1, h7, -⟩ := C84_answers_partial reach_init rfl (ha _) (not_kills h5 (by decide) fun _ => not_fatal hm (by decide) (by decide))
    have hr : Hnb.run demoHnb Hnb.init [.recv 19 data] = .ok s1 := by
      simp only [Hnb.run, h7]
    exact ⟨s1, hr, C131_silent hr (by simp [isCommand])⟩

end Verif.Props
