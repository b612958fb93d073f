import Verif.Proofs.ScarceIu
import Verif.Props.ScarceRab
import Verif.Props.Linked

/-!
# C126: the Iu client when memory runs out while it makes messages
-/

namespace Verif.Props
open Verif.Iu Verif.Linked Verif.Scarce Verif.ScarceIu
open Verif.Factory (Call)

/-- The message that something handed to the SCCP layer carries. -/
def carried : Out → Option TxMsg
  | .sap (.dataReq _ m) _ => some m
  | .sap (.unitdataReq _ m) _ => some m
  | _ => none

/-- Between two states, only complete messages were handed to the SCCP layer: the octets are those that there are with memory. -/
def SentComplete (w : World) (lax debug : Bool) (n : Nat) (s s' : State) : Prop :=
  ∃ d, s'.trace = s.trace ++ d ∧ ∀ o ∈ d, ∀ m, carried o = some m →
    ∃ bs, genW w lax debug n m = .ok (some bs) ∧ Linked.gen m = .ok (some bs)

/-- **C126**, full statement: whatever there is no memory for, the client survives every operation that it survives with memory,
and sends only complete messages. -/
def C126_full : Prop := ∀ (env : Env) (ops : List Op) (s : State) (op : Op) (w : World) (lax debug : Bool) (n : Nat),
  run (linked env) ops init = .ok ((), s) → (∃ r, step (linked env) op s = .ok r) →
    ∃ rc s', step (scarce w lax debug n env) op s = .ok (rc, s') ∧ SentComplete w lax debug n s s'

theorem scarce_eq (w : World) (lax debug : Bool) (n : Nat) (env : Env) :
    scarce w lax debug n env = making (genW w lax debug n) (linked env) := rfl

theorem genW_call {m : TxMsg} {c : Call} (h : callOf m = some c) (w : World) (lax debug : Bool) (n : Nat) :
    genW w lax debug n m = (callW w lax debug c n).1 ∧ Linked.gen m = c.result ∧ ¬ Assigns c := by
  cases m <;> cases h <;> exact ⟨rfl, rfl, id⟩

theorem genW_raw (w : World) (lax debug : Bool) (n : Nat) (d : Bytes) : genW w lax debug n (.raw d) = .ok (some d) := rfl

/-- Only such things fail that the functions for messages notice: memory for an element, its value, the value of the message and
the buffer, and debug output. -/
def OnlyNoticed (w : World) : Prop :=
  ∀ n x, w n x = false → x = .element ∨ x = .value ∨ x = .pdu ∨ x = .buffer ∨ x = .output

theorem genW_cases {w : World} (hw : OnlyNoticed w) (lax debug : Bool) (n : Nat) (m : TxMsg) :
    genW w lax debug n m = .ok none ∨ genW w lax debug n m = Linked.gen m := by
  cases h : callOf m with
  | none => cases m <;> cases h; exact .inr rfl
  | some c =>
    obtain ⟨h1, h2, h3⟩ := genW_call h w lax debug n
    rw [h1, h2]
    refine C124_partial c w (fun k x hx => ?_) lax debug n
    cases hf : w k x with
    | true => rfl
    | false =>
      refine absurd ?_ hx
      rcases hw k x hf with h | h | h | h | h
      · exact .inr (.inr ⟨h3, .inl h⟩)
      · exact .inr (.inr ⟨h3, .inr (.inl h)⟩)
      · exact .inl h
      · exact .inr (.inl h)
      · exact .inr (.inr ⟨h3, .inr (.inr h)⟩)

theorem sentComplete_of {env : Env} {w : World} (hw : OnlyNoticed w) {lax debug : Bool} {n : Nat} {s s' : State}
    (h : ∃ d, s'.trace = s.trace ++ d ∧ ∀ o ∈ d, Sent (genW w lax debug n) o) : SentComplete w lax debug n s s' := by
  obtain ⟨d, hd, ho⟩ := h
  refine ⟨d, hd, fun o hm m hc => ?_⟩
  have hs := ho o hm
  have : ∃ bs, genW w lax debug n m = .ok (some bs) := by
    unfold carried at hc
    split at hc <;> cases hc <;> exact hs
  obtain ⟨bs, hb⟩ := this
  refine ⟨bs, hb, ?_⟩
  rcases genW_cases hw lax debug n m with h | h
  · rw [hb] at h; cases h
  · rw [← h, hb]

/-- **C126**, the part that holds: if only such things fail that are noticed, then the process ends (by a null pointer), or a
RESET is not answered, or everything is as with memory, and all that is sent is complete. -/
theorem C126_partial (env : Env) (w : World) (hw : OnlyNoticed w) (lax debug : Bool) (n : Nat) (op : Op) (s : State) :
    step (scarce w lax debug n env) op s = .fault .nullDeref ∨
    (step (scarce w lax debug n env) op s = .ok (0, s) ∧ ∃ a data d r, op = .unitdataInd a data ∧
      (linked env).decodeCl data = some ⟨1, 9, .reset d r⟩ ∧ genW w lax debug n (.resetAck d r) = .ok none) ∨
    (step (scarce w lax debug n env) op s = step (linked env) op s ∧
      ∀ rc s', step (linked env) op s = .ok (rc, s') → SentComplete w lax debug n s s') := by
  rw [scarce_eq]
  by_cases hu : Unanswered (genW w lax debug n) (linked env) op
  · exact .inr (.inl ⟨step_unanswered hu s, hu⟩)
  · rcases (follows_step (F := (· = .nullDeref)) (env := linked env)
      ⟨rfl, fun m => (genW_cases hw lax debug n m).imp_right fun h => .inr (.inl h)⟩ (genW_raw w lax debug n) op hu).at_ s with ⟨e, rfl, h⟩ | ⟨h, ht⟩
    · exact .inl h
    · refine .inr (.inr ⟨h, fun rc s' hs => ?_⟩)
      exact sentComplete_of (env := env) hw (ht rc s' (h.trans hs))

/-- **C126**: with memory, and an output that is not used or can be written to, the client is the one of the other properties. -/
theorem C126_sufficient (env : Env) (w : World) (hm : Memory w) (lax debug : Bool) (ho : debug = false ∨ Writable w) (n : Nat) :
    scarce w lax debug n env = linked env := by
  have : genW w lax debug n = Linked.gen := by
    funext m
    cases h : callOf m with
    | none => cases m <;> cases h; rfl
    | some c =>
      obtain ⟨h1, h2, -⟩ := genW_call h w lax debug n
      rw [h1, h2, C124_sufficient c w hm lax debug ho n]
  rw [scarce_eq, this]
  rfl

/-- **C126**: a message for which there is NULL is used nevertheless.  Whatever operation sends a message with memory, other than
the answer to a RESET or what the user made, ends the process if no such message can be made. -/
theorem C126_crash (env : Env) (w : World) (hw : OnlyNoticed w) (lax debug : Bool) (n : Nat) (op : Op) (s s' : State) (rc : Int)
    (d : List Out) (hs : step (linked env) op s = .ok (rc, s')) (hd : s'.trace = s.trace ++ d) {o : Out} {m : TxMsg} (ho : o ∈ d)
    (hc : carried o = some m) (hm : ∀ dom r, m ≠ .resetAck dom r) (hn : genW w lax debug n m = .ok none) :
    step (scarce w lax debug n env) op s = .fault .nullDeref := by
  rcases C126_partial env w hw lax debug n op s with h | ⟨-, a, data, dom, r, rfl, hr, -⟩ | ⟨-, h⟩
  · exact h
  · exfalso
    have hr' : (linked env).decodeCl data = some ⟨PR_initiatingMessage, id_Reset, .reset dom r⟩ := hr
    unfold step at hs
    simp only [hr'] at hs
    unfold handleCl at hs
    rw [if_pos rfl, if_pos rfl] at hs
    simp only [bind_eq, handleClReset] at hs
    cases hg : (linked env).gen (.resetAck dom r) with
    | fault e =>
      rw [hg] at hs
      simp only [M.lift, reduceCtorEq] at hs
    | ok x =>
      rw [hg] at hs
      cases x with
      | none =>
        simp only [lift_ok_run, pure_run, Res.ok.injEq, Prod.mk.injEq] at hs
        obtain ⟨-, rfl⟩ := hs
        have : d = [] := by simpa using hd
        rw [this] at ho
        cases ho
      | some bs =>
        simp only [lift_ok_run, sapDown, emit, bind_eq, get_run, modify_run, pure_run, Res.ok.injEq, Prod.mk.injEq] at hs
        obtain ⟨-, rfl⟩ := hs
        have hd' : d = [.sap (.unitdataReq a (.resetAck dom r)) ((linked env).sapRc s (.unitdataReq a (.resetAck dom r)))] :=
          (List.append_cancel_left hd).symm
        rw [hd', List.mem_singleton] at ho
        subst ho
        cases hc
        exact hm dom r rfl
  · obtain ⟨d', hd', hall⟩ := h rc s' hs
    have : d' = d := List.append_cancel_left (hd'.symm.trans hd)
    subst this
    obtain ⟨bs, hb, -⟩ := hall o ho m hc
    rw [hn] at hb
    cases hb

/-- **C126**: a RESET never ends the process for want of memory. -/
theorem C126_reset (env : Env) (w : World) (hw : OnlyNoticed w) (lax debug : Bool) (n : Nat) (a : SccpAddr) (data : Bytes)
    (s : State) {dom : Nat} {r : Option GRncId} (hd : (linked env).decodeCl data = some ⟨1, 9, .reset dom r⟩) :
    step (scarce w lax debug n env) (.unitdataInd a data) s = .ok (0, s) ∨
      step (scarce w lax debug n env) (.unitdataInd a data) s = step (linked env) (.unitdataInd a data) s := by
  rw [scarce_eq]
  rcases genW_cases hw lax debug n (.resetAck dom r) with h | h
  · exact .inl (step_unanswered ⟨a, data, dom, r, rfl, hd, h⟩ s)
  · refine .inr ?_
    have hd' : (linked env).decodeCl data = some ⟨PR_initiatingMessage, id_Reset, .reset dom r⟩ := hd
    unfold step
    simp only [hd']
    unfold handleCl
    rw [if_pos rfl, if_pos rfl, if_pos rfl, if_pos rfl]
    dsimp only
    unfold handleClReset
    dsimp only
    rw [h]
    rfl

/-! ## Worlds and states -/

/-- No memory for message buffers. -/
def noBuffers : World := fun _ x => x != .buffer

theorem noBuffers_noticed : OnlyNoticed noBuffers := fun n x h => by
  simp [noBuffers] at h
  exact .inr (.inr (.inr (.inl h)))

/-- A subscriber is connected. -/
theorem one_connected : ∃ s, run (linked Demo.env) [.connectInd 10 (Demo.addr 1) initialOctets] init = .ok ((), s) ∧
    decide (s.ues.map (fun u => (u.ptr, u.conn)) = [(1, 10)]) = true := Demo.after_iff.1 (by decide +kernel)

theorem message_no_buffer {w : World} (hb : ∀ n, w n .buffer = false) (debug : Bool) (p : Generate.Proto) (present code crit : Nat)
    (m : Ie.MsgDef) (s : Ie.Struct) (n : Nat) : (messageW w debug p present code crit m s n).1 = none := by
  rw [messageW_eq]
  cases (encodeIesW w debug m s n).1 with
  | none => rfl
  | some l =>
    simp only [generateW_eq, hb, Bool.false_eq_true, and_false, if_false]

/-- Without buffers there are no messages but those of the user. -/
theorem genW_no_buffer {w : World} (hb : ∀ n, w n .buffer = false) (lax debug : Bool) (n : Nat) {m : TxMsg} {c : Call}
    (h : callOf m = some c) (bs : Bytes) : genW w lax debug n m ≠ .ok (some bs) := by
  rw [(genW_call h w lax debug n).1]
  have planned : ∀ x, plan c = some x → (callW w lax debug c n).1 ≠ .ok (some bs) := by
    intro x hx
    rw [callW_plan hx]
    cases x with
    | fault f => exact nofun
    | ok q =>
      show (q.runW w debug n).1 ≠ _
      rw [runW_eq, message_no_buffer hb]
      split <;> exact nofun
  cases m <;> cases h
  case secModCmd ik ck newKey =>
    show (secModCmd2W w debug (some ik) ck (if newKey then 1 else 0) 6 6 n).1 ≠ _
    obtain ⟨n1, n2, n3, n4, he⟩ := secModW_eq w debug (some ik) ck (if newKey then 1 else 0) 6 6 n
    rw [he]
    simp only [message_no_buffer hb]
    repeat' split
    all_goals exact nofun
  case commonId imsi => cases imsi <;> exact planned _ rfl
  all_goals exact planned _ rfl

/-- **C126**: without memory for message buffers, every operation ends the process that otherwise sends a message, other than the
answer to a RESET or a message of the user. -/
theorem C126_no_buffers (env : Env) (w : World) (hw : OnlyNoticed w) (hb : ∀ n, w n .buffer = false) (lax debug : Bool) (n : Nat)
    (op : Op) (s s' : State) (rc : Int) (d : List Out) (hs : step (linked env) op s = .ok (rc, s')) (hd : s'.trace = s.trace ++ d)
    {o : Out} {m : TxMsg} (ho : o ∈ d) (hc : carried o = some m) (hm : ∀ dom r, m ≠ .resetAck dom r) (hr : ∀ l, m ≠ .raw l) :
    step (scarce w lax debug n env) op s = .fault .nullDeref := by
  have hcall : ∃ c, callOf m = some c := by
    cases m with
    | raw l => exact absurd rfl (hr l)
    | _ => exact ⟨_, rfl⟩
  obtain ⟨c, hcall⟩ := hcall
  -- with memory the message was made
  have hmade : ∃ bs, Linked.gen m = .ok (some bs) := by
    have hall : Memory fun _ _ => true := fun _ _ _ => rfl
    rcases C126_partial env (fun _ _ => true) (fun _ _ h => by cases h) lax false n op s with h | ⟨h, -⟩ | ⟨-, h⟩
    · rw [C126_sufficient env _ hall lax false (.inl rfl), hs] at h
      cases h
    · rw [C126_sufficient env _ hall lax false (.inl rfl), hs] at h
      cases h
      have : d = [] := by simpa using hd
      rw [this] at ho
      cases ho
    · obtain ⟨d', hd', hall⟩ := h rc s' hs
      have : d' = d := List.append_cancel_left (hd'.symm.trans hd)
      subst this
      obtain ⟨bs, -, h2⟩ := hall o ho m hc
      exact ⟨bs, h2⟩
  obtain ⟨bs, hmade⟩ := hmade
  refine C126_crash env w hw lax debug n op s s' rc d hs hd ho hc hm ?_
  rcases genW_cases hw lax debug n m with h | h
  · exact h
  · exact absurd (h.trans hmade) (genW_no_buffer hb lax debug n hcall bs)

/-- **C126**, an example: the release command of any context, without memory for buffers. -/
theorem C126_release_crash {env : Env} {ops : List Op} {s : State} {u : Ue} (h0 : run (linked env) ops init = .ok ((), s))
    (hu : u ∈ s.ues) (lax debug : Bool) (n : Nat) :
    step (scarce noBuffers lax debug n env) (.api (.txRelease u.ptr none)) s = .fault .nullDeref := by
  obtain ⟨bs, ⟨m, rc, h1, h2⟩, -⟩ := C73_release h0 hu none (v := .choice 2 (.int 83)) rfl
  have hm : m = .iuRelCmd (.nAS 83) := by
    have hf := deref_live h0 hu
    have h1' : ∃ b, (linked env).gen (.iuRelCmd (.nAS CauseNAS_normal_release)) = .ok (some b) := ⟨_, rfl⟩
    obtain ⟨b, h1'⟩ := h1'
    simp only [step, runApi, iuTxRelease, deref, genMsg, txData, sapDown, emit, bind_eq, modify_run, get_run, lift_ok_run,
      pure_run, hf, Option.getD_none, h1', Res.ok.injEq, Prod.mk.injEq, State.mk.injEq, true_and, List.append_cancel_left_eq,
      List.cons.injEq, Out.sap.injEq, Prim.dataReq.injEq, and_true] at h2
    exact h2.2.1.symm
  subst hm
  exact C126_no_buffers env noBuffers noBuffers_noticed (fun _ => rfl) lax debug n _ s _ rc _ h2 rfl (List.mem_singleton.2 rfl) rfl
    nofun nofun

/-- **C126**: without memory for the list of elements, a release command without its cause, which is mandatory, is handed over as
if all were well. -/
theorem C126_lost {env : Env} {ops : List Op} {s : State} {u : Ue} (h0 : run (linked env) ops init = .ok ((), s))
    (hu : u ∈ s.ues) (lax : Bool) : ∃ rc,
    step (scarce (failsAt 2) lax false 0 env) (.api (.txRelease u.ptr none)) s =
      .ok (rc, { s with trace := s.trace ++ [.sap (.dataReq u.conn (.iuRelCmd (.nAS 83))) rc] }) ∧
    genW (failsAt 2) lax false 0 (.iuRelCmd (.nAS 83)) = .ok (some [0x00, 0x01, 0x00, 0x03, 0x00, 0x00, 0x00]) ∧
    Linked.gen (.iuRelCmd (.nAS 83)) =
      .ok (some [0x00, 0x01, 0x00, 0x08, 0x00, 0x00, 0x01, 0x00, 0x04, 0x40, 0x01, 0x22]) := by
  have hg : ∀ lax, genW (failsAt 2) lax false 0 (.iuRelCmd (.nAS 83)) = .ok (some [0x00, 0x01, 0x00, 0x03, 0x00, 0x00, 0x00]) := by
    decide +kernel
  refine ⟨env.sapRc s (.dataReq u.conn (.iuRelCmd (.nAS 83))), ?_, hg lax, by decide +kernel⟩
  have hf := deref_live h0 hu
  have h1' : (scarce (failsAt 2) lax false 0 env).gen (.iuRelCmd (.nAS CauseNAS_normal_release)) = _ := hg lax
  simp only [step, runApi, iuTxRelease, deref, genMsg, txData, sapDown, emit, bind_eq, modify_run, get_run, lift_ok_run,
    pure_run, hf, Option.getD_none, h1']
  rfl

/-- **C126** is violated. -/
theorem C126_violated : ¬ C126_full := by
  intro h
  obtain ⟨s, h0, hs⟩ := one_connected
  have hs := of_decide_eq_true hs
  obtain ⟨u, hu, hp⟩ : ∃ u, u ∈ s.ues ∧ u.ptr = 1 := by
    cases hl : s.ues with
    | nil => rw [hl] at hs; cases hs
    | cons u l =>
      rw [hl] at hs
      simp only [List.map_cons, List.cons.injEq, Prod.mk.injEq] at hs
      exact ⟨u, List.mem_cons_self .., hs.1.1⟩
  obtain ⟨bs, ⟨m, rc, -, h2⟩, -⟩ := C73_release h0 hu none (v := .choice 2 (.int 83)) rfl
  obtain ⟨rc', s', h3, -⟩ := h Demo.env _ s (.api (.txRelease u.ptr none)) noBuffers false false 0 h0 ⟨_, h2⟩
  rw [C126_release_crash h0 hu] at h3
  cases h3

/-- A RESET for which there is no memory is not answered; without such a want it is. -/
example : (step (scarce noBuffers false false 0 Demo.env) (.unitdataInd (Demo.addr 1) [0x00, 0x09, 0x00, 0x0d, 0x00, 0x00, 0x02,
      0x00, 0x04, 0x40, 0x01, 0x40, 0x00, 0x03, 0x00, 0x01, 0x00]) init).isOk = true ∧
    ((linked Demo.env).decodeCl [0x00, 0x09, 0x00, 0x0d, 0x00, 0x00, 0x02, 0x00, 0x04, 0x40, 0x01, 0x40, 0x00, 0x03, 0x00, 0x01,
      0x00]).map (fun m => (m.dir, m.proc)) = some (1, 9) := by
  decide +kernel

end Verif.Props
