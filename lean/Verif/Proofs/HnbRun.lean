import Verif.Proofs.HnbRx

/-! The HNB emulator: commands and histories. -/

namespace Verif.Hnb
open Verif.Aper Verif.Ie Verif.Ie.Spec Verif.Rx.Spec Verif.Hnb.Spec Verif.Factory.Spec

theorem enqueue_sends {s : State} {m : Rua.Msg} {P : Rua.Msg → Prop} (h : P m) :
    ∃ s', enqueue s (some m) = .ok s' ∧ Sends s s' P := by
  unfold enqueue Sends
  by_cases hq : 16 ≤ s.queue.length
  · simp only [if_pos hq]
    exact ⟨s, rfl, rfl⟩
  · simp only [if_neg hq]
    exact ⟨_, rfl, m, h, rfl⟩

theorem reset_sends (s : State) (isPs : Bool) : ∃ s', resetTx s isPs = .ok s' ∧ Sends s s' (Resets isPs) := by
  obtain ⟨bs, h1, h2, h3⟩ := Factory.reset_length (d := if isPs then 1 else 0) (c := ⟨2, 65⟩)
    (by cases isPs <;> decide) (by decide)
  obtain ⟨tr, m, e1, -, e2⟩ := Props.C58_udt bs (by omega)
  unfold resetTx
  rw [h1]
  dsimp only
  rw [e1]
  exact enqueue_sends ⟨rfl, bs, h2, e2⟩

/-- The state after the channel command, but for the message. -/
def opened (s : State) (isPs : Bool) : State :=
  { s with nextConn := s.nextConn + 1, chan := if isPs then s.chan else some ⟨false, s.nextConn.setWidth 32⟩ }

theorem channel_sends (s : State) (isPs : Bool) (imsi : Bytes) : ∃ s', channel s isPs imsi = .ok s' ∧
    Sends (opened s isPs) s' (Opens isPs (s.nextConn.setWidth 32) locationUpdatingRequest) := by
  obtain ⟨bs, h1, h2, h3, -⟩ := Factory.ue_length (s.nextConn.setWidth 32) isPs (r := ⟨[0x09, 0x01, 0x99], 23⟩) (by decide) luReq
    (by decide)
  have hl : luReq.length = 23 := rfl
  obtain ⟨tr, m, e1, -, e2⟩ := Props.C58_connect isPs (s.nextConn.setWidth 32) bs (by omega)
  have hP : Opens isPs (s.nextConn.setWidth 32) locationUpdatingRequest ⟨m, 19⟩ := ⟨rfl, bs, h2, e2⟩
  unfold channel initueLu
  dsimp only
  rw [h1]
  dsimp only
  rw [e1]
  unfold enqueueRua enqueue Sends opened
  dsimp only
  by_cases hq : 16 ≤ s.queue.length
  · simp only [if_pos hq]
    cases isPs <;> exact ⟨_, rfl, rfl⟩
  · simp only [if_neg hq]
    cases isPs <;> exact ⟨_, rfl, _, hP, rfl⟩

theorem ruaRx_result {env : Env} {s : State} (hs : CsOnly s) (data : Bytes) :
    (FatalCo env s data ∧ ∃ f, ruaRx env s data = .fault f) ∨
    (¬ FatalCo env s data ∧ ((∃ a s', Asks env s data a ∧ ruaRx env s data = .ok s' ∧ Replied s s' a) ∨
      (∃ t, Paged data t ∧ ruaRx env s data = .ok (print s (.paging t))) ∨
      ((¬ ∃ a, Asks env s data a) ∧ (¬ ∃ t, Paged data t) ∧ ruaRx env s data = .ok s))) := by
  have hxor : (∃ p c l, Co data p c l) → ¬ ∃ x, Cl data x := by
    rintro ⟨p, c, l, r, hr, -⟩ ⟨x, r', hr', -⟩
    exact absurd (ruaMsg_unique hr hr').1 (by decide)
  have hpc : (∃ t, Paged data t) → ∃ x, Cl data x := by
    rintro ⟨t, ht⟩
    cases ht with
    | imsi h => exact ⟨_, h⟩
    | noImsi h => exact ⟨_, h⟩
    | outcome h => exact ⟨_, h⟩
  have hac : (∃ a, Asks env s data a) → ∃ p c l, Co data p c l := by
    rintro ⟨a, ha⟩
    cases ha with
    | nas h => exact ⟨_, _, _, h⟩
    | security h => exact ⟨_, _, _, h⟩
    | release h => exact ⟨_, _, _, h⟩
  have hfc : FatalCo env s data → ∃ p c l, Co data p c l := fun ⟨p, c, l, h, _⟩ => ⟨p, c, l, h⟩
  by_cases hco : ∃ p c l, Co data p c l
  · have hn : ¬ ∃ t, Paged data t := fun h => hxor hco (hpc h)
    obtain ⟨p, c, l, h⟩ := hco
    rcases co_result hs h with h | ⟨h0, h | h⟩
    · exact .inl h
    · exact .inr ⟨h0, .inl h⟩
    · exact .inr ⟨h0, .inr (.inr ⟨h.1, hn, h.2⟩)⟩
  · refine .inr ⟨fun h => hco (hfc h), .inr ?_⟩
    have hna : ¬ ∃ a, Asks env s data a := fun h => hco (hac h)
    by_cases hcl : ∃ x, Cl data x
    · obtain ⟨x, hx⟩ := hcl
      rcases cl_result (env := env) (s := s) hx with h | h
      · exact .inl h
      · exact .inr ⟨hna, h⟩
    · exact .inr ⟨hna, fun h => hcl (hpc h), rx_other hco hcl⟩

/-! ## Everything there is to say about one step -/

/-- What happens for a message or command that does not kill the program. -/
def Effect (env : Env) (s : State) (op : Op) (s' : State) : Prop :=
  match op with
  | .recv ppid data =>
    if s.up = true ∧ ppid = 19 then
      (∃ a, Asks env s data a ∧ Replied s s' a) ∨
      (∃ t, Paged data t ∧ s' = { s with prints := s.prints ++ [.paging t] }) ∨
      ((¬ ∃ a, Asks env s data a) ∧ (¬ ∃ t, Paged data t) ∧ s' = s)
    else if s.up = true ∧ ppid = 20 then
      (∃ n, Registered data n ∧ s' = { s with rncId := n, prints := s.prints ++ [.registered n] }) ∨
      (∃ t ctx, UeRegistered data t ctx ∧ s' = { s with ctxId := ctx, prints := s.prints ++ [.ueRegistered t ctx] }) ∨
      ((¬ ∃ n, Registered data n) ∧ (¬ ∃ t ctx, UeRegistered data t ctx) ∧ s' = s)
    else s' = s
  | .notification => s' = s
  | .closed => s' = { s with up := false }
  | .writable => if s.up = true then s' = { s with queue := s.queue.drop 1, sent := s.sent ++ s.queue.take 1 } else s' = s
  | .register => Queued s s' 1 Gen.Hnbap.hNBRegisterRequestIEs registerElems
  | .deregister => Queued s s' 2 Gen.Hnbap.hNBDe_RegisterIEs [(1, .choice 3 (.enum 2))]
  | .ueRegister imsi => Queued s s' 3 Gen.Hnbap.uERegisterRequestIEs (ueRegisterElems (Bcd.tbcd imsi))
  | .reset isPs => Sends s s' (Resets isPs)
  | .channel isPs _ => Sends (opened s isPs) s' (Opens isPs (s.nextConn.setWidth 32) locationUpdatingRequest)

theorem step_result {env : Env} {s : State} (hs : CsOnly s) (op : Op) :
    (Kills env s op ∧ ∃ f, step env s op = .fault f) ∨
    (¬ Kills env s op ∧ ∃ s', step env s op = .ok s' ∧ Effect env s op s') := by
  cases op with
  | recv ppid data =>
    unfold step Kills Effect
    dsimp only
    cases hup : s.up with
    | false => simp
    | true =>
      by_cases h20 : ppid = 20
      · subst h20
        simp only [if_true, true_and, Nat.reduceEqDiff, false_and, false_or, if_false]
        rcases hnbap_result s data with ⟨h, hf⟩ | ⟨h, hr⟩
        · exact .inl ⟨h, hf⟩
        · refine .inr ⟨h, ?_⟩
          rcases hr with ⟨n, h1, h2⟩ | ⟨t, ctx, h1, h2⟩ | ⟨h1, h2, h3⟩
          · exact ⟨_, h2, .inl ⟨n, h1, by simp [hup]⟩⟩
          · exact ⟨_, h2, .inr (.inl ⟨t, ctx, h1, by simp [hup]⟩)⟩
          · exact ⟨_, h3, .inr (.inr ⟨h1, h2, rfl⟩)⟩
      · by_cases h19 : ppid = 19
        · subst h19
          simp only [if_true, true_and, Nat.reduceEqDiff, false_and, or_false, if_false]
          rcases ruaRx_result (env := env) hs data with ⟨h, hf⟩ | ⟨h, hr⟩
          · exact .inl ⟨h, hf⟩
          · refine .inr ⟨h, ?_⟩
            rcases hr with ⟨a, s', h1, h2, h3⟩ | ⟨t, h1, h2⟩ | ⟨h1, h2, h3⟩
            · exact ⟨_, h2, .inl ⟨a, h1, h3⟩⟩
            · exact ⟨_, h2, .inr (.inl ⟨t, h1, by simp [print, hup]⟩)⟩
            · exact ⟨_, h3, .inr (.inr ⟨h1, h2, rfl⟩)⟩
        · simp [h20, h19]
  | notification => exact .inr ⟨id, s, rfl, rfl⟩
  | closed => exact .inr ⟨id, _, rfl, rfl⟩
  | writable =>
    refine .inr ⟨id, ?_⟩
    unfold step Effect
    dsimp only
    cases hup : s.up with
    | false => simp
    | true =>
      cases hq : s.queue with
      | nil => exact ⟨s, rfl, by cases s; simp_all⟩
      | cons m q => exact ⟨_, rfl, by simp⟩
  | register =>
    obtain ⟨s', h1, h2⟩ := registerTx_queued s
    exact .inr ⟨id, s', h1, h2⟩
  | deregister =>
    obtain ⟨s', h1, h2⟩ := deregisterTx_queued s
    exact .inr ⟨id, s', h1, h2⟩
  | ueRegister imsi =>
    obtain ⟨h1, h2⟩ := ueRegisterTx_spec s imsi
    by_cases h : 5 ≤ imsi.length ∧ imsi.length ≤ 16
    · exact .inr ⟨by unfold Kills; dsimp only; omega, h1 h⟩
    · exact .inl ⟨by unfold Kills; dsimp only; omega, h2 h⟩
  | reset isPs => exact .inr ⟨id, reset_sends s isPs⟩
  | channel isPs imsi => exact .inr ⟨id, channel_sends s isPs imsi⟩

/-! ## Histories -/

/-- What the steps leave alone or change together. -/
structure Frame (s s' : State) : Prop where
  cs : CsOnly s → CsOnly s'
  len : s.queue.length ≤ 16 → s'.queue.length ≤ 16

theorem replied_state {s s' : State} {a : Answer} (h : Replied s s' a) :
    s' = s ∨ (s.queue.length < 16 ∧ ∃ c m, s.chan = some c ∧ IsReply m c.connId a ∧ s' = { s with queue := s.queue ++ [m] }) := by
  unfold Replied at h
  split at h
  · exact .inl h
  · rename_i c hc
    split at h
    · exact .inl h
    · obtain ⟨m, h1, h2⟩ := h
      exact .inr ⟨by omega, c, m, hc, h1, h2⟩

theorem queued_state {s s' : State} {code : Nat} {m : MsgDef} {want : List (Nat × Val)} (h : Queued s s' code m want) :
    s' = s ∨ (s.queue.length < 16 ∧ ∃ bs, HnbapUnderstood bs code m want ∧ s' = { s with queue := s.queue ++ [⟨bs, 20⟩] }) := by
  unfold Queued at h
  split at h
  · exact .inl h
  · obtain ⟨bs, h1, h2⟩ := h
    exact .inr ⟨by omega, bs, h1, h2⟩

theorem sends_state {s s' : State} {P : Rua.Msg → Prop} (h : Sends s s' P) :
    s' = s ∨ (s.queue.length < 16 ∧ ∃ m, P m ∧ s' = { s with queue := s.queue ++ [m] }) := by
  unfold Sends at h
  split at h
  · exact .inl h
  · obtain ⟨bs, h1, h2⟩ := h
    exact .inr ⟨by omega, bs, h1, h2⟩

theorem frame_refl (s : State) : Frame s s := ⟨id, id⟩

theorem frame_append {s : State} (h : s.queue.length < 16) (m : Rua.Msg) : Frame s { s with queue := s.queue ++ [m] } :=
  ⟨id, fun _ => by simp only [List.length_append, List.length_singleton]; omega⟩

theorem effect_frame {env : Env} {s s' : State} {op : Op} (h : Effect env s op s') : Frame s s' := by
  cases op with
  | recv ppid data =>
    unfold Effect at h
    dsimp only at h
    split at h
    · rcases h with ⟨a, -, h⟩ | ⟨t, -, rfl⟩ | ⟨-, -, rfl⟩
      · rcases replied_state h with rfl | ⟨hl, c, m, -, -, rfl⟩
        · exact frame_refl _
        · exact frame_append hl m
      · exact ⟨id, id⟩
      · exact frame_refl _
    · split at h
      · rcases h with ⟨n, -, rfl⟩ | ⟨t, ctx, -, rfl⟩ | ⟨-, -, rfl⟩ <;> exact ⟨id, id⟩
      · subst h; exact frame_refl _
  | notification => cases h; exact frame_refl _
  | closed => cases h; exact ⟨id, id⟩
  | writable =>
    unfold Effect at h
    dsimp only at h
    split at h
    · subst h
      exact ⟨id, fun h => by simp only [List.length_drop]; omega⟩
    · subst h; exact frame_refl _
  | register | deregister | ueRegister imsi =>
    rcases queued_state h with rfl | ⟨hl, bs, -, rfl⟩
    · exact frame_refl _
    · exact frame_append hl _
  | reset isPs =>
    rcases sends_state h with rfl | ⟨hl, m, -, rfl⟩
    · exact frame_refl _
    · exact frame_append hl _
  | channel isPs imsi =>
    have ho : CsOnly s → CsOnly (opened s isPs) := by
      intro hs c hc
      unfold opened at hc
      cases isPs with
      | true => exact hs c hc
      | false => cases hc; rfl
    rcases sends_state h with rfl | ⟨hl, m, -, rfl⟩
    · exact ⟨ho, id⟩
    · exact ⟨ho, (frame_append hl m).len⟩

theorem run_append {env : Env} {s : State} {a b : List Op} : run env s (a ++ b) = match run env s a with
    | .fault f => .fault f
    | .ok s => run env s b := by
  induction a generalizing s with
  | nil => rfl
  | cons op a ih =>
    simp only [List.cons_append, run]
    cases step env s op with
    | fault f => rfl
    | ok s => exact ih

/-- Induction over histories. -/
theorem reach_induct {env : Env} {P : State → Prop} (h0 : P init) (hstep : ∀ s op s', Reach env s → P s → step env s op = .ok s' → P s')
    {s : State} (h : Reach env s) : P s := by
  obtain ⟨ops, h⟩ := h
  have key : ∀ ops, ∀ s, run env init ops = .ok s → P s := by
    intro ops
    induction hn : ops.length generalizing ops with
    | zero =>
      intro s h
      obtain rfl := List.length_eq_zero_iff.1 hn
      cases h
      exact h0
    | succ n ih =>
      intro s h
      obtain ⟨a, op, rfl⟩ : ∃ a op, ops = a ++ [op] :=
        ⟨ops.dropLast, ops.getLast (by rintro rfl; cases hn), (List.dropLast_concat_getLast _).symm⟩
      rw [run_append] at h
      cases hr : run env init a with
      | fault f => rw [hr] at h; cases h
      | ok s1 =>
        rw [hr] at h
        simp only [run] at h
        cases hs : step env s1 op with
        | fault f => rw [hs] at h; cases h
        | ok s2 =>
          rw [hs] at h
          cases h
          exact hstep s1 op _ ⟨a, hr⟩ (ih a (by simp at hn; exact hn) s1 hr) hs
  exact key ops s h

theorem reach_step {env : Env} {s s' : State} {op : Op} (h : Reach env s) (hs : step env s op = .ok s') : Reach env s' := by
  obtain ⟨ops, h⟩ := h
  exact ⟨ops ++ [op], by rw [run_append, h]; simp only [run, hs]⟩

theorem reach_frame {env : Env} {s : State} (h : Reach env s) : CsOnly s ∧ s.queue.length ≤ 16 := by
  refine reach_induct (P := fun s => CsOnly s ∧ s.queue.length ≤ 16) ⟨fun c h => (by cases h), by decide⟩ ?_ h
  intro s op s' _ hs h
  rcases step_result (env := env) hs.1 op with ⟨-, f, hf⟩ | ⟨-, s1, h1, h2⟩
  · rw [hf] at h; cases h
  · rw [h1] at h
    cases h
    exact ⟨(effect_frame h2).cs hs.1, (effect_frame h2).len hs.2⟩

theorem reach_effect {env : Env} {s s' : State} {op : Op} (hr : Reach env s) (h : step env s op = .ok s') : Effect env s op s' := by
  rcases step_result (env := env) (reach_frame hr).1 op with ⟨-, f, hf⟩ | ⟨-, s1, h1, h2⟩
  · rw [hf] at h; cases h
  · rw [h1] at h
    cases h
    exact h2

end Verif.Hnb
