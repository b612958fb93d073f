import Verif.Spec.Session
import Verif.Proofs.IuFrame
import Verif.Proofs.Linked
import Verif.Props.HnbClient
import Verif.Props.HnbPaging

/-!
# A location update: what the client does
-/

namespace Verif.Session
open Verif.Iu Verif.Iu.Spec Verif.Linked

variable {env : Iu.Env} {c : ConnId}

theorem acts_append (c : ConnId) (a b : List Out) : acts c (a ++ b) = acts c a ++ acts c b := List.filterMap_append ..
theorem sends_append (a b : List Act) : sends (a ++ b) = sends a ++ sends b := List.filterMap_append ..

theorem act_conn {o : Out} (h : outConn o ≠ some c) : act c o = none := by
  cases o with
  | sap p rc =>
    cases p with
    | unitdataReq => rfl
    | connectResp => simp only [outConn, ne_eq, Option.some.injEq] at h; simp [act, h]
    | dataReq => simp only [outConn, ne_eq, Option.some.injEq] at h; simp [act, h]
    | disconnectReq => simp only [outConn, ne_eq, Option.some.injEq] at h; simp [act, h]
  | recv => simp only [outConn, ne_eq, Option.some.injEq] at h; simp [act, h]
  | event x e =>
    cases x with
    | none => rfl
    | some x => obtain ⟨p, c'⟩ := x; simp only [outConn, ne_eq, Option.some.injEq] at h; simp [act, h]

theorem acts_conn {d : List Out} (h : ∀ o ∈ d, outConn o ≠ some c) : acts c d = [] := by
  unfold acts
  rw [List.filterMap_eq_nil_iff]
  exact fun o ho => act_conn (h o ho)

/-- Nothing changes for a connection. -/
structure Same (c : ConnId) (s s' : State) : Prop where
  ues : s'.ues.filter (·.conn = c) = s.ues.filter (·.conn = c)
  cache : s'.cache.filter (·.1 = c) = s.cache.filter (·.1 = c)
  acts : acts c s'.trace = acts c s.trace

theorem Same.trans {a b e : State} (h : Same c a b) (h' : Same c b e) : Same c a e :=
  ⟨h'.ues.trans h.ues, h'.cache.trans h.cache, h'.acts.trans h.acts⟩

theorem filter_other {α : Type} {l l' : List α} {f : α → ConnId} {c c' : ConnId} (hc : c' ≠ c)
    (h : l.filter (fun x => f x ≠ c') = l'.filter (fun x => f x ≠ c')) :
    l.filter (fun x => f x = c) = l'.filter (fun x => f x = c) := by
  have key : ∀ l : List α, l.filter (fun x => f x = c) = (l.filter fun x => f x ≠ c').filter fun x => f x = c := by
    intro l
    rw [List.filter_filter]
    refine List.filter_congr fun x _ => ?_
    by_cases hx : f x = c
    · simp [hx, Ne.symm hc]
    · simp [hx]
  rw [key l, key l', h]

theorem Same.frame {s s' : State} {c' : ConnId} (h : Frame c' s s') (hc : c' ≠ c) : Same c s s' := by
  refine ⟨filter_other hc h.ues, filter_other hc h.cache, ?_⟩
  obtain ⟨d, hd, ho⟩ := h.trace
  rw [hd, acts_append, acts_conn (d := d) (fun o hm hx => hc (ho o hm c hx).symm), List.append_nil]

/-- Other traffic. -/
theorem same_other (hc : OwnCallbacks env) {op : Op} {s s' : State} {rc : Int} (hi : Inv s) (ho : Other c s op)
    (h : step env op s = .ok (rc, s')) : Same c s s' := by
  have conn : ∀ c', opConn op = some c' → c' ≠ c → Same c s s' := fun c' h1 h2 => .frame (step_frame hc hi h h1) h2
  have on : ∀ u ∈ s.ues, On u.ptr u.conn s := fun u hu v hv hp => by rw [ue_inj hi.ueNodup hv hu hp]
  cases op with
  | connectInd c' a d => exact conn _ rfl ho
  | disconnectInd c' d => exact conn _ rfl ho
  | dataInd c' d => exact conn _ rfl ho
  | unitdataInd a d =>
    have : wp anyF (step env (.unitdataInd a d)) (fun _ s' => Same c s s') s := by
      have hid : Same c s s := ⟨rfl, rfl, rfl⟩
      unfold step
      dsimp only
      split
      · exact hid
      · simp only [wp_bind, wp_pure]
        unfold handleCl
        split
        · split
          · split
            · simp only [wp_bind, wp_pure]
              unfold handleClReset
              simp only [wp_bind, wp_lift]
              split
              · split
                · exact hid
                · rw [wp_sapDown]
                  exact ⟨rfl, rfl, by rw [acts_append]; simp [acts, act]⟩
              · trivial
            · trivial
          · split
            · split
              · exact hid
              · trivial
            · exact hid
        · exact hid
    exact wp_ok (Q := fun _ s' => Same c s s') this h
  | timer p =>
    obtain ⟨u, hu, rfl, hne⟩ := ho
    have : wp anyF (step env (.timer u.ptr)) (fun _ s' => Same c s s') s := by
      unfold step
      simp only [wp_bind, wp_get]
      split
      · simp only [wp_bind, wp_modify, wp_pure]
        refine wp_mono (fr_iuEvent hc _ (p := u.ptr) (c := u.conn) (s := { s with timers := s.timers.filter (·.1 ≠ u.ptr) })
          (on u hu)) ?_
        rintro _ s1 ⟨h1, -⟩
        have : Same c s { s with timers := s.timers.filter (·.1 ≠ u.ptr) } := ⟨rfl, rfl, rfl⟩
        exact this.trans (.frame h1 hne)
      · exact ⟨rfl, rfl, rfl⟩
    exact wp_ok (Q := fun _ s' => Same c s s') this h
  | api a =>
    have none : args a = [] → Same c s s' := fun hn => by
      have hown := wp_ok (ow_runApi (env := env) (p := none) (by rw [hn]; simp) s) h
      refine ⟨?_, by rw [hown.eff.cache], ?_⟩
      · rcases hown.ues with e | ⟨q, hq, -⟩
        · rw [e]
        · cases hq
      · obtain ⟨d, hd, -, hx⟩ := hown.trace
        have : acts c d = [] := acts_conn fun o hm hoc => by
          obtain ⟨u, -, h1, -⟩ := hx o hm c hoc
          cases h1
        rw [hd, acts_append, this, List.append_nil]
    have one : ∀ p, args a = [p] → Same c s s' := fun p hp => by
      obtain ⟨u, hu, rfl, hne⟩ := ho p (by rw [hp]; simp)
      have hown := wp_ok (ow_runApi (env := env) (p := some u.ptr) (by rw [hp]; simp) s) h
      exact .frame (hown.frame (on u hu)) hne
    cases a with
    | freeUe ue => cases ue with
      | none => exact none rfl
      | some p => exact one p rfl
    | tx ue nas sapi => cases ue with
      | none => exact none rfl
      | some p => exact one p rfl
    | txRelease p => exact one p rfl
    | txReleaseFree p => exact one p rfl
    | txSecModeCmd p => exact one p rfl
    | txCommonId p => exact one p rfl
    | rabAct p => exact one p rfl
    | rabDeact p => exact one p rfl
    | pageCs => exact none rfl
    | pagePs => exact none rfl
    | pageCs2 => exact none rfl
    | pagePs2 => exact none rfl
  | connectConf => exact ho.elim
  | noticeInd => exact ho.elim
  | pcstateInd => exact ho.elim
  | otherInd => exact ho.elim

/-! ## One step more -/

theorem runOk_append {ops : List Op} {op : Op} {s s' : State} (h : RunOk env s ops) (h0 : run env ops s = .ok ((), s'))
    (ho : OpOk env s' op) : RunOk env s (ops ++ [op]) := by
  induction ops generalizing s with
  | nil => cases h0; exact ⟨ho, fun _ _ _ => trivial⟩
  | cons x ops ih =>
    obtain ⟨rc, s1, h1, h2⟩ := Iu.run_cons h0
    refine ⟨h.1, fun rc' s2 h3 => ?_⟩
    rw [h1] at h3
    cases h3
    exact ih (h.2 _ _ h1) h2

theorem client_step {s s' : State} {op : Op} {rc : Int} (h : Props.Client env s) (ho : OpOk (linked env) s op)
    (hs : step (linked env) op s = .ok (rc, s')) : Props.Client env s' := by
  obtain ⟨h1, h2, ops, h3, h4⟩ := h
  refine ⟨h1, h2, ops ++ [op], runOk_append h3 h4 ho, ?_⟩
  rw [Props.iu_run_append h4, Props.run_step hs]
  rfl

theorem client_inv {s : State} (h : Props.Client env s) : Inv s := by
  obtain ⟨-, -, ops, -, h4⟩ := h
  exact Props.reach_inv h4

/-! ## Callbacks -/

/-- The calls of a callback, made for a live context of the connection: what is seen of them. -/
def Runs (env : Env) (u : Ue) (sc : Script) (l : List Act) : Prop :=
  ∀ s : State, s.ues.find? (·.ptr = u.ptr) = some u →
    ∃ s', runScript env sc s = .ok ((), s') ∧ s'.ues = s.ues ∧ s'.cache = s.cache ∧
      acts u.conn s'.trace = acts u.conn s.trace ++ l

theorem Runs.done (u : Ue) : Runs env u .done [] := fun s _ => ⟨s, rfl, rfl, rfl, by simp⟩

theorem act_self (m : TxMsg) (rc : Int) : acts c [.sap (.dataReq c m) rc] = [.send m] := by simp [acts, act]

theorem Runs.tx {u : Ue} {sapi : Byte} {nas bs : Bytes} {sc : Script} {l : List Act} (hg : env.gen (.dt sapi nas) = .ok (some bs))
    (h : Runs env u sc l) : Runs env u (.call (.tx (some u.ptr) nas sapi) fun _ => sc) (.send (.dt sapi nas) :: l) := by
  intro s hf
  obtain ⟨s', h1, h2, h3, h4⟩ := h { s with trace := s.trace ++ [.sap (.dataReq u.conn (.dt sapi nas)) (env.sapRc s (.dataReq u.conn (.dt sapi nas)))] } hf
  refine ⟨s', ?_, h2, h3, ?_⟩
  · rw [← h1]
    have hb : s.txBufs + 1 + -1 = s.txBufs := by omega
    simp [runScript, runApi, iuTx, txBuf, deref, genMsg, txData, sapDown, emit, bind_eq, modify_run, get_run, lift_ok_run, pure_run,
      hf, hg, hb]
  · rw [h4, acts_append, act_self]; simp

theorem Runs.security {u : Ue} {ik ck bs : Bytes} {sendCk newKey : Bool} {sc : Script} {l : List Act}
    (hg : env.gen (.secModCmd ik (if sendCk then some ck else none) newKey) = .ok (some bs))
    (h : Runs env u sc l) : Runs env u (.call (.txSecModeCmd u.ptr ik ck sendCk newKey) fun _ => sc)
      (.send (.secModCmd ik (if sendCk then some ck else none) newKey) :: l) := by
  intro s hf
  generalize hm : TxMsg.secModCmd ik (if sendCk then some ck else none) newKey = m at *
  obtain ⟨s', h1, h2, h3, h4⟩ := h { s with trace := s.trace ++ [.sap (.dataReq u.conn m) (env.sapRc s (.dataReq u.conn m))] } hf
  refine ⟨s', ?_, h2, h3, ?_⟩
  · rw [← h1]
    simp only [runScript, runApi, iuTxSecModeCmd, deref, genMsg, txData, sapDown, emit, bind_eq, modify_run, get_run, lift_ok_run,
      pure_run, hf, hg, hm]
  · rw [h4, acts_append, act_self]; simp

theorem free_run {u : Ue} {s : State} (hf : s.ues.find? (·.ptr = u.ptr) = some u) :
    ∃ s', runScript env (.call (.freeUe (some u.ptr)) fun _ => .done) s = .ok ((), s') ∧
      s'.ues = s.ues.filter (·.ptr ≠ u.ptr) ∧ s'.cache = s.cache ∧ acts u.conn s'.trace = acts u.conn s.trace ++ [.close] := by
  refine ⟨{ s with
      ues := s.ues.filter (·.ptr ≠ u.ptr), timers := s.timers.filter (·.1 ≠ u.ptr), blocks := s.blocks - 1,
      trace := s.trace ++ [.sap (.disconnectReq u.conn) (env.sapRc { s with timers := s.timers.filter (·.1 ≠ u.ptr) }
        (.disconnectReq u.conn))] }, ?_, rfl, rfl, ?_⟩
  · simp only [runScript, runApi, freeUe, deref, sapDown, emit, bind_eq, modify_run, get_run, pure_run, hf]
  rw [acts_append]
  simp [acts, act]

/-! ## Messages for the context -/

/-- The connection has one context, which gets events. -/
def Held (c : ConnId) (s : State) (u : Ue) : Prop := s.ues.filter (·.conn = c) = [u] ∧ u.notification = true

theorem Held.find {s : State} {u : Ue} (h : Held c s u) : ctxFind s c = some u := by
  unfold ctxFind
  rw [← List.head?_filter, h.1]
  rfl

theorem Held.mem {s : State} {u : Ue} (h : Held c s u) : u ∈ s.ues ∧ u.conn = c := by
  have : u ∈ s.ues.filter (·.conn = c) := by rw [h.1]; simp
  simpa using this

theorem Held.live {s : State} {u : Ue} (hi : Inv s) (h : Held c s u) : s.ues.find? (·.ptr = u.ptr) = some u := by
  obtain ⟨v, hv⟩ := live_find (s := s) (p := u.ptr) ⟨u, h.mem.1, rfl⟩
  obtain ⟨hv1, hv2⟩ := find_live hv
  rw [hv, ue_inj hi.ueNodup hv1 h.mem.1 hv2]

theorem callback_eq (o : Out) (s : State) :
    callback env o s = runScript env (env.cb { s with trace := s.trace ++ [o] } o) { s with trace := s.trace ++ [o] } := rfl

theorem dt_acts {s : State} {u : Ue} {data : Bytes} {ies : DtIes} {sc : Script} {l : List Act} (hi : Inv s) (hu : Held c s u)
    (hd : env.decodeCo data = some ⟨PR_initiatingMessage, id_DirectTransfer, .directTransfer ies⟩) (hl : ies.lai = none) (hn : ies.nas.length ≤ 256)
    (hcb : ∀ s, env.cb s (.recv u.ptr c ies.nas none none) = sc) (hr : Runs env u sc l) :
    ∃ s', step env (.dataInd c data) s = .ok (0, s') ∧ s'.ues = s.ues ∧ s'.cache = s.cache ∧
      acts c s'.trace = acts c s.trace ++ .got ies.nas :: l := by
  have hf := hu.live hi
  obtain ⟨-, rfl⟩ := hu.mem
  obtain ⟨s', h1, h2, h3, h4⟩ := hr { s with nasBufs := s.nasBufs + 1, trace := s.trace ++ [.recv u.ptr u.conn ies.nas none none] } hf
  refine ⟨{ s' with nasBufs := s'.nasBufs - 1 }, ?_, h2, h3, ?_⟩
  · unfold step
    simp only [bind_eq, get_run, hu.find, rxCo, hd]
    unfold handleCo
    rw [if_pos rfl, if_neg (show ¬ id_DirectTransfer = id_InitialUE_Message by decide), if_pos rfl]
    simp only [bind_eq, handleDt, nasAlloc, modify_run, hl, pure_run, nasPut, if_pos hn, deref, hf, callback_eq, hcb, h1, nasFree]
  · simp only [h4, acts_append, List.append_assoc]
    congr 1
    simp [acts, act]

theorem event_acts {s : State} {u : Ue} {data : Bytes} {k : Nat} {b : Body} {e : Event} {sc : Script} {l : List Act} (hi : Inv s)
    (hu : Held c s u) (he : env.hasEventCb = true) (hd : env.decodeCo data = some ⟨PR_successfulOutcome, k, b⟩)
    (hk : (k = id_SecurityModeControl ∧ e = .securityModeComplete) ∨ (k = id_Iu_Release ∧ e = .iuRelease))
    (hcb : ∀ s, env.cb s (.event (some (u.ptr, c)) e) = sc)
    {s' : State} (h1 : runScript env sc { s with trace := s.trace ++ [.event (some (u.ptr, c)) e] } = .ok ((), s'))
    (h4 : acts c s'.trace = acts c (s.trace ++ [.event (some (u.ptr, c)) e]) ++ l) :
    step env (.dataInd c data) s = .ok (0, s') ∧ acts c s'.trace = acts c s.trace ++ .told e :: l := by
  have hf := hu.live hi
  obtain ⟨-, rfl⟩ := hu.mem
  constructor
  · unfold step
    simp only [bind_eq, get_run, hu.find, rxCo, hd]
    unfold handleCo
    rw [if_neg (show ¬ PR_successfulOutcome = PR_initiatingMessage by decide), if_pos rfl]
    have key : iuEvent env (some u.ptr) e s = .ok ((), s') := by
      simp only [iuEvent, he, if_pos, bind_eq, deref, hf, hu.2, callback_eq, hcb, h1]
    rcases hk with ⟨rfl, rfl⟩ | ⟨rfl, rfl⟩
    · rw [if_pos rfl, key]; rfl
    · rw [if_neg (show ¬ id_Iu_Release = id_SecurityModeControl by decide), if_pos rfl, key]; rfl
  · rw [h4, acts_append, List.append_assoc]
    congr 1
    simp [acts, act]

/-! ## The connection request -/

/-- The registration of the RNC, and what the user does about a new area. -/
theorem register_same (hc : OwnCallbacks env) (id : RncId) (rai : Verif.Rai) (addr : SccpAddr) {s : State} (hi : Inv s) :
    wp anyF (rncRegister env id rai addr) (fun _ s1 => s1.ues = s.ues ∧ s1.cache = s.cache ∧ acts c s1.trace = acts c s.trace ∧
      recvs s1.trace = recvs s.trace ∧ ∀ u ∈ s1.ues, u.ptr < s1.next) s := by
  unfold wp
  rw [rncRegister_eq]
  have hinv := (regState_inv (env := env) id rai addr s hi).1
  have : wp anyF (regEvent env s id rai addr >>= fun _ => pure (regPtr env s id addr))
      (fun _ s1 => s1.ues = s.ues ∧ s1.cache = s.cache ∧ acts c s1.trace = acts c s.trace ∧
        recvs s1.trace = recvs s.trace ∧ ∀ u ∈ s1.ues, u.ptr < s1.next) (regState env s id rai addr) := by
    simp only [wp_bind, wp_pure]
    have h0 := hinv.ueLt
    unfold regEvent
    split
    · rw [iuEventNewArea_eq]
      unfold iuEvent
      split
      · refine wp_mono (ow_callback hc _ _) ?_
        intro _ s1 h
        have hues : s1.ues = s.ues := by
          rcases h.ues with e | ⟨q, hq, -⟩
          · exact e
          · cases hq
        obtain ⟨d, hd, hsap, hx⟩ := h.trace
        refine ⟨hues, h.eff.cache, ?_, ?_, ?_⟩
        · have : acts c d = [] := acts_conn fun o hm hoc => by
            obtain ⟨u, -, h1, -⟩ := hx o hm c hoc
            cases h1
          rw [hd, acts_append, acts_append, this]
          simp [acts, act, regState]
        · have : recvs d = [] := by
            unfold recvs
            rw [List.filterMap_eq_nil_iff]
            intro o ho
            have := hsap o ho
            cases o <;> first | rfl | cases this
          rw [hd, recvs_append, recvs_append, this]
          simp [recvs, regState]
        · rw [hues, h.eff.next]
          exact h0
      · exact ⟨rfl, rfl, rfl, rfl, h0⟩
    · exact ⟨rfl, rfl, rfl, rfl, h0⟩
  exact this

theorem accept_acts (hc : OwnCallbacks env) {s s' : State} {a : SccpAddr} {data : Bytes} {ies : InitialUeIes} {rc : Int} {d : List Out}
    {req bs : Bytes} {sapi : Byte} (hi : Inv s) (hn : s.ues.filter (·.conn = c) = [])
    (hcb : ∀ s p ra sai, env.cb s (.recv p c ies.nas ra sai) = .call (.tx (some p) req sapi) fun _ => .done)
    (hg : env.gen (.dt sapi req) = .ok (some bs)) (h0 : data.length ≠ 0)
    (hd : env.decodeCo data = some ⟨PR_initiatingMessage, id_InitialUE_Message, .initialUe ies⟩)
    (hs : step env (.connectInd c a data) s = .ok (rc, s')) (ht : Happened s s' d) (hr : recvs d ≠ []) :
    ∃ u, Held c s' u ∧ acts c s'.trace = acts c s.trace ++ [.accept, .got ies.nas, .send (.dt sapi req)] := by
  have key : wp anyF (step env (.connectInd c a data)) (fun _ s' => recvs s'.trace = recvs s.trace ∨
      ∃ u, Held c s' u ∧ acts c s'.trace = acts c s.trace ++ [.accept, .got ies.nas, .send (.dt sapi req)]) s := by
    unfold step
    simp only [wp_bind, wp_sapDown]
    rw [if_neg h0]
    unfold rxCo
    rw [hd]
    simp only [wp_bind, wp_pure]
    unfold handleCoInitial
    rw [if_neg (by simp)]
    simp only [wp_bind, wp_pure]
    generalize hs0 : ({ s with trace := s.trace ++ [.sap (.connectResp c) (env.sapRc s (.connectResp c))] } : State) = s0
    have e1 : s0.ues = s.ues := by rw [← hs0]
    have e2 : recvs s0.trace = recvs s.trace := by rw [← hs0]; simp [recvs_append]; rfl
    have e3 : acts c s0.trace = acts c s.trace ++ [.accept] := by rw [← hs0]; simp [acts_append, acts, act]
    have hi0 : Inv s0 := by rw [← hs0]; exact hi.congr rfl rfl rfl rfl
    unfold wp
    rw [handleInitialUe_eq]
    cases initialCheck ies with
    | fault e => trivial
    | ok o =>
      cases o with
      | none => exact .inl e2
      | some x =>
        obtain ⟨id, ra, sai⟩ := x
        have : wp anyF (initialTail env ⟨a, c⟩ id ra ies.nas sai) (fun _ s' => recvs s'.trace = recvs s.trace ∨
            ∃ u, Held c s' u ∧ acts c s'.trace = acts c s.trace ++ [.accept, .got ies.nas, .send (.dt sapi req)])
            { s0 with nasBufs := s0.nasBufs + 1 } := by
          unfold initialTail
          simp only [wp_bind]
          refine wp_mono (register_same (c := c) hc id (gprsRaiToOsmo ra) a (s := { s0 with nasBufs := s0.nasBufs + 1 })
            (hi0.congr rfl rfl rfl rfl)) ?_
          rintro r s1 ⟨h1, h2, h3, h4, h5⟩
          simp only [ctxAlloc, wp_bind, wp_get, wp_modify, wp_pure]
          rw [List.map_cons, if_pos rfl]
          change wp anyF _ _ (allocSt s1 r c ra)
          obtain ⟨s2, g1, g2, g3, g4⟩ := Runs.tx (env := env) (u := ⟨s1.next, r, c, ra, true, false⟩) hg (Runs.done _)
            { allocSt s1 r c ra with trace := s1.trace ++ [.recv s1.next c ies.nas (some ra) (some sai)] } (by simp [allocSt])
          have : callback env (.recv s1.next c ies.nas (some ra) (some sai)) (allocSt s1 r c ra) = .ok ((), s2) := by
            rw [callback_eq, hcb]
            exact g1
          unfold wp
          rw [this]
          simp only [nasFree, wp_modify]
          refine .inr ⟨⟨s1.next, r, c, ra, true, false⟩, ⟨?_, rfl⟩, ?_⟩
          · show s2.ues.filter (·.conn = c) = _
            rw [g2]
            simp only [allocSt]
            rw [List.filter_cons_of_pos (by simp)]
            congr 1
            rw [List.filter_eq_nil_iff]
            intro v hv
            obtain ⟨w, hw, rfl⟩ := List.mem_map.1 hv
            have hne : w.ptr ≠ s1.next := Nat.ne_of_lt (h5 w hw)
            rw [if_neg hne]
            rw [h1] at hw
            change w ∈ s0.ues at hw
            rw [e1] at hw
            exact List.filter_eq_nil_iff.1 hn w hw
          · show acts c s2.trace = _
            refine g4.trans ?_
            show acts c (s1.trace ++ _) ++ _ = _
            rw [acts_append, h3]
            show acts c s0.trace ++ _ ++ _ = _
            rw [e3]
            simp [acts, act]
        exact this
  rcases wp_ok key hs with h | h
  · refine absurd ?_ hr
    rw [ht, recvs_append] at h
    simpa using h
  · exact h

end Verif.Session
