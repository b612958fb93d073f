import Verif.Proofs.IuClosed
import Verif.Props.IuFlow

/-!
# C29 to C33: disconnection, freeing and releasing contexts
-/

namespace Verif.Props
open Verif.Iu Verif.Iu.Spec

variable {env : Env}

/-- The events a user is due when the link of a context is lost. -/
def dueLinkEvent (env : Env) (u : Ue) : List Out :=
  if env.hasEventCb = true ∧ u.notification = true then [.event (some (u.ptr, u.conn)) .linkInvalidated] else []

theorem conn_inj {l : List Ue} (hl : (l.map (·.conn)).Nodup) : ∀ a ∈ l, ∀ b ∈ l, a.conn = b.conn → a = b := by
  induction l with
  | nil => simp
  | cons x l ih =>
    rw [List.map_cons, List.nodup_cons] at hl
    intro a ha b hb hab
    rcases List.mem_cons.1 ha with ha | ha <;> rcases List.mem_cons.1 hb with hb | hb
    · rw [ha, hb]
    · exact absurd (List.mem_map.2 ⟨b, hb, by rw [← hab, ha]⟩) hl.1
    · exact absurd (List.mem_map.2 ⟨a, ha, by rw [hab, hb]⟩) hl.1
    · exact ih hl.2 a ha b hb hab

/-- A plain disconnection, unfolded. -/
theorem plain_disconnect {s : State} {u : Ue} (hci : CInv s) (hu : u ∈ s.ues) :
    step env (.disconnectInd u.conn []) s = (do linkInvalidatedFree env u.ptr; pure 0 : M Int) s := by
  have hcache : s.cache.eraseP (fun e => e.1 = u.conn) = s.cache :=
    List.eraseP_of_forall_not fun e he => by simpa using fun hh => hci.disj u hu e he hh.symm
  have hany : s.cache.any (fun e => e.1 = u.conn) = false :=
    List.any_eq_false.2 fun e he => by simpa using fun hh => hci.disj u hu e he hh.symm
  have hcf : ctxFind s u.conn = some u := by
    cases hx : ctxFind s u.conn with
    | none => exact absurd ⟨u, hu, rfl⟩ (ctxFind_none.1 hx)
    | some v =>
      obtain ⟨h1, h2⟩ := ctxFind_some hx
      rw [conn_inj hci.conns v h1 u hu h2]
  conv => lhs; unfold step
  simp only [bind_eq, cacheDel, modify_run, get_run, hcache, hany, Bool.false_eq_true, Int.sub_zero, hcf, List.length_nil, gt_iff_lt, Nat.lt_irrefl, if_false, pure_run]

/-- **C29.** A plain N-DISCONNECT.ind on a connection with a context: the user gets exactly one
LINK_INVALIDATED for that context if its events are on, and no other callback; the context is
gone if it was marked free-on-release; if it stays, it was not marked and the list of contexts
is unchanged (a handler that acts only on the context may itself have freed it). -/
theorem C29_invalidated_once {ops : List Op} {s s' : State} {rc : Int} {d : List Out} {u : Ue}
    (hc : OwnCallbacks env) (h0 : run env ops init = .ok ((), s)) (hf : FreshConns env init ops) (hu : u ∈ s.ues)
    (h : step env (.disconnectInd u.conn []) s = .ok (rc, s')) (hd : Happened s s' d) :
    callbacks d = dueLinkEvent env u ∧
    (s'.ues = s.ues.filter (fun v => v.ptr ≠ u.ptr) ∨ (s'.ues = s.ues ∧ u.freeOnRelease = false)) ∧
    s'.rncs = s.rncs ∧ s'.cache = s.cache := by
  have hi := reach_inv h0
  have hci := run_cinv h0 CInv.init hf
  rw [plain_disconnect hci hu] at h
  obtain ⟨_, s1, h1, h2⟩ := bind_ok.1 h
  cases h2
  obtain ⟨A, B, hAB⟩ := List.append_of_mem hu
  obtain ⟨k1, k2, k3, _, d', k5, k6, _⟩ := wp_ok (ow_link hc hAB hi.ueNodup hci.conns) h1
  have hdd : d = d' := List.append_cancel_left (hd.symm.trans k5)
  subst hdd
  refine ⟨k6, ?_, k2, k3⟩
  rcases k1 with k1 | k1
  · refine .inl ?_
    rw [k1, hAB]
    exact (mid_filter (by rw [← hAB]; exact hi.ueNodup)).symm
  · exact .inr k1

/-- **C29.** An N-DISCONNECT.ind with a message is the message followed by the plain
disconnection; the return code is that of the message. -/
theorem C29_with_data {ops : List Op} {s : State} {c : ConnId} {data : Bytes}
    (h0 : run env ops init = .ok ((), s)) (hf : FreshConns env init ops) (hx : HasCtx s c) (hd : data ≠ []) :
    step env (.disconnectInd c data) s =
      (do let rc ← step env (.dataInd c data); let _ ← step env (.disconnectInd c []); pure rc : M Int) s := by
  have hci := run_cinv h0 CInv.init hf
  obtain ⟨w, hw, rfl⟩ := hx
  have hcache : ∀ t : State, (∀ e ∈ t.cache, e.1 ≠ w.conn) → t.cache.eraseP (fun e => e.1 = w.conn) = t.cache :=
    fun t ht => List.eraseP_of_forall_not fun e he => by simpa using ht e he
  have hany : ∀ t : State, (∀ e ∈ t.cache, e.1 ≠ w.conn) → t.cache.any (fun e => e.1 = w.conn) = false :=
    fun t ht => List.any_eq_false.2 fun e he => by simpa using ht e he
  have hno : ∀ e ∈ s.cache, e.1 ≠ w.conn := fun e he hh => hci.disj w hw e he hh.symm
  cases hu : ctxFind s w.conn with
  | none => exact absurd ⟨w, hw, rfl⟩ (ctxFind_none.1 hu)
  | some u =>
  have hl : data.length > 0 := List.length_pos_iff.2 hd
  have e1 : step env (.disconnectInd w.conn data) s = (do
      let rc ← rxCo env (handleCo env u.ptr) data
      let s ← M.get
      match ctxFind s w.conn with
      | none => pure rc
      | some u => do linkInvalidatedFree env u.ptr; pure rc : M Int) s := by
    conv => lhs; unfold step
    simp only [bind_eq, cacheDel, modify_run, get_run, hcache s hno, hany s hno, Bool.false_eq_true, if_false, Int.sub_zero, hu, if_pos hl]
    rfl
  have e2 : step env (.dataInd w.conn data) s = rxCo env (handleCo env u.ptr) data s := by
    conv => lhs; unfold step
    simp only [bind_eq, get_run, hu]
  rw [e1]
  simp only [bind_eq, e2]
  cases hr : rxCo env (handleCo env u.ptr) data s with
  | fault e => rfl
  | ok y =>
    obtain ⟨rc, s1⟩ := y
    simp only
    have hno1 : ∀ e ∈ s1.cache, e.1 ≠ w.conn := by
      obtain ⟨ls, hp, hsh⟩ := wp_ok (pl_rxCo' u.ptr data s) hr
      exact fun e he => hno e ((hp.shrinks hsh.noGrow).cache.subset he)
    conv => rhs; unfold step
    simp only [bind_eq, cacheDel, modify_run, get_run, hcache s1 hno1, hany s1 hno1, Bool.false_eq_true, if_false, Int.sub_zero]
    cases hv : ctxFind s1 w.conn with
    | none => simp only [pure_run]
    | some v =>
      simp only [List.length_nil, gt_iff_lt, Nat.lt_irrefl, if_false, bind_eq, pure_run, get_run, hv]
      cases linkInvalidatedFree env v.ptr s1 <;> rfl

/-- **C29.** After N-DISCONNECT.ind no cached request is left for the connection id, whatever
the payload and the callbacks. -/
theorem C29_cached_request_dropped {ops : List Op} {s s' : State} {rc : Int} {c : ConnId} {data : Bytes}
    (h0 : run env ops init = .ok ((), s)) (hf : FreshConns env init ops)
    (h : step env (.disconnectInd c data) s = .ok (rc, s')) : ∀ e ∈ s'.cache, e.1 ≠ c := by
  have hci := run_cinv h0 CInv.init hf
  obtain ⟨ls, hp, ls1, rfl, h'⟩ := wp_ok (pl_disconnectInd c data s) h
  obtain ⟨s1, ha, hp1⟩ := hp.cons_inv
  cases ha
  have hg : NoGrow ls1 := by
    rcases h' with ⟨_, _, rfl, _⟩ | ⟨u, ms, s1, fs, _, rfl, _, hms, hfs⟩
    · exact .nil
    · refine .append ?_ ?_
      · rcases hms with ⟨_, _, rfl, _⟩ | ⟨_, hms⟩
        · exact .nil
        · exact hms.noGrow
      · rcases hfs with ⟨_, rfl, _⟩ | ⟨v, _, hfs⟩
        · exact .nil
        · exact hfs.lbls.noGrow
  exact fun e he => eraseP_none hci.cached c e ((hp1.shrinks hg).cache.subset he)

/-- **C29.** For a user that does nothing in callbacks, exactly: the event if due, then the
context is freed (with N-DISCONNECT.req) iff it was marked. -/
theorem C29_frees_iff_marked {ops : List Op} {s s' : State} {rc : Int} {d : List Out} {u : Ue}
    (hin : Inert env) (h0 : run env ops init = .ok ((), s)) (hf : FreshConns env init ops) (hu : u ∈ s.ues)
    (h : step env (.disconnectInd u.conn []) s = .ok (rc, s')) (hd : Happened s s' d) :
    (Live s' u.ptr ↔ u.freeOnRelease = false) ∧
    prims d = (if u.freeOnRelease = true then [.disconnectReq u.conn] else []) ∧
    s'.timers = (if u.freeOnRelease = true then s.timers.filter (fun t => t.1 ≠ u.ptr) else s.timers) := by
  have hi := reach_inv h0
  have hci := run_cinv h0 CInv.init hf
  rw [plain_disconnect hci hu] at h
  have hfind : s.ues.find? (·.ptr = u.ptr) = some u := by
    obtain ⟨v, hv⟩ := live_find (s := s) (p := u.ptr) ⟨u, hu, rfl⟩
    obtain ⟨h1, h2⟩ := find_live hv
    rw [hv, ue_inj hi.ueNodup h1 hu h2]
  have hcf : ctxFind s u.conn = some u := by
    cases hx : ctxFind s u.conn with
    | none => exact absurd ⟨u, hu, rfl⟩ (ctxFind_none.1 hx)
    | some v =>
      obtain ⟨h1, h2⟩ := ctxFind_some hx
      rw [conn_inj hci.conns v h1 u hu h2]
  have hev : iuEvent env (some u.ptr) .linkInvalidated s = .ok ((), { s with trace := s.trace ++ dueLinkEvent env u }) := by
    unfold iuEvent dueLinkEvent
    cases he : env.hasEventCb <;> cases hn : u.notification <;>
      simp [bind_eq, deref, hfind, hn, pure_run, callback_inert hin]
  have hl : linkInvalidatedFree env u.ptr s = .ok ((),
      if u.freeOnRelease = true then freeSt env { s with trace := s.trace ++ dueLinkEvent env u } u
      else { s with trace := s.trace ++ dueLinkEvent env u }) := by
    unfold linkInvalidatedFree
    have h2 : ctxFind { s with trace := s.trace ++ dueLinkEvent env u } u.conn = some u := hcf
    simp only [bind_eq, deref, hfind, hev, get_run, h2]
    cases hfr : u.freeOnRelease with
    | false => simp [pure_run]
    | true => simp [freeUe, bind_eq, deref, hfind, modify_run, sapDown, emit, get_run, pure_run, freeSt]
  simp only [bind_eq, hl, pure_run] at h
  have hp : prims (dueLinkEvent env u) = [] := by
    unfold dueLinkEvent; split <;> rfl
  cases hfr : u.freeOnRelease with
  | false =>
    rw [hfr] at h
    cases h
    have : d = dueLinkEvent env u := List.append_cancel_left (hd.symm.trans rfl)
    subst this
    refine ⟨⟨fun _ => rfl, fun _ => ⟨u, hu, rfl⟩⟩, by simpa using hp, by simp⟩
  | true =>
    rw [hfr, if_pos rfl] at h
    cases h
    have : d = dueLinkEvent env u ++ [.sap (.disconnectReq u.conn) _] :=
      List.append_cancel_left (hd.symm.trans (by simp only [freeSt]; rw [List.append_assoc]))
    subst this
    refine ⟨⟨?_, fun h => by cases h⟩, ?_, by simp [freeSt]⟩
    · rintro ⟨v, hv, hvp⟩
      have := (List.mem_filter.1 hv).2
      simp [hvp] at this
    · unfold prims at hp ⊢
      rw [List.filterMap_append, hp]; simp

/-- Two contexts, one of them marked for release: the disconnection is told for the unmarked
one only, and only the marked one is freed. -/
example : OwnCallbacks Demo.env ∧ OwnCallbacks wellBehaved ∧
    FreshConns Demo.env init [.connectInd 10 (Demo.addr 1) [1], .connectInd 11 (Demo.addr 1) [3], .api (.txReleaseFree 1 none 10)] ∧
    (∃ s, run Demo.env [.connectInd 10 (Demo.addr 1) [1], .connectInd 11 (Demo.addr 1) [3], .api (.txReleaseFree 1 none 10)] init
        = .ok ((), s) ∧ decide (s.ues.map (fun u => (u.ptr, u.conn, u.notification, u.freeOnRelease)) =
          [(2, 11, true, false), (1, 10, false, true)]) = true) ∧
    (∃ s, run Demo.env [.connectInd 10 (Demo.addr 1) [1], .connectInd 11 (Demo.addr 1) [3], .api (.txReleaseFree 1 none 10),
        .disconnectInd 10 [], .disconnectInd 11 [5]] init = .ok ((), s) ∧
      decide (s.ues.map (·.ptr) = [2] ∧ s.timers = [] ∧
        s.trace.drop 6 = [.sap (.dataReq 10 (.iuRelCmd (.nAS 83))) 0, .sap (.disconnectReq 10) 0,
          .event (some (2, 11)) .iuRelease, .event (some (2, 11)) .linkInvalidated]) = true) := by
  refine ⟨fun _ _ => trivial, ?_, Demo.runOk_fresh (Demo.runOk_sound (by decide +kernel)),
    Demo.after_iff.1 (by decide +kernel), Demo.after_iff.1 (by decide +kernel)⟩
  intro s o
  cases o with
  | sap => trivial
  | recv p c nas ra sai =>
    refine ⟨?_, fun _ => trivial⟩
    intro q hq; simp [args] at hq; subst hq; rfl
  | event ue e =>
    cases ue with
    | none => trivial
    | some x =>
      cases e with
      | linkInvalidated =>
        refine ⟨?_, fun _ => trivial⟩
        intro q hq; simp [args] at hq; subst hq; rfl
      | _ => trivial

/-- **C30.** Freeing a live context, exactly: one N-DISCONNECT.req for its connection; the
context and its timer are removed and its memory is freed; nothing else changes and no callback is called.  (Handles
are pairwise different in every state of a history, also within callbacks.) -/
theorem C30_free_ue {s : State} {u : Ue} (hu : u ∈ s.ues) (hn : s.ues.Pairwise (fun a b => a.ptr ≠ b.ptr)) :
    ∃ r, step env (.api (.freeUe (some u.ptr))) s = .ok (0, { s with
      ues := s.ues.filter (fun v => v.ptr ≠ u.ptr), timers := s.timers.filter (fun t => t.1 ≠ u.ptr),
      blocks := s.blocks - 1,
      trace := s.trace ++ [.sap (.disconnectReq u.conn) r] }) := by
  have hfind : s.ues.find? (·.ptr = u.ptr) = some u := by
    obtain ⟨v, hv⟩ := live_find (s := s) (p := u.ptr) ⟨u, hu, rfl⟩
    obtain ⟨h1, h2⟩ := find_live hv
    rw [hv, ue_inj (List.pairwise_map.2 hn) h1 hu h2]
  refine ⟨env.sapRc { s with timers := s.timers.filter (·.1 ≠ u.ptr) } (.disconnectReq u.conn), ?_⟩
  show runApi env (.freeUe (some u.ptr)) s = _
  simp only [runApi, freeUe, bind_eq, deref, hfind, modify_run, sapDown, emit, get_run, pure_run]

/-- **C30.** Handles of contexts are pairwise different in every state of a history. -/
theorem C30_handles_distinct {ops : List Op} {s : State} (h : run env ops init = .ok ((), s)) :
    s.ues.Pairwise (fun a b => a.ptr ≠ b.ptr) := List.pairwise_map.1 (reach_inv h).ueNodup

/-- **C30.** After that the context never appears again: in no later history is there a callback
for it, it is never live, it has no timer, and a timer expiry for it has no effect. -/
theorem C30_never_again {ops later : List Op} {s s1 s2 : State} {rc : Int} {u : Ue} {d : List Out} (hu : u ∈ s.ues)
    (h0 : run env ops init = .ok ((), s)) (h1 : step env (.api (.freeUe (some u.ptr))) s = .ok (rc, s1))
    (h2 : run env later s1 = .ok ((), s2)) (hd : Happened s1 s2 d) :
    (∀ o ∈ d, target o ≠ some u.ptr) ∧ ¬ Live s2 u.ptr ∧ (∀ t ∈ s2.timers, t.1 ≠ u.ptr) ∧
    step env (.timer u.ptr) s2 = .ok (0, s2) := by
  have hi := reach_inv h0
  obtain ⟨r, hs⟩ := C30_free_ue (env := env) hu (C30_handles_distinct h0)
  rw [hs] at h1
  cases h1
  have hg : Gone u.ptr { s with
      ues := s.ues.filter (fun v => v.ptr ≠ u.ptr), timers := s.timers.filter (fun t => t.1 ≠ u.ptr), blocks := s.blocks - 1,
      trace := s.trace ++ [.sap (.disconnectReq u.conn) r] } := by
    refine ⟨hi.ueLt u hu, ?_, ?_⟩
    · intro v hv; simpa using (List.mem_filter.1 hv).2
    · intro t ht; simpa using (List.mem_filter.1 ht).2
  obtain ⟨ls, hp⟩ := run_path h2
  obtain ⟨hg2, d', hd', hn⟩ := hp.gone hg
  have : d = d' := List.append_cancel_left (hd.symm.trans hd')
  subst this
  refine ⟨hn, ?_, hg2.timers, ?_⟩
  · rintro ⟨v, hv, hvp⟩; exact hg2.ues v hv hvp
  · have : s2.timers.any (·.1 = u.ptr) = false := by
      rw [List.any_eq_false]
      intro t ht; simpa using hg2.timers t ht
    unfold step
    simp only [bind_eq, get_run, this]
    rfl

/-- **C30.** Nor does its connection: once the last thing about a connection was N-DISCONNECT.req,
the next primitive or callback about that connection, if any, is the N-CONNECT.resp of a new
connection with that id.  (In any history, wherever the context was freed, and for any user.) -/
theorem C30_connection_silent {ops : List Op} {s : State} (h : run env ops init = .ok ((), s))
    (hf : FreshConns env init ops) {a b : List Out} {o : Out} {c : ConnId} (ht : s.trace = a ++ o :: b)
    (ho : outConn o = some c) (hc : Closed c a) : ∃ r, o = .sap (.connectResp c) r :=
  (run_shut h CInv.init Shut.init hf).silent c a o b ht ho hc

/-- A connection that is freed and used again, with other traffic in between. -/
example : FreshConns Demo.env init [.connectInd 10 (Demo.addr 1) [1], .connectInd 11 (Demo.addr 1) [3], .api (.freeUe (some 1)),
      .dataInd 11 [4], .dataInd 10 [4], .connectInd 10 (Demo.addr 1) [1]] ∧
    ∃ s, run Demo.env [.connectInd 10 (Demo.addr 1) [1], .connectInd 11 (Demo.addr 1) [3], .api (.freeUe (some 1)),
      .dataInd 11 [4], .dataInd 10 [4], .connectInd 10 (Demo.addr 1) [1]] init = .ok ((), s) ∧
      decide (s.trace.map outConn = [some 10, none, some 10, some 11, none, some 11, some 10, some 11, some 10, some 10]) = true :=
  ⟨Demo.runOk_fresh (Demo.runOk_sound (by decide +kernel)), Demo.after_iff.1 (by decide +kernel)⟩

/-- The effect of `ranap_iu_tx_release_free`. -/
theorem release_free {s : State} {u : Ue} {cause : Option Cause} {t : Int} (hu : u ∈ s.ues)
    (hn : s.ues.Pairwise (fun a b => a.ptr ≠ b.ptr)) (hg : Generable env (.iuRelCmd (releaseCause cause))) :
    step env (.api (.txReleaseFree u.ptr cause t)) s = .ok (0, releaseSt env s u cause t) := by
  have hn' := List.pairwise_map.2 hn
  have hfind : s.ues.find? (·.ptr = u.ptr) = some u := by
    obtain ⟨v, hv⟩ := live_find (s := s) (p := u.ptr) ⟨u, hu, rfl⟩
    obtain ⟨h1, h2⟩ := find_live hv
    rw [hv, ue_inj hn' h1 hu h2]
  obtain ⟨b, hb⟩ := hg
  have hcause : cause.getD (.nAS CauseNAS_normal_release) = releaseCause cause := by cases cause <;> rfl
  cases hs : step env (.api (.txReleaseFree u.ptr cause t)) s with
  | fault e =>
    exfalso
    have hs : runApi env (.txReleaseFree u.ptr cause t) s = .fault e := hs
    obtain ⟨A, B, hAB⟩ := List.append_of_mem hu
    have hm : (s.ues.map fun v => if v.ptr = u.ptr then { v with notification := false, freeOnRelease := true } else v).find?
        (fun v => decide (v.ptr = u.ptr)) = some { u with notification := false, freeOnRelease := true } := by
      rw [hAB] at hn' ⊢
      have := mid_map hn' fun x => { x with notification := false, freeOnRelease := true }
      rw [this]
      have h3 : ((A ++ { u with notification := false, freeOnRelease := true } :: B).map (·.ptr)).Nodup := by
        simpa [List.nodup_iff_pairwise_ne] using hn'
      exact find_mid h3
    simp only [runApi, iuTxReleaseFree, iuTxRelease, genMsg, txData, sapDown, emit, bind_eq, deref, hfind, hm, modify_run, get_run,
      hcause, hb, lift_ok_run, pure_run] at hs
    cases hs
  | ok x =>
    obtain ⟨rc, s'⟩ := x
    have hs' : (do iuTxReleaseFree env u.ptr cause t; pure 0 : M Int) s = .ok (rc, s') := hs
    obtain ⟨_, s1, h1, h2⟩ := bind_ok.1 hs'
    cases h2
    obtain ⟨ls, _, v, hv, _, rfl⟩ := wp_ok (pl_iuTxReleaseFree u.ptr cause t s) h1
    rw [hfind] at hv
    cases hv
    rfl

/-- **C33.** `ranap_iu_tx_release_free` on a live context, exactly: its events are switched off
and it is marked for freeing; one Iu Release Command with the given cause (NAS normal release if
none) is sent on its connection; its timer is armed, with the requested timeout if the lower layer
accepted the command and with 0 otherwise, replacing any timer it had; nothing else changes. -/
theorem C33_release_timer {s : State} {u : Ue} {cause : Option Cause} {t : Int} (hu : u ∈ s.ues)
    (hn : s.ues.Pairwise (fun a b => a.ptr ≠ b.ptr)) (hg : Generable env (.iuRelCmd (releaseCause cause))) :
    ∃ r, step env (.api (.txReleaseFree u.ptr cause t)) s = .ok (0, { s with
      ues := s.ues.map fun v => if v.ptr = u.ptr then { v with notification := false, freeOnRelease := true } else v,
      timers := (u.ptr, if r = 0 then t else 0) :: s.timers.filter (fun x => x.1 ≠ u.ptr),
      trace := s.trace ++ [.sap (.dataReq u.conn (.iuRelCmd (releaseCause cause))) r] }) := by
  rw [release_free hu hn hg]
  have hcause : cause.getD (.nAS CauseNAS_normal_release) = releaseCause cause := by cases cause <;> rfl
  refine ⟨env.sapRc (markSt s u.ptr) (.dataReq u.conn (.iuRelCmd (releaseCause cause))), ?_⟩
  unfold releaseSt
  simp only [hcause, markSt]
  congr 3
  by_cases hr : env.sapRc (markSt s u.ptr) (.dataReq u.conn (.iuRelCmd (releaseCause cause))) = 0
  · simp only [markSt] at hr; simp [hr]
  · simp only [markSt] at hr; simp [hr]

/-- **C33.** Each context has at most one pending timer, and only live contexts whose release was
requested (events off, marked for freeing) have one. -/
theorem C33_one_timer {ops : List Op} {s : State} (h : run env ops init = .ok ((), s)) :
    s.timers.Pairwise (fun a b => a.1 ≠ b.1) ∧ 
      ∀ t ∈ s.timers, ∃ u ∈ s.ues, u.ptr = t.1 ∧ u.notification = false ∧ u.freeOnRelease = true := by
  have hi := reach_inv h
  exact ⟨List.pairwise_map.1 hi.tNodup, fun t ht => hi.tLive t ht⟩

/-- Two releases of one context: the second timer replaces the first. -/
example : ∃ s, run Demo.env [.connectInd 10 (Demo.addr 1) [1], .api (.txReleaseFree 1 none 10),
      .api (.txReleaseFree 1 (some (.misc 115)) 3)] init = .ok ((), s) ∧
    decide (s.timers = [(1, 3)] ∧ prims s.trace = [.connectResp 10, .dataReq 10 (.iuRelCmd (.nAS 83)), .dataReq 10 (.iuRelCmd (.misc 115))]) = true :=
  Demo.after_iff.1 (by decide +kernel)
/-- With a lower layer that refuses, the timer is 0. -/
example : ∃ s, run { Demo.env with sapRc := fun _ p => match p with | .dataReq _ _ => -1 | _ => 0 }
      [.connectInd 10 (Demo.addr 1) [1], .api (.txReleaseFree 1 none 10)] init = .ok ((), s) ∧ decide (s.timers = [(1, 0)]) = true :=
  Demo.after_iff.1 (by decide +kernel)

theorem released_muted {ops : List Op} {s s1 : State} {rc : Int} {p : Ptr} {cause : Option Cause} {t : Int}
    (h0 : run env ops init = .ok ((), s)) (h1 : step env (.api (.txReleaseFree p cause t)) s = .ok (rc, s1)) :
    Muted p s1 := by
  have hi := reach_inv h0
  have h1' : (do iuTxReleaseFree env p cause t; pure 0 : M Int) s = .ok (rc, s1) := h1
  obtain ⟨_, s2, h2, h3⟩ := bind_ok.1 h1'
  cases h3
  obtain ⟨ls, _, u, hu, _, rfl⟩ := wp_ok (pl_iuTxReleaseFree p cause t s) h2
  obtain ⟨hm, rfl⟩ := find_live hu
  refine ⟨hi.ueLt u hm, ?_⟩
  intro v hv hvp
  obtain ⟨w, hw, rfl⟩ := List.mem_map.1 (show v ∈ s.ues.map _ from hv)
  split
  · rfl
  · rename_i hne
    rw [if_neg hne] at hvp
    exact absurd hvp hne

/-- **C31 does not hold**, in any execution: once `ranap_iu_tx_release_free` was called for a context,
the user never gets any event for it, neither when Release Complete arrives nor when the timer
expires, although `iu_client.h:94-97` promises RANAP_IU_EVENT_IU_RELEASE. -/
theorem C31_never_notified {ops later : List Op} {s s1 s2 : State} {rc : Int} {p : Ptr} {cause : Option Cause} {t : Int}
    {d : List Out} (h0 : run env ops init = .ok ((), s))
    (h1 : step env (.api (.txReleaseFree p cause t)) s = .ok (rc, s1)) (h2 : run env later s1 = .ok ((), s2))
    (hd : Happened s1 s2 d) : ∀ c e, .event (some (p, c)) e ∉ d := by
  obtain ⟨ls, hp⟩ := run_path h2
  obtain ⟨_, d', hd', hn⟩ := hp.muted (released_muted h0 h1)
  have : d = d' := List.append_cancel_left (hd.symm.trans hd')
  subst this
  exact fun c e hm => hn _ hm c e rfl

/-- **C31, full statement**: after `ranap_iu_tx_release_free`, Release Complete or the timeout, whichever comes first, is
reported (`later` is what happens in between). -/
def C31_full : Prop :=
  ∀ (env : Env) (ops later : List Op) (s s1 s2 s3 : State) (u : Ue) (cause : Option Cause) (t rc rc' : Int) (op : Op) (d : List Out),
    env.hasEventCb = true → run env ops init = .ok ((), s) → FreshConns env init ops → u ∈ s.ues → u.notification = true →
    step env (.api (.txReleaseFree u.ptr cause t)) s = .ok (rc, s1) →
    run env later s1 = .ok ((), s2) → Live s2 u.ptr → (∃ x, (u.ptr, x) ∈ s2.timers) →
    (op = .timer u.ptr ∨ ∃ data body, op = .dataInd u.conn data ∧
      env.decodeCo data = some ⟨PR_successfulOutcome, id_Iu_Release, body⟩) →
    step env op s2 = .ok (rc', s3) → Happened s2 s3 d → .event (some (u.ptr, u.conn)) .iuRelease ∈ d

/-- **C31 does not hold**, concretely: release, Release Complete, timeout; events are registered,
but none arrives. -/
theorem C31_no_event : ∃ s, Demo.env.hasEventCb = true ∧
    run Demo.env [.connectInd 10 (Demo.addr 1) [1], .api (.txReleaseFree 1 none 10), .dataInd 10 [5], .timer 1] init = .ok ((), s) ∧
    decide (s.trace.all (fun o => match o with | .event _ .iuRelease => false | _ => true) = true ∧ s.timers = [] ∧
      s.ues.map (·.ptr) = [1]) = true := by
  obtain ⟨s, h⟩ := Demo.after_iff.1 (show Demo.after Demo.env
    [.connectInd 10 (Demo.addr 1) [1], .api (.txReleaseFree 1 none 10), .dataInd 10 [5], .timer 1]
    (fun s => decide (s.trace.all (fun o => match o with | .event _ .iuRelease => false | _ => true) = true ∧ s.timers = [] ∧
      s.ues.map (·.ptr) = [1])) = true by decide +kernel)
  exact ⟨s, rfl, h⟩

/-- One context, its release, the timeout. -/
theorem release_history : ∃ s s1 u, run Demo.env [.connectInd 10 (Demo.addr 1) [1]] init = .ok ((), s) ∧
    FreshConns Demo.env init [.connectInd 10 (Demo.addr 1) [1]] ∧ u ∈ s.ues ∧ u.notification = true ∧
    step Demo.env (.api (.txReleaseFree u.ptr none 10)) s = .ok (0, s1) ∧ Live s1 u.ptr ∧ (∃ x, (u.ptr, x) ∈ s1.timers) ∧
    step Demo.env (.timer u.ptr) s1 = .ok (0, { s1 with timers := s1.timers.filter (fun x => x.1 ≠ u.ptr) }) := by
  obtain ⟨u, hu, hn, hp⟩ : ∃ u ∈ (Demo.stateAfter Demo.env [.connectInd 10 (Demo.addr 1) [1]]).ues,
      u.notification = true ∧ u.ptr = 1 := by decide +kernel
  refine ⟨Demo.stateAfter Demo.env [.connectInd 10 (Demo.addr 1) [1]],
    Demo.stateAfter Demo.env [.connectInd 10 (Demo.addr 1) [1], .api (.txReleaseFree 1 none 10)], u,
    Demo.run_stateAfter (by decide +kernel), Demo.runOk_fresh (Demo.runOk_sound (by decide +kernel)), hu, hn, ?_⟩
  rw [hp]
  exact ⟨by decide +kernel, by unfold Live; decide +kernel, ⟨10, by decide +kernel⟩, by decide +kernel⟩

theorem C31_violated : ¬ C31_full := by
  intro h
  obtain ⟨s, s1, u, h0, h1, h2, h3, h4, h5, h6, h7⟩ := release_history
  have := h Demo.env _ [] s s1 s1 _ u none 10 0 0 (.timer u.ptr) [] rfl h0 h1 h2 h3 h4 rfl h5 h6 (.inl rfl) h7
    (List.append_nil _).symm
  cases this

/-- What holds instead (**C31, partial**): as long as events of a context are on (so without
`ranap_iu_tx_release_free`, e.g. after `ranap_iu_tx_release`), Release Complete is reported by
exactly one RANAP_IU_EVENT_IU_RELEASE for that context, and nothing else is reported. -/
theorem C31_release_complete_partial {ops : List Op} {s s' : State} {rc : Int} {d : List Out} {u : Ue} {data : Bytes} {body : Body}
    (h0 : run env ops init = .ok ((), s)) (hf : FreshConns env init ops) (hu : u ∈ s.ues)
    (hcb : env.hasEventCb = true) (hn : u.notification = true)
    (hm : env.decodeCo data = some ⟨PR_successfulOutcome, id_Iu_Release, body⟩)
    (h : step env (.dataInd u.conn data) s = .ok (rc, s')) (hd : Happened s s' d) :
    callbacks d = [.event (some (u.ptr, u.conn)) .iuRelease] := by
  have hi := reach_inv h0
  have hci := run_cinv h0 CInv.init hf
  obtain ⟨ls, hp, h'⟩ := wp_ok (pl_dataInd u.conn data s) h
  have hx : HasCtx s u.conn := ⟨u, hu, rfl⟩
  obtain ⟨d', hd', _, hcbs⟩ := hp.delta
  have : d = d' := List.append_cancel_left (hd.symm.trans hd')
  subst this
  rw [hcbs]
  rcases h' with ⟨v, hv, h'⟩ | ⟨hnone, _⟩ | ⟨addr, ls', hnone, _⟩
  · obtain ⟨hv1, hv2⟩ := ctxFind_some hv
    have hvu := conn_inj hci.conns v hv1 u hu hv2
    subst hvu
    rcases h' with ⟨hno, _⟩ | ⟨m, hm', _, h'⟩
    · rw [hm] at hno; cases hno
    · rw [hm] at hm'
      cases hm'
      rcases h' with ⟨h, _⟩ | ⟨h, _⟩ | ⟨_, h, _⟩ | ⟨_, _, h⟩ | ⟨h, _⟩ | ⟨_, _, _, _, h, h', _⟩
      · exact absurd h (show ¬ PR_successfulOutcome = PR_initiatingMessage by decide)
      · exact absurd h (show ¬ PR_successfulOutcome = PR_initiatingMessage by decide)
      · exact absurd h (show ¬ id_Iu_Release = id_SecurityModeControl by decide)
      · rcases h with ⟨h, _⟩ | ⟨w, hw, ⟨_, _, as, rfl, has⟩ | ⟨_, hnf, _⟩⟩
        · rw [hcb] at h; cases h
        · obtain ⟨h1, h2⟩ := find_live hw
          have := ue_inj hi.ueNodup h1 hu h2
          subst this
          have : cbsOf as = [] := ApiLbls.cbsOf has
          rw [show (Lbl.cb (.event (some (w.ptr, w.conn)) .iuRelease) :: as) = [Lbl.cb (.event (some (w.ptr, w.conn)) .iuRelease)] ++ as from rfl,
            cbsOf_append, this]
          rfl
        · obtain ⟨h1, h2⟩ := find_live hw
          have := ue_inj hi.ueNodup h1 hu h2
          subst this
          rw [hn] at hnf; cases hnf
      · exact absurd h (show ¬ PR_successfulOutcome = PR_outcome by decide)
      · exact absurd ⟨rfl, rfl⟩ h'
  · exact absurd hx (ctxFind_none.1 hnone)
  · exact absurd hx (ctxFind_none.1 hnone)

/-- The case is met: release command without freeing, then Release Complete. -/
example : Demo.env.decodeCo [5] = some ⟨PR_successfulOutcome, id_Iu_Release, .other⟩ ∧
    ∃ s, run Demo.env [.connectInd 10 (Demo.addr 1) [1], .api (.txRelease 1 none), .dataInd 10 [5]] init = .ok ((), s) ∧
      decide (s.trace.drop 4 = [.event (some (1, 10)) .iuRelease] ∧ s.ues.map (·.notification) = [true]) = true :=
  ⟨by decide +kernel, Demo.after_iff.1 (by decide +kernel)⟩

/-- **C32 does not hold**, in any execution: when the release timeout of such a context expires,
the only effect is that the timer is no longer pending; the context stays. -/
theorem C32_timeout_does_not_free {ops later : List Op} {s s1 s2 : State} {rc : Int} {p : Ptr} {cause : Option Cause} {t : Int}
    (h0 : run env ops init = .ok ((), s)) (h1 : step env (.api (.txReleaseFree p cause t)) s = .ok (rc, s1))
    (h2 : run env later s1 = .ok ((), s2)) (hl : Live s2 p) :
    step env (.timer p) s2 = .ok (0, { s2 with timers := s2.timers.filter (fun x => x.1 ≠ p) }) := by
  obtain ⟨ls, hp⟩ := run_path h2
  obtain ⟨hmu, _⟩ := hp.muted (released_muted h0 h1)
  obtain ⟨v, hv⟩ := live_find hl
  obtain ⟨hv1, hv2⟩ := find_live hv
  have hn := hmu.ues v hv1 hv2
  unfold step
  simp only [bind_eq, get_run]
  cases ht : s2.timers.any (·.1 = p) with
  | false =>
    have : s2.timers.filter (fun x => x.1 ≠ p) = s2.timers := by
      rw [List.filter_eq_self]
      rw [List.any_eq_false] at ht
      intro x hx; simpa using ht x hx
    rw [this]
    rfl
  | true =>
    simp only [if_true, bind_eq, modify_run, iuEvent]
    cases hcb : env.hasEventCb with
    | false => simp [pure_run]
    | true => simp [bind_eq, deref, hv, hn, pure_run]

/-- **C32, full statement**: when the timer expires (`later` is what happens until then), the context is freed, if it has
not been freed before. -/
def C32_full : Prop :=
  ∀ (env : Env) (ops later : List Op) (s s1 s2 s3 : State) (p : Ptr) (cause : Option Cause) (t rc rc' : Int),
    run env ops init = .ok ((), s) → step env (.api (.txReleaseFree p cause t)) s = .ok (rc, s1) →
    run env later s1 = .ok ((), s2) → step env (.timer p) s2 = .ok (rc', s3) → ¬ Live s3 p

theorem C32_violated : ¬ C32_full := by
  intro h
  obtain ⟨s, s1, u, h0, -, -, -, h4, h5, -, h7⟩ := release_history
  exact h Demo.env _ [] s s1 s1 _ u.ptr none 10 0 0 h0 h4 rfl h7 h5

/-- **C32 does not hold**, concretely: the context is still there after the timeout, without a timer. -/
theorem C32_still_there : ∃ s,
    run Demo.env [.connectInd 10 (Demo.addr 1) [1], .api (.txReleaseFree 1 none 10), .timer 1] init = .ok ((), s) ∧
    decide (s.ues.map (·.ptr) = [1] ∧ s.timers = []) = true := Demo.after_iff.1 (by decide +kernel)

/-- What holds instead (**C32, partial**): a context marked by `ranap_iu_tx_release_free` is freed when
its connection is disconnected by the peer. -/
theorem C32_freed_on_disconnect_partial {ops : List Op} {s s' : State} {rc : Int} {u : Ue} (hc : OwnCallbacks env)
    (h0 : run env ops init = .ok ((), s)) (hf : FreshConns env init ops) (hu : u ∈ s.ues) (hm : u.freeOnRelease = true)
    (h : step env (.disconnectInd u.conn []) s = .ok (rc, s')) :
    ¬ Live s' u.ptr ∧ ¬ InUse s' u.conn := by
  have hci := run_cinv h0 CInv.init hf
  obtain ⟨ls, hp⟩ := step_path h
  obtain ⟨d, hd, _⟩ := hp.delta
  obtain ⟨_, hu', _, hca⟩ := C29_invalidated_once hc h0 hf hu h hd
  rcases hu' with hu' | ⟨_, hx⟩
  · refine ⟨?_, ?_⟩
    · rintro ⟨v, hv, hvp⟩
      rw [hu'] at hv
      have := (List.mem_filter.1 hv).2
      simp [hvp] at this
    · rintro (⟨v, hv, hvc⟩ | ⟨e, he, hec⟩)
      · rw [hu'] at hv
        obtain ⟨h1, h2⟩ := List.mem_filter.1 hv
        rw [conn_inj hci.conns v h1 u hu hvc] at h2
        simp at h2
      · rw [hca] at he
        exact hci.disj u hu e he hec.symm
  · rw [hm] at hx; cases hx

/-- The hypotheses are met. -/
example : FreshConns Demo.env init [.connectInd 10 (Demo.addr 1) [1], .api (.txReleaseFree 1 none 10)] ∧
    ∃ s, run Demo.env [.connectInd 10 (Demo.addr 1) [1], .api (.txReleaseFree 1 none 10)] init = .ok ((), s) ∧
      decide (s.ues.map (fun u => (u.conn, u.freeOnRelease)) = [(10, true)]) = true :=
  ⟨Demo.runOk_fresh (Demo.runOk_sound (by decide +kernel)), Demo.after_iff.1 (by decide +kernel)⟩

end Verif.Props
