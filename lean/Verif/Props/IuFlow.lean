import Verif.Proofs.IuFlow
import Verif.Proofs.IuGiven
import Verif.Props.IuSafe

/-!
# C23, C26, C27, C28, C34, C37, C38, C40: messages on connections
-/

namespace Verif.Props
open Verif.Iu Verif.Iu.Spec

variable {env : Env}

/-- **C23.** An operation delivers the NAS PDU it brings, exactly once and unmodified, to the
live context of its connection (to a new context for the first message), and nothing else. -/
theorem C23_uplink_routing {ops : List Op} {op : Op} {s s' : State} {rc : Int} {d : List Out}
    (h0 : run env ops init = .ok ((), s)) (h : step env op s = .ok (rc, s')) (hd : Happened s s' d) :
    match uplink env s op with
    | none => recvs d = []
    | some (c, nas, ra, sai) => ∃ p, recvs d = [(p, c, nas, ra, sai)] ∧
        if (initialUe env s op).isSome then ¬ Live s p else LiveConn s p c := by
  have hi := reach_inv h0
  rcases step_recvs h hi hd with ⟨h1, h2⟩ | ⟨c, a, ies, id, ra, sai, p, h1, _, h3, h4, h5⟩ |
    ⟨c, ies, ra, sai, p, h1, _, _, h3, h4, h5⟩
  · rw [h1]; exact h2
  · rw [h3]
    refine ⟨p, h4, ?_⟩
    rw [h1]
    rintro ⟨u, hu, rfl⟩
    exact Nat.lt_irrefl _ (Nat.lt_of_lt_of_le (hi.ueLt u hu) h5)
  · rw [h3]
    refine ⟨p, h4, ?_⟩
    rw [h1]
    exact h5

/-- **C23.** Callbacks get a live context whose connection is the stated one (`Given`): what
they would do otherwise makes no difference to any execution. -/
theorem C23_contexts_live (cb' : State → Out → Script) (hcb : ∀ s o, Given s o → cb' s o = env.cb s o)
    (ops : List Op) : run { env with cb := cb' } ops init = run env ops init :=
  congrFun (congr_run hcb ops) init

/-- Both kinds of delivery happen. -/
example : (uplink Demo.env init (.connectInd 10 (Demo.addr 1) [1])).isSome = true ∧
    (uplink Demo.env (Demo.stateAfter Demo.env [.connectInd 10 (Demo.addr 1) [1]]) (.dataInd 10 [4]))
      = some (10, [0xcc], some ⟨262, 42, false, 5, 9⟩, some 1) ∧
    (∃ s, run Demo.env [.connectInd 10 (Demo.addr 1) [1], .dataInd 10 [4]] init = .ok ((), s) ∧
      decide ((recvs s.trace).map (fun x => (x.1, x.2.1, x.2.2.1)) = [(1, 10, [0xaa, 0xbb]), (1, 10, [0xcc])]) = true) :=
  ⟨by decide +kernel, by decide +kernel, Demo.after_iff.1 (by decide +kernel)⟩

/-- A callback behaviour that differs for a context that is not live. -/
example : ∃ cb' : State → Out → Script, (∀ s o, Given s o → cb' s o = Demo.env.cb s o) ∧
    cb' init (.event (some (7, 7)) .iuRelease) ≠ Demo.env.cb init (.event (some (7, 7)) .iuRelease) := by
  refine ⟨fun s o => match o with
    | .event (some (p, _)) _ => if s.ues.any (·.ptr = p) then .done else .call (.freeUe (some p)) fun _ => .done
    | _ => .done, ?_, ?_⟩
  · intro s o hg
    cases o with
    | sap => rfl
    | recv => rfl
    | event x e =>
      cases x with
      | none => rfl
      | some x =>
        obtain ⟨p, c⟩ := x
        obtain ⟨u, hu, hp, _⟩ := hg
        simp only
        rw [if_pos]
        · rfl
        · exact List.any_eq_true.2 ⟨u, hu, by simpa using hp⟩
  · intro h; cases h

/-- **C26.** A connection request is confirmed by exactly one N-CONNECT.resp for the same
connection, and that comes before anything else the request causes; nothing but a
connection request is confirmed. -/
theorem C26_confirmed_first {op : Op} {s s' : State} {rc : Int} {d : List Out}
    (h : step env op s = .ok (rc, s')) (hd : Happened s s' d) :
    match op with
    | .connectInd c _ _ => ∃ r d', d = .sap (.connectResp c) r :: d' ∧ ∀ c', .connectResp c' ∉ prims d'
    | _ => ∀ c', .connectResp c' ∉ prims d := by
  have hres : ∀ d : List Out, resps d = [] → ∀ c', Prim.connectResp c' ∉ prims d := by
    intro d hr c' hm
    unfold prims at hm
    rw [List.mem_filterMap] at hm
    obtain ⟨o, ho, he⟩ := hm
    unfold resps at hr
    rw [List.filterMap_eq_nil_iff] at hr
    have := hr o ho
    match o, he, this with
    | .sap p rc, he, this => cases he; simp at this
  cases op with
  | connectInd c a dd =>
    obtain ⟨ls, hp, ls', rfl, h'⟩ := wp_ok (pl_connectInd c a dd s) h
    obtain ⟨s1, ha, hp'⟩ := hp.cons_inv
    have hs1 := ha.sap_inv
    obtain ⟨d', hd', _⟩ := hp'.emits
    refine ⟨env.sapRc s (.connectResp c), d', ?_, hres _ (hp'.noResp ?_ hd')⟩
    · have : s'.trace = s.trace ++ (.sap (.connectResp c) (env.sapRc s (.connectResp c)) :: d') := by
        rw [hd', hs1]; simp
      exact List.append_cancel_left (hd.symm.trans this)
    · rcases h' with ⟨_, _, rfl⟩ | ⟨_, h'⟩
      · intro l hl; rw [List.mem_singleton.1 hl]; rfl
      · exact wide_noResp.init h'
  | _ => exact hres _ (step_noResp h (by intro _ _ _ h; cases h) hd)

/-- Requests with a message, without a message and with garbage; the first also registers
an area, which is announced after the confirmation. -/
example : ∃ s, run Demo.env [.connectInd 10 (Demo.addr 1) [1]] init = .ok ((), s) ∧
    decide (s.trace.length = 3 ∧ s.trace.head? = some (.sap (.connectResp 10) 0)) = true :=
  Demo.after_iff.1 (by decide +kernel)
example : ∃ s, run Demo.env [.connectInd 10 (Demo.addr 1) [], .connectInd 11 (Demo.addr 1) [99]] init = .ok ((), s) ∧
    decide (s.trace = [.sap (.connectResp 10) 0, .sap (.connectResp 11) 0]) = true :=
  Demo.after_iff.1 (by decide +kernel)

/-- **C27.** On a connection id not in use, an empty request followed by data has the same
effect, return code included, as a request carrying the data. -/
theorem C27_same_as_direct {s : State} {c : ConnId} {a : SccpAddr} {data : Bytes} (hn : ¬ InUse s c) (hd : data ≠ []) :
    (do let _ ← step env (.connectInd c a []); step env (.dataInd c data) : M Int) s
      = step env (.connectInd c a data) s := by
  have hc : ctxFind s c = none := ctxFind_none.2 fun h => hn (.inl h)
  have hl : ¬ data.length = 0 := fun h => hd (List.length_eq_zero_iff.1 h)
  unfold step
  simp only [bind_eq, sapDown, emit, get_run, modify_run, pure_run, cacheAdd, List.length_nil, if_true]
  have h1 : ∀ t e b, ctxFind { s with trace := t, cache := e, blocks := b } c = none := fun t e b => hc
  have h2 : ∀ t, cacheFind { s with trace := t, cache := (c, a) :: s.cache, blocks := s.blocks + 1 } c = some a := by
    intro t; simp [cacheFind]
  simp only [h1, h2, if_neg hl, bind_eq, cacheDel, modify_run, List.eraseP_cons, decide_true, cond_true,
    List.any_cons, Bool.true_or, if_true, Int.add_sub_cancel]

/-- **C27.** Traffic on other connections, timers, API calls and connectionless messages in
between do not matter: the data is still read as the first message of the connection, with the
calling address of the connection request. -/
theorem C27_other_traffic {s s1 s2 : State} {c : ConnId} {a : SccpAddr} {data : Bytes} {mid : List Op} {rc : Int}
    (hn : ¬ InUse s c) (h1 : step env (.connectInd c a []) s = .ok (rc, s1))
    (h2 : run env mid s1 = .ok ((), s2)) (hmid : ∀ op ∈ mid, opConn op ≠ some c) (hd : data ≠ []) :
    firstPayload s2 (.dataInd c data) = some (c, a, data) ∧
    initialUe env s2 (.dataInd c data) = initialUe env s2 (.connectInd c a data) ∧
    registration env s2 (.dataInd c data) = registration env s2 (.connectInd c a data) ∧
    uplink env s2 (.dataInd c data) = uplink env s2 (.connectInd c a data) := by
  have hs1 : s1.cache = (c, a) :: s.cache ∧ s1.ues = s.ues := by
    unfold step at h1
    simp only [bind_eq, sapDown, emit, get_run, modify_run, pure_run, cacheAdd, List.length_nil, if_true] at h1
    cases h1
    exact ⟨rfl, rfl⟩
  obtain ⟨k1, k2⟩ := run_keepConn h2 hmid
  have hctx : ¬ HasCtx s2 c := by
    intro h
    obtain ⟨u, hu, he⟩ := k2 h
    exact hn (.inl ⟨u, hs1.2 ▸ hu, he⟩)
  have hf : firstPayload s2 (.dataInd c data) = some (c, a, data) := by
    rw [firstPayload_data, if_neg hctx, k1, hs1.1]
    simp
  have hi : initialUe env s2 (.dataInd c data) = initialUe env s2 (.connectInd c a data) := by
    unfold initialUe
    rw [hf, firstPayload_connect, if_neg hd]
  refine ⟨hf, hi, ?_, ?_⟩
  · unfold registration; rw [hi]
  · unfold uplink
    rw [hi, uplink_of_first hf]
    have : directTransfer env s2 (.connectInd c a data) = none := rfl
    rw [this]

/-- An empty request, another connection's first message, then the message. -/
example : ¬ InUse init 10 ∧
    (∃ s, run Demo.env [.connectInd 10 (Demo.addr 1) [], .connectInd 11 (Demo.addr 2) [2], .dataInd 10 [1]] init = .ok ((), s) ∧
      decide (s.ues.map (·.conn) = [10, 11] ∧ s.cache = [] ∧ s.rncs.map (·.addr) = [Demo.addr 1, Demo.addr 2]) = true) :=
  ⟨by decide, Demo.after_iff.1 (by decide +kernel)⟩

/-- **C28.** Data or a disconnection on a connection that has neither context nor cached
request changes nothing at all (in particular the history) and returns -1. -/
theorem C28_unknown_connection {s : State} {c : ConnId} {data : Bytes} (hn : ¬ InUse s c) :
    step env (.dataInd c data) s = .ok (-1, s) ∧ step env (.disconnectInd c data) s = .ok (-1, s) := by
  have hc : ctxFind s c = none := ctxFind_none.2 fun h => hn (.inl h)
  have hnc : ∀ e ∈ s.cache, ¬ e.1 = c := fun e he h => hn (.inr ⟨e, he, h⟩)
  refine ⟨?_, ?_⟩
  · unfold step
    have : cacheFind s c = none := by
      unfold cacheFind
      rw [Option.map_eq_none_iff, List.find?_eq_none]
      intro e he; simpa using hnc e he
    simp only [bind_eq, get_run, hc, this, pure_run]
  · unfold step
    have : s.cache.eraseP (·.1 = c) = s.cache := by
      rw [List.eraseP_of_forall_not]
      intro e he; simpa using hnc e he
    have hany : (s.cache.any (·.1 = c)) = false := by
      rw [List.any_eq_false]
      intro e he; simpa using hnc e he
    simp only [bind_eq, cacheDel, modify_run, get_run, this, hany, Bool.false_eq_true, if_false, Int.sub_zero, hc, pure_run]

/-- The unknown connection 12 beside a known one and a cached request. -/
example : ¬ InUse (Demo.stateAfter Demo.env [.connectInd 10 (Demo.addr 1) [1], .connectInd 11 (Demo.addr 1) []]) 12 ∧
    InUse (Demo.stateAfter Demo.env [.connectInd 10 (Demo.addr 1) [1], .connectInd 11 (Demo.addr 1) []]) 11 := by
  decide +kernel

/-- **C34.** An Iu Release Request is answered by exactly one Iu Release Command with the same
cause on the same connection; nothing else changes and no callback is called. -/
theorem C34_release_request {ops : List Op} {s : State} {c : ConnId} {data : Bytes} {cause : Cause}
    (h0 : run env ops init = .ok ((), s)) (hc : HasCtx s c)
    (hm : env.decodeCo data = some ⟨PR_initiatingMessage, id_Iu_ReleaseRequest, .iuReleaseReq cause⟩)
    (hg : Generable env (.iuRelCmd cause)) :
    step env (.dataInd c data) s = .ok (0, { s with trace := s.trace ++
      [.sap (.dataReq c (.iuRelCmd cause)) (env.sapRc s (.dataReq c (.iuRelCmd cause)))] }) := by
  have hi := reach_inv h0
  cases hu : ctxFind s c with
  | none => exact absurd hc (ctxFind_none.1 hu)
  | some u =>
    obtain ⟨hm1, hm2⟩ := ctxFind_some hu
    obtain ⟨b, hb⟩ := hg
    obtain ⟨v, hv⟩ := live_find (s := s) (p := u.ptr) ⟨u, hm1, rfl⟩
    obtain ⟨hv1, hv2⟩ := find_live hv
    have : v = u := ue_inj hi.ueNodup hv1 hm1 hv2
    subst this
    unfold step
    simp only [bind_eq, get_run, hu, rxCo, hm]
    unfold handleCo
    rw [if_pos rfl, if_neg (show ¬ id_Iu_ReleaseRequest = id_InitialUE_Message by decide),
      if_neg (show ¬ id_Iu_ReleaseRequest = id_DirectTransfer by decide),
      if_neg (show ¬ id_Iu_ReleaseRequest = id_ErrorIndication by decide), if_pos rfl]
    simp only [bind_eq, iuTxRelease, genMsg, Option.getD_some, hb, lift_ok_run, pure_run, deref, hv, txData, sapDown, emit,
      get_run, modify_run, hm2]

/-- A release request on one of two connections. -/
example : HasCtx (Demo.stateAfter Demo.env [.connectInd 10 (Demo.addr 1) [1], .connectInd 11 (Demo.addr 1) [3]]) 10 ∧
    Demo.env.decodeCo [6] = some ⟨PR_initiatingMessage, id_Iu_ReleaseRequest, .iuReleaseReq (.misc 115)⟩ ∧
    Generable Demo.env (.iuRelCmd (.misc 115)) := ⟨by decide +kernel, by decide +kernel, [], rfl⟩

/-- **C37.** A RESET is answered by exactly one RESET ACKNOWLEDGE, sent to the calling address,
with the same domain and Global-RNC-ID; nothing else changes and no callback is called. -/
theorem C37_reset_ack {s : State} {a : SccpAddr} {data : Bytes} {dom : Nat} {rnc : Option GRncId}
    (hm : env.decodeCl data = some ⟨PR_initiatingMessage, id_Reset, .reset dom rnc⟩)
    (hg : Generable env (.resetAck dom rnc)) :
    step env (.unitdataInd a data) s = .ok (0, { s with trace := s.trace ++
      [.sap (.unitdataReq a (.resetAck dom rnc)) (env.sapRc s (.unitdataReq a (.resetAck dom rnc)))] }) := by
  obtain ⟨b, hb⟩ := hg
  unfold step
  simp only [hm]
  unfold handleCl
  rw [if_pos rfl, if_pos rfl]
  simp only [bind_eq, handleClReset, hb, lift_ok_run, sapDown, emit, get_run, modify_run, pure_run]

example : Demo.env.decodeCl [1] = some ⟨PR_initiatingMessage, id_Reset, .reset 0 (some ⟨[0x62, 0xf2, 0x24], 1⟩)⟩ ∧
    Generable Demo.env (.resetAck 0 (some ⟨[0x62, 0xf2, 0x24], 1⟩)) := ⟨by decide +kernel, [], rfl⟩

/-- **C37.** Any other connectionless message causes nothing. -/
theorem C37_others_ignored {s s' : State} {a : SccpAddr} {data : Bytes} {rc : Int}
    (hm : ∀ m, env.decodeCl data = some m → ¬ (m.dir = PR_initiatingMessage ∧ m.proc = id_Reset))
    (h : step env (.unitdataInd a data) s = .ok (rc, s')) : s' = s := by
  obtain ⟨ls, hp, ⟨_, _, rfl⟩ | ⟨m, hd, _, ⟨h1, h2, _⟩ | ⟨_, rfl⟩⟩⟩ := wp_ok (pl_unitdataInd a data s) h
  · cases hp; rfl
  · exact absurd ⟨h1, h2⟩ (hm m hd)
  · cases hp; rfl

/-- **C38.** Only the first message of a connection, and only if it is an acceptable Initial UE
Message, can lead to a new context: otherwise every context was there before. -/
theorem C38_no_other_context {op : Op} {s s' : State} {rc : Int} (h : step env op s = .ok (rc, s'))
    (hr : registration env s op = none) : ∀ u ∈ s'.ues, LiveConn s u.ptr u.conn := by
  obtain ⟨ls, hp, ⟨c, a, ies, id, ra, sai, h1, h2, _⟩ | ⟨_, hn⟩⟩ := step_shape h
  · unfold registration at hr
    rw [h1] at hr
    simp only [h2, Option.map_some] at hr
    cases hr
  · have key : ∀ ls s s', Path env ls s s' → NoReg ls → ∀ u ∈ s'.ues, LiveConn s u.ptr u.conn := by
      intro ls s s' hp
      induction hp with
      | nil => exact fun _ u hu => ⟨u, hu, rfl, rfl⟩
      | @cons l ls a b e ha _ ih =>
        intro hn u hu
        obtain ⟨v, hv, e1, e2⟩ := ih (fun x hx => hn x (List.mem_cons_of_mem _ hx)) u hu
        have hl := hn l List.mem_cons_self
        cases hg : l.grows with
        | false =>
          obtain ⟨w, hw, hs⟩ := (ha.shrinks hg).ues.mem hv
          exact ⟨w, hw, hs.ptr.symm.trans e1, hs.conn.symm.trans e2⟩
        | true =>
          cases ha
          case cacheAdd => exact ⟨v, hv, e1, e2⟩
          case alloc => simp [Lbl.isReg] at hl
          all_goals simp [Lbl.grows] at hg
    exact key ls s s' hp hn

/-- **C38.** A first message that is not an acceptable Initial UE Message creates no context,
registers nothing, calls no callback and sends nothing (beyond the confirmation of the request
carrying it). -/
theorem C38_rejected {op : Op} {s s' : State} {rc : Int} {d : List Out} {x : ConnId × SccpAddr × Bytes}
    (h : step env op s = .ok (rc, s')) (hd : Happened s s' d) (hf : firstPayload s op = some x)
    (hr : registration env s op = none) :
    s'.ues = s.ues ∧ s'.rncs = s.rncs ∧ s'.timers = s.timers ∧ callbacks d = [] ∧
    prims d = (match op with | .connectInd c _ _ => [.connectResp c] | _ => []) := by
  have key : ∀ (s1 : State) c a dd ls, firstPayload s op = some (c, a, dd) → RxInitShape env s1 ⟨a, c⟩ dd rc ls s' →
      Path env ls s1 s' → s'.ues = s1.ues ∧ s'.rncs = s1.rncs ∧ s'.timers = s1.timers ∧ s'.trace = s1.trace := by
    intro s1 c a dd ls hf h hp
    rcases h with ⟨_, _, _, rfl⟩ | ⟨m, hm, _, ⟨_, _, rfl⟩ | ⟨h1, h2, ies, hb, ⟨_, rfl⟩ | ⟨id, ra, sai, es, p, as, hc, _⟩⟩⟩
    · exact ⟨rfl, rfl, rfl, rfl⟩
    · exact ⟨rfl, rfl, rfl, rfl⟩
    · cases hp with
      | cons ha hp => cases ha; cases hp; exact ⟨rfl, rfl, rfl, rfl⟩
    · have := initialUe_of hf hm h1 h2 hb
      unfold registration at hr
      rw [this] at hr
      simp only [initialCheck_ok hc, Option.map_some] at hr
      cases hr
  cases op with
  | connectInd c a dd =>
    obtain ⟨ls, hp, ls', rfl, h'⟩ := wp_ok (pl_connectInd c a dd s) h
    obtain ⟨s1, ha, hp'⟩ := hp.cons_inv
    have hs1 := ha.sap_inv
    rcases h' with ⟨he, _⟩ | ⟨he, h'⟩
    · rw [firstPayload_connect, if_pos he] at hf; cases hf
    · have hf' : firstPayload s (.connectInd c a dd) = some (c, a, dd) := by
        rw [firstPayload_connect, if_neg he]
      have hc : s1 = confirmed env s c := hs1
      rw [hc] at hp'
      obtain ⟨k1, k2, k3, k4⟩ := key _ c a dd ls' hf' h' hp'
      have : d = [.sap (.connectResp c) (env.sapRc s (.connectResp c))] :=
        List.append_cancel_left (hd.symm.trans k4)
      subst this
      exact ⟨k1, k2, k3, rfl, rfl⟩
  | dataInd c dd =>
    obtain ⟨ls, hp, h'⟩ := wp_ok (pl_dataInd c dd s) h
    rcases h' with ⟨u, hu, h'⟩ | ⟨hn, hc, _, rfl, _⟩ | ⟨addr, ls', hn, hc, rfl, h'⟩
    · rw [firstPayload_data, if_pos ⟨u, ctxFind_some hu⟩] at hf; cases hf
    · cases hp
      have : d = [] := List.append_cancel_left (hd.symm.trans (List.append_nil _).symm)
      subst this
      exact ⟨rfl, rfl, rfl, rfl, rfl⟩
    · unfold cacheFind at hc
      rw [Option.map_eq_some_iff] at hc
      obtain ⟨e, he, rfl⟩ := hc
      have hf' : firstPayload s (.dataInd c dd) = some (c, e.2, dd) := by
        rw [firstPayload_data, if_neg (ctxFind_none.1 hn), he]; rfl
      obtain ⟨s1, ha, hp'⟩ := hp.cons_inv
      cases ha
      obtain ⟨k1, k2, k3, k4⟩ := key (uncached s c) c e.2 dd ls' hf' h' hp'
      have : d = [] := List.append_cancel_left (hd.symm.trans (k4.trans (List.append_nil _).symm))
      subst this
      exact ⟨k1, k2, k3, rfl, rfl⟩
  | disconnectInd c dd => cases hf
  | connectConf => cases hf
  | unitdataInd => cases hf
  | noticeInd => cases hf
  | pcstateInd => cases hf
  | otherInd => cases hf
  | timer => cases hf
  | api => cases hf

/-- First messages that are refused: garbage, a Direct Transfer, an Initial UE Message with LAC 0. -/
example : ∀ d ∈ [[99], [4], [11]], (firstPayload init (.connectInd 10 (Demo.addr 1) d)).isSome ∧
    registration Demo.env init (.connectInd 10 (Demo.addr 1) d) = none := by decide +kernel

/-- **C38.** An acceptable Initial UE Message as first message is delivered to a new context, and
no context but that one (on this connection) is new. -/
theorem C38_accepted {ops : List Op} {op : Op} {s s' : State} {rc : Int} {d : List Out} {c : ConnId} {a : SccpAddr}
    {ies : InitialUeIes} {id : RncId} {ra : GprsRaId} {sai : BitVec 16}
    (h0 : run env ops init = .ok ((), s)) (h : step env op s = .ok (rc, s')) (hd : Happened s s' d)
    (hi : initialUe env s op = some (c, a, ies)) (hr : readInitialUe ies = some (id, ra, sai)) :
    ∃ p, ¬ Live s p ∧ recvs d = [(p, c, ies.nas, some ra, some sai)] ∧
      ∀ u ∈ s'.ues, (u.ptr = p ∧ u.conn = c) ∨ LiveConn s u.ptr u.conn := by
  obtain ⟨ls, hp, ⟨c', a', ies', id', ra', sai', h1, h2, _, hacc⟩ | ⟨hn, _⟩⟩ := step_shape h
  · rw [hi] at h1
    cases h1
    rw [hr] at h2
    cases h2
    obtain ⟨pre, es, p, as, hpre, rfl, has, hpp, hes⟩ := hacc
    have key : ∀ ls s s', Path env ls s s' → (∀ q r c' ra', Lbl.alloc q r c' ra' ∈ ls → q = p ∧ c' = c) →
        ∀ u ∈ s'.ues, (u.ptr = p ∧ u.conn = c) ∨ LiveConn s u.ptr u.conn := by
      intro ls s s' hp
      induction hp with
      | nil => exact fun _ u hu => .inr ⟨u, hu, rfl, rfl⟩
      | @cons l ls a b e ha _ ih =>
        intro hn u hu
        rcases ih (fun q r c' ra' hx => hn q r c' ra' (List.mem_cons_of_mem _ hx)) u hu with h | ⟨v, hv, e1, e2⟩
        · exact .inl h
        · cases hg : l.grows with
          | false =>
            obtain ⟨w, hw, hs⟩ := (ha.shrinks hg).ues.mem hv
            exact .inr ⟨w, hw, hs.ptr.symm.trans e1, hs.conn.symm.trans e2⟩
          | true =>
            cases ha
            case cacheAdd => exact .inr ⟨v, hv, e1, e2⟩
            case alloc =>
              simp only [allocSt, List.mem_cons, List.mem_map] at hv
              rcases hv with rfl | ⟨w, hw, rfl⟩
              · obtain ⟨k1, k2⟩ := hn _ _ _ _ List.mem_cons_self
                exact .inl ⟨e1.symm.trans k1, e2.symm.trans k2⟩
              · refine .inr ⟨w, hw, ?_, ?_⟩
                · rw [← e1]; split <;> rfl
                · rw [← e2]; split <;> rfl
            all_goals simp [Lbl.grows] at hg
    have hinv := reach_inv h0
    have hnx : s.next ≤ p := hpp ▸ (reg1_inv id a hinv.reg).2.2.1
    refine ⟨p, ?_, ?_, key _ s s' hp ?_⟩
    · rintro ⟨u, hu, rfl⟩
      exact Nat.lt_irrefl _ (Nat.lt_of_lt_of_le (hinv.ueLt u hu) hnx)
    · rw [hp.recvs hd]
      have hes' : recvLbls es = [] := by
        rcases hes with ⟨_, rfl⟩ | ⟨_, as', rfl, has'⟩
        · rfl
        · rw [recvLbls_cons, has'.recvs]; rfl
      have hpre' : recvLbls pre = [] := by
        rcases hpre with ⟨_, rfl⟩ | rfl <;> rfl
      rw [show pre ++ Lbl.nasAlloc :: Lbl.register id (areaOfRa ra) a :: es ++
          Lbl.alloc p (regPtr env s id a) c ra :: Lbl.cb (.recv p c ies.nas (some ra) (some sai)) :: as ++ [Lbl.nasFree] =
        pre ++ [Lbl.nasAlloc, Lbl.register id (areaOfRa ra) a] ++ es ++
          [Lbl.alloc p (regPtr env s id a) c ra, Lbl.cb (.recv p c ies.nas (some ra) (some sai))] ++ as ++ [Lbl.nasFree] by simp]
      simp only [recvLbls_append, hes', hpre', has.recvs]
      rfl
    · intro q r c' ra' hm
      have hno : ∀ l : List Lbl, NoReg l → Lbl.alloc q r c' ra' ∉ l := fun l hl hm => by
        have := hl _ hm; simp [Lbl.isReg] at this
      have hes' : Lbl.alloc q r c' ra' ∉ es := by
        rcases hes with ⟨_, rfl⟩ | ⟨_, as', rfl, has'⟩
        · simp
        · intro hm
          rcases List.mem_cons.1 hm with h | hm
          · cases h
          · exact hno _ has'.noReg hm
      simp only [List.append_assoc, List.mem_append, List.cons_append, List.mem_cons, reduceCtorEq, false_or,
        hno _ hpre.noReg, hes', hno _ has.noReg, List.not_mem_nil, or_false, Lbl.alloc.injEq] at hm
      exact ⟨hm.1, hm.2.2.1⟩
  · unfold registration at hn
    rw [hi] at hn
    simp only [hr, Option.map_some] at hn
    cases hn

/-- **C38.** The new context, exactly: the handle delivered to, the connection, the location,
events enabled, belonging to the record of the RNC named in the message; nothing else in the
list of contexts changes.  (Stated for a user that makes no API calls in callbacks; in general
such calls come on top.) -/
theorem C38_accepted_context {ops : List Op} {op : Op} {s s' : State} {rc : Int} {c : ConnId} {a : SccpAddr}
    {ies : InitialUeIes} {id : RncId} {ra : GprsRaId} {sai : BitVec 16} (hin : Inert env)
    (h0 : run env ops init = .ok ((), s)) (h : step env op s = .ok (rc, s'))
    (hi : initialUe env s op = some (c, a, ies)) (hr : readInitialUe ies = some (id, ra, sai)) :
    ∃ u, s'.ues = u :: s.ues ∧ u.conn = c ∧ u.raId = ra ∧ u.notification = true ∧ u.freeOnRelease = false ∧
      ¬ Live s u.ptr ∧ ∃ r ∈ s'.rncs, r.ptr = u.rnc ∧ SameRnc r.rncId id := by
  have hinv := reach_inv h0
  have key : ∀ (s1 : State) data, rxCo env (handleCoInitial env ⟨a, c⟩) data s1 = .ok (rc, s') →
      s1.ues = s.ues → s1.rncs = s.rncs → s1.timers = s.timers → s1.next = s.next →
      firstPayload s op = some (c, a, data) →
      ∃ u, s'.ues = u :: s.ues ∧ u.conn = c ∧ u.raId = ra ∧ u.notification = true ∧ u.freeOnRelease = false ∧
        ¬ Live s u.ptr ∧ ∃ r ∈ s'.rncs, r.ptr = u.rnc ∧ SameRnc r.rncId id := by
    intro s1 data hx e1 e2 e3 e4 hf
    unfold initialUe at hi
    rw [hf] at hi
    simp only at hi
    unfold rxCo at hx
    cases hm : env.decodeCo data with
    | none => rw [hm] at hi; cases hi
    | some m =>
      rw [hm] at hi hx
      obtain ⟨dir, proc, body⟩ := m
      cases body
      case initialUe ies' =>
        simp only at hi
        split at hi
        · rename_i hc
          obtain ⟨rfl, rfl⟩ := hc
          cases hi
          unfold handleCoInitial at hx
          simp only [ne_eq, not_true_eq_false, or_self, if_false, bind_eq] at hx
          cases hh : handleInitialUe env ⟨a, c⟩ ies s1 with
          | fault e => rw [hh] at hx; cases hx
          | ok y =>
          rw [hh] at hx
          cases hx
          rw [handleInitialUe_eq] at hh
          cases hck : initialCheck ies with
          | fault e => rw [hck] at hh; cases hh
          | ok o =>
            have := initialCheck_ok hck
            rw [hr] at this
            subst this
            rw [hck] at hh
            have ht := wp_ok (initialTail_inert hin ⟨a, c⟩ id ra ies.nas sai { s1 with nasBufs := s1.nasBufs + 1 }
              (hinv.congr e1 e2 e3 e4)) hh
            simpa only [e1, Live] using ht
        · cases hi
      all_goals cases hi
  cases op with
  | connectInd c' a' dd =>
    unfold step at h
    simp only [bind_eq, sapDown, emit, get_run, modify_run, pure_run] at h
    split at h
    · rename_i hl
      unfold initialUe at hi
      rw [firstPayload_connect, if_pos (List.length_eq_zero_iff.1 hl)] at hi
      cases hi
    · rename_i hl
      have hf : firstPayload s (.connectInd c' a' dd) = some (c', a', dd) := by
        rw [firstPayload_connect, if_neg fun e => hl (List.length_eq_zero_iff.2 e)]
      have : c' = c ∧ a' = a := by
        unfold initialUe at hi
        rw [hf] at hi
        simp only at hi
        repeat' split at hi
        all_goals cases hi
        exact ⟨rfl, rfl⟩
      obtain ⟨rfl, rfl⟩ := this
      exact key _ dd h rfl rfl rfl rfl hf
  | dataInd c' dd =>
    have hf : ∃ a', firstPayload s (.dataInd c' dd) = some (c', a', dd) := by
      unfold initialUe at hi
      rw [firstPayload_data] at hi ⊢
      by_cases hn : HasCtx s c'
      · rw [if_pos hn] at hi; cases hi
      · rw [if_neg hn] at hi ⊢
        cases hk : s.cache.find? (·.1 = c') with
        | none => rw [hk] at hi; cases hi
        | some e => exact ⟨e.2, rfl⟩
    obtain ⟨a', hf⟩ := hf
    have : c' = c ∧ a' = a := by
      unfold initialUe at hi
      rw [hf] at hi
      simp only at hi
      repeat' split at hi
      all_goals cases hi
      exact ⟨rfl, rfl⟩
    obtain ⟨rfl, rfl⟩ := this
    have hf' := hf
    rw [firstPayload_data] at hf
    split at hf
    · cases hf
    · rename_i hn
      unfold step at h
      have hcf : cacheFind s c' = some a' := by
        unfold cacheFind
        cases hk : s.cache.find? (·.1 = c') with
        | none => rw [hk] at hf; cases hf
        | some e => rw [hk] at hf; cases hf; rfl
      simp only [bind_eq, get_run, ctxFind_none.2 hn, hcf, cacheDel, modify_run] at h
      exact key _ dd h rfl rfl rfl rfl hf'
  | disconnectInd c dd => cases hi
  | connectConf => cases hi
  | unitdataInd => cases hi
  | noticeInd => cases hi
  | pcstateInd => cases hi
  | otherInd => cases hi
  | timer => cases hi
  | api => cases hi

/-- The demonstration user is inert. -/
example : Inert Demo.env := fun _ _ => rfl
example : (initialUe Demo.env init (.connectInd 10 (Demo.addr 1) [1])).isSome ∧
    ∀ x, initialUe Demo.env init (.connectInd 10 (Demo.addr 1) [1]) = some x → (readInitialUe x.2.2).isSome := by
  refine ⟨by decide +kernel, fun x hx => ?_⟩
  have : (initialUe Demo.env init (.connectInd 10 (Demo.addr 1) [1])).all (fun x => (readInitialUe x.2.2).isSome) = true := by
    decide +kernel
  rw [hx] at this
  exact this

/-- **C40.** Location information in a delivery on an existing connection: routing area present
iff the message has an LAI (and equal to it, with the RAC of the message or 0), SAC present iff
the message has both LAI and SAC. -/
theorem C40_location_info {ops : List Op} {op : Op} {s s' : State} {rc : Int} {d : List Out} {c : ConnId} {ies : DtIes}
    {p : Ptr} {nas : Bytes} {ra : Option GprsRaId} {sai : Option (BitVec 16)}
    (h0 : run env ops init = .ok ((), s)) (h : step env op s = .ok (rc, s')) (hd : Happened s s' d)
    (hx : directTransfer env s op = some (c, ies)) (hr : recvs d = [(p, c, nas, ra, sai)]) :
    nas = ies.nas ∧
    match ies.lai with
    | none => ra = none ∧ sai = none
    | some (plmn, lac) => ∃ p0 p1 p2 l0 l1 r, plmn = [p0, p1, p2] ∧ lac = [l0, l1] ∧
        ra = some ⟨mcc p0 p1, laiMnc p1 p2, false, l0 ++ l1, r⟩ ∧
        (match ies.rac with
        | none => r = 0
        | some b => ∃ t, b = r :: t) ∧
        match ies.saiSac with
        | none => sai = none
        | some b => ∃ s0 s1 t, b = s0 :: s1 :: t ∧ sai = some (s0 ++ s1) := by
  have hi := reach_inv h0
  rcases step_recvs h hi hd with ⟨_, h2⟩ | ⟨c, a, ies, id, ra, sai, p, h1, _⟩ |
    ⟨c', ies', ra', sai', p', _, h1, h2, h3, h4, _⟩
  · rw [h2] at hr; cases hr
  · exact absurd hx (by rw [directTransfer_none_of_initial (by rw [h1]; rfl)]; simp)
  · rw [hx] at h1
    cases h1
    rw [hr] at h4
    cases h4
    refine ⟨rfl, ?_⟩
    exact dtCheck_reads h2

/-- A direct transfer with location, and one with a LAI that cannot be read, which is not delivered. -/
example : ∃ s, run Demo.env [.connectInd 10 (Demo.addr 1) [1], .dataInd 10 [4], .dataInd 10 [15]] init = .ok ((), s) ∧
    decide ((recvs s.trace).length = 2 ∧ (recvs s.trace).all (fun x => x.2.2.2.1.isSome && x.2.2.2.2.isSome)) = true :=
  Demo.after_iff.1 (by decide +kernel)

end Verif.Props
