import Verif.Proofs.IuConn
import Verif.Proofs.IuSafe
import Verif.Spec.IuFlow

/-!
# Delivery of NAS PDUs, first messages
-/

namespace Verif.Iu
open Spec Lai

variable {env : Env}

theorem recvs_append (a b : List Out) : recvs (a ++ b) = recvs a ++ recvs b := List.filterMap_append ..

theorem recvs_callbacks (d : List Out) : recvs d = recvs (callbacks d) := by
  induction d with
  | nil => rfl
  | cons o d ih =>
    have h1 : recvs (o :: d) = recvs [o] ++ recvs d := by rw [← recvs_append]; rfl
    have h2 : callbacks (o :: d) = callbacks [o] ++ callbacks d := by rw [← callbacks_append]; rfl
    rw [h1, h2, recvs_append, ih]
    cases o <;> rfl

/-- Deliveries of a sequence of labels. -/
def recvLbls (ls : List Lbl) := recvs (cbsOf ls)

theorem recvLbls_append (a b : List Lbl) : recvLbls (a ++ b) = recvLbls a ++ recvLbls b := by
  unfold recvLbls; rw [cbsOf_append, recvs_append]

theorem LinkLbls.recvs {ls : List Lbl} (h : LinkLbls ls) : recvLbls ls = [] := by
  induction ls with
  | nil => rfl
  | cons l ls ih =>
    have : recvLbls (l :: ls) = recvLbls [l] ++ recvLbls ls := by rw [← recvLbls_append]; rfl
    rw [this, ih fun x hx => h x (List.mem_cons_of_mem _ hx)]
    rcases h l List.mem_cons_self with h | ⟨p, c, rfl⟩
    · cases l <;> simp_all [Lbl.isApi, recvLbls, cbsOf, Spec.recvs]
    · rfl

theorem ApiLbls.recvs {ls : List Lbl} (h : ApiLbls ls) : recvLbls ls = [] := h.link.recvs

theorem EvShape.recvs {s s' : State} {p : Ptr} {e : Event} {ls : List Lbl} (h : EvShape env s p e ls s') :
    recvLbls ls = [] := by
  rcases h with ⟨_, rfl, _⟩ | ⟨u, _, ⟨_, _, as, rfl, has⟩ | ⟨_, _, rfl, _⟩⟩
  · rfl
  · have : recvLbls (.cb (.event (some (p, u.conn)) e) :: as) = recvLbls [.cb (.event (some (p, u.conn)) e)] ++ recvLbls as := by
      rw [← recvLbls_append]; rfl
    rw [this, has.recvs]; rfl
  · rfl

theorem Path.recvs {ls : List Lbl} {s s' : State} (h : Path env ls s s') {d : List Out}
    (hd : s'.trace = s.trace ++ d) : Spec.recvs d = recvLbls ls := by
  obtain ⟨d', h1, _, h3⟩ := h.delta
  have : d = d' := List.append_cancel_left (hd.symm.trans h1)
  subst this
  rw [recvs_callbacks, h3]; rfl

/-- A Direct Transfer, or nothing delivered. -/
theorem CoShape.recvs {s s' : State} {p : Ptr} {m : Msg} {ls : List Lbl} (h : CoShape env s p m ls s') :
    (∃ ies, m.dir = PR_initiatingMessage ∧ m.proc = id_DirectTransfer ∧ m.body = .directTransfer ies ∧
      ((readDt ies = none ∧ recvLbls ls = []) ∨
       ∃ ra sai u, readDt ies = some (ra, sai) ∧ dtCheck ies = .ok (some (ra, sai)) ∧ s.ues.find? (·.ptr = p) = some u ∧
         recvLbls ls = [(p, u.conn, ies.nas, ra, sai)])) ∨
    ((¬ ∃ ies, m.dir = PR_initiatingMessage ∧ m.proc = id_DirectTransfer ∧ m.body = .directTransfer ies) ∧
      recvLbls ls = []) := by
  rcases h with ⟨h1, h2, ies, hb, h⟩ | ⟨_, hp, c, u, rc, _, _, rfl, _⟩ | ⟨hp, _, h⟩ | ⟨hp, _, h⟩ |
    ⟨hp, _, it, l, _, h⟩ | ⟨rfl, _, hno, _⟩
  · refine .inl ⟨ies, h1, h2, hb, ?_⟩
    rcases h with ⟨hc, rfl⟩ | ⟨ra, sai, u, as, hc, _, hu, rfl, has⟩
    · exact .inl ⟨dtCheck_ok hc, rfl⟩
    · refine .inr ⟨ra, sai, u, dtCheck_ok hc, hc, hu, ?_⟩
      have : Lbl.nasAlloc :: Lbl.cb (.recv p u.conn ies.nas ra sai) :: as ++ [.nasFree]
          = [.nasAlloc, .cb (.recv p u.conn ies.nas ra sai)] ++ (as ++ [.nasFree]) := by simp
      rw [this, recvLbls_append, recvLbls_append, has.recvs]; rfl
  · refine .inr ⟨?_, rfl⟩
    rintro ⟨ies, _, h, _⟩
    rw [h] at hp; revert hp; decide
  · refine .inr ⟨?_, h.recvs⟩
    rintro ⟨ies, h, _⟩
    rw [h] at hp; revert hp; decide
  · refine .inr ⟨?_, h.recvs⟩
    rintro ⟨ies, h, _⟩
    rw [h] at hp; revert hp; decide
  · refine .inr ⟨?_, h.recvs⟩
    rintro ⟨ies, h, _⟩
    rw [h] at hp; revert hp; decide
  · refine .inr ⟨?_, rfl⟩
    rintro ⟨ies, h1, h2, _⟩
    exact hno ⟨h1, h2⟩

theorem coMsg_data (s : State) (c : ConnId) (d : Bytes) :
    coMsg env s (.dataInd c d) = if HasCtx s c then (env.decodeCo d).map fun m => (c, m) else none := rfl
theorem coMsg_disc (s : State) (c : ConnId) (d : Bytes) :
    coMsg env s (.disconnectInd c d) = if HasCtx s c ∧ d ≠ [] then (env.decodeCo d).map fun m => (c, m) else none := rfl

theorem uplink_of_first {s : State} {op : Op} {x : ConnId × SccpAddr × Bytes} (h : firstPayload s op = some x) :
    directTransfer env s op = none := by
  unfold directTransfer
  have : coMsg env s op = none := by
    cases op with
    | dataInd c d =>
      rw [firstPayload_data] at h
      rw [coMsg_data]
      split at h
      · cases h
      · rename_i hc; rw [if_neg hc]
    | disconnectInd c d => cases h
    | _ => rfl
  rw [this]

/-- Deliveries of a first message. -/
theorem RxInitShape.recvs {s0 s s' : State} {op : Op} {c : ConnId} {a : SccpAddr} {d : Bytes} {rc : Int}
    {ls : List Lbl} (hf : firstPayload s0 op = some (c, a, d)) (h : RxInitShape env s ⟨a, c⟩ d rc ls s') :
    (uplink env s0 op = none ∧ recvLbls ls = []) ∨
    ∃ ies id ra sai p, initialUe env s0 op = some (c, a, ies) ∧ readInitialUe ies = some (id, ra, sai) ∧
      uplink env s0 op = some (c, ies.nas, some ra, some sai) ∧
      recvLbls ls = [(p, c, ies.nas, some ra, some sai)] ∧ p = (reg1 env s id a).2.2 := by
  have hdt := uplink_of_first (env := env) hf
  rcases h with ⟨hd, _, rfl, _⟩ | ⟨m, hm, _, h⟩
  · refine .inl ⟨?_, rfl⟩
    unfold uplink
    have : initialUe env s0 op = none := by unfold initialUe; rw [hf]; simp only [hd]
    rw [this, hdt]
  · rcases h with ⟨hn, rfl, _⟩ | ⟨hdir, hproc, ies, hb, h⟩
    · refine .inl ⟨?_, rfl⟩
      unfold uplink
      have : initialUe env s0 op = none := by
        cases hi : initialUe env s0 op with
        | none => rfl
        | some x =>
          obtain ⟨c', a', ies⟩ := x
          obtain ⟨d', m', hf', hm', e1, e2, _⟩ := initialUe_some hi
          rw [hf] at hf'
          injection hf' with hf'
          injection hf' with _ hf'
          injection hf' with _ hf'
          subst hf'
          rw [hm] at hm'
          injection hm' with hm'
          subst hm'
          exact absurd ⟨e1, e2⟩ hn
      rw [this, hdt]
    · have hi := initialUe_of hf hm hdir hproc hb
      rcases h with ⟨hc, rfl⟩ | ⟨id, ra, sai, es, p, as, hc, rfl, has, hp, hes⟩
      · refine .inl ⟨?_, rfl⟩
        unfold uplink
        rw [hi]
        simp only [initialCheck_ok hc, Option.map_none]
      · refine .inr ⟨ies, id, ra, sai, p, hi, initialCheck_ok hc, ?_, ?_, hp⟩
        · unfold uplink
          rw [hi]
          simp only [initialCheck_ok hc, Option.map_some]
        · have hes' : recvLbls es = [] := by
            rcases hes with ⟨_, rfl⟩ | ⟨_, as', rfl, has'⟩
            · rfl
            · have : recvLbls (.cb (.event none (.newArea id (areaOf (gprsRaiToOsmo ra)))) :: as') =
                  recvLbls [.cb (.event none (.newArea id (areaOf (gprsRaiToOsmo ra))))] ++ recvLbls as' := by
                rw [← recvLbls_append]; rfl
              rw [this, has'.recvs]; rfl
          have : Lbl.nasAlloc :: Lbl.register id (gprsRaiToOsmo ra) a :: es ++
              Lbl.alloc p (regPtr env s id a) c ra :: Lbl.cb (.recv p c ies.nas (some ra) (some sai)) :: as ++ [.nasFree]
            = [.nasAlloc, .register id (gprsRaiToOsmo ra) a] ++ es ++
              [.alloc p (regPtr env s id a) c ra, .cb (.recv p c ies.nas (some ra) (some sai))] ++ as ++ [.nasFree] := by simp
          simp only at this ⊢
          rw [this]
          simp only [recvLbls_append, hes', has.recvs]
          rfl

/-- Deliveries of a message on a connection with context. -/
theorem RxCoShape.recvs {s0 s s' : State} {op : Op} {c : ConnId} {d : Bytes} {rc : Int} {u : Ue}
    {ls : List Lbl} (hi : (s.ues.map (·.ptr)).Nodup) (hu : ctxFind s c = some u)
    (hf : initialUe env s0 op = none) (hco : coMsg env s0 op = (env.decodeCo d).map fun m => (c, m))
    (h : RxCoShape env s u.ptr d rc ls s') :
    (uplink env s0 op = none ∧ recvLbls ls = []) ∨
    ∃ ies ra sai, directTransfer env s0 op = some (c, ies) ∧ dtCheck ies = .ok (some (ra, sai)) ∧
      uplink env s0 op = some (c, ies.nas, ra, sai) ∧ recvLbls ls = [(u.ptr, c, ies.nas, ra, sai)] := by
  obtain ⟨hum, huc⟩ := ctxFind_some hu
  unfold uplink
  rw [hf]
  simp only
  rcases h with ⟨hd, _, rfl, _⟩ | ⟨m, hm, _, h⟩
  · refine .inl ⟨?_, rfl⟩
    unfold directTransfer
    rw [hco, hd]; rfl
  · rw [hm, Option.map_some] at hco
    rcases h.recvs with ⟨ies, h1, h2, h3, h⟩ | ⟨hn, h⟩
    · have hdt : directTransfer env s0 op = some (c, ies) := by
        unfold directTransfer
        rw [hco]
        obtain ⟨dir, proc, body⟩ := m
        simp only at h1 h2 h3
        subst h1 h2 h3
        simp
      rw [hdt]
      rcases h with ⟨h, h'⟩ | ⟨ra, sai, v, h, hc, hv, h'⟩
      · exact .inl ⟨by simp only [h, Option.map_none], h'⟩
      · refine .inr ⟨ies, ra, sai, rfl, hc, by simp only [h, Option.map_some], ?_⟩
        obtain ⟨hvm, hvp⟩ := find_live hv
        have : v = u := ue_inj hi hvm hum hvp
        subst this
        rw [h', huc]
    · refine .inl ⟨?_, h⟩
      have : directTransfer env s0 op = none := by
        unfold directTransfer
        rw [hco]
        obtain ⟨dir, proc, body⟩ := m
        cases body with
        | directTransfer ies =>
          simp only
          rw [if_neg]
          rintro ⟨h1, h2⟩
          exact hn ⟨ies, h1, h2, rfl⟩
        | _ => rfl
      rw [this]

theorem initialUe_none_of {s : State} {op : Op} (h : firstPayload s op = none) : initialUe env s op = none := by
  unfold initialUe; rw [h]

theorem uplink_none_of {s : State} {op : Op} (h : firstPayload s op = none) (h' : coMsg env s op = none) :
    uplink env s op = none := by
  unfold uplink directTransfer
  rw [initialUe_none_of h, h']

theorem recvLbls_cons (l : Lbl) (ls : List Lbl) : recvLbls (l :: ls) = recvLbls [l] ++ recvLbls ls := by
  rw [← recvLbls_append]; rfl

/-- What an operation delivers. -/
theorem step_recvs {op : Op} {s s' : State} {rc : Int} {d : List Out} (h : step env op s = .ok (rc, s')) (hi : Inv s)
    (hd : s'.trace = s.trace ++ d) :
    (uplink env s op = none ∧ recvs d = []) ∨
    (∃ c a ies id ra sai p, initialUe env s op = some (c, a, ies) ∧ readInitialUe ies = some (id, ra, sai) ∧
      uplink env s op = some (c, ies.nas, some ra, some sai) ∧
      recvs d = [(p, c, ies.nas, some ra, some sai)] ∧ s.next ≤ p) ∨
    (∃ c ies ra sai p, initialUe env s op = none ∧ directTransfer env s op = some (c, ies) ∧ dtCheck ies = .ok (some (ra, sai)) ∧
      uplink env s op = some (c, ies.nas, ra, sai) ∧
      recvs d = [(p, c, ies.nas, ra, sai)] ∧ LiveConn s p c) := by
  have key : ∀ (P : List Lbl → Prop), (∃ ls, Path env ls s s' ∧ P ls) → ∃ ls, recvs d = recvLbls ls ∧ P ls := by
    rintro P ⟨ls, hp, h⟩
    exact ⟨ls, hp.recvs hd, h⟩
  have hnx : ∀ (s1 : State) id a, s1.rncs = s.rncs → s1.next = s.next → s.next ≤ (reg1 env s1 id a).2.2 := by
    intro s1 id a h1 h2
    have : reg1 env s1 id a = reg1 env s id a := by unfold reg1 rncIdFind; rw [h1, h2]
    rw [this]
    exact (reg1_inv id a hi.reg).2.2.1
  cases op with
  | connectInd c a dd =>
    obtain ⟨ls, e, ls', rfl, h'⟩ := key _ (wp_ok (pl_connectInd c a dd s) h)
    rw [e, recvLbls_cons]
    rcases h' with ⟨hd, _, rfl⟩ | ⟨hd, h'⟩
    · refine .inl ⟨uplink_none_of ?_ rfl, rfl⟩
      rw [firstPayload_connect, if_pos hd]
    · have hf : firstPayload s (.connectInd c a dd) = some (c, a, dd) := by
        rw [firstPayload_connect, if_neg hd]
      rcases h'.recvs hf with h | ⟨ies, id, ra, sai, p, h1, h2, h3, h4, h5⟩
      · exact .inl h
      · exact .inr (.inl ⟨c, a, ies, id, ra, sai, p, h1, h2, h3, h4, h5 ▸ hnx _ _ _ rfl rfl⟩)
  | connectConf =>
    cases h
    have : d = [] := by simpa using hd
    subst this
    exact .inl ⟨uplink_none_of rfl rfl, rfl⟩
  | otherInd =>
    cases h
    have : d = [] := by simpa using hd
    subst this
    exact .inl ⟨uplink_none_of rfl rfl, rfl⟩
  | dataInd c dd =>
    obtain ⟨ls, e, h'⟩ := key _ (wp_ok (pl_dataInd c dd s) h)
    rw [e]
    rcases h' with ⟨u, hu, h'⟩ | ⟨hn, hc, _, rfl, _⟩ | ⟨addr, ls', hn, hc, rfl, h'⟩
    · have hx : HasCtx s c := ⟨u, ctxFind_some hu⟩
      have hf : firstPayload s (.dataInd c dd) = none := by rw [firstPayload_data, if_pos hx]
      have hco : coMsg env s (.dataInd c dd) = (env.decodeCo dd).map fun m => (c, m) := by
        rw [coMsg_data, if_pos hx]
      rcases h'.recvs hi.ueNodup hu (initialUe_none_of hf) hco with h | ⟨ies, ra, sai, h1, h2, h3, h4⟩
      · exact .inl h
      · exact .inr (.inr ⟨c, ies, ra, sai, u.ptr, initialUe_none_of hf, h1, h2, h3, h4, u, (ctxFind_some hu).1, rfl, (ctxFind_some hu).2⟩)
    · refine .inl ⟨uplink_none_of ?_ ?_, rfl⟩
      · rw [firstPayload_data, if_neg (ctxFind_none.1 hn)]
        unfold cacheFind at hc
        rw [Option.map_eq_none_iff] at hc ⊢
        exact hc
      · rw [coMsg_data, if_neg (ctxFind_none.1 hn)]
    · unfold cacheFind at hc
      rw [Option.map_eq_some_iff] at hc
      obtain ⟨x, he, rfl⟩ := hc
      have hf : firstPayload s (.dataInd c dd) = some (c, x.2, dd) := by
        rw [firstPayload_data, if_neg (ctxFind_none.1 hn), he]; rfl
      rw [recvLbls_cons]
      rcases h'.recvs hf with h | ⟨ies, id, ra, sai, p, h1, h2, h3, h4, h5⟩
      · exact .inl h
      · exact .inr (.inl ⟨c, x.2, ies, id, ra, sai, p, h1, h2, h3, h4, h5 ▸ hnx _ _ _ rfl rfl⟩)
  | disconnectInd c dd =>
    obtain ⟨ls, e, ls1, rfl, h'⟩ := key _ (wp_ok (pl_disconnectInd c dd s) h)
    rw [e, recvLbls_cons]
    rcases h' with ⟨hn, _, rfl, _⟩ | ⟨u, ms, s1, fs, hu, rfl, _, hm, hf⟩
    · refine .inl ⟨uplink_none_of rfl ?_, rfl⟩
      rw [coMsg_disc, if_neg fun h => ctxFind_none.1 hn h.1]
    · have hx : HasCtx s c := ⟨u, ctxFind_some hu⟩
      have hfs : recvLbls fs = [] := by
        rcases hf with ⟨_, rfl, _⟩ | ⟨v, _, hf⟩
        · rfl
        · exact hf.lbls.recvs
      rw [recvLbls_append, hfs, List.append_nil]
      rcases hm with ⟨hd, _, rfl, _⟩ | ⟨hd, hm⟩
      · refine .inl ⟨uplink_none_of rfl ?_, rfl⟩
        rw [coMsg_disc, if_neg fun h => h.2 hd]
      · have hco : coMsg env s (.disconnectInd c dd) = (env.decodeCo dd).map fun m => (c, m) := by
          rw [coMsg_disc, if_pos ⟨hx, hd⟩]
        rcases RxCoShape.recvs (s0 := s) (s := uncached s c) (op := .disconnectInd c dd) hi.ueNodup hu rfl hco hm with h | ⟨ies, ra, sai, h1, h2, h3, h4⟩
        · exact .inl h
        · exact .inr (.inr ⟨c, ies, ra, sai, u.ptr, rfl, h1, h2, h3, h4, u, (ctxFind_some hu).1, rfl, (ctxFind_some hu).2⟩)
  | unitdataInd a dd =>
    obtain ⟨ls, e, h'⟩ := key _ (wp_ok (pl_unitdataInd a dd s) h)
    rw [e]
    refine .inl ⟨uplink_none_of rfl rfl, ?_⟩
    rcases h' with ⟨_, _, rfl⟩ | ⟨m, _, _, h'⟩
    · rfl
    · rcases h' with ⟨_, _, d, rnc, _, ⟨_, rfl⟩ | ⟨b, rc, _, rfl⟩⟩ | ⟨_, rfl⟩ <;> rfl
  | noticeInd a c =>
    obtain ⟨ls, e, _, h'⟩ := key _ (wp_ok (pl_notice a c s) h)
    exact .inl ⟨uplink_none_of rfl rfl, e.trans h'.recvs⟩
  | pcstateInd a b c =>
    obtain ⟨ls, e, _, h'⟩ := key _ (wp_ok (pl_pcstate a b c s) h)
    exact .inl ⟨uplink_none_of rfl rfl, e.trans h'.recvs⟩
  | timer p =>
    obtain ⟨ls, e, _, h'⟩ := key _ (wp_ok (pl_timer p s) h)
    refine .inl ⟨uplink_none_of rfl rfl, ?_⟩
    rw [e]
    rcases h' with ⟨_, rfl, _⟩ | ⟨_, ls', rfl, h'⟩
    · rfl
    · rw [recvLbls_cons, h'.recvs]; rfl
  | api a =>
    obtain ⟨ls, e, h'⟩ := key _ (wp_ok (pl_runApi a s) h)
    exact .inl ⟨uplink_none_of rfl rfl, e.trans h'.recvs⟩

/-! ## Operations on other connections -/

/-- A label that creates a context or cache entry on a connection, or removes an entry. -/
def Lbl.touches (c : ConnId) : Lbl → Bool
  | .cacheAdd c' _ => c' = c
  | .cacheDel c' => c' = c
  | .alloc _ _ c' _ => c' = c
  | .sap (.connectResp c') _ => c' = c
  | _ => false

theorem Lbl.touches_api {c : ConnId} {l : Lbl} (h : l.isApi = true) : l.touches c = false := by
  match l with
  | .sap (.connectResp _) _ => cases h
  | .sap (.dataReq _ _) _ => rfl
  | .sap (.disconnectReq _) _ => rfl
  | .sap (.unitdataReq _ _) _ => rfl
  | .free _ => rfl
  | .release _ _ _ => rfl
  | .txBuf _ => rfl

def NoTouch (c : ConnId) (ls : List Lbl) : Prop := ∀ l ∈ ls, l.touches c = false

theorem NoTouch.append {c : ConnId} {a b : List Lbl} (h : NoTouch c a) (h' : NoTouch c b) : NoTouch c (a ++ b) := by
  intro l hl
  rcases List.mem_append.1 hl with hl | hl
  · exact h l hl
  · exact h' l hl
theorem NoTouch.nil {c : ConnId} : NoTouch c [] := by intro l h; cases h
theorem NoTouch.cons {c : ConnId} {l : Lbl} {a : List Lbl} (h : l.touches c = false) (h' : NoTouch c a) :
    NoTouch c (l :: a) := by
  intro x hx
  rcases List.mem_cons.1 hx with rfl | hx
  · exact h
  · exact h' x hx
theorem ApiLbls.noTouch {c : ConnId} {ls : List Lbl} (h : ApiLbls ls) : NoTouch c ls := by
  intro l hl
  exact Lbl.touches_api (h l hl)
theorem LinkLbls.noTouch {c : ConnId} {ls : List Lbl} (h : LinkLbls ls) : NoTouch c ls := by
  intro l hl
  rcases h l hl with h | ⟨p, c, rfl⟩
  · exact Lbl.touches_api h
  · rfl
theorem EvShape.noTouch {c : ConnId} {s s' : State} {p : Ptr} {e : Event} {ls : List Lbl} (h : EvShape env s p e ls s') :
    NoTouch c ls := by
  rcases h with ⟨_, rfl, _⟩ | ⟨u, _, ⟨_, _, as, rfl, has⟩ | ⟨_, _, rfl, _⟩⟩
  · exact .nil
  · exact .cons rfl has.noTouch
  · exact .nil
theorem DtShape.noTouch {c : ConnId} {s : State} {p : Ptr} {ies : DtIes} {ls : List Lbl} (h : DtShape s p ies ls) :
    NoTouch c ls := by
  rcases h with ⟨_, rfl⟩ | ⟨ra, sai, u, as, _, _, _, rfl, has⟩
  · exact .cons rfl .nil
  · exact .append (.cons rfl (.cons rfl has.noTouch)) (.cons rfl .nil)
theorem CoShape.noTouch {c : ConnId} {s s' : State} {p : Ptr} {m : Msg} {ls : List Lbl} (h : CoShape env s p m ls s') :
    NoTouch c ls := by
  rcases h with ⟨_, _, ies, _, h⟩ | ⟨_, _, c, u, rc, _, _, rfl, _⟩ | ⟨_, _, h⟩ | ⟨_, _, h⟩ |
    ⟨_, _, it, l, _, h⟩ | ⟨rfl, _⟩
  · exact h.noTouch
  · exact .cons rfl .nil
  · exact h.noTouch
  · exact h.noTouch
  · exact h.noTouch
  · exact .nil
theorem RxCoShape.noTouch {c : ConnId} {s s' : State} {p : Ptr} {data : Bytes} {rc : Int} {ls : List Lbl}
    (h : RxCoShape env s p data rc ls s') : NoTouch c ls := by
  rcases h with ⟨_, _, rfl, _⟩ | ⟨m, _, _, h⟩
  · exact .nil
  · exact h.noTouch
theorem RxInitShape.noTouch {c c' : ConnId} {a : SccpAddr} {s s' : State} {data : Bytes} {rc : Int} {ls : List Lbl}
    (h : RxInitShape env s ⟨a, c'⟩ data rc ls s') (hc : c' ≠ c) : NoTouch c ls := by
  rcases h with ⟨_, _, rfl, _⟩ | ⟨m, _, _, ⟨_, rfl, _⟩ | ⟨_, _, ies, _, ⟨_, rfl⟩ | ⟨id, ra, sai, es, p, as, _, rfl, has, _, hes⟩⟩⟩
  · exact .nil
  · exact .nil
  · exact .cons rfl .nil
  · have hes' : NoTouch c es := by
      rcases hes with ⟨_, rfl⟩ | ⟨_, as', rfl, has'⟩
      · exact .nil
      · exact .cons rfl has'.noTouch
    refine .append (.append (.cons rfl (.cons rfl hes')) (.cons ?_ (.cons rfl has.noTouch))) (.cons rfl .nil)
    simpa [Lbl.touches] using hc

theorem eraseP_find {l : List (ConnId × SccpAddr)} {c c' : ConnId} (h : c' ≠ c) :
    (l.eraseP (·.1 = c')).find? (·.1 = c) = l.find? (·.1 = c) := by
  induction l with
  | nil => rfl
  | cons e l ih =>
    rw [List.eraseP_cons]
    by_cases he : e.1 = c'
    · have : ¬ e.1 = c := fun h' => h (he.symm.trans h')
      simp [he, this, h]
    · simp only [he, decide_false, cond_false, List.find?_cons, ih]

/-- Other connections' operations keep the cached request of a connection, and give it no
context. -/
theorem Path.keepConn {c : ConnId} {ls : List Lbl} {s s' : State} (h : Path env ls s s') (hn : NoTouch c ls) :
    s'.cache.find? (·.1 = c) = s.cache.find? (·.1 = c) ∧ (HasCtx s' c → HasCtx s c) := by
  induction h with
  | nil => exact ⟨rfl, id⟩
  | @cons l ls a b e ha _ ih =>
    obtain ⟨h1, h2⟩ := ih (fun x hx => hn x (List.mem_cons_of_mem _ hx))
    have hl := hn l List.mem_cons_self
    rw [h1]
    suffices h : b.cache.find? (·.1 = c) = a.cache.find? (·.1 = c) ∧ (HasCtx b c → HasCtx a c) from
      ⟨h.1, fun x => h.2 (h2 x)⟩
    cases hg : l.grows with
    | false =>
      have hs := ha.shrinks hg
      refine ⟨?_, ?_⟩
      · cases ha
        case cacheDel => exact eraseP_find (by simpa [Lbl.touches] using hl)
        case cacheAdd => simp [Lbl.grows] at hg
        case alloc => simp [Lbl.grows] at hg
        all_goals rfl
      · rintro ⟨u, hu, rfl⟩
        obtain ⟨v, hv, h⟩ := hs.ues.mem hu
        exact ⟨v, hv, h.conn.symm⟩
    | true =>
      cases ha
      case cacheAdd =>
        refine ⟨?_, fun h => h⟩
        simp only [Lbl.touches, decide_eq_false_iff_not] at hl
        simp [List.find?_cons, hl]
      case alloc =>
        refine ⟨rfl, ?_⟩
        rintro ⟨u, hu, hc⟩
        simp only [allocSt, List.map_cons, if_true, List.mem_cons, List.mem_map] at hu
        rcases hu with rfl | ⟨v, hv, rfl⟩
        · exact absurd hc (by simpa [Lbl.touches] using hl)
        · refine ⟨v, hv, ?_⟩
          rw [← hc]; split <;> rfl
      all_goals simp [Lbl.grows] at hg

theorem step_noTouch {c : ConnId} {op : Op} {s s' : State} {rc : Int} (h : step env op s = .ok (rc, s'))
    (hc : opConn op ≠ some c) : ∃ ls, Path env ls s s' ∧ NoTouch c ls := by
  have key : ∀ (P : List Lbl → Prop), (∃ ls, Path env ls s s' ∧ P ls) → (∀ ls, P ls → NoTouch c ls) →
      ∃ ls, Path env ls s s' ∧ NoTouch c ls := by
    rintro P ⟨ls, hp, h⟩ hP
    exact ⟨ls, hp, hP ls h⟩
  cases op with
  | connectInd c' a dd =>
    have hc' : c' ≠ c := fun h => hc (by rw [h]; rfl)
    refine key _ (wp_ok (pl_connectInd c' a dd s) h) ?_
    rintro ls ⟨ls', rfl, ⟨_, _, rfl⟩ | ⟨_, h'⟩⟩
    · exact .cons (by simpa [Lbl.touches] using hc') (.cons (by simpa [Lbl.touches] using hc') .nil)
    · exact .cons (by simpa [Lbl.touches] using hc') (h'.noTouch hc')
  | connectConf => cases h; exact ⟨[], .nil _, .nil⟩
  | otherInd => cases h; exact ⟨[], .nil _, .nil⟩
  | dataInd c' dd =>
    have hc' : c' ≠ c := fun h => hc (by rw [h]; rfl)
    refine key _ (wp_ok (pl_dataInd c' dd s) h) ?_
    rintro ls (⟨u, hu, h'⟩ | ⟨hn, _, _, rfl, _⟩ | ⟨addr, ls', hn, _, rfl, h'⟩)
    · exact h'.noTouch
    · exact .nil
    · exact .cons (by simpa [Lbl.touches] using hc') (h'.noTouch hc')
  | disconnectInd c' dd =>
    have hc' : c' ≠ c := fun h => hc (by rw [h]; rfl)
    refine key _ (wp_ok (pl_disconnectInd c' dd s) h) ?_
    rintro ls ⟨ls1, rfl, ⟨hn, _, rfl, _⟩ | ⟨u, ms, s1, fs, hu, rfl, _, hm, hf⟩⟩
    · exact .cons (by simpa [Lbl.touches] using hc') .nil
    · refine .cons (by simpa [Lbl.touches] using hc') (.append ?_ ?_)
      · rcases hm with ⟨_, _, rfl, _⟩ | ⟨_, hm⟩
        · exact .nil
        · exact hm.noTouch
      · rcases hf with ⟨_, rfl, _⟩ | ⟨v, _, hf⟩
        · exact .nil
        · exact hf.lbls.noTouch
  | unitdataInd a dd =>
    refine key _ (wp_ok (pl_unitdataInd a dd s) h) ?_
    rintro ls (⟨_, _, rfl⟩ | ⟨m, _, _, h'⟩)
    · exact .nil
    · rcases h' with ⟨_, _, d, rnc, _, ⟨_, rfl⟩ | ⟨b, rc, _, rfl⟩⟩ | ⟨_, rfl⟩
      · exact .nil
      · exact .cons rfl .nil
      · exact .nil
  | noticeInd a c => exact key _ (wp_ok (pl_notice a c s) h) fun ls h => h.2.noTouch
  | pcstateInd a b c => exact key _ (wp_ok (pl_pcstate a b c s) h) fun ls h => h.2.noTouch
  | timer p =>
    refine key _ (wp_ok (pl_timer p s) h) ?_
    rintro ls ⟨_, ⟨_, rfl, _⟩ | ⟨_, ls', rfl, h'⟩⟩
    · exact .nil
    · exact .cons rfl h'.noTouch
  | api a => exact key _ (wp_ok (pl_runApi a s) h) fun ls h => h.noTouch

theorem step_keepConn {c : ConnId} {op : Op} {s s' : State} {rc : Int} (h : step env op s = .ok (rc, s'))
    (hc : opConn op ≠ some c) :
    s'.cache.find? (·.1 = c) = s.cache.find? (·.1 = c) ∧ (HasCtx s' c → HasCtx s c) := by
  obtain ⟨ls, hp, hn⟩ := step_noTouch h hc
  exact hp.keepConn hn

theorem run_keepConn {c : ConnId} {ops : List Op} {s s' : State} (h : run env ops s = .ok ((), s'))
    (hc : ∀ op ∈ ops, opConn op ≠ some c) :
    s'.cache.find? (·.1 = c) = s.cache.find? (·.1 = c) ∧ (HasCtx s' c → HasCtx s c) := by
  induction ops generalizing s with
  | nil => cases h; exact ⟨rfl, id⟩
  | cons op ops ih =>
    obtain ⟨rc, s1, h1, h2⟩ := bind_ok.1 h
    obtain ⟨a, b⟩ := step_keepConn h1 (hc op List.mem_cons_self)
    obtain ⟨a', b'⟩ := ih h2 fun x hx => hc x (List.mem_cons_of_mem _ hx)
    exact ⟨a'.trans a, fun x => b (b' x)⟩

/-! ## Classes of labels -/

/-- A class of labels that contains everything but confirmations, timers and the cache. -/
structure Wide (P : Lbl → Prop) : Prop where
  api : ∀ l, l.isApi = true → P l
  cb : ∀ o, P (.cb o)
  nasAlloc : P .nasAlloc
  nasFree : P .nasFree
  register : ∀ id rai a, P (.register id rai a)
  alloc : ∀ p r c ra, P (.alloc p r c ra)

theorem Wide.evs {P : Lbl → Prop} (hP : Wide P) {s s' : State} {p : Ptr} {e : Event} {ls : List Lbl}
    (h : EvShape env s p e ls s') : ∀ l ∈ ls, P l := by
  rcases h with ⟨_, rfl, _⟩ | ⟨u, _, ⟨_, _, as, rfl, has⟩ | ⟨_, _, rfl, _⟩⟩
  · simp
  · intro l hl
    rcases List.mem_cons.1 hl with rfl | hl
    · exact hP.cb _
    · exact hP.api l (has l hl)
  · simp

theorem Wide.link {P : Lbl → Prop} (hP : Wide P) {ls : List Lbl} (h : LinkLbls ls) : ∀ l ∈ ls, P l := by
  intro l hl
  rcases h l hl with h | ⟨p, c, rfl⟩
  · exact hP.api l h
  · exact hP.cb _

theorem Wide.co {P : Lbl → Prop} (hP : Wide P) {s s' : State} {p : Ptr} {data : Bytes} {rc : Int} {ls : List Lbl}
    (h : RxCoShape env s p data rc ls s') : ∀ l ∈ ls, P l := by
  rcases h with ⟨_, _, rfl, _⟩ | ⟨m, _, _, ⟨_, _, ies, _, h⟩ | ⟨_, _, c, u, rc, _, _, rfl, _⟩ | ⟨_, _, h⟩ | ⟨_, _, h⟩ |
    ⟨_, _, it, l, _, h⟩ | ⟨rfl, _⟩⟩
  · simp
  · rcases h with ⟨_, rfl⟩ | ⟨ra, sai, u, as, _, _, _, rfl, has⟩
    · intro l hl; rw [List.mem_singleton.1 hl]; exact hP.nasAlloc
    · intro l hl
      simp only [List.cons_append, List.mem_cons, List.mem_append, List.not_mem_nil, or_false] at hl
      rcases hl with rfl | rfl | hl | rfl
      · exact hP.nasAlloc
      · exact hP.cb _
      · exact hP.api l (has l hl)
      · exact hP.nasFree
  · intro l hl; rw [List.mem_singleton.1 hl]; exact hP.api _ rfl
  · exact hP.evs h
  · exact hP.evs h
  · exact hP.evs h
  · simp

theorem Wide.init {P : Lbl → Prop} (hP : Wide P) {s s' : State} {ctx : NewCtx} {data : Bytes} {rc : Int} {ls : List Lbl}
    (h : RxInitShape env s ctx data rc ls s') : ∀ l ∈ ls, P l := by
  rcases h with ⟨_, _, rfl, _⟩ | ⟨m, _, _, ⟨_, rfl, _⟩ | ⟨_, _, ies, _, ⟨_, rfl⟩ | ⟨id, ra, sai, es, p, as, _, rfl, has, _, hes⟩⟩⟩
  · simp
  · simp
  · intro l hl; rw [List.mem_singleton.1 hl]; exact hP.nasAlloc
  · intro l hl
    simp only [List.cons_append, List.mem_cons, List.mem_append, List.not_mem_nil, or_false] at hl
    rcases hl with rfl | rfl | (hl | rfl | rfl | hl) | rfl
    · exact hP.nasAlloc
    · exact hP.register ..
    · rcases hes with ⟨_, rfl⟩ | ⟨_, as', rfl, has'⟩
      · cases hl
      · rcases List.mem_cons.1 hl with rfl | hl
        · exact hP.cb _
        · exact hP.api l (has' l hl)
    · exact hP.alloc ..
    · exact hP.cb _
    · exact hP.api l (has l hl)
    · exact hP.nasFree

/-- Confirmations of connections. -/
def resps (d : List Out) : List ConnId :=
  d.filterMap fun o => match o with | .sap (.connectResp c) _ => some c | _ => none

def Lbl.isResp : Lbl → Bool
  | .sap (.connectResp _) _ => true
  | _ => false

theorem wide_noResp : Wide fun l => l.isResp = false where
  api := by
    intro l h
    match l with
    | .sap (.connectResp _) _ => cases h
    | .sap (.dataReq _ _) _ => rfl
    | .sap (.disconnectReq _) _ => rfl
    | .sap (.unitdataReq _ _) _ => rfl
    | .free _ => rfl
    | .release _ _ _ => rfl
    | .txBuf _ => rfl
  cb := fun _ => rfl
  nasAlloc := rfl
  nasFree := rfl
  register := fun _ _ _ => rfl
  alloc := fun _ _ _ _ => rfl

theorem resps_append (a b : List Out) : resps (a ++ b) = resps a ++ resps b := List.filterMap_append ..

theorem Emits.noResp {ls : List Lbl} {d : List Out} (h : Emits ls d) (hok : cbOk ls) (hl : ∀ l ∈ ls, l.isResp = false) :
    resps d = [] := by
  induction h with
  | nil => rfl
  | @cons l ls d d' h1 _ ih =>
    rw [resps_append, ih (fun x hx => hok x (List.mem_cons_of_mem _ hx)) fun x hx => hl x (List.mem_cons_of_mem _ hx)]
    have hl' := hl l List.mem_cons_self
    have ho := hok l List.mem_cons_self
    match l with
    | .sap (.connectResp _) _ => cases hl'
    | .sap (.dataReq _ _) _ => cases h1; rfl
    | .sap (.disconnectReq _) _ => cases h1; rfl
    | .sap (.unitdataReq _ _) _ => cases h1; rfl
    | .free _ => obtain ⟨c, rc, rfl⟩ := h1; rfl
    | .release _ _ _ => obtain ⟨c, rc, rfl⟩ := h1; rfl
    | .cb o =>
      cases h1
      have := ho o rfl
      cases o with
      | sap p rc => cases this
      | recv => rfl
      | event => rfl
    | .cacheAdd _ _ => cases h1; rfl
    | .cacheDel _ => cases h1; rfl
    | .register _ _ _ => cases h1; rfl
    | .alloc _ _ _ _ => cases h1; rfl
    | .nasAlloc => cases h1; rfl
    | .nasFree => cases h1; rfl
    | .txBuf _ => cases h1; rfl
    | .timerDel _ => cases h1; rfl

theorem Path.noResp {ls : List Lbl} {s s' : State} (h : Path env ls s s') (hl : ∀ l ∈ ls, l.isResp = false)
    {d : List Out} (hd : s'.trace = s.trace ++ d) : resps d = [] := by
  obtain ⟨d', h1, h2⟩ := h.emits
  have : d = d' := List.append_cancel_left (hd.symm.trans h1)
  subst this
  exact h2.noResp h.cbOk hl

/-- Only a connection request is confirmed. -/
theorem step_noResp {op : Op} {s s' : State} {rc : Int} (h : step env op s = .ok (rc, s'))
    (hop : ∀ c a d, op ≠ .connectInd c a d) {d : List Out} (hd : s'.trace = s.trace ++ d) : resps d = [] := by
  have key : ∀ (P : List Lbl → Prop), (∃ ls, Path env ls s s' ∧ P ls) → (∀ ls, P ls → ∀ l ∈ ls, l.isResp = false) →
      resps d = [] := by
    rintro P ⟨ls, hp, h⟩ hP
    exact hp.noResp (hP ls h) hd
  have hw := wide_noResp
  cases op with
  | connectInd c' a dd => exact absurd rfl (hop c' a dd)
  | connectConf =>
    cases h
    have : d = [] := by simpa using hd
    subst this; rfl
  | otherInd =>
    cases h
    have : d = [] := by simpa using hd
    subst this; rfl
  | dataInd c' dd =>
    refine key _ (wp_ok (pl_dataInd c' dd s) h) ?_
    rintro ls (⟨u, hu, h'⟩ | ⟨hn, _, _, rfl, _⟩ | ⟨addr, ls', hn, _, rfl, h'⟩)
    · exact hw.co h'
    · simp
    · intro l hl
      rcases List.mem_cons.1 hl with rfl | hl
      · rfl
      · exact hw.init h' l hl
  | disconnectInd c' dd =>
    refine key _ (wp_ok (pl_disconnectInd c' dd s) h) ?_
    rintro ls ⟨ls1, rfl, h'⟩
    intro l hl
    rcases List.mem_cons.1 hl with rfl | hl
    · rfl
    · rcases h' with ⟨hn, _, rfl, _⟩ | ⟨u, ms, s1, fs, hu, rfl, _, hm, hf⟩
      · cases hl
      · rcases List.mem_append.1 hl with hl | hl
        · rcases hm with ⟨_, _, rfl, _⟩ | ⟨_, hm⟩
          · cases hl
          · exact hw.co hm l hl
        · rcases hf with ⟨_, rfl, _⟩ | ⟨v, _, hf⟩
          · cases hl
          · exact hw.link hf.lbls l hl
  | unitdataInd a dd =>
    refine key _ (wp_ok (pl_unitdataInd a dd s) h) ?_
    rintro ls (⟨_, _, rfl⟩ | ⟨m, _, _, h'⟩)
    · simp
    · rcases h' with ⟨_, _, d, rnc, _, ⟨_, rfl⟩ | ⟨b, rc, _, rfl⟩⟩ | ⟨_, rfl⟩
      · simp
      · intro l hl; rw [List.mem_singleton.1 hl]; rfl
      · simp
  | noticeInd a c => exact key _ (wp_ok (pl_notice a c s) h) fun ls h => hw.link h.2
  | pcstateInd a b c => exact key _ (wp_ok (pl_pcstate a b c s) h) fun ls h => hw.link h.2
  | timer p =>
    refine key _ (wp_ok (pl_timer p s) h) ?_
    rintro ls ⟨_, ⟨_, rfl, _⟩ | ⟨_, ls', rfl, h'⟩⟩
    · simp
    · intro l hl
      rcases List.mem_cons.1 hl with rfl | hl
      · rfl
      · exact hw.evs h' l hl
  | api a => exact key _ (wp_ok (pl_runApi a s) h) fun ls h l hl => hw.api l (h l hl)

/-! ## Exact effects for inert users -/

theorem callback_inert (hin : Inert env) (o : Out) (s : State) :
    callback env o s = .ok ((), { s with trace := s.trace ++ [o] }) := by
  unfold callback
  simp only [bind_eq, emit, modify_run, get_run]
  rw [hin]
  rfl

theorem rncRegister_inert (hin : Inert env) (id : RncId) (rai : Rai) (addr : SccpAddr) (s : State) :
    ∃ t, rncRegister env id rai addr s = .ok (regPtr env s id addr, { regState env s id rai addr with trace := t }) := by
  rw [rncRegister_eq]
  have : ∃ t, regEvent env s id rai addr (regState env s id rai addr)
      = .ok ((), { regState env s id rai addr with trace := t }) := by
    unfold regEvent
    split
    · unfold iuEventNewArea iuEvent
      cases env.hasEventCb with
      | false => split <;> exact ⟨_, rfl⟩
      | true =>
        split
        · simp only [if_true, callback_inert hin]; exact ⟨_, rfl⟩
        · simp only [if_true, callback_inert hin]; exact ⟨_, rfl⟩
    · exact ⟨_, rfl⟩
  obtain ⟨t, ht⟩ := this
  exact ⟨t, by simp only [bind_eq, ht, pure_run]⟩

theorem initialTail_inert (hin : Inert env) (ctx : NewCtx) (id : RncId) (ra : GprsRaId) (nas : Bytes) (sai : BitVec 16)
    (s : State) (hs : Inv s) :
    wp anyF (initialTail env ctx id ra nas sai) (fun _ s' => ∃ u, s'.ues = u :: s.ues ∧ u.conn = ctx.conn ∧ u.raId = ra ∧
      u.notification = true ∧ u.freeOnRelease = false ∧ ¬ Live s u.ptr ∧
      ∃ r ∈ s'.rncs, r.ptr = u.rnc ∧ SameRnc r.rncId id) s := by
  obtain ⟨t, ht⟩ := rncRegister_inert hin id (gprsRaiToOsmo ra) ctx.addr s
  obtain ⟨_, _, _, _, r, hr, hrp, hri⟩ := regState_effect (env := env) hs.reg id (gprsRaiToOsmo ra) ctx.addr
  have hi := (regState_inv (env := env) id (gprsRaiToOsmo ra) ctx.addr s hs).1
  unfold wp initialTail
  simp only [bind_eq, ht, ctxAlloc, get_run, modify_run, pure_run, callback_inert hin, nasFree]
  refine ⟨⟨(regState env s id (gprsRaiToOsmo ra) ctx.addr).next, regPtr env s id ctx.addr, ctx.conn, ra, true, false⟩,
    ?_, rfl, rfl, rfl, rfl, ?_, r, hr, hrp, hri⟩
  · rw [List.map_cons, if_pos rfl]
    congr 1
    have : ∀ u ∈ s.ues, (if u.ptr = (regState env s id (gprsRaiToOsmo ra) ctx.addr).next
        then { u with raId := ra } else u) = u := by
      intro u hu
      rw [if_neg (Nat.ne_of_lt (hi.ueLt u hu))]
    exact (List.map_congr_left this).trans (List.map_id' _)
  · rintro ⟨u, hu, he⟩
    exact Nat.lt_irrefl _ (he ▸ hi.ueLt u hu)

theorem directTransfer_none_of_initial {s : State} {op : Op} (h : (initialUe env s op).isSome) :
    directTransfer env s op = none := by
  unfold directTransfer
  have : coMsg env s op = none := by
    unfold initialUe at h
    cases op with
    | dataInd c d =>
      rw [coMsg_data]
      rw [firstPayload_data] at h
      split at h
      · simp at h
      · rename_i hf
        split at hf
        · cases hf
        · rename_i hn; rw [if_neg hn]
    | connectInd => rfl
    | disconnectInd c d => cases h
    | connectConf => rfl
    | unitdataInd => rfl
    | noticeInd => rfl
    | pcstateInd => rfl
    | otherInd => rfl
    | timer => rfl
    | api => rfl
  rw [this]

theorem dtCheck_reads {ies : DtIes} {ra : Option GprsRaId} {sai : Option (BitVec 16)}
    (h : dtCheck ies = .ok (some (ra, sai))) :
    match ies.lai with
    | none => ra = none ∧ sai = none
    | some (plmn, lac) => ∃ p0 p1 p2 l0 l1 r, plmn = [p0, p1, p2] ∧ lac = [l0, l1] ∧
        ra = some ⟨mcc p0 p1, laiMnc p1 p2, false, l0 ++ l1, r⟩ ∧
        (match ies.rac with
        | none => r = 0
        | some b => ∃ t, b = r :: t) ∧
        match ies.saiSac with
        | none => sai = none
        | some b => ∃ s0 s1 t, b = s0 :: s1 :: t ∧ sai = some (s0 ++ s1) := by
  unfold dtCheck at h
  cases hl : ies.lai with
  | none => rw [hl] at h; cases h; exact ⟨rfl, rfl⟩
  | some pl =>
    obtain ⟨plmn, lac⟩ := pl
    rw [hl] at h
    simp only at h
    cases hp : parseLai plmn lac with
    | fault e => rw [hp] at h; cases h
    | ok x =>
      obtain ⟨rc, ra'⟩ := x
      rw [hp] at h
      simp only at h
      by_cases hrc : rc = 0
      · subst hrc
        obtain ⟨p0, p1, p2, l0, l1, rfl, rfl, hb, rfl⟩ := parseLai_ok hp
        rw [if_neg (by simp)] at h
        rcases hr : ies.rac with _ | ⟨_ | ⟨r, rr⟩⟩ <;> rw [hr] at h <;>
        rcases hs : ies.saiSac with _ | ⟨_ | ⟨s0, _ | ⟨s1, sr⟩⟩⟩ <;> rw [hs] at h <;>
        cases h
        · exact ⟨p0, p1, p2, l0, l1, 0, rfl, rfl, rfl, rfl, rfl⟩
        · exact ⟨p0, p1, p2, l0, l1, 0, rfl, rfl, rfl, rfl, s0, s1, sr, rfl, rfl⟩
        · exact ⟨p0, p1, p2, l0, l1, r, rfl, rfl, rfl, ⟨rr, rfl⟩, rfl⟩
        · exact ⟨p0, p1, p2, l0, l1, r, rfl, rfl, rfl, ⟨rr, rfl⟩, s0, s1, sr, rfl, rfl⟩
      · rw [if_pos hrc] at h; cases h

end Verif.Iu
