import Verif.Proofs.IuShape

/-!
# Shape of every operation
-/

namespace Verif.Iu
open Spec Lai

variable {env : Env}

/-- Labels of an event for context `p`. -/
def EvShape (env : Env) (s : State) (p : Ptr) (e : Event) (ls : List Lbl) (s' : State) : Prop :=
  (env.hasEventCb = false ∧ ls = [] ∧ s' = s) ∨
  ∃ u, s.ues.find? (·.ptr = p) = some u ∧
    ((env.hasEventCb = true ∧ u.notification = true ∧
        ∃ as, ls = .cb (.event (some (p, u.conn)) e) :: as ∧ ApiLbls as) ∨
     (env.hasEventCb = true ∧ u.notification = false ∧ ls = [] ∧ s' = s))

theorem pl_iuEvent' (p : Ptr) (e : Event) (s : State) :
    wpl env anyF (iuEvent env (some p) e) (fun _ ls s' => EvShape env s p e ls s') s := pl_iuEvent p e s

/-- Labels of a direct transfer. -/
def DtShape (s : State) (ue : Ptr) (ies : DtIes) (ls : List Lbl) : Prop :=
  (dtCheck ies = .ok none ∧ ls = [.nasAlloc]) ∨
  ∃ ra sai u as, dtCheck ies = .ok (some (ra, sai)) ∧ ies.nas.length ≤ 256 ∧
    s.ues.find? (·.ptr = ue) = some u ∧
    ls = .nasAlloc :: .cb (.recv ue u.conn ies.nas ra sai) :: as ++ [.nasFree] ∧ ApiLbls as

/-- Labels of a message on an established connection. -/
def CoShape (env : Env) (s : State) (ue : Ptr) (m : Msg) (ls : List Lbl) (s' : State) : Prop :=
  (m.dir = PR_initiatingMessage ∧ m.proc = id_DirectTransfer ∧
    ∃ ies, m.body = .directTransfer ies ∧ DtShape s ue ies ls) ∨
  (m.dir = PR_initiatingMessage ∧ m.proc = id_Iu_ReleaseRequest ∧
    ∃ c u rc, m.body = .iuReleaseReq c ∧ s.ues.find? (·.ptr = ue) = some u ∧
      ls = [.sap (.dataReq u.conn (.iuRelCmd c)) rc] ∧
      s' = { s with trace := s.trace ++ [.sap (.dataReq u.conn (.iuRelCmd c)) rc] }) ∨
  (m.dir = PR_successfulOutcome ∧ m.proc = id_SecurityModeControl ∧
    EvShape env s ue .securityModeComplete ls s') ∨
  (m.dir = PR_successfulOutcome ∧ m.proc = id_Iu_Release ∧ EvShape env s ue .iuRelease ls s') ∨
  (m.dir = PR_outcome ∧ m.proc = id_RAB_Assignment ∧ ∃ it l, m.body = .rabAssResp (some (some it :: l)) ∧
    EvShape env s ue (.rabAssign it) ls s') ∨
  (ls = [] ∧ s' = s ∧
    ¬ (m.dir = PR_initiatingMessage ∧ m.proc = id_DirectTransfer) ∧
    ¬ (m.dir = PR_initiatingMessage ∧ m.proc = id_Iu_ReleaseRequest) ∧
    ¬ (m.dir = PR_successfulOutcome ∧ m.proc = id_SecurityModeControl) ∧
    ¬ (m.dir = PR_successfulOutcome ∧ m.proc = id_Iu_Release) ∧
    ¬ (m.dir = PR_outcome ∧ m.proc = id_RAB_Assignment ∧ ∃ it l, m.body = .rabAssResp (some (some it :: l))))

theorem pl_handleRabAssResp (ue : Ptr) (items : Option (List (Option Bytes))) (s : State) :
    wpl env anyF (handleRabAssResp env ue items) (fun _ ls s' =>
      (∃ it l, items = some (some it :: l) ∧ EvShape env s ue (.rabAssign it) ls s') ∨
      ((¬ ∃ it l, items = some (some it :: l)) ∧ ls = [] ∧ s' = s)) s := by
  unfold handleRabAssResp
  refine wpl_bind (wpl_deref (fun u hu => ?_) (fun _ => trivial))
  rcases items with _ | ⟨_ | ⟨_ | it, l⟩⟩
  · exact wpl_pure (.inr ⟨by simp, rfl, rfl⟩)
  · exact wpl_fault trivial
  · exact wpl_pure (.inr ⟨by simp, rfl, rfl⟩)
  · refine wpl_bind (wpl_mono (pl_iuEvent' _ _ _) ?_)
    intro _ ls s' _ h
    exact wpl_pure (.inl ⟨it, l, rfl, by simpa using h⟩)

theorem pl_handleCo (ue : Ptr) (m : Msg) (s : State) :
    wpl env anyF (handleCo env ue m) (fun _ ls s' => CoShape env s ue m ls s') s := by
  unfold handleCo
  by_cases h1 : m.dir = PR_initiatingMessage
  · rw [if_pos h1]
    have hd2 : m.dir ≠ PR_successfulOutcome := by rw [h1]; decide
    have hd4 : m.dir ≠ PR_outcome := by rw [h1]; decide
    by_cases p1 : m.proc = id_InitialUE_Message
    · rw [if_pos p1]
      refine wpl_pure (.inr (.inr (.inr (.inr (.inr ⟨rfl, rfl, ?_, ?_, ?_, ?_, ?_⟩)))))
      · rintro ⟨_, h⟩; rw [p1] at h; exact absurd h (by decide)
      · rintro ⟨_, h⟩; rw [p1] at h; exact absurd h (by decide)
      · exact fun h => hd2 h.1
      · exact fun h => hd2 h.1
      · exact fun h => hd4 h.1
    · rw [if_neg p1]
      by_cases p2 : m.proc = id_DirectTransfer
      · rw [if_pos p2]
        cases hb : m.body with
        | directTransfer ies =>
          refine wpl_bind (wpl_mono (pl_handleDt ue ies s) ?_)
          intro rc ls s' _ h
          refine wpl_pure (.inl ⟨h1, p2, ies, hb, ?_⟩)
          rcases h with ⟨h1, _, h2⟩ | ⟨ra, sai, u, as, h1, h2, h3, _, h4, h5⟩
          · exact .inl ⟨h1, by simp [h2]⟩
          · exact .inr ⟨ra, sai, u, as, h1, h2, h3, by simp [h4], h5⟩
        | _ => exact wpl_fault trivial
      · rw [if_neg p2]
        by_cases p3 : m.proc = id_ErrorIndication
        · rw [if_pos p3]
          cases hb : m.body with
          | errorInd c =>
            refine wpl_pure (.inr (.inr (.inr (.inr (.inr ⟨rfl, rfl, ?_, ?_, ?_, ?_, ?_⟩)))))
            · exact fun h => p2 h.2
            · rintro ⟨_, h⟩; rw [p3] at h; exact absurd h (by decide)
            · exact fun h => hd2 h.1
            · exact fun h => hd2 h.1
            · exact fun h => hd4 h.1
          | _ => exact wpl_fault trivial
        · rw [if_neg p3]
          by_cases p4 : m.proc = id_Iu_ReleaseRequest
          · rw [if_pos p4]
            cases hb : m.body with
            | iuReleaseReq c =>
              refine wpl_bind (wpl_mono (pl_iuTxRelease ue (some c) s) ?_)
              rintro rc ls s' _ ⟨u, hu, rfl, rfl⟩
              exact wpl_pure (.inr (.inl ⟨h1, p4, c, u, rc, hb, hu, by simp, rfl⟩))
            | _ => exact wpl_fault trivial
          · rw [if_neg p4]
            refine wpl_pure (.inr (.inr (.inr (.inr (.inr ⟨rfl, rfl, ?_, ?_, ?_, ?_, ?_⟩)))))
            · exact fun h => p2 h.2
            · exact fun h => p4 h.2
            · exact fun h => hd2 h.1
            · exact fun h => hd2 h.1
            · exact fun h => hd4 h.1
  · rw [if_neg h1]
    by_cases h2 : m.dir = PR_successfulOutcome
    · rw [if_pos h2]
      have hd4 : m.dir ≠ PR_outcome := by rw [h2]; decide
      by_cases p1 : m.proc = id_SecurityModeControl
      · rw [if_pos p1]
        exact wpl_mono (pl_iuEvent' _ _ _) fun _ _ _ _ h => .inr (.inr (.inl ⟨h2, p1, h⟩))
      · rw [if_neg p1]
        by_cases p2 : m.proc = id_Iu_Release
        · rw [if_pos p2]
          exact wpl_mono (pl_iuEvent' _ _ _) fun _ _ _ _ h => .inr (.inr (.inr (.inl ⟨h2, p2, h⟩)))
        · rw [if_neg p2]
          refine wpl_pure (.inr (.inr (.inr (.inr (.inr ⟨rfl, rfl, ?_, ?_, ?_, ?_, ?_⟩)))))
          · exact fun h => h1 h.1
          · exact fun h => h1 h.1
          · exact fun h => p1 h.2
          · exact fun h => p2 h.2
          · exact fun h => hd4 h.1
    · rw [if_neg h2]
      by_cases h4 : m.dir = PR_outcome
      · rw [if_pos h4]
        by_cases p1 : m.proc = id_RAB_Assignment
        · rw [if_pos p1]
          cases hb : m.body with
          | rabAssResp items =>
            refine wpl_bind (wpl_mono (pl_handleRabAssResp ue items s) ?_)
            rintro _ ls s' _ (⟨it, l, rfl, h⟩ | ⟨h, rfl, rfl⟩)
            · exact wpl_pure (.inr (.inr (.inr (.inr (.inl ⟨h4, p1, it, l, hb, by simpa using h⟩)))))
            · refine wpl_pure (.inr (.inr (.inr (.inr (.inr ⟨rfl, rfl, ?_, ?_, ?_, ?_, ?_⟩)))))
              · exact fun h => h1 h.1
              · exact fun h => h1 h.1
              · exact fun h => h2 h.1
              · exact fun h => h2 h.1
              · rintro ⟨_, _, it, l, he⟩
                rw [hb] at he
                exact h ⟨it, l, by injection he⟩
          | _ => exact wpl_fault trivial
        · rw [if_neg p1]
          refine wpl_pure (.inr (.inr (.inr (.inr (.inr ⟨rfl, rfl, ?_, ?_, ?_, ?_, ?_⟩)))))
          · exact fun h => h1 h.1
          · exact fun h => h1 h.1
          · exact fun h => h2 h.1
          · exact fun h => h2 h.1
          · exact fun h => p1 h.2.1
      · rw [if_neg h4]
        refine wpl_pure (.inr (.inr (.inr (.inr (.inr ⟨rfl, rfl, ?_, ?_, ?_, ?_, ?_⟩)))))
        · exact fun h => h1 h.1
        · exact fun h => h1 h.1
        · exact fun h => h2 h.1
        · exact fun h => h2 h.1
        · exact fun h => h4 h.1

/-- Labels of a first message on a connection. -/
def InitShape (env : Env) (s : State) (ctx : NewCtx) (m : Msg) (ls : List Lbl) (s' : State) : Prop :=
  (¬ (m.dir = PR_initiatingMessage ∧ m.proc = id_InitialUE_Message) ∧ ls = [] ∧ s' = s) ∨
  (m.dir = PR_initiatingMessage ∧ m.proc = id_InitialUE_Message ∧ ∃ ies, m.body = .initialUe ies ∧
    ((initialCheck ies = .ok none ∧ ls = [.nasAlloc]) ∨
     ∃ id ra sai es p as, initialCheck ies = .ok (some (id, ra, sai)) ∧
        ls = .nasAlloc :: .register id (gprsRaiToOsmo ra) ctx.addr :: es ++
          .alloc p (regPtr env s id ctx.addr) ctx.conn ra ::
          .cb (.recv p ctx.conn ies.nas (some ra) (some sai)) :: as ++ [.nasFree] ∧ ApiLbls as ∧
        p = (reg1 env s id ctx.addr).2.2 ∧
        (((regNew env s id (gprsRaiToOsmo ra) ctx.addr && env.hasEventCb) = false ∧ es = []) ∨
         ((regNew env s id (gprsRaiToOsmo ra) ctx.addr && env.hasEventCb) = true ∧
            ∃ as, es = .cb (.event none (.newArea id (areaOf (gprsRaiToOsmo ra)))) :: as ∧ ApiLbls as))))

theorem pl_handleCoInitial (ctx : NewCtx) (m : Msg) (s : State) :
    wpl env anyF (handleCoInitial env ctx m) (fun _ ls s' => InitShape env s ctx m ls s') s := by
  unfold handleCoInitial
  by_cases h : m.dir ≠ PR_initiatingMessage ∨ m.proc ≠ id_InitialUE_Message
  · rw [if_pos h]
    refine wpl_pure (.inl ⟨?_, rfl, rfl⟩)
    rintro ⟨h1, h2⟩
    rcases h with h | h
    · exact h h1
    · exact h h2
  · rw [if_neg h]
    have h1 : m.dir = PR_initiatingMessage := Classical.byContradiction fun hh => h (.inl hh)
    have h2 : m.proc = id_InitialUE_Message := Classical.byContradiction fun hh => h (.inr hh)
    cases hb : m.body with
    | initialUe ies =>
      refine wpl_bind (wpl_mono (pl_handleInitialUe ctx ies s) ?_)
      rintro rc ls s' _ (⟨hc, _, rfl⟩ | ⟨id, ra, sai, es, p, as, hc, _, rfl, has, hp, hes⟩)
      · exact wpl_pure (.inr ⟨h1, h2, ies, hb, .inl ⟨hc, by simp⟩⟩)
      · exact wpl_pure (.inr ⟨h1, h2, ies, hb, .inr ⟨id, ra, sai, es, p, as, hc, by simp, has, hp, hes⟩⟩)
    | _ => exact wpl_fault trivial

theorem pl_rxCo {h : Msg → M Unit} {data : Bytes} {s : State} {S : Msg → List Lbl → State → Prop}
    (hh : ∀ m, wpl env anyF (h m) (fun _ ls s' => S m ls s') s) :
    wpl env anyF (rxCo env h data) (fun rc ls s' =>
      (env.decodeCo data = none ∧ rc = -1 ∧ ls = [] ∧ s' = s) ∨
      (∃ m, env.decodeCo data = some m ∧ rc = 0 ∧ S m ls s')) s := by
  unfold rxCo
  cases hd : env.decodeCo data with
  | none => exact wpl_pure (.inl ⟨rfl, rfl, rfl, rfl⟩)
  | some m =>
    refine wpl_bind (wpl_mono (hh m) ?_)
    intro _ ls s' _ h'
    exact wpl_pure (.inr ⟨m, rfl, rfl, by simpa using h'⟩)

/-- Labels of invalidating a context. -/
def LinkShape (env : Env) (s : State) (p : Ptr) (ls : List Lbl) (s' : State) : Prop :=
  ∃ u evs s1 fr, s.ues.find? (·.ptr = p) = some u ∧ ls = evs ++ fr ∧ Path env evs s s1 ∧
    EvShape env s p .linkInvalidated evs s1 ∧
    (((∀ v, ctxFind s1 u.conn = some v → v.freeOnRelease = false) ∧ fr = [] ∧ s' = s1) ∨
     ∃ v, ctxFind s1 u.conn = some v ∧ v.freeOnRelease = true ∧ fr = [.free v.ptr] ∧
       ∃ w, s1.ues.find? (·.ptr = v.ptr) = some w ∧ s' = freeSt env s1 w)

theorem pl_linkInvalidatedFree (p : Ptr) (s : State) :
    wpl env anyF (linkInvalidatedFree env p) (fun _ ls s' => LinkShape env s p ls s') s := by
  unfold linkInvalidatedFree
  refine wpl_bind (wpl_deref (fun u hu => ?_) (fun _ => trivial))
  refine wpl_bind (wpl_mono (pl_iuEvent' _ _ _) ?_)
  intro _ evs s1 hp hev
  refine wpl_bind (wpl_get ?_)
  cases hf : ctxFind s1 u.conn with
  | none =>
    refine wpl_pure ⟨u, evs, s1, [], hu, by simp, hp, hev, .inl ⟨?_, rfl, rfl⟩⟩
    intro v hv; rw [hf] at hv; cases hv
  | some v =>
    simp only
    split
    · rename_i hr
      refine wpl_mono (pl_freeUe v.ptr s1) ?_
      rintro _ ls s' _ ⟨w, hw, rfl, rfl⟩
      exact ⟨u, evs, s1, [.free v.ptr], hu, by simp, hp, hev, .inr ⟨v, hf, hr, rfl, w, hw, rfl⟩⟩
    · rename_i hr
      refine wpl_pure ⟨u, evs, s1, [], hu, by simp, hp, hev, .inl ⟨?_, rfl, rfl⟩⟩
      intro v' hv'; rw [hf] at hv'; cases hv'; simpa using hr

/-- Labels of bulk invalidation: LINK_INVALIDATED events and API effects only. -/
def LinkLbls (ls : List Lbl) : Prop :=
  ∀ l ∈ ls, l.isApi = true ∨ ∃ p c, l = .cb (.event (some (p, c)) .linkInvalidated)

theorem LinkLbls.nil : LinkLbls [] := by intro l h; cases h
theorem LinkLbls.append {a b : List Lbl} (h : LinkLbls a) (h' : LinkLbls b) : LinkLbls (a ++ b) := by
  intro l hl
  rcases List.mem_append.1 hl with hl | hl
  · exact h l hl
  · exact h' l hl
theorem ApiLbls.link {a : List Lbl} (h : ApiLbls a) : LinkLbls a := fun l hl => .inl (h l hl)

theorem LinkShape.lbls {s s' : State} {p : Ptr} {ls : List Lbl} (h : LinkShape env s p ls s') : LinkLbls ls := by
  obtain ⟨u, evs, s1, fr, _, rfl, _, hev, hfr⟩ := h
  refine LinkLbls.append ?_ ?_
  · rcases hev with ⟨_, rfl, _⟩ | ⟨v, _, ⟨_, _, as, rfl, has⟩ | ⟨_, _, rfl, _⟩⟩
    · exact LinkLbls.nil
    · intro l hl
      rcases List.mem_cons.1 hl with rfl | hl
      · exact .inr ⟨p, v.conn, rfl⟩
      · exact .inl (has l hl)
    · exact LinkLbls.nil
  · rcases hfr with ⟨_, rfl, _⟩ | ⟨v, _, _, rfl, _⟩
    · exact LinkLbls.nil
    · exact (ApiLbls.one rfl).link

theorem pl_ueLoop (rnc : Ptr) (n : Nat) (p : Ptr) (s : State) :
    wpl env anyF (ueLoop env rnc n p) (fun _ ls _ => LinkLbls ls) s := by
  induction n generalizing p s with
  | zero => exact wpl_fault trivial
  | succ n ih =>
    unfold ueLoop
    refine wpl_bind (wpl_deref (fun u hu => ?_) (fun _ => trivial))
    refine wpl_bind (wpl_get ?_)
    have hn : ∀ s1, wpl env anyF (match ueNext s p with
      | none => (pure () : M Unit)
      | some q => ueLoop env rnc n q) (fun _ ls _ => LinkLbls ls) s1 := by
      intro s1
      cases ueNext s p with
      | none => exact wpl_pure LinkLbls.nil
      | some q => exact ih q s1
    simp only
    split
    · refine wpl_bind (wpl_mono (pl_linkInvalidatedFree p s) ?_)
      intro _ ls s1 _ h
      exact wpl_mono (hn s1) fun _ _ _ _ h' => (h.lbls).append h'
    · exact hn s

theorem pl_rncLoop (hit : SccpAddr → Bool) (l : List Rnc) (s : State) :
    wpl env anyF (rncLoop env hit l) (fun _ ls _ => LinkLbls ls) s := by
  induction l generalizing s with
  | nil => exact wpl_pure LinkLbls.nil
  | cons r l ih =>
    unfold rncLoop
    split
    · refine wpl_bind ?_
      unfold ueForEachSafe
      refine wpl_bind (wpl_get ?_)
      cases s.ues with
      | nil => exact wpl_pure (wpl_mono (ih _) fun _ _ _ _ h => h)
      | cons u us =>
        refine wpl_mono (pl_ueLoop r.ptr _ u.ptr s) ?_
        intro _ ls s1 _ h
        exact wpl_mono (ih s1) fun _ _ _ _ h' => LinkLbls.append h h'
    · exact ih s

/-- Labels of a connectionless message. -/
def ClShape (env : Env) (calling : SccpAddr) (m : Msg) (ls : List Lbl) : Prop :=
  (m.dir = PR_initiatingMessage ∧ m.proc = id_Reset ∧ ∃ d rnc, m.body = .reset d rnc ∧
    ((env.gen (.resetAck d rnc) = .ok none ∧ ls = []) ∨
     ∃ b rc, env.gen (.resetAck d rnc) = .ok (some b) ∧ ls = [.sap (.unitdataReq calling (.resetAck d rnc)) rc])) ∨
  (¬ (m.dir = PR_initiatingMessage ∧ m.proc = id_Reset) ∧ ls = [])

theorem pl_handleCl (a : SccpAddr) (m : Msg) (s : State) :
    wpl env anyF (handleCl env a m) (fun _ ls _ => ClShape env a m ls) s := by
  unfold handleCl
  by_cases h1 : m.dir = PR_initiatingMessage
  · rw [if_pos h1]
    by_cases p1 : m.proc = id_Reset
    · rw [if_pos p1]
      cases hb : m.body with
      | reset d rnc =>
        refine wpl_bind ?_
        unfold handleClReset
        refine wpl_bind (wpl_lift ?_)
        cases hg : env.gen (.resetAck d rnc) with
        | fault e => trivial
        | ok o =>
          cases o with
          | none => exact wpl_pure (wpl_pure (.inl ⟨h1, p1, d, rnc, hb, .inl ⟨hg, rfl⟩⟩))
          | some b => exact wpl_sap rfl (by intro c m h; cases h) (wpl_pure (.inl ⟨h1, p1, d, rnc, hb, .inr ⟨b, _, hg, rfl⟩⟩))
      | _ => exact wpl_fault trivial
    · rw [if_neg p1]
      by_cases p2 : m.proc = id_ErrorIndication
      · rw [if_pos p2]
        cases hb : m.body with
        | errorInd c => exact wpl_pure (.inr ⟨fun h => p1 h.2, rfl⟩)
        | _ => exact wpl_fault trivial
      · rw [if_neg p2]
        exact wpl_pure (.inr ⟨fun h => p1 h.2, rfl⟩)
  · rw [if_neg h1]
    exact wpl_pure (.inr ⟨fun h => h1 h.1, rfl⟩)

/-- Labels of a first message received with rc. -/
def RxInitShape (env : Env) (s : State) (ctx : NewCtx) (data : Bytes) (rc : Int) (ls : List Lbl) (s' : State) : Prop :=
  (env.decodeCo data = none ∧ rc = -1 ∧ ls = [] ∧ s' = s) ∨
  ∃ m, env.decodeCo data = some m ∧ rc = 0 ∧ InitShape env s ctx m ls s'

/-- Labels of a message received on a connection with context. -/
def RxCoShape (env : Env) (s : State) (ue : Ptr) (data : Bytes) (rc : Int) (ls : List Lbl) (s' : State) : Prop :=
  (env.decodeCo data = none ∧ rc = -1 ∧ ls = [] ∧ s' = s) ∨
  ∃ m, env.decodeCo data = some m ∧ rc = 0 ∧ CoShape env s ue m ls s'

theorem pl_rxInit (ctx : NewCtx) (data : Bytes) (s : State) :
    wpl env anyF (rxCo env (handleCoInitial env ctx) data)
      (fun rc ls s' => RxInitShape env s ctx data rc ls s') s :=
  pl_rxCo fun m => pl_handleCoInitial ctx m s

theorem pl_rxCo' (ue : Ptr) (data : Bytes) (s : State) :
    wpl env anyF (rxCo env (handleCo env ue) data)
      (fun rc ls s' => RxCoShape env s ue data rc ls s') s :=
  pl_rxCo fun m => pl_handleCo ue m s

/-- The state in which the first message of a connection is handled after the confirmation. -/
def confirmed (env : Env) (s : State) (conn : ConnId) : State :=
  { s with trace := s.trace ++ [.sap (.connectResp conn) (env.sapRc s (.connectResp conn))] }

theorem pl_connectInd (conn : ConnId) (calling : SccpAddr) (data : Bytes) (s : State) :
    wpl env anyF (step env (.connectInd conn calling data)) (fun rc ls s' =>
      ∃ ls', ls = .sap (.connectResp conn) (env.sapRc s (.connectResp conn)) :: ls' ∧
        ((data = [] ∧ rc = -1 ∧ ls' = [.cacheAdd conn calling]) ∨
         (data ≠ [] ∧ RxInitShape env (confirmed env s conn) ⟨calling, conn⟩ data rc ls' s'))) s := by
  unfold step
  refine wpl_bind (wpl_sap rfl (by intro c m h; cases h) ?_)
  by_cases hd : data.length = 0
  · rw [if_pos hd]
    have hc : wpl env anyF (cacheAdd conn calling) (fun _ ls _ => ls = [.cacheAdd conn calling]) (confirmed env s conn) :=
      ⟨_, Path.one (Atom.cacheAdd _ _), rfl⟩
    refine wpl_bind (wpl_mono hc ?_)
    rintro _ ls s' _ rfl
    exact wpl_pure ⟨_, rfl, .inl ⟨List.length_eq_zero_iff.1 hd, rfl, rfl⟩⟩
  · rw [if_neg hd]
    refine wpl_mono (pl_rxInit _ data _) ?_
    intro rc ls s' _ h
    exact ⟨ls, rfl, .inr ⟨fun hh => hd (by rw [hh]; rfl), h⟩⟩

theorem wpl_cacheDel {F : Fault → Prop} {c : ConnId} {S : Unit → List Lbl → State → Prop} {s : State}
    (h : S () [.cacheDel c] { s with cache := s.cache.eraseP (·.1 = c), blocks := s.blocks - if s.cache.any (·.1 = c) then 1 else 0 }) :
    wpl env F (cacheDel c) S s := ⟨_, Path.one (Atom.cacheDel c), h⟩

/-- The state with the cached request of a connection removed. -/
def uncached (s : State) (conn : ConnId) : State := { s with cache := s.cache.eraseP (·.1 = conn), blocks := s.blocks - if s.cache.any (·.1 = conn) then 1 else 0 }

theorem pl_dataInd (conn : ConnId) (data : Bytes) (s : State) :
    wpl env anyF (step env (.dataInd conn data)) (fun rc ls s' =>
      (∃ u, ctxFind s conn = some u ∧ RxCoShape env s u.ptr data rc ls s') ∨
      (ctxFind s conn = none ∧ cacheFind s conn = none ∧ rc = -1 ∧ ls = [] ∧ s' = s) ∨
      (∃ addr ls', ctxFind s conn = none ∧ cacheFind s conn = some addr ∧ ls = .cacheDel conn :: ls' ∧
        RxInitShape env (uncached s conn) ⟨addr, conn⟩ data rc ls' s')) s := by
  unfold step
  refine wpl_bind (wpl_get ?_)
  cases hu : ctxFind s conn with
  | some u =>
    refine wpl_mono (pl_rxCo' u.ptr data s) ?_
    intro rc ls s' _ h
    exact .inl ⟨u, rfl, by simpa using h⟩
  | none =>
    simp only
    cases ha : cacheFind s conn with
    | none => exact wpl_pure (.inr (.inl ⟨trivial, rfl, rfl, rfl, rfl⟩))
    | some addr =>
      refine wpl_bind (wpl_cacheDel ?_)
      refine wpl_mono (pl_rxInit _ data _) ?_
      intro rc ls s' _ h
      exact .inr (.inr ⟨addr, ls, trivial, rfl, by simp, h⟩)

theorem pl_disconnectInd (conn : ConnId) (data : Bytes) (s : State) :
    wpl env anyF (step env (.disconnectInd conn data)) (fun rc ls s' =>
      ∃ ls1, ls = .cacheDel conn :: ls1 ∧
      ((ctxFind s conn = none ∧ rc = -1 ∧ ls1 = [] ∧ s' = uncached s conn) ∨
       ∃ u ms s1 fs, ctxFind s conn = some u ∧ ls1 = ms ++ fs ∧ Path env ms (uncached s conn) s1 ∧
        ((data = [] ∧ rc = 0 ∧ ms = [] ∧ s1 = uncached s conn) ∨
         (data ≠ [] ∧ RxCoShape env (uncached s conn) u.ptr data rc ms s1)) ∧
        ((ctxFind s1 conn = none ∧ fs = [] ∧ s' = s1) ∨
         ∃ v, ctxFind s1 conn = some v ∧ LinkShape env s1 v.ptr fs s'))) s := by
  unfold step
  refine wpl_bind (wpl_cacheDel ?_)
  refine wpl_bind (wpl_get ?_)
  have hcf : ctxFind { s with cache := s.cache.eraseP (·.1 = conn), blocks := s.blocks - if s.cache.any (·.1 = conn) then 1 else 0 } conn = ctxFind s conn := rfl
  rw [hcf]
  cases hu : ctxFind s conn with
  | none => exact wpl_pure ⟨[], rfl, .inl ⟨rfl, rfl, rfl, rfl⟩⟩
  | some u =>
    have tail : ∀ (rc : Int) (ms : List Lbl) (s1 : State), Path env ms (uncached s conn) s1 →
        ((data = [] ∧ rc = 0 ∧ ms = [] ∧ s1 = uncached s conn) ∨
         (data ≠ [] ∧ RxCoShape env (uncached s conn) u.ptr data rc ms s1)) →
        wpl env anyF (do
          let s ← M.get
          match ctxFind s conn with
          | none => pure rc
          | some u => do linkInvalidatedFree env u.ptr; pure rc : M Int) (fun rc fs s' =>
            ∃ ls1, Lbl.cacheDel conn :: (ms ++ fs) = .cacheDel conn :: ls1 ∧
              ((some u = none ∧ rc = -1 ∧ ls1 = [] ∧ s' = uncached s conn) ∨
               ∃ u' ms s1 fs, some u = some u' ∧ ls1 = ms ++ fs ∧ Path env ms (uncached s conn) s1 ∧
                ((data = [] ∧ rc = 0 ∧ ms = [] ∧ s1 = uncached s conn) ∨
                 (data ≠ [] ∧ RxCoShape env (uncached s conn) u'.ptr data rc ms s1)) ∧
                ((ctxFind s1 conn = none ∧ fs = [] ∧ s' = s1) ∨
                 ∃ v, ctxFind s1 conn = some v ∧ LinkShape env s1 v.ptr fs s'))) s1 := by
      intro rc ms s1 hp hms
      refine wpl_bind (wpl_get ?_)
      rcases hv : ctxFind s1 conn with _ | v
      · exact wpl_pure ⟨_, rfl, .inr ⟨u, ms, s1, [], rfl, by simp, hp, hms, .inl ⟨hv, rfl, rfl⟩⟩⟩
      · refine wpl_bind (wpl_mono (pl_linkInvalidatedFree v.ptr s1) ?_)
        intro _ fs s' _ h
        exact wpl_pure ⟨_, rfl, .inr ⟨u, ms, s1, fs, rfl, by simp, hp, hms, .inr ⟨v, hv, h⟩⟩⟩
    simp only
    by_cases hd : data.length > 0
    · rw [if_pos hd]
      refine wpl_bind (wpl_mono (pl_rxCo' u.ptr data _) ?_)
      intro rc ms s1 hp h
      refine wpl_mono (tail rc ms s1 hp (.inr ⟨?_, h⟩)) ?_
      · intro hh; rw [hh] at hd; simp at hd
      · intro rc fs s' _ h; simpa using h
    · rw [if_neg hd]
      refine wpl_bind (wpl_pure ?_)
      refine wpl_mono (tail 0 [] _ (.nil _) (.inl ⟨?_, rfl, rfl, rfl⟩)) ?_
      · exact List.length_eq_zero_iff.1 (by omega)
      · intro rc fs s' _ h; simpa using h

theorem pl_unitdataInd (calling : SccpAddr) (data : Bytes) (s : State) :
    wpl env anyF (step env (.unitdataInd calling data)) (fun rc ls _ =>
      (env.decodeCl data = none ∧ rc = -1 ∧ ls = []) ∨
      ∃ m, env.decodeCl data = some m ∧ rc = 0 ∧ ClShape env calling m ls) s := by
  have he : step env (.unitdataInd calling data) = (match env.decodeCl data with
    | none => pure (-1)
    | some m => do handleCl env calling m; pure 0 : M Int) := rfl
  rw [he]
  cases hd : env.decodeCl data with
  | none => exact wpl_pure (.inl ⟨rfl, rfl, rfl⟩)
  | some m =>
    refine wpl_bind (wpl_mono (pl_handleCl calling m s) ?_)
    intro _ ls s' _ h
    exact wpl_pure (.inr ⟨m, rfl, rfl, by simpa using h⟩)

theorem pl_timer (p : Ptr) (s : State) :
    wpl env anyF (step env (.timer p)) (fun rc ls s' => rc = 0 ∧
      ((s.timers.any (·.1 = p) = false ∧ ls = [] ∧ s' = s) ∨
       (s.timers.any (·.1 = p) = true ∧ ∃ ls', ls = .timerDel p :: ls' ∧
         EvShape env { s with timers := s.timers.filter (·.1 ≠ p) } p .iuRelease ls' s'))) s := by
  unfold step
  refine wpl_bind (wpl_get ?_)
  cases h : s.timers.any (·.1 = p) with
  | false => exact wpl_pure ⟨rfl, .inl ⟨rfl, rfl, rfl⟩⟩
  | true =>
    rw [if_pos rfl]
    have hm : wpl env anyF (M.modify fun s => { s with timers := s.timers.filter (·.1 ≠ p) })
        (fun _ ls s' => ls = [.timerDel p] ∧ s' = { s with timers := s.timers.filter (·.1 ≠ p) }) s :=
      ⟨_, Path.one (Atom.timerDel p), rfl, rfl⟩
    refine wpl_bind (wpl_mono hm ?_)
    rintro _ ls s1 _ ⟨rfl, rfl⟩
    refine wpl_bind (wpl_mono (pl_iuEvent' _ _ _) ?_)
    intro _ ls s' _ h
    exact wpl_pure ⟨rfl, .inr ⟨rfl, ls, by simp, h⟩⟩

theorem pl_notice (calling : SccpAddr) (cause : Nat) (s : State) :
    wpl env anyF (step env (.noticeInd calling cause)) (fun rc ls _ => rc = -1 ∧ LinkLbls ls) s := by
  unfold step handleNotice
  refine wpl_bind ?_
  split
  · exact wpl_pure (wpl_pure ⟨rfl, LinkLbls.nil⟩)
  · refine wpl_bind (wpl_get (wpl_mono (pl_rncLoop _ _ s) ?_))
    intro _ ls s' _ h
    exact wpl_pure ⟨rfl, by simpa using h⟩

theorem pl_pcstate (pc : BitVec 32) (sp : SpStatus) (rem : RemStatus) (s : State) :
    wpl env anyF (step env (.pcstateInd pc sp rem)) (fun rc ls _ => rc = -1 ∧ LinkLbls ls) s := by
  unfold step handlePcstate
  refine wpl_bind ?_
  split
  · refine wpl_bind (wpl_get (wpl_mono (pl_rncLoop _ _ s) ?_))
    intro _ ls s' _ h
    exact wpl_pure ⟨rfl, by simpa using h⟩
  · exact wpl_pure (wpl_pure ⟨rfl, LinkLbls.nil⟩)

/-- Every operation is a sequence of atomic steps. -/
theorem pl_step (op : Op) (s : State) : wpl env anyF (step env op) (fun _ _ _ => True) s := by
  cases op with
  | connectInd c a d => exact wpl_mono (pl_connectInd c a d s) fun _ _ _ _ _ => trivial
  | connectConf => exact wpl_pure trivial
  | disconnectInd c d => exact wpl_mono (pl_disconnectInd c d s) fun _ _ _ _ _ => trivial
  | dataInd c d => exact wpl_mono (pl_dataInd c d s) fun _ _ _ _ _ => trivial
  | unitdataInd a d => exact wpl_mono (pl_unitdataInd a d s) fun _ _ _ _ _ => trivial
  | noticeInd a c => exact wpl_mono (pl_notice a c s) fun _ _ _ _ _ => trivial
  | pcstateInd a b c => exact wpl_mono (pl_pcstate a b c s) fun _ _ _ _ _ => trivial
  | otherInd => exact wpl_pure trivial
  | timer p => exact wpl_mono (pl_timer p s) fun _ _ _ _ _ => trivial
  | api a => exact wpl_mono (pl_runApi a s) fun _ _ _ _ _ => trivial

theorem step_path {op : Op} {s s' : State} {rc : Int} (h : step env op s = .ok (rc, s')) :
    ∃ ls, Path env ls s s' := by
  obtain ⟨ls, hp, _⟩ := wp_ok (pl_step op s) h
  exact ⟨ls, hp⟩

theorem run_path {ops : List Op} {s s' : State} (h : run env ops s = .ok ((), s')) :
    ∃ ls, Path env ls s s' := by
  induction ops generalizing s with
  | nil => cases h; exact ⟨[], .nil _⟩
  | cons op ops ih =>
    obtain ⟨rc, s1, h1, h2⟩ := bind_ok.1 h
    obtain ⟨ls1, p1⟩ := step_path h1
    obtain ⟨ls2, p2⟩ := ih h2
    exact ⟨_, p1.append p2⟩

end Verif.Iu
