import Verif.Proofs.ScarceRecStep
import Verif.Spec.IuFlow
import Verif.Props.Demo
import Verif.Props.IuRegistry

/-!
# C128: the Iu client when memory for its own records is missing
-/

namespace Verif.Props
open Verif.Iu Verif.Iu.Spec Verif.ScarceRec

variable {env : Env} {w : Supply}

/-- **C128**, full statement: the client survives every history that it survives with enough memory, whichever allocations fail. -/
def C128_full : Prop := ∀ (env : Env) (ops : List (Supply × Op)),
  (∃ t, run env (ops.map (·.2)) init = .ok ((), t)) → ∃ s, runR env ops init = .ok ((), s)

/-- There is memory for all that an operation needs memory for. -/
structure Provided (env : Env) (w : Supply) (s : State) (op : Op) : Prop where
  /-- the answer to a connection request -/
  answer : ∀ c a d, op = .connectInd c a d → w.resp = true
  /-- the address of a connection that was requested without a message -/
  cache : ∀ c a, op = .connectInd c a [] → w.cache = true
  /-- the NAS message and the record of a new subscriber, and the records of their RNC and area unless there are such records -/
  first : ∀ c a ies id ra sac, initialUe env s op = some (c, a, ies) → readInitialUe ies = some (id, ra, sac) →
    w.nas = true ∧ w.ue = true ∧ ((∃ r ∈ s.rncs, SameRnc r.rncId id) ∨ w.rnc = true) ∧
      ((∃ r ∈ s.rncs, Serves r (areaOfRa ra)) ∨ w.area = true)
  /-- the NAS message in a Direct Transfer -/
  later : ∀ c ies, directTransfer env s op = some (c, ies) → (readDt ies).isSome → w.nas = true

theorem forNew_iff {l : List Rnc} {id : RncId} {area : Rai} : ForNew w l id area ↔
    w.nas = true ∧ w.ue = true ∧ ((∃ r ∈ l, SameRnc r.rncId id) ∨ w.rnc = true) ∧ ((∃ r ∈ l, Serves r area) ∨ w.area = true) := by
  constructor
  · rintro ⟨h1, h2, h3, h4⟩
    refine ⟨h1, h2, ?_, ?_⟩
    · by_cases h : ∃ r ∈ l, SameRnc r.rncId id
      · exact .inl h
      · exact .inr (h3 fun r hr hs => h ⟨r, hr, hs⟩)
    · by_cases h : ∃ r ∈ l, Serves r area
      · exact .inl h
      · exact .inr (h4 fun r hr hs => h ⟨r, hr, hs⟩)
  · rintro ⟨h1, h2, h3, h4⟩
    refine ⟨h1, h2, fun h => ?_, fun h => ?_⟩
    · rcases h3 with ⟨r, hr, hs⟩ | h3
      · exact absurd hs (h r hr)
      · exact h3
    · rcases h4 with ⟨r, hr, hs⟩ | h4
      · exact absurd hs (h r hr)
      · exact h4

theorem goes_rxCo {h : Msg → M Unit} {d : Bytes} {s : State} : Goes (rxCo env h d s) ↔
    ∀ m, env.decodeCo d = some m → Goes (h m s) := by
  unfold rxCo
  cases hd : env.decodeCo d with
  | none =>
    constructor
    · intro _ m hm
      cases hm
    · intro _
      exact ⟨_, rfl⟩
  | some m =>
    constructor
    · intro hg m' hm
      cases hm
      obtain ⟨a, s', h1, _⟩ := goes_bind hg
      exact ⟨_, h1⟩
    · intro hg
      obtain ⟨x, hx⟩ := hg m rfl
      exact goes_of hx ⟨_, rfl⟩

/-- A message on a new connection. -/
theorem goes_first {s : State} {ctx : NewCtx} {m : Msg} (hI : RInv s.rncs s.next) (h : Goes (handleCoInitial env ctx m s)) :
    Goes (handleCoInitialR env w ctx m s) ↔ ∀ ies id ra sac, m = ⟨PR_initiatingMessage, id_InitialUE_Message, .initialUe ies⟩ →
      readInitialUe ies = some (id, ra, sac) → ForNew w s.rncs id (areaOfRa ra) := by
  unfold handleCoInitialR
  unfold handleCoInitial at h
  obtain ⟨dir, proc, body⟩ := m
  dsimp only at h ⊢
  by_cases hd : dir ≠ PR_initiatingMessage ∨ proc ≠ id_InitialUE_Message
  · rw [if_pos hd]
    refine ⟨fun _ ies id ra sac hm => ?_, fun _ => ⟨_, rfl⟩⟩
    injection hm with h1 h2 h3
    rcases hd with hd | hd
    · exact absurd h1 hd
    · exact absurd h2 hd
  · rw [if_neg hd] at h ⊢
    have h1 : dir = PR_initiatingMessage := by by_cases h : dir = PR_initiatingMessage <;> simp_all
    have h2 : proc = id_InitialUE_Message := by by_cases h : proc = id_InitialUE_Message <;> simp_all
    subst h1
    subst h2
    cases body with
    | initialUe ies =>
      dsimp only at h ⊢
      obtain ⟨x, s', h3, _⟩ := goes_bind h
      constructor
      · intro hg ies' id ra sac hm hr
        injection hm with _ _ hm
        injection hm with hm
        subst hm
        obtain ⟨x, s', h4, _⟩ := goes_bind hg
        exact forNew_of_goes hI hr ⟨_, h4⟩
      · intro hp
        obtain ⟨y, hy⟩ := goes_of_forNew (w := w) hI (fun id ra sac hr => hp ies id ra sac rfl hr) ⟨_, h3⟩
        exact goes_of hy ⟨_, rfl⟩
    | _ => obtain ⟨y, hy⟩ := h; cases hy

theorem initialUe_mk {s : State} {op : Op} {c : ConnId} {a : SccpAddr} {d : Bytes} (hf : firstPayload s op = some (c, a, d))
    {ies : InitialUeIes} (h : env.decodeCo d = some ⟨PR_initiatingMessage, id_InitialUE_Message, .initialUe ies⟩) :
    initialUe env s op = some (c, a, ies) := by
  unfold initialUe
  rw [hf]
  dsimp only
  rw [h]
  rfl

theorem initialUe_inv {s : State} {op : Op} {c : ConnId} {a : SccpAddr} {ies : InitialUeIes}
    (h : initialUe env s op = some (c, a, ies)) : ∃ d, firstPayload s op = some (c, a, d) ∧
      env.decodeCo d = some ⟨PR_initiatingMessage, id_InitialUE_Message, .initialUe ies⟩ := by
  unfold initialUe at h
  split at h
  · cases h
  · rename_i c' a' d hf
    split at h
    · rename_i dir proc ies' hd
      split at h
      · rename_i hh
        injection h with h
        injection h with h1 h
        injection h with h2 h3
        subst h1 h2 h3
        obtain ⟨rfl, rfl⟩ := hh
        exact ⟨d, hf, hd⟩
      · cases h
    · cases h

theorem directTransfer_inv {s : State} {op : Op} {c : ConnId} {ies : DtIes} (h : directTransfer env s op = some (c, ies)) :
    coMsg env s op = some (c, ⟨PR_initiatingMessage, id_DirectTransfer, .directTransfer ies⟩) := by
  unfold directTransfer at h
  split at h
  · rename_i c' dir proc ies' hc
    split at h
    · rename_i hh
      injection h with h
      injection h with h1 h2
      subst h1 h2
      obtain ⟨rfl, rfl⟩ := hh
      exact hc
    · cases h
  · cases h

theorem directTransfer_mk {s : State} {op : Op} {c : ConnId} {ies : DtIes}
    (h : coMsg env s op = some (c, ⟨PR_initiatingMessage, id_DirectTransfer, .directTransfer ies⟩)) :
    directTransfer env s op = some (c, ies) := by
  unfold directTransfer
  rw [h]
  rfl

/-- A message on a connection with a subscriber: what is survived. -/
theorem co_goes {ue : Ptr} {ies : DtIes} {s : State}
    (h : Goes (handleCoR env w ue ⟨PR_initiatingMessage, id_DirectTransfer, .directTransfer ies⟩ s)) (hr : (readDt ies).isSome) :
    w.nas = true := by
  unfold handleCoR at h
  dsimp only at h
  rw [if_pos ⟨rfl, rfl⟩] at h
  obtain ⟨x, s', h1, _⟩ := goes_bind h
  exact goes_dt ⟨_, h1⟩ hr

theorem goes_co {ue : Ptr} {m : Msg} {s : State} (h : Goes (handleCo env ue m s))
    (hp : ∀ ies, m = ⟨PR_initiatingMessage, id_DirectTransfer, .directTransfer ies⟩ → (readDt ies).isSome → w.nas = true) :
    handleCoR env w ue m s = handleCo env ue m s ∨
      (handleCoR env w ue m s = .ok ((), s) ∧ handleCo env ue m s = .ok ((), { s with nasBufs := s.nasBufs + 1 })) := by
  obtain ⟨dir, proc, body⟩ := m
  by_cases hd : dir = PR_initiatingMessage ∧ proc = id_DirectTransfer
  · rw [handleCo_dt hd] at h ⊢
    unfold handleCoR
    dsimp only at h ⊢
    rw [if_pos hd]
    obtain ⟨rfl, rfl⟩ := hd
    cases body with
    | directTransfer ies =>
      dsimp only at h ⊢
      obtain ⟨x, s', h1, _⟩ := goes_bind h
      rcases dt_goes (w := w) (hp ies rfl) ⟨_, h1⟩ with h2 | ⟨h2, h3⟩
      · left
        rw [bind_eq, bind_eq, h2]
      · right
        rw [bind_eq, bind_eq, h2, h3]
        exact ⟨rfl, rfl⟩
    | _ => exact .inl rfl
  · left
    unfold handleCoR
    dsimp only
    rw [if_neg hd]

/-- Going on where another computation goes on that started with other buffers left behind. -/
theorem goes_surv {α : Type} {x : M α} (hx : Surv x x) {s t : State} (hn : Near s t) (h : Goes (x s)) : Goes (x t) := by
  obtain ⟨y, hy⟩ := h
  rcases hx.at_ s t hn with (h | h) | ⟨e, h1, _⟩ | ⟨a, s', t', _, h2, _⟩
  · rw [h] at hy; cases hy
  · rw [h] at hy; cases hy
  · rw [h1] at hy; cases hy
  · exact ⟨_, h2⟩

theorem hasCtx_some {s : State} {c : ConnId} (h : HasCtx s c) : ∃ u, ctxFind s c = some u := by
  cases hc : ctxFind s c with
  | none => exact absurd h (ctxFind_none.1 hc)
  | some u => exact ⟨u, rfl⟩

/-- An operation that is survived had all it needs. -/
theorem provided_of_goes {s : State} {op : Op} (hI : RInv s.rncs s.next) (ht : Goes (step env op s))
    (h : Goes (stepR env w op s)) : Provided env w s op := by
  cases op with
  | connectInd c a d =>
    obtain ⟨hr, h⟩ := goes_need (b := w.resp) (e := .nullDeref) h
    obtain ⟨rc, s1, h1, h⟩ := goes_bind h
    obtain ⟨_, t1, h1', ht⟩ := goes_bind (show Goes ((sapDown env (.connectResp c) >>= fun _ =>
      if d.length = 0 then (do cacheAdd c a; pure (-1)) else rxCo env (handleCoInitial env ⟨a, c⟩) d) s) from ht)
    rw [h1] at h1'
    injection h1' with h1'
    injection h1' with h2 h3
    subst h3
    have h4 : s1.rncs = s.rncs ∧ s1.next = s.next := by
      injection h1 with h1
      injection h1 with _ h1
      rw [← h1]
      exact ⟨rfl, rfl⟩
    refine ⟨fun _ _ _ _ => hr, fun c' a' he => ?_, fun c' a' ies id ra sac hi hrd => ?_, fun c' ies hd => ?_⟩
    · injection he with e1 e2 e3
      subst e3
      rw [if_pos List.length_nil] at h
      obtain ⟨_, s2, h5, _⟩ := goes_bind h
      exact (goes_need (show Goes ((need w.cache .nullDeref >>= fun _ => cacheAdd c a) s1) from ⟨_, h5⟩)).1
    · obtain ⟨d', hf, hdec⟩ := initialUe_inv hi
      unfold firstPayload at hf
      dsimp only at hf
      split at hf
      · cases hf
      · rename_i hne
        injection hf with hf
        injection hf with e1 hf
        injection hf with e2 e3
        subst e1 e2 e3
        rw [if_neg (by simpa using hne)] at h ht
        rw [← h4.1]
        exact forNew_iff.1 ((goes_first (by rw [h4.1, h4.2]; exact hI) (goes_rxCo.1 ht _ hdec)).1
          (goes_rxCo.1 h _ hdec) ies id ra sac rfl hrd)
    · cases hd
  | dataInd c d =>
    refine ⟨nofun, nofun, fun c' a' ies id ra sac hi hrd => ?_, fun c' ies hd hrd => ?_⟩
    · obtain ⟨d', hf, hdec⟩ := initialUe_inv hi
      unfold firstPayload at hf
      dsimp only at hf
      split at hf
      · cases hf
      · rename_i hne
        cases hc : s.cache.find? (·.1 = c) with
        | none => rw [hc] at hf; cases hf
        | some e =>
          rw [hc] at hf
          injection hf with hf
          injection hf with e1 hf
          injection hf with e2 e3
          subst e1 e2 e3
          have hcf : cacheFind s c = some e.2 := by unfold cacheFind; rw [hc]; rfl
          have h' : Goes ((match ctxFind s c with
            | none => (match cacheFind s c with
              | none => pure (-1)
              | some addr => (do cacheDel c; rxCo env (handleCoInitialR env w ⟨addr, c⟩) d : M Int))
            | some u => rxCo env (handleCoR env w u.ptr) d : M Int) s) := h
          have ht' : Goes ((match ctxFind s c with
            | none => (match cacheFind s c with
              | none => pure (-1)
              | some addr => (do cacheDel c; rxCo env (handleCoInitial env ⟨addr, c⟩) d : M Int))
            | some u => rxCo env (handleCo env u.ptr) d : M Int) s) := ht
          rw [ctxFind_none.2 hne, hcf] at h' ht'
          obtain ⟨_, s1, h1, h'⟩ := goes_bind h'
          obtain ⟨_, t1, h1', ht'⟩ := goes_bind ht'
          rw [h1] at h1'
          injection h1' with h1'
          injection h1' with _ h1'
          subst h1'
          have h4 : s1.rncs = s.rncs ∧ s1.next = s.next := by
            injection h1 with h1
            injection h1 with _ h1
            rw [← h1]
            exact ⟨rfl, rfl⟩
          rw [← h4.1]
          exact forNew_iff.1 ((goes_first (by rw [h4.1, h4.2]; exact hI) (goes_rxCo.1 ht' _ hdec)).1 (goes_rxCo.1 h' _ hdec) ies id ra sac rfl hrd)
    · have hm := directTransfer_inv hd
      unfold coMsg at hm
      dsimp only at hm
      split at hm
      · rename_i hc
        obtain ⟨u, hu⟩ := hasCtx_some hc
        have h' : Goes ((match ctxFind s c with
            | none => (match cacheFind s c with
              | none => pure (-1)
              | some addr => (do cacheDel c; rxCo env (handleCoInitialR env w ⟨addr, c⟩) d : M Int))
            | some u => rxCo env (handleCoR env w u.ptr) d : M Int) s) := h
        rw [hu] at h'
        cases hdec : env.decodeCo d with
        | none => rw [hdec] at hm; cases hm
        | some m =>
          rw [hdec] at hm
          injection hm with hm
          injection hm with _ hm
          subst hm
          exact co_goes (goes_rxCo.1 h' _ hdec) hrd
      · cases hm
  | disconnectInd c d =>
    refine ⟨nofun, nofun, fun c' a' ies id ra sac hi hrd => ?_, fun c' ies hd hrd => ?_⟩
    · cases hi
    · have hm := directTransfer_inv hd
      unfold coMsg at hm
      dsimp only at hm
      split at hm
      · rename_i hc
        obtain ⟨u, hu⟩ := hasCtx_some hc.1
        obtain ⟨_, s1, h1, h⟩ := goes_bind (show Goes ((cacheDel c >>= fun _ => M.get >>= fun s => match ctxFind s c with
          | none => pure (-1)
          | some u => (do
            let rc ← if d.length > 0 then rxCo env (handleCoR env w u.ptr) d else pure 0
            let s ← M.get
            match ctxFind s c with
            | none => pure rc
            | some u => do linkInvalidatedFree env u.ptr; pure rc : M Int)) s) from h)
        obtain ⟨_, s2, h2, h⟩ := goes_bind h
        injection h1 with h1
        injection h1 with _ h1
        injection h2 with h2
        injection h2 with h2 h2'
        subst h2
        subst h2'
        have hu1 : ctxFind s1 c = some u := by rw [← h1]; exact hu
        have hl : 0 < d.length := by
          cases d with
          | nil => exact absurd rfl hc.2
          | cons _ _ => simp
        rw [hu1] at h
        dsimp only at h
        rw [if_pos hl] at h
        obtain ⟨_, s3, h3, _⟩ := goes_bind h
        cases hdec : env.decodeCo d with
        | none => rw [hdec] at hm; cases hm
        | some m =>
          rw [hdec] at hm
          injection hm with hm
          injection hm with _ hm
          subst hm
          exact co_goes (goes_rxCo.1 ⟨_, h3⟩ _ hdec) hrd
      · cases hm
  | _ => exact ⟨nofun, nofun, nofun, nofun⟩

/-- An operation that has all it needs is survived. -/
theorem goes_of_provided (B : Blind env) {s : State} {op : Op} (hI : RInv s.rncs s.next) (ht : Goes (step env op s))
    (hp : Provided env w s op) : Goes (stepR env w op s) := by
  cases op with
  | connectInd c a d =>
    have hr := hp.answer c a d rfl
    have he : stepR env w (.connectInd c a d) = (sapDown env (.connectResp c) >>= fun _ =>
      if d.length = 0 then (do cacheAddR w c a; pure (-1)) else rxCo env (handleCoInitialR env w ⟨a, c⟩) d) := by
      unfold stepR
      rw [hr]
      rfl
    rw [he]
    obtain ⟨rc, s1, h1, ht⟩ := goes_bind (show Goes ((sapDown env (.connectResp c) >>= fun _ =>
      if d.length = 0 then (do cacheAdd c a; pure (-1)) else rxCo env (handleCoInitial env ⟨a, c⟩) d) s) from ht)
    refine goes_of h1 ?_
    have h4 : s1.rncs = s.rncs ∧ s1.next = s.next := by
      injection h1 with h1
      injection h1 with _ h1
      rw [← h1]
      exact ⟨rfl, rfl⟩
    cases d with
    | nil =>
      rw [if_pos List.length_nil]
      have hc : cacheAddR w c a = cacheAdd c a := by
        unfold cacheAddR
        rw [hp.cache c a rfl]
        rfl
      rw [hc]
      exact ⟨_, rfl⟩
    | cons x d =>
      rw [if_neg (by simp)] at ht ⊢
      rw [goes_rxCo] at ht ⊢
      intro m hm
      refine (goes_first (by rw [h4.1, h4.2]; exact hI) (ht m hm)).2 fun ies id ra sac he hrd => ?_
      subst he
      rw [h4.1]
      exact forNew_iff.2 (hp.first c a ies id ra sac (initialUe_mk (d := x :: d) (by unfold firstPayload; simp) hm) hrd)
  | dataInd c d =>
    have ht' : Goes ((match ctxFind s c with
      | none => (match cacheFind s c with
        | none => pure (-1)
        | some addr => (do cacheDel c; rxCo env (handleCoInitial env ⟨addr, c⟩) d : M Int))
      | some u => rxCo env (handleCo env u.ptr) d : M Int) s) := ht
    show Goes ((match ctxFind s c with
      | none => (match cacheFind s c with
        | none => pure (-1)
        | some addr => (do cacheDel c; rxCo env (handleCoInitialR env w ⟨addr, c⟩) d : M Int))
      | some u => rxCo env (handleCoR env w u.ptr) d : M Int) s)
    cases hc : ctxFind s c with
    | none =>
      rw [hc] at ht'
      cases he : s.cache.find? (·.1 = c) with
      | none =>
        have hcf : cacheFind s c = none := by unfold cacheFind; rw [he]; rfl
        rw [hcf]
        exact ⟨_, rfl⟩
      | some e =>
        have hcf : cacheFind s c = some e.2 := by unfold cacheFind; rw [he]; rfl
        rw [hcf] at ht' ⊢
        obtain ⟨_, s1, h1, ht'⟩ := goes_bind ht'
        refine goes_of h1 ?_
        have h4 : s1.rncs = s.rncs ∧ s1.next = s.next := by
          injection h1 with h1
          injection h1 with _ h1
          rw [← h1]
          exact ⟨rfl, rfl⟩
        rw [goes_rxCo] at ht' ⊢
        intro m hm
        refine (goes_first (by rw [h4.1, h4.2]; exact hI) (ht' m hm)).2 fun ies id ra sac hmm hrd => ?_
        subst hmm
        rw [h4.1]
        refine forNew_iff.2 (hp.first c e.2 ies id ra sac (initialUe_mk (d := d) ?_ hm) hrd)
        unfold firstPayload
        dsimp only
        rw [if_neg (ctxFind_none.1 hc), he]
        rfl
    | some u =>
      rw [hc] at ht'
      dsimp only at ht' ⊢
      rw [goes_rxCo] at ht' ⊢
      intro m hm
      rcases goes_co (w := w) (ht' m hm) (fun ies hmm hrd => hp.later c ies (directTransfer_mk (by
        subst hmm
        unfold coMsg
        dsimp only
        rw [if_pos ⟨u, ctxFind_some hc⟩, hm]
        rfl)) hrd) with h | ⟨h, _⟩
      · rw [h]; exact ht' m hm
      · exact ⟨_, h⟩
  | disconnectInd c d =>
    let tail : Int → M Int := fun rc => M.get >>= fun s => match ctxFind s c with
      | none => pure rc
      | some u => do linkInvalidatedFree env u.ptr; pure rc
    have ht' : Goes ((cacheDel c >>= fun _ => M.get >>= fun s => match ctxFind s c with
      | none => pure (-1)
      | some u => if d.length > 0 then rxCo env (handleCo env u.ptr) d >>= tail else tail 0) s) := ht
    show Goes ((cacheDel c >>= fun _ => M.get >>= fun s => match ctxFind s c with
      | none => pure (-1)
      | some u => if d.length > 0 then rxCo env (handleCoR env w u.ptr) d >>= tail else tail 0) s)
    have hs : ∀ rc, Surv (tail rc) (tail rc) := fun rc => surv_get fun t k => by
      rw [ctxFind_b]
      cases ctxFind t c with
      | none => exact surv_pure _
      | some u => exact (surv_linkInvalidatedFree B _).bind fun _ => surv_pure _
    obtain ⟨_, s1, h1, ht'⟩ := goes_bind ht'
    refine goes_of h1 ?_
    have h4 : ctxFind s1 c = ctxFind s c := by
      injection h1 with h1
      injection h1 with _ h1
      rw [← h1]
      rfl
    rw [bind_eq, get_run] at ht' ⊢
    dsimp only at ht' ⊢
    rw [h4] at ht' ⊢
    cases hc : ctxFind s c with
    | none => exact ⟨_, rfl⟩
    | some u =>
      rw [hc] at ht'
      dsimp only at ht' ⊢
      by_cases hl : d.length > 0
      · rw [if_pos hl] at ht' ⊢
        unfold rxCo at ht' ⊢
        cases hm : env.decodeCo d with
        | none =>
          rw [hm] at ht'
          exact ht'
        | some m =>
          rw [hm] at ht'
          dsimp only at ht' ⊢
          obtain ⟨rc, s2, h2, h3⟩ := goes_bind ht'
          obtain ⟨x, s3, h5, h6⟩ := goes_bind (show Goes (_) from ⟨_, h2⟩)
          have hne : d ≠ [] := by rintro rfl; simp at hl
          rcases goes_co (w := w) (show Goes (handleCo env u.ptr m s1) from ⟨_, h5⟩) (fun ies hmm hrd => hp.later c ies (directTransfer_mk (by
            subst hmm
            unfold coMsg
            dsimp only
            rw [if_pos ⟨⟨u, ctxFind_some hc⟩, hne⟩, hm]
            rfl)) hrd) with h | ⟨h, h'⟩
          · refine goes_of (a := rc) (s' := s2) ?_ h3
            rw [bind_eq, h]
            exact h2
          · refine goes_of (a := 0) (s' := s1) ?_ ?_
            · rw [bind_eq, h]
              rfl
            · have hh : rc = 0 ∧ s2 = { s1 with nasBufs := s1.nasBufs + 1 } := by
                rw [bind_eq, h'] at h2
                injection h2 with h2
                injection h2 with h2 h2'
                exact ⟨h2.symm, h2'.symm⟩
              obtain ⟨rfl, rfl⟩ := hh
              refine goes_surv (hs 0) (s := { s1 with nasBufs := s1.nasBufs + 1 }) (t := s1) ⟨-1, ?_⟩ h3
              rw [Int.sub_neg]
      · rw [if_neg hl] at ht' ⊢
        exact ht'
  | _ => exact ht

/-- No allocation fails. -/
def plenty : Supply := ⟨true, true, true, true, true, true⟩

theorem stepR_plenty (op : Op) : stepR env plenty op = step env op := by
  have h1 : ∀ ctx, handleCoInitialR env plenty ctx = handleCoInitial env ctx := by
    intro ctx
    funext m
    unfold handleCoInitialR handleCoInitial
    split
    · rfl
    · cases m.body <;> simp only [handleInitialUeR_full (w := plenty) rfl rfl rfl rfl]
  have h2 : ∀ u, handleCoR env plenty u = handleCo env u := fun u => funext fun m => handleCoR_full rfl u m
  cases op with
  | connectInd c a d =>
    unfold stepR
    dsimp only
    rw [h1]
    rfl
  | disconnectInd c d =>
    unfold stepR step
    simp only [h2]
    rfl
  | dataInd c d =>
    unfold stepR step
    simp only [h1, h2]
    rfl
  | _ => rfl

/-- **C128**, what is enough: with memory, the client is the one that the other properties are about. -/
theorem C128_sufficient {ops : List (Supply × Op)} (h : ∀ x ∈ ops, x.1 = plenty) :
    runR env ops = run env (ops.map (·.2)) := by
  induction ops with
  | nil => rfl
  | cons x ops ih =>
    obtain ⟨w, op⟩ := x
    have hw : w = plenty := h (w, op) List.mem_cons_self
    subst hw
    show (stepR env plenty op >>= fun _ => runR env ops) = (step env op >>= fun _ => run env (ops.map (·.2)))
    rw [stepR_plenty, ih fun y hy => h y (List.mem_cons_of_mem _ hy)]

/-- **C128**, what does not matter: connectionless messages, expired timers and calls of the API need no memory for records. -/
theorem C128_unaffected {op : Op} (h1 : ∀ c a d, op ≠ .connectInd c a d) (h2 : ∀ c d, op ≠ .dataInd c d)
    (h3 : ∀ c d, op ≠ .disconnectInd c d) : stepR env w op = step env op := by
  cases op with
  | connectInd c a d => exact absurd rfl (h1 c a d)
  | dataInd c d => exact absurd rfl (h2 c d)
  | disconnectInd c d => exact absurd rfl (h3 c d)
  | _ => rfl

/-- **C128**, connection requests: without memory for the answer, every request ends the process, in every state. -/
theorem C128_connect (hw : w.resp = false) (c : ConnId) (a : SccpAddr) (d : Bytes) (s : State) :
    stepR env w (.connectInd c a d) s = .fault .nullDeref := by
  unfold stepR
  dsimp only
  rw [hw]
  rfl

/-- **C128**, exactly: an operation that is survived with memory is survived without if and only if there is memory for the records
and buffers that it needs.  It then returns the same, and leaves the same state but for the number of NAS buffers that are never
freed; otherwise NULL is dereferenced, or an assertion ends the process. -/
theorem C128_exact (B : Blind env) {ops : List Op} {s : State} (hr : run env ops init = .ok ((), s)) {op : Op} {rc : Int} {t : State}
    (ht : step env op s = .ok (rc, t)) :
    (Provided env w s op → ∃ n, stepR env w op s = .ok (rc, { t with nasBufs := n })) ∧
    (¬ Provided env w s op → stepR env w op s = .fault .nullDeref ∨ stepR env w op s = .fault .abort) := by
  have hI : RInv s.rncs s.next := (reach_inv hr).reg
  have hs := (surv_step (w := w) B op).at_ s s ⟨0, by rw [Int.sub_zero]⟩
  constructor
  · intro hp
    obtain ⟨y, hy⟩ := goes_of_provided B hI ⟨_, ht⟩ hp
    rcases hs with (h | h) | ⟨e, h, _⟩ | ⟨a, s', t', h1, h2, k, h3⟩
    · rw [h] at hy; cases hy
    · rw [h] at hy; cases hy
    · rw [h] at hy; cases hy
    · rw [ht] at h2
      injection h2 with h2
      injection h2 with e1 e2
      subst e1 e2
      exact ⟨_, h3 ▸ h1⟩
  · intro hp
    rcases hs with h | ⟨e, _, h⟩ | ⟨a, s', t', h1, _⟩
    · exact h
    · rw [ht] at h; cases h
    · exact absurd (provided_of_goes hI ⟨_, ht⟩ ⟨_, h1⟩) hp

/-- **C128**, proved part (the full statement is false, see `C128_violated`): a history that is survived although memory is missing
leaves what it leaves with memory, in every respect but the number of NAS buffers that are never freed: the same subscribers, RNCs,
cached addresses and timers, and the same messages and callbacks in the same order. -/
theorem C128_partial (B : Blind env) {ops : List (Supply × Op)} {s : State} (h : runR env ops init = .ok ((), s)) :
    ∃ t, run env (ops.map (·.2)) init = .ok ((), t) ∧ s = { t with nasBufs := s.nasBufs } := by
  rcases (surv_run B ops).at_ init init ⟨0, by rw [Int.sub_zero]⟩ with (h' | h') | ⟨e, h', _⟩ | ⟨a, s', t', h1, h2, k, h3⟩
  · rw [h'] at h; cases h
  · rw [h'] at h; cases h
  · rw [h'] at h; cases h
  · rw [h] at h1
    injection h1 with h1
    injection h1 with _ h1
    subst h1
    exact ⟨t', h2, by rw [h3]⟩

/-- **C128**, the only way it ends: a history that is survived with memory ends at worst in a NULL pointer that is dereferenced or an
assertion, never in other memory errors. -/
theorem C128_ends (B : Blind env) {ops : List (Supply × Op)} {t : State} (h : run env (ops.map (·.2)) init = .ok ((), t)) {e : Fault}
    (hf : runR env ops init = .fault e) : e = .nullDeref ∨ e = .abort := by
  rcases (surv_run B ops).at_ init init ⟨0, by rw [Int.sub_zero]⟩ with (h' | h') | ⟨e, _, h'⟩ | ⟨a, s', t', h1, _⟩
  · rw [h'] at hf; injection hf with hf; exact .inl hf.symm
  · rw [h'] at hf; injection hf with hf; exact .inr hf.symm
  · rw [h] at h'; cases h'
  · rw [hf] at h1; cases h1

/-- During every operation of a history, there is memory for all that it needs memory for. -/
def ProvidedAll (env : Env) : List (Supply × Op) → State → Prop
  | [], _ => True
  | (w, op) :: ops, s => Provided env w s op ∧ ∀ rc s', step env op s = .ok (rc, s') → ProvidedAll env ops s'

theorem provided_near {s t : State} (hn : Near s t) {op : Op} : Provided env w s op ↔ Provided env w t op := by
  obtain ⟨k, rfl⟩ := hn
  exact ⟨fun h => ⟨h.answer, h.cache, h.first, h.later⟩, fun h => ⟨h.answer, h.cache, h.first, h.later⟩⟩

theorem near_symm {s t : State} (h : Near s t) : Near t s := by
  obtain ⟨k, rfl⟩ := h
  refine ⟨-k, ?_⟩
  show t = { t with nasBufs := t.nasBufs - k - -k }
  rw [Int.sub_neg, Int.sub_add_cancel]

theorem goes_run (B : Blind env) : ∀ (ops : List (Supply × Op)) (s t : State), Near s t → Inv t →
    Goes (run env (ops.map (·.2)) t) → (Goes (runR env ops s) ↔ ProvidedAll env ops t)
  | [], s, t, _, _, _ => ⟨fun _ => trivial, fun _ => ⟨_, rfl⟩⟩
  | (w, op) :: ops, s, t, hn, hI, ht => by
    obtain ⟨rc, t1, h1, ht⟩ := goes_bind (show Goes ((step env op >>= fun _ => run env (ops.map (·.2))) t) from ht)
    have hIs : RInv s.rncs s.next := by
      obtain ⟨k, rfl⟩ := hn
      exact hI.reg
    have hss : Surv (step env op) (step env op) := by
      have := surv_step (w := plenty) B op
      rw [stepR_plenty] at this
      exact this
    have hs : Goes (step env op s) := goes_surv hss (near_symm hn) ⟨_, h1⟩
    show Goes ((stepR env w op >>= fun _ => runR env ops) s) ↔ Provided env w t op ∧ _
    constructor
    · intro h
      obtain ⟨rc', s1, h2, h3⟩ := goes_bind h
      refine ⟨(provided_near hn).1 (provided_of_goes hIs hs ⟨_, h2⟩), fun rc'' t2 h4 => ?_⟩
      rcases (surv_step (w := w) B op).at_ s t hn with (h' | h') | ⟨e, h', _⟩ | ⟨a, s', t', e1, e2, e3⟩
      · rw [h'] at h2; cases h2
      · rw [h'] at h2; cases h2
      · rw [h'] at h2; cases h2
      · rw [e2] at h4 h1
        injection h4 with h4
        injection h4 with _ h4
        injection h1 with h1
        injection h1 with _ h1
        rw [h2] at e1
        injection e1 with e1
        injection e1 with _ e1
        subst h4 e1 h1
        exact (goes_run B ops _ _ e3 (step_inv e2 hI) ht).1 h3
    · rintro ⟨hp, hq⟩
      obtain ⟨y, hy⟩ := goes_of_provided B hIs hs ((provided_near hn).2 hp)
      rcases (surv_step (w := w) B op).at_ s t hn with (h' | h') | ⟨e, h', _⟩ | ⟨a, s', t', e1, e2, e3⟩
      · rw [h'] at hy; cases hy
      · rw [h'] at hy; cases hy
      · rw [h'] at hy; cases hy
      · rw [h1] at e2
        injection e2 with e2
        injection e2 with _ e2
        subst e2
        exact goes_of e1 ((goes_run B ops _ _ e3 (step_inv h1 hI) ht).2 (hq _ _ h1))

/-- **C128**, histories: one that is survived with memory is survived without if and only if, during every operation, there is memory
for the records and buffers that the operation needs. -/
theorem C128_history (B : Blind env) {ops : List (Supply × Op)} {t : State} (h : run env (ops.map (·.2)) init = .ok ((), t)) :
    (∃ s, runR env ops init = .ok ((), s)) ↔ ProvidedAll env ops init := by
  rw [← goes_run B ops init init ⟨0, by rw [Int.sub_zero]⟩ Inv.init ⟨_, h⟩]
  exact ⟨fun ⟨s, hs⟩ => ⟨_, hs⟩, fun ⟨y, hy⟩ => ⟨y.2, hy⟩⟩

/-! ## Examples -/

theorem demo_blind : Blind Demo.env := ⟨fun _ _ _ => rfl, fun _ _ _ => rfl⟩

/-- All memory but that for a new subscriber. -/
def noUe : Supply := { plenty with ue := false }

/-- **C128**, full statement: false.  A subscriber that appears while there is no memory for their record ends the process. -/
theorem C128_violated : ¬ C128_full := by
  intro h
  obtain ⟨s, hs⟩ := h Demo.env [(noUe, .connectInd 1 (Demo.addr 7) [1])] ⟨_, rfl⟩
  cases hs

/-- The first message of a connection is a new subscriber's; nothing was known before. -/
example : initialUe Demo.env init (.connectInd 1 (Demo.addr 7) [1]) = some (1, Demo.addr 7, Demo.ies 5 (some [7]) 1) := by decide

/-- A second subscriber of the same RNC and area needs neither record: without memory for them the history goes on. -/
example : ∃ s, runR Demo.env [(plenty, .connectInd 1 (Demo.addr 7) [1]),
    ({ plenty with rnc := false, area := false, cache := false }, .connectInd 2 (Demo.addr 7) [1])] init = .ok ((), s) ∧
    s.ues.length = 2 := ⟨_, rfl, rfl⟩

/-- Without memory for the RNC, an assertion ends the process; without memory for the area, NULL is dereferenced. -/
example : runR Demo.env [({ plenty with rnc := false }, .connectInd 1 (Demo.addr 7) [1])] init = .fault .abort ∧
    runR Demo.env [({ plenty with area := false }, .connectInd 1 (Demo.addr 7) [1])] init = .fault .nullDeref := ⟨rfl, rfl⟩

/-- A refused message is survived without memory for its NAS message: no buffer is left behind, where one would be with memory. -/
example : (∃ s, runR Demo.env [({ plenty with nas := false }, .connectInd 1 (Demo.addr 7) [11])] init = .ok ((), s) ∧ s.nasBufs = 0) ∧
    (∃ s, run Demo.env [.connectInd 1 (Demo.addr 7) [11]] init = .ok ((), s) ∧ s.nasBufs = 1) := ⟨⟨_, rfl, rfl⟩, ⟨_, rfl, rfl⟩⟩

/-- A Direct Transfer without a buffer for its NAS message. -/
example : runR Demo.env [(plenty, .connectInd 1 (Demo.addr 7) [1]), ({ plenty with nas := false }, .dataInd 1 [4])] init =
    .fault .nullDeref := rfl

end Verif.Props
