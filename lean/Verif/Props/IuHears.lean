import Verif.Proofs.IuHears

/-!
# C133: the user hears only what was received
-/

namespace Verif.Props
open Verif.Iu Verif.Iu.Spec Verif.IuAmount Verif.IuHears

variable {env : Env}

/-- What is heard of a message at a context. -/
theorem hears_rxCo_at {s s' : State} {u : Ue} {d : Bytes} {rc : Int} {op : Op} (hu : s.ues.find? (·.ptr = u.ptr) = some u)
    (ho : About u.conn d op) (hs : rxCo env (handleCo env u.ptr) d s = .ok (rc, s')) : AllHeard (Causes env op) s s' := by
  unfold rxCo at hs
  cases hm : env.decodeCo d with
  | none =>
    rw [hm] at hs
    cases hs
    exact AllHeard.same rfl
  | some m =>
    rw [hm] at hs
    obtain ⟨_, s1, h3, h4⟩ := bind_ok.1 hs
    cases h4
    refine (hears_handleCo hu h3).mono ?_
    rintro o (⟨h1, h2, hb⟩ | ⟨h1, h2⟩ | ⟨h1, h2⟩ | ⟨h1, h2, hb⟩)
    · exact .transfer ho hm h1 h2 hb
    · exact .security ho hm h1 h2
    · exact .release ho hm h1 h2
    · exact .rab ho hm h1 h2 hb

/-- C133 where contexts are pairwise different. -/
theorem hears_step {s s' : State} {rc : Int} (hi : Iu.Inv s) {op : Op} (hs : step env op s = .ok (rc, s')) :
    AllHeard (Causes env op) s s' := by
  have at_conn : ∀ {t : State} {c : ConnId} {u : Ue}, Iu.Inv t → ctxFind t c = some u →
      u.conn = c ∧ t.ues.find? (·.ptr = u.ptr) = some u := by
    intro t c u hi hf
    unfold ctxFind at hf
    refine ⟨by simpa using List.find?_some hf, ?_⟩
    have hm := List.mem_of_find?_eq_some hf
    cases hx : t.ues.find? (·.ptr = u.ptr) with
    | none => exact by simpa using List.find?_eq_none.1 hx u hm
    | some v => rw [ue_inj hi.ueNodup (List.mem_of_find?_eq_some hx) hm (by simpa using List.find?_some hx)]
  cases op with
  | connectConf => cases hs; exact AllHeard.same rfl
  | otherInd => cases hs; exact AllHeard.same rfl
  | connectInd c a d =>
    refine (?_ : Hears _ (step env (.connectInd c a d))) s rc s' hs
    unfold step
    refine (hears_sapDown _).bind fun _ => ?_
    refine .cond (.after (still_cacheAdd _ _) fun _ => (still_pure _).hears) (hears_rxCo _ fun m hm => ?_)
    exact hears_handleCoInitial _ m (fun _ _ _ _ h1 h2 hb => .initial (.inl ⟨a, rfl⟩) hm h1 h2 hb)
      fun _ _ _ h1 h2 hb => .newArea (.inl ⟨a, rfl⟩) hm h1 h2 hb
  | disconnectInd c d =>
    unfold step at hs
    dsimp only at hs
    obtain ⟨_, s1, h1, h2⟩ := bind_ok.1 hs
    have e1 : s1.trace = s.trace := still_cacheDel c s _ s1 h1
    have e2 : Iu.Inv s1 := wp_ok (inv_cacheDel c s hi) h1
    obtain ⟨t, s2, h3, h4⟩ := bind_ok.1 h2
    cases h3
    refine (AllHeard.same e1).trans ?_
    cases hf : ctxFind s1 c with
    | none =>
      rw [hf] at h4
      cases h4
      exact AllHeard.same rfl
    | some u =>
      rw [hf] at h4
      have tail : ∀ (rc rc' : Int) (t t' : State), Iu.Inv t → (do
          let s ← M.get
          match ctxFind s c with
          | none => pure rc
          | some u => do linkInvalidatedFree env u.ptr; pure rc : M Int) t = .ok (rc', t') →
          AllHeard (Causes env (.disconnectInd c d)) t t' := by
        intro rc rc' t t' hi hr
        obtain ⟨_, t1, h5, h6⟩ := bind_ok.1 hr
        cases h5
        cases hg : ctxFind t c with
        | none =>
          rw [hg] at h6
          cases h6
          exact AllHeard.same rfl
        | some v =>
          rw [hg] at h6
          obtain ⟨_, t2, h7, h8⟩ := bind_ok.1 h6
          cases h8
          obtain ⟨hc, hfind⟩ := at_conn hi hg
          exact hears_linkInvalidatedFree_at hfind (hc ▸ .disconnected rfl) h7
      obtain ⟨hc, hfind⟩ := at_conn e2 hf
      by_cases hd : d.length > 0
      · simp only [if_pos hd] at h4
        obtain ⟨rc1, s3, h5, h6⟩ := bind_ok.1 h4
        refine AllHeard.trans ?_ (tail rc1 rc s3 s' (wp_ok (inv_rxCo _ (inv_handleCo u.ptr) d s1 e2) h5) h6)
        exact hears_rxCo_at hfind (.inr (hc ▸ rfl)) h5
      · simp only [if_neg hd] at h4
        obtain ⟨rc1, s3, h5, h6⟩ := bind_ok.1 h4
        cases h5
        exact tail 0 rc _ s' e2 h6
  | dataInd c d =>
    unfold step at hs
    dsimp only at hs
    obtain ⟨t, s2, h3, h4⟩ := bind_ok.1 hs
    cases h3
    cases hf : ctxFind s c with
    | none =>
      rw [hf] at h4
      refine (?_ : Hears _ _) s rc s' h4
      dsimp only
      split
      · exact (still_pure _).hears
      · refine .after (still_cacheDel _) fun _ => hears_rxCo _ fun m hm => ?_
        exact hears_handleCoInitial _ m (fun _ _ _ _ h1 h2 hb => .initial (.inr rfl) hm h1 h2 hb)
          fun _ _ _ h1 h2 hb => .newArea (.inr rfl) hm h1 h2 hb
    | some u =>
      rw [hf] at h4
      obtain ⟨hc, hfind⟩ := at_conn hi hf
      exact hears_rxCo_at hfind (.inl (hc ▸ rfl)) h4
  | unitdataInd a d =>
    refine (?_ : Hears _ (step env (.unitdataInd a d))) s rc s' hs
    unfold step
    dsimp only
    split
    · exact (still_pure _).hears
    next m hm =>
      refine .before ?_ fun _ => still_pure _
      unfold handleCl
      refine .cond (.cond ?_ (.cond ?_ (still_pure _).hears)) (still_pure _).hears
      · split
        · refine .before ?_ fun _ => still_pure _
          unfold handleClReset
          refine .after (still_lift _) fun r => ?_
          split
          · exact (still_pure _).hears
          · exact hears_sapDown _
        · exact (still_fault _).hears
      · split
        · exact (still_pure _).hears
        · exact (still_fault _).hears
  | noticeInd a cause =>
    refine (?_ : Hears _ (step env (.noticeInd a cause))) s rc s' hs
    unfold step handleNotice
    refine .before ?_ fun _ => still_pure _
    split
    · exact (still_pure _).hears
    · exact .after still_get fun s => hears_rncLoop (fun _ => .notice rfl) _ _
  | pcstateInd pc sp rem =>
    refine (?_ : Hears _ (step env (.pcstateInd pc sp rem))) s rc s' hs
    unfold step handlePcstate
    refine .before ?_ fun _ => still_pure _
    dsimp only
    split
    · exact .after still_get fun s => hears_rncLoop (fun _ => .pcstate rfl) _ _
    · exact (still_pure _).hears
  | timer p =>
    refine (?_ : Hears _ (step env (.timer p))) s rc s' hs
    unfold step
    refine .after still_get fun s => .cond (.after (still_modify fun _ => rfl) fun _ => ?_) (still_pure _).hears
    exact .before (hears_iuEvent _ _ fun _ => .timer rfl) fun _ => still_pure _
  | api a => exact hears_api a s rc s' hs

/-- **C133.** Whatever happens: the user is called only for a reason, which is what just happened: NAS only if the primitive carries it, for
the connection of the primitive. -/
theorem C133_heard {ops : List Op} {s s' : State} {rc : Int} (h0 : run env ops init = .ok ((), s)) {op : Op}
    (hs : step env op s = .ok (rc, s')) : AllHeard (Causes env op) s s' := hears_step (reach_inv h0) hs

/-- C133 for whole histories, from any state with pairwise different contexts. -/
theorem hears_all : ∀ (ops : List Op) {s s' : State}, Iu.Inv s → run env ops s = .ok ((), s') →
    AllHeard (fun o => ∃ op ∈ ops, Causes env op o) s s'
  | [], s, s', _, hr => by
    cases hr
    exact AllHeard.same rfl
  | op :: ops, s, s', hi, hr => by
    unfold run at hr
    obtain ⟨rc, s1, h1, h2⟩ := bind_ok.1 hr
    have a2 := hears_all ops (wp_ok (inv_step op s hi) h1) h2
    refine ((hears_step hi h1).mono ?_).trans (a2.mono ?_)
    · exact fun o ho => ⟨op, List.mem_cons_self .., ho⟩
    · exact fun o ⟨p, hm, ho⟩ => ⟨p, List.mem_cons_of_mem _ hm, ho⟩

/-- **C133.** After any history, every call of the user had its reason in the history. -/
theorem C133_history {ops : List Op} {s : State} (h0 : run env ops init = .ok ((), s)) {o : Out} (ho : isTold o = true) (hp : o ∈ s.trace) :
    ∃ op ∈ ops, Causes env op o := by
  obtain ⟨d, h1, h2⟩ := hears_all ops (reach_inv (env := env) (ops := []) rfl) h0
  rw [h1] at hp
  exact h2 _ (by simpa [init] using hp) ho

/-- **C133.** After any history, all NAS that the user was ever handed for a connection was received on that connection. -/
theorem C133_nas {ops : List Op} {s : State} (h0 : run env ops init = .ok ((), s)) {ue : Ptr} {c : ConnId} {nas : Bytes}
    {ra : Option GprsRaId} {sai : Option (BitVec 16)} (hp : Out.recv ue c nas ra sai ∈ s.trace) :
    ∃ op ∈ ops, ∃ d m, (Opens c d op ∨ About c d op) ∧ env.decodeCo d = some m ∧
      ((∃ ies, m.body = .initialUe ies ∧ ies.nas = nas) ∨ ∃ ies, m.body = .directTransfer ies ∧ ies.nas = nas) := by
  obtain ⟨op, hm, hc⟩ := C133_history h0 rfl hp
  cases hc with
  | initial ho hd _ _ hb => exact ⟨op, hm, _, _, .inl ho, hd, .inl ⟨_, hb, rfl⟩⟩
  | transfer ho hd _ _ hb => exact ⟨op, hm, _, _, .inr ho, hd, .inr ⟨_, hb, rfl⟩⟩

/-- An Initial UE Message and a Direct Transfer on one connection, an Iu Release Request there, and NAS on a connection that is not
known: the user is told of a new area and handed NAS twice. -/
example : ∃ s, run Demo.env [.connectInd 10 (Demo.addr 1) [1], .dataInd 10 [4], .dataInd 10 [6], .dataInd 11 [4]] init = .ok ((), s) ∧
    decide (told s = 3) = true :=
  Demo.after_iff.1 (by decide +kernel)

end Verif.Props
