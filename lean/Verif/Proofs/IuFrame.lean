import Verif.Proofs.IuFlow
import Verif.Proofs.IuLink

/-!
# Connections do not interfere
-/

namespace Verif.Iu
open Spec

variable {env : Env}

/-- Only connection `c` is affected. -/
structure Frame (c : ConnId) (s s' : State) : Prop where
  ues : s'.ues.filter (·.conn ≠ c) = s.ues.filter (·.conn ≠ c)
  cache : s'.cache.filter (·.1 ≠ c) = s.cache.filter (·.1 ≠ c)
  timers : ∀ u ∈ s.ues, u.conn ≠ c → ∀ x, (u.ptr, x) ∈ s'.timers ↔ (u.ptr, x) ∈ s.timers
  trace : ∃ d, s'.trace = s.trace ++ d ∧ ∀ o ∈ d, ∀ c', outConn o = some c' → c' = c

theorem Frame.refl (c : ConnId) (s : State) : Frame c s s := ⟨rfl, rfl, fun _ _ _ _ => .rfl, [], by simp, by simp⟩

theorem Frame.mem {c : ConnId} {s s' : State} (h : Frame c s s') {u : Ue} (hu : u ∈ s.ues) (hc : u.conn ≠ c) :
    u ∈ s'.ues := by
  have : u ∈ s'.ues.filter (·.conn ≠ c) := by
    rw [h.ues, List.mem_filter]; exact ⟨hu, by simpa using hc⟩
  exact (List.mem_filter.1 this).1

theorem Frame.trans {c : ConnId} {a b e : State} (h : Frame c a b) (h' : Frame c b e) : Frame c a e := by
  obtain ⟨d1, t1, o1⟩ := h.trace
  obtain ⟨d2, t2, o2⟩ := h'.trace
  refine ⟨h'.ues.trans h.ues, h'.cache.trans h.cache, ?_, d1 ++ d2, by rw [t2, t1, List.append_assoc], ?_⟩
  · intro u hu hc x
    exact (h'.timers u (h.mem hu hc) hc x).trans (h.timers u hu hc x)
  · intro o ho c' hc
    rcases List.mem_append.1 ho with ho | ho
    · exact o1 o ho c' hc
    · exact o2 o ho c' hc

/-- A change of other components. -/
theorem Frame.same {c : ConnId} {s s' : State} (h1 : s'.ues = s.ues) (h2 : s'.cache = s.cache) (h3 : s'.timers = s.timers)
    (h4 : s'.trace = s.trace) : Frame c s s' :=
  ⟨by rw [h1], by rw [h2], by intro u _ _ x; rw [h3], [], by rw [h4]; simp, by simp⟩

theorem Frame.emit {c : ConnId} {s : State} (o : Out) (h : ∀ c', outConn o = some c' → c' = c) :
    Frame c s { s with trace := s.trace ++ [o] } :=
  ⟨rfl, rfl, fun _ _ _ _ => .rfl, [o], rfl, by intro o' ho c' hc; rw [List.mem_singleton.1 ho] at hc; exact h c' hc⟩

/-- Every context with handle `p` is on connection `c`. -/
def On (p : Ptr) (c : ConnId) (s : State) : Prop := ∀ u ∈ s.ues, u.ptr = p → u.conn = c

theorem On.eff {p : Ptr} {c : ConnId} {s s' : State} (h : On p c s) (he : Eff s s') : On p c s' := by
  intro u hu hp
  obtain ⟨v, hv, hs⟩ := he.ues.mem hu
  rw [hs.conn]
  exact h v hv (hs.ptr.symm.trans hp)

theorem filter_map_on {l : List Ue} {p : Ptr} {c : ConnId} {f : Ue → Ue} (h : ∀ u ∈ l, u.ptr = p → u.conn = c)
    (hf : ∀ u, (f u).conn = u.conn) :
    (l.map fun u => if u.ptr = p then f u else u).filter (·.conn ≠ c) = l.filter (·.conn ≠ c) := by
  induction l with
  | nil => rfl
  | cons u l ih =>
    have ih := ih fun v hv => h v (List.mem_cons_of_mem _ hv)
    rw [List.map_cons]
    by_cases hu : u.ptr = p
    · have hc := h u List.mem_cons_self hu
      rw [if_pos hu, List.filter_cons_of_neg (by simp [hf, hc]), List.filter_cons_of_neg (by simp [hc]), ih]
    · rw [if_neg hu, List.filter_cons, List.filter_cons, ih]

theorem filter_filter_on {l : List Ue} {p : Ptr} {c : ConnId} (h : ∀ u ∈ l, u.ptr = p → u.conn = c) :
    (l.filter (·.ptr ≠ p)).filter (·.conn ≠ c) = l.filter (·.conn ≠ c) := by
  rw [List.filter_filter]
  refine List.filter_congr fun u hu => ?_
  by_cases hp : u.ptr = p
  · simp [h u hu hp]
  · simp [hp]

theorem Own.frame {p : Ptr} {c : ConnId} {s s' : State} (h : Own (some p) s s') (hp : On p c s) : Frame c s s' := by
  refine ⟨?_, by rw [h.eff.cache], ?_, ?_⟩
  · rcases h.ues with e | ⟨q, hq, e | e⟩
    · rw [e]
    · cases hq; rw [e]
      exact filter_map_on (f := fun u => { u with notification := false, freeOnRelease := true }) hp fun _ => rfl
    · cases hq; rw [e]; exact filter_filter_on hp
  · intro u hu hc x
    have hne : u.ptr ≠ p := fun he => hc (hp u hu he)
    have ht := h.timers
    have key : ∀ l : List (Ptr × Int), (u.ptr, x) ∈ l ↔ (u.ptr, x) ∈ l.filter (fun t => decide (some t.1 ≠ some p)) := by
      intro l; rw [List.mem_filter]; simp [hne]
    rw [key s'.timers, ht, ← key s.timers]
  · obtain ⟨d, hd, _, ho⟩ := h.trace
    refine ⟨d, hd, fun o hm c' hc => ?_⟩
    obtain ⟨u, hu, h1, h2⟩ := ho o hm c' hc
    injection h1 with h1
    rw [← h2]; exact hp u hu h1

theorem Own.frameNone {c : ConnId} {s s' : State} (h : Own none s s') : Frame c s s' := by
  refine ⟨?_, by rw [h.eff.cache], ?_, ?_⟩
  · rcases h.ues with e | ⟨q, hq, _⟩
    · rw [e]
    · cases hq
  · intro u _ _ x
    have ht := h.timers
    have key : ∀ l : List (Ptr × Int), l.filter (fun t => decide (some t.1 ≠ none)) = l := by
      intro l; rw [List.filter_eq_self]; simp
    rw [key, key] at ht
    rw [ht]
  · obtain ⟨d, hd, _, ho⟩ := h.trace
    refine ⟨d, hd, fun o hm c' hc => ?_⟩
    obtain ⟨u, hu, h1, h2⟩ := ho o hm c' hc
    cases h1

/-- Nothing new: contexts of `s'` stem from `s`. -/
def Stem (s s' : State) : Prop := ∀ u ∈ s'.ues, ∃ v ∈ s.ues, v.ptr = u.ptr ∧ v.conn = u.conn

theorem Stem.refl (s : State) : Stem s s := fun u hu => ⟨u, hu, rfl, rfl⟩
theorem Stem.trans {a b c : State} (h : Stem a b) (h' : Stem b c) : Stem a c := by
  intro u hu
  obtain ⟨v, hv, h1, h2⟩ := h' u hu
  obtain ⟨w, hw, h3, h4⟩ := h v hv
  exact ⟨w, hw, h3.trans h1, h4.trans h2⟩
theorem Eff.stem {s s' : State} (h : Eff s s') : Stem s s' := by
  intro u hu
  obtain ⟨v, hv, hs⟩ := h.ues.mem hu
  exact ⟨v, hv, hs.ptr.symm, hs.conn.symm⟩
theorem On.stem {p : Ptr} {c : ConnId} {s s' : State} (h : On p c s) (he : Stem s s') : On p c s' := by
  intro u hu hp
  obtain ⟨v, hv, h1, h2⟩ := he u hu
  rw [← h2]; exact h v hv (h1.trans hp)

theorem fr_callback (hc : OwnCallbacks env) {o : Out} {p : Ptr} {c : ConnId} (ht : target o = some p)
    (hoc : outConn o = some c) {s : State} (hp : On p c s) :
    wp anyF (callback env o) (fun _ s' => Frame c s s' ∧ Stem s s') s := by
  refine wp_mono (ow_callback hc o s) ?_
  intro _ s' h
  rw [ht] at h
  exact ⟨(Frame.emit o (by intro c' h'; rw [hoc] at h'; cases h'; rfl)).trans (h.frame hp), h.eff.stem⟩

theorem fr_iuEvent (hc : OwnCallbacks env) {p : Ptr} {c : ConnId} (e : Event) {s : State} (hp : On p c s) :
    wp anyF (iuEvent env (some p) e) (fun _ s' => Frame c s s' ∧ Stem s s') s := by
  refine wp_mono (ow_iuEvent hc p e s) ?_
  rintro _ s' ⟨u, hu, ⟨hcb, _, h⟩ | ⟨_, rfl⟩⟩
  · obtain ⟨h1, h2⟩ := find_live (hu hcb)
    have := hp u h1 h2
    exact ⟨(Frame.emit (.event (some (p, u.conn)) e) (by intro c' h'; cases h'; exact this)).trans (h.frame hp), h.eff.stem⟩
  · exact ⟨.refl _ _, .refl _⟩

theorem fr_handleDt (hc : OwnCallbacks env) {p : Ptr} {c : ConnId} (ies : DtIes) {s : State} (hp : On p c s) :
    wp anyF (handleDt env p ies) (fun _ s' => Frame c s s' ∧ Stem s s') s := by
  unfold wp
  rw [handleDt_eq]
  cases dtCheck ies with
  | fault e => trivial
  | ok o =>
    cases o with
    | none => exact ⟨.same rfl rfl rfl rfl, .refl _⟩
    | some x =>
      obtain ⟨ra, sai⟩ := x
      have key : wp anyF (dtTail env p ies.nas ra sai) (fun _ s' => Frame c s s' ∧ Stem s s')
          { s with nasBufs := s.nasBufs + 1 } := by
        unfold dtTail nasPut
        simp only [wp_bind]
        split
        · rw [wp_pure]
          refine wp_mono (eff_deref p _) ?_
          rintro u s1 ⟨rfl, hu⟩
          obtain ⟨h1, h2⟩ := find_live hu
          have hpc := hp u h1 h2
          refine wp_mono (fr_callback hc (o := .recv p u.conn ies.nas ra sai) (p := p) (c := c) rfl
            (by show some u.conn = _; rw [hpc]) hp) ?_
          rintro _ s2 ⟨hf, hs⟩
          simp only [nasFree, wp_modify, wp_pure]
          have h0 : Frame c s { s with nasBufs := s.nasBufs + 1 } := .same rfl rfl rfl rfl
          have h3 : Frame c s2 { s2 with nasBufs := s2.nasBufs - 1 } := .same rfl rfl rfl rfl
          exact ⟨h0.trans (hf.trans h3), hs⟩
        · rw [wp_fault]; trivial
      exact key

theorem fr_handleCo (hc : OwnCallbacks env) {p : Ptr} {c : ConnId} (m : Msg) {s : State} (hp : On p c s) :
    wp anyF (handleCo env p m) (fun _ s' => Frame c s s' ∧ Stem s s') s := by
  have hid : Frame c s s ∧ Stem s s := ⟨.refl _ _, .refl _⟩
  unfold handleCo
  split
  · split
    · exact hid
    · split
      · cases m.body
        case directTransfer ies =>
          simp only [wp_bind]
          exact wp_mono (fr_handleDt hc ies hp) fun _ _ h => h
        all_goals trivial
      · split
        · cases m.body <;> first | exact hid | trivial
        · split
          · cases m.body
            case iuReleaseReq cause =>
              simp only [wp_bind]
              exact wp_mono (ow_iuTxRelease p (some cause) s) fun _ _ h => ⟨h.frame hp, h.eff.stem⟩
            all_goals trivial
          · exact hid
  · split
    · split
      · exact fr_iuEvent hc _ hp
      · split
        · exact fr_iuEvent hc _ hp
        · exact hid
    · split
      · split
        · cases m.body
          case rabAssResp items =>
            simp only [wp_bind]
            unfold handleRabAssResp
            simp only [wp_bind]
            refine wp_mono (eff_deref p s) ?_
            rintro u s1 ⟨rfl, hu⟩
            split
            · exact hid
            · trivial
            · exact hid
            · simp only [wp_bind]
              exact wp_mono (fr_iuEvent hc _ hp) fun _ _ h => h
          all_goals trivial
        · exact hid
      · exact hid

theorem fr_rxCo (hc : OwnCallbacks env) {p : Ptr} {c : ConnId} (data : Bytes) {s : State} (hp : On p c s) :
    wp anyF (rxCo env (handleCo env p) data) (fun _ s' => Frame c s s' ∧ Stem s s') s := by
  unfold rxCo
  cases env.decodeCo data with
  | none => exact ⟨.refl _ _, .refl _⟩
  | some m =>
    simp only [wp_bind]
    exact wp_mono (fr_handleCo hc m hp) fun _ _ h => h

theorem fr_link (hc : OwnCallbacks env) {p : Ptr} {c : ConnId} {s : State} (hp : On p c s)
    (hn : (s.ues.map (·.ptr)).Nodup) :
    wp anyF (linkInvalidatedFree env p) (fun _ s' => Frame c s s' ∧ Stem s s') s := by
  unfold linkInvalidatedFree
  simp only [wp_bind]
  refine wp_mono (eff_deref p s) ?_
  rintro u s1 ⟨rfl, hu⟩
  obtain ⟨h1, h2⟩ := find_live hu
  have huc := hp u h1 h2
  refine wp_mono (fr_iuEvent hc _ hp) ?_
  rintro _ s1 ⟨hf, hs⟩
  simp only [wp_get]
  rw [huc]
  cases hx : ctxFind s1 c with
  | none => exact ⟨hf, hs⟩
  | some v =>
    obtain ⟨hv, hvc⟩ := ctxFind_some hx
    simp only
    split
    · have hon : On v.ptr c s1 := by
        intro w hw hwp
        obtain ⟨w0, hw0, e1, e2⟩ := hs w hw
        obtain ⟨v0, hv0, e3, e4⟩ := hs v hv
        have : w0 = v0 := ue_inj hn hw0 hv0 (e1.trans (hwp.trans e3.symm))
        rw [← e2, this, e4, hvc]
      exact wp_mono (ow_freeUe v.ptr s1) fun _ _ h => ⟨hf.trans (h.frame hon), hs.trans h.eff.stem⟩
    · exact ⟨hf, hs⟩

theorem fr_initial (hc : OwnCallbacks env) (ctx : NewCtx) (data : Bytes) {s : State} (hi : Inv s) :
    wp anyF (rxCo env (handleCoInitial env ctx) data) (fun _ s' => Frame ctx.conn s s') s := by
  unfold rxCo
  cases env.decodeCo data with
  | none => exact .refl _ _
  | some m =>
    simp only [wp_bind]
    unfold handleCoInitial
    split
    · exact .refl _ _
    · cases m.body
      case initialUe ies =>
        simp only [wp_bind]
        refine wp_mono (?_ : wp anyF (handleInitialUe env ctx ies) (fun _ s' => Frame ctx.conn s s') s) fun _ _ h => h
        unfold wp
        rw [handleInitialUe_eq]
        cases initialCheck ies with
        | fault e => trivial
        | ok o =>
          cases o with
          | none => exact Frame.same rfl rfl rfl rfl
          | some x =>
            obtain ⟨id, ra, sai⟩ := x
            have key : ∀ s : State, Inv s → wp anyF (initialTail env ctx id ra ies.nas sai) (fun _ s' => Frame ctx.conn s s') s := by
              intro s hi
              unfold initialTail
              have hreg : wp anyF (rncRegister env id (gprsRaiToOsmo ra) ctx.addr)
                  (fun _ s1 => Frame ctx.conn s s1 ∧ ∀ u ∈ s1.ues, u.ptr < s1.next) s := by
                unfold wp
                rw [rncRegister_eq]
                have hinv := (regState_inv (env := env) id (gprsRaiToOsmo ra) ctx.addr s hi).1
                have : wp anyF (regEvent env s id (gprsRaiToOsmo ra) ctx.addr >>= fun _ => pure (regPtr env s id ctx.addr))
                    (fun _ s1 => Frame ctx.conn s s1 ∧ ∀ u ∈ s1.ues, u.ptr < s1.next)
                    (regState env s id (gprsRaiToOsmo ra) ctx.addr) := by
                  simp only [wp_bind, wp_pure]
                  have h0 : Frame ctx.conn s (regState env s id (gprsRaiToOsmo ra) ctx.addr) := .same rfl rfl rfl rfl
                  have hev : ∀ e, wp anyF (iuEvent env none e) (fun _ s1 => Frame ctx.conn s s1 ∧ ∀ u ∈ s1.ues, u.ptr < s1.next)
                      (regState env s id (gprsRaiToOsmo ra) ctx.addr) := by
                    intro e
                    unfold iuEvent
                    split
                    · refine wp_mono (ow_callback hc (.event none e) _) ?_
                      intro _ s1 h
                      refine ⟨h0.trans ((Frame.emit _ (by intro c h; cases h)).trans h.frameNone), ?_⟩
                      intro u hu
                      obtain ⟨v, hv, hs⟩ := h.eff.ues.mem hu
                      rw [h.eff.next, hs.ptr]
                      exact hinv.ueLt v hv
                    · exact ⟨h0, hinv.ueLt⟩
                  unfold regEvent
                  split
                  · unfold iuEventNewArea
                    split
                    · exact hev _
                    · exact hev _
                  · exact ⟨h0, hinv.ueLt⟩
                exact this
              simp only [wp_bind]
              refine wp_mono hreg ?_
              rintro r s1 ⟨hf, hlt⟩
              simp only [ctxAlloc, wp_bind, wp_get, wp_modify, wp_pure]
              have hon : On s1.next ctx.conn (allocSt s1 r ctx.conn ra) := by
                intro u hu hp
                simp only [allocSt, List.mem_cons, List.mem_map] at hu
                rcases hu with rfl | ⟨v, hv, rfl⟩
                · rfl
                · have := hlt v hv
                  rw [if_neg (Nat.ne_of_lt this)] at hp
                  exact absurd hp (Nat.ne_of_lt this)
              have hal : Frame ctx.conn s1 (allocSt s1 r ctx.conn ra) := by
                refine ⟨?_, rfl, fun _ _ _ _ => .rfl, [], by simp [allocSt], by simp⟩
                simp only [allocSt]
                rw [List.filter_cons_of_neg (by simp)]
                exact filter_map_on (f := fun u => { u with raId := ra })
                  (fun u hu hp => absurd hp (Nat.ne_of_lt (hlt u hu))) fun _ => rfl
              rw [List.map_cons, if_pos rfl]
              change wp anyF _ _ (allocSt s1 r ctx.conn ra)
              refine wp_mono (fr_callback hc (p := s1.next) rfl rfl hon) ?_
              rintro _ s2 ⟨hf2, _⟩
              simp only [nasFree, wp_modify]
              have h3 : Frame ctx.conn s2 { s2 with nasBufs := s2.nasBufs - 1 } := .same rfl rfl rfl rfl
              exact hf.trans (hal.trans (hf2.trans h3))
            have := key { s with nasBufs := s.nasBufs + 1 } (hi.congr rfl rfl rfl rfl)
            exact wp_mono this fun _ _ h => (Frame.same rfl rfl rfl rfl : Frame ctx.conn s { s with nasBufs := s.nasBufs + 1 }).trans h
      all_goals trivial

theorem eraseP_filter (l : List (ConnId × SccpAddr)) (c : ConnId) :
    (l.eraseP (·.1 = c)).filter (·.1 ≠ c) = l.filter (·.1 ≠ c) := by
  induction l with
  | nil => rfl
  | cons e l ih =>
    rw [List.eraseP_cons]
    by_cases he : e.1 = c
    · simp [he]
    · simp only [he, decide_false, cond_false]
      rw [List.filter_cons, List.filter_cons, ih]

/-- A primitive for one connection. -/
theorem step_frame (hc : OwnCallbacks env) {op : Op} {s s' : State} {rc : Int} {c : ConnId} (hi : Inv s)
    (h : step env op s = .ok (rc, s')) (ho : opConn op = some c) : Frame c s s' := by
  have hon : ∀ u ∈ s.ues, u.conn = c → On u.ptr c s := by
    intro u hu huc v hv hvp
    rw [ue_inj hi.ueNodup hv hu hvp, huc]
  cases op with
  | connectInd c' a d =>
    cases ho
    have : wp anyF (step env (.connectInd c a d)) (fun _ s' => Frame c s s') s := by
      unfold step
      simp only [wp_bind, wp_sapDown]
      have h0 : Frame c s { s with trace := s.trace ++ [.sap (.connectResp c) (env.sapRc s (.connectResp c))] } :=
        Frame.emit _ (by intro c' h; cases h; rfl)
      split
      · simp only [wp_bind, cacheAdd, wp_modify, wp_pure]
        refine h0.trans ⟨rfl, ?_, fun _ _ _ _ => .rfl, [], by simp, by simp⟩
        simp
      · exact wp_mono (fr_initial hc ⟨a, c⟩ d (hi.congr rfl rfl rfl rfl)) fun _ _ h => h0.trans h
    exact wp_ok (Q := fun _ s' => Frame c s s') this h
  | dataInd c' d =>
    cases ho
    have : wp anyF (step env (.dataInd c d)) (fun _ s' => Frame c s s') s := by
      unfold step
      simp only [wp_bind, wp_get]
      cases hx : ctxFind s c with
      | none =>
        simp only
        cases hk : cacheFind s c with
        | none => exact .refl _ _
        | some a =>
          simp only [cacheDel, wp_bind, wp_modify]
          have h0 : Frame c s { s with cache := s.cache.eraseP (·.1 = c), blocks := s.blocks - if s.cache.any (·.1 = c) then 1 else 0 } :=
            ⟨rfl, eraseP_filter _ _, fun _ _ _ _ => .rfl, [], by simp, by simp⟩
          exact wp_mono (fr_initial hc ⟨a, c⟩ d (hi.congr rfl rfl rfl rfl)) fun _ _ h => h0.trans h
      | some u =>
        obtain ⟨hu, huc⟩ := ctxFind_some hx
        exact wp_mono (fr_rxCo hc d (hon u hu huc)) fun _ _ h => h.1
    exact wp_ok (Q := fun _ s' => Frame c s s') this h
  | disconnectInd c' d =>
    cases ho
    have : wp anyF (step env (.disconnectInd c d)) (fun _ s' => Frame c s s') s := by
      unfold step
      simp only [wp_bind, wp_get, cacheDel, wp_modify]
      have h0 : Frame c s { s with cache := s.cache.eraseP (·.1 = c), blocks := s.blocks - if s.cache.any (·.1 = c) then 1 else 0 } :=
        ⟨rfl, eraseP_filter _ _, fun _ _ _ _ => .rfl, [], by simp, by simp⟩
      cases hx : ctxFind { s with cache := s.cache.eraseP (·.1 = c), blocks := s.blocks - if s.cache.any (·.1 = c) then 1 else 0 } c with
      | none => exact h0
      | some u =>
        obtain ⟨hu, huc⟩ := ctxFind_some hx
        have htail : ∀ s1 : State, ∀ rc : Int, Frame c s s1 → Stem s s1 → (s1.ues.map (·.ptr)).Nodup →
            wp anyF (match ctxFind s1 c with
              | none => pure rc
              | some u => do linkInvalidatedFree env u.ptr; pure rc : M Int) (fun _ s' => Frame c s s') s1 := by
          intro s1 rc hf hs hnd
          cases hy : ctxFind s1 c with
          | none => exact hf
          | some v =>
            obtain ⟨hv, hvc⟩ := ctxFind_some hy
            simp only [wp_bind]
            refine wp_mono (fr_link hc (p := v.ptr) (c := c) ?_ hnd) fun _ _ h => hf.trans h.1
            intro w hw hwp
            rw [ue_inj hnd hw hv hwp, hvc]
        simp only
        split
        · rw [wp_bind]
          refine wp_mono (wp_and (F := anyF) (F' := anyF)
            (fr_rxCo hc (s := { s with cache := s.cache.eraseP (·.1 = c), blocks := s.blocks - if s.cache.any (·.1 = c) then 1 else 0 }) d (hon u hu huc))
            (inv_rxCo _ (inv_handleCo _) _ _ (hi.congr rfl rfl rfl rfl))) ?_
          rintro rc s1 ⟨⟨h1, h2⟩, h3⟩
          simp only [wp_bind, wp_get]
          exact htail s1 rc (h0.trans h1) h2 h3.ueNodup
        · simp only [wp_bind, wp_get, wp_pure]
          exact htail _ 0 h0 (Stem.refl s) hi.ueNodup
    exact wp_ok (Q := fun _ s' => Frame c s s') this h
  | connectConf => cases ho
  | unitdataInd => cases ho
  | noticeInd => cases ho
  | pcstateInd => cases ho
  | otherInd => cases ho
  | timer => cases ho
  | api => cases ho

end Verif.Iu
