import Verif.Proofs.IuLoop

/-!
# Callbacks that act only on their own context
-/

namespace Verif.Iu
open Spec Lai

variable {env : Env}

/-- Effect of API calls on (at most) context `p`. -/
structure Own (p : Option Ptr) (s s' : State) : Prop where
  eff : Eff s s'
  ues : s'.ues = s.ues ∨ ∃ q, p = some q ∧ (s'.ues = (markSt s q).ues ∨ s'.ues = s.ues.filter (·.ptr ≠ q))
  timers : s'.timers.filter (fun t => decide (some t.1 ≠ p)) = s.timers.filter (fun t => decide (some t.1 ≠ p))
  trace : ∃ d, s'.trace = s.trace ++ d ∧ (∀ o ∈ d, o.isSap = true) ∧
    ∀ o ∈ d, ∀ c, outConn o = some c → ∃ u ∈ s.ues, some u.ptr = p ∧ u.conn = c

theorem Own.refl (p : Option Ptr) (s : State) : Own p s s :=
  ⟨Eff.refl s, .inl rfl, rfl, [], by simp, by simp, by simp⟩

theorem mark_mark (s : State) (q : Ptr) {l : List Ue} (h : l = (markSt s q).ues) :
    (l.map fun u => if u.ptr = q then { u with notification := false, freeOnRelease := true } else u)
      = (markSt s q).ues := by
  subst h
  unfold markSt
  simp only [List.map_map]
  congr 1; funext u; simp only [Function.comp]; split <;> simp_all

theorem mark_filter (s : State) (q : Ptr) : (markSt s q).ues.filter (·.ptr ≠ q) = s.ues.filter (·.ptr ≠ q) := by
  unfold markSt
  simp only
  induction s.ues with
  | nil => rfl
  | cons u l ih =>
    rw [List.map_cons, List.filter_cons, List.filter_cons, ih]
    by_cases h : u.ptr = q <;> simp [h]

theorem filter_mark (l : List Ue) (q : Ptr) :
    ((l.filter (·.ptr ≠ q)).map fun u =>
      if u.ptr = q then { u with notification := false, freeOnRelease := true } else u) = l.filter (·.ptr ≠ q) := by
  induction l with
  | nil => rfl
  | cons u l ih =>
    rw [List.filter_cons]
    split
    · rename_i h
      rw [List.map_cons, ih, if_neg (by simpa using h)]
    · exact ih

theorem Own.trans {p : Option Ptr} {a b c : State} (h : Own p a b) (h' : Own p b c) : Own p a c := by
  refine ⟨h.eff.trans h'.eff, ?_, h'.timers.trans h.timers, ?_⟩
  · rcases h'.ues with e' | ⟨q, rfl, e' | e'⟩
    · rw [e']; exact h.ues
    · rcases h.ues with e | ⟨q2, hq, e | e⟩
      · exact .inr ⟨q, rfl, .inl (by rw [e']; unfold markSt; rw [e])⟩
      · cases hq
        exact .inr ⟨q, rfl, .inl (by rw [e']; exact mark_mark a q e)⟩
      · cases hq
        refine .inr ⟨q, rfl, .inr ?_⟩
        rw [e']; unfold markSt; simp only [e]
        exact filter_mark _ _
    · rcases h.ues with e | ⟨q2, hq, e | e⟩
      · exact .inr ⟨q, rfl, .inr (by rw [e', e])⟩
      · cases hq
        exact .inr ⟨q, rfl, .inr (by rw [e', e]; exact mark_filter a q)⟩
      · cases hq
        exact .inr ⟨q, rfl, .inr (by rw [e', e, List.filter_filter]; simp)⟩
  · obtain ⟨d1, t1, i1, o1⟩ := h.trace
    obtain ⟨d2, t2, i2, o2⟩ := h'.trace
    refine ⟨d1 ++ d2, by rw [t2, t1, List.append_assoc], ?_, ?_⟩
    · intro o ho
      rcases List.mem_append.1 ho with ho | ho
      · exact i1 o ho
      · exact i2 o ho
    · intro o ho c hc
      rcases List.mem_append.1 ho with ho | ho
      · exact o1 o ho c hc
      · obtain ⟨u, hu, h1, h2⟩ := o2 o ho c hc
        obtain ⟨v, hv, hs⟩ := h.eff.ues.mem hu
        exact ⟨v, hv, by rw [← hs.ptr]; exact h1, by rw [← hs.conn]; exact h2⟩

theorem Own.txBuf {p : Option Ptr} (s : State) (b : Int) : Own p s { s with txBufs := b } :=
  ⟨(TrOnly.txBuf s b).eff, .inl rfl, rfl, [], by simp, by simp, by simp⟩

/-- A primitive about context `p`. -/
theorem Own.sap {s : State} {p : Option Ptr} (pr : Prim) (rc : Int)
    (h : ∀ c, outConn (.sap pr rc) = some c → ∃ u ∈ s.ues, some u.ptr = p ∧ u.conn = c) :
    Own p s { s with trace := s.trace ++ [.sap pr rc] } :=
  ⟨Eff.sap s pr rc, .inl rfl, rfl, [.sap pr rc], rfl, by simp [Out.isSap], by
    intro o ho c hc; simp at ho; subst ho; exact h c hc⟩

theorem ow_dataReq {s : State} {p : Ptr} {u : Ue} (hu : s.ues.find? (·.ptr = p) = some u) (m : TxMsg) (rc : Int) :
    Own (some p) s { s with trace := s.trace ++ [.sap (.dataReq u.conn m) rc] } := by
  refine Own.sap _ _ ?_
  intro c hc
  obtain ⟨h1, h2⟩ := find_live hu
  cases hc
  exact ⟨u, h1, by rw [h2], rfl⟩

theorem ow_freeUe (p : Ptr) (s : State) : wp anyF (freeUe env (some p)) (fun _ s' => Own (some p) s s') s := by
  refine wp_mono (wp_and (F := anyF) (F' := anyF) (pl_freeUe p s) (eff_freeUe (some p) s)) ?_
  rintro _ s' ⟨⟨ls, _, u, hu, _, rfl⟩, he⟩
  obtain ⟨h1, h2⟩ := find_live hu
  subst h2
  refine ⟨he, .inr ⟨u.ptr, rfl, .inr rfl⟩, ?_, _, rfl, by simp [Out.isSap], ?_⟩
  · show (s.timers.filter (·.1 ≠ u.ptr)).filter _ = _
    rw [List.filter_filter]
    congr 1; funext t
    by_cases ht : t.1 = u.ptr <;> simp [ht]
  · intro o ho c hc
    simp at ho; subst ho; cases hc
    exact ⟨u, h1, rfl, rfl⟩

theorem ow_iuTxReleaseFree (p : Ptr) (c : Option Cause) (t : Int) (s : State) :
    wp anyF (iuTxReleaseFree env p c t) (fun _ s' => Own (some p) s s') s := by
  refine wp_mono (wp_and (F := anyF) (F' := anyF) (pl_iuTxReleaseFree p c t s) (eff_iuTxReleaseFree p c t s)) ?_
  rintro _ s' ⟨⟨ls, _, u, hu, _, rfl⟩, he⟩
  obtain ⟨h1, h2⟩ := find_live hu
  subst h2
  refine ⟨he, .inr ⟨u.ptr, rfl, .inl rfl⟩, ?_, _, rfl, by simp [Out.isSap], ?_⟩
  · unfold releaseSt
    simp only
    rw [List.filter_cons, if_neg (by simp), List.filter_filter]
    congr 1; funext t
    by_cases ht : t.1 = u.ptr <;> simp [ht]
  · intro o ho c hc
    simp at ho; subst ho; cases hc
    exact ⟨u, h1, rfl, rfl⟩

theorem ow_iuTxRelease (p : Ptr) (c : Option Cause) (s : State) :
    wp anyF (iuTxRelease env p c) (fun _ s' => Own (some p) s s') s := by
  refine wp_mono (pl_iuTxRelease p c s) ?_
  rintro rc s' ⟨ls, _, u, hu, _, rfl⟩
  exact ow_dataReq hu _ _

theorem ow_page {p : Option Ptr} (a : SccpAddr) (imsi : Bytes) (t : Option (BitVec 32)) (ps : Bool) (c : Nat) (s : State) :
    wp anyF (txPagingCmd env a imsi t ps c) (fun _ s' => Own p s s') s := by
  refine wp_mono (pl_txPagingCmd a imsi t ps c s) ?_
  rintro rc s' ⟨ls, _, _, rfl⟩
  exact Own.sap _ _ (by intro c hc; cases hc)

theorem ow_pageLoop {p : Option Ptr} (imsi : Bytes) (t : Option (BitVec 32)) (ps : Bool) (hit : Rai → Bool)
    (l : List Rnc) (n : Int) (s : State) :
    wp anyF (pageLoop env imsi t ps hit l n) (fun _ s' => Own p s s') s := by
  induction l generalizing n s with
  | nil => exact Own.refl _ s
  | cons r l ih =>
    unfold pageLoop
    split
    · simp only [wp_bind]
      refine wp_mono (ow_page (p := p) _ _ _ _ _ s) ?_
      intro rc s' h
      exact wp_mono (ih _ s') (fun _ _ h' => h.trans h')
    · exact ih _ s

theorem ow_iuPage {p : Option Ptr} (imsi : Bytes) (t : Option (BitVec 32)) (lac : BitVec 16) (rac : BitVec 8) (ps : Bool)
    (s : State) : wp anyF (iuPage env imsi t lac rac ps) (fun _ s' => Own p s s') s := by
  unfold iuPage
  simp only [wp_bind, wp_get]
  split
  · simp only [wp_bind]
    exact wp_mono (ow_page _ _ _ _ _ s) (fun _ _ h => h)
  · exact Own.refl _ s

theorem ow_runApi {p : Option Ptr} {a : Api} (h : ∀ q ∈ args a, some q = p) (s : State) :
    wp anyF (runApi env a) (fun _ s' => Own p s s') s := by
  cases a with
  | freeUe ue =>
    cases ue with
    | none => exact Own.refl _ s
    | some q =>
      obtain rfl := h q (by simp [args])
      show wp anyF (do freeUe env (some q); pure 0) _ s
      simp only [wp_bind, wp_pure]
      exact ow_freeUe q s
  | tx ue nas sapi =>
    cases ue with
    | none => exact Own.txBuf s _
    | some q =>
      obtain rfl := h q (by simp [args])
      show wp anyF (iuTx env (some q) nas sapi) _ s
      unfold iuTx txData txBuf
      simp only [wp_bind, wp_modify]
      refine wp_mono (eff_deref q _) ?_
      rintro u s' ⟨rfl, hu⟩
      refine wp_mono (eff_genMsg _ _) ?_
      rintro _ s'' rfl
      simp only [wp_sapDown]
      exact (Own.txBuf s (s.txBufs + 1 + -1)).trans
        (ow_dataReq (s := { s with txBufs := s.txBufs + 1 + -1 }) hu _ _)
  | txRelease q c =>
    obtain rfl := h q (by simp [args])
    exact ow_iuTxRelease q c s
  | txReleaseFree q c t =>
    obtain rfl := h q (by simp [args])
    show wp anyF (do iuTxReleaseFree env q c t; pure 0) _ s
    simp only [wp_bind, wp_pure]
    exact ow_iuTxReleaseFree q c t s
  | txSecModeCmd q ik ck x y =>
    obtain rfl := h q (by simp [args])
    show wp anyF (iuTxSecModeCmd env q ik ck x y) _ s
    unfold iuTxSecModeCmd txData
    simp only [wp_bind]
    refine wp_mono (eff_genMsg _ s) ?_
    rintro _ s'' rfl
    refine wp_mono (eff_deref q s'') ?_
    rintro u s' ⟨rfl, hu⟩
    simp only [wp_sapDown]
    exact ow_dataReq hu _ _
  | txCommonId q imsi =>
    obtain rfl := h q (by simp [args])
    show wp anyF (iuTxCommonId env q imsi) _ s
    unfold iuTxCommonId txData
    simp only [wp_bind]
    refine wp_mono (eff_deref q s) ?_
    rintro u s' ⟨rfl, hu⟩
    refine wp_mono (eff_genMsg _ s') ?_
    rintro _ s'' rfl
    simp only [wp_sapDown]
    exact ow_dataReq hu _ _
  | rabAct q msg =>
    obtain rfl := h q (by simp [args])
    show wp anyF (iuRabAct env q msg) _ s
    unfold iuRabAct txData
    simp only [wp_bind]
    refine wp_mono (eff_deref q s) ?_
    rintro u s' ⟨rfl, hu⟩
    simp only [wp_sapDown]
    exact ow_dataReq hu _ _
  | rabDeact q r => exact Own.refl _ s
  | pageCs imsi t lac => exact ow_iuPage _ _ _ _ _ s
  | pagePs imsi t lac rac => exact ow_iuPage _ _ _ _ _ s
  | pageCs2 imsi t lai =>
    show wp anyF (iuPageCs2 env imsi t lai) _ s
    unfold iuPageCs2; simp only [wp_bind, wp_get]; exact ow_pageLoop _ _ _ _ _ _ s
  | pagePs2 imsi t rai =>
    show wp anyF (iuPagePs2 env imsi t rai) _ s
    unfold iuPagePs2; simp only [wp_bind, wp_get]; exact ow_pageLoop _ _ _ _ _ _ s

theorem ow_runScript {p : Option Ptr} {sc : Script} (h : OwnOnly p sc) (s : State) :
    wp anyF (runScript env sc) (fun _ s' => Own p s s') s := by
  induction sc generalizing s with
  | done => exact Own.refl _ s
  | call a k ih =>
    show wp anyF (do let rc ← runApi env a; runScript env (k rc)) _ s
    rw [wp_bind]
    refine wp_mono (ow_runApi h.1 s) ?_
    intro rc s' h1
    exact wp_mono (ih rc (h.2 rc) s') fun _ _ h2 => h1.trans h2

theorem ow_callback (hc : OwnCallbacks env) (o : Out) (s : State) :
    wp anyF (callback env o) (fun _ s' => Own (target o) { s with trace := s.trace ++ [o] } s') s := by
  unfold callback
  simp only [wp_bind, wp_emit, wp_get]
  exact ow_runScript (hc _ o) _

/-- Event for a context: delivered exactly when notifications are on. -/
theorem ow_iuEvent (hc : OwnCallbacks env) (p : Ptr) (e : Event) (s : State) :
    wp anyF (iuEvent env (some p) e) (fun _ s' =>
      ∃ u, (env.hasEventCb = true → s.ues.find? (·.ptr = p) = some u) ∧
      ((env.hasEventCb = true ∧ u.notification = true ∧
          Own (some p) { s with trace := s.trace ++ [.event (some (p, u.conn)) e] } s') ∨
       ((env.hasEventCb = false ∨ u.notification = false) ∧ s' = s))) s := by
  unfold iuEvent
  split
  · rename_i hcb
    simp only [wp_bind]
    refine wp_mono (eff_deref p s) ?_
    rintro u s' ⟨rfl, hu⟩
    split
    · rename_i hn
      refine wp_mono (ow_callback hc _ s') fun _ s2 h => ⟨u, fun _ => hu, .inl ⟨hcb, hn, h⟩⟩
    · rename_i hn
      exact ⟨u, fun _ => hu, .inr ⟨.inr (by simpa using hn), rfl⟩⟩
  · rename_i hcb
    exact ⟨⟨p, 0, 0, ⟨0, 0, false, 0, 0⟩, false, false⟩, fun h => absurd h (by simpa using hcb),
      .inr ⟨.inl (by simpa using hcb), rfl⟩⟩

end Verif.Iu
