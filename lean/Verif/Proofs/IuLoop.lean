import Verif.Proofs.IuConn

/-!
# The loops over contexts never touch freed memory
-/

namespace Verif.Iu
open Spec Lai

variable {env : Env}

/-- Handles in list order. -/
def ptrs (s : State) : List Ptr := s.ues.map (·.ptr)

theorem mem_ptrs {s : State} {p : Ptr} : p ∈ ptrs s ↔ Live s p := by
  unfold ptrs Live; simp

/-- At most `p` disappeared. -/
def PtrsOwn (p : Ptr) (s s' : State) : Prop := ptrs s' = ptrs s ∨ ptrs s' = (ptrs s).filter (· ≠ p)

theorem PtrsOwn.refl (p : Ptr) (s : State) : PtrsOwn p s s := .inl rfl
theorem PtrsOwn.trans {p : Ptr} {a b c : State} (h : PtrsOwn p a b) (h' : PtrsOwn p b c) : PtrsOwn p a c := by
  rcases h with h | h <;> rcases h' with h' | h'
  · exact .inl (h'.trans h)
  · exact .inr (by rw [h', h])
  · exact .inr (by rw [h', h])
  · exact .inr (by rw [h', h, List.filter_filter]; simp)

theorem ptrs_filter (l : List Ue) (p : Ptr) :
    (l.filter (·.ptr ≠ p)).map (·.ptr) = (l.map (·.ptr)).filter (· ≠ p) := by
  rw [List.filter_map]; rfl

theorem po_freeUe (p : Ptr) (s : State) : wp anyF (freeUe env (some p)) (fun _ s' => PtrsOwn p s s') s := by
  refine wp_mono (pl_freeUe p s) ?_
  rintro _ s' ⟨ls, _, u, hu, _, rfl⟩
  have := find_ptr hu
  subst this
  exact .inr (ptrs_filter _ _)

theorem markSt_ptrs (s : State) (p : Ptr) : ptrs (markSt s p) = ptrs s := by
  unfold ptrs markSt
  rw [List.map_map]; congr 1; funext u; simp only [Function.comp]; split <;> rfl

theorem po_runApi {p : Ptr} {a : Api} (h : ∀ q, a = .freeUe (some q) → q = p) (s : State) :
    wp anyF (runApi env a) (fun _ s' => PtrsOwn p s s') s := by
  cases hm : a.mutates with
  | false =>
    refine wp_mono (tr_runApi a hm s) ?_
    rintro _ s' ⟨d, b, rfl, _⟩
    exact .inl rfl
  | true =>
    cases a <;> first | (cases hm; done) | skip
    · rename_i ue
      cases ue with
      | none => exact PtrsOwn.refl p s
      | some q =>
        obtain rfl := h q rfl
        show wp anyF (do freeUe env (some q); pure 0) _ s
        simp only [wp_bind, wp_pure]
        exact po_freeUe q s
    · rename_i q c t
      show wp anyF (do iuTxReleaseFree env q c t; pure 0) _ s
      simp only [wp_bind, wp_pure]
      refine wp_mono (pl_iuTxReleaseFree q c t s) ?_
      rintro _ s' ⟨ls, _, u, _, _, rfl⟩
      exact .inl (markSt_ptrs s u.ptr)

theorem po_runScript {p : Ptr} {sc : Script} (h : FreesOnly p sc) (s : State) :
    wp anyF (runScript env sc) (fun _ s' => PtrsOwn p s s') s := by
  induction sc generalizing s with
  | done => exact PtrsOwn.refl p s
  | call a k ih =>
    show wp anyF (do let rc ← runApi env a; runScript env (k rc)) _ s
    rw [wp_bind]
    refine wp_mono (po_runApi h.1 s) ?_
    intro rc s' h1
    exact wp_mono (ih rc (h.2 rc) s') fun _ _ h2 => h1.trans h2

theorem po_link (hl : LinkOk env) (p : Ptr) (s : State) :
    wp anyF (iuEvent env (some p) .linkInvalidated) (fun _ s' => PtrsOwn p s s' ∧ UeRel s.ues s'.ues) s := by
  unfold iuEvent
  split
  · simp only [wp_bind]
    refine wp_mono (eff_deref p s) ?_
    rintro u s' ⟨rfl, hu⟩
    split
    · refine wp_mono (wp_and (F := anyF) (F' := anyF) ?_ (eff_callback _ s')) fun _ _ h => ⟨h.1, h.2.ues⟩
      unfold callback
      simp only [wp_bind, wp_emit, wp_get]
      refine wp_mono (po_runScript (hl _ p u.conn) _) fun _ s2 h => ?_
      exact h
    · exact ⟨.refl _ _, .refl _⟩
  · exact ⟨.refl _ _, .refl _⟩

theorem conn_inj {l : List Ue} (h : (l.map (·.conn)).Nodup) {a b : Ue} (ha : a ∈ l) (hb : b ∈ l)
    (he : a.conn = b.conn) : a = b := by
  induction l with
  | nil => cases ha
  | cons x l ih =>
    rw [List.map_cons, List.nodup_cons] at h
    rcases List.mem_cons.1 ha with rfl | ha' <;> rcases List.mem_cons.1 hb with rfl | hb'
    · rfl
    · exact absurd (List.mem_map.2 ⟨b, hb', he.symm⟩) h.1
    · exact absurd (List.mem_map.2 ⟨a, ha', he⟩) h.1
    · exact ih h.2 ha' hb'

theorem sf_linkInvalidatedFree {F : Fault → Prop} {p : Ptr} {s : State} (hc : CallbacksOk env) (hl : Live s p) :
    wp F (linkInvalidatedFree env p) (fun _ _ => True) s := by
  unfold linkInvalidatedFree
  simp only [wp_bind]
  refine sf_deref hl fun u hu => ?_
  refine wp_mono (sf_iuEvent hc hl) fun _ s1 _ => ?_
  simp only [wp_get]
  split
  · trivial
  · rename_i v hv
    split
    · refine wp_mono (sf_freeUe ⟨v, (ctxFind_some hv).1, rfl⟩) fun _ _ _ => trivial
    · trivial

theorem po_linkInvalidatedFree (hl : LinkOk env) (p : Ptr) (s : State) (hn : (s.ues.map (·.conn)).Nodup) :
    wp anyF (linkInvalidatedFree env p) (fun _ s' => PtrsOwn p s s' ∧ UeRel s.ues s'.ues) s := by
  unfold linkInvalidatedFree
  simp only [wp_bind]
  refine wp_mono (eff_deref p s) ?_
  rintro u s' ⟨rfl, hu⟩
  refine wp_mono (po_link hl p s') fun _ s1 ⟨h1, h2⟩ => ?_
  simp only [wp_get]
  split
  · exact ⟨h1, h2⟩
  · rename_i v hv
    split
    · obtain ⟨hv1, hv2⟩ := ctxFind_some hv
      obtain ⟨w, hw, hs⟩ := h2.mem hv1
      obtain ⟨hu1, hu2⟩ := find_live hu
      have : w = u := conn_inj hn hw hu1 (by rw [← hs.conn, hv2])
      subst this
      have hvp : v.ptr = p := by rw [hs.ptr, hu2]
      rw [hvp]
      refine wp_mono (wp_and (F := anyF) (F' := anyF) (po_freeUe p s1) (eff_freeUe (some p) s1)) fun _ s2 h => ?_
      exact ⟨h1.trans h.1, h2.trans h.2.ues⟩
    · exact ⟨h1, h2⟩

theorem ueNext_of {s : State} {A B : List Ptr} {p : Ptr} (h : ptrs s = A ++ p :: B) (hA : p ∉ A) :
    ueNext s p = B.head? := by
  unfold ptrs at h
  obtain ⟨la, lb, he, ha, hb⟩ := List.map_eq_append_iff.1 h
  obtain ⟨u, lc, rfl, hup, hc⟩ := List.map_eq_cons_iff.1 hb
  have hd : s.ues.dropWhile (·.ptr ≠ p) = u :: lc := by
    rw [he, List.dropWhile_append_of_pos]
    · simp [hup]
    · intro x hx
      have hne : x.ptr ≠ p := by
        intro hh; exact hA (by rw [← ha]; exact List.mem_map.2 ⟨x, hx, hh⟩)
      simpa using hne
  unfold ueNext
  rw [hd]
  subst hc
  cases lc <;> rfl

theorem ptrsOwn_next {s s' : State} {A B : List Ptr} {p q : Ptr} (h : ptrs s = A ++ p :: q :: B)
    (hn : (ptrs s).Nodup) (ho : PtrsOwn p s s') : ∃ A', ptrs s' = A' ++ q :: B := by
  rcases ho with ho | ho
  · exact ⟨A ++ [p], by rw [ho, h]; simp⟩
  · rw [h] at hn
    have hpB : p ∉ q :: B := (List.nodup_cons.1 (List.nodup_append.1 hn).2.1).1
    refine ⟨A.filter (· ≠ p), ?_⟩
    rw [ho, h, List.filter_append, List.filter_cons_of_neg (by simp)]
    congr 1
    rw [List.filter_eq_self]
    intro x hx
    have : x ≠ p := fun hh => hpB (hh ▸ hx)
    simpa using this

theorem UeRel.nodupP {l l' : List Ue} (h : UeRel l l') (hn : (l.map (·.ptr)).Nodup) : (l'.map (·.ptr)).Nodup :=
  h.ptrs.nodup hn
theorem UeRel.nodupC {l l' : List Ue} (h : UeRel l l') (hn : (l.map (·.conn)).Nodup) : (l'.map (·.conn)).Nodup :=
  h.conns.nodup hn

theorem wp_weak {α : Type} {F F' : Fault → Prop} {m : M α} {Q Q' : α → State → Prop} {s : State}
    (h : wp F m Q s) (h' : wp F' m Q' s) : wp F m (fun a s' => Q a s' ∧ Q' a s') s := wp_and h h'

theorem sf_ueLoop {F : Fault → Prop} (hc : CallbacksOk env) (hl : LinkOk env) (rnc : Ptr) :
    ∀ (B : List Ptr) (p : Ptr) (fuel : Nat) (s : State) (A : List Ptr), ptrs s = A ++ p :: B → (ptrs s).Nodup →
      (s.ues.map (·.conn)).Nodup → B.length < fuel →
      wp F (ueLoop env rnc fuel p) (fun _ s' => UeRel s.ues s'.ues) s := by
  intro B
  induction B with
  | nil =>
    intro p fuel s A h hn hcn hf
    match fuel, hf with
    | fuel + 1, _ =>
      have hpA : p ∉ A := by
        rw [h] at hn
        intro hp
        exact (List.nodup_append.1 hn).2.2 p hp p (by simp) rfl
      have hlive : Live s p := mem_ptrs.1 (by rw [h]; simp)
      unfold ueLoop
      simp only [wp_bind]
      refine sf_deref hlive fun u hu => ?_
      simp only [wp_get, ueNext_of h hpA, List.head?_nil]
      split
      · simp only [wp_bind, wp_pure]
        exact wp_mono (wp_weak (sf_linkInvalidatedFree hc hlive) (po_linkInvalidatedFree hl p s hcn))
          fun _ _ h => h.2.2
      · exact UeRel.refl _
  | cons q B ih =>
    intro p fuel s A h hn hcn hf
    match fuel, hf with
    | fuel + 1, hf =>
      have hpA : p ∉ A := by
        rw [h] at hn
        intro hp
        exact (List.nodup_append.1 hn).2.2 p hp p (by simp) rfl
      have hlive : Live s p := mem_ptrs.1 (by rw [h]; simp)
      unfold ueLoop
      simp only [wp_bind]
      refine sf_deref hlive fun u hu => ?_
      simp only [wp_get, ueNext_of h hpA, List.head?_cons]
      have hf' : B.length < fuel := by simpa using hf
      split
      · rw [wp_bind]
        refine wp_mono (wp_weak (sf_linkInvalidatedFree hc hlive) (po_linkInvalidatedFree hl p s hcn)) ?_
        rintro _ s1 ⟨_, h1, h2⟩
        obtain ⟨A', h3⟩ := ptrsOwn_next h hn h1
        exact wp_mono (ih q fuel s1 A' h3 (h2.nodupP hn) (h2.nodupC hcn) hf') fun _ _ h4 => h2.trans h4
      · exact ih q fuel s (A ++ [p]) (by rw [h]; simp) hn hcn hf'

theorem sf_rncLoop {F : Fault → Prop} (hc : CallbacksOk env) (hl : LinkOk env) (hit : SccpAddr → Bool) (l : List Rnc)
    (s : State) (hn : (ptrs s).Nodup) (hcn : (s.ues.map (·.conn)).Nodup) :
    wp F (rncLoop env hit l) (fun _ _ => True) s := by
  induction l generalizing s with
  | nil => trivial
  | cons r l ih =>
    unfold rncLoop
    simp only [wp_bind]
    split
    · unfold ueForEachSafe
      simp only [wp_bind, wp_get]
      split
      · exact ih s hn hcn
      · rename_i u us hus
        refine wp_mono (sf_ueLoop hc hl r.ptr (us.map (·.ptr)) u.ptr s.ues.length s [] (by simp [ptrs, hus]) hn hcn
          (by simp [hus])) fun _ s1 h => ?_
        exact ih s1 (h.nodupP hn) (h.nodupC hcn)
    · exact ih s hn hcn

/-- A step either succeeds or fails because of what a received message contains. -/
theorem sf_step (hc : CallbacksOk env) (hl : LinkOk env) {op : Op} {s : State} (hi : Inv s) (hci : CInv s)
    (ho : OpOk env s op) :
    wp (fun e => ∃ m, opMsg env op = some m ∧ Hazard env m e) (step env op) (fun _ _ => True) s := by
  have hrx : ∀ (h : Msg → M Unit) (d : Bytes) (s : State), opMsg env op = env.decodeCo d →
      (∀ m, wp (Hazard env m) (h m) (fun _ _ => True) s) →
      wp (fun e => ∃ m, opMsg env op = some m ∧ Hazard env m e) (rxCo env h d) (fun _ _ => True) s := by
    intro h d s hm hh
    unfold rxCo
    cases hd : env.decodeCo d with
    | none => trivial
    | some m =>
      simp only [wp_bind, wp_pure]
      exact wp_monoF (hh m) fun e he => ⟨m, by rw [hm, hd], he⟩
  cases op with
  | connectConf => trivial
  | otherInd => trivial
  | connectInd c a d =>
    unfold step
    simp only [wp_bind, wp_sapDown]
    by_cases hd : d.length = 0
    · rw [if_pos hd]; unfold cacheAdd; simp
    · rw [if_neg hd]
      exact hrx _ d _ (if_neg (fun h => hd (by simp [h]))) fun m => sf_handleCoInitial hc
  | disconnectInd c d =>
    unfold step cacheDel
    simp only [wp_bind, wp_modify, wp_get]
    split
    · trivial
    · rename_i u hu
      have htail : ∀ (rc : Int) (s1 : State), wp (fun e => ∃ m, opMsg env (.disconnectInd c d) = some m ∧ Hazard env m e)
          (do let s ← M.get
              match ctxFind s c with
              | none => pure rc
              | some u => do linkInvalidatedFree env u.ptr; pure rc) (fun _ _ => True) s1 := by
        intro rc s1
        simp only [wp_bind, wp_get]
        split
        · trivial
        · rename_i v hv
          simp only [wp_bind, wp_pure]
          exact sf_linkInvalidatedFree hc ⟨v, (ctxFind_some hv).1, rfl⟩
      have hlive : Live (uncached s c) u.ptr := ⟨u, (ctxFind_some hu).1, rfl⟩
      split
      · rename_i hd
        have hd' : d ≠ [] := by rintro rfl; simp at hd
        rw [wp_bind]
        refine wp_mono (hrx (handleCo env u.ptr) d (uncached s c) (if_neg hd') fun m => sf_handleCo hc hlive) ?_
        intro rc s1 _
        exact htail rc s1
      · exact htail 0 (uncached s c)
  | dataInd c d =>
    unfold step
    simp only [wp_bind, wp_get]
    split
    · split
      · trivial
      · unfold cacheDel
        simp only [wp_bind, wp_modify]
        exact hrx _ d _ rfl fun m => sf_handleCoInitial hc
    · rename_i u hu
      exact hrx _ d _ rfl fun m => sf_handleCo hc ⟨u, (ctxFind_some hu).1, rfl⟩
  | unitdataInd a d =>
    have he : step env (.unitdataInd a d) = (match env.decodeCl d with
      | none => pure (-1)
      | some m => do handleCl env a m; pure 0 : M Int) := rfl
    rw [he]
    cases hd : env.decodeCl d with
    | none => trivial
    | some m =>
      simp only [wp_bind, wp_pure]
      exact wp_monoF sf_handleCl fun e h => ⟨m, hd, h⟩
  | noticeInd a c =>
    unfold step handleNotice
    simp only [wp_bind]
    split
    · trivial
    · simp only [wp_bind, wp_get, wp_pure]
      exact sf_rncLoop hc hl _ _ s hi.ueNodup hci.conns
  | pcstateInd a b c =>
    unfold step handlePcstate
    simp only [wp_bind]
    split
    · simp only [wp_bind, wp_get, wp_pure]
      exact sf_rncLoop hc hl _ _ s hi.ueNodup hci.conns
    · trivial
  | timer p =>
    unfold step
    simp only [wp_bind, wp_get]
    split
    · rename_i h
      simp only [wp_bind, wp_modify, wp_pure]
      obtain ⟨t, ht, htp⟩ := List.any_eq_true.1 h
      obtain ⟨u, hu, hup, _⟩ := hi.tLive t ht
      exact sf_iuEvent hc ⟨u, hu, by rw [hup]; simpa using htp⟩
    · trivial
  | api a => exact sf_runApi ho

theorem run_safe (hc : CallbacksOk env) (hl : LinkOk env) {ops : List Op} {s : State} (hi : Inv s) (hci : CInv s)
    (hr : RunOk env s ops) :
    wp (fun e => ∃ op ∈ ops, ∃ m, opMsg env op = some m ∧ Hazard env m e) (run env ops) (fun _ _ => True) s := by
  induction ops generalizing s with
  | nil => trivial
  | cons op ops ih =>
    show wp _ (do let _ ← step env op; run env ops) _ s
    rw [wp_bind]
    have h1 := sf_step hc hl hi hci hr.1
    unfold wp at h1 ⊢
    cases hs : step env op s with
    | fault e =>
      rw [hs] at h1
      obtain ⟨m, hm⟩ := h1
      exact ⟨op, List.mem_cons_self, m, hm⟩
    | ok x =>
      obtain ⟨rc, s1⟩ := x
      have hf : ∀ c a d, op = .connectInd c a d → ¬ InUse s c := by
        rintro c a d rfl; exact hr.1
      have := ih (step_inv hs hi) (step_cinv hs hci hf) (hr.2 rc s1 hs)
      refine wp_monoF this ?_
      rintro e ⟨o, ho, h⟩
      exact ⟨o, List.mem_cons_of_mem _ ho, h⟩

end Verif.Iu
