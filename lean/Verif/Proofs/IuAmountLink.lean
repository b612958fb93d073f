import Verif.Proofs.IuAmount
import Verif.Proofs.IuInv

/-!
# How often the user is told that a link is lost
-/

namespace Verif.IuAmount
open Verif.Iu Verif.Iu.Spec

variable {env : Env}

theorem told_eff {s s' : State} (h : Eff s s') : told s' = told s := by
  obtain ⟨d, hd, hs⟩ := h.trace
  have : d.countP isTold = 0 := by
    rw [List.countP_eq_zero]
    intro o ho
    have := hs o ho
    cases o <;> simp_all [Out.isSap, isTold]
  unfold told
  rw [hd, List.countP_append, this, Nat.add_zero]

/-- The user is told of one link at most, and only if the context has its events on. -/
theorem link_free (p : Ptr) (s : State) :
    wp anyF (linkInvalidatedFree env p) (fun _ s' => UeRel s.ues s'.ues ∧
      ∀ u, s.ues.find? (·.ptr = p) = some u → told s' ≤ told s + u.notification.toNat) s := by
  unfold linkInvalidatedFree
  simp only [wp_bind]
  refine wp_mono (eff_deref p s) ?_
  rintro u s0 ⟨rfl, hu⟩
  have hev : wp anyF (iuEvent env (some p) .linkInvalidated) (fun _ s' => UeRel s0.ues s'.ues ∧ told s' ≤ told s0 + u.notification.toNat) s0 := by
    unfold iuEvent
    split
    · dsimp only
      simp only [wp_bind]
      refine wp_mono (eff_deref p s0) ?_
      rintro v s1 ⟨rfl, hv⟩
      rw [hu] at hv
      cases hv
      split
      next hn =>
        refine wp_mono (eff_callback _ s1) ?_
        intro _ s' he
        refine ⟨he.ues, ?_⟩
        rw [told_eff he, hn]
        unfold told
        rw [List.countP_append]
        exact Nat.le_refl _
      next => exact ⟨UeRel.refl _, Nat.le_add_right _ _⟩
    · exact ⟨UeRel.refl _, Nat.le_add_right _ _⟩
  refine wp_mono hev ?_
  rintro _ s1 ⟨h1, h2⟩
  have fin : ∀ {s' : State}, Eff s1 s' → UeRel s0.ues s'.ues ∧
      ∀ u, s0.ues.find? (·.ptr = p) = some u → told s' ≤ told s0 + u.notification.toNat := by
    intro s' he
    refine ⟨h1.trans he.ues, fun v hv => ?_⟩
    rw [hu] at hv
    cases hv
    rw [told_eff he]
    exact h2
  simp only [wp_get]
  split
  · exact fin (Eff.refl _)
  · split
    · exact wp_mono (eff_freeUe _ s1) fun _ _ he => fin he
    · exact fin (Eff.refl _)

/-- The contexts of an RNC with their events on. -/
def due (r : Ptr) (u : Ue) : Bool := decide (u.rnc = r) && u.notification

theorem due_mono {f : Ue → Bool} (hf : ∀ {u u' : Ue}, SameUe u u' → f u' = true → f u = true) {l l' : List Ue} (h : UeRel l l') :
    l'.countP f ≤ l.countP f := by
  induction h with
  | nil => exact Nat.le_refl _
  | drop u _ ih => exact Nat.le_trans ih (by rw [List.countP_cons]; exact Nat.le_add_right _ _)
  | @keep u u' l l' hs _ ih =>
    rw [List.countP_cons, List.countP_cons]
    have := hf hs
    cases h1 : f u' <;> cases h2 : f u <;> simp_all <;> omega

theorem due_same (r : Ptr) {u u' : Ue} (h : SameUe u u') (hd : due r u' = true) : due r u = true := by
  rcases h with rfl | rfl
  · exact hd
  · simp [due] at hd

theorem dropWhile_gone {l : List Ue} {q : Ptr} (h : q ∉ l.map (·.ptr)) : l.dropWhile (·.ptr ≠ q) = [] := by
  induction l with
  | nil => rfl
  | cons x l ih =>
    rw [List.map_cons, List.mem_cons, not_or] at h
    rw [List.dropWhile_cons, if_pos (by simpa using fun e => h.1 e.symm)]
    exact ih h.2

theorem suffix_mono (r q : Ptr) {l l' : List Ue} (h : UeRel l l') (hn : (l.map (·.ptr)).Nodup) :
    (l'.dropWhile (·.ptr ≠ q)).countP (due r) ≤ (l.dropWhile (·.ptr ≠ q)).countP (due r) := by
  induction h with
  | nil => exact Nat.le_refl _
  | @drop u l l' hr ih =>
    rw [List.map_cons, List.nodup_cons] at hn
    by_cases hq : u.ptr = q
    · rw [dropWhile_gone (l := l') fun h => hn.1 (hq ▸ hr.ptrs.subset h)]
      exact Nat.zero_le _
    · rw [List.dropWhile_cons (x := u), if_pos (by simpa using hq)]
      exact ih hn.2
  | @keep u u' l l' hs hr ih =>
    rw [List.map_cons, List.nodup_cons] at hn
    by_cases hq : u.ptr = q
    · rw [List.dropWhile_cons, List.dropWhile_cons, if_neg (by simpa [hs.ptr] using hq), if_neg (by simpa using hq)]
      exact due_mono (due_same r) (.keep hs hr)
    · rw [List.dropWhile_cons, List.dropWhile_cons, if_pos (by simpa [hs.ptr] using hq), if_pos (by simpa using hq)]
      exact ih hn.2

theorem suffix_next {p q : Ptr} {l m : List Ue} {u v : Ue} (hn : (l.map (·.ptr)).Nodup)
    (h : l.dropWhile (·.ptr ≠ p) = u :: v :: m) (hv : v.ptr = q) : l.dropWhile (·.ptr ≠ q) = v :: m := by
  induction l with
  | nil => cases h
  | cons x l ih =>
    rw [List.map_cons, List.nodup_cons] at hn
    by_cases hx : x.ptr = p
    · rw [List.dropWhile_cons, if_neg (by simpa using hx)] at h
      cases h
      have : u.ptr ≠ q := fun e => hn.1 (by rw [e, ← hv]; exact List.mem_cons_self ..)
      rw [List.dropWhile_cons, if_pos (by simpa using this), List.dropWhile_cons, if_neg (by simpa using hv)]
    · rw [List.dropWhile_cons, if_pos (by simpa using hx)] at h
      have hm : v ∈ l := (List.dropWhile_suffix _).subset (h ▸ List.mem_cons_of_mem _ (List.mem_cons_self ..))
      have : x.ptr ≠ q := fun e => hn.1 (by rw [e, ← hv]; exact List.mem_map_of_mem hm)
      rw [List.dropWhile_cons, if_pos (by simpa using this)]
      exact ih hn.2 h

theorem suffix_head {p : Ptr} {l : List Ue} {u : Ue} (h : l.find? (·.ptr = p) = some u) :
    ∃ m, l.dropWhile (·.ptr ≠ p) = u :: m := by
  induction l with
  | nil => cases h
  | cons x l ih =>
    by_cases hx : x.ptr = p
    · rw [List.find?_cons_of_pos (by simpa using hx)] at h
      cases h
      exact ⟨l, by rw [List.dropWhile_cons, if_neg (by simpa using hx)]⟩
    · rw [List.find?_cons_of_neg (by simpa using hx)] at h
      obtain ⟨m, hm⟩ := ih h
      exact ⟨m, by rw [List.dropWhile_cons, if_pos (by simpa using hx)]; exact hm⟩

theorem link_ueLoop (r : Ptr) : ∀ (n : Nat) (p : Ptr) (s : State), (s.ues.map (·.ptr)).Nodup →
    wp anyF (ueLoop env r n p) (fun _ s' => UeRel s.ues s'.ues ∧
      told s' ≤ told s + (s.ues.dropWhile (·.ptr ≠ p)).countP (due r)) s
  | 0, _, _, _ => trivial
  | n + 1, p, s, hn => by
    unfold ueLoop
    simp only [wp_bind]
    refine wp_mono (eff_deref p s) ?_
    rintro u s0 ⟨rfl, hu⟩
    obtain ⟨m, hm⟩ := suffix_head hu
    have rest : ∀ {s1 : State}, UeRel s0.ues s1.ues → told s1 ≤ told s0 + (due r u).toNat →
        wp anyF (match ueNext s0 p with
          | none => pure ()
          | some q => ueLoop env r n q) (fun _ s' => UeRel s0.ues s'.ues ∧
            told s' ≤ told s0 + (s0.ues.dropWhile (·.ptr ≠ p)).countP (due r)) s1 := by
      intro s1 h1 h2
      have hc : (s0.ues.dropWhile (·.ptr ≠ p)).countP (due r) = m.countP (due r) + (due r u).toNat := by
        rw [hm, List.countP_cons]
        cases due r u <;> rfl
      rw [hc]
      cases hx : ueNext s0 p with
      | none => exact ⟨h1, by omega⟩
      | some q =>
        unfold ueNext at hx
        rw [hm] at hx
        cases m with
        | nil => cases hx
        | cons v m =>
          injection hx with hx
          have hq := suffix_next hn hm hx
          have h3 := suffix_mono r q h1 hn
          rw [hq] at h3
          refine wp_mono (link_ueLoop r n q s1 (h1.ptrs.nodup hn)) ?_
          rintro _ s' ⟨h4, h5⟩
          exact ⟨h1.trans h4, by omega⟩
    simp only [wp_get]
    split
    next hr =>
      simp only [wp_bind]
      refine wp_mono (link_free p s0) ?_
      rintro _ s1 ⟨h1, h2⟩
      refine rest h1 ?_
      have := h2 u hu
      unfold due
      simpa [hr] using this
    next => exact rest (UeRel.refl _) (Nat.le_add_right _ _)

theorem link_ueForEach (r : Ptr) (s : State) (hn : (s.ues.map (·.ptr)).Nodup) :
    wp anyF (ueForEachSafe env r) (fun _ s' => UeRel s.ues s'.ues ∧ told s' ≤ told s + s.ues.countP (due r)) s := by
  unfold ueForEachSafe
  simp only [wp_bind, wp_get]
  split
  next => exact ⟨UeRel.refl _, Nat.le_add_right _ _⟩
  next u l hl =>
    refine wp_mono (link_ueLoop r _ _ s hn) ?_
    rintro _ s' ⟨h1, h2⟩
    refine ⟨h1, Nat.le_trans h2 ?_⟩
    exact Nat.add_le_add_left ((List.dropWhile_sublist _).countP_le) _

/-- The contexts of one of the RNCs, with their events on. -/
def dueAt (hit : SccpAddr → Bool) (l : List Rnc) (u : Ue) : Bool := u.notification && l.any fun r => decide (r.ptr = u.rnc) && hit r.addr

theorem countP_split {f g h : Ue → Bool} (hd : ∀ u, f u = true → g u = false) (hf : ∀ u, f u = true → h u = true)
    (hg : ∀ u, g u = true → h u = true) (l : List Ue) : l.countP f + l.countP g ≤ l.countP h := by
  induction l with
  | nil => exact Nat.le_refl _
  | cons u l ih =>
    simp only [List.countP_cons]
    have h1 := hd u
    have h2 := hf u
    have h3 := hg u
    cases hfu : f u <;> cases hgu : g u <;> cases hhu : h u <;> simp_all <;> omega

theorem link_rncLoop (hit : SccpAddr → Bool) : ∀ (l : List Rnc) (s : State), (l.map (·.ptr)).Nodup → (s.ues.map (·.ptr)).Nodup →
    wp anyF (rncLoop env hit l) (fun _ s' => told s' ≤ told s + s.ues.countP (dueAt hit l)) s
  | [], s, _, _ => Nat.le_add_right _ _
  | r :: l, s, hl, hn => by
    rw [List.map_cons, List.nodup_cons] at hl
    unfold rncLoop
    split
    next hr =>
      simp only [wp_bind]
      refine wp_mono (link_ueForEach r.ptr s hn) ?_
      rintro _ s1 ⟨h1, h2⟩
      refine wp_mono (link_rncLoop hit l s1 hl.2 (h1.ptrs.nodup hn)) ?_
      intro _ s' h3
      have h4 : s1.ues.countP (dueAt hit l) ≤ s.ues.countP (dueAt hit l) := due_mono (by
        rintro u u' (rfl | rfl) h
        · exact h
        · simp [dueAt] at h) h1
      have h5 : s.ues.countP (due r.ptr) + s.ues.countP (dueAt hit l) ≤ s.ues.countP (dueAt hit (r :: l)) := by
        refine countP_split ?_ ?_ ?_ _
        · intro u hu
          simp only [due, Bool.and_eq_true, decide_eq_true_eq] at hu
          simp only [dueAt, hu.2, Bool.true_and, List.any_eq_false]
          intro x hx
          simp only [Bool.and_eq_true, decide_eq_true_eq, not_and]
          intro e
          exact absurd (List.mem_map.2 ⟨x, hx, e.trans hu.1⟩) hl.1
        · intro u hu
          simp only [due, Bool.and_eq_true, decide_eq_true_eq] at hu
          simp [dueAt, hu.1, hu.2, hr]
        · intro u hu
          simp only [dueAt, Bool.and_eq_true, List.any_cons, Bool.or_eq_true] at hu ⊢
          exact ⟨hu.1, .inr hu.2⟩
      omega
    next =>
      refine wp_mono (link_rncLoop hit l s hl.2 hn) ?_
      intro _ s' h3
      refine Nat.le_trans h3 (Nat.add_le_add_left (List.countP_mono_left ?_) _)
      intro u _ hu
      simp only [dueAt, Bool.and_eq_true, List.any_cons, Bool.or_eq_true] at hu ⊢
      exact ⟨hu.1, .inr hu.2⟩

end Verif.IuAmount
