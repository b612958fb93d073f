import Verif.Proofs.IuFlow

/-!
# With a user that does nothing in callbacks, loss of the link frees only marked contexts
-/

namespace Verif.Iu
open Spec

variable {env : Env}

/-- Contexts are only removed, and only marked ones. -/
structure Keep (s s' : State) : Prop where
  sub : s'.ues.Sublist s.ues
  keep : ∀ u ∈ s.ues, u.freeOnRelease = false → u ∈ s'.ues

theorem Keep.refl (s : State) : Keep s s := ⟨.refl _, fun _ h _ => h⟩
theorem Keep.trans {a b c : State} (h : Keep a b) (h' : Keep b c) : Keep a c :=
  ⟨h'.sub.trans h.sub, fun u hu hm => h'.keep u (h.keep u hu hm) hm⟩

theorem keep_link (hin : Inert env) {s s' : State} {p : Ptr} (hn : (s.ues.map (·.ptr)).Nodup)
    (h : linkInvalidatedFree env p s = .ok ((), s')) : Keep s s' := by
  unfold linkInvalidatedFree at h
  cases hf : s.ues.find? (·.ptr = p) with
  | none => simp [bind_eq, deref, hf] at h
  | some u =>
    have hev : ∃ t, iuEvent env (some p) .linkInvalidated s = .ok ((), { s with trace := t }) := by
      unfold iuEvent
      cases he : env.hasEventCb
      · exact ⟨s.trace, by simp [pure_run]⟩
      · cases hn : u.notification
        · exact ⟨s.trace, by simp [bind_eq, deref, hf, hn, pure_run]⟩
        · exact ⟨s.trace ++ [.event (some (p, u.conn)) .linkInvalidated], by simp [bind_eq, deref, hf, hn, callback_inert hin]⟩
    obtain ⟨t, ht⟩ := hev
    simp only [bind_eq, deref, hf, ht, get_run] at h
    cases hc : ctxFind { s with trace := t } u.conn with
    | none => rw [hc] at h; cases h; exact ⟨.refl _, fun _ h _ => h⟩
    | some v =>
      rw [hc] at h
      have hv : v ∈ s.ues := (ctxFind_some hc).1
      simp only at h
      cases hm : v.freeOnRelease with
      | false => rw [hm] at h; cases h; exact ⟨.refl _, fun _ h _ => h⟩
      | true =>
        rw [hm] at h
        cases hx : s.ues.find? (·.ptr = v.ptr) with
        | none => simp [freeUe, bind_eq, deref, hx] at h
        | some w =>
          obtain ⟨hw1, hw2⟩ := find_live hx
          have := ue_inj hn hw1 hv hw2
          subst this
          simp only [freeUe, if_true, bind_eq, deref, hx, modify_run, sapDown, emit, get_run, pure_run] at h
          cases h
          refine ⟨List.filter_sublist, ?_⟩
          intro x hxm hxf
          refine List.mem_filter.2 ⟨hxm, ?_⟩
          simp only [decide_eq_true_eq, ne_eq]
          intro he
          rw [ue_inj hn hxm hv he, hm] at hxf
          cases hxf

theorem keep_ueLoop (hin : Inert env) (r : Ptr) (n : Nat) : ∀ {s s' : State} {p : Ptr}, (s.ues.map (·.ptr)).Nodup →
    ueLoop env r n p s = .ok ((), s') → Keep s s' := by
  induction n with
  | zero => intro s s' p _ h; cases h
  | succ n ih =>
    intro s s' p hn h
    unfold ueLoop at h
    obtain ⟨u, s1, h1, hk⟩ := bind_ok.1 h
    clear h
    have : s1 = s := by
      unfold deref at h1
      cases hf : s.ues.find? (·.ptr = p) with
      | none => simp [bind_eq, get_run, hf] at h1
      | some v => simp [bind_eq, get_run, hf] at h1; exact h1.2.symm
    subst this
    have h := hk
    rw [bind_eq, get_run] at h
    simp only at h
    by_cases hr : u.rnc = r
    · rw [if_pos hr] at h
      obtain ⟨_, s2, h2, h⟩ := bind_ok.1 h
      have k := keep_link hin hn h2
      cases hx : ueNext s1 p with
      | none => rw [hx] at h; cases h; exact k
      | some q => rw [hx] at h; exact k.trans (ih ((k.sub.map _).nodup hn) h)
    · rw [if_neg hr] at h
      cases hx : ueNext s1 p with
      | none => rw [hx] at h; cases h; exact .refl _
      | some q => rw [hx] at h; exact ih hn h

theorem keep_rncLoop (hin : Inert env) (hit : SccpAddr → Bool) (l : List Rnc) : ∀ {s s' : State}, (s.ues.map (·.ptr)).Nodup →
    rncLoop env hit l s = .ok ((), s') → Keep s s' := by
  induction l with
  | nil => intro s s' _ h; cases h; exact .refl _
  | cons r l ih =>
    intro s s' hn h
    unfold rncLoop at h
    split at h
    · obtain ⟨_, s1, h1, h⟩ := bind_ok.1 h
      have k : Keep s s1 := by
        unfold ueForEachSafe at h1
        simp only [bind_eq, get_run] at h1
        cases hu : s.ues with
        | nil => rw [hu] at h1; cases h1; exact .refl _
        | cons u us => rw [hu] at h1; exact keep_ueLoop hin _ _ hn h1
      exact k.trans (ih ((k.sub.map _).nodup hn) h)
    · exact ih hn h

end Verif.Iu
