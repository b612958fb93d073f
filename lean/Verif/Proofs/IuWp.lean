import Verif.Model.IuClient

/-!
# Hoare rules for the Iu client

`wp F m Q s`: run `m` in `s`; on success `Q` holds of the result, and every fault that
may occur satisfies `F`.  `F = fun _ => True` is partial correctness, `F = fun _ => False`
is absence of faults.
-/

namespace Verif.Iu

variable {α β : Type}

def wp (F : Fault → Prop) (m : M α) (Q : α → State → Prop) (s : State) : Prop :=
  match m s with
  | .ok (a, s') => Q a s'
  | .fault e => F e

@[simp] theorem wp_pure {F : Fault → Prop} {a : α} {Q : α → State → Prop} {s : State} :
    wp F (pure a : M α) Q s ↔ Q a s := Iff.rfl

@[simp] theorem wp_bind {F : Fault → Prop} {m : M α} {f : α → M β} {Q : β → State → Prop} {s : State} :
    wp F (m >>= f) Q s ↔ wp F m (fun a s' => wp F (f a) Q s') s := by
  show (match M.bind m f s with | .ok (a, s') => Q a s' | .fault e => F e) ↔ _
  unfold wp M.bind
  rcases h : m s with ⟨a, s'⟩ | e
  · exact Iff.rfl
  · exact Iff.rfl

@[simp] theorem wp_get {F : Fault → Prop} {Q : State → State → Prop} {s : State} :
    wp F M.get Q s ↔ Q s s := Iff.rfl

@[simp] theorem wp_modify {F : Fault → Prop} {f : State → State} {Q : Unit → State → Prop} {s : State} :
    wp F (M.modify f) Q s ↔ Q () (f s) := Iff.rfl

@[simp] theorem wp_fault {F : Fault → Prop} {e : Fault} {Q : α → State → Prop} {s : State} :
    wp F (M.fault e : M α) Q s ↔ F e := Iff.rfl

@[simp] theorem wp_lift {F : Fault → Prop} {r : Res α} {Q : α → State → Prop} {s : State} :
    wp F (M.lift r) Q s ↔ (match r with | .ok a => Q a s | .fault e => F e) := by
  unfold wp M.lift; cases r <;> exact Iff.rfl

@[simp] theorem wp_emit {F : Fault → Prop} {o : Out} {Q : Unit → State → Prop} {s : State} :
    wp F (emit o) Q s ↔ Q () { s with trace := s.trace ++ [o] } := Iff.rfl

@[simp] theorem wp_sapDown {F : Fault → Prop} {env : Env} {p : Prim} {Q : Int → State → Prop} {s : State} :
    wp F (sapDown env p) Q s ↔
      Q (env.sapRc s p) { s with trace := s.trace ++ [.sap p (env.sapRc s p)] } := by
  unfold sapDown; simp

theorem wp_deref {F : Fault → Prop} {p : Ptr} {Q : Ue → State → Prop} {s : State} :
    wp F (deref p) Q s ↔
      (match s.ues.find? (·.ptr = p) with | some u => Q u s | none => F .useAfterFree) := by
  unfold wp deref
  cases s.ues.find? (·.ptr = p) <;> exact Iff.rfl

theorem wp_mono {F : Fault → Prop} {m : M α} {Q Q' : α → State → Prop} {s : State}
    (h : wp F m Q s) (hq : ∀ a s', Q a s' → Q' a s') : wp F m Q' s := by
  unfold wp at *; split at h <;> simp_all

theorem wp_monoF {F F' : Fault → Prop} {m : M α} {Q : α → State → Prop} {s : State}
    (h : wp F m Q s) (hf : ∀ e, F e → F' e) : wp F' m Q s := by
  unfold wp at *; split at h <;> simp_all

theorem wp_and {F F' : Fault → Prop} {m : M α} {Q Q' : α → State → Prop} {s : State}
    (h : wp F m Q s) (h' : wp F' m Q' s) : wp F m (fun a s' => Q a s' ∧ Q' a s') s := by
  unfold wp at *; split at h <;> simp_all

/-- A fact about the successful runs. -/
theorem wp_ok {F : Fault → Prop} {m : M α} {Q : α → State → Prop} {s s' : State} {a : α}
    (h : wp F m Q s) (hr : m s = .ok (a, s')) : Q a s' := by
  unfold wp at h; rw [hr] at h; exact h

theorem wp_of_ok {m : M α} {Q : α → State → Prop} {s : State}
    (h : ∀ a s', m s = .ok (a, s') → Q a s') : wp (fun _ => True) m Q s := by
  unfold wp
  split
  · exact h _ _ ‹_›
  · trivial

/-- No fault: the run succeeds. -/
theorem wp_safe {m : M α} {Q : α → State → Prop} {s : State}
    (h : wp (fun _ => False) m Q s) : ∃ a s', m s = .ok (a, s') ∧ Q a s' := by
  unfold wp at h
  split at h
  · exact ⟨_, _, ‹_›, h⟩
  · exact h.elim

theorem bind_ok {m : M α} {f : α → M β} {s s' : State} {b : β} :
    (m >>= f) s = .ok (b, s') ↔ ∃ a s1, m s = .ok (a, s1) ∧ f a s1 = .ok (b, s') := by
  show M.bind m f s = _ ↔ _
  unfold M.bind
  rcases h : m s with ⟨a, s1⟩ | e
  · exact ⟨fun h' => ⟨a, s1, rfl, h'⟩, by rintro ⟨a', s1', h1, h2⟩; cases h1; exact h2⟩
  · exact ⟨fun h' => (nomatch h'), by rintro ⟨a', s1', h1, h2⟩; cases h1⟩

theorem bind_eq (m : M α) (f : α → M β) (s : State) :
    (m >>= f) s = (match m s with | .ok (a, s') => f a s' | .fault e => .fault e) := rfl

theorem lift_ok_run (a : α) (s : State) : M.lift (.ok a : Res α) s = .ok (a, s) := rfl
theorem lift_fault_run (e : Fault) (s : State) : M.lift (.fault e : Res α) s = .fault e := rfl
theorem get_run (s : State) : M.get s = .ok (s, s) := rfl
theorem modify_run (f : State → State) (s : State) : M.modify f s = .ok ((), f s) := rfl
theorem pure_run (a : α) (s : State) : (pure a : M α) s = .ok (a, s) := rfl

end Verif.Iu
