import Verif.Spec.IuMem
import Verif.Proofs.IuDialogue
import Verif.Proofs.IuHist

/-!
# Memory of the Iu client: every block belongs to a record, every record has its block
-/

namespace Verif.Iu

open Verif.Iu.Spec

variable {env : Env}

/-! ## Counting -/

theorem kinds_length {α : Type} {R : α → α → Prop} [DecidableRel R] (hs : ∀ a b, R a b → R b a)
    (ht : ∀ a b c, R a b → R b c → R a c) :
    ∀ (B A : List α), A.Pairwise (fun a b => ¬ R a b) → (∀ b ∈ B, ∃ a ∈ A, R a b) → (∀ a ∈ A, ∃ b ∈ B, R a b) →
      A.length = kinds R B := by
  intro B
  induction B with
  | nil =>
    intro A _ _ h
    cases A with
    | nil => rfl
    | cons a A => obtain ⟨b, hb, _⟩ := h a List.mem_cons_self; cases hb
  | cons b B ih =>
    intro A hA h1 h2
    unfold kinds
    by_cases hb : ∃ b' ∈ B, R b b'
    · rw [if_pos hb, Nat.zero_add]
      refine ih A hA (fun b' h => h1 b' (List.mem_cons_of_mem _ h)) ?_
      intro a ha
      obtain ⟨b', hb', hr⟩ := h2 a ha
      rcases List.mem_cons.1 hb' with rfl | hb'
      · obtain ⟨b2, hb2, hr2⟩ := hb
        exact ⟨b2, hb2, ht _ _ _ hr hr2⟩
      · exact ⟨b', hb', hr⟩
    · rw [if_neg hb]
      obtain ⟨a, ha, hab⟩ := h1 b List.mem_cons_self
      obtain ⟨A1, A2, rfl⟩ := List.append_of_mem ha
      rw [List.pairwise_append, List.pairwise_cons] at hA
      obtain ⟨p1, ⟨p2, p3⟩, p4⟩ := hA
      have := ih (A1 ++ A2) (List.pairwise_append.2 ⟨p1, p3, fun x hx y hy => p4 x hx y (List.mem_cons_of_mem _ hy)⟩) ?_ ?_
      · rw [← this]; simp only [List.length_append, List.length_cons]; omega
      · intro b' hb'
        obtain ⟨a', ha', hr⟩ := h1 b' (List.mem_cons_of_mem _ hb')
        refine ⟨a', ?_, hr⟩
        rcases List.mem_append.1 ha' with h | h
        · exact List.mem_append_left _ h
        · rcases List.mem_cons.1 h with rfl | h
          · exact absurd ⟨b', hb', ht _ _ _ (hs _ _ hab) hr⟩ hb
          · exact List.mem_append_right _ h
      · intro a' ha'
        have hne : ¬ R a' b := by
          intro hr
          rcases List.mem_append.1 ha' with h | h
          · exact p4 a' h a List.mem_cons_self (ht _ _ _ hr (hs _ _ hab))
          · exact p2 a' h (ht _ _ _ hab (hs _ _ hr))
        obtain ⟨b', hb', hr⟩ := h2 a' (by
          rcases List.mem_append.1 ha' with h | h
          · exact List.mem_append_left _ h
          · exact List.mem_append_right _ (List.mem_cons_of_mem _ h))
        rcases List.mem_cons.1 hb' with rfl | hb'
        · exact absurd hr hne
        · exact ⟨b', hb', hr⟩

/-! ## The invariant -/

/-- Number of area entries. -/
def areaCount (l : List Rnc) : Nat := (l.flatMap (·.areas)).length

/-- Blocks are the records. -/
structure MInv (s : State) : Prop where
  ues : PInv s
  reg : RInv s.rncs s.next
  bal : s.blocks = s.ues.length + s.cache.length + s.rncs.length + areaCount s.rncs

theorem MInv.init : MInv init :=
  ⟨⟨List.nodup_nil, by simp [Iu.init]⟩, RInv.nil, rfl⟩

theorem reg2_len {l : List Rnc} {n : Ptr} {p : Ptr} {rai : Rai} (h : RInv l n) (hp : ∃ r ∈ l, r.ptr = p) :
    (reg2 l p rai).1.length = l.length ∧
    areaCount (reg2 l p rai).1 = areaCount l + (match areaFind l rai with | some _ => 0 | none => 1) := by
  unfold reg2
  cases ha : areaFind l rai with
  | none =>
    refine ⟨by simp [addArea], ?_⟩
    have := (addArea_perm (e := rai) h.nodup hp).length_eq
    simpa [areaCount] using this
  | some oe =>
    obtain ⟨old, e⟩ := oe
    obtain ⟨ho, he, _⟩ := areaFind_some ha
    simp only
    split
    · refine ⟨by simp [addArea, delArea], ?_⟩
      have h1 := (delArea_perm h.nodup ho he).length_eq
      have h2 := (addArea_perm (e := e) (delArea_inv h ho he).1.nodup (mem_delArea_ptr (q := old.ptr) (rai := rai) hp)).length_eq
      simp only [areaCount, List.length_cons] at *
      omega
    · exact ⟨rfl, rfl⟩

theorem reg1_len (s : State) (id : RncId) (addr : SccpAddr) :
    (reg1 env s id addr).1.length = s.rncs.length + (match rncIdFind s id with | some _ => 0 | none => 1) ∧
    areaCount (reg1 env s id addr).1 = areaCount s.rncs := by
  unfold reg1
  cases hf : rncIdFind s id with
  | none => exact ⟨rfl, by simp [areaCount]⟩
  | some r =>
    simp only
    split
    · refine ⟨by simp, ?_⟩
      unfold areaCount
      rw [flatMap_keep]
      intro r _; split <;> rfl
    · exact ⟨rfl, rfl⟩

theorem Atom.minv {l : Lbl} {s s' : State} (ha : Atom env l s s') (h : MInv s) : MInv s' := by
  refine ⟨ha.pinv h.ues, ?_, ?_⟩
  · cases ha
    case register id rai addr =>
      obtain ⟨h1, ⟨r, hr, hrp, _⟩, _⟩ := reg1_inv (env := env) id addr h.reg
      exact reg2_inv h1 ⟨r, hr, hrp⟩
    case alloc rnc c ra => exact h.reg.mono (Nat.le_succ _)
    all_goals exact h.reg
  · have hb := h.bal
    cases ha
    case free u hf =>
      have hm := List.mem_of_find?_eq_some hf
      obtain ⟨A, B, hAB⟩ := List.append_of_mem hm
      have := mid_filter (u := u) (A := A) (B := B) (by rw [← hAB]; exact h.ues.nodup)
      simp only [freeSt]
      rw [hAB, this]
      rw [hAB] at hb
      simp only [List.length_append, List.length_cons] at *
      omega
    case release u c t hf =>
      simp only [releaseSt, markSt, List.length_map]
      exact hb
    case register id rai addr =>
      obtain ⟨h1, ⟨r, hr, hrp, _⟩, _⟩ := reg1_inv (env := env) id addr h.reg
      obtain ⟨k1, k2⟩ := reg2_len (rai := rai) h1 ⟨r, hr, hrp⟩
      obtain ⟨k3, k4⟩ := reg1_len (env := env) s id addr
      simp only [regState, regBlocks]
      rw [k1, k2, k3, k4]
      cases areaFind (reg1 env s id addr).1 rai <;> cases rncIdFind s id <;> simp only <;> omega
    case alloc rnc c ra =>
      rw [allocSt_ues h.ues]
      simp only [allocSt, List.length_cons]
      omega
    case cacheAdd c a => simp only [List.length_cons]; omega
    case cacheDel c =>
      by_cases hx : s.cache.any (·.1 = c) = true
      · simp only [hx, if_true, List.length_eraseP]
        have : 0 < s.cache.length := by
          cases hc : s.cache with
          | nil => rw [hc] at hx; cases hx
          | cons _ _ => simp
        omega
      · simp only [hx, if_false, List.length_eraseP]
        simpa using hb
    all_goals exact hb

theorem Path.minv {ls : List Lbl} {s s' : State} (hp : Path env ls s s') (h : MInv s) : MInv s' := by
  induction hp with
  | nil => exact h
  | cons ha _ ih => exact ih (ha.minv h)

theorem run_minv {ops : List Op} {s : State} (h : run env ops init = .ok ((), s)) : MInv s := by
  obtain ⟨ls, hp⟩ := run_path h
  exact hp.minv MInv.init

theorem run_join {ops later : List Op} {s0 s s' : State} (h : run env ops s0 = .ok ((), s)) (h' : run env later s = .ok ((), s')) :
    run env (ops ++ later) s0 = .ok ((), s') := by
  induction ops generalizing s0 with
  | nil => cases h; exact h'
  | cons op ops ih =>
    obtain ⟨rc, s1, h1, h2⟩ := bind_ok.1 h
    exact bind_ok.2 ⟨rc, s1, h1, ih h2⟩

end Verif.Iu
