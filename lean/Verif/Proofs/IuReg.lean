import Verif.Proofs.IuEff
import Verif.Spec.Iu

/-!
# The RNC registry: invariant and effect of a registration
-/

namespace Verif.Iu
open Spec

variable {env : Env}

/-! ## The comparison functions are the specified equivalences -/

theorem plmnEq_iff {a b : Plmn} : plmnEq a b = true ↔ SamePlmn a b := by
  unfold plmnEq mncEq SamePlmn
  simp only [Bool.and_eq_true, decide_eq_true_eq, Bool.or_eq_true, Bool.not_eq_true',
    decide_eq_false_iff_not]
  constructor
  · rintro ⟨h1, h2, h3⟩; exact ⟨h1, h2, fun h => h3.resolve_left (fun hn => hn h)⟩
  · rintro ⟨h1, h2, h3⟩
    refine ⟨h1, h2, ?_⟩
    by_cases h : a.mnc < 100
    · exact .inr (h3 h)
    · exact .inl h

theorem laiEq_iff {a b : Verif.Lai} : laiEq a b = true ↔ SameLai a b := by
  unfold laiEq SameLai; simp [plmnEq_iff]
theorem raiEq_iff {a b : Rai} : raiEq a b = true ↔ SameArea a b := by
  unfold raiEq SameArea; simp [laiEq_iff]
theorem rncIdEq_iff {a b : RncId} : rncIdEq a b = true ↔ SameRnc a b := by
  unfold rncIdEq SameRnc; simp [plmnEq_iff]

theorem Spec.SamePlmn.refl (a : Plmn) : SamePlmn a a := ⟨rfl, rfl, fun _ => rfl⟩
theorem Spec.SamePlmn.symm {a b : Plmn} (h : SamePlmn a b) : SamePlmn b a :=
  ⟨h.1.symm, h.2.1.symm, fun hh => (h.2.2 (h.2.1 ▸ hh)).symm⟩
theorem Spec.SamePlmn.trans {a b c : Plmn} (h : SamePlmn a b) (h' : SamePlmn b c) : SamePlmn a c :=
  ⟨h.1.trans h'.1, h.2.1.trans h'.2.1, fun hh => (h.2.2 hh).trans (h'.2.2 (h.2.1 ▸ hh))⟩
theorem Spec.SameLai.refl (a : Verif.Lai) : SameLai a a := ⟨SamePlmn.refl _, rfl⟩
theorem Spec.SameLai.symm {a b : Verif.Lai} (h : SameLai a b) : SameLai b a := ⟨h.1.symm, h.2.symm⟩
theorem Spec.SameLai.trans {a b c : Verif.Lai} (h : SameLai a b) (h' : SameLai b c) : SameLai a c :=
  ⟨h.1.trans h'.1, h.2.trans h'.2⟩
theorem Spec.SameArea.refl (a : Rai) : SameArea a a := ⟨SameLai.refl _, rfl⟩
theorem Spec.SameArea.symm {a b : Rai} (h : SameArea a b) : SameArea b a := ⟨h.1.symm, h.2.symm⟩
theorem Spec.SameArea.trans {a b c : Rai} (h : SameArea a b) (h' : SameArea b c) : SameArea a c :=
  ⟨h.1.trans h'.1, h.2.trans h'.2⟩
theorem Spec.SameRnc.refl (a : RncId) : SameRnc a a := ⟨SamePlmn.refl _, rfl⟩
theorem Spec.SameRnc.symm {a b : RncId} (h : SameRnc a b) : SameRnc b a := ⟨h.1.symm, h.2.symm⟩
theorem Spec.SameRnc.trans {a b c : RncId} (h : SameRnc a b) (h' : SameRnc b c) : SameRnc a c :=
  ⟨h.1.trans h'.1, h.2.trans h'.2⟩

/-! ## `iu_rnc_register` without its event -/

/-- First half: the RNC record. -/
def reg1 (env : Env) (s : State) (id : RncId) (addr : SccpAddr) : List Rnc × Ptr × Ptr :=
  match rncIdFind s id with
  | some r =>
    (if !sameSccpAddr env r.addr addr then
      s.rncs.map fun x => if x.ptr = r.ptr then { x with addr := addr } else x
     else s.rncs, r.ptr, s.next)
  | none => (⟨s.next, id, addr, []⟩ :: s.rncs, s.next, s.next + 1)

/-- `lacRacFind` on the list. -/
def areaFind (rncs : List Rnc) (rai : Rai) : Option (Rnc × Rai) :=
  rncs.findSome? fun r => (r.areas.find? fun e => raiEq e rai).map fun e => (r, e)

/-- Prepend an area to an RNC's list. -/
def addArea (p : Ptr) (e : Rai) (l : List Rnc) : List Rnc :=
  l.map fun r => if r.ptr = p then { r with areas := e :: r.areas } else r
/-- Remove the first matching area from an RNC's list. -/
def delArea (p : Ptr) (rai : Rai) (l : List Rnc) : List Rnc :=
  l.map fun r => if r.ptr = p then { r with areas := r.areas.eraseP fun x => raiEq x rai } else r

/-- Second half: the area. -/
def reg2 (l : List Rnc) (p : Ptr) (rai : Rai) : List Rnc × Bool :=
  match areaFind l rai with
  | some (old, e) => if old.ptr ≠ p then (addArea p e (delArea old.ptr rai l), true) else (l, false)
  | none => (addArea p rai l, true)

/-- The RNC record registered with. -/
def regPtr (env : Env) (s : State) (id : RncId) (addr : SccpAddr) : Ptr := (reg1 env s id addr).2.1
/-- Whether the mapping changes. -/
def regNew (env : Env) (s : State) (id : RncId) (rai : Rai) (addr : SccpAddr) : Bool :=
  (reg2 (reg1 env s id addr).1 (reg1 env s id addr).2.1 rai).2
/-- The blocks allocated after registration: one for a new RNC, one for a new area. -/
def regBlocks (env : Env) (s : State) (id : RncId) (rai : Rai) (addr : SccpAddr) : Int :=
  match areaFind (reg1 env s id addr).1 rai with
  | some _ => (match rncIdFind s id with | some _ => s.blocks | none => s.blocks + 1)
  | none => (match rncIdFind s id with | some _ => s.blocks | none => s.blocks + 1) + 1
/-- The state after registration, before the event. -/
def regState (env : Env) (s : State) (id : RncId) (rai : Rai) (addr : SccpAddr) : State :=
  { s with rncs := (reg2 (reg1 env s id addr).1 (reg1 env s id addr).2.1 rai).1,
           next := (reg1 env s id addr).2.2, blocks := regBlocks env s id rai addr }

/-- The event of a registration. -/
def regEvent (env : Env) (s : State) (id : RncId) (rai : Rai) (addr : SccpAddr) : M Unit :=
  if regNew env s id rai addr then iuEventNewArea env id rai else pure ()

theorem rncRegister_eq (id : RncId) (rai : Rai) (addr : SccpAddr) (s : State) :
    rncRegister env id rai addr s =
      (regEvent env s id rai addr >>= fun _ => pure (regPtr env s id addr)) (regState env s id rai addr) := by
  unfold rncRegister regEvent regNew regPtr regState regBlocks reg1
  cases hf : rncIdFind s id with
  | some r =>
    cases hs : sameSccpAddr env r.addr addr with
    | true =>
      simp only [bind_eq, get_run, hf, hs]
      simp only [Bool.not_true, Bool.false_eq_true, if_false, pure_run, bind_eq]
      unfold reg2
      simp only [get_run, show lacRacFind s rai = areaFind s.rncs rai from rfl]
      cases ha : areaFind s.rncs rai with
      | none => rfl
      | some oe =>
        obtain ⟨old, e⟩ := oe
        by_cases hp : old.ptr = r.ptr
        · simp only [hp, ne_eq, not_true_eq_false, if_false]; rfl
        · simp only [hp, ne_eq, not_false_eq_true, if_true]; rfl
    | false =>
      simp only [bind_eq, get_run, hf, hs]
      simp only [Bool.not_false, if_true, bind_eq, pure_run, updRnc, modify_run, get_run]
      unfold reg2
      simp only [lacRacFind]
      rw [show (List.findSome? _ _ : Option (Rnc × Rai)) = areaFind (List.map (fun x => if x.ptr = r.ptr then { x with addr := addr } else x) s.rncs) rai from rfl]
      cases ha : areaFind (List.map (fun x => if x.ptr = r.ptr then { x with addr := addr } else x) s.rncs) rai with
      | none => rfl
      | some oe =>
        obtain ⟨old, e⟩ := oe
        by_cases hp : old.ptr = r.ptr
        · simp only [hp, ne_eq, not_true_eq_false, if_false]; rfl
        · simp only [hp, ne_eq, not_false_eq_true, if_true]; rfl
  | none =>
    simp only [bind_eq, get_run, hf, rncAlloc, modify_run, pure_run]
    unfold reg2
    simp only [lacRacFind]
    rw [show (List.findSome? _ _ : Option (Rnc × Rai)) = areaFind (⟨s.next, id, addr, []⟩ :: s.rncs) rai from rfl]
    cases ha : areaFind (⟨s.next, id, addr, []⟩ :: s.rncs) rai with
    | none => rfl
    | some oe =>
      obtain ⟨old, e⟩ := oe
      by_cases hp : old.ptr = s.next
      · simp only [hp, ne_eq, not_true_eq_false, if_false]; rfl
      · simp only [hp, ne_eq, not_false_eq_true, if_true]; rfl

/-! ## Registry invariant -/

structure RInv (l : List Rnc) (next : Ptr) : Prop where
  nodup : (l.map (·.ptr)).Nodup
  lt : ∀ r ∈ l, r.ptr < next
  ids : l.Pairwise fun a b => ¬ SameRnc a.rncId b.rncId
  areas : (l.flatMap (·.areas)).Pairwise fun a b => ¬ SameArea a b

theorem RInv.nil : RInv [] 0 := ⟨List.nodup_nil, by simp, List.Pairwise.nil, List.Pairwise.nil⟩

theorem RInv.mono {l : List Rnc} {n n' : Ptr} (h : RInv l n) (hn : n ≤ n') : RInv l n' :=
  ⟨h.nodup, fun r hr => Nat.lt_of_lt_of_le (h.lt r hr) hn, h.ids, h.areas⟩

/-- Updating records in place keeps handles and ids. -/
theorem map_keep {l : List Rnc} {n : Ptr} {f : Rnc → Rnc} (hp : ∀ r, (f r).ptr = r.ptr)
    (hi : ∀ r, (f r).rncId = r.rncId) (h : RInv l n) :
    ((l.map f).map (·.ptr)).Nodup ∧ (∀ r ∈ l.map f, r.ptr < n) ∧
      (l.map f).Pairwise fun a b => ¬ SameRnc a.rncId b.rncId := by
  refine ⟨?_, ?_, ?_⟩
  · rw [List.map_map, show ((fun r : Rnc => r.ptr) ∘ f) = fun r => r.ptr from funext hp]; exact h.nodup
  · intro r hr
    obtain ⟨x, hx, rfl⟩ := List.mem_map.1 hr
    rw [hp]; exact h.lt x hx
  · rw [List.pairwise_map]; simp only [hi]; exact h.ids

theorem flatMap_keep {l : List Rnc} {f : Rnc → Rnc} (ha : ∀ r ∈ l, (f r).areas = r.areas) :
    (l.map f).flatMap (·.areas) = l.flatMap (·.areas) := by
  rw [List.flatMap_map]
  induction l with
  | nil => rfl
  | cons x l ih =>
    simp only [List.flatMap_cons]
    rw [ha x List.mem_cons_self, ih (fun r hr => ha r (List.mem_cons_of_mem _ hr))]

theorem ptr_inj {l : List Rnc} (h : (l.map (·.ptr)).Nodup) {a b : Rnc} (ha : a ∈ l) (hb : b ∈ l)
    (he : a.ptr = b.ptr) : a = b := by
  induction l with
  | nil => cases ha
  | cons x l ih =>
    simp only [List.map_cons, List.nodup_cons, List.mem_map, not_exists, not_and] at h
    rcases List.mem_cons.1 ha with rfl | ha' <;> rcases List.mem_cons.1 hb with rfl | hb'
    · rfl
    · exact absurd he.symm (h.1 b hb')
    · exact absurd he (h.1 a ha')
    · exact ih h.2 ha' hb'

theorem addArea_perm {l : List Rnc} {p : Ptr} {e : Rai} (hn : (l.map (·.ptr)).Nodup)
    (hp : ∃ r ∈ l, r.ptr = p) :
    ((addArea p e l).flatMap (·.areas)).Perm (e :: l.flatMap (·.areas)) := by
  induction l with
  | nil => obtain ⟨r, hr, _⟩ := hp; cases hr
  | cons x l ih =>
    have hn0 := hn
    simp only [List.map_cons, List.nodup_cons, List.mem_map, not_exists, not_and] at hn
    unfold addArea
    simp only [List.map_cons, List.flatMap_cons]
    by_cases hx : x.ptr = p
    · rw [if_pos hx]
      have : (l.map fun r => if r.ptr = p then { r with areas := e :: r.areas } else r) = l := by
        have h2 : ∀ r ∈ l, (if r.ptr = p then { r with areas := e :: r.areas } else r) = r := by
          intro r hr
          rw [if_neg]
          intro hh; exact hn.1 r hr (hh.trans hx.symm)
        rw [List.map_congr_left h2, List.map_id']
      rw [this]
      exact List.Perm.refl _
    · rw [if_neg hx]
      have hp' : ∃ r ∈ l, r.ptr = p := by
        obtain ⟨r, hr, hrp⟩ := hp
        rcases List.mem_cons.1 hr with rfl | hr
        · exact absurd hrp hx
        · exact ⟨r, hr, hrp⟩
      have := ih hn.2 hp'
      unfold addArea at this
      exact (List.Perm.append_left x.areas this).trans List.perm_middle

theorem eraseP_perm {α : Type} (f : α → Bool) (l : List α) (e : α) (h : l.find? f = some e) :
    (e :: l.eraseP f).Perm l := by
  induction l with
  | nil => cases h
  | cons x l ih =>
    rw [List.find?_cons] at h
    cases hx : f x with
    | true => rw [hx] at h; cases h; rw [List.eraseP_cons_of_pos hx]
    | false =>
      rw [hx] at h
      rw [List.eraseP_cons_of_neg (by rw [hx]; simp)]
      exact (List.Perm.swap x e _).trans ((ih h).cons x)

theorem delArea_perm {l : List Rnc} {old : Rnc} {e rai : Rai} (hn : (l.map (·.ptr)).Nodup)
    (ho : old ∈ l) (he : old.areas.find? (fun x => raiEq x rai) = some e) :
    (e :: (delArea old.ptr rai l).flatMap (·.areas)).Perm (l.flatMap (·.areas)) := by
  induction l with
  | nil => cases ho
  | cons x l ih =>
    have hn0 := hn
    simp only [List.map_cons, List.nodup_cons, List.mem_map, not_exists, not_and] at hn
    unfold delArea
    simp only [List.map_cons, List.flatMap_cons]
    by_cases hx : x.ptr = old.ptr
    · rw [if_pos hx]
      have hxo : x = old := ptr_inj hn0 List.mem_cons_self ho hx
      subst hxo
      have : (l.map fun r => if r.ptr = x.ptr then
          { r with areas := r.areas.eraseP fun y => raiEq y rai } else r) = l := by
        have h2 : ∀ r ∈ l, (if r.ptr = x.ptr then
          { r with areas := r.areas.eraseP fun y => raiEq y rai } else r) = r := by
          intro r hr
          rw [if_neg]
          intro hh; exact hn.1 r hr hh
        rw [List.map_congr_left h2, List.map_id']
      rw [this]
      exact (eraseP_perm _ _ _ he).append_right _
    · rw [if_neg hx]
      have ho' : old ∈ l := by
        rcases List.mem_cons.1 ho with rfl | ho
        · exact absurd rfl hx
        · exact ho
      have := ih hn.2 ho'
      unfold delArea at this
      exact List.perm_middle.symm.trans (List.Perm.append_left x.areas this)

theorem areaFind_some {l : List Rnc} {rai : Rai} {old : Rnc} {e : Rai}
    (h : areaFind l rai = some (old, e)) :
    old ∈ l ∧ old.areas.find? (fun x => raiEq x rai) = some e ∧ SameArea e rai := by
  unfold areaFind at h
  obtain ⟨r, hr, hm⟩ := List.exists_of_findSome?_eq_some h
  rw [Option.map_eq_some_iff] at hm
  obtain ⟨x, hx, hxe⟩ := hm
  cases hxe
  exact ⟨hr, hx, raiEq_iff.1 (by simpa using List.find?_some hx)⟩

theorem areaFind_none {l : List Rnc} {rai : Rai} :
    areaFind l rai = none ↔ ∀ r ∈ l, ¬ Serves r rai := by
  unfold areaFind Serves
  rw [List.findSome?_eq_none_iff]
  simp only [Option.map_eq_none_iff, List.find?_eq_none, raiEq_iff]
  constructor
  · intro h r hr ⟨e, he, hs⟩; exact h r hr e he hs
  · intro h r hr e he hs; exact h r hr ⟨e, he, hs⟩

theorem addArea_inv {l : List Rnc} {n : Ptr} {p : Ptr} {e : Rai} (h : RInv l n)
    (hp : ∃ r ∈ l, r.ptr = p) (hne : ∀ x ∈ l.flatMap (·.areas), ¬ SameArea e x) :
    RInv (addArea p e l) n := by
  have hk := map_keep (f := fun r : Rnc => if r.ptr = p then { r with areas := e :: r.areas } else r)
    (by intro r; split <;> rfl) (by intro r; split <;> rfl) h
  refine ⟨hk.1, hk.2.1, hk.2.2, ?_⟩
  have hperm := addArea_perm (e := e) h.nodup hp
  rw [hperm.pairwise_iff (fun hh hs => hh hs.symm)]
  exact List.Pairwise.cons hne h.areas

theorem delArea_inv {l : List Rnc} {n : Ptr} {old : Rnc} {e rai : Rai} (h : RInv l n)
    (ho : old ∈ l) (he : old.areas.find? (fun x => raiEq x rai) = some e) :
    RInv (delArea old.ptr rai l) n ∧ ∀ x ∈ (delArea old.ptr rai l).flatMap (·.areas), ¬ SameArea e x := by
  have hk := map_keep (f := fun r : Rnc => if r.ptr = old.ptr then
      { r with areas := r.areas.eraseP fun x => raiEq x rai } else r)
    (by intro r; split <;> rfl) (by intro r; split <;> rfl) h
  have hperm := delArea_perm h.nodup ho he
  have hpw := (hperm.pairwise_iff (R := fun a b => ¬ SameArea a b) (fun hh hs => hh hs.symm)).2 h.areas
  rw [List.pairwise_cons] at hpw
  exact ⟨⟨hk.1, hk.2.1, hk.2.2, hpw.2⟩, hpw.1⟩

theorem mem_delArea_ptr {l : List Rnc} {p q : Ptr} {rai : Rai} (h : ∃ r ∈ l, r.ptr = p) :
    ∃ r ∈ delArea q rai l, r.ptr = p := by
  obtain ⟨r, hr, hp⟩ := h
  refine ⟨_, List.mem_map.2 ⟨r, hr, rfl⟩, ?_⟩
  split <;> exact hp

theorem mem_addArea_ptr {l : List Rnc} {p q : Ptr} {e : Rai} (h : ∃ r ∈ l, r.ptr = p) :
    ∃ r ∈ addArea q e l, r.ptr = p := by
  obtain ⟨r, hr, hp⟩ := h
  refine ⟨_, List.mem_map.2 ⟨r, hr, rfl⟩, ?_⟩
  split <;> exact hp

theorem reg2_inv {l : List Rnc} {n : Ptr} {p : Ptr} {rai : Rai} (h : RInv l n)
    (hp : ∃ r ∈ l, r.ptr = p) : RInv (reg2 l p rai).1 n := by
  unfold reg2
  cases ha : areaFind l rai with
  | none =>
    refine addArea_inv h hp ?_
    rw [areaFind_none] at ha
    intro x hx hs
    obtain ⟨r, hr, hxr⟩ := List.mem_flatMap.1 hx
    exact ha r hr ⟨x, hxr, hs.symm⟩
  | some oe =>
    obtain ⟨old, e⟩ := oe
    obtain ⟨ho, he, _⟩ := areaFind_some ha
    simp only
    split
    · have := delArea_inv h ho he
      exact addArea_inv this.1 (mem_delArea_ptr hp) this.2
    · exact h

theorem reg2_ptr {l : List Rnc} {p q : Ptr} {rai : Rai} (hq : ∃ r ∈ l, r.ptr = q) :
    ∃ r ∈ (reg2 l p rai).1, r.ptr = q := by
  unfold reg2
  split
  · split
    · exact mem_addArea_ptr (mem_delArea_ptr hq)
    · exact hq
  · exact mem_addArea_ptr hq

theorem rncIdFind_some {s : State} {id : RncId} {r : Rnc} (h : rncIdFind s id = some r) :
    r ∈ s.rncs ∧ SameRnc r.rncId id :=
  ⟨List.mem_of_find?_eq_some h, rncIdEq_iff.1 (by simpa using List.find?_some h)⟩

theorem rncIdFind_none {s : State} {id : RncId} (h : rncIdFind s id = none) :
    ∀ r ∈ s.rncs, ¬ SameRnc r.rncId id := by
  unfold rncIdFind at h
  rw [List.find?_eq_none] at h
  intro r hr hs
  exact h r hr (rncIdEq_iff.2 hs)

theorem reg1_inv {s : State} (id : RncId) (addr : SccpAddr) (h : RInv s.rncs s.next) :
    RInv (reg1 env s id addr).1 (reg1 env s id addr).2.2 ∧
      (∃ r ∈ (reg1 env s id addr).1, r.ptr = (reg1 env s id addr).2.1 ∧ SameRnc r.rncId id) ∧
      s.next ≤ (reg1 env s id addr).2.2 ∧
      (∀ q, (∃ r ∈ s.rncs, r.ptr = q) → ∃ r ∈ (reg1 env s id addr).1, r.ptr = q) ∧
      (reg1 env s id addr).1.flatMap (·.areas) = s.rncs.flatMap (·.areas) := by
  unfold reg1
  cases hf : rncIdFind s id with
  | some r =>
    obtain ⟨hr, hs⟩ := rncIdFind_some hf
    simp only
    split
    · have hk := map_keep (f := fun x : Rnc => if x.ptr = r.ptr then { x with addr := addr } else x)
        (by intro r; split <;> rfl) (by intro r; split <;> rfl) h
      have hfm : (s.rncs.map fun x : Rnc => if x.ptr = r.ptr then { x with addr := addr } else x).flatMap
          (·.areas) = s.rncs.flatMap (·.areas) := flatMap_keep (by intro r _; split <;> rfl)
      refine ⟨⟨hk.1, hk.2.1, hk.2.2, by rw [hfm]; exact h.areas⟩, ?_, Nat.le_refl _, ?_, hfm⟩
      · refine ⟨_, List.mem_map.2 ⟨r, hr, rfl⟩, ?_⟩
        simp only [if_true]; exact ⟨trivial, hs⟩
      · rintro q ⟨x, hx, hq⟩
        refine ⟨_, List.mem_map.2 ⟨x, hx, rfl⟩, ?_⟩
        split <;> exact hq
    · exact ⟨h, ⟨r, hr, rfl, hs⟩, Nat.le_refl _, fun _ h => h, rfl⟩
  | none =>
    have hn := rncIdFind_none hf
    refine ⟨⟨?_, ?_, ?_, ?_⟩, ⟨_, List.mem_cons_self, rfl, SameRnc.refl id⟩, Nat.le_succ _, ?_, rfl⟩
    · simp only [List.map_cons, List.nodup_cons, List.mem_map, not_exists, not_and]
      refine ⟨fun r hr he => ?_, h.nodup⟩
      exact absurd he (Nat.ne_of_lt (h.lt r hr))
    · intro r hr
      rcases List.mem_cons.1 hr with rfl | hr
      · exact Nat.lt_succ_self _
      · exact Nat.lt_succ_of_lt (h.lt r hr)
    · exact List.Pairwise.cons (fun r hr hs => hn r hr hs.symm) h.ids
    · exact h.areas
    · rintro q ⟨r, hr, hq⟩; exact ⟨r, List.mem_cons_of_mem _ hr, hq⟩

end Verif.Iu
