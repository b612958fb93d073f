import Verif.Proofs.IeMem
import Verif.Spec.Leak

/-!
# Memory that decoding loses
-/

namespace Verif.Ie
open Verif.Aper Spec

theorem isOwner_iff {m : MsgDef} {ie : Ie} : isOwner m ie = true ↔ OwnsMemory m ie := by
  unfold isOwner OwnsMemory
  rw [List.any_eq_true]
  constructor
  · rintro ⟨d, hd, h⟩
    rw [Bool.and_eq_true, beq_iff_eq] at h
    cases hv : decode d.ty ie.value with
    | none => rw [hv] at h; cases h.2
    | some v => rw [hv] at h; exact ⟨d, v, hd, h.1, hv, h.2⟩
  · rintro ⟨d, v, hd, hid, hv, ho⟩
    exact ⟨d, hd, by rw [hv, hid]; simp [ho]⟩

/-- 1 if the member holds a block. -/
def held (f : Option Slot) : Nat := if (blk f).isSome then 1 else 0

/-- Members that hold a block and are going to be replaced. -/
def hit : List IeDef → List (Option Slot) → List Ie → Nat
  | d :: ds, f :: fs, l => (if (blk f).isSome && l.any (·.id == d.id) then 1 else 0) + hit ds fs l
  | _, _, _ => 0

theorem hit_other {ds : List IeDef} {ie : Ie} (h : ∀ d ∈ ds, d.id ≠ ie.id) (fs : List (Option Slot)) (l : List Ie) :
    hit ds fs (ie :: l) = hit ds fs l := by
  induction ds generalizing fs with
  | nil => rfl
  | cons d ds ih =>
    cases fs with
    | nil => rfl
    | cons f fs =>
      have hne : (ie.id == d.id) = false := by
        rw [beq_eq_false_iff_ne]; exact fun e => h d List.mem_cons_self e.symm
      simp only [hit, List.any_cons, hne, Bool.false_or]
      rw [ih (fun d hd => h d (List.mem_cons_of_mem _ hd))]

theorem hit_set {ds : List IeDef} (hn : (ds.map (·.id)).Nodup) {fs : List (Option Slot)} {k : Nat} {d : IeDef}
    {f : Option Slot} (hd : ds[k]? = some d) (hf : fs[k]? = some f) (x : Option Slot) {ie : Ie} (hi : d.id = ie.id) (l : List Ie) :
    hit ds fs (ie :: l) + (if (blk x).isSome && l.any (·.id == ie.id) then 1 else 0) = held f + hit ds (fs.set k x) l := by
  induction ds generalizing fs k with
  | nil => simp at hd
  | cons e ds ih =>
    cases fs with
    | nil => simp at hf
    | cons g fs =>
      simp only [List.map_cons, List.nodup_cons, List.mem_map, not_exists, not_and] at hn
      cases k with
      | zero =>
        simp only [List.getElem?_cons_zero, Option.some.injEq] at hd hf
        subst hd; subst hf
        have := hit_other (ie := ie) (fun d' hd' => by rw [← hi]; exact hn.1 d' hd') fs l
        simp only [hit, List.set_cons_zero, List.any_cons, hi, beq_self_eq_true, Bool.true_or, Bool.and_true, held]
        omega
      | succ k =>
        simp only [List.getElem?_cons_succ] at hd hf
        have hne : (ie.id == e.id) = false := by
          rw [beq_eq_false_iff_ne]
          intro h
          exact hn.1 d (List.mem_of_getElem? hd) (hi.trans h)
        have := ih hn.2 hd hf
        simp only [hit, List.set_cons_succ, List.any_cons, hne, Bool.false_or]
        omega

theorem blocks_set {fs : List (Option Slot)} {k : Nat} {f : Option Slot} (h : fs[k]? = some f) (x : Option Slot) :
    ((fs.set k x).filterMap blk).length + held f = (fs.filterMap blk).length + held x := by
  induction fs generalizing k with
  | nil => simp at h
  | cons g fs ih =>
    cases k with
    | zero =>
      simp only [List.getElem?_cons_zero, Option.some.injEq] at h
      subst h
      simp only [List.set_cons_zero, List.filterMap_cons, held]
      cases blk x <;> cases blk g <;> simp
    | succ k =>
      simp only [List.getElem?_cons_succ] at h
      have := ih h
      simp only [List.set_cons_succ, List.filterMap_cons]
      cases blk g <;> simp <;> omega

theorem decodeRows_count {α : Type} {m : MsgDef} (hm : Good m) (l : List Ie) (s : Struct) (μ : Mem α)
    (hl : s.fields.length = m.ies.length) : ∃ good rest, SplitAtBad m l good rest ∧
      (decodeRows m l s μ).1.1 = rest.isEmpty ∧ (decodeRows m l s μ).2.next = μ.next + owners m good ∧
      (blocks (decodeRows m l s μ).1.2).length + (replaced m good + hit m.ies s.fields good) = (blocks s).length + owners m good := by
  induction l generalizing s μ with
  | nil =>
    refine ⟨[], [], ⟨rfl, by simp, by simp⟩, rfl, rfl, ?_⟩
    have : ∀ (ds : List IeDef) (fs : List (Option Slot)), hit ds fs [] = 0 := by
      intro ds
      induction ds with
      | nil => intro _; rfl
      | cons d ds ih => intro fs; cases fs <;> simp [hit, ih]
    simp [decodeRows, owners, replaced, this]
  | cons ie l ih =>
    have none' : ∀ (ds : List IeDef) (fs : List (Option Slot)), hit ds fs [] = 0 := by
      intro ds
      induction ds with
      | nil => intro _; rfl
      | cons d ds ih => intro fs; cases fs <;> simp [hit, ih]
    unfold decodeRows
    cases hk : lookup ie.id m.ies 0 0 with
    | none =>
      have hnv : ¬ Valid m ie := by
        rw [valid_iff hm, hk]; rintro ⟨k, sh, d, v, h, -⟩; cases h
      exact ⟨[], ie :: l, ⟨rfl, by simp, by simpa using hnv⟩, rfl, rfl, by simp [owners, replaced, none']⟩
    | some x =>
      obtain ⟨k, sh, d⟩ := x
      obtain ⟨hr, hid, hsh⟩ := lookup_row' hk
      simp only
      have hfl : (if d.opt = true then ({ s with mask := setPresent s.mask sh } : Struct) else s).fields = s.fields := by
        split <;> rfl
      cases hv : decode d.ty ie.value with
      | none =>
        have hnv : ¬ Valid m ie := by
          rw [valid_iff hm, hk]; rintro ⟨k, sh, d, v, h, h2⟩; cases h; rw [hv] at h2; cases h2
        refine ⟨[], ie :: l, ⟨rfl, by simp, by simpa using hnv⟩, rfl, rfl, ?_⟩
        simp only [owners, replaced, none', blocks_eq, hfl, List.countP_nil, Nat.add_zero]
      | some v =>
        have hvv : Valid m ie := (valid_iff hm).2 ⟨k, sh, d, v, hk, hv⟩
        have how : isOwner m ie = owns d.ty v := by
          rw [Bool.eq_iff_iff, isOwner_iff]
          exact ownsMemory_iff hm hk hv
        have hklt : k < s.fields.length := by
          have := (List.getElem?_eq_some_iff.1 hr).1
          omega
        obtain ⟨f, hf⟩ : ∃ f, s.fields[k]? = some f := ⟨_, List.getElem?_eq_getElem hklt⟩
        simp only
        generalize hbm : μ.alloc (owns d.ty v) = bm
        obtain ⟨b, μ1⟩ := bm
        have hb : b.isSome = owns d.ty v ∧ μ1.next = μ.next + if owns d.ty v then 1 else 0 := by
          unfold Mem.alloc at hbm
          cases ho : owns d.ty v
          · rw [ho] at hbm; cases hbm; exact ⟨rfl, rfl⟩
          · rw [ho] at hbm; cases hbm; exact ⟨rfl, rfl⟩
        simp only
        generalize hs1 : (if d.opt = true then ({ s with mask := setPresent s.mask sh } : Struct) else s) = s1
        rw [hs1] at hfl
        obtain ⟨good, rest, hsp, h1, h2, h3⟩ := ih { s1 with fields := s1.fields.set k (some ⟨v, b⟩) } μ1 (by
          simp only [List.length_set, hfl, hl])
        refine ⟨ie :: good, rest, ⟨by rw [hsp.1]; rfl, ?_, hsp.2.2⟩, h1, ?_, ?_⟩
        · intro x hx
          rcases List.mem_cons.1 hx with rfl | hx
          · exact hvv
          · exact hsp.2.1 x hx
        · rw [h2, hb.2]
          simp only [owners, List.countP_cons, how]
          omega
        · have e1 := hit_set hm.ids hr hf (some ⟨v, b⟩) hid good
          have e2 := blocks_set hf (some ⟨v, b⟩)
          have hx : (blk (some ⟨v, b⟩)).isSome = owns d.ty v := hb.1
          have hy : held (some ⟨v, b⟩) = if owns d.ty v then 1 else 0 := by simp only [held, hx]
          simp only [blocks_eq, hfl] at h3 ⊢
          simp only [owners, List.countP_cons, how, replaced] at h3 ⊢
          rw [hx] at e1
          rw [hy] at e2
          generalize (if (owns d.ty v && good.any fun x => x.id == ie.id) = true then 1 else 0) = j at *
          omega

theorem split_unique {m : MsgDef} {l g r g' r' : List Ie} (h : SplitAtBad m l g r) (h' : SplitAtBad m l g' r') :
    g = g' ∧ r = r' := by
  induction g generalizing l g' with
  | nil =>
    cases g' with
    | nil => exact ⟨rfl, by have := h.1.symm.trans h'.1; simpa using this⟩
    | cons a g' =>
      have e : r = a :: (g' ++ r') := by have := h.1.symm.trans h'.1; simpa using this
      exact absurd (h'.2.1 a List.mem_cons_self) (h.2.2 a (by rw [e]; rfl))
  | cons a g ih =>
    cases g' with
    | nil =>
      have e : r' = a :: (g ++ r) := by have := h'.1.symm.trans h.1; simpa using this
      exact absurd (h.2.1 a List.mem_cons_self) (h'.2.2 a (by rw [e]; rfl))
    | cons b g' =>
      have e : a = b ∧ g ++ r = g' ++ r' := by have := h.1.symm.trans h'.1; simpa using this
      obtain ⟨rfl, e⟩ := e
      have := ih (l := g ++ r) ⟨rfl, fun x hx => h.2.1 x (List.mem_cons_of_mem _ hx), h.2.2⟩
        ⟨e, fun x hx => h'.2.1 x (List.mem_cons_of_mem _ hx), h'.2.2⟩
      exact ⟨by rw [this.1], this.2⟩

theorem replaced_le (m : MsgDef) (l : List Ie) : replaced m l ≤ owners m l := by
  induction l with
  | nil => exact Nat.le_refl _
  | cons ie l ih =>
    simp only [replaced, owners, List.countP_cons] at ih ⊢
    cases isOwner m ie
    · simp; omega
    · simp only [Bool.true_and, if_true]
      split <;> omega

theorem hit_zero (m : MsgDef) (l : List Ie) : hit m.ies m.zero.fields l = 0 := by
  have : ∀ ds : List IeDef, hit ds (ds.map fun _ => none) l = 0 := by
    intro ds
    induction ds with
    | nil => rfl
    | cons d ds ih => simp [hit, blk, ih]
  exact this m.ies

end Verif.Ie
