import Verif.Proofs.IeTables

/-!
# Information element functions: memory
-/

namespace Verif.Ie
open Verif.Aper Spec

/-! ## Blocks of a list of members -/

def blk (f : Option Slot) : Option Nat := f.bind Slot.block

theorem blocks_eq (s : Struct) : blocks s = s.fields.filterMap blk := rfl

theorem set_none_sublist (fs : List (Option Slot)) (k : Nat) :
    ((fs.set k none).filterMap blk).Sublist (fs.filterMap blk) := by
  induction fs generalizing k with
  | nil => simp
  | cons f fs ih =>
    cases k with
    | zero =>
      simp only [List.set_cons_zero, List.filterMap_cons, blk, Option.bind_none]
      cases f.bind Slot.block <;> simp
    | succ k =>
      simp only [List.set_cons_succ, List.filterMap_cons]
      cases blk f with
      | none => exact ih k
      | some b => exact (ih k).cons_cons b

theorem set_perm {fs : List (Option Slot)} {k : Nat} {f x : Option Slot} {b : Nat} (h : fs[k]? = some f)
    (hf : blk f = none) (hx : blk x = some b) :
    List.Perm ((fs.set k x).filterMap blk) (b :: fs.filterMap blk) := by
  induction fs generalizing k with
  | nil => simp at h
  | cons g fs ih =>
    cases k with
    | zero =>
      simp only [List.getElem?_cons_zero, Option.some.injEq] at h
      subst h
      simp only [List.set_cons_zero, List.filterMap_cons, hf, hx]
      exact List.Perm.refl _
    | succ k =>
      simp only [List.set_cons_succ, List.filterMap_cons]
      have := ih (by simpa using h)
      cases blk g with
      | none => exact this
      | some c => exact (this.cons c).trans (List.Perm.swap ..)

theorem set_same {fs : List (Option Slot)} {k : Nat} {f x : Option Slot} (h : fs[k]? = some f)
    (hf : blk f = none) (hx : blk x = none) : (fs.set k x).filterMap blk = fs.filterMap blk := by
  induction fs generalizing k with
  | nil => simp at h
  | cons g fs ih =>
    cases k with
    | zero =>
      simp only [List.getElem?_cons_zero, Option.some.injEq] at h
      subst h
      simp only [List.set_cons_zero, List.filterMap_cons, hf, hx]
    | succ k =>
      simp only [List.set_cons_succ, List.filterMap_cons, ih (by simpa using h)]

/-- Clearing a member that holds a block. -/
theorem clear_perm {fs : List (Option Slot)} {k : Nat} {f : Option Slot} {b : Nat} (h : fs[k]? = some f)
    (hf : blk f = some b) : List.Perm (fs.filterMap blk) (b :: (fs.set k none).filterMap blk) := by
  have hk := (List.getElem?_eq_some_iff.1 h).1
  have e : fs = (fs.set k none).set k f := by
    rw [List.set_set]
    apply List.ext_getElem?
    intro i
    by_cases hi : k = i
    · subst hi; rw [h, List.getElem?_set_self hk]
    · rw [List.getElem?_set_ne hi]
  conv => lhs; rw [e]
  exact set_perm (f := none) (by rw [List.getElem?_set_self hk]) rfl hf

/-! ## What decoding does -/

/-- Members without a value hold nothing, members with one hold a block iff the value owns memory,
and a member with a value is included. -/
structure Occ (m : MsgDef) (s : Struct) : Prop where
  incl : ∀ k d x, Row m k d → s.fields[k]? = some (some x) → Included m s k d
  own : ∀ k d x, Row m k d → s.fields[k]? = some (some x) → (x.block.isSome = true ↔ owns d.ty x.val = true)

structure RowsMem {α : Type} (m : MsgDef) (l : List Ie) (s : Struct) (μ : Mem α) (n : Nat) (ok : Bool) (s' : Struct)
    (μ' : Mem α) : Prop where
  next : μ'.next = μ.next + n
  trace : μ'.trace = μ.trace ++ (List.range' μ.next n).map .alloc
  sub : ∀ b ∈ blocks s', b ∈ blocks s ∨ (μ.next ≤ b ∧ b < μ.next + n)
  nodup : (blocks s').Nodup
  occ : Occ m s'
  le : (blocks s').length ≤ (blocks s).length + n
  /-- everything is kept, if nothing that holds a block is overwritten -/
  kept : (∀ k d f, Row m k d → s.fields[k]? = some f → (blk f).isSome = true → ∀ ie ∈ l, ie.id ≠ d.id) →
    l.Pairwise (fun a b => a.id = b.id → ¬ OwnsMemory m a) → (blocks s').length = (blocks s).length + n
  /-- and only then, if all elements are processed -/
  lost : ok = true → (blocks s').length = (blocks s).length + n →
    (∀ k d f, Row m k d → s.fields[k]? = some f → (blk f).isSome = true → ∀ ie ∈ l, ie.id ≠ d.id) ∧
    l.Pairwise (fun a b => a.id = b.id → ¬ OwnsMemory m a)
  /-- something is allocated iff a processed element owns memory -/
  some_iff : ok = true → (n = 0 ↔ ∀ ie ∈ l, ¬ OwnsMemory m ie)
  fails : ok = false → ∃ l1 x l2, l = l1 ++ x :: l2 ∧ (∀ ie ∈ l1, Valid m ie) ∧ ¬ Valid m x ∧
    (n = 0 ↔ ∀ ie ∈ l1, ¬ OwnsMemory m ie)

theorem ownsMemory_iff {m : MsgDef} (hm : Good m) {ie : Ie} {k sh : Nat} {d : IeDef} {v : Val}
    (hk : lookup ie.id m.ies 0 0 = some (k, sh, d)) (hv : decode d.ty ie.value = some v) :
    OwnsMemory m ie ↔ owns d.ty v = true := by
  obtain ⟨hr, hid, -⟩ := lookup_row' hk
  constructor
  · rintro ⟨d', v', hd, hid', hv', ho⟩
    obtain ⟨k', hk'⟩ := List.mem_iff_getElem?.1 hd
    obtain ⟨rfl, rfl⟩ := row_unique hm hk' hr (hid'.trans hid.symm)
    rw [hv] at hv'; cases hv'; exact ho
  · intro ho
    exact ⟨d, v, List.mem_of_getElem? hr, hid, hv, ho⟩

theorem occ_step {m : MsgDef} (hm : Good m) {s : Struct} {k : Nat} {d : IeDef} (hr : Row m k d) (ho : Occ m s)
    (s1 : Struct) (hs1 : s1 = if d.opt = true then { s with mask := setPresent s.mask (bitOf m k) } else s)
    (x : Slot) (hx : x.block.isSome = true ↔ owns d.ty x.val = true) :
    Occ m { s1 with fields := s1.fields.set k (some x) } := by
  have hf : s1.fields = s.fields := by rw [hs1]; split <;> rfl
  have hmask : ∀ i, s.mask.getLsbD i = true → s1.mask.getLsbD i = true := by
    intro i hi
    rw [hs1]; split
    · next hd => simp only; rw [setPresent_getLsbD (bitOf_lt hm hr hd), hi]; rfl
    · exact hi
  constructor
  · intro k' d' x' hr' hx'
    simp only [hf] at hx'
    by_cases he : k = k'
    · subst he
      have : d = d' := by have := hr.symm.trans hr'; simpa using this
      subst this
      by_cases hd : d.opt = true
      · right
        unfold bit
        simp only
        rw [hs1, if_pos hd]
        simp only
        rw [setPresent_getLsbD (bitOf_lt hm hr hd)]
        simp
      · left; simpa using hd
    · rw [List.getElem?_set_ne he] at hx'
      rcases ho.incl k' d' x' hr' hx' with h | h
      · exact Or.inl h
      · exact Or.inr (hmask _ h)
  · intro k' d' x' hr' hx'
    simp only [hf] at hx'
    by_cases he : k = k'
    · subst he
      have : d = d' := by have := hr.symm.trans hr'; simpa using this
      subst this
      have hk := (List.getElem?_eq_some_iff.1 hx').1
      rw [List.getElem?_set_self (by simpa using hk)] at hx'
      cases hx'
      exact hx
    · rw [List.getElem?_set_ne he] at hx'
      exact ho.own k' d' x' hr' hx'

theorem occ_mask {m : MsgDef} (hm : Good m) {s : Struct} {k : Nat} {d : IeDef} (hr : Row m k d) (ho : Occ m s) :
    Occ m (if d.opt = true then { s with mask := setPresent s.mask (bitOf m k) } else s) := by
  split
  · next hd =>
    constructor
    · intro k' d' x' hr' hx'
      rcases ho.incl k' d' x' hr' hx' with h | h
      · exact Or.inl h
      · right
        unfold bit at h ⊢
        simp only
        rw [setPresent_getLsbD (bitOf_lt hm hr hd), h]
        rfl
    · exact ho.own
  · exact ho

theorem range'_cons (a n : Nat) : List.range' a (n + 1) = a :: List.range' (a + 1) n := List.range'_succ ..

theorem decodeRows_mem {α : Type} {m : MsgDef} (hm : Good m) (l : List Ie) (s : Struct) (μ : Mem α)
    (hl : s.fields.length = m.ies.length) (hocc : Occ m s) (hn : (blocks s).Nodup)
    (hb : ∀ b ∈ blocks s, b < μ.next) :
    ∃ n, RowsMem m l s μ n (decodeRows m l s μ).1.1 (decodeRows m l s μ).1.2 (decodeRows m l s μ).2 := by
  induction l generalizing s μ with
  | nil =>
    simp only [decodeRows]
    refine ⟨0, ⟨rfl, by simp, fun b h => Or.inl h, hn, hocc, by simp, fun _ _ => rfl, fun _ _ => ⟨by simp, by simp⟩,
      by simp, by simp⟩⟩
  | cons ie rest ih =>
    unfold decodeRows
    cases hk : lookup ie.id m.ies 0 0 with
    | none =>
      simp only
      have hnv : ¬ Valid m ie := by
        rw [valid_iff hm, hk]; rintro ⟨k, sh, d, v, h, -⟩; cases h
      exact ⟨0, ⟨rfl, by simp, fun b h => Or.inl h, hn, hocc, by simp, fun _ _ => rfl, by simp, by simp,
        fun _ => ⟨[], ie, rest, rfl, by simp, hnv, by simp⟩⟩⟩
    | some x =>
      obtain ⟨k, sh, d⟩ := x
      obtain ⟨hr, hid, hsh⟩ := lookup_row' hk
      simp only
      have hbl : ∀ c : Prop, [Decidable c] → blocks (if c then ({ s with mask := setPresent s.mask sh } : Struct) else s) = blocks s := by
        intro c _; split <;> rfl
      cases hv : decode d.ty ie.value with
      | none =>
        simp only
        have hnv : ¬ Valid m ie := by
          rw [valid_iff hm, hk]; rintro ⟨k, sh, d, v, h, h2⟩; cases h; rw [hv] at h2; cases h2
        refine ⟨0, ⟨rfl, by simp, ?_, ?_, ?_, ?_, ?_, by simp, by simp,
          fun _ => ⟨[], ie, rest, rfl, by simp, hnv, by simp⟩⟩⟩
        · intro b h; rw [hbl] at h; exact Or.inl h
        · rw [hbl]; exact hn
        · rw [hsh]; exact occ_mask hm hr hocc
        · rw [hbl]; simp
        · rw [hbl]; exact fun _ _ => rfl
      | some v =>
        simp only
        have hvv : Valid m ie := (valid_iff hm).2 ⟨k, sh, d, v, hk, hv⟩
        have how := ownsMemory_iff hm hk hv
        have hklt : k < s.fields.length := by
          have := (List.getElem?_eq_some_iff.1 hr).1
          omega
        obtain ⟨f, hf⟩ : ∃ f, s.fields[k]? = some f := ⟨_, List.getElem?_eq_getElem hklt⟩
        generalize hbm : μ.alloc (owns d.ty v) = bm
        obtain ⟨b, μ1⟩ := bm
        simp only
        generalize hs1 : (if d.opt = true then ({ s with mask := setPresent s.mask sh } : Struct) else s) = s1
        have hs1f : s1.fields = s.fields := by rw [← hs1]; split <;> rfl
        -- what the allocation did
        obtain ⟨c, hc1, hc2, hc3, hc4⟩ : ∃ c, μ1.next = μ.next + c ∧ μ1.trace = μ.trace ++ (List.range' μ.next c).map .alloc ∧
            (c = if owns d.ty v = true then 1 else 0) ∧ b = (if owns d.ty v = true then some μ.next else none) := by
          unfold Mem.alloc at hbm
          by_cases ho : owns d.ty v = true
          · rw [if_pos ho] at hbm; cases hbm
            exact ⟨1, rfl, by simp [List.range'], by rw [if_pos ho], by rw [if_pos ho]⟩
          · rw [if_neg ho] at hbm; cases hbm
            exact ⟨0, rfl, by simp, by rw [if_neg ho], by rw [if_neg ho]⟩
        have hbx : (Slot.mk v b).block.isSome = true ↔ owns d.ty (Slot.mk v b).val = true := by
          simp only [hc4]; split <;> simp_all
        -- the blocks of the new structure
        have hset : s.fields.set k (some ⟨v, b⟩) = (s.fields.set k none).set k (some ⟨v, b⟩) := by rw [List.set_set]
        have hnone : (s.fields.set k none)[k]? = some none := List.getElem?_set_self hklt
        have hsub := set_none_sublist s.fields k
        have hblocks : (owns d.ty v = true → List.Perm (blocks { s1 with fields := s1.fields.set k (some ⟨v, b⟩) })
              (μ.next :: (s.fields.set k none).filterMap blk)) ∧
            (owns d.ty v ≠ true → blocks { s1 with fields := s1.fields.set k (some ⟨v, b⟩) } =
              (s.fields.set k none).filterMap blk) := by
          constructor
          · intro ho
            rw [blocks_eq]
            simp only [hs1f, hset]
            refine set_perm hnone rfl ?_
            simp [blk, hc4, ho]
          · intro ho
            rw [blocks_eq]
            simp only [hs1f, hset]
            refine set_same hnone rfl ?_
            simp [blk, hc4, ho]
        have hlen1 : (blocks { s1 with fields := s1.fields.set k (some ⟨v, b⟩) }).length =
            ((s.fields.set k none).filterMap blk).length + c := by
          by_cases ho : owns d.ty v = true
          · rw [(hblocks.1 ho).length_eq, hc3, if_pos ho]; rfl
          · rw [hblocks.2 ho, hc3, if_neg ho]; rfl
        have hmem1 : ∀ y ∈ blocks { s1 with fields := s1.fields.set k (some ⟨v, b⟩) }, y ∈ blocks s ∨ (μ.next ≤ y ∧ y < μ.next + c) := by
          intro y hy
          by_cases ho : owns d.ty v = true
          · rcases List.mem_cons.1 ((hblocks.1 ho).mem_iff.1 hy) with rfl | hy
            · right; rw [hc3, if_pos ho]; omega
            · exact Or.inl (hsub.subset hy)
          · rw [hblocks.2 ho] at hy; exact Or.inl (hsub.subset hy)
        have hn1 : (blocks { s1 with fields := s1.fields.set k (some ⟨v, b⟩) }).Nodup := by
          have hn0 : ((s.fields.set k none).filterMap blk).Nodup := hn.sublist hsub
          by_cases ho : owns d.ty v = true
          · rw [(hblocks.1 ho).nodup_iff]
            refine List.nodup_cons.2 ⟨fun h => ?_, hn0⟩
            have := hb _ (hsub.subset h)
            omega
          · rw [hblocks.2 ho]; exact hn0
        obtain ⟨n, hI⟩ := ih { s1 with fields := s1.fields.set k (some ⟨v, b⟩) } μ1 (by simp [hs1f, hl])
          (occ_step hm hr hocc s1 (by rw [← hs1, hsh]) ⟨v, b⟩ hbx) hn1
          (fun y hy => by
            rcases hmem1 y hy with h | h
            · have := hb y h; omega
            · omega)
        -- the cleared member
        have hclear : ((s.fields.set k none).filterMap blk).length + (if (blk f).isSome = true then 1 else 0) =
            (blocks s).length := by
          cases hbf : blk f with
          | none =>
            simp only [Option.isSome_none, Bool.false_eq_true, if_false, Nat.add_zero]
            rw [set_same hf hbf rfl]; rfl
          | some y =>
            simp only [Option.isSome_some, if_true]
            rw [blocks_eq, (clear_perm hf hbf).length_eq]; rfl
        -- blocks held by the new members
        have hnew : ∀ k' d' f', Row m k' d' → (s1.fields.set k (some ⟨v, b⟩))[k']? = some f' → (blk f').isSome = true →
            (k' = k ∧ d' = d ∧ owns d.ty v = true) ∨ (k' ≠ k ∧ s.fields[k']? = some f') := by
          intro k' d' f' hr' hf' hbf'
          by_cases he : k = k'
          · subst he
            have : d = d' := by have := hr.symm.trans hr'; simpa using this
            subst this
            rw [hs1f, List.getElem?_set_self hklt] at hf'
            cases hf'
            refine Or.inl ⟨rfl, rfl, ?_⟩
            exact hbx.1 hbf'
          · rw [hs1f, List.getElem?_set_ne he] at hf'
            exact Or.inr ⟨fun e => he e.symm, hf'⟩
        refine ⟨c + n, ⟨by rw [hI.next, hc1]; omega, ?_, ?_, hI.nodup, hI.occ, ?_, ?_, ?_, ?_, ?_⟩⟩
        · rw [hI.trace, hc2, hc1, List.append_assoc, ← List.map_append]
          congr 2
          by_cases ho : owns d.ty v = true
          · rw [hc3, if_pos ho, Nat.add_comm 1 n, range'_cons]; rfl
          · rw [hc3, if_neg ho, Nat.zero_add]; rfl
        · intro y hy
          rcases hI.sub y hy with h | h
          · rcases hmem1 y h with h | h
            · exact Or.inl h
            · right; omega
          · right; omega
        · have := hI.le; have := hsub.length_le; rw [← blocks_eq] at this; omega
        · intro h1 h2
          have hbf : blk f = none := by
            cases hbf : blk f with
            | none => rfl
            | some y =>
              exact absurd hid.symm (h1 k d f hr hf (by rw [hbf]; rfl) ie List.mem_cons_self)
          rw [List.pairwise_cons] at h2
          have := hI.kept (by
            intro k' d' f' hr' hf' hbf' e he hee
            rcases hnew k' d' f' hr' hf' hbf' with ⟨rfl, rfl, ho⟩ | ⟨hne, hf0⟩
            · exact h2.1 e he (by rw [← hid, hee]) (how.2 ho)
            · exact h1 k' d' f' hr' hf0 hbf' e (List.mem_cons_of_mem _ he) hee) h2.2
          rw [this, hlen1]
          rw [hbf] at hclear
          simp only [Option.isSome_none, Bool.false_eq_true, if_false, Nat.add_zero] at hclear
          omega
        · intro hok hlen
          have hle := hI.le
          have hbf : blk f = none := by
            cases hbf : blk f with
            | none => rfl
            | some y =>
              rw [hbf] at hclear
              simp only [Option.isSome_some, if_true] at hclear
              omega
          rw [hbf] at hclear
          simp only [Option.isSome_none, Bool.false_eq_true, if_false, Nat.add_zero] at hclear
          obtain ⟨g1, g2⟩ := hI.lost hok (by omega)
          constructor
          · intro k' d' f' hr' hf' hbf' e he hee
            have hne : k' ≠ k := by
              rintro rfl
              rw [hf] at hf'; cases hf'; rw [hbf] at hbf'; cases hbf'
            rcases List.mem_cons.1 he with rfl | he
            · have := row_unique hm hr hr' (by rw [hid, hee])
              exact hne this.1.symm
            · refine g1 k' d' f' hr' ?_ hbf' e he hee
              simp only [hs1f]
              rw [List.getElem?_set_ne (fun e => hne e.symm)]
              exact hf'
          · rw [List.pairwise_cons]
            refine ⟨?_, g2⟩
            intro e he hee hown
            have ho := how.1 hown
            refine g1 k d (some ⟨v, b⟩) hr ?_ ?_ e he (by rw [← hee, hid])
            · simp only [hs1f]; exact List.getElem?_set_self hklt
            · simp [blk, hc4, ho]
        · intro hok
          have := hI.some_iff hok
          constructor
          · intro h0
            have hc0 : c = 0 := by omega
            have hn0 : n = 0 := by omega
            intro e he
            rcases List.mem_cons.1 he with rfl | he
            · rw [how]; intro ho; rw [hc3, if_pos ho] at hc0; cases hc0
            · exact this.1 hn0 e he
          · intro h
            have h1 := this.2 fun e he => h e (List.mem_cons_of_mem _ he)
            have h2 : ¬ owns d.ty v = true := fun ho => h ie List.mem_cons_self (how.2 ho)
            rw [hc3, if_neg h2, h1]
        · intro hok
          obtain ⟨l1, x, l2, e1, e2, e3, e4⟩ := hI.fails hok
          refine ⟨ie :: l1, x, l2, by rw [e1]; rfl, ?_, e3, ?_⟩
          · intro e he
            rcases List.mem_cons.1 he with rfl | he
            · exact hvv
            · exact e2 e he
          · constructor
            · intro h0
              have hc0 : c = 0 := by omega
              have hn0 : n = 0 := by omega
              intro e he
              rcases List.mem_cons.1 he with rfl | he
              · rw [how]; intro ho; rw [hc3, if_pos ho] at hc0; cases hc0
              · exact e4.1 hn0 e he
            · intro h
              have h1 := e4.2 fun e he => h e (List.mem_cons_of_mem _ he)
              have h2 : ¬ owns d.ty v = true := fun ho => h ie List.mem_cons_self (how.2 ho)
              rw [hc3, if_neg h2, h1]

/-! ## What freeing does -/

theorem freeRows_eq {α : Type} {ds : List IeDef} {sh : Nat} {mask : BitVec 16} {fs : List (Option Slot)} (μ : Mem α)
    (hb : sh + (ds.filter (·.opt)).length ≤ 16) (hl : fs.length = ds.length)
    (hi : ∀ k d x, ds[k]? = some d → fs[k]? = some (some x) →
      d.opt = false ∨ mask.getLsbD (sh + ((ds.take k).filter (·.opt)).length) = true) :
    freeRows ds sh mask fs μ = ⟨μ.next, μ.trace ++ (fs.filterMap blk).map .free⟩ := by
  induction ds generalizing sh fs μ with
  | nil =>
    cases fs with
    | nil => simp [freeRows]
    | cons f fs => simp at hl
  | cons d ds ih =>
    cases fs with
    | nil => simp at hl
    | cons f fs =>
      unfold freeRows
      simp only
      have hlen : ∀ j, sh + (((d :: ds).take (j + 1)).filter (·.opt)).length =
          (if d.opt then sh + 1 else sh) + ((ds.take j).filter (·.opt)).length := by
        intro j
        rw [List.take_succ_cons, List.filter_cons]
        cases d.opt <;> simp; omega
      have hb' : (if d.opt then sh + 1 else sh) + (ds.filter (·.opt)).length ≤ 16 := by
        rw [List.filter_cons] at hb
        cases ho : d.opt <;> rw [ho] at hb <;> simp at hb ⊢ <;> omega
      rw [ih _ hb' (by simpa using hl) (by
        intro k e x hk hx
        have := hi (k + 1) e x (by simpa using hk) (by simpa using hx)
        rwa [hlen] at this)]
      cases f with
      | none =>
        simp only [ite_self, List.filterMap_cons, blk, Option.bind_none]
      | some x =>
        have hin := hi 0 d x rfl rfl
        have hc : ¬ (d.opt && !isPresent mask sh) = true := by
          intro hc
          simp only [Bool.and_eq_true, Bool.not_eq_true'] at hc
          rcases hin with h | h
          · rw [hc.1] at h; cases h
          · have : sh < 16 := by
              rw [List.filter_cons, if_pos hc.1, List.length_cons] at hb; omega
            rw [isPresent_eq this] at hc
            simp at h
            rw [hc.2] at h; cases h
        rw [if_neg hc]
        simp only [List.filterMap_cons, blk, Option.bind_some]
        cases x.block with
        | none => rfl
        | some b => simp [Mem.free, Mem.emit]

theorem freeIes_eq {α : Type} {m : MsgDef} (hm : Good m) {s : Struct} (hl : s.fields.length = m.ies.length)
    (ho : Occ m s) (μ : Mem α) : freeIes m s μ = ⟨μ.next, μ.trace ++ (blocks s).map .free⟩ := by
  refine freeRows_eq μ (by simpa using hm.bits) hl ?_
  intro k d x hk hx
  rcases ho.incl k d x hk hx with h | h
  · exact Or.inl h
  · right; simpa [bit, bitOf] using h

/-! ## Replaying -/

theorem replay_append {α : Type} (live : List Nat) (a c : List (Ev α)) :
    replay live (a ++ c) = (replay live a).bind fun live' => replay live' c := by
  induction a generalizing live with
  | nil => rfl
  | cons e a ih =>
    cases e with
    | alloc b =>
      simp only [List.cons_append, replay]
      split
      · rfl
      · exact ih _
    | free b =>
      simp only [List.cons_append, replay]
      split
      · exact ih _
      · rfl
    | call x => simp only [List.cons_append, replay]; exact ih _
    | bad => rfl

theorem replay_allocs {α : Type} {live : List Nat} {a n : Nat} (h : ∀ b ∈ live, b < a) :
    ∃ live', replay live ((List.range' a n).map (Ev.alloc (α := α))) = some live' ∧
      List.Perm live' (List.range' a n ++ live) := by
  induction n generalizing live a with
  | zero => exact ⟨live, by simp [replay], by simp⟩
  | succ n ih =>
    simp only [List.range'_succ, List.map_cons, replay]
    have hn : a ∉ live := fun hm => Nat.lt_irrefl _ (h a hm)
    rw [if_neg hn]
    obtain ⟨live', e, p⟩ := ih (live := a :: live) (a := a + 1) (by
      intro b hb
      rcases List.mem_cons.1 hb with rfl | hb
      · omega
      · have := h b hb; omega)
    refine ⟨live', e, p.trans ?_⟩
    simp only [List.cons_append]
    exact List.perm_middle

/-- Freeing a part of the live blocks leaves the rest. -/
theorem replay_frees {α : Type} {live fr rest : List Nat} (h : List.Perm live (fr ++ rest)) :
    ∃ live', replay live (fr.map (Ev.free (α := α))) = some live' ∧ List.Perm live' rest := by
  induction fr generalizing live with
  | nil => exact ⟨live, rfl, by simpa using h⟩
  | cons b fr ih =>
    simp only [List.map_cons, replay]
    have hb : b ∈ live := h.mem_iff.2 (by simp)
    rw [if_pos hb]
    exact ih ((List.cons_perm_iff_perm_erase.1 h.symm).2.symm)

end Verif.Ie
