import Verif.Proofs.Aper
import Verif.Spec.Ie

/-!
# Information element functions: what encoding and decoding do
-/

namespace Verif.Ie
open Verif.Aper Spec

/-! ## Presence bits -/

theorem setPresent_getLsbD {mask : BitVec 16} {sh : Nat} (h : sh < 16) (i : Nat) :
    (setPresent mask sh).getLsbD i = (mask.getLsbD i || decide (i = sh)) := by
  unfold setPresent presentConst
  by_cases hi : i < 16
  · simp only [BitVec.getLsbD_setWidth, hi, decide_true, Bool.true_and, BitVec.getLsbD_or]
    have h32 : i < 32 := by omega
    simp only [h32, decide_true, Bool.true_and, BitVec.getLsbD_shiftLeft]
    by_cases he : i = sh
    · subst he
      simp
    · by_cases hlt : i < sh
      · simp [he, hlt]
      · have : i - sh ≠ 0 := by omega
        simp [he, hlt, BitVec.getLsbD_one, this]
  · have h16 : 16 ≤ i := by omega
    have he : i ≠ sh := by omega
    rw [BitVec.getLsbD_of_ge _ _ h16, BitVec.getLsbD_of_ge _ _ h16]
    simp [he]

theorem isPresent_eq {mask : BitVec 16} {sh : Nat} (h : sh < 16) : isPresent mask sh = mask.getLsbD sh := by
  unfold isPresent presentConst
  have : sh = 0 ∨ sh = 1 ∨ sh = 2 ∨ sh = 3 ∨ sh = 4 ∨ sh = 5 ∨ sh = 6 ∨ sh = 7 ∨ sh = 8 ∨ sh = 9 ∨ sh = 10 ∨
    sh = 11 ∨ sh = 12 ∨ sh = 13 ∨ sh = 14 ∨ sh = 15 := by omega
  rw [Bool.eq_iff_iff, beq_iff_eq]
  constructor
  · intro e
    have := congrArg (fun v => BitVec.getLsbD v sh) e
    simp only [BitVec.getLsbD_and, BitVec.getLsbD_setWidth, BitVec.getLsbD_shiftLeft] at this
    have h32 : sh < 32 := by omega
    simpa [h32] using this
  · intro e
    apply BitVec.eq_of_getLsbD_eq
    intro i hi
    simp only [BitVec.getLsbD_and, BitVec.getLsbD_setWidth, BitVec.getLsbD_shiftLeft, hi, decide_true, Bool.true_and]
    by_cases he : i = sh
    · subst he; simp [e]
    · by_cases hlt : i < sh
      · simp [hlt]
      · have : i - sh ≠ 0 := by omega
        simp [BitVec.getLsbD_one, this]

/-! ## Rows -/

/-- Rows `ds`, the first of which has index `k0` and shift `sh0`. -/
theorem lookup_some {id : Nat} {ds : List IeDef} {k0 sh0 k sh : Nat} {d : IeDef}
    (h : lookup id ds k0 sh0 = some (k, sh, d)) :
    ∃ j, k = k0 + j ∧ ds[j]? = some d ∧ d.id = id ∧ sh = sh0 + ((ds.take j).filter (·.opt)).length := by
  induction ds generalizing k0 sh0 with
  | nil => simp [lookup] at h
  | cons e ds ih =>
    unfold lookup at h
    split at h
    · next he =>
      cases h
      exact ⟨0, by simp, rfl, he, by simp⟩
    · obtain ⟨j, hk, hj, hid, hs⟩ := ih h
      refine ⟨j + 1, by omega, by simpa using hj, hid, ?_⟩
      rw [hs, List.take_succ_cons, List.filter_cons]
      cases e.opt <;> simp <;> omega

theorem lookup_none {id : Nat} {ds : List IeDef} {k0 sh0 : Nat} :
    lookup id ds k0 sh0 = none ↔ ∀ d ∈ ds, d.id ≠ id := by
  induction ds generalizing k0 sh0 with
  | nil => simp [lookup]
  | cons e ds ih =>
    unfold lookup
    split
    · next he => simp [he]
    · next he => simp [he, ih]

/-- What the theorems need of a table: distinct ids, presence bits that fit, types the codec can
handle, and the container shape. -/
structure Good (m : MsgDef) : Prop where
  ids : (m.ies.map (·.id)).Nodup
  bits : (m.ies.filter (·.opt)).length ≤ 16
  types : ∀ d ∈ m.ies, d.ty.ok = true
  shape : ∃ ext s r c, m.ty = .seq ext (.cons false (.seqOf s
    (.seq false (.cons false (.int r) (.cons false c (.cons false .any .nil))))) .nil) ∧
    0 ≤ r.lb ∧ r.ext = false ∧ ∃ a b, c = .enum a b false ∧ a ≤ b

theorem row_unique {m : MsgDef} (hm : Good m) {j k : Nat} {d e : IeDef} (hd : Row m j d) (he : Row m k e)
    (h : d.id = e.id) : j = k ∧ d = e := by
  have hn := hm.ids
  obtain ⟨hj, hdj⟩ := List.getElem?_eq_some_iff.1 hd
  obtain ⟨hk, hek⟩ := List.getElem?_eq_some_iff.1 he
  have hjk : j = k := by
    refine (List.getElem_inj (h₀ := by simpa using hj) (h₁ := by simpa using hk) hn).1 ?_
    simp only [List.getElem_map, hdj, hek, h]
  subst hjk
  exact ⟨rfl, by rw [← hdj, ← hek]⟩

theorem lookup_row {m : MsgDef} (hm : Good m) {k : Nat} {d : IeDef} (hd : Row m k d) :
    lookup d.id m.ies 0 0 = some (k, bitOf m k, d) := by
  cases h : lookup d.id m.ies 0 0 with
  | none => exact absurd rfl (lookup_none.1 h d (List.mem_of_getElem? hd))
  | some x =>
    obtain ⟨k', sh, d'⟩ := x
    obtain ⟨j, hk, hj, hid, hs⟩ := lookup_some h
    have : Row m j d' := hj
    obtain ⟨rfl, rfl⟩ := row_unique hm this hd hid
    simp only [Nat.zero_add] at hk hs
    subst hk hs
    rfl

theorem lookup_row' {m : MsgDef} {id k sh : Nat} {d : IeDef} (h : lookup id m.ies 0 0 = some (k, sh, d)) :
    Row m k d ∧ d.id = id ∧ sh = bitOf m k := by
  obtain ⟨j, hk, hj, hid, hs⟩ := lookup_some h
  simp only [Nat.zero_add] at hk hs
  subst hk
  exact ⟨hj, hid, hs⟩

theorem bitOf_lt {m : MsgDef} (hm : Good m) {k : Nat} {d : IeDef} (hd : Row m k d) (ho : d.opt = true) :
    bitOf m k < 16 := by
  refine Nat.lt_of_lt_of_le ?_ hm.bits
  unfold bitOf
  obtain ⟨hk, hdk⟩ := List.getElem?_eq_some_iff.1 hd
  have e : m.ies = m.ies.take k ++ d :: m.ies.drop (k + 1) := by
    rw [← hdk, List.getElem_cons_drop, List.take_append_drop]
  conv => rhs; rw [e]
  rw [List.filter_append, List.filter_cons, if_pos ho, List.length_append, List.length_cons]
  omega

/-- Different optional rows have different presence bits. -/
theorem bitOf_lt_of_lt {m : MsgDef} {j k : Nat} {d : IeDef} (hd : Row m j d) (ho : d.opt = true) (h : j < k) :
    bitOf m j < bitOf m k := by
  unfold bitOf
  obtain ⟨hj, hdj⟩ := List.getElem?_eq_some_iff.1 hd
  have e : m.ies.take k = m.ies.take j ++ d :: (m.ies.drop (j + 1)).take (k - j - 1) := by
    have e1 : m.ies = m.ies.take j ++ d :: m.ies.drop (j + 1) := by
      rw [← hdj, List.getElem_cons_drop, List.take_append_drop]
    conv => lhs; rw [e1]
    have hl : (m.ies.take j).length = j := by rw [List.length_take]; omega
    rw [List.take_append, hl, List.take_of_length_le (by omega)]
    obtain ⟨i, hi⟩ : ∃ i, k - j = i + 1 := ⟨k - j - 1, by omega⟩
    rw [hi, List.take_succ_cons]
    simp
  rw [e, List.filter_append, List.filter_cons, if_pos ho, List.length_append, List.length_cons]
  omega

theorem bitOf_inj {m : MsgDef} {j k : Nat} {d e : IeDef} (hd : Row m j d) (he : Row m k e)
    (hdo : d.opt = true) (heo : e.opt = true) (h : bitOf m j = bitOf m k) : j = k := by
  rcases Nat.lt_trichotomy j k with hlt | rfl | hlt
  · have := bitOf_lt_of_lt hd hdo hlt; omega
  · rfl
  · have := bitOf_lt_of_lt he heo hlt; omega

/-! ## Decoding -/

/-- The value the last element with the row's id decodes to. -/
def lastVal (d : IeDef) (l : List Ie) : Option Val :=
  match lastWith d.id l with
  | none => none
  | some ie => decode d.ty ie.value

theorem lastWith_cons (id : Nat) (ie : Ie) (l : List Ie) :
    lastWith id (ie :: l) = match lastWith id l with
      | some e => some e
      | none => if ie.id = id then some ie else none := by
  unfold lastWith
  by_cases h : ie.id = id
  · simp only [List.filter_cons, h, decide_true, if_true]
    cases hl : (l.filter (·.id = id)) with
    | nil => simp
    | cons a b => simp [List.getLast?_cons]
  · simp only [List.filter_cons, h, decide_false]
    simp only [Bool.false_eq_true, if_false]
    split <;> simp_all

theorem lastWith_none {id : Nat} {l : List Ie} : lastWith id l = none ↔ ∀ ie ∈ l, ie.id ≠ id := by
  unfold lastWith
  simp

theorem lastWith_some {id : Nat} {l : List Ie} {ie : Ie} (h : lastWith id l = some ie) : ie ∈ l ∧ ie.id = id := by
  unfold lastWith at h
  have := List.mem_of_getLast? h
  simpa using this

theorem valid_iff {m : MsgDef} (hm : Good m) {ie : Ie} : Valid m ie ↔
    ∃ k sh d v, lookup ie.id m.ies 0 0 = some (k, sh, d) ∧ decode d.ty ie.value = some v := by
  constructor
  · rintro ⟨d, hd, hid, hv⟩
    obtain ⟨k, hk⟩ := List.mem_iff_getElem?.1 hd
    obtain ⟨v, hv⟩ := Option.isSome_iff_exists.1 hv
    rw [← hid]
    exact ⟨k, _, d, v, lookup_row hm hk, hv⟩
  · rintro ⟨k, sh, d, v, h, hv⟩
    obtain ⟨hr, hid, -⟩ := lookup_row' h
    exact ⟨d, List.mem_of_getElem? hr, hid, by rw [hv]; rfl⟩

structure RowsSpec (m : MsgDef) (l : List Ie) (s : Struct) (ok : Bool) (s' : Struct) : Prop where
  len : s'.fields.length = m.ies.length
  ok_iff : ok = true ↔ ∀ ie ∈ l, Valid m ie
  val : ok = true → ∀ k d, Row m k d → s'.vals[k]? = match lastVal d l with
    | some v => some (some v)
    | none => s.vals[k]?
  mask : ok = true → ∀ i, s'.mask.getLsbD i = true ↔ s.mask.getLsbD i = true ∨
    ∃ k d, Row m k d ∧ d.opt = true ∧ bitOf m k = i ∧ ∃ ie ∈ l, ie.id = d.id

theorem vals_set (s : Struct) (mask : BitVec 16) (k : Nat) (x : Slot) :
    (Struct.mk mask (s.fields.set k (some x))).vals = s.vals.set k (some x.val) := by
  simp [Struct.vals, List.map_set]

theorem decodeRows_spec {α : Type} {m : MsgDef} (hm : Good m) (l : List Ie) (s : Struct) (μ : Mem α)
    (hl : s.fields.length = m.ies.length) :
    RowsSpec m l s (decodeRows m l s μ).1.1 (decodeRows m l s μ).1.2 := by
  induction l generalizing s μ with
  | nil =>
    simp only [decodeRows]
    exact ⟨hl, by simp, fun _ k d _ => by simp [lastVal, lastWith], fun _ i => by simp⟩
  | cons ie rest ih =>
    unfold decodeRows
    cases hk : lookup ie.id m.ies 0 0 with
    | none =>
      simp only
      have hnv : ¬ Valid m ie := by
        rw [valid_iff hm, hk]; rintro ⟨k, sh, d, v, h, -⟩; cases h
      exact ⟨hl, ⟨by simp, fun h => absurd (h ie List.mem_cons_self) hnv⟩, by simp, by simp⟩
    | some x =>
      obtain ⟨k, sh, d⟩ := x
      obtain ⟨hr, hid, hsh⟩ := lookup_row' hk
      simp only
      cases hv : decode d.ty ie.value with
      | none =>
        simp only
        have hnv : ¬ Valid m ie := by
          rw [valid_iff hm, hk]; rintro ⟨k, sh, d, v, h, h2⟩; cases h; rw [hv] at h2; cases h2
        refine ⟨?_, ⟨by simp, fun h => absurd (h ie List.mem_cons_self) hnv⟩, by simp, by simp⟩
        cases d.opt <;> exact hl
      | some v =>
        simp only
        generalize hb : μ.alloc (owns d.ty v) = bm
        obtain ⟨b, μ'⟩ := bm
        simp only
        generalize hs1 : (if d.opt = true then ({ s with mask := setPresent s.mask sh } : Struct) else s) = s1
        have hs1f : s1.fields = s.fields := by rw [← hs1]; cases d.opt <;> rfl
        have hvv : Valid m ie := (valid_iff hm).2 ⟨k, sh, d, v, hk, hv⟩
        have := ih ({ s1 with fields := s1.fields.set k (some ⟨v, b⟩) }) μ' (by simp [hs1f, hl])
        have hklt : k < s.vals.length := by
          have := (List.getElem?_eq_some_iff.1 hr).1
          simp [Struct.vals, hl]; omega
        have hs1v : s1.vals = s.vals := by simp [Struct.vals, hs1f]
        refine ⟨this.len, ?_, ?_, ?_⟩
        · rw [this.ok_iff]; simp [hvv]
        · intro ho k' d' hr'
          rw [this.val ho k' d' hr', vals_set, hs1v]
          simp only [lastVal, lastWith_cons]
          cases hlw : lastWith d'.id rest with
          | some e =>
            simp only
            obtain ⟨he, hei⟩ := lastWith_some hlw
            have hve := this.ok_iff.1 ho e he
            obtain ⟨k2, sh2, d2, v2, h2, h3⟩ := (valid_iff hm).1 hve
            have := lookup_row hm hr'
            rw [← hei, h2] at this
            cases this
            rw [h3]
          | none =>
            simp only
            by_cases hie : ie.id = d'.id
            · rw [if_pos hie]
              have h2 := lookup_row hm hr'
              rw [← hie, hk] at h2
              cases h2
              simp only [hv]
              rw [List.getElem?_set_self hklt]
            · rw [if_neg hie]
              simp only
              have : k ≠ k' := by
                rintro rfl
                have : d = d' := by have := hr.symm.trans hr'; simpa using this
                subst this
                exact hie hid.symm
              rw [List.getElem?_set_ne this]
        · intro ho i
          rw [this.mask ho i]
          simp only
          have hmask : s1.mask.getLsbD i = true ↔ s.mask.getLsbD i = true ∨ (d.opt = true ∧ i = bitOf m k) := by
            rw [← hs1]
            by_cases hdo : d.opt = true
            · rw [if_pos hdo]
              simp only
              rw [hsh, setPresent_getLsbD (bitOf_lt hm hr hdo)]
              simp [hdo]
            · rw [if_neg hdo]; simp [hdo]
          rw [hmask]
          constructor
          · rintro ((h | ⟨hdo, rfl⟩) | ⟨k', d', h1, h2, h3, e, h4, h5⟩)
            · exact Or.inl h
            · exact Or.inr ⟨k, d, hr, hdo, rfl, ie, List.mem_cons_self, hid.symm⟩
            · exact Or.inr ⟨k', d', h1, h2, h3, e, List.mem_cons_of_mem _ h4, h5⟩
          · rintro (h | ⟨k', d', h1, h2, h3, e, h4, h5⟩)
            · exact Or.inl (Or.inl h)
            · rcases List.mem_cons.1 h4 with rfl | h4
              · have h6 := lookup_row hm h1
                rw [← h5, hk] at h6
                cases h6
                exact Or.inl (Or.inr ⟨h2, h3.symm⟩)
              · exact Or.inr ⟨k', d', h1, h2, h3, e, h4, h5⟩

/-! ## Containers -/

theorem allSome_map {α β : Type} {f : α → Option β} {g : α → β} {l : List α} (h : ∀ a ∈ l, f a = some (g a)) :
    allSome (l.map f) = some (l.map g) := by
  induction l with
  | nil => rfl
  | cons a l ih =>
    simp only [List.map_cons, h a List.mem_cons_self, allSome, ih fun b hb => h b (List.mem_cons_of_mem _ hb)]
    rfl

theorem ofVal_toVal (ie : Ie) : Ie.ofVal ie.toVal = some ie := by
  simp [Ie.ofVal, Ie.toVal]

theorem elements_container (l : List Ie) : elements (container l) = some l := by
  simp only [elements, container, List.map_map]
  have : allSome (l.map (Ie.ofVal ∘ Ie.toVal)) = some (l.map id) :=
    allSome_map fun a _ => ofVal_toVal a
  simpa using this

theorem good_ok {m : MsgDef} (hm : Good m) : m.ty.ok = true := by
  obtain ⟨ext, s, r, c, h, -, -, a, b, rfl, hab⟩ := hm.shape
  rw [h]
  simp [Ty.ok, Fields.ok, hab]

/-- Octets produced from a list of elements carry that list. -/
theorem carries_encode {m : MsgDef} (hm : Good m) {l : List Ie} {bs : Bytes}
    (h : encode m.ty (container l) = some bs) : Carries m bs l :=
  decode_encode (good_ok hm) h

theorem bind_some {α β : Type} {d : Dec α} {f : α → Dec β} {i : In} {b : β} {j : In}
    (h : (d >>= f) i = some (b, j)) : ∃ a k, d i = some (a, k) ∧ f a k = some (b, j) := by
  rw [bind_apply] at h
  cases hd : d i with
  | none => rw [hd] at h; cases h
  | some x => obtain ⟨a, k⟩ := x; rw [hd] at h; exact ⟨a, k, rfl, h⟩

theorem dInt_nonneg {r : Range} (hr : 0 ≤ r.lb) (hx : r.ext = false) {i j : In} {n : Int}
    (h : dInt r i = some (n, j)) : 0 ≤ n := by
  unfold dInt at h
  simp only [hx, if_neg Bool.false_ne_true] at h
  obtain ⟨a, k, h1, h2⟩ := bind_some h
  rw [pure_apply] at h1
  cases h1
  simp only [if_neg Bool.false_ne_true] at h2
  obtain ⟨a, k, h3, h4⟩ := bind_some h2
  rw [pure_apply] at h4
  cases h4
  omega

theorem dList_mem {d : Dec Val} {n : Nat} {i j : In} {vs : List Val} {P : Val → Prop}
    (hP : ∀ i v j, d i = some (v, j) → P v) (h : dList d n i = some (vs, j)) : ∀ v ∈ vs, P v := by
  induction n generalizing i vs with
  | zero => simp only [dList, pure_apply, Option.some.injEq, Prod.mk.injEq] at h; simp [← h.1]
  | succ n ih =>
    unfold dList at h
    obtain ⟨v, k, h1, h2⟩ := bind_some h
    obtain ⟨vs', k', h3, h4⟩ := bind_some h2
    rw [pure_apply] at h4
    cases h4
    intro w hw
    rcases List.mem_cons.1 hw with rfl | hw
    · exact hP _ _ _ h1
    · exact ih h3 w hw

theorem dec_seq {ext : Bool} {fs : Fields} {i j : In} {v : Val} (h : dec (.seq ext fs) i = some (v, j)) :
    ∃ bm i' vs j', decFields fs bm i' = some (vs, j') ∧ v = .seq vs := by
  have key : ∀ (out : Bool) (i : In), (dTake fs.numOpt >>= fun bm => decFields fs bm >>= fun vs =>
      if out = true then dSkipExt >>= fun _ => pure (Val.seq vs) else pure (Val.seq vs)) i = some (v, j) →
      ∃ bm i' vs j', decFields fs bm i' = some (vs, j') ∧ v = .seq vs := by
    intro out i h
    obtain ⟨bm, i2, h2, h⟩ := bind_some h
    obtain ⟨vs, i3, h3, h⟩ := bind_some h
    refine ⟨bm, i2, vs, i3, h3, ?_⟩
    by_cases ho : out = true
    · rw [if_pos ho] at h
      obtain ⟨_, i4, _, h⟩ := bind_some h
      rw [pure_apply] at h; cases h; rfl
    · rw [if_neg ho, pure_apply] at h; cases h; rfl
  simp only [dec] at h
  cases ext with
  | true =>
    simp only [if_true] at h
    obtain ⟨out, i1, h1, h⟩ := bind_some h
    exact key out i1 h
  | false =>
    simp only [if_neg Bool.false_ne_true] at h
    obtain ⟨out, i1, h1, h⟩ := bind_some h
    exact key out i1 h

theorem all_toVal {l : List Val} (h : ∀ v ∈ l, ∃ ie : Ie, v = ie.toVal) : ∃ l' : List Ie, l = l'.map Ie.toVal := by
  induction l with
  | nil => exact ⟨[], rfl⟩
  | cons x l ih =>
    obtain ⟨ie, rfl⟩ := h x List.mem_cons_self
    obtain ⟨l', rfl⟩ := ih fun v hv => h v (List.mem_cons_of_mem _ hv)
    exact ⟨ie :: l', rfl⟩

/-- What the decoder of an element returns. -/
theorem ie_dec {r : Range} {a b : Nat} (hr : 0 ≤ r.lb) (hx : r.ext = false) {i j : In} {v : Val}
    (h : dec (.seq false (.cons false (.int r) (.cons false (.enum a b false) (.cons false .any .nil)))) i = some (v, j)) :
    ∃ ie : Ie, v = ie.toVal := by
  obtain ⟨bm, i1, vs, i2, h3, rfl⟩ := dec_seq h
  simp only [decFields, dec] at h3
  obtain ⟨v1, k1, h4, h3⟩ := bind_some h3
  obtain ⟨n, k2, h5, h4⟩ := bind_some h4
  rw [pure_apply] at h4; cases h4
  obtain ⟨vs1, k3, h6, h3⟩ := bind_some h3
  rw [pure_apply] at h3; cases h3
  obtain ⟨v2, k4, h7, h6⟩ := bind_some h6
  obtain ⟨c, k5, h8, h7⟩ := bind_some h7
  rw [pure_apply] at h7; cases h7
  obtain ⟨vs2, k6, h9, h6⟩ := bind_some h6
  rw [pure_apply] at h6; cases h6
  obtain ⟨v3, k7, h10, h9⟩ := bind_some h9
  obtain ⟨o, k8, h11, h10⟩ := bind_some h10
  rw [pure_apply] at h10; cases h10
  obtain ⟨vs3, k9, h12, h9⟩ := bind_some h9
  rw [pure_apply] at h12; cases h12
  rw [pure_apply] at h9; cases h9
  have hn := dInt_nonneg hr hx h5
  refine ⟨⟨n.toNat, c, o⟩, ?_⟩
  simp only [Ie.toVal, Int.toNat_of_nonneg hn]

/-- What the decoder of a container returns is a list of elements. -/
theorem elements_dec {m : MsgDef} (hm : Good m) {bs : Bytes} {v : Val} (h : decode m.ty bs = some v) :
    ∃ l, v = container l := by
  obtain ⟨ext, s, r, c, hs, hr, hx, a, b, rfl, -⟩ := hm.shape
  rw [hs] at h
  unfold decode at h
  split at h
  · cases h
  · next w j hd =>
    cases h
    obtain ⟨bm, i1, vs, i2, h3, rfl⟩ := dec_seq hd
    unfold decFields at h3
    obtain ⟨v1, k1, h4, h3⟩ := bind_some h3
    obtain ⟨vs1, k2, h5, h3⟩ := bind_some h3
    simp only [decFields] at h5
    rw [pure_apply] at h5; cases h5
    rw [pure_apply] at h3; cases h3
    unfold dec at h4
    obtain ⟨n, k3, h6, h4⟩ := bind_some h4
    obtain ⟨l, k4, h7, h4⟩ := bind_some h4
    rw [pure_apply] at h4; cases h4
    have hl := dList_mem (P := fun v => ∃ ie : Ie, v = ie.toVal) (fun i v j hv => ie_dec hr hx hv) h7
    have := all_toVal hl
    obtain ⟨l', rfl⟩ := this
    exact ⟨l', rfl⟩

/-- Either the octets carry some list of elements, or they are not a container. -/
theorem carries_or_not {m : MsgDef} (hm : Good m) (bs : Bytes) :
    (∃ l, Carries m bs l) ∨ decode m.ty bs = none := by
  cases h : decode m.ty bs with
  | none => exact Or.inr rfl
  | some v =>
    obtain ⟨l, rfl⟩ := elements_dec hm h
    exact Or.inl ⟨l, h⟩

/-! ## The decode function -/

theorem zero_vals (m : MsgDef) {k : Nat} {d : IeDef} (h : Row m k d) : m.zero.vals[k]? = some none := by
  simp only [MsgDef.zero, Struct.vals, List.map_map, List.getElem?_map]
  rw [show m.ies[k]? = some d from h]
  rfl

theorem decodeIes_carries {α : Type} {m : MsgDef} {bs : Bytes} {l : List Ie} (h : Carries m bs l) (μ : Mem α) :
    (decodeIes m bs μ).1 = ((if (decodeRows m l m.zero (μ.alloc true).2).1.1 then 0 else -1),
      (decodeRows m l m.zero (μ.alloc true).2).1.2) := by
  unfold decodeIes
  unfold Carries at h
  rw [h]
  simp only [elements_container]

structure DecSpec (m : MsgDef) (l : List Ie) (rc : Int) (s : Struct) : Prop where
  rc_cases : rc = 0 ∨ rc = -1
  ok_iff : rc = 0 ↔ ∀ ie ∈ l, Valid m ie
  len : s.fields.length = m.ies.length
  val : rc = 0 → ∀ k d, Row m k d → s.vals[k]? = some (lastVal d l)
  bit : rc = 0 → ∀ k d, Row m k d → d.opt = true → (bit m s k = true ↔ ∃ ie ∈ l, ie.id = d.id)
  rest : rc = 0 → ∀ i, s.mask.getLsbD i = true → ∃ k d, Row m k d ∧ d.opt = true ∧ bitOf m k = i

theorem decodeIes_spec {α : Type} {m : MsgDef} (hm : Good m) {bs : Bytes} {l : List Ie} (h : Carries m bs l)
    (μ : Mem α) : DecSpec m l (decodeIes m bs μ).1.1 (decodeIes m bs μ).1.2 := by
  rw [decodeIes_carries h μ]
  have hs := decodeRows_spec hm l m.zero (μ.alloc true).2 (by simp [MsgDef.zero])
  revert hs
  generalize (decodeRows m l m.zero (μ.alloc true).2).1 = r
  obtain ⟨ok, s⟩ := r
  intro hs
  simp only at hs ⊢
  have hok : (if ok = true then (0 : Int) else -1) = 0 ↔ ok = true := by cases ok <;> simp
  have hz : ∀ i, m.zero.mask.getLsbD i = false := by intro i; simp [MsgDef.zero]
  refine ⟨by cases ok <;> simp, by rw [hok]; exact hs.ok_iff, hs.len, ?_, ?_, ?_⟩
  · intro h0 k d hr
    rw [hs.val (hok.1 h0) k d hr]
    cases lastVal d l with
    | some v => rfl
    | none => simp only; rw [zero_vals m hr]
  · intro h0 k d hr ho
    unfold Spec.bit
    rw [hs.mask (hok.1 h0)]
    simp only [hz, Bool.false_eq_true, false_or]
    constructor
    · rintro ⟨k', d', hr', ho', hb, e, he, hid⟩
      have := bitOf_inj hr' hr ho' ho hb
      subst this
      have : d' = d := by have := hr'.symm.trans hr; simpa using this
      subst this
      exact ⟨e, he, hid⟩
    · rintro ⟨e, he, hid⟩
      exact ⟨k, d, hr, ho, rfl, e, he, hid⟩
  · intro h0 i hi
    rw [hs.mask (hok.1 h0)] at hi
    simp only [hz, Bool.false_eq_true, false_or] at hi
    obtain ⟨k, d, hr, ho, hb, -⟩ := hi
    exact ⟨k, d, hr, ho, hb⟩

/-! ## The encode function -/

/-- The elements a structure is encoded to. -/
structure EncSpec (m : MsgDef) (s : Struct) (l : List Ie) : Prop where
  /-- every element is an included row with its value -/
  sound : ∀ ie ∈ l, ∃ k d v, Row m k d ∧ Included m s k d ∧ ie.id = d.id ∧ ie.crit = d.crit ∧
    valueOf s k d = some v ∧ encode d.ty v = some ie.value
  /-- every included row is there -/
  complete : ∀ k d, Row m k d → Included m s k d → ∃ ie ∈ l, ie.id = d.id
  /-- in table order, once each -/
  order : (l.map (·.id)).Sublist (m.ies.map (·.id))

theorem encodeRows_spec {ds : List IeDef} {sh : Nat} {mask : BitVec 16} {fs : List (Option Slot)} {l : List Ie}
    (h : encodeRows ds sh mask fs = some l) (hb : sh + (ds.filter (·.opt)).length ≤ 16) :
    (∀ ie ∈ l, ∃ k d f v, ds[k]? = some d ∧ fs[k]? = some f ∧
      (d.opt = false ∨ mask.getLsbD (sh + ((ds.take k).filter (·.opt)).length) = true) ∧
      ie.id = d.id ∧ ie.crit = d.crit ∧
      (match f with | some s => some s.val | none => zeroVal d.ty) = some v ∧ encode d.ty v = some ie.value) ∧
    (∀ k d, ds[k]? = some d → (d.opt = false ∨ mask.getLsbD (sh + ((ds.take k).filter (·.opt)).length) = true) →
      ∃ ie ∈ l, ie.id = d.id) ∧
    (l.map (·.id)).Sublist (ds.map (·.id)) := by
  induction ds generalizing sh fs l with
  | nil =>
    simp only [encodeRows, Option.some.injEq] at h
    subst h
    exact ⟨by simp, by simp, by simp⟩
  | cons d ds ih =>
    cases fs with
    | nil => simp [encodeRows] at h
    | cons f fs =>
      unfold encodeRows at h
      have hbit : d.opt = true → isPresent mask sh = mask.getLsbD sh := fun ho => by
        apply isPresent_eq
        rw [List.filter_cons, if_pos ho, List.length_cons] at hb
        omega
      have hlen : ∀ j, sh + (((d :: ds).take (j + 1)).filter (·.opt)).length =
          (if d.opt then sh + 1 else sh) + ((ds.take j).filter (·.opt)).length := by
        intro j
        rw [List.take_succ_cons, List.filter_cons]
        cases d.opt <;> simp; omega
      have hb' : (if d.opt then sh + 1 else sh) + (ds.filter (·.opt)).length ≤ 16 := by
        rw [List.filter_cons] at hb
        cases ho : d.opt <;> rw [ho] at hb <;> simp at hb ⊢ <;> omega
      by_cases hc : (d.opt && !isPresent mask sh) = true
      · rw [if_pos hc] at h
        simp only [Bool.and_eq_true, Bool.not_eq_true'] at hc
        have hsh : (if d.opt then sh + 1 else sh) = sh + 1 := by rw [if_pos hc.1]
        rw [hsh] at hb' hlen
        obtain ⟨h1, h2, h3⟩ := ih h hb'
        refine ⟨?_, ?_, List.Sublist.cons _ h3⟩
        · intro ie hie
          obtain ⟨k, e, g, v, a1, a2, a3, a4⟩ := h1 ie hie
          refine ⟨k + 1, e, g, v, by simpa using a1, by simpa using a2, ?_, a4⟩
          rw [hlen]; exact a3
        · intro k e hk hi
          cases k with
          | zero =>
            simp only [List.getElem?_cons_zero, Option.some.injEq] at hk
            subst hk
            rcases hi with hi | hi
            · rw [hc.1] at hi; cases hi
            · rw [hbit hc.1] at hc
              simp at hi
              rw [hc.2] at hi; cases hi
          | succ k =>
            rw [hlen] at hi
            exact h2 k e (by simpa using hk) hi
      · rw [if_neg hc] at h
        cases hn : newIe d.id d.crit d.ty f with
        | none => rw [hn] at h; cases h
        | some ie0 =>
          rw [hn] at h
          simp only at h
          cases hr : encodeRows ds (if d.opt then sh + 1 else sh) mask fs with
          | none => rw [hr] at h; cases h
          | some r =>
            rw [hr] at h
            cases h
            obtain ⟨h1, h2, h3⟩ := ih hr hb'
            have hn' : ie0.id = d.id ∧ ie0.crit = d.crit ∧ ∃ v,
                (match f with | some s => some s.val | none => zeroVal d.ty) = some v ∧
                encode d.ty v = some ie0.value := by
              unfold newIe at hn
              split at hn
              · cases hn
              · next v hv =>
                cases he : encode d.ty v with
                | none => rw [he] at hn; cases hn
                | some b => rw [he] at hn; cases hn; exact ⟨rfl, rfl, v, hv, he⟩
            obtain ⟨e1, e2, v, e3, e4⟩ := hn'
            refine ⟨?_, ?_, ?_⟩
            · intro ie hie
              rcases List.mem_cons.1 hie with rfl | hie
              · refine ⟨0, d, f, v, rfl, rfl, ?_, e1, e2, e3, e4⟩
                simp only [Bool.and_eq_true, Bool.not_eq_true', not_and, Bool.not_eq_false] at hc
                by_cases ho : d.opt = true
                · right
                  have := hc ho
                  rw [hbit ho] at this
                  simpa using this
                · left; simpa using ho
              · obtain ⟨k, e, g, v, a1, a2, a3, a4⟩ := h1 ie hie
                refine ⟨k + 1, e, g, v, by simpa using a1, by simpa using a2, ?_, a4⟩
                rw [hlen]; exact a3
            · intro k e hk hi
              cases k with
              | zero =>
                simp only [List.getElem?_cons_zero, Option.some.injEq] at hk
                subst hk
                exact ⟨ie0, List.mem_cons_self, e1⟩
              | succ k =>
                rw [hlen] at hi
                obtain ⟨ie, hie, hid⟩ := h2 k e (by simpa using hk) hi
                exact ⟨ie, List.mem_cons_of_mem _ hie, hid⟩
            · simp only [List.map_cons, e1]
              exact List.Sublist.cons_cons _ h3

theorem encodeIes_spec {m : MsgDef} (hm : Good m) {s : Struct} {l : List Ie} (h : encodeIes m s = some l) :
    EncSpec m s l := by
  obtain ⟨h1, h2, h3⟩ := encodeRows_spec h (by simpa using hm.bits)
  refine ⟨?_, ?_, h3⟩
  · intro ie hie
    obtain ⟨k, d, f, v, a1, a2, a3, a4, a5, a6, a7⟩ := h1 ie hie
    refine ⟨k, d, v, a1, by simpa [Included, Spec.bit, bitOf] using a3, a4, a5, ?_, a7⟩
    unfold valueOf Struct.vals
    rw [List.getElem?_map, a2]
    cases f <;> simpa using a6
  · intro k d hr hi
    exact h2 k d hr (by simpa [Included, Spec.bit, bitOf] using hi)

/-- What the round trip preserves. -/
structure RoundTrip (m : MsgDef) (s s' : Struct) : Prop where
  included : ∀ k d, Row m k d → Included m s k d → ∃ v, valueOf s k d = some v ∧ s'.vals[k]? = some (some v)
  absent : ∀ k d, Row m k d → ¬ Included m s k d → s'.vals[k]? = some none
  bits : ∀ k d, Row m k d → d.opt = true → bit m s' k = bit m s k
  rest : ∀ i, s'.mask.getLsbD i = true → ∃ k d, Row m k d ∧ d.opt = true ∧ bitOf m k = i

theorem roundTrip {α : Type} {m : MsgDef} (hm : Good m) {s : Struct} {bs : Bytes} (h : encodeMsg m s = some bs)
    (μ : Mem α) : (decodeIes m bs μ).1.1 = 0 ∧ RoundTrip m s (decodeIes m bs μ).1.2 := by
  unfold encodeMsg at h
  cases he : encodeIes m s with
  | none => rw [he] at h; cases h
  | some l =>
    rw [he] at h
    have hc := carries_encode hm h
    have es := encodeIes_spec hm he
    have ds := decodeIes_spec hm hc μ
    have ok : (decodeIes m bs μ).1.1 = 0 := by
      rw [ds.ok_iff]
      intro ie hie
      obtain ⟨k, d, v, hr, hi, hid, -, hv, hev⟩ := es.sound ie hie
      refine ⟨d, List.mem_of_getElem? hr, hid.symm, ?_⟩
      rw [decode_encode (hm.types d (List.mem_of_getElem? hr)) hev]
      rfl
    have hnd : ∀ k d, Row m k d → ∀ ie ∈ l, ie.id = d.id → ∃ v, Included m s k d ∧ valueOf s k d = some v ∧
        decode d.ty ie.value = some v := by
      intro k d hr ie hie hid
      obtain ⟨k', d', v, hr', hi, hid', -, hv, hev⟩ := es.sound ie hie
      obtain ⟨rfl, rfl⟩ := row_unique hm hr' hr (by rw [← hid', hid])
      exact ⟨v, hi, hv, decode_encode (hm.types d' (List.mem_of_getElem? hr)) hev⟩
    refine ⟨ok, ?_, ?_, ?_, ds.rest ok⟩
    · intro k d hr hi
      obtain ⟨ie, hie, hid⟩ := es.complete k d hr hi
      rw [ds.val ok k d hr]
      unfold lastVal
      cases hl : lastWith d.id l with
      | none => exact absurd hid (lastWith_none.1 hl ie hie)
      | some e =>
        obtain ⟨hel, heid⟩ := lastWith_some hl
        obtain ⟨v, -, hv, hdv⟩ := hnd k d hr e hel heid
        exact ⟨v, hv, by simp only [hdv]⟩
    · intro k d hr hi
      rw [ds.val ok k d hr]
      have : lastWith d.id l = none := lastWith_none.2 fun ie hie hid => by
        obtain ⟨v, hin, -⟩ := hnd k d hr ie hie hid
        exact hi hin
      simp only [lastVal, this]
    · intro k d hr ho
      rw [Bool.eq_iff_iff, ds.bit ok k d hr ho]
      constructor
      · rintro ⟨ie, hie, hid⟩
        obtain ⟨v, hin, -⟩ := hnd k d hr ie hie hid
        rcases hin with hin | hin
        · rw [ho] at hin; cases hin
        · exact hin
      · intro hb
        exact es.complete k d hr (Or.inr hb)

end Verif.Ie
