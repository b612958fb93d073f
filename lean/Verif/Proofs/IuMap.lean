import Verif.Proofs.IuFirst

/-!
# Effect of a registration on the area map and the addresses
-/

namespace Verif.Iu
open Spec

variable {env : Env}

/-- An RNC with this identity serves the area. -/
def Maps (l : List Rnc) (id : RncId) (area : Rai) : Prop := ∃ r ∈ l, SameRnc r.rncId id ∧ Serves r area

theorem maps_addArea {l : List Rnc} {p : Ptr} {e area : Rai} {id : RncId} :
    Maps (addArea p e l) id area ↔
      (SameArea e area ∧ ∃ r ∈ l, r.ptr = p ∧ SameRnc r.rncId id) ∨ Maps l id area := by
  unfold Maps addArea
  constructor
  · rintro ⟨r', hr', hid, x, hx, hxa⟩
    obtain ⟨r, hr, rfl⟩ := List.mem_map.1 hr'
    by_cases hp : r.ptr = p
    · rw [if_pos hp] at hid hx
      rcases List.mem_cons.1 hx with rfl | hx
      · exact .inl ⟨hxa, r, hr, hp, hid⟩
      · exact .inr ⟨r, hr, hid, x, hx, hxa⟩
    · rw [if_neg hp] at hid hx
      exact .inr ⟨r, hr, hid, x, hx, hxa⟩
  · rintro (⟨ha, r, hr, hp, hid⟩ | ⟨r, hr, hid, x, hx, hxa⟩)
    · refine ⟨_, List.mem_map.2 ⟨r, hr, rfl⟩, ?_⟩
      rw [if_pos hp]
      exact ⟨hid, e, List.mem_cons_self, ha⟩
    · refine ⟨_, List.mem_map.2 ⟨r, hr, rfl⟩, ?_⟩
      split
      · exact ⟨hid, x, List.mem_cons_of_mem _ hx, hxa⟩
      · exact ⟨hid, x, hx, hxa⟩

theorem maps_delArea {l : List Rnc} {n : Ptr} {old : Rnc} {e rai area : Rai} {id : RncId} (h : RInv l n)
    (ho : old ∈ l) (he : old.areas.find? (fun x => raiEq x rai) = some e) :
    Maps (delArea old.ptr rai l) id area ↔ Maps l id area ∧ ¬ SameArea rai area := by
  have hea : SameArea e rai := raiEq_iff.1 (by simpa using List.find?_some he)
  constructor
  · rintro ⟨r', hr', hid, x, hx, hxa⟩
    refine ⟨?_, fun hs => ?_⟩
    · obtain ⟨r, hr, rfl⟩ := List.mem_map.1 hr'
      split at hid
      · rename_i hp
        rw [if_pos hp] at hx
        exact ⟨r, hr, hid, x, List.mem_of_mem_eraseP hx, hxa⟩
      · rename_i hp
        rw [if_neg hp] at hx
        exact ⟨r, hr, hid, x, hx, hxa⟩
    · exact (delArea_inv h ho he).2 x (List.mem_flatMap.2 ⟨r', hr', hx⟩) (hea.trans (hs.trans hxa.symm))
  · rintro ⟨⟨r, hr, hid, x, hx, hxa⟩, hn⟩
    refine ⟨_, List.mem_map.2 ⟨r, hr, rfl⟩, ?_⟩
    split
    · refine ⟨hid, x, ?_, hxa⟩
      refine (List.mem_eraseP_of_neg ?_).2 hx
      intro hc
      exact hn ((raiEq_iff.1 hc).symm.trans hxa)
    · exact ⟨hid, x, hx, hxa⟩

theorem maps_ids {l : List Rnc} {n : Ptr} (h : RInv l n) {r r' : Rnc} (hr : r ∈ l) (hr' : r' ∈ l)
    (hs : SameRnc r.rncId r'.rncId) : r = r' := by
  have hpw := h.ids
  clear h
  induction l with
  | nil => cases hr
  | cons x l ih =>
    rw [List.pairwise_cons] at hpw
    rcases List.mem_cons.1 hr with rfl | hr2
    · rcases List.mem_cons.1 hr' with rfl | hr'
      · rfl
      · exact absurd hs (hpw.1 _ hr')
    · rcases List.mem_cons.1 hr' with rfl | hr1
      · exact absurd hs.symm (hpw.1 _ hr2)
      · exact ih hr2 hr1 hpw.2

/-- At most one RNC serves an area. -/
theorem serves_unique {l : List Rnc} {n : Ptr} (h : RInv l n) {r r' : Rnc} {area : Rai} (hr : r ∈ l) (hr' : r' ∈ l)
    (hs : Serves r area) (hs' : Serves r' area) : r = r' := by
  obtain ⟨e, he, hea⟩ := hs
  obtain ⟨e', he', hea'⟩ := hs'
  have hee : SameArea e e' := hea.trans hea'.symm
  have hpw := h.areas
  clear h
  induction l with
  | nil => cases hr
  | cons x l ih =>
    rw [List.flatMap_cons, List.pairwise_append] at hpw
    rcases List.mem_cons.1 hr with rfl | hr1
    · rcases List.mem_cons.1 hr' with rfl | hr'
      · rfl
      · exact absurd hee (hpw.2.2 e he e' (List.mem_flatMap.2 ⟨r', hr', he'⟩))
    · rcases List.mem_cons.1 hr' with rfl | hr'
      · exact absurd hee.symm (hpw.2.2 e' he' e (List.mem_flatMap.2 ⟨r, hr1, he⟩))
      · exact ih hr1 hr' hpw.2.1

theorem maps_reg2 {l : List Rnc} {n : Ptr} {p : Ptr} {rai area : Rai} {id id' : RncId} (h : RInv l n)
    {r0 : Rnc} (hr0 : r0 ∈ l) (hp0 : r0.ptr = p) (hid0 : SameRnc r0.rncId id) :
    (Maps (reg2 l p rai).1 id' area ↔
      (SameArea rai area ∧ SameRnc id id') ∨ (¬ SameArea rai area ∧ Maps l id' area)) ∧
    ((reg2 l p rai).2 = true ↔ ¬ Maps l id rai) := by
  have hpu : ∀ r ∈ l, r.ptr = p → r = r0 := fun r hr hp => ptr_inj h.nodup hr hr0 (by rw [hp, hp0])
  unfold reg2
  cases ha : areaFind l rai with
  | none =>
    rw [areaFind_none] at ha
    have hnm : ∀ i b, SameArea rai b → ¬ Maps l i b := by
      rintro i b hs ⟨r, hr, _, x, hx, hxa⟩
      exact ha r hr ⟨x, hx, hxa.trans hs.symm⟩
    refine ⟨?_, ?_⟩
    · rw [maps_addArea]
      constructor
      · rintro (⟨hs, r, hr, hp, hid⟩ | hm)
        · exact .inl ⟨hs, by rw [hpu r hr hp] at hid; exact hid0.symm.trans hid⟩
        · exact .inr ⟨fun hs => hnm _ _ hs hm, hm⟩
      · rintro (⟨hs, hid⟩ | ⟨_, hm⟩)
        · exact .inl ⟨hs, r0, hr0, hp0, hid0.trans hid⟩
        · exact .inr hm
    · simp only [true_iff]; exact hnm _ _ (SameArea.refl rai)
  | some oe =>
    obtain ⟨old, e⟩ := oe
    obtain ⟨ho, he, hea⟩ := areaFind_some ha
    simp only
    have hso : Serves old rai := ⟨e, List.mem_of_find?_eq_some he, hea⟩
    by_cases hop : old.ptr = p
    · rw [if_neg (by simpa using hop)]
      have hor : old = r0 := hpu old ho hop
      subst hor
      refine ⟨⟨fun hm => ?_, ?_⟩, ?_⟩
      · by_cases hs : SameArea rai area
        · obtain ⟨r, hr, hid, x, hx, hxa⟩ := hm
          have : r = old := serves_unique h hr ho ⟨x, hx, hxa.trans hs.symm⟩ hso
          subst this
          exact .inl ⟨hs, hid0.symm.trans hid⟩
        · exact .inr ⟨hs, hm⟩
      · rintro (⟨hs, hid⟩ | ⟨_, hm⟩)
        · obtain ⟨x, hx, hxa⟩ := hso
          exact ⟨old, ho, hid0.trans hid, x, hx, hxa.trans hs⟩
        · exact hm
      · simp only [Bool.false_eq_true, false_iff, Classical.not_not]
        exact ⟨old, ho, hid0, hso⟩
    · rw [if_pos (by simpa using hop)]
      have hdi := delArea_inv h ho he
      refine ⟨?_, ?_⟩
      · rw [maps_addArea, maps_delArea h ho he]
        constructor
        · rintro (⟨hs, r, hr, hp, hid⟩ | ⟨hm, hn⟩)
          · obtain ⟨r1, hr1, rfl⟩ := List.mem_map.1 hr
            have hr1p : r1.ptr = p := by split at hp <;> exact hp
            have hr1i : SameRnc r1.rncId id' := by split at hid <;> exact hid
            rw [hpu r1 hr1 hr1p] at hr1i
            exact .inl ⟨hea.symm.trans hs, hid0.symm.trans hr1i⟩
          · exact .inr ⟨hn, hm⟩
        · rintro (⟨hs, hid⟩ | ⟨hn, hm⟩)
          · refine .inl ⟨hea.trans hs, _, List.mem_map.2 ⟨r0, hr0, rfl⟩, ?_⟩
            split
            · exact ⟨hp0, hid0.trans hid⟩
            · exact ⟨hp0, hid0.trans hid⟩
          · exact .inr ⟨hm, hn⟩
      · simp only [true_iff]
        rintro ⟨r, hr, hid, hs⟩
        have h1 : r = old := serves_unique h hr ho hs hso
        have h2 : r = r0 := maps_ids h hr hr0 (hid.trans hid0.symm)
        exact hop (by rw [← h1, h2, hp0])

/-- Records keep identity and address when areas move. -/
theorem reg2_recs {l : List Rnc} {p : Ptr} {rai : Rai} :
    (reg2 l p rai).1.map (fun r => (r.ptr, r.rncId, r.addr)) = l.map fun r => (r.ptr, r.rncId, r.addr) := by
  have hadd : ∀ (l : List Rnc) (q : Ptr) (e : Rai), (addArea q e l).map (fun r => (r.ptr, r.rncId, r.addr)) =
      l.map fun r => (r.ptr, r.rncId, r.addr) := by
    intro l q e
    unfold addArea
    rw [List.map_map]
    apply List.map_congr_left
    intro r _
    simp only [Function.comp]; split <;> rfl
  have hdel : ∀ (l : List Rnc) (q : Ptr) (e : Rai), (delArea q e l).map (fun r => (r.ptr, r.rncId, r.addr)) =
      l.map fun r => (r.ptr, r.rncId, r.addr) := by
    intro l q e
    unfold delArea
    rw [List.map_map]
    apply List.map_congr_left
    intro r _
    simp only [Function.comp]; split <;> rfl
  unfold reg2
  split
  · split
    · rw [hadd, hdel]
    · rfl
  · rw [hadd]

/-- The address text is the same. -/
def SameText (env : Env) (a b : SccpAddr) : Prop := (env.dump a).take 255 = env.dump b

theorem recs_mem {l l' : List Rnc} (h : l.map (fun r => (r.ptr, r.rncId, r.addr)) = l'.map fun r => (r.ptr, r.rncId, r.addr))
    {r : Rnc} (hr : r ∈ l) : ∃ r' ∈ l', r'.ptr = r.ptr ∧ r'.rncId = r.rncId ∧ r'.addr = r.addr := by
  have : (r.ptr, r.rncId, r.addr) ∈ l.map fun r => (r.ptr, r.rncId, r.addr) := List.mem_map.2 ⟨r, hr, rfl⟩
  rw [h] at this
  obtain ⟨r', hr', he⟩ := List.mem_map.1 this
  injection he with h1 h2
  injection h2 with h2 h3
  exact ⟨r', hr', h1, h2, h3⟩

theorem maps_reg1 {s : State} (id : RncId) (addr : SccpAddr) {id' : RncId} {area : Rai} :
    Maps (reg1 env s id addr).1 id' area ↔ Maps s.rncs id' area := by
  unfold reg1 Maps
  cases hf : rncIdFind s id with
  | none =>
    simp only [List.mem_cons, exists_eq_or_imp]
    constructor
    · rintro (⟨_, x, hx, _⟩ | h)
      · cases hx
      · exact h
    · exact .inr
  | some r =>
    simp only
    split
    · constructor
      · rintro ⟨x', hx', hid, hs⟩
        obtain ⟨x, hx, rfl⟩ := List.mem_map.1 hx'
        refine ⟨x, hx, ?_⟩
        split at hid
        · rename_i hp; rw [if_pos hp] at hs; exact ⟨hid, hs⟩
        · rename_i hp; rw [if_neg hp] at hs; exact ⟨hid, hs⟩
      · rintro ⟨x, hx, hid, hs⟩
        refine ⟨_, List.mem_map.2 ⟨x, hx, rfl⟩, ?_⟩
        split
        · exact ⟨hid, hs⟩
        · exact ⟨hid, hs⟩
    · exact Iff.rfl

theorem addr_reg1 {s : State} (id : RncId) (addr : SccpAddr) (h : RInv s.rncs s.next) :
    (∀ r ∈ (reg1 env s id addr).1,
      (SameRnc r.rncId id ∧ (r.addr = addr ∨ SameText env r.addr addr)) ∨
      (¬ SameRnc r.rncId id ∧ ∃ r0 ∈ s.rncs, r0.ptr = r.ptr ∧ r0.rncId = r.rncId ∧ r0.addr = r.addr)) ∧
    (∀ r0 ∈ s.rncs, ∃ r ∈ (reg1 env s id addr).1, r.ptr = r0.ptr ∧ r.rncId = r0.rncId) := by
  unfold reg1
  cases hf : rncIdFind s id with
  | none =>
    have hn := rncIdFind_none hf
    refine ⟨?_, fun r0 hr0 => ⟨r0, List.mem_cons_of_mem _ hr0, rfl, rfl⟩⟩
    intro r hr
    rcases List.mem_cons.1 hr with rfl | hr
    · exact .inl ⟨SameRnc.refl _, .inl rfl⟩
    · exact .inr ⟨hn r hr, r, hr, rfl, rfl, rfl⟩
  | some r0 =>
    obtain ⟨hr0, hid0⟩ := rncIdFind_some hf
    simp only
    cases hs : sameSccpAddr env r0.addr addr with
    | false =>
      simp only [Bool.not_false, if_true]
      refine ⟨?_, ?_⟩
      · intro r' hr'
        obtain ⟨r, hr, rfl⟩ := List.mem_map.1 hr'
        by_cases hp : r.ptr = r0.ptr
        · have : r = r0 := ptr_inj h.nodup hr hr0 hp
          subst this
          rw [if_pos rfl]
          exact .inl ⟨hid0, .inl rfl⟩
        · rw [if_neg hp]
          refine .inr ⟨fun hid => hp ?_, r, hr, rfl, rfl, rfl⟩
          rw [maps_ids h hr hr0 (hid.trans hid0.symm)]
      · intro r hr
        refine ⟨_, List.mem_map.2 ⟨r, hr, rfl⟩, ?_⟩
        split <;> exact ⟨rfl, rfl⟩
    | true =>
      simp only [Bool.not_true, Bool.false_eq_true, if_false]
      refine ⟨?_, fun r hr => ⟨r, hr, rfl, rfl⟩⟩
      intro r hr
      by_cases hid : SameRnc r.rncId id
      · have : r = r0 := maps_ids h hr hr0 (hid.trans hid0.symm)
        subst this
        exact .inl ⟨hid, .inr (by simpa [sameSccpAddr, SameText] using hs)⟩
      · exact .inr ⟨hid, r, hr, rfl, rfl, rfl⟩

/-- Effect of a registration. -/
theorem regState_effect {s : State} (hs : RInv s.rncs s.next) (id : RncId) (rai : Rai) (addr : SccpAddr) :
    (∀ id' area, Maps (regState env s id rai addr).rncs id' area ↔
      (SameArea rai area ∧ SameRnc id id') ∨ (¬ SameArea rai area ∧ Maps s.rncs id' area)) ∧
    (regNew env s id rai addr = true ↔ ¬ Maps s.rncs id rai) ∧
    (∀ r ∈ (regState env s id rai addr).rncs,
      (SameRnc r.rncId id ∧ (r.addr = addr ∨ SameText env r.addr addr)) ∨
      (¬ SameRnc r.rncId id ∧ ∃ r0 ∈ s.rncs, r0.rncId = r.rncId ∧ r0.addr = r.addr)) ∧
    (∀ r0 ∈ s.rncs, ∃ r ∈ (regState env s id rai addr).rncs, r.ptr = r0.ptr ∧ r.rncId = r0.rncId) ∧
    (∃ r ∈ (regState env s id rai addr).rncs, r.ptr = regPtr env s id addr ∧ SameRnc r.rncId id) := by
  obtain ⟨h1, ⟨r0, hr0, hp0, hid0⟩, _, _, _⟩ := reg1_inv (env := env) id addr hs
  obtain ⟨ha1, ha2⟩ := addr_reg1 (env := env) id addr hs
  refine ⟨?_, ?_, ?_, ?_, ?_⟩
  · intro id' area
    have := (maps_reg2 (id' := id') (rai := rai) (area := area) h1 hr0 hp0 hid0).1
    unfold regState
    rw [this, maps_reg1]
  · have := (maps_reg2 (id' := id) (rai := rai) (area := rai) h1 hr0 hp0 hid0).2
    unfold regNew
    rw [this, maps_reg1]
  · intro r hr
    obtain ⟨r1, hr1, e1, e2, e3⟩ := recs_mem reg2_recs hr
    rcases ha1 r1 hr1 with ⟨h, h'⟩ | ⟨h, x, hx, hxp, hxi, hxa⟩
    · exact .inl ⟨by rw [← e2]; exact h, by rw [← e3]; exact h'⟩
    · exact .inr ⟨by rw [← e2]; exact h, x, hx, hxi.trans e2, hxa.trans e3⟩
  · intro r hr
    obtain ⟨r1, hr1, e1, e2⟩ := ha2 r hr
    obtain ⟨r2, hr2, f1, f2, f3⟩ := recs_mem (reg2_recs (p := (reg1 env s id addr).2.1) (rai := rai)).symm hr1
    exact ⟨r2, hr2, f1.trans e1, f2.trans e2⟩
  · obtain ⟨r2, hr2, f1, f2, f3⟩ := recs_mem (reg2_recs (p := (reg1 env s id addr).2.1) (rai := rai)).symm hr0
    exact ⟨r2, hr2, f1.trans hp0, by rw [f2]; exact hid0⟩

/-- Every address in the registry after a registration is the registered one, or was there before. -/
theorem regState_known {s : State} (hs : RInv s.rncs s.next) (id : RncId) (rai : Rai) (addr : SccpAddr) :
    ∀ r ∈ (regState env s id rai addr).rncs,
      (SameRnc r.rncId id ∧ r.addr = addr) ∨ ∃ r0 ∈ s.rncs, r0.rncId = r.rncId ∧ r0.addr = r.addr := by
  have h1 : ∀ r ∈ (reg1 env s id addr).1,
      (SameRnc r.rncId id ∧ r.addr = addr) ∨ ∃ r0 ∈ s.rncs, r0.rncId = r.rncId ∧ r0.addr = r.addr := by
    unfold reg1
    cases hf : rncIdFind s id with
    | none =>
      intro r hr
      rcases List.mem_cons.1 hr with rfl | hr
      · exact .inl ⟨SameRnc.refl _, rfl⟩
      · exact .inr ⟨r, hr, rfl, rfl⟩
    | some r0 =>
      obtain ⟨hr0, hid0⟩ := rncIdFind_some hf
      simp only
      split
      · intro r' hr'
        obtain ⟨r, hr, rfl⟩ := List.mem_map.1 hr'
        split
        · rename_i hp
          obtain rfl : r = r0 := ptr_inj hs.nodup hr hr0 hp
          exact .inl ⟨hid0, rfl⟩
        · exact .inr ⟨r, hr, rfl, rfl⟩
      · exact fun r hr => .inr ⟨r, hr, rfl, rfl⟩
  intro r hr
  obtain ⟨r1, hr1, e1, e2, e3⟩ := recs_mem reg2_recs hr
  rw [← e2, ← e3]
  exact h1 r1 hr1

/-- The registry after an operation. -/
theorem step_rncs {op : Op} {s s' : State} {rc : Int} (h : step env op s = .ok (rc, s')) :
    (registration env s op = none ∧ s'.rncs = s.rncs) ∨
    ∃ g, registration env s op = some g ∧ s'.rncs = (regState env s g.rnc g.area g.addr).rncs := by
  obtain ⟨ls, hp, h' | ⟨h1, h2⟩⟩ := step_shape h
  · obtain ⟨c, a, ies, id, ra, sai, hi, hr, _, pre, es, p, as, hpre, rfl, has, _, hes⟩ := h'
    refine .inr ⟨⟨id, areaOfRa ra, a⟩, ?_, ?_⟩
    · unfold registration; rw [hi]; simp only [hr, Option.map_some]
    · have hNes : ∀ x y, Path env es x y → y.rncs = x.rncs := by
        intro x y hxy
        rcases hes with ⟨_, rfl⟩ | ⟨_, as', rfl, has'⟩
        · cases hxy; rfl
        · obtain ⟨z, hz, hzy⟩ := hxy.cons_inv
          have := (hzy.keepRncs has'.noReg).1
          rw [this]; cases hz; rfl
      simp only [List.append_assoc, List.cons_append] at hp
      obtain ⟨s1, q1, hp⟩ := hp.append_inv
      obtain ⟨s2, a2, hp⟩ := hp.cons_inv
      obtain ⟨s3, a3, hp⟩ := hp.cons_inv
      obtain ⟨s4, q4, hp⟩ := hp.append_inv
      obtain ⟨s5, a5, hp⟩ := hp.cons_inv
      obtain ⟨s6, a6, hp⟩ := hp.cons_inv
      have e1 := q1.keepRncs hpre.noReg
      have e2 : s2.rncs = s1.rncs ∧ s2.next = s1.next := by cases a2; exact ⟨rfl, rfl⟩
      have e3 : s3 = regState env s2 id (areaOfRa ra) a := by cases a3; rfl
      have e4 := hNes _ _ q4
      have e5 : s5.rncs = s4.rncs := by cases a5; rfl
      have e6 : s6.rncs = s5.rncs := by cases a6; rfl
      have e7 := (hp.keepRncs (has.noReg.append (.one rfl))).1
      rw [e7, e6, e5, e4, e3]
      have hreg : reg1 env s2 id a = reg1 env s id a := by
        unfold reg1 rncIdFind
        rw [e2.1, e1.1, e2.2, e1.2]
      unfold regState
      simp only [hreg]
  · exact .inl ⟨h1, (hp.keepRncs h2).1⟩

end Verif.Iu
