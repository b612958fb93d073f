import Verif.Proofs.IuMap

/-!
# Registry and history, paging
-/

namespace Verif.Iu
open Spec

variable {env : Env}

theorem lastRnc_snoc (regs : List Registration) (g : Registration) (area : Rai) :
    lastRnc (regs ++ [g]) area = if SameArea g.area area then some g.rnc else lastRnc regs area := by
  unfold lastRnc
  rw [List.reverse_append]
  simp only [List.reverse_cons, List.reverse_nil, List.nil_append, List.cons_append, List.find?_cons]
  by_cases h : SameArea g.area area <;> simp [h]

theorem lastAddr_snoc (regs : List Registration) (g : Registration) (id : RncId) :
    lastAddr (regs ++ [g]) id = if SameRnc g.rnc id then some g.addr else lastAddr regs id := by
  unfold lastAddr
  rw [List.reverse_append]
  simp only [List.reverse_cons, List.reverse_nil, List.nil_append, List.cons_append, List.find?_cons]
  by_cases h : SameRnc g.rnc id <;> simp [h]

/-- The registry is what the registrations so far say. -/
structure MapInv (env : Env) (regs : List Registration) (l : List Rnc) : Prop where
  areas : ∀ area id, Maps l id area ↔ ∃ id', lastRnc regs area = some id' ∧ SameRnc id' id
  addrs : ∀ r ∈ l, ∃ a, lastAddr regs r.rncId = some a ∧ (r.addr = a ∨ SameText env r.addr a)
  recs : ∀ g ∈ regs, ∃ r ∈ l, SameRnc r.rncId g.rnc
  known : ∀ r ∈ l, ∃ g ∈ regs, SameRnc g.rnc r.rncId ∧ g.addr = r.addr

theorem MapInv.init : MapInv env [] init.rncs :=
  ⟨by intro area id; simp [Maps, Iu.init, lastRnc], by simp [Iu.init], by simp, by simp [Iu.init]⟩

theorem MapInv.reg {s : State} {regs : List Registration} (h : MapInv env regs s.rncs) (hi : RInv s.rncs s.next)
    (g : Registration) : MapInv env (regs ++ [g]) (regState env s g.rnc g.area g.addr).rncs := by
  obtain ⟨e1, _, e3, e4, r, hr, _, hrid⟩ := regState_effect (env := env) hi g.rnc g.area g.addr
  refine ⟨?_, ?_, ?_, ?_⟩
  · intro area id
    rw [e1, lastRnc_snoc]
    by_cases hs : SameArea g.area area
    · simp [hs]
    · simp [hs, h.areas]
  · intro r hr
    rw [lastAddr_snoc]
    rcases e3 r hr with ⟨hid, ha⟩ | ⟨hid, r0, hr0, he, ha⟩
    · rw [if_pos hid.symm]; exact ⟨_, rfl, ha⟩
    · rw [if_neg (fun hh => hid hh.symm), ← he, ← ha]; exact h.addrs r0 hr0
  · intro g' hg'
    rcases List.mem_append.1 hg' with hg' | hg'
    · obtain ⟨r0, hr0, hid⟩ := h.recs g' hg'
      obtain ⟨r1, hr1, _, he⟩ := e4 r0 hr0
      exact ⟨r1, hr1, by rw [he]; exact hid⟩
    · simp at hg'; subst hg'
      exact ⟨r, hr, hrid⟩
  · intro r hr
    rcases regState_known hi g.rnc g.area g.addr r hr with ⟨hid, ha⟩ | ⟨r0, hr0, hid, ha⟩
    · exact ⟨g, List.mem_append_right _ (List.mem_singleton_self _), hid.symm, ha.symm⟩
    · obtain ⟨g', hg', h1, h2⟩ := h.known r0 hr0
      exact ⟨g', List.mem_append_left _ hg', by rw [← hid]; exact h1, h2.trans ha⟩

theorem step_inv {op : Op} {s s' : State} {rc : Int} (h : step env op s = .ok (rc, s')) (hi : Inv s) : Inv s' :=
  wp_ok (inv_step op s hi) h

theorem run_cons {op : Op} {ops : List Op} {s s' : State} (h : run env (op :: ops) s = .ok ((), s')) :
    ∃ rc s1, step env op s = .ok (rc, s1) ∧ run env ops s1 = .ok ((), s') := bind_ok.1 h

theorem run_map {ops : List Op} {s s' : State} {regs : List Registration} (h : run env ops s = .ok ((), s'))
    (hi : Inv s) (hm : MapInv env regs s.rncs) : MapInv env (regs ++ registrations env s ops) s'.rncs := by
  induction ops generalizing s regs with
  | nil => cases h; simpa [registrations] using hm
  | cons op ops ih =>
    obtain ⟨rc, s1, h1, h2⟩ := run_cons h
    unfold registrations
    rw [h1]
    rw [← List.append_assoc]
    refine ih h2 (step_inv h1 hi) ?_
    rcases step_rncs h1 with ⟨e1, e2⟩ | ⟨g, e1, e2⟩
    · rw [e1, e2]; simpa using hm
    · rw [e1, e2]; exact hm.reg hi.reg g

/-- Contexts, RNC records and areas survive; the registry only grows. -/
theorem step_rncs_mono {op : Op} {s s' : State} {rc : Int} (h : step env op s = .ok (rc, s')) (hi : Inv s) :
    (∀ r0 ∈ s.rncs, ∃ r ∈ s'.rncs, r.ptr = r0.ptr ∧ r.rncId = r0.rncId) ∧
    (∀ area, (∃ r ∈ s.rncs, Serves r area) → ∃ r ∈ s'.rncs, Serves r area) := by
  rcases step_rncs h with ⟨_, e⟩ | ⟨g, _, e⟩
  · rw [e]; exact ⟨fun r hr => ⟨r, hr, rfl, rfl⟩, fun _ h => h⟩
  · rw [e]
    obtain ⟨e1, _, _, e4, _⟩ := regState_effect (env := env) hi.reg g.rnc g.area g.addr
    refine ⟨e4, ?_⟩
    rintro area ⟨r, hr, hs⟩
    by_cases ha : SameArea g.area area
    · obtain ⟨r', hr', _, hs'⟩ := (e1 g.rnc area).2 (.inl ⟨ha, SameRnc.refl _⟩)
      exact ⟨r', hr', hs'⟩
    · obtain ⟨r', hr', _, hs'⟩ := (e1 r.rncId area).2 (.inr ⟨ha, r, hr, SameRnc.refl _, hs⟩)
      exact ⟨r', hr', hs'⟩

theorem run_rncs_mono {ops : List Op} {s s' : State} (h : run env ops s = .ok ((), s')) (hi : Inv s) :
    (∀ r0 ∈ s.rncs, ∃ r ∈ s'.rncs, r.ptr = r0.ptr ∧ r.rncId = r0.rncId) ∧
    (∀ area, (∃ r ∈ s.rncs, Serves r area) → ∃ r ∈ s'.rncs, Serves r area) := by
  induction ops generalizing s with
  | nil => cases h; exact ⟨fun r hr => ⟨r, hr, rfl, rfl⟩, fun _ h => h⟩
  | cons op ops ih =>
    obtain ⟨rc, s1, h1, h2⟩ := run_cons h
    obtain ⟨a1, a2⟩ := step_rncs_mono h1 hi
    obtain ⟨b1, b2⟩ := ih h2 (step_inv h1 hi)
    refine ⟨?_, fun area ha => b2 area (a2 area ha)⟩
    intro r hr
    obtain ⟨r1, hr1, e1, e2⟩ := a1 r hr
    obtain ⟨r2, hr2, f1, f2⟩ := b1 r1 hr1
    exact ⟨r2, hr2, f1.trans e1, f2.trans e2⟩

/-! ## NEW_AREA -/

theorem areaOf_eq {ies : InitialUeIes} {id : RncId} {ra : GprsRaId} {sai : BitVec 16}
    (h : readInitialUe ies = some (id, ra, sai)) : areaOf (areaOfRa ra) = eventArea ra ies.rac.isSome := by
  unfold readInitialUe at h
  split at h
  · split at h
    · cases h
    · dsimp only at h
      split at h
      · rename_i hr
        injection h with h; injection h with _ h; injection h with h _
        subst h
        simp [areaOf, areaOfRa, eventArea, hr, RESERVED_RAC]
      · rename_i r rr hr
        split at h
        · cases h
        · rename_i hne
          injection h with h; injection h with _ h; injection h with h _
          subst h
          have : ¬ r = 255#8 := hne
          simp [areaOf, areaOfRa, eventArea, hr, RESERVED_RAC, this]
      · cases h
  · cases h

theorem NoReg.area {ls : List Lbl} (h : NoReg ls) (e : Event) : Out.event none e ∉ cbsOf ls := by
  unfold cbsOf
  rw [List.mem_filterMap]
  rintro ⟨l, hl, he⟩
  have := h l hl
  cases l <;> simp_all [Lbl.isReg]

/-- Everything about an accepted Initial UE Message. -/
theorem step_accept {op : Op} {s s' : State} {rc : Int} (h : step env op s = .ok (rc, s')) (hi : Inv s)
    {c : ConnId} {a : SccpAddr} {ies : InitialUeIes} {id : RncId} {ra : GprsRaId} {sai : BitVec 16}
    (hu : initialUe env s op = some (c, a, ies)) (hr : readInitialUe ies = some (id, ra, sai)) :
    ∃ d ev p, s'.trace = s.trace ++ d ∧
      callbacks d = ev ++ [.recv p c ies.nas (some ra) (some sai)] ∧
      ((env.hasEventCb = true ∧ ¬ Maps s.rncs id (areaOfRa ra)) →
        ev = [.event none (.newArea id (eventArea ra ies.rac.isSome))]) ∧
      (¬ (env.hasEventCb = true ∧ ¬ Maps s.rncs id (areaOfRa ra)) → ev = []) := by
  obtain ⟨ls, hp, h' | ⟨h1, h2⟩⟩ := step_shape h
  · obtain ⟨c', a', ies', id', ra', sai', hi', hr', _, pre, es, p, as, hpre, rfl, has, _, hes⟩ := h'
    rw [hu] at hi'
    injection hi' with hi'; injection hi' with e1 e2; injection e2 with e2 e3
    subst e1 e2 e3
    rw [hr] at hr'
    injection hr' with hr'; injection hr' with e1 e2; injection e2 with e2 e3
    subst e1 e2 e3
    obtain ⟨d, hd, _, hc⟩ := hp.delta
    have hpre0 : cbsOf pre = [] := by rcases hpre with ⟨rc, rfl⟩ | rfl <;> rfl
    have hN := (regState_effect (env := env) hi.reg id (areaOfRa ra) a).2.1
    refine ⟨d, cbsOf es, p, hd, ?_, ?_, ?_⟩
    · rw [hc]
      simp only [cbsOf_append, hpre0, List.nil_append]
      have h1 : cbsOf (Lbl.nasAlloc :: Lbl.register id (areaOfRa ra) a :: es) = cbsOf es := rfl
      have h2 : cbsOf (Lbl.alloc p (regPtr env s id a) c ra :: Lbl.cb (Out.recv p c ies.nas (some ra) (some sai)) :: as)
          = Out.recv p c ies.nas (some ra) (some sai) :: cbsOf as := rfl
      have h3 : cbsOf [Lbl.nasFree] = [] := rfl
      rw [h1, h2, has.cbsOf, h3]
      simp
    · rintro ⟨hcb, hm⟩
      have : regNew env s id (areaOfRa ra) a = true := hN.2 hm
      rcases hes with ⟨hf, _⟩ | ⟨_, as', rfl, has'⟩
      · rw [this, hcb] at hf; cases hf
      · show Out.event none (.newArea id (areaOf (areaOfRa ra))) :: cbsOf as' = _
        rw [has'.cbsOf, areaOf_eq hr]
    · intro hn
      rcases hes with ⟨_, rfl⟩ | ⟨ht, _⟩
      · rfl
      · rw [Bool.and_eq_true] at ht
        exact absurd ⟨ht.2, hN.1 ht.1⟩ hn
  · unfold registration at h1
    rw [hu] at h1
    simp only [hr, Option.map_some] at h1
    cases h1

/-! ## Paging -/

theorem pageLoop_ok {imsi : Bytes} {t : Option (BitVec 32)} {ps : Bool} {hit : Rai → Bool}
    {b : Bytes} (hg : env.gen (.paging imsi t ps 0) = .ok (some b)) (l : List Rnc) (n : Int) (s : State) :
    ∃ d, pageLoop env imsi t ps hit l n s =
        .ok (n + (l.filter fun r => r.areas.any hit).length, { s with trace := s.trace ++ d }) ∧
      prims d = (l.filter fun r => r.areas.any hit).map (fun r => .unitdataReq r.addr (.paging imsi t ps 0)) ∧
      callbacks d = [] := by
  induction l generalizing n s with
  | nil => exact ⟨[], by simp [pageLoop, pure_run], rfl, rfl⟩
  | cons r l ih =>
    unfold pageLoop
    cases hr : r.areas.any hit with
    | false =>
      simp only [Bool.false_eq_true, if_false]
      obtain ⟨d, h1, h2, h3⟩ := ih n s
      exact ⟨d, by rw [h1]; simp [hr], by rw [h2]; simp [hr], h3⟩
    | true =>
      simp only [if_true]
      have htx : txPagingCmd env r.addr imsi t ps 0 s =
          .ok (env.sapRc s (.unitdataReq r.addr (.paging imsi t ps 0)),
            { s with trace := s.trace ++ [.sap (.unitdataReq r.addr (.paging imsi t ps 0))
              (env.sapRc s (.unitdataReq r.addr (.paging imsi t ps 0)))] }) := by
        unfold txPagingCmd genMsg
        rw [bind_eq, bind_eq, hg]; rfl
      rw [bind_eq, htx]
      obtain ⟨d, h1, h2, h3⟩ := ih (n + 1) { s with trace := s.trace ++
        [.sap (.unitdataReq r.addr (.paging imsi t ps 0)) (env.sapRc s (.unitdataReq r.addr (.paging imsi t ps 0)))] }
      refine ⟨.sap (.unitdataReq r.addr (.paging imsi t ps 0))
        (env.sapRc s (.unitdataReq r.addr (.paging imsi t ps 0))) :: d, ?_, ?_, ?_⟩
      · simp only [h1, List.filter_cons, hr, if_true, List.length_cons]
        simp only [List.append_assoc, List.cons_append, List.nil_append, Int.natCast_add, Int.cast_ofNat_Int]
        have : n + 1 + ((l.filter fun r => r.areas.any hit).length : Int) =
            n + ((l.filter fun r => r.areas.any hit).length + 1) := by omega
        rw [this]
      · rw [show (Out.sap (.unitdataReq r.addr (.paging imsi t ps 0))
          (env.sapRc s (.unitdataReq r.addr (.paging imsi t ps 0))) :: d) = [_] ++ d from rfl, prims_append, h2]
        simp [hr, prims]
      · rw [show (Out.sap (.unitdataReq r.addr (.paging imsi t ps 0))
          (env.sapRc s (.unitdataReq r.addr (.paging imsi t ps 0))) :: d) = [_] ++ d from rfl, callbacks_append, h3]
        rfl

theorem filter_serves (l : List Rnc) (rai : Rai) :
    (l.filter fun r => r.areas.any fun e => raiEq e rai) = l.filter fun r => decide (Serves r rai) := by
  apply List.filter_congr
  intro r _
  rw [Bool.eq_iff_iff, List.any_eq_true, decide_eq_true_eq]
  unfold Serves
  simp only [raiEq_iff]

theorem filter_servesLai (l : List Rnc) (lai : Verif.Lai) :
    (l.filter fun r => r.areas.any fun e => laiEq e.lai lai) = l.filter fun r => decide (ServesLai r lai) := by
  apply List.filter_congr
  intro r _
  rw [Bool.eq_iff_iff, List.any_eq_true, decide_eq_true_eq]
  unfold ServesLai
  simp only [laiEq_iff]

end Verif.Iu
