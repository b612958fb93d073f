import Verif.Proofs.IuPath

/-!
# Shape of the handling of each primitive
-/

namespace Verif.Iu
open Spec Lai

variable {env : Env}

/-- Registration: the registry changes, then NEW_AREA if the mapping changed. -/
theorem pl_rncRegister (id : RncId) (rai : Rai) (addr : SccpAddr) (s : State) :
    wpl env anyF (rncRegister env id rai addr) (fun p ls _ => p = regPtr env s id addr ∧
      ∃ es, ls = .register id rai addr :: es ∧
        (((regNew env s id rai addr && env.hasEventCb) = false ∧ es = []) ∨
         ((regNew env s id rai addr && env.hasEventCb) = true ∧
            ∃ as, es = .cb (.event none (.newArea id (areaOf rai))) :: as ∧ ApiLbls as))) s := by
  unfold wpl wp
  rw [rncRegister_eq]
  have key : wpl env anyF (regEvent env s id rai addr >>= fun _ => pure (regPtr env s id addr))
      (fun p es _ => p = regPtr env s id addr ∧
        (((regNew env s id rai addr && env.hasEventCb) = false ∧ es = []) ∨
         ((regNew env s id rai addr && env.hasEventCb) = true ∧
            ∃ as, es = .cb (.event none (.newArea id (areaOf rai))) :: as ∧ ApiLbls as)))
      (regState env s id rai addr) := by
    refine wpl_bind ?_
    unfold regEvent
    cases hn : regNew env s id rai addr with
    | false => exact wpl_pure (wpl_pure ⟨rfl, .inl ⟨rfl, rfl⟩⟩)
    | true =>
      rw [if_pos rfl]
      refine wpl_mono (pl_iuEventNewArea id rai _) ?_
      rintro _ ls s' _ (⟨hcb, rfl, rfl⟩ | ⟨hcb, as, rfl, h⟩)
      · exact wpl_pure ⟨rfl, .inl ⟨by simp [hcb], rfl⟩⟩
      · exact wpl_pure ⟨rfl, .inr ⟨by simp [hcb], as, by simp, h⟩⟩
  unfold wpl wp at key
  split
  · rename_i hr
    rw [hr] at key
    obtain ⟨es, hp, he, h⟩ := key
    exact ⟨.register id rai addr :: es, .cons (Atom.register id rai addr) hp, he, es, rfl, h⟩
  · trivial

/-- What `ranap_handle_co_initial_ue` extracts before it changes anything: rejection
(`none`), or RNC id, location and SAC. -/
def initialCheck (ies : InitialUeIes) : Res (Option (RncId × GprsRaId × BitVec 16)) :=
  match parseLai ies.laiPlmn ies.laiLac with
  | .fault e => .fault e
  | .ok (rc, ra) =>
    if rc ≠ 0 then .ok none
    else match (match ies.rac with | some b => asn1strToU8 b | none => .ok RESERVED_RAC) with
      | .fault e => .fault e
      | .ok rac =>
        if ies.rac.isSome ∧ rac = RESERVED_RAC then .ok none
        else match grncIdParse ies.grnc.plmn ies.grnc.rncId with
          | none => .ok none
          | some id => match asn1strToU16 ies.saiSac with
            | .fault e => .fault e
            | .ok sai =>
              if ies.nas.length ≤ 256 then .ok (some (id, { ra with rac := rac }, sai))
              else .fault .abort

/-- Registration, new context, delivery. -/
def initialTail (env : Env) (ctx : NewCtx) (id : RncId) (ra : GprsRaId) (nas : Bytes) (sai : BitVec 16) : M Int := do
  let rnc ← rncRegister env id (gprsRaiToOsmo ra) ctx.addr
  let ue ← ctxAlloc rnc ctx.conn
  M.modify fun s => { s with ues := s.ues.map fun u =>
    if u.ptr = ue then { u with raId := ra } else u }
  callback env (.recv ue ctx.conn nas (some ra) (some sai))
  nasFree
  pure (0 : Int)

theorem handleInitialUe_eq (ctx : NewCtx) (ies : InitialUeIes) (s : State) :
    handleInitialUe env ctx ies s =
      (match initialCheck ies with
       | .fault e => .fault e
       | .ok none => .ok (-1, { s with nasBufs := s.nasBufs + 1 })
       | .ok (some (id, ra, sai)) => initialTail env ctx id ra ies.nas sai { s with nasBufs := s.nasBufs + 1 }) := by
  unfold handleInitialUe initialCheck
  cases hp : parseLai ies.laiPlmn ies.laiLac with
  | fault e => rfl
  | ok x =>
    obtain ⟨rc, ra⟩ := x
    by_cases hrc : rc = 0
    · subst hrc
      cases hr : ies.rac with
      | none =>
        simp only
        rw [if_neg (by simp), if_neg (by simp)]
        simp only [bind_eq, nasAlloc, modify_run, M.lift]
        rw [if_neg (by simp)]
        simp only [bind_eq, pure_run]
        rw [if_neg (by simp)]
        cases hg : grncIdParse ies.grnc.plmn ies.grnc.rncId with
        | none => rfl
        | some id =>
          cases hsai : asn1strToU16 ies.saiSac with
          | fault e => rfl
          | ok sai =>
            by_cases hl : ies.nas.length ≤ 256
            · simp only [if_pos hl, bind_eq, nasPut, pure_run]; rfl
            · simp only [if_neg hl, bind_eq, nasPut]; rfl
      | some b =>
        simp only
        rw [if_neg (by simp)]
        simp only [bind_eq, nasAlloc, modify_run, M.lift]
        rw [if_neg (by simp)]
        simp only [bind_eq]
        cases hb : asn1strToU8 b with
        | fault e => rfl
        | ok rac =>
          simp only [lift_ok_run]
          by_cases h255 : rac = RESERVED_RAC
          · subst h255; rfl
          · rw [if_neg (by simp [h255]), if_neg (by simp [h255])]
            cases hg : grncIdParse ies.grnc.plmn ies.grnc.rncId with
            | none => rfl
            | some id =>
              cases hsai : asn1strToU16 ies.saiSac with
              | fault e => rfl
              | ok sai =>
                by_cases hl : ies.nas.length ≤ 256
                · simp only [if_pos hl, bind_eq, nasPut, pure_run]; rfl
                · simp only [if_neg hl, bind_eq, nasPut]; rfl
    · simp only [bind_eq, nasAlloc, modify_run, M.lift]
      rw [if_pos (by simpa using hrc), if_pos (by simpa using hrc)]; rfl

/-- The steps of registration, new context and delivery. -/
theorem pl_initialTail (ctx : NewCtx) (id : RncId) (ra : GprsRaId) (nas : Bytes) (sai : BitVec 16) (s : State) :
    wpl env anyF (initialTail env ctx id ra nas sai) (fun rc ls _ => rc = 0 ∧
      ∃ es p as, ls = .register id (gprsRaiToOsmo ra) ctx.addr :: es ++
          .alloc p (regPtr env s id ctx.addr) ctx.conn ra ::
          .cb (.recv p ctx.conn nas (some ra) (some sai)) :: as ++ [.nasFree] ∧ ApiLbls as ∧
        p = (reg1 env s id ctx.addr).2.2 ∧
        (((regNew env s id (gprsRaiToOsmo ra) ctx.addr && env.hasEventCb) = false ∧ es = []) ∨
         ((regNew env s id (gprsRaiToOsmo ra) ctx.addr && env.hasEventCb) = true ∧
            ∃ as, es = .cb (.event none (.newArea id (areaOf (gprsRaiToOsmo ra)))) :: as ∧ ApiLbls as))) s := by
  unfold initialTail
  have hnext : wp anyF (rncRegister env id (gprsRaiToOsmo ra) ctx.addr)
      (fun _ s' => s'.next = (reg1 env s id ctx.addr).2.2) s := by
    unfold wp
    rw [rncRegister_eq]
    have key : wp anyF (regEvent env s id (gprsRaiToOsmo ra) ctx.addr >>= fun _ => pure (regPtr env s id ctx.addr))
        (fun _ s' => s'.next = (reg1 env s id ctx.addr).2.2) (regState env s id (gprsRaiToOsmo ra) ctx.addr) := by
      simp only [wp_bind, wp_pure]
      unfold regEvent
      split
      · exact wp_mono (eff_iuEventNewArea _ _ _) (fun _ _ h => h.2.1)
      · exact rfl
    unfold wp at key
    exact key
  refine wpl_bind (wpl_mono (wpl_and (pl_rncRegister id _ ctx.addr s) hnext) ?_)
  rintro _ ls s1 _ ⟨⟨rfl, es, rfl, hes⟩, hnx⟩
  have halloc : wpl env anyF (do
      let ue ← ctxAlloc (regPtr env s id ctx.addr) ctx.conn
      M.modify fun s => { s with ues := s.ues.map fun u =>
        if u.ptr = ue then { u with raId := ra } else u }
      pure ue)
      (fun p ls s' => p = s1.next ∧ ls = [.alloc s1.next (regPtr env s id ctx.addr) ctx.conn ra] ∧
        s' = allocSt s1 (regPtr env s id ctx.addr) ctx.conn ra) s1 := by
    unfold wpl ctxAlloc
    simp only [wp_bind, wp_get, wp_modify, wp_pure]
    have he : ∀ x, x = allocSt s1 (regPtr env s id ctx.addr) ctx.conn ra →
        Path env [.alloc s1.next (regPtr env s id ctx.addr) ctx.conn ra] s1 x := by
      rintro _ rfl; exact Path.one (Atom.alloc _ _ _)
    refine ⟨_, he _ ?_, trivial, rfl, ?_⟩ <;> simp [allocSt]
  have hassoc : ∀ s2, (do
      let ue ← ctxAlloc (regPtr env s id ctx.addr) ctx.conn
      M.modify fun s => { s with ues := s.ues.map fun u =>
        if u.ptr = ue then { u with raId := ra } else u }
      callback env (.recv ue ctx.conn nas (some ra) (some sai))
      nasFree
      pure (0 : Int) : M Int) s2 = ((do
      let ue ← ctxAlloc (regPtr env s id ctx.addr) ctx.conn
      M.modify fun s => { s with ues := s.ues.map fun u =>
        if u.ptr = ue then { u with raId := ra } else u }
      pure ue) >>= fun ue => do
      callback env (.recv ue ctx.conn nas (some ra) (some sai))
      nasFree
      pure (0 : Int) : M Int) s2 := fun s2 => rfl
  refine wpl_congr (hassoc s1) (wpl_bind (wpl_mono halloc ?_))
  rintro p ls s2 _ ⟨rfl, rfl, rfl⟩
  have hat : Atom env (.cb (.recv s1.next ctx.conn nas (some ra) (some sai)))
      (allocSt s1 (regPtr env s id ctx.addr) ctx.conn ra) _ :=
    Atom.cbRecv s1.next ctx.conn nas (some ra) (some sai) ⟨_, List.mem_cons_self, rfl, rfl⟩
  refine wpl_bind (wpl_mono (pl_callback _ _ hat) ?_)
  rintro _ ls s3 _ ⟨as, rfl, has⟩
  have hfree : wpl env anyF nasFree (fun _ ls _ => ls = [.nasFree]) s3 := ⟨_, Path.one Atom.nasFree, rfl⟩
  refine wpl_bind (wpl_mono hfree ?_)
  rintro _ ls s4 _ rfl
  refine wpl_pure ⟨rfl, es, s1.next, as, by simp, has, hnx, hes⟩

theorem pl_handleInitialUe (ctx : NewCtx) (ies : InitialUeIes) (s : State) :
    wpl env anyF (handleInitialUe env ctx ies) (fun rc ls _ =>
      (initialCheck ies = .ok none ∧ rc = -1 ∧ ls = [.nasAlloc]) ∨
      ∃ id ra sai es p as, initialCheck ies = .ok (some (id, ra, sai)) ∧ rc = 0 ∧
        ls = .nasAlloc :: .register id (gprsRaiToOsmo ra) ctx.addr :: es ++
          .alloc p (regPtr env s id ctx.addr) ctx.conn ra ::
          .cb (.recv p ctx.conn ies.nas (some ra) (some sai)) :: as ++ [.nasFree] ∧ ApiLbls as ∧
        p = (reg1 env s id ctx.addr).2.2 ∧
        (((regNew env s id (gprsRaiToOsmo ra) ctx.addr && env.hasEventCb) = false ∧ es = []) ∨
         ((regNew env s id (gprsRaiToOsmo ra) ctx.addr && env.hasEventCb) = true ∧
            ∃ as, es = .cb (.event none (.newArea id (areaOf (gprsRaiToOsmo ra)))) :: as ∧ ApiLbls as))) s := by
  unfold wpl wp
  rw [handleInitialUe_eq]
  cases hc : initialCheck ies with
  | fault e => trivial
  | ok o =>
    cases o with
    | none => exact ⟨[.nasAlloc], Path.one Atom.nasAlloc, .inl ⟨rfl, rfl, rfl⟩⟩
    | some x =>
      obtain ⟨id, ra, sai⟩ := x
      have key := pl_initialTail (env := env) ctx id ra ies.nas sai { s with nasBufs := s.nasBufs + 1 }
      unfold wpl wp at key
      simp only
      split
      · rename_i hr
        rw [hr] at key
        obtain ⟨ls, hp, h0, es, p, as, rfl, has, hpp, hes⟩ := key
        exact ⟨.nasAlloc :: _, .cons Atom.nasAlloc hp, .inr ⟨id, ra, sai, es, p, as, rfl, h0, by simp; rfl, has, hpp, hes⟩⟩
      · trivial

/-- Location information `ranap_handle_co_dt` extracts; `none`: unparseable LAI. -/
def dtCheck (ies : DtIes) : Res (Option (Option GprsRaId × Option (BitVec 16))) :=
  match ies.lai with
  | none => .ok (some (none, none))
  | some (plmn, lac) =>
    match parseLai plmn lac with
    | .fault e => .fault e
    | .ok (rc, ra) =>
      if rc ≠ 0 then .ok none
      else match (match ies.rac with
          | some b => (match asn1strToU8 b with | .ok r => Res.ok { ra with rac := r } | .fault e => .fault e)
          | none => .ok ra) with
        | .fault e => .fault e
        | .ok ra => match ies.saiSac with
          | some b => (match asn1strToU16 b with
            | .ok v => .ok (some (some ra, some v))
            | .fault e => .fault e)
          | none => .ok (some (some ra, none))

/-- Delivery of a direct transfer. -/
def dtTail (env : Env) (ue : Ptr) (nas : Bytes) (ra : Option GprsRaId) (sai : Option (BitVec 16)) : M Int := do
  nasPut nas
  let u ← deref ue
  callback env (.recv ue u.conn nas ra sai)
  nasFree
  pure 0

theorem handleDt_eq (ue : Ptr) (ies : DtIes) (s : State) :
    handleDt env ue ies s =
      (match dtCheck ies with
       | .fault e => .fault e
       | .ok none => .ok (-1, { s with nasBufs := s.nasBufs + 1 })
       | .ok (some (ra, sai)) => dtTail env ue ies.nas ra sai { s with nasBufs := s.nasBufs + 1 }) := by
  unfold handleDt dtCheck
  cases hl : ies.lai with
  | none => rfl
  | some pl =>
    obtain ⟨plmn, lac⟩ := pl
    simp only [bind_eq, nasAlloc, modify_run, M.lift]
    cases hp : parseLai plmn lac with
    | fault e => rfl
    | ok x =>
      obtain ⟨rc, ra⟩ := x
      by_cases hrc : rc = 0
      · subst hrc
        simp only
        rw [if_neg (by simp), if_neg (by simp)]
        cases hr : ies.rac with
        | none =>
          simp only [bind_eq, pure_run]
          cases hsac : ies.saiSac with
          | none => rfl
          | some b =>
            simp only [bind_eq, pure_run]
            cases hb : asn1strToU16 b with
            | fault e => rfl
            | ok v => rfl
        | some r =>
          simp only [bind_eq, pure_run]
          cases hb8 : asn1strToU8 r with
          | fault e => rfl
          | ok rv =>
            simp only
            cases hsac : ies.saiSac with
            | none => rfl
            | some b =>
              simp only [bind_eq, pure_run]
              cases hb : asn1strToU16 b with
              | fault e => rfl
              | ok v => rfl
      · simp only
        rw [if_pos (by simpa using hrc), if_pos (by simpa using hrc)]; rfl

theorem pl_handleDt (ue : Ptr) (ies : DtIes) (s : State) :
    wpl env anyF (handleDt env ue ies) (fun rc ls _ =>
      (dtCheck ies = .ok none ∧ rc = -1 ∧ ls = [.nasAlloc]) ∨
      ∃ ra sai u as, dtCheck ies = .ok (some (ra, sai)) ∧ ies.nas.length ≤ 256 ∧
        s.ues.find? (·.ptr = ue) = some u ∧ rc = 0 ∧
        ls = .nasAlloc :: .cb (.recv ue u.conn ies.nas ra sai) :: as ++ [.nasFree] ∧ ApiLbls as) s := by
  unfold wpl wp
  rw [handleDt_eq]
  cases hc : dtCheck ies with
  | fault e => trivial
  | ok o =>
    cases o with
    | none => exact ⟨[.nasAlloc], Path.one Atom.nasAlloc, .inl ⟨rfl, rfl, rfl⟩⟩
    | some x =>
      obtain ⟨ra, sai⟩ := x
      have key : wpl env anyF (dtTail env ue ies.nas ra sai) (fun rc ls _ =>
          ies.nas.length ≤ 256 ∧ ∃ u as, s.ues.find? (·.ptr = ue) = some u ∧ rc = 0 ∧
            ls = .cb (.recv ue u.conn ies.nas ra sai) :: as ++ [.nasFree] ∧ ApiLbls as)
          { s with nasBufs := s.nasBufs + 1 } := by
        unfold dtTail nasPut
        split
        · rename_i hl
          refine wpl_bind (wpl_pure ?_)
          refine wpl_bind (wpl_deref (fun u hu => ?_) (fun _ => trivial))
          have hp := find_ptr hu
          refine wpl_bind (wpl_mono (pl_callback _ _ (Atom.cbRecv ue u.conn ies.nas ra sai
            ⟨u, List.mem_of_find?_eq_some hu, hp, rfl⟩)) ?_)
          rintro _ ls s3 _ ⟨as, rfl, has⟩
          have hfree : wpl env anyF nasFree (fun _ ls _ => ls = [.nasFree]) s3 := ⟨_, Path.one Atom.nasFree, rfl⟩
          refine wpl_bind (wpl_mono hfree ?_)
          rintro _ ls s4 _ rfl
          exact wpl_pure ⟨hl, u, as, hu, rfl, by simp, has⟩
        · exact wpl_bind (wpl_fault trivial)
      unfold wpl wp at key
      simp only
      split
      · rename_i hr
        rw [hr] at key
        obtain ⟨ls, hp, hl, u, as, hu, h0, rfl, has⟩ := key
        exact ⟨.nasAlloc :: _, .cons Atom.nasAlloc hp, .inr ⟨ra, sai, u, as, rfl, hl, hu, h0, rfl, has⟩⟩
      · trivial

end Verif.Iu
