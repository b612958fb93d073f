import Verif.Proofs.ScarceRec
import Verif.Proofs.IuFirst
import Verif.Proofs.IuHist

/-!
# What a new subscriber needs
-/

namespace Verif.ScarceRec
open Verif.Iu Verif.Iu.Spec Verif.Lai

variable {env : Env} {w : Supply}

theorem need_true (e : Fault) {β : Type} (x : M β) : (need true e >>= fun _ => x) = x := rfl
theorem need_false (e : Fault) {β : Type} (x : M β) : (need false e >>= fun _ => x) = M.fault e := rfl

theorem areaFind_none {l : List Rnc} {rai : Rai} :
    areaFind l rai = none ↔ ∀ a ∈ l.flatMap (·.areas), ¬ SameArea a rai := by
  unfold areaFind
  simp only [List.findSome?_eq_none_iff, Option.map_eq_none_iff, List.find?_eq_none, List.mem_flatMap]
  constructor
  · rintro h a ⟨r, hr, ha⟩ hs
    exact h r hr a ha (raiEq_iff.2 hs)
  · intro h r hr a ha hs
    exact h a ⟨r, hr, ha⟩ (raiEq_iff.1 hs)

/-- Registration, with and without memory. -/
theorem rncRegisterR_eq (id : RncId) (rai : Rai) (addr : SccpAddr) (s : State) :
    rncRegisterR env w id rai addr s =
      if w.rnc = false ∧ rncIdFind s id = none then .fault .abort
      else if w.area = false ∧ areaFind (reg1 env s id addr).1 rai = none then .fault .nullDeref
      else rncRegister env id rai addr s := by
  unfold rncRegisterR rncRegister reg1
  cases hf : rncIdFind s id with
  | some r =>
    cases hs : sameSccpAddr env r.addr addr with
    | true =>
      simp only [bind_eq, get_run, hf, hs, reduceCtorEq, and_false, if_false]
      simp only [Bool.not_true, Bool.false_eq_true, if_false, pure_run, bind_eq]
      simp only [get_run, show lacRacFind s rai = areaFind s.rncs rai from rfl]
      cases ha : areaFind s.rncs rai with
      | none =>
        cases w.area
        · rfl
        · rfl
      | some oe => simp only [reduceCtorEq, and_false, if_false]
    | false =>
      simp only [bind_eq, get_run, hf, hs, reduceCtorEq, and_false, if_false]
      simp only [Bool.not_false, if_true, bind_eq, pure_run, updRnc, modify_run, get_run]
      simp only [lacRacFind]
      rw [show (List.findSome? _ _ : Option (Rnc × Rai)) = areaFind (List.map (fun x => if x.ptr = r.ptr then { x with addr := addr } else x) s.rncs) rai from rfl]
      cases ha : areaFind (List.map (fun x => if x.ptr = r.ptr then { x with addr := addr } else x) s.rncs) rai with
      | none =>
        cases w.area
        · rfl
        · rfl
      | some oe => simp only [reduceCtorEq, and_false, if_false]
  | none =>
    cases hw : w.rnc with
    | false =>
      simp only [bind_eq, get_run, hf, rncAllocR, hw]
      rfl
    | true =>
      simp only [bind_eq, get_run, hf, rncAllocR, hw, need, if_true, pure_run, rncAlloc, modify_run, reduceCtorEq, Bool.true_eq_false,
        false_and, if_false]
      simp only [lacRacFind]
      rw [show (List.findSome? _ _ : Option (Rnc × Rai)) = areaFind (⟨s.next, id, addr, []⟩ :: s.rncs) rai from rfl]
      cases ha : areaFind (⟨s.next, id, addr, []⟩ :: s.rncs) rai with
      | none =>
        cases w.area
        · rfl
        · rfl
      | some oe => simp only [reduceCtorEq, and_false, if_false]

/-- Registration, new context, delivery. -/
def initialTailR (env : Env) (w : Supply) (ctx : NewCtx) (id : RncId) (ra : GprsRaId) (nas : Bytes) (sai : BitVec 16) : M Int := do
  let rnc ← rncRegisterR env w id (gprsRaiToOsmo ra) ctx.addr
  let ue ← ctxAllocR w rnc ctx.conn
  M.modify fun s => { s with ues := s.ues.map fun u =>
    if u.ptr = ue then { u with raId := ra } else u }
  callback env (.recv ue ctx.conn nas (some ra) (some sai))
  nasFree
  pure (0 : Int)

theorem nasR (hn : w.nas = true) (nas : Bytes) : nasPutR w nas = nasPut nas := by
  unfold nasPutR
  rw [hn]
  rfl

theorem handleInitialUeR_eq (hn : w.nas = true) (ctx : NewCtx) (ies : InitialUeIes) (s : State) :
    handleInitialUeR env w ctx ies s =
      (match initialCheck ies with
       | .fault e => .fault e
       | .ok none => .ok (-1, { s with nasBufs := s.nasBufs + 1 })
       | .ok (some (id, ra, sai)) => initialTailR env w ctx id ra ies.nas sai { s with nasBufs := s.nasBufs + 1 }) := by
  have hA : nasAllocR w = nasAlloc := by unfold nasAllocR nasAlloc; rw [hn]; rfl
  unfold handleInitialUeR initialCheck
  simp only [nasR hn, hA]
  cases hp : parseLai ies.laiPlmn ies.laiLac with
  | fault e => rfl
  | ok x =>
    obtain ⟨rc, ra⟩ := x
    by_cases hrc : rc = 0
    · subst hrc
      cases hr : ies.rac with
      | none =>
        simp only
        rw [if_neg (by simp), if_neg (by simp)]
        simp only [bind_eq, nasAlloc, modify_run, M.lift]
        rw [if_neg (by simp)]
        simp only [bind_eq, pure_run]
        rw [if_neg (by simp)]
        cases hg : grncIdParse ies.grnc.plmn ies.grnc.rncId with
        | none => rfl
        | some id =>
          cases hsai : asn1strToU16 ies.saiSac with
          | fault e => rfl
          | ok sai =>
            by_cases hl : ies.nas.length ≤ 256
            · simp only [if_pos hl, bind_eq, nasPut, pure_run]; rfl
            · simp only [if_neg hl, bind_eq, nasPut]; rfl
      | some b =>
        simp only
        rw [if_neg (by simp)]
        simp only [bind_eq, nasAlloc, modify_run, M.lift]
        rw [if_neg (by simp)]
        simp only [bind_eq]
        cases hb : asn1strToU8 b with
        | fault e => rfl
        | ok rac =>
          simp only [lift_ok_run]
          by_cases h255 : rac = RESERVED_RAC
          · subst h255; rfl
          · rw [if_neg (by simp [h255]), if_neg (by simp [h255])]
            cases hg : grncIdParse ies.grnc.plmn ies.grnc.rncId with
            | none => rfl
            | some id =>
              cases hsai : asn1strToU16 ies.saiSac with
              | fault e => rfl
              | ok sai =>
                by_cases hl : ies.nas.length ≤ 256
                · simp only [if_pos hl, bind_eq, nasPut, pure_run]; rfl
                · simp only [if_neg hl, bind_eq, nasPut]; rfl
    · simp only [bind_eq, nasAlloc, modify_run, M.lift]
      rw [if_pos (by simpa using hrc), if_pos (by simpa using hrc)]; rfl

/-- Without a buffer for the NAS message, only what is refused is survived. -/
theorem handleInitialUeR_noNas (hn : w.nas = false) (ctx : NewCtx) (ies : InitialUeIes) (s : State) :
    (initialCheck ies ≠ .ok none ∧ ∃ e, handleInitialUeR env w ctx ies s = .fault e) ∨
      (initialCheck ies = .ok none ∧ handleInitialUeR env w ctx ies s = .ok (-1, s)) := by
  have hP : nasPutR w ies.nas = M.fault .nullDeref := by unfold nasPutR; rw [hn]; rfl
  have hA : nasAllocR w = (pure () : M Unit) := by
    unfold nasAllocR
    rw [hn]
    funext s
    show Res.ok ((), { s with nasBufs := s.nasBufs + 0 }) = .ok ((), s)
    rw [Int.add_zero]
  unfold handleInitialUeR initialCheck
  simp only [hP, hA]
  cases hp : parseLai ies.laiPlmn ies.laiLac with
  | fault e => exact .inl ⟨nofun, e, rfl⟩
  | ok x =>
    obtain ⟨rc, ra⟩ := x
    by_cases hrc : rc = 0
    · subst hrc
      cases hr : ies.rac with
      | none =>
        simp only
        rw [if_neg (by simp), if_neg (by simp)]
        simp only [bind_eq, pure_run, M.lift]
        rw [if_neg (by simp)]
        simp only [bind_eq, pure_run]
        rw [if_neg (by simp)]
        cases hg : grncIdParse ies.grnc.plmn ies.grnc.rncId with
        | none => exact .inr ⟨rfl, rfl⟩
        | some id =>
          cases hsai : asn1strToU16 ies.saiSac with
          | fault e => exact .inl ⟨nofun, _, rfl⟩
          | ok sai => exact .inl ⟨by dsimp only; split <;> exact nofun, _, rfl⟩
      | some b =>
        simp only
        rw [if_neg (by simp)]
        simp only [bind_eq, pure_run, M.lift]
        rw [if_neg (by simp)]
        simp only [bind_eq]
        cases hb : asn1strToU8 b with
        | fault e => exact .inl ⟨nofun, _, rfl⟩
        | ok rac =>
          simp only [lift_ok_run]
          by_cases h255 : rac = RESERVED_RAC
          · subst h255; exact .inr ⟨rfl, rfl⟩
          · rw [if_neg (by simp [h255]), if_neg (by simp [h255])]
            cases hg : grncIdParse ies.grnc.plmn ies.grnc.rncId with
            | none => exact .inr ⟨rfl, rfl⟩
            | some id =>
              cases hsai : asn1strToU16 ies.saiSac with
              | fault e => exact .inl ⟨nofun, _, rfl⟩
              | ok sai => exact .inl ⟨by dsimp only; split <;> exact nofun, _, rfl⟩
    · simp only [bind_eq, pure_run, M.lift]
      rw [if_pos (by simpa using hrc), if_pos (by simpa using hrc)]
      exact .inr ⟨rfl, rfl⟩

end Verif.ScarceRec
