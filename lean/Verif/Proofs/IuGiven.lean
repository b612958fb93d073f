import Verif.Proofs.IuSafe

/-!
# Callbacks are only called with live contexts
-/

namespace Verif.Iu
open Spec Lai

variable {env : Env} {cb' : State → Out → Script}

/-- Another behaviour of callbacks. -/
def withCb (env : Env) (cb' : State → Out → Script) : Env := { env with cb := cb' }

theorem congr_pageLoop (imsi : Bytes) (t : Option (BitVec 32)) (ps : Bool) (hit : Rai → Bool)
    (l : List Rnc) (n : Int) : pageLoop (withCb env cb') imsi t ps hit l n = pageLoop env imsi t ps hit l n := by
  induction l generalizing n with
  | nil => rfl
  | cons r l ih =>
    unfold pageLoop
    simp only [ih]
    rfl

theorem congr_runApi (a : Api) : runApi (withCb env cb') a = runApi env a := by
  cases a
  case pageCs2 => funext s; exact congrFun (congr_pageLoop ..) s
  case pagePs2 => funext s; exact congrFun (congr_pageLoop ..) s
  all_goals rfl

theorem congr_runScript (sc : Script) : runScript (withCb env cb') sc = runScript env sc := by
  induction sc with
  | done => rfl
  | call a k ih =>
    unfold runScript
    simp only [congr_runApi, ih]

section
variable (hcb : ∀ s o, Given s o → cb' s o = env.cb s o)
include hcb

/-- Only the behaviour of callbacks given live contexts matters. -/
theorem congr_callback {o : Out} {s : State} (hg : Given s o) : callback (withCb env cb') o s = callback env o s := by
  unfold callback
  simp only [bind_eq, emit, modify_run, get_run, congr_runScript]
  have : (withCb env cb').cb = cb' := rfl
  rw [this, hcb]
  cases o with
  | sap => exact hg
  | recv => exact hg
  | event x e => cases x <;> exact hg

theorem congr_iuEvent (p : Option Ptr) (e : Event) : iuEvent (withCb env cb') p e = iuEvent env p e := by
  funext s
  unfold iuEvent
  have : (withCb env cb').hasEventCb = env.hasEventCb := rfl
  rw [this]
  split
  · cases p with
    | none => exact congr_callback hcb trivial
    | some p =>
      simp only [bind_eq, deref]
      cases hu : s.ues.find? (·.ptr = p) with
      | none => rfl
      | some u =>
        simp only
        split
        · obtain ⟨h1, h2⟩ := find_live hu
          exact congr_callback hcb ⟨u, h1, h2, rfl⟩
        · rfl
  · rfl

theorem congr_rncRegister (id : RncId) (rai : Rai) (a : SccpAddr) :
    rncRegister (withCb env cb') id rai a = rncRegister env id rai a := by
  have h : iuEventNewArea (withCb env cb') = iuEventNewArea env := by
    funext id rai
    unfold iuEventNewArea
    simp only [congr_iuEvent hcb]
  unfold rncRegister
  rw [h]
  rfl

theorem congr_initialTail (ctx : NewCtx) (id : RncId) (ra : GprsRaId) (nas : Bytes) (sai : BitVec 16) :
    initialTail (withCb env cb') ctx id ra nas sai = initialTail env ctx id ra nas sai := by
  funext s
  unfold initialTail
  rw [congr_rncRegister hcb]
  simp only [bind_eq]
  cases rncRegister env id (gprsRaiToOsmo ra) ctx.addr s with
  | fault e => rfl
  | ok x =>
    obtain ⟨rnc, s1⟩ := x
    simp only [ctxAlloc, bind_eq, get_run, modify_run, pure_run]
    rw [congr_callback hcb]
    exact ⟨_, List.mem_cons_self, by simp, by simp⟩

theorem congr_handleInitialUe (ctx : NewCtx) (ies : InitialUeIes) :
    handleInitialUe (withCb env cb') ctx ies = handleInitialUe env ctx ies := by
  funext s
  rw [handleInitialUe_eq, handleInitialUe_eq]
  simp only [congr_initialTail hcb]

theorem congr_handleDt (p : Ptr) (ies : DtIes) : handleDt (withCb env cb') p ies = handleDt env p ies := by
  funext s
  rw [handleDt_eq, handleDt_eq]
  cases dtCheck ies with
  | fault e => rfl
  | ok o =>
    cases o with
    | none => rfl
    | some x =>
      obtain ⟨ra, sai⟩ := x
      simp only
      unfold dtTail
      simp only [bind_eq]
      cases nasPut ies.nas _ with
      | fault e => rfl
      | ok y =>
        obtain ⟨_, s1⟩ := y
        simp only [deref]
        cases hu : s1.ues.find? (·.ptr = p) with
        | none => rfl
        | some u =>
          obtain ⟨h1, h2⟩ := find_live hu
          simp only
          rw [congr_callback hcb]
          exact ⟨u, h1, h2, rfl⟩

theorem congr_handleCoInitial (ctx : NewCtx) : handleCoInitial (withCb env cb') ctx = handleCoInitial env ctx := by
  funext m
  unfold handleCoInitial
  simp only [congr_handleInitialUe hcb]

theorem congr_handleCo (p : Ptr) : handleCo (withCb env cb') p = handleCo env p := by
  funext m
  unfold handleCo handleRabAssResp
  simp only [congr_handleDt hcb, congr_iuEvent hcb]
  rfl

theorem congr_link : linkInvalidatedFree (withCb env cb') = linkInvalidatedFree env := by
  funext p
  unfold linkInvalidatedFree
  simp only [congr_iuEvent hcb]
  rfl

theorem congr_ueLoop (r : Ptr) (n : Nat) (p : Ptr) : ueLoop (withCb env cb') r n p = ueLoop env r n p := by
  induction n generalizing p with
  | zero => rfl
  | succ n ih =>
    unfold ueLoop
    simp only [congr_link hcb, ih]

theorem congr_rncLoop (hit : SccpAddr → Bool) (l : List Rnc) :
    rncLoop (withCb env cb') hit l = rncLoop env hit l := by
  induction l with
  | nil => rfl
  | cons r l ih =>
    unfold rncLoop ueForEachSafe
    simp only [congr_ueLoop hcb, ih]

theorem congr_step (op : Op) : step (withCb env cb') op = step env op := by
  have h1 : ∀ ctx d, rxCo (withCb env cb') (handleCoInitial (withCb env cb') ctx) d = rxCo env (handleCoInitial env ctx) d := by
    intro ctx d
    rw [congr_handleCoInitial hcb]; rfl
  have h2 : ∀ p d, rxCo (withCb env cb') (handleCo (withCb env cb') p) d = rxCo env (handleCo env p) d := by
    intro p d
    rw [congr_handleCo hcb]; rfl
  have h3 : ∀ a c, handleNotice (withCb env cb') a c = handleNotice env a c := by
    intro a c
    unfold handleNotice
    simp only [congr_rncLoop hcb]; rfl
  have h4 : ∀ a b c, handlePcstate (withCb env cb') a b c = handlePcstate env a b c := by
    intro a b c
    unfold handlePcstate
    simp only [congr_rncLoop hcb]
  unfold step
  simp only [h1, h2, h3, h4, congr_link hcb, congr_iuEvent hcb, congr_runApi]
  rfl

theorem congr_run (ops : List Op) : run (withCb env cb') ops = run env ops := by
  induction ops with
  | nil => rfl
  | cons op ops ih =>
    unfold run
    simp only [congr_step hcb, ih]

end

end Verif.Iu
