import Verif.Proofs.ScarceRecInit

/-!
# Operations with and without memory
-/

namespace Verif.ScarceRec
open Verif.Iu Verif.Iu.Spec Verif.Lai

variable {env : Env} {w : Supply}

theorem handleInitialUeR_full (hn : w.nas = true) (hr : w.rnc = true) (ha : w.area = true) (hu : w.ue = true)
    (ctx : NewCtx) (ies : InitialUeIes) : handleInitialUeR env w ctx ies = handleInitialUe env ctx ies := by
  funext s
  rw [handleInitialUeR_eq hn, handleInitialUe_eq]
  cases initialCheck ies with
  | fault e => rfl
  | ok o =>
    cases o with
    | none => rfl
    | some x =>
      obtain ⟨id, ra, sai⟩ := x
      show initialTailR env w ctx id ra ies.nas sai _ = initialTail env ctx id ra ies.nas sai _
      have h1 : rncRegisterR env w id (gprsRaiToOsmo ra) ctx.addr = rncRegister env id (gprsRaiToOsmo ra) ctx.addr := by
        funext t
        rw [rncRegisterR_eq, hr, ha]
        simp
      have h2 : ctxAllocR w = ctxAlloc := by
        funext p c
        unfold ctxAllocR
        rw [hu]
        rfl
      unfold initialTailR initialTail
      rw [h1, h2]

/-- With a buffer for the NAS message, a Direct Transfer is handled as always. -/
theorem handleDtR_full (hn : w.nas = true) (ue : Ptr) (ies : DtIes) : handleDtR env w ue ies = handleDt env ue ies := by
  have hA : nasAllocR w = nasAlloc := by unfold nasAllocR nasAlloc; rw [hn]; rfl
  unfold handleDtR handleDt
  simp only [nasR hn, hA]
  rfl

theorem handleCoR_full (hn : w.nas = true) (ue : Ptr) (m : Msg) : handleCoR env w ue m = handleCo env ue m := by
  unfold handleCoR
  split
  · rename_i h
    unfold handleCo
    rw [if_pos h.1]
    obtain ⟨h1, h2⟩ := h
    rw [h2]
    cases m.body <;> simp only [handleDtR_full hn] <;> rfl
  · rfl

/-- Without a buffer, a Direct Transfer is survived only if it is refused. -/
theorem handleDtR_noNas (hn : w.nas = false) (ue : Ptr) (ies : DtIes) (s : State) :
    handleDtR env w ue ies s =
      (match dtCheck ies with
       | .fault e => .fault e
       | .ok none => .ok (-1, s)
       | .ok (some _) => .fault .nullDeref) := by
  have hP : nasPutR w ies.nas = M.fault .nullDeref := by unfold nasPutR; rw [hn]; rfl
  have hA : nasAllocR w = (pure () : M Unit) := by
    unfold nasAllocR
    rw [hn]
    funext s
    show Res.ok ((), { s with nasBufs := s.nasBufs + 0 }) = .ok ((), s)
    rw [Int.add_zero]
  unfold handleDtR dtCheck
  simp only [hP, hA]
  cases hl : ies.lai with
  | none => rfl
  | some pl =>
    obtain ⟨plmn, lac⟩ := pl
    simp only [bind_eq, pure_run, M.lift]
    cases hp : parseLai plmn lac with
    | fault e => rfl
    | ok x =>
      obtain ⟨rc, ra⟩ := x
      by_cases hrc : rc = 0
      · subst hrc
        simp only
        rw [if_neg (by simp), if_neg (by simp)]
        cases hr : ies.rac with
        | none =>
          simp only [bind_eq, pure_run]
          cases hsac : ies.saiSac with
          | none => rfl
          | some b =>
            simp only [bind_eq, pure_run]
            cases hb : asn1strToU16 b with
            | fault e => rfl
            | ok v => rfl
        | some r =>
          simp only [bind_eq, pure_run]
          cases hb8 : asn1strToU8 r with
          | fault e => rfl
          | ok rv =>
            simp only
            cases hsac : ies.saiSac with
            | none => rfl
            | some b =>
              simp only [bind_eq, pure_run]
              cases hb : asn1strToU16 b with
              | fault e => rfl
              | ok v => rfl
      · simp only
        rw [if_pos (by simpa using hrc), if_pos (by simpa using hrc)]
        rfl

/-- The computation does not end the process. -/
def Goes {α : Type} (r : Res α) : Prop := ∃ y, r = .ok y

theorem goes_bind {α β : Type} {m : M α} {f : α → M β} {s : State} (h : Goes ((m >>= f) s)) :
    ∃ a s', m s = .ok (a, s') ∧ Goes (f a s') := by
  rw [bind_eq] at h
  cases hm : m s with
  | fault e => rw [hm] at h; obtain ⟨y, hy⟩ := h; cases hy
  | ok x => rw [hm] at h; exact ⟨x.1, x.2, rfl, h⟩

theorem goes_of {α β : Type} {m : M α} {f : α → M β} {s s' : State} {a : α} (h : m s = .ok (a, s')) (h' : Goes (f a s')) :
    Goes ((m >>= f) s) := by
  rw [bind_eq, h]; exact h'

theorem goes_need {b : Bool} {e : Fault} {β : Type} {x : M β} {s : State} (h : Goes ((need b e >>= fun _ => x) s)) :
    b = true ∧ Goes (x s) := by
  cases b with
  | true => exact ⟨rfl, h⟩
  | false => obtain ⟨y, hy⟩ := h; cases hy

/-- What a new subscriber needs, given the records that there are. -/
structure ForNew (w : Supply) (l : List Rnc) (id : RncId) (area : Rai) : Prop where
  nas : w.nas = true
  ue : w.ue = true
  rnc : (∀ r ∈ l, ¬ SameRnc r.rncId id) → w.rnc = true
  area : (∀ r ∈ l, ¬ Serves r area) → w.area = true

theorem rncIdFind_none' {s : State} {id : RncId} (h : ∀ r ∈ s.rncs, ¬ SameRnc r.rncId id) : rncIdFind s id = none := by
  cases hf : rncIdFind s id with
  | none => rfl
  | some r => exact absurd (rncIdFind_some hf).2 (h r (rncIdFind_some hf).1)

theorem areaFind_serves {l : List Rnc} {rai : Rai} : areaFind l rai = none ↔ ∀ r ∈ l, ¬ Serves r rai := by
  rw [areaFind_none]
  constructor
  · rintro h r hr ⟨e, he, hs⟩
    exact h e (List.mem_flatMap.2 ⟨r, hr, he⟩) hs
  · intro h a ha hs
    obtain ⟨r, hr, ha⟩ := List.mem_flatMap.1 ha
    exact h r hr ⟨a, ha, hs⟩

theorem reg1_serves {s : State} {id : RncId} {a : SccpAddr} {rai : Rai} (hI : RInv s.rncs s.next) :
    areaFind (reg1 env s id a).1 rai = none ↔ ∀ r ∈ s.rncs, ¬ Serves r rai := by
  rw [← areaFind_serves, areaFind_none, areaFind_none, (reg1_inv id a hI).2.2.2.2]

theorem forNew_of_goes {ctx : NewCtx} {ies : InitialUeIes} {s : State} (hI : RInv s.rncs s.next) {id : RncId} {ra : GprsRaId}
    {sai : BitVec 16} (hr : readInitialUe ies = some (id, ra, sai)) (h : Goes (handleInitialUeR env w ctx ies s)) :
    ForNew w s.rncs id (areaOfRa ra) := by
  cases hn : w.nas with
  | false =>
    rcases handleInitialUeR_noNas (env := env) hn ctx ies s with ⟨_, e, he⟩ | ⟨hc, _⟩
    · rw [he] at h; obtain ⟨y, hy⟩ := h; cases hy
    · rw [initialCheck_ok hc] at hr; cases hr
  | true =>
    rw [handleInitialUeR_eq hn] at h
    cases hc : initialCheck ies with
    | fault e => rw [hc] at h; obtain ⟨y, hy⟩ := h; cases hy
    | ok o =>
      rw [hc] at h
      rw [initialCheck_ok hc] at hr
      subst hr
      obtain ⟨p, s1, h1, h⟩ := goes_bind (show Goes (initialTailR env w ctx id ra ies.nas sai _) from h)
      obtain ⟨q, s2, h2, _⟩ := goes_bind h
      obtain ⟨hu, _⟩ := goes_need (show Goes ((need w.ue .nullDeref >>= fun _ => ctxAlloc p ctx.conn) s1) from ⟨_, h2⟩)
      rw [rncRegisterR_eq] at h1
      refine ⟨hn, hu, fun hh => ?_, fun hh => ?_⟩
      · cases hw : w.rnc with
        | true => rfl
        | false => rw [if_pos ⟨hw, rncIdFind_none' hh⟩] at h1; cases h1
      · cases hw : w.area with
        | true => rfl
        | false =>
          split at h1
          · cases h1
          · rw [if_pos ⟨hw, (reg1_serves (s := { s with nasBufs := s.nasBufs + 1 }) hI).2 hh⟩] at h1; cases h1

theorem goes_of_forNew {ctx : NewCtx} {ies : InitialUeIes} {s : State} (hI : RInv s.rncs s.next)
    (hp : ∀ id ra sai, readInitialUe ies = some (id, ra, sai) → ForNew w s.rncs id (areaOfRa ra))
    (h : Goes (handleInitialUe env ctx ies s)) : Goes (handleInitialUeR env w ctx ies s) := by
  rw [handleInitialUe_eq] at h
  cases hc : initialCheck ies with
  | fault e => rw [hc] at h; obtain ⟨y, hy⟩ := h; cases hy
  | ok o =>
    have hr := initialCheck_ok hc
    rw [hc] at h
    cases o with
    | none =>
      cases hn : w.nas with
      | false =>
        rcases handleInitialUeR_noNas (env := env) hn ctx ies s with ⟨hc', _⟩ | ⟨_, he⟩
        · exact absurd hc hc'
        · exact ⟨_, he⟩
      | true => rw [handleInitialUeR_eq hn, hc]; exact ⟨_, rfl⟩
    | some x =>
      obtain ⟨id, ra, sai⟩ := x
      obtain ⟨hn, hu, h1, h2⟩ := hp _ _ _ hr
      rw [handleInitialUeR_eq hn, hc]
      have hctx : ctxAllocR w = ctxAlloc := by
        funext p c
        unfold ctxAllocR
        rw [hu]
        rfl
      have hreg : rncRegisterR env w id (gprsRaiToOsmo ra) ctx.addr { s with nasBufs := s.nasBufs + 1 } =
          rncRegister env id (gprsRaiToOsmo ra) ctx.addr { s with nasBufs := s.nasBufs + 1 } := by
        rw [rncRegisterR_eq, if_neg, if_neg]
        · rintro ⟨hw, ha⟩
          rw [h2 ((reg1_serves (s := { s with nasBufs := s.nasBufs + 1 }) hI).1 ha)] at hw
          cases hw
        · rintro ⟨hw, ha⟩
          rw [h1 (rncIdFind_none ha)] at hw
          cases hw
      show Goes (initialTailR env w ctx id ra ies.nas sai _)
      have h' : Goes (initialTail env ctx id ra ies.nas sai { s with nasBufs := s.nasBufs + 1 }) := h
      unfold initialTail at h'
      unfold initialTailR
      rw [bind_eq] at h' ⊢
      rw [hreg, hctx]
      exact h'

theorem goes_dt {ue : Ptr} {ies : DtIes} {s : State} (h : Goes (handleDtR env w ue ies s)) (hr : (readDt ies).isSome) : w.nas = true := by
  cases hn : w.nas with
  | true => rfl
  | false =>
    rw [handleDtR_noNas hn] at h
    cases hc : dtCheck ies with
    | fault e => rw [hc] at h; obtain ⟨y, hy⟩ := h; cases hy
    | ok o =>
      cases o with
      | none => rw [dtCheck_ok hc] at hr; cases hr
      | some x => rw [hc] at h; obtain ⟨y, hy⟩ := h; cases hy

theorem dt_goes {ue : Ptr} {ies : DtIes} {s : State} (hp : (readDt ies).isSome → w.nas = true) (h : Goes (handleDt env ue ies s)) :
    handleDtR env w ue ies s = handleDt env ue ies s ∨
      (handleDtR env w ue ies s = .ok (-1, s) ∧ handleDt env ue ies s = .ok (-1, { s with nasBufs := s.nasBufs + 1 })) := by
  cases hn : w.nas with
  | true => rw [handleDtR_full hn]; exact .inl rfl
  | false =>
    rw [handleDtR_noNas hn]
    rw [handleDt_eq] at h ⊢
    cases hc : dtCheck ies with
    | fault e => exact .inl rfl
    | ok o =>
      cases o with
      | none => exact .inr ⟨rfl, rfl⟩
      | some x =>
        rw [hp (by rw [dtCheck_ok hc]; rfl)] at hn
        cases hn

end Verif.ScarceRec
