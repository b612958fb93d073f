import Verif.Spec.IuSays
import Verif.Proofs.IuAmountLink

/-!
# What the client sends of its own accord
-/

namespace Verif.IuSays
open Verif.Iu Verif.Iu.Spec Verif.Lai Verif.IuAmount

variable {env : Env} {P : Prim → Prop} {α β : Type}

theorem _root_.Verif.Iu.Spec.AllSent.same {s s' : State} (h : s'.trace = s.trace) : AllSent P s s' :=
  ⟨[], by rw [h, List.append_nil], fun _ _ hm => by cases hm⟩

theorem _root_.Verif.Iu.Spec.AllSent.trans {s s1 s2 : State} (h : AllSent P s s1) (h' : AllSent P s1 s2) : AllSent P s s2 := by
  obtain ⟨d, e, a⟩ := h
  obtain ⟨d', e', a'⟩ := h'
  refine ⟨d ++ d', by rw [e', e, List.append_assoc], fun p rc hm => ?_⟩
  rcases List.mem_append.1 hm with hm | hm
  · exact a p rc hm
  · exact a' p rc hm

theorem _root_.Verif.Iu.Spec.AllSent.mono {Q : Prim → Prop} {s s' : State} (h : AllSent P s s') (hq : ∀ p, P p → Q p) : AllSent Q s s' := by
  obtain ⟨d, e, a⟩ := h
  exact ⟨d, e, fun p rc hm hi => hq p (a p rc hm hi)⟩

theorem _root_.Verif.Iu.Spec.AllSent.one {s s' : State} {p : Prim} {rc : Int} (h : s'.trace = s.trace ++ [.sap p rc]) (hp : isMessage (.sap p rc) = true → P p) :
    AllSent P s s' := by
  refine ⟨_, h, fun q rc' hm hi => ?_⟩
  rw [List.mem_singleton] at hm
  cases hm
  exact hp hi

/-- A computation that sends such messages only. -/
def Says (P : Prim → Prop) (m : M α) : Prop := ∀ s a s', m s = .ok (a, s') → AllSent P s s'

theorem _root_.Verif.IuAmount.Still.says {m : M α} (h : Still m) : Says P m := fun s a s' hs => .same (h s a s' hs)

theorem Says.bind {m : M α} {f : α → M β} (h : Says P m) (hf : ∀ a, Says P (f a)) : Says P (m >>= f) := by
  intro s b s' hs
  obtain ⟨a, s1, h1, h2⟩ := bind_ok.1 hs
  exact (h s a s1 h1).trans (hf a s1 b s' h2)

theorem Says.after {m : M α} {f : α → M β} (h : Still m) (hf : ∀ a, Says P (f a)) : Says P (m >>= f) := h.says.bind hf

theorem Says.before {m : M α} {f : α → M β} (h : Says P m) (hf : ∀ a, Still (f a)) : Says P (m >>= f) := h.bind fun a => (hf a).says

theorem Says.cond {p : Prop} [Decidable p] {m m' : M α} (h : Says P m) (h' : Says P m') : Says P (if p then m else m') := by
  split <;> assumption

theorem says_sapDown {p : Prim} (h : ∀ rc, isMessage (.sap p rc) = true → P p) : Says P (sapDown env p) :=
  fun _ rc _ hs => AllSent.one (sapDown_ok hs) (h rc)

theorem says_freeUe (ue : Option Ptr) : Says P (freeUe env ue) := by
  unfold freeUe
  cases ue with
  | none => exact (still_pure _).says
  | some p =>
    refine .after (still_deref _) fun u => .after (still_modify fun _ => rfl) fun _ => ?_
    exact .before (says_sapDown fun _ h => by cases h) fun _ => still_modify fun _ => rfl

/-- The user is called. -/
theorem says_callback (h : UserSends env P) {o : Out} (ho : isTold o = true) : Says P (callback env o) := by
  intro s a s' hs
  unfold callback at hs
  obtain ⟨_, s1, h1, h2⟩ := bind_ok.1 hs
  obtain ⟨_, s2, h3, h4⟩ := bind_ok.1 h2
  cases h3
  cases h1
  refine AllSent.trans (s1 := { s with trace := s.trace ++ [o] }) ⟨[o], rfl, fun p rc hm hi => ?_⟩ (h _ _ _ h4)
  rw [List.mem_singleton] at hm
  subst hm
  cases ho

section
variable (h : UserSends env P)
include h

theorem says_iuEvent (ue : Option Ptr) (e : Event) : Says P (iuEvent env ue e) := by
  unfold iuEvent
  refine .cond ?_ (still_pure _).says
  cases ue with
  | none => exact says_callback h rfl
  | some p => exact .after (still_deref _) fun u => .cond (says_callback h rfl) (still_pure _).says

theorem says_iuEventNewArea (r : RncId) (a : Rai) : Says P (iuEventNewArea env r a) :=
  .cond (says_iuEvent h _ _) (says_iuEvent h _ _)

theorem says_rncRegister (id : RncId) (rai : Rai) (addr : SccpAddr) : Says P (rncRegister env id rai addr) := by
  unfold rncRegister
  refine .after still_get fun s => ?_
  extract_lets next
  have tail : ∀ rnc, Says P (next rnc) := by
    intro rnc
    refine .after still_get fun s => ?_
    dsimp only
    split
    · split
      · exact .after (still_updRnc _ _) fun _ => .after (still_updRnc _ _) fun _ => .before (says_iuEventNewArea h _ _) fun _ => still_pure _
      · exact (still_pure _).says
    · exact .after (still_modify fun _ => rfl) fun _ => .after (still_updRnc _ _) fun _ => .before (says_iuEventNewArea h _ _) fun _ => still_pure _
  clear_value next
  split
  · dsimp only
    split
    · exact .after (still_updRnc _ _) fun _ => .after (still_pure _) fun _ => tail _
    · exact .after (still_pure _) fun _ => tail _
  · exact .after (still_rncAlloc _ _) fun _ => tail _

theorem says_handleInitialUe (ctx : NewCtx) (ies : InitialUeIes) : Says P (handleInitialUe env ctx ies) := by
  unfold handleInitialUe
  refine .after still_nasAlloc fun _ => .after (still_lift _) fun x => ?_
  obtain ⟨rc, ra⟩ := x
  dsimp only
  refine .cond (still_pure _).says ?_
  split
  all_goals
    refine .after (by first | exact still_lift _ | exact still_pure _) fun rac => .cond (still_pure _).says ?_
    split
    · exact (still_pure _).says
    · refine .after (still_lift _) fun sai => .after (still_nasPut _) fun _ => ?_
      refine Says.bind (says_rncRegister h _ _ _) fun rnc => ?_
      refine .after (still_ctxAlloc _ _) fun ue => .after (still_modify fun _ => rfl) fun _ => ?_
      exact .before (says_callback h rfl) fun _ => still_nasFree.bind fun _ => still_pure _

theorem says_handleDt (ue : Ptr) (ies : DtIes) : Says P (handleDt env ue ies) := by
  unfold handleDt
  refine .after still_nasAlloc fun _ => .after ?_ fun loc => ?_
  · split
    · exact still_pure _
    · refine (still_lift _).bind fun x => ?_
      obtain ⟨rc, ra⟩ := x
      dsimp only
      split
      · exact still_pure _
      · have tail : ∀ ra : GprsRaId, Still (match ies.saiSac with
          | some b => do let v ← M.lift (asn1strToU16 b); pure (some (some ra, some v))
          | none => pure (some (some ra, none)) : M (Option (Option GprsRaId × Option (BitVec 16)))) := by
          intro ra
          split
          · exact (still_lift _).bind fun _ => still_pure _
          · exact still_pure _
        split
        · exact (still_lift _).bind fun _ => (still_pure _).bind fun _ => tail _
        · exact (still_pure _).bind fun _ => tail _
  · split
    · exact (still_pure _).says
    · refine .after (still_nasPut _) fun _ => .after (still_deref _) fun u => ?_
      exact .before (says_callback h rfl) fun _ => still_nasFree.bind fun _ => still_pure _

theorem says_handleRabAssResp (ue : Ptr) (items : Option (List (Option Bytes))) : Says P (handleRabAssResp env ue items) := by
  unfold handleRabAssResp
  refine .after (still_deref _) fun _ => ?_
  split
  · exact (still_pure _).says
  · exact (still_fault _).says
  · exact (still_pure _).says
  · exact .before (says_iuEvent h _ _) fun _ => still_pure _

theorem says_handleCoInitial (ctx : NewCtx) (m : Msg) : Says P (handleCoInitial env ctx m) := by
  unfold handleCoInitial
  refine .cond (still_pure _).says ?_
  split
  · exact .before (says_handleInitialUe h _ _) fun _ => still_pure _
  · exact (still_fault _).says

theorem says_linkInvalidatedFree (p : Ptr) : Says P (linkInvalidatedFree env p) := by
  unfold linkInvalidatedFree
  refine .after (still_deref _) fun u => ?_
  refine Says.bind (says_iuEvent h _ _) fun _ => .after still_get fun s => ?_
  split
  · exact (still_pure _).says
  · exact .cond (says_freeUe _) (still_pure _).says

theorem says_ueLoop (rnc : Ptr) : ∀ (n : Nat) (p : Ptr), Says P (ueLoop env rnc n p)
  | 0, _ => (still_fault _).says
  | n + 1, p => by
    unfold ueLoop
    refine .after (still_deref _) fun u => .after still_get fun s => ?_
    have rest : Says P (match ueNext s p with
      | none => pure ()
      | some q => ueLoop env rnc n q) := by
      split
      · exact (still_pure _).says
      · exact says_ueLoop rnc n _
    dsimp only
    split
    · exact Says.bind (says_linkInvalidatedFree h p) fun _ => rest
    · exact rest

theorem says_rncLoop (hit : SccpAddr → Bool) : ∀ l, Says P (rncLoop env hit l)
  | [] => (still_pure _).says
  | r :: l => by
    unfold rncLoop
    have e : Says P (ueForEachSafe env r.ptr) := by
      unfold ueForEachSafe
      refine .after still_get fun s => ?_
      split
      · exact (still_pure _).says
      · exact says_ueLoop h _ _ _
    split
    · exact e.bind fun _ => says_rncLoop hit l
    · exact says_rncLoop hit l

end

theorem says_rxCo {f : Msg → M Unit} (hf : ∀ m, Says P (f m)) (d : Bytes) : Says P (rxCo env f d) := by
  unfold rxCo
  split
  · exact (still_pure _).says
  · exact .before (hf _) fun _ => still_pure _

theorem says_handleCo_quiet (h : UserSends env P) (ue : Ptr) {m : Msg} (hm : m.dir = PR_initiatingMessage → m.proc ≠ id_Iu_ReleaseRequest) :
    Says P (handleCo env ue m) := by
  unfold handleCo
  by_cases hd : m.dir = PR_initiatingMessage
  · rw [if_pos hd]
    refine .cond (still_pure _).says (.cond ?_ (.cond ?_ ?_))
    · split
      · exact Says.before (says_handleDt h _ _) fun _ => still_pure _
      · exact (still_fault _).says
    · split
      · exact (still_pure _).says
      · exact (still_fault _).says
    · rw [if_neg (hm hd)]
      exact (still_pure _).says
  · rw [if_neg hd]
    refine .cond (.cond ?_ (.cond ?_ (still_pure _).says)) (.cond (.cond ?_ (still_pure _).says) (still_pure _).says)
    · exact says_iuEvent h _ _
    · exact says_iuEvent h _ _
    · split
      · exact Says.before (says_handleRabAssResp h _ _) fun _ => still_pure _
      · exact (still_fault _).says

theorem says_rxCo_quiet (h : UserSends env P) (ue : Ptr) {d : Bytes} (hd : ¬ ReleaseRequest env d) :
    Says P (rxCo env (handleCo env ue) d) := by
  unfold rxCo
  split
  · exact (still_pure _).says
  next m hm => exact .before (says_handleCo_quiet h ue fun h1 h2 => hd ⟨m, hm, h1, h2⟩) fun _ => still_pure _

end Verif.IuSays
