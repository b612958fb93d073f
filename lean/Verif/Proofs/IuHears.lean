import Verif.Spec.IuHears
import Verif.Props.IuSays
import Verif.Proofs.IuShape

/-!
# What the user of the client hears
-/

namespace Verif.IuHears
open Verif.Iu Verif.Iu.Spec Verif.Lai Verif.IuAmount

variable {env : Env} {Q : Out → Prop} {α β : Type}

theorem _root_.Verif.Iu.Spec.AllHeard.same {s s' : State} (h : s'.trace = s.trace) : AllHeard Q s s' :=
  ⟨[], by rw [h, List.append_nil], fun _ hm => by cases hm⟩

theorem _root_.Verif.Iu.Spec.AllHeard.trans {s s1 s2 : State} (h : AllHeard Q s s1) (h' : AllHeard Q s1 s2) : AllHeard Q s s2 := by
  obtain ⟨d, e, a⟩ := h
  obtain ⟨d', e', a'⟩ := h'
  refine ⟨d ++ d', by rw [e', e, List.append_assoc], fun o hm => ?_⟩
  rcases List.mem_append.1 hm with hm | hm
  · exact a o hm
  · exact a' o hm

theorem _root_.Verif.Iu.Spec.AllHeard.mono {R : Out → Prop} {s s' : State} (h : AllHeard Q s s') (hq : ∀ o, Q o → R o) : AllHeard R s s' := by
  obtain ⟨d, e, a⟩ := h
  exact ⟨d, e, fun o hm hi => hq o (a o hm hi)⟩

/-- A computation that makes such calls of the user only. -/
def Hears (Q : Out → Prop) (m : M α) : Prop := ∀ s a s', m s = .ok (a, s') → AllHeard Q s s'

theorem _root_.Verif.IuAmount.Still.hears {m : M α} (h : Still m) : Hears Q m := fun s a s' hs => .same (h s a s' hs)

theorem Hears.bind {m : M α} {f : α → M β} (h : Hears Q m) (hf : ∀ a, Hears Q (f a)) : Hears Q (m >>= f) := by
  intro s b s' hs
  obtain ⟨a, s1, h1, h2⟩ := bind_ok.1 hs
  exact (h s a s1 h1).trans (hf a s1 b s' h2)

theorem Hears.after {m : M α} {f : α → M β} (h : Still m) (hf : ∀ a, Hears Q (f a)) : Hears Q (m >>= f) := h.hears.bind hf

theorem Hears.before {m : M α} {f : α → M β} (h : Hears Q m) (hf : ∀ a, Still (f a)) : Hears Q (m >>= f) := h.bind fun a => (hf a).hears

theorem Hears.cond {p : Prop} [Decidable p] {m m' : M α} (h : Hears Q m) (h' : Hears Q m') : Hears Q (if p then m else m') := by
  split <;> assumption

theorem hears_sapDown (p : Prim) : Hears Q (sapDown env p) := fun s rc s' hs =>
  ⟨_, sapDown_ok hs, fun o hm hi => by rw [List.mem_singleton] at hm; subst hm; cases hi⟩

theorem hears_freeUe (ue : Option Ptr) : Hears Q (freeUe env ue) := by
  unfold freeUe
  cases ue with
  | none => exact (still_pure _).hears
  | some p =>
    refine .after (still_deref _) fun u => .after (still_modify fun _ => rfl) fun _ => ?_
    exact .before (hears_sapDown _) fun _ => still_modify fun _ => rfl

/-- A call of the API calls nobody. -/
theorem hears_api (a : Api) : Hears Q (runApi env a) := by
  intro s rc s' hs
  obtain ⟨d, e, -⟩ := Verif.Props.C132_api (show step env (.api a) s = _ from hs)
  have ht := (Verif.Props.C130_api (show step env (.api a) s = _ from hs)).2
  refine ⟨d, e, fun o hm hi => ?_⟩
  unfold told at ht
  rw [e, List.countP_append] at ht
  have h0 : d.countP isTold = 0 := by omega
  exact absurd hi (List.countP_eq_zero.1 h0 o hm)

theorem hears_script : ∀ sc : Script, Hears Q (runScript env sc)
  | .done => (still_pure _).hears
  | .call a k => Hears.bind (hears_api a) fun rc => hears_script (k rc)

/-- The user is called. -/
theorem hears_callback {o : Out} (ho : isTold o = true → Q o) : Hears Q (callback env o) := by
  intro s a s' hs
  unfold callback at hs
  obtain ⟨_, s1, h1, h2⟩ := bind_ok.1 hs
  obtain ⟨_, s2, h3, h4⟩ := bind_ok.1 h2
  cases h3
  cases h1
  refine AllHeard.trans (s1 := { s with trace := s.trace ++ [o] }) ⟨[o], rfl, fun p hm hi => ?_⟩ (hears_script _ _ _ _ h4)
  rw [List.mem_singleton] at hm
  subst hm
  exact ho hi

theorem hears_iuEvent_none (e : Event) (hq : Q (.event none e)) : Hears Q (iuEvent env none e) := by
  unfold iuEvent
  exact .cond (hears_callback fun _ => hq) (still_pure _).hears

theorem hears_iuEvent (p : Ptr) (e : Event) (hq : ∀ c, Q (.event (some (p, c)) e)) : Hears Q (iuEvent env (some p) e) := by
  unfold iuEvent
  exact .cond (.after (still_deref _) fun u => .cond (hears_callback fun _ => hq _) (still_pure _).hears) (still_pure _).hears

theorem hears_iuEvent_at {s s' : State} {u : Ue} {e : Event} (hu : s.ues.find? (·.ptr = u.ptr) = some u)
    (hq : Q (.event (some (u.ptr, u.conn)) e)) (hs : iuEvent env (some u.ptr) e s = .ok ((), s')) : AllHeard Q s s' := by
  unfold iuEvent at hs
  by_cases hc : env.hasEventCb = true
  · rw [if_pos hc] at hs
    obtain ⟨v, s2, h3, h4⟩ := bind_ok.1 hs
    obtain ⟨rfl, hv⟩ := wp_ok (eff_deref _ _) h3
    have e2 : u = v := Option.some.inj (hu.symm.trans hv)
    subst e2
    exact (Hears.cond (hears_callback fun _ => hq) (still_pure _).hears) s2 _ s' h4
  · rw [if_neg hc] at hs
    cases hs
    exact AllHeard.same rfl

theorem hears_iuEventNewArea (r : RncId) (a : Rai) (hq : ∀ area, Q (.event none (.newArea r area))) : Hears Q (iuEventNewArea env r a) :=
  .cond (hears_iuEvent_none _ (hq _)) (hears_iuEvent_none _ (hq _))

theorem hears_rncRegister (id : RncId) (rai : Rai) (addr : SccpAddr) (hq : ∀ r area, Q (.event none (.newArea r area))) :
    Hears Q (rncRegister env id rai addr) := by
  unfold rncRegister
  refine .after still_get fun s => ?_
  extract_lets next
  have tail : ∀ rnc, Hears Q (next rnc) := by
    intro rnc
    refine .after still_get fun s => ?_
    dsimp only
    split
    · split
      · exact .after (still_updRnc _ _) fun _ => .after (still_updRnc _ _) fun _ => .before (hears_iuEventNewArea _ _ (hq _)) fun _ => still_pure _
      · exact (still_pure _).hears
    · exact .after (still_modify fun _ => rfl) fun _ => .after (still_updRnc _ _) fun _ => .before (hears_iuEventNewArea _ _ (hq _)) fun _ => still_pure _
  clear_value next
  split
  · dsimp only
    split
    · exact .after (still_updRnc _ _) fun _ => .after (still_pure _) fun _ => tail _
    · exact .after (still_pure _) fun _ => tail _
  · exact .after (still_rncAlloc _ _) fun _ => tail _

theorem hears_handleInitialUe (ctx : NewCtx) (ies : InitialUeIes) (hq : ∀ ue ra sai, Q (.recv ue ctx.conn ies.nas ra sai))
    (hn : ∀ r area, Q (.event none (.newArea r area))) :
    Hears Q (handleInitialUe env ctx ies) := by
  unfold handleInitialUe
  refine .after still_nasAlloc fun _ => .after (still_lift _) fun x => ?_
  obtain ⟨rc, ra⟩ := x
  dsimp only
  refine .cond (still_pure _).hears ?_
  split
  all_goals
    refine .after (by first | exact still_lift _ | exact still_pure _) fun rac => .cond (still_pure _).hears ?_
    split
    · exact (still_pure _).hears
    · refine .after (still_lift _) fun sai => .after (still_nasPut _) fun _ => ?_
      refine Hears.bind (hears_rncRegister _ _ _ hn) fun rnc => ?_
      refine .after (still_ctxAlloc _ _) fun ue => .after (still_modify fun _ => rfl) fun _ => ?_
      exact .before (hears_callback fun _ => hq _ _ _) fun _ => still_nasFree.bind fun _ => still_pure _

theorem hears_handleDt {s s' : State} {ue : Ue} {ies : DtIes} {rc : Int} (hu : s.ues.find? (·.ptr = ue.ptr) = some ue)
    (hq : ∀ ra sai, Q (.recv ue.ptr ue.conn ies.nas ra sai)) (hs : handleDt env ue.ptr ies s = .ok (rc, s')) : AllHeard Q s s' := by
  rw [handleDt_eq] at hs
  split at hs
  · cases hs
  · cases hs
    exact AllHeard.same rfl
  next ra sai hc =>
    refine AllHeard.trans (s1 := { s with nasBufs := s.nasBufs + 1 }) (AllHeard.same rfl) ?_
    unfold dtTail at hs
    obtain ⟨_, s1, h1, h2⟩ := bind_ok.1 hs
    have e1 : s1 = { s with nasBufs := s.nasBufs + 1 } := by
      unfold nasPut at h1
      split at h1
      · cases h1; rfl
      · cases h1
    subst e1
    obtain ⟨v, s2, h3, h4⟩ := bind_ok.1 h2
    obtain ⟨rfl, hv⟩ := wp_ok (eff_deref _ _) h3
    have e2 : ue = v := Option.some.inj (hu.symm.trans hv)
    subst e2
    exact Hears.before (hears_callback fun _ => hq _ _) (fun _ => still_nasFree.bind fun _ => still_pure _) _ rc s' h4

theorem hears_handleRabAssResp {s s' : State} {u : Ue} {items : Option (List (Option Bytes))} {rc : Int}
    (hu : s.ues.find? (·.ptr = u.ptr) = some u)
    (hq : ∀ item rest, items = some (some item :: rest) → Q (.event (some (u.ptr, u.conn)) (.rabAssign item)))
    (hs : handleRabAssResp env u.ptr items s = .ok (rc, s')) : AllHeard Q s s' := by
  unfold handleRabAssResp at hs
  obtain ⟨v, s2, h3, h4⟩ := bind_ok.1 hs
  obtain ⟨rfl, -⟩ := wp_ok (eff_deref _ _) h3
  match items, hq, h4 with
  | none, _, h4 => cases h4; exact AllHeard.same rfl
  | some [], _, h4 => cases h4
  | some (none :: _), _, h4 => cases h4; exact AllHeard.same rfl
  | some (some it :: rest), hq, h4 =>
    obtain ⟨_, s3, h5, h6⟩ := bind_ok.1 h4
    cases h6
    exact hears_iuEvent_at hu (hq it rest rfl) h5

theorem hears_handleCoInitial (ctx : NewCtx) (m : Msg) (hq : ∀ ies ue ra sai, m.dir = PR_initiatingMessage → m.proc = id_InitialUE_Message →
    m.body = .initialUe ies → Q (.recv ue ctx.conn ies.nas ra sai))
    (hn : ∀ ies r area, m.dir = PR_initiatingMessage → m.proc = id_InitialUE_Message → m.body = .initialUe ies →
      Q (.event none (.newArea r area))) : Hears Q (handleCoInitial env ctx m) := by
  unfold handleCoInitial
  split
  · exact (still_pure _).hears
  next hc =>
    obtain ⟨h1, h2⟩ : m.dir = PR_initiatingMessage ∧ m.proc = id_InitialUE_Message :=
      ⟨Decidable.not_not.1 fun h => hc (.inl h), Decidable.not_not.1 fun h => hc (.inr h)⟩
    split
    next ies hb => exact .before (hears_handleInitialUe _ _ (fun _ _ _ => hq _ _ _ _ h1 h2 hb) fun _ _ => hn _ _ _ h1 h2 hb) fun _ => still_pure _
    · exact (still_fault _).hears

theorem hears_linkInvalidatedFree (hq : ∀ x, Q (.event (some x) .linkInvalidated)) (p : Ptr) : Hears Q (linkInvalidatedFree env p) := by
  unfold linkInvalidatedFree
  refine .after (still_deref _) fun u => ?_
  refine Hears.bind (hears_iuEvent _ _ fun _ => hq _) fun _ => .after still_get fun s => ?_
  split
  · exact (still_pure _).hears
  · exact .cond (hears_freeUe _) (still_pure _).hears

theorem hears_linkInvalidatedFree_at {s s' : State} {u : Ue} (hu : s.ues.find? (·.ptr = u.ptr) = some u)
    (hq : Q (.event (some (u.ptr, u.conn)) .linkInvalidated)) (hs : linkInvalidatedFree env u.ptr s = .ok ((), s')) : AllHeard Q s s' := by
  unfold linkInvalidatedFree at hs
  obtain ⟨v, s1, h1, h2⟩ := bind_ok.1 hs
  obtain ⟨rfl, -⟩ := wp_ok (eff_deref _ _) h1
  obtain ⟨_, s2, h3, h4⟩ := bind_ok.1 h2
  refine (hears_iuEvent_at hu hq h3).trans ((?_ : Hears Q _) s2 _ s' h4)
  refine .after still_get fun s => ?_
  split
  · exact (still_pure _).hears
  · exact .cond (hears_freeUe _) (still_pure _).hears

theorem hears_ueLoop (hq : ∀ x, Q (.event (some x) .linkInvalidated)) (rnc : Ptr) : ∀ (n : Nat) (p : Ptr), Hears Q (ueLoop env rnc n p)
  | 0, _ => (still_fault _).hears
  | n + 1, p => by
    unfold ueLoop
    refine .after (still_deref _) fun u => .after still_get fun s => ?_
    have rest : Hears Q (match ueNext s p with
      | none => pure ()
      | some q => ueLoop env rnc n q) := by
      split
      · exact (still_pure _).hears
      · exact hears_ueLoop hq rnc n _
    dsimp only
    split
    · exact Hears.bind (hears_linkInvalidatedFree hq p) fun _ => rest
    · exact rest

theorem hears_rncLoop (hq : ∀ x, Q (.event (some x) .linkInvalidated)) (hit : SccpAddr → Bool) : ∀ l, Hears Q (rncLoop env hit l)
  | [] => (still_pure _).hears
  | r :: l => by
    unfold rncLoop
    have e : Hears Q (ueForEachSafe env r.ptr) := by
      unfold ueForEachSafe
      refine .after still_get fun s => ?_
      split
      · exact (still_pure _).hears
      · exact hears_ueLoop hq _ _ _
    split
    · exact e.bind fun _ => hears_rncLoop hq hit l
    · exact hears_rncLoop hq hit l

theorem hears_rxCo {f : Msg → M Unit} (d : Bytes) (hf : ∀ m, env.decodeCo d = some m → Hears Q (f m)) : Hears Q (rxCo env f d) := by
  unfold rxCo
  split
  · exact (still_pure _).hears
  next m hm => exact .before (hf _ hm) fun _ => still_pure _

/-- The reasons for calls of the user in a message at a context. -/
inductive At (m : Msg) (u : Ue) : Out → Prop where
  | transfer {ies ra sai} (hm : m.dir = PR_initiatingMessage) (hp : m.proc = id_DirectTransfer) (hb : m.body = .directTransfer ies) :
    At m u (.recv u.ptr u.conn ies.nas ra sai)
  | security (hm : m.dir = PR_successfulOutcome) (hp : m.proc = id_SecurityModeControl) :
    At m u (.event (some (u.ptr, u.conn)) .securityModeComplete)
  | release (hm : m.dir = PR_successfulOutcome) (hp : m.proc = id_Iu_Release) : At m u (.event (some (u.ptr, u.conn)) .iuRelease)
  | rab {item rest} (hm : m.dir = PR_outcome) (hp : m.proc = id_RAB_Assignment) (hb : m.body = .rabAssResp (some (some item :: rest))) :
    At m u (.event (some (u.ptr, u.conn)) (.rabAssign item))

theorem hears_handleCo {s s' : State} {u : Ue} {m : Msg} (hu : s.ues.find? (·.ptr = u.ptr) = some u)
    (hs : handleCo env u.ptr m s = .ok ((), s')) : AllHeard (At m u) s s' := by
  unfold handleCo at hs
  by_cases hd : m.dir = PR_initiatingMessage
  · rw [if_pos hd] at hs
    by_cases hp : m.proc = id_DirectTransfer
    · rw [if_neg (by rw [hp]; decide), if_pos hp] at hs
      cases hb : m.body
      case directTransfer ies =>
        rw [hb] at hs
        obtain ⟨rc, s1, h1, h2⟩ := bind_ok.1 hs
        cases h2
        exact hears_handleDt hu (fun _ _ => .transfer hd hp hb) h1
      all_goals (rw [hb] at hs; cases hs)
    · refine (?_ : Hears (At m u) _) s _ s' hs
      rw [if_neg hp]
      refine .cond (still_pure _).hears (.cond ?_ (.cond ?_ (still_pure _).hears))
      · split
        · exact (still_pure _).hears
        · exact (still_fault _).hears
      · split
        · refine .before ?_ fun _ => still_pure _
          unfold iuTxRelease
          exact .after (still_genMsg _) fun _ => .after (still_deref _) fun _ => hears_sapDown _
        · exact (still_fault _).hears
  · rw [if_neg hd] at hs
    by_cases h1 : m.dir = PR_successfulOutcome
    · rw [if_pos h1] at hs
      by_cases h2 : m.proc = id_SecurityModeControl
      · rw [if_pos h2] at hs
        exact hears_iuEvent_at hu (.security h1 h2) hs
      · rw [if_neg h2] at hs
        by_cases h3 : m.proc = id_Iu_Release
        · rw [if_pos h3] at hs
          exact hears_iuEvent_at hu (.release h1 h3) hs
        · rw [if_neg h3] at hs
          cases hs
          exact AllHeard.same rfl
    · rw [if_neg h1] at hs
      by_cases h2 : m.dir = PR_outcome
      · rw [if_pos h2] at hs
        by_cases h3 : m.proc = id_RAB_Assignment
        · rw [if_pos h3] at hs
          cases hb : m.body
          case rabAssResp items =>
            rw [hb] at hs
            obtain ⟨rc, s1, h4, h5⟩ := bind_ok.1 hs
            cases h5
            exact hears_handleRabAssResp hu (fun item rest hr => .rab h2 h3 (hr ▸ hb)) h4
          all_goals (rw [hb] at hs; cases hs)
        · rw [if_neg h3] at hs
          cases hs
          exact AllHeard.same rfl
      · rw [if_neg h2] at hs
        cases hs
        exact AllHeard.same rfl

end Verif.IuHears
