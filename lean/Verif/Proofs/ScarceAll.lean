import Verif.Model.ScarceAll
import Verif.Proofs.ScarceRec
import Verif.Proofs.ScarceIu
import Verif.Proofs.IuMem
import Verif.Proofs.IuLoop
import Verif.Proofs.LinkedSafe

/-!
# The client when any memory may be missing: invariants
-/

namespace Verif.ScarceAll
open Verif.Iu Verif.Iu.Spec Verif.Scarce Verif.ScarceIu Verif.ScarceRec Verif.Linked Verif.Linked.Spec Verif.Lai

variable {env : Env} {x : Lack}

theorem lacking_blind (B : Blind env) (x : Lack) : Blind (lacking x env) := by
  unfold lacking
  cases x.hears <;> exact ⟨B.sap, B.cb⟩

theorem near_refl (s : State) : Near s s := ⟨0, by rw [Int.sub_zero]⟩

theorem near_inv {s t : State} (h : Near s t) (hi : Inv t) : Inv s := by
  obtain ⟨k, rfl⟩ := h
  exact ⟨hi.1, hi.2, hi.3, hi.4, hi.5, hi.6⟩

theorem near_minv {s t : State} (h : Near s t) (hi : MInv t) : MInv s := by
  obtain ⟨k, rfl⟩ := h
  exact ⟨⟨hi.ues.1, hi.ues.2⟩, hi.reg, hi.bal⟩

theorem near_cinv {s t : State} (h : Near s t) (hi : CInv t) : CInv s := by
  obtain ⟨k, rfl⟩ := h
  exact ⟨hi.1, hi.2, hi.3⟩

/-- An operation that is survived ends near the state of the same operation with enough memory for the records. -/
theorem stepL_ok (B : Blind env) {op : Op} {s s' : State} {rc : Int} (h : stepL env x op s = .ok (rc, s')) :
    ∃ t', step (lacking x env) op s = .ok (rc, t') ∧ Near s' t' := by
  rcases (surv_step (w := x.supply) (lacking_blind B x) op).at_ s s (near_refl s) with (h1 | h1) | ⟨e, h1, -⟩ | ⟨a, s1, t1, h1, h2, h3⟩
  · rw [show stepR (lacking x env) x.supply op s = _ from h] at h1; cases h1
  · rw [show stepR (lacking x env) x.supply op s = _ from h] at h1; cases h1
  · rw [show stepR (lacking x env) x.supply op s = _ from h] at h1; cases h1
  · rw [show stepR (lacking x env) x.supply op s = _ from h] at h1
    cases h1
    exact ⟨t1, h2, h3⟩

theorem stepL_inv (B : Blind env) {op : Op} {s s' : State} {rc : Int} (h : stepL env x op s = .ok (rc, s')) (hi : Inv s) : Inv s' := by
  obtain ⟨t', h1, h2⟩ := stepL_ok B h
  exact near_inv h2 (step_inv h1 hi)

theorem stepL_minv (B : Blind env) {op : Op} {s s' : State} {rc : Int} (h : stepL env x op s = .ok (rc, s')) (hi : MInv s) :
    MInv s' := by
  obtain ⟨t', h1, h2⟩ := stepL_ok B h
  obtain ⟨ls, hp⟩ := step_path h1
  exact near_minv h2 (hp.minv hi)

theorem stepL_cinv (B : Blind env) {op : Op} {s s' : State} {rc : Int} (h : stepL env x op s = .ok (rc, s')) (hi : CInv s)
    (hf : ∀ c a d, op = .connectInd c a d → ¬ InUse s c) : CInv s' := by
  obtain ⟨t', h1, h2⟩ := stepL_ok B h
  exact near_cinv h2 (step_cinv h1 hi hf)

theorem runL_cons {op : Op} {ops : List (Lack × Op)} {s s' : State} (h : runL env ((x, op) :: ops) s = .ok ((), s')) :
    ∃ rc s1, stepL env x op s = .ok (rc, s1) ∧ runL env ops s1 = .ok ((), s') := bind_ok.1 h

theorem runL_inv (B : Blind env) {ops : List (Lack × Op)} {s s' : State} (h : runL env ops s = .ok ((), s')) (hi : Inv s)
    (hm : MInv s) : Inv s' ∧ MInv s' := by
  induction ops generalizing s with
  | nil => cases h; exact ⟨hi, hm⟩
  | cons o ops ih =>
    obtain ⟨x, op⟩ := o
    obtain ⟨rc, s1, h1, h2⟩ := runL_cons h
    exact ih h2 (stepL_inv B h1 hi) (stepL_minv B h1 hm)

/-! ## Other decoders -/

/-- What is received is decoded in another way. -/
abbrev deco (co cl : Bytes → Option Msg) (env : Env) : Env := { env with decodeCo := co, decodeCl := cl }

theorem hearing_deco (h : Hears) (env : Env) : ∃ co cl, hearing h env = deco co cl env := by
  cases h
  · exact ⟨env.decodeCo, env.decodeCl, rfl⟩
  · exact ⟨_, env.decodeCl, rfl⟩
  · exact ⟨_, _, rfl⟩

variable {co cl : Bytes → Option Msg}

set_option smartUnfolding false in
theorem runApi_deco (a : Api) : runApi (deco co cl env) a = runApi env a := by
  with_unfolding_all rfl

theorem scriptOk_deco : ∀ (sc : Script) (s : State), ScriptOk env sc s → ScriptOk (deco co cl env) sc s
  | .done, _, _ => trivial
  | .call a k, s, h => ⟨h.1, fun rc s' hs => scriptOk_deco (k rc) s' (h.2 rc s' (by rw [runApi_deco] at hs; exact hs))⟩

theorem callbacksOk_deco (hc : CallbacksOk env) : CallbacksOk (deco co cl env) := fun s o h => scriptOk_deco _ s (hc s o h)

/-- The octets that an operation brings on a connection. -/
def payloadCo : Op → Option Bytes
  | .connectInd _ _ d => some d
  | .disconnectInd _ d => some d
  | .dataInd _ d => some d
  | _ => none

/-- The octets that an operation brings without a connection. -/
def payloadCl : Op → Option Bytes
  | .unitdataInd _ d => some d
  | _ => none

set_option smartUnfolding false in
theorem handleCoInitial_deco (ctx : NewCtx) : handleCoInitial (deco co cl env) ctx = handleCoInitial env ctx := by
  with_unfolding_all rfl

set_option smartUnfolding false in
theorem handleCo_deco (ue : Ptr) : handleCo (deco co cl env) ue = handleCo env ue := by
  with_unfolding_all rfl

theorem rxCo_deco {h : Msg → M Unit} {d : Bytes} (hd : co d = env.decodeCo d) : rxCo (deco co cl env) h d = rxCo env h d := by
  unfold rxCo
  show (match co d with | none => _ | some m => _) = _
  rw [hd]
  cases env.decodeCo d <;> rfl

set_option smartUnfolding false in
/-- Only what is made of the octets it brings matters to an operation. -/
theorem step_deco {op : Op} (h : ∀ d, payloadCo op = some d → co d = env.decodeCo d)
    (h' : ∀ d, payloadCl op = some d → cl d = env.decodeCl d) :
    step (deco co cl env) op = step env op := by
  cases op with
  | connectInd c a d =>
    unfold step
    dsimp only
    rw [handleCoInitial_deco, rxCo_deco (h d rfl)]
    rfl
  | disconnectInd c d =>
    unfold step
    dsimp only
    simp only [handleCo_deco, rxCo_deco (h d rfl)]
    with_unfolding_all rfl
  | dataInd c d =>
    unfold step
    dsimp only
    simp only [handleCo_deco, handleCoInitial_deco, rxCo_deco (h d rfl)]
  | unitdataInd a d =>
    unfold step
    dsimp only
    rw [h' d rfl]
    rfl
  | connectConf => rfl
  | otherInd => rfl
  | noticeInd => with_unfolding_all rfl
  | pcstateInd => with_unfolding_all rfl
  | timer => with_unfolding_all rfl
  | api => with_unfolding_all rfl

theorem opMsg_co {op : Op} {d : Bytes} {m : Msg} (hp : payloadCo op = some d) (h : opMsg env op = some m) :
    env.decodeCo d = some m := by
  cases op with
  | connectInd c a d' =>
    cases hp
    unfold opMsg at h
    dsimp only at h
    split at h
    · cases h
    · exact h
  | disconnectInd c d' =>
    cases hp
    unfold opMsg at h
    dsimp only at h
    split at h
    · cases h
    · exact h
  | dataInd c d' => cases hp; exact h
  | _ => cases hp

/-- Nothing that is received can be decoded. -/
abbrev deaf (env : Env) : Env := hearing .nothing env

theorem opMsg_deaf (op : Op) : opMsg (deaf env) op = none := by
  cases op with
  | connectInd c a d => exact ite_self _
  | disconnectInd c d => first | rfl | exact ite_self _
  | _ => rfl

theorem blank_or (m : Msg) : blank m = m ∨ ∃ i l, m.body = .rabAssResp (some (i :: l)) := by
  obtain ⟨p, c, b⟩ := m
  cases b with
  | rabAssResp o =>
    cases o with
    | none => exact .inl rfl
    | some l =>
      cases l with
      | nil => exact .inl rfl
      | cons i l => exact .inr ⟨i, l, rfl⟩
  | _ => exact .inl rfl

/-- A client without memory for items ends only where one with memory ends. -/
theorem faults_noItem (hc : CallbacksOk (linked env)) (hl : LinkOk (linked env)) {op : Op} {s : State} (hi : Inv s) (hci : CInv s)
    (ho : OpOk (linked env) s op) {e : Fault} (h : step (hearing .noItem (linked env)) op s = .fault e) :
    step (linked env) op s = .fault e := by
  by_cases hp : ∀ d, payloadCo op = some d → ((linked env).decodeCo d).map blank = (linked env).decodeCo d
  · rw [← step_deco (env := linked env) (cl := (linked env).decodeCl) hp fun _ _ => rfl]
    exact h
  · exfalso
    obtain ⟨d, hp⟩ := Classical.not_forall.1 hp
    rw [Classical.not_imp] at hp
    obtain ⟨hd, hp⟩ := hp
    have ho' : OpOk (hearing .noItem (linked env)) s op := by cases op <;> exact ho
    have hf := sf_step (callbacksOk_deco hc) (env := hearing .noItem (linked env)) hl hi hci ho'
    unfold wp at hf
    rw [h] at hf
    obtain ⟨m', hm, hz⟩ := hf
    have hm := opMsg_co hd hm
    change ((linked env).decodeCo d).map blank = _ at hm
    cases hx : (linked env).decodeCo d with
    | none => rw [hx] at hp; exact hp rfl
    | some m =>
      rw [hx] at hp hm
      cases hm
      rcases blank_or m with hb | ⟨i, l, hb⟩
      · exact hp (congrArg some hb)
      · obtain ⟨p, c, l', hcm, rfl⟩ := decodeCo_iff.1 hx
        have hb' : (blank ⟨p, c, coBody p c l'⟩).body = .rabAssResp (some (none :: l.map fun _ => none)) := by
          unfold blank
          dsimp only at hb ⊢
          rw [hb]
          rfl
        have hp' : (blank ⟨p, c, coBody p c l'⟩).dir = p := by
          unfold blank
          split <;> rfl
        have h0 : p ≠ 1 := by
          rintro rfl
          unfold coBody at hb
          dsimp only at hb
          repeat' split at hb
          all_goals first | cases hb | omega
        cases hz with
        | union hu =>
          rw [hp', hb'] at hu
          rcases hu with hu | hu | hu | hu | hu | hu
          · exact h0 hu.1
          · exact h0 hu.1
          · exact h0 hu.1
          · exact h0 hu.1
          · exact h0 hu.1
          · exact hu.2.2 ⟨_, rfl⟩
        | nasInitial _ hq => rw [hb'] at hq; cases hq
        | nasDt _ hq => rw [hb'] at hq; cases hq
        | sacInitial _ hq => rw [hb'] at hq; cases hq
        | sacDt _ _ hq => rw [hb'] at hq; cases hq
        | racInitial _ hq => rw [hb'] at hq; cases hq
        | racDt _ hq => rw [hb'] at hq; cases hq
        | rab hq => rw [hb'] at hq; cases hq
        | cause _ hq => rw [hb'] at hq; cases hq
        | causeFault _ _ hq => rw [hb'] at hq; cases hq
        | reset _ _ _ hq => rw [hb'] at hq; cases hq

/-! ## Other messages -/

theorem reset_ok {a : SccpAddr} {data : Bytes} {d : Nat} {r : Option GRncId} {o : Option Bytes}
    (hd : env.decodeCl data = some ⟨PR_initiatingMessage, id_Reset, .reset d r⟩) (hg : env.gen (.resetAck d r) = .ok o) (s : State) :
    ∃ y, step env (.unitdataInd a data) s = .ok y := by
  unfold step
  simp only [hd]
  unfold handleCl
  rw [if_pos rfl, if_pos rfl]
  simp only [bind_eq, handleClReset, hg]
  cases o with
  | none => exact ⟨_, rfl⟩
  | some b => exact ⟨_, rfl⟩

/-- Messages that are made in another way, or not at all, end the process by a null pointer if it does not end otherwise. -/
theorem faults_making {g : TxMsg → Res (Option Bytes)}
    (T : ∀ m, (∃ o, g m = .ok o) ∨ g m = .fault .nullDeref ∨ g m = env.gen m) (R : ∀ d, g (.raw d) = .ok (some d))
    (R' : ∀ d, env.gen (.raw d) = .ok (some d)) {op : Op} {s : State} {e : Fault}
    (h : step (making g env) op s = .fault e) : e = .nullDeref ∨ ∃ e', step env op s = .fault e' := by
  let g2 : TxMsg → Res (Option Bytes) := fun m => match g m with
    | .ok (some b) => .ok (some b)
    | _ => env.gen m
  have hu : ¬ Unanswered g (making g2 env) op := fun hu => by
    have := step_unanswered hu s
    rw [show step (making g (making g2 env)) op s = _ from h] at this
    cases this
  rcases (follows_step (F := (· = .nullDeref)) (env := making g2 env) (g := g) ⟨rfl, fun m => by
      show _ ∨ _ ∨ g m = g2 m ∨ _
      dsimp only [g2]
      rcases T m with ⟨o, ho⟩ | ho | ho
      · cases o with
        | none => exact .inl ho
        | some b => rw [ho]; exact .inr (.inr (.inl rfl))
      · exact .inr (.inl ⟨_, rfl, ho⟩)
      · refine .inr (.inr (.inl ?_))
        split
        · assumption
        · exact ho⟩ R op hu).at_ s with ⟨e', rfl, h1⟩ | ⟨h1, -⟩
  · rw [show step (making g (making g2 env)) op s = _ from h] at h1
    cases h1
    exact .inl rfl
  · rw [show step (making g (making g2 env)) op s = _ from h] at h1
    refine .inr ?_
    by_cases hv : Unanswered env.gen (making g2 env) op
    · exfalso
      obtain ⟨a, data, d, r, rfl, hd, hg⟩ := hv
      have : ∃ o, (making g2 env).gen (.resetAck d r) = .ok o := by
        show ∃ o, g2 _ = _
        dsimp only [g2]
        split
        · exact ⟨_, rfl⟩
        · exact ⟨_, hg⟩
      obtain ⟨o, ho⟩ := this
      obtain ⟨y, hy⟩ := reset_ok (env := making g2 env) (a := a) hd ho s
      rw [hy] at h1
      cases h1
    · rcases (follows_step (F := fun _ => True) (env := making g2 env) (g := env.gen) ⟨trivial, fun m => by
        show _ ∨ _ ∨ env.gen m = g2 m ∨ ∃ b b', _ ∧ g2 m = .ok (some b')
        cases hm : env.gen m with
        | fault e => exact .inr (.inl ⟨e, trivial, rfl⟩)
        | ok o =>
          cases o with
          | none => exact .inl rfl
          | some b =>
            dsimp only [g2]
            cases hgm : g m with
            | fault e => exact .inr (.inr (.inl hm.symm))
            | ok o' =>
              cases o' with
              | none => exact .inr (.inr (.inl hm.symm))
              | some b' => exact .inr (.inr (.inr ⟨b, b', rfl, rfl⟩))⟩ R' op hv).at_ s with ⟨e', -, h2⟩ | ⟨h2, -⟩
      · exact ⟨e', h2⟩
      · exact ⟨e, h2.trans h1.symm⟩

/-- Where the process survives, messages that are made in another way change nothing, except for the answer to a RESET. -/
theorem same_making {g : TxMsg → Res (Option Bytes)}
    (T : ∀ m, (∃ o, g m = .ok o) ∨ g m = .fault .nullDeref ∨ g m = env.gen m) (R : ∀ d, g (.raw d) = .ok (some d))
    (R' : ∀ d, env.gen (.raw d) = .ok (some d)) {op : Op} {s : State} {y : Int × State} (h : step env op s = .ok y) :
    step (making g env) op s = .fault .nullDeref ∨ Unanswered g env op ∨ Unanswered env.gen env op ∨
      step (making g env) op s = .ok y := by
  by_cases hu : Unanswered g env op
  · exact .inr (.inl hu)
  by_cases hv : Unanswered env.gen env op
  · exact .inr (.inr (.inl hv))
  let g2 : TxMsg → Res (Option Bytes) := fun m => match g m with
    | .ok (some b) => .ok (some b)
    | _ => env.gen m
  rcases (follows_step (F := (· = .nullDeref)) (env := making g2 env) (g := g) ⟨rfl, fun m => by
      show _ ∨ _ ∨ g m = g2 m ∨ _
      dsimp only [g2]
      rcases T m with ⟨o, ho⟩ | ho | ho
      · cases o with
        | none => exact .inl ho
        | some b => rw [ho]; exact .inr (.inr (.inl rfl))
      · exact .inr (.inl ⟨_, rfl, ho⟩)
      · refine .inr (.inr (.inl ?_))
        split
        · assumption
        · exact ho⟩ R op hu).at_ s with ⟨e', rfl, h1⟩ | ⟨h1, -⟩
  · exact .inl h1
  · refine .inr (.inr (.inr ?_))
    rcases (follows_step (F := fun _ => True) (env := making g2 env) (g := env.gen) ⟨trivial, fun m => by
        show _ ∨ _ ∨ env.gen m = g2 m ∨ ∃ b b', _ ∧ g2 m = .ok (some b')
        cases hm : env.gen m with
        | fault e => exact .inr (.inl ⟨e, trivial, rfl⟩)
        | ok o =>
          cases o with
          | none => exact .inl rfl
          | some b =>
            dsimp only [g2]
            cases hgm : g m with
            | fault e => exact .inr (.inr (.inl hm.symm))
            | ok o' =>
              cases o' with
              | none => exact .inr (.inr (.inl hm.symm))
              | some b' => exact .inr (.inr (.inr ⟨b, b', rfl, rfl⟩))⟩ R' op hv).at_ s with ⟨e', -, h2⟩ | ⟨h2, -⟩
    · rw [show step (making env.gen (making g2 env)) op s = _ from h] at h2
      cases h2
    · rw [show step (making env.gen (making g2 env)) op s = _ from h] at h2
      exact h1.trans h2.symm

/-- A RESET adds to what is sent at most. -/
theorem reset_effect {a : SccpAddr} {data : Bytes} {d : Nat} {r : Option GRncId}
    (hd : env.decodeCl data = some ⟨PR_initiatingMessage, id_Reset, .reset d r⟩) (s : State) :
    (∃ e, env.gen (.resetAck d r) = .fault e ∧ step env (.unitdataInd a data) s = .fault e) ∨
    step env (.unitdataInd a data) s = .ok (0, s) ∨
    ∃ rc, step env (.unitdataInd a data) s = .ok (0, { s with trace := s.trace ++ [.sap (.unitdataReq a (.resetAck d r)) rc] }) := by
  unfold step
  simp only [hd]
  unfold handleCl
  rw [if_pos rfl, if_pos rfl]
  simp only [bind_eq, handleClReset]
  rcases env.gen (.resetAck d r) with (_ | b) | e
  · exact .inr (.inl rfl)
  · exact .inr (.inr ⟨_, rfl⟩)
  · exact .inl ⟨e, rfl, rfl⟩

end Verif.ScarceAll
