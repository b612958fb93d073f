import Verif.Proofs.IuAmountLink
import Verif.Props.Linked
import Verif.Props.IuLink

/-!
# C130: one message in, at most one message out
-/

namespace Verif.Props
open Verif.Iu Verif.Iu.Spec Verif.IuAmount Verif.Linked

variable {env : Env} {k : Nat}

theorem step_account {H : Prop} (h : H → Replies env k) {op : Op} (ho : FromOutside op) {s s' : State} {rc : Int}
    (hs : step env op s = .ok (rc, s')) : ∃ t, Account H k 1 t s s' ∧ (OneMessage op → t ≤ 2) := by
  have of : ∀ {c t : Nat}, Adds H k c t (step env op) → c ≤ 1 → t ≤ 2 → ∃ t, Account H k 1 t s s' ∧ (OneMessage op → t ≤ 2) :=
    fun ha hc ht => ⟨_, (ha s rc s' hs).mono hc (Nat.le_refl _), fun _ => ht⟩
  cases op with
  | connectConf => exact of (c := 0) (t := 0) (still_pure _).adds (by omega) (by omega)
  | otherInd => exact of (c := 0) (t := 0) (still_pure _).adds (by omega) (by omega)
  | connectInd c a d =>
    refine of (c := 0) (t := 2) ?_ (by omega) (by omega)
    unfold step
    refine (Adds.bind (c := 0) (t := 0) (c' := 0) (t' := 2) (adds_sapDown (.connectResp c)) fun _ => ?_)
    exact .cond (.after (still_cacheAdd _ _) fun _ => (still_pure _).adds) (adds_rxCo (adds_handleCoInitial h _) _)
  | disconnectInd c d =>
    refine of (c := 1) (t := 2) ?_ (by omega) (by omega)
    unfold step
    refine .after (still_cacheDel _) fun _ => .after still_get fun s => ?_
    split
    · exact (still_pure _).adds
    · have tail : ∀ rc : Int, Adds H k 0 1 (do
          let s ← M.get
          match ctxFind s c with
          | none => pure rc
          | some u => do linkInvalidatedFree env u.ptr; pure rc) := by
        intro rc
        refine .after still_get fun s => ?_
        split
        · exact (still_pure _).adds
        · exact .before (adds_linkInvalidatedFree h _) fun _ => still_pure _
      dsimp only
      split
      · exact Adds.bind (c := 1) (t := 1) (c' := 0) (t' := 1) (adds_rxCo (adds_handleCo h _) _) fun rc => tail rc
      · exact (Adds.after (still_pure _) fun rc => tail rc).mono (by omega) (by omega)
  | dataInd c d =>
    refine of (c := 1) (t := 2) ?_ (by omega) (by omega)
    unfold step
    refine .after still_get fun s => ?_
    split
    · split
      · exact (still_pure _).adds
      · exact .after (still_cacheDel _) fun _ => (adds_rxCo (adds_handleCoInitial h _) _).mono (by omega) (by omega)
    · exact (adds_rxCo (adds_handleCo h _) _).mono (by omega) (by omega)
  | unitdataInd a d =>
    refine of (c := 1) (t := 0) ?_ (by omega) (by omega)
    unfold step
    dsimp only
    split
    · exact (still_pure _).adds
    · exact .before (adds_handleCl _ _) fun _ => still_pure _
  | noticeInd a cause =>
    have : Owns H k (step env (.noticeInd a cause)) := by
      unfold step handleNotice
      refine Owns.bind ?_ fun _ => (still_pure _).owns
      split
      · exact (still_pure _).owns
      · exact Owns.bind still_get.owns fun s => owns_rncLoop h _ _
    obtain ⟨t, ht⟩ := this s rc s' hs
    exact ⟨t, ht.mono (by omega) (Nat.le_refl _), False.elim⟩
  | pcstateInd pc sp rem =>
    have : Owns H k (step env (.pcstateInd pc sp rem)) := by
      unfold step handlePcstate
      refine Owns.bind ?_ fun _ => (still_pure _).owns
      dsimp only
      split
      · exact Owns.bind still_get.owns fun s => owns_rncLoop h _ _
      · exact (still_pure _).owns
    obtain ⟨t, ht⟩ := this s rc s' hs
    exact ⟨t, ht.mono (by omega) (Nat.le_refl _), False.elim⟩
  | timer p =>
    refine of (c := 0) (t := 1) ?_ (by omega) (by omega)
    unfold step
    refine .after still_get fun s => .cond (.after (still_modify fun _ => rfl) fun _ => ?_) (still_pure _).adds
    exact .before (adds_iuEvent h _ _) fun _ => still_pure _
  | api a => exact absurd rfl (ho a)

theorem step_quiet {H : Prop} (h : H → Replies env k) {op : Op} (ho : FromOutside op) (hq : ¬ Asks env op) {s s' : State} {rc : Int}
    (hs : step env op s = .ok (rc, s')) : ∃ t, Account H k 0 t s s' := by
  have of : ∀ {t : Nat}, Adds H k 0 t (step env op) → ∃ t, Account H k 0 t s s' := fun ha => ⟨_, ha s rc s' hs⟩
  cases op with
  | connectConf => exact of (t := 0) (still_pure _).adds
  | otherInd => exact of (t := 0) (still_pure _).adds
  | connectInd c a d =>
    refine of (t := 2) ?_
    unfold step
    refine (Adds.bind (c := 0) (t := 0) (c' := 0) (t' := 2) (adds_sapDown (.connectResp c)) fun _ => ?_)
    exact .cond (.after (still_cacheAdd _ _) fun _ => (still_pure _).adds) (adds_rxCo (adds_handleCoInitial h _) _)
  | disconnectInd c d =>
    refine of (t := 2) ?_
    unfold step
    refine .after (still_cacheDel _) fun _ => .after still_get fun s => ?_
    split
    · exact (still_pure _).adds
    · have tail : ∀ rc : Int, Adds H k 0 1 (do
          let s ← M.get
          match ctxFind s c with
          | none => pure rc
          | some u => do linkInvalidatedFree env u.ptr; pure rc) := by
        intro rc
        refine .after still_get fun s => ?_
        split
        · exact (still_pure _).adds
        · exact .before (adds_linkInvalidatedFree h _) fun _ => still_pure _
      dsimp only
      split
      · exact Adds.bind (c := 0) (t := 1) (c' := 0) (t' := 1) (adds_rxCo_quiet h _ hq) fun rc => tail rc
      · exact (Adds.after (still_pure _) fun rc => tail rc).mono (by omega) (by omega)
  | dataInd c d =>
    refine of (t := 2) ?_
    unfold step
    refine .after still_get fun s => ?_
    split
    · split
      · exact (still_pure _).adds
      · exact .after (still_cacheDel _) fun _ => (adds_rxCo (adds_handleCoInitial h _) _).mono (by omega) (by omega)
    · exact (adds_rxCo_quiet h _ hq).mono (by omega) (by omega)
  | unitdataInd a d =>
    refine of (t := 0) ?_
    unfold step
    dsimp only
    split
    · exact (still_pure _).adds
    next m hm => exact .after (still_handleCl_quiet _ fun h1 h2 => hq ⟨m, hm, h1, h2⟩) fun _ => (still_pure _).adds
  | noticeInd a cause =>
    have : Owns H k (step env (.noticeInd a cause)) := by
      unfold step handleNotice
      refine Owns.bind ?_ fun _ => (still_pure _).owns
      split
      · exact (still_pure _).owns
      · exact Owns.bind still_get.owns fun s => owns_rncLoop h _ _
    exact this s rc s' hs
  | pcstateInd pc sp rem =>
    have : Owns H k (step env (.pcstateInd pc sp rem)) := by
      unfold step handlePcstate
      refine Owns.bind ?_ fun _ => (still_pure _).owns
      dsimp only
      split
      · exact Owns.bind still_get.owns fun s => owns_rncLoop h _ _
      · exact (still_pure _).owns
    exact this s rc s' hs
  | timer p =>
    refine of (t := 1) ?_
    unfold step
    refine .after still_get fun s => .cond (.after (still_modify fun _ => rfl) fun _ => ?_) (still_pure _).adds
    exact .before (adds_iuEvent h _ _) fun _ => still_pure _
  | api a => exact absurd rfl (ho a)

/-! ## C130 -/

/-- **C130.** Whatever is received or expires, the client sends at most one message, besides what the user sends when called. -/
theorem C130_sends (h : Replies env k) {op : Op} (ho : FromOutside op) {s s' : State} {rc : Int}
    (hs : step env op s = .ok (rc, s')) : sent s' ≤ sent s + 1 + k * (told s' - told s) := by
  obtain ⟨t, ha, -⟩ := step_account (H := True) (fun _ => h) ho hs
  have h1 := ha.sent trivial
  have h2 := Nat.mul_sub k (told s') (told s)
  have h3 := Nat.mul_le_mul_left k ha.told
  omega

/-- **C130.** The client does not speak unasked: what is received or expires makes it send nothing, besides what the user sends when
called, unless it is an Iu Release Request or a RESET. -/
theorem C130_asked (h : Replies env k) {op : Op} (ho : FromOutside op) (hq : ¬ Asks env op) {s s' : State} {rc : Int}
    (hs : step env op s = .ok (rc, s')) : sent s' ≤ sent s + k * (told s' - told s) := by
  obtain ⟨t, ha⟩ := step_quiet (H := True) (fun _ => h) ho hq hs
  have h1 := ha.sent trivial
  have h2 := Nat.mul_sub k (told s') (told s)
  have h3 := Nat.mul_le_mul_left k ha.told
  omega

/-- **C130.** So with a user who sends nothing when called, a history sends at most one message for each Iu Release Request and
each RESET in it. -/
theorem C130_answers (h : Replies env 0) [DecidablePred (Asks env)] : ∀ (ops : List Op), (∀ op ∈ ops, FromOutside op) → ∀ {s s' : State},
    run env ops s = .ok ((), s') → sent s' ≤ sent s + ops.countP fun op => decide (Asks env op)
  | [], _, s, s', hr => by
    cases hr
    exact Nat.le_add_right _ _
  | op :: ops, ho, s, s', hr => by
    unfold run at hr
    obtain ⟨rc, s1, h1, h2⟩ := bind_ok.1 hr
    have a2 := C130_answers h ops (fun o hm => ho o (List.mem_cons_of_mem _ hm)) h2
    rw [List.countP_cons]
    by_cases hq : Asks env op
    · have a1 := C130_sends h (ho op (List.mem_cons_self ..)) h1
      simp only [hq, decide_true, if_true]
      omega
    · have a1 := C130_asked h (ho op (List.mem_cons_self ..)) hq h1
      omega

/-- **C130.** A received message or an expired timer makes the client call the user at most twice. -/
theorem C130_tells {op : Op} (ho : FromOutside op) (h1 : OneMessage op) {s s' : State} {rc : Int}
    (hs : step env op s = .ok (rc, s')) : told s' ≤ told s + 2 := by
  obtain ⟨t, ha, ht⟩ := step_account (H := False) (k := 0) False.elim ho hs
  have := ha.most
  have := ht h1
  omega

/-- **C130.** Whatever the user does when called: N-NOTICE.ind makes the client call them at most once for each context with events
on whose RNC has the calling address; N-PCSTATE.ind, for each whose RNC is at the point code. -/
theorem C130_links {ops : List Op} {s s' : State} {rc : Int} (h0 : run env ops init = .ok ((), s)) :
    (∀ a cause, step env (.noticeInd a cause) s = .ok (rc, s') → told s' ≤ told s + listening s fun x => env.riEq x a) ∧
    (∀ pc sp rem, step env (.pcstateInd pc sp rem) s = .ok (rc, s') → told s' ≤ told s + listening s fun x => decide (AtPc pc x)) := by
  have hi := reach_inv h0
  constructor
  · intro a cause hs
    have hs : (do handleNotice env a cause; pure (-1) : M Int) s = .ok (rc, s') := hs
    obtain ⟨_, s1, h1, h2⟩ := bind_ok.1 hs
    cases h2
    unfold handleNotice at h1
    split at h1
    · cases h1
      exact Nat.le_add_right _ _
    · simp only [bind_eq, get_run] at h1
      exact wp_ok (link_rncLoop _ _ s hi.reg.nodup hi.ueNodup) h1
  · intro pc sp rem hs
    have hs : (do handlePcstate env pc sp rem; pure (-1) : M Int) s = .ok (rc, s') := hs
    obtain ⟨_, s1, h1, h2⟩ := bind_ok.1 hs
    cases h2
    unfold handlePcstate at h1
    split at h1
    · simp only [bind_eq, get_run] at h1
      have e : (fun x : SccpAddr => decide (AtPc pc x)) = fun x => x.samePcSsn (makeAddrPcSsn pc SSN_RANAP) := by
        funext x
        rw [Bool.eq_iff_iff]
        rw [decide_eq_true_eq]
        simp only [SccpAddr.samePcSsn, makeAddrPcSsn, AtPc, Bool.and_eq_true]
        exact and_congr decide_eq_true_iff.symm decide_eq_true_iff.symm
      rw [e]
      exact wp_ok (link_rncLoop _ _ s hi.reg.nodup hi.ueNodup) h1
    · cases h1
      exact Nat.le_add_right _ _

/-- **C130.** So whatever comes, the user is called at most twice or once for each context, and no more is sent than that
times what they send when called, and one message. -/
theorem C130_bound {ops : List Op} {s s' : State} {rc : Int} (h0 : run env ops init = .ok ((), s)) {op : Op} (ho : FromOutside op)
    (hs : step env op s = .ok (rc, s')) :
    told s' ≤ told s + max 2 s.ues.length ∧ (Replies env k → sent s' ≤ sent s + 1 + k * max 2 s.ues.length) := by
  have key : told s' ≤ told s + max 2 s.ues.length := by
    by_cases h1 : OneMessage op
    · have := C130_tells ho h1 hs
      have := Nat.le_max_left 2 s.ues.length
      omega
    · have len : ∀ hit, listening s hit ≤ max 2 s.ues.length := fun hit =>
        Nat.le_trans List.countP_le_length (Nat.le_max_right ..)
      cases op with
      | noticeInd a cause => exact Nat.le_trans ((C130_links h0).1 a cause hs) (Nat.add_le_add_left (len _) _)
      | pcstateInd pc sp rem => exact Nat.le_trans ((C130_links h0).2 pc sp rem hs) (Nat.add_le_add_left (len _) _)
      | _ => exact absurd trivial h1
  refine ⟨key, fun h => ?_⟩
  have h1 := C130_sends h ho hs
  have h2 := Nat.mul_le_mul_left k (show told s' - told s ≤ max 2 s.ues.length by omega)
  omega

/-- **C130.** A call of the API sends one message at most, or one to each RNC that serves the paged area, and calls nobody. -/
theorem C130_api {a : Api} {s s' : State} {rc : Int} (hs : step env (.api a) s = .ok (rc, s')) :
    sent s' ≤ sent s + most s a ∧ told s' = told s := by
  have ha := adds_runApi (H := True) (k := 0) (hs : runApi env a s = _)
  have h1 := ha.sent trivial
  have h2 := ha.told
  have h3 := ha.most
  omega

/-- **C130.** In a history of messages received and timers expired, no more messages are sent than there were operations, besides
what the user sends when called. -/
theorem C130_history (h : Replies env k) : ∀ (ops : List Op), (∀ op ∈ ops, FromOutside op) → ∀ {s s' : State},
    run env ops s = .ok ((), s') → told s ≤ told s' ∧ sent s' ≤ sent s + ops.length + k * (told s' - told s)
  | [], _, s, s', hr => by
    cases hr
    exact ⟨Nat.le_refl _, Nat.le_add_right _ _⟩
  | op :: ops, ho, s, s', hr => by
    unfold run at hr
    obtain ⟨rc, s1, h1, h2⟩ := bind_ok.1 hr
    have a1 := C130_sends h (ho op (List.mem_cons_self ..)) h1
    obtain ⟨t, b1, -⟩ := step_account (H := True) (fun _ => h) (ho op (List.mem_cons_self ..)) h1
    obtain ⟨b2, a2⟩ := C130_history h ops (fun o hm => ho o (List.mem_cons_of_mem _ hm)) h2
    have b1 := b1.told
    refine ⟨Nat.le_trans b1 b2, ?_⟩
    have e : k * (told s' - told s) = k * (told s1 - told s) + k * (told s' - told s1) := by
      rw [← Nat.mul_add]
      congr 1
      omega
    rw [e, List.length_cons]
    omega

/-- **C130.** Users who make at most `k` calls each time they are called, none of which pages by LAI or RAI, send at most `k`
messages. -/
theorem C130_users (h : ∀ s o, Calls k (env.cb s o)) : Replies env k := by
  have key : ∀ {n : Nat} {sc : Script}, Calls n sc → ∀ s s', runScript env sc s = .ok ((), s') → sent s' ≤ sent s + n := by
    intro n sc hc
    induction hc with
    | done n => rintro s s' ⟨⟩; exact Nat.le_add_right _ _
    | call n a f hm _ ih =>
      intro s s' hs
      unfold runScript at hs
      obtain ⟨rc, s1, h1, h2⟩ := bind_ok.1 hs
      have a1 := (C130_api (h1 : step env (.api a) s = _)).1
      have a2 := ih rc s1 s' h2
      have := hm s
      omega
  exact fun s o s' hs => key (h s o) s s' hs

/-! ## Examples -/

/-- A user who answers NAS with NAS. -/
def chatty : Env := { Demo.env with cb := fun _ o => match o with
  | .recv ue _ nas _ _ => .call (.tx (some ue) nas 0) fun _ => .done
  | _ => .done }

/-- Such a user sends one message each time. -/
theorem chatty_replies : Replies (linked chatty) 1 :=
  C130_users fun s o => by
    cases o with
    | recv ue c nas ra sai => exact .call 0 _ _ (fun _ => Nat.le_refl 1) fun _ => .done 0
    | _ => exact .done 1

/-- The bounds are reached: an Initial UE Message of a chatty user, who is called twice and sends a message; then a release request,
which is answered. -/
example : Replies (linked chatty) 1 ∧ (match run (linked chatty) [.connectInd 10 (Demo.addr 1) initialOctets] init with
      | .ok (_, s) => some (sent s, told s)
      | .fault _ => none) = some (1, 2) ∧
    (match run (linked chatty) [.connectInd 10 (Demo.addr 1) initialOctets,
        .dataInd 10 [0x00, 0x0b, 0x40, 0x09, 0x00, 0x00, 0x01, 0x00, 0x04, 0x40, 0x02, 0x0b, 0x40]] init with
      | .ok (_, s) => some (sent s, told s)
      | .fault _ => none) = some (2, 2) :=
  ⟨chatty_replies, by decide +kernel, by decide +kernel⟩

/-- A user who does nothing when called, and a history with a RESET and an Iu Release Request among other messages: two answers. -/
example : Replies Demo.env 0 ∧ Asks Demo.env (.unitdataInd (Demo.addr 1) [1]) ∧ Asks Demo.env (.dataInd 10 [6]) ∧
    ¬ Asks Demo.env (.dataInd 10 [4]) ∧
    ∃ s, run Demo.env [.unitdataInd (Demo.addr 1) [1], .connectInd 10 (Demo.addr 1) [1], .dataInd 10 [4], .dataInd 10 [6],
      .disconnectInd 10 []] init = .ok ((), s) ∧ decide (sent s = 2) = true :=
  ⟨C130_users fun _ _ => .done 0, ⟨_, rfl, rfl, rfl⟩, ⟨_, rfl, rfl, rfl⟩, by
    rintro ⟨m, hm, h1, h2⟩
    cases hm
    exact absurd h2 (by decide), Demo.after_iff.1 (by decide +kernel)⟩

/-- A user who frees a context when the link of another is lost. -/
def grieving : Env := { Demo.env with cb := fun _ o => match o with
  | .event (some (3, _)) .linkInvalidated => .call (.freeUe (some 1)) fun _ => .done
  | _ => .done }

/-- Three contexts at one RNC, which is lost. The user frees the last one when told of the first, and so is told twice;
a user who does nothing, thrice. -/
example : (∃ s, run grieving [.connectInd 10 (Demo.addr 1) [1], .connectInd 11 (Demo.addr 1) [3], .connectInd 12 (Demo.addr 1) [3]] init = .ok ((), s) ∧
      decide (s.ues.map (·.ptr) = [3, 2, 1] ∧ told s = 5 ∧ listening s (fun x => decide (AtPc 1 x)) = 3) = true) ∧
    (∃ s, run grieving [.connectInd 10 (Demo.addr 1) [1], .connectInd 11 (Demo.addr 1) [3], .connectInd 12 (Demo.addr 1) [3],
        .pcstateInd 1 .inaccessible .available] init = .ok ((), s) ∧ decide (told s = 7) = true) ∧
    (∃ s, run Demo.env [.connectInd 10 (Demo.addr 1) [1], .connectInd 11 (Demo.addr 1) [3], .connectInd 12 (Demo.addr 1) [3],
        .pcstateInd 1 .inaccessible .available] init = .ok ((), s) ∧ decide (told s = 8) = true) :=
  ⟨Demo.after_iff.1 (by decide +kernel), Demo.after_iff.1 (by decide +kernel), Demo.after_iff.1 (by decide +kernel)⟩

end Verif.Props
