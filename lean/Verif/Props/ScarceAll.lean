import Verif.Proofs.ScarceAll
import Verif.Props.ScarceIu
import Verif.Props.ScarceRec

/-!
# C129: the Iu client when any memory may be missing
-/

namespace Verif.Props
open Verif.Iu Verif.Iu.Spec Verif.Linked Verif.Linked.Spec Verif.Scarce Verif.ScarceIu Verif.ScarceRec Verif.ScarceAll
open Verif.Factory (Call algorithms keyBits)

variable {env : Env}

/-! ## What becomes of messages, whatever memory is missing -/

theorem keyW_fault {w : World} {k : Option Bytes} {n : Nat} {f : Fault} (h : (keyW w k n).1 = .fault f) :
    keyBits k = .fault .oobRead ∧ f = .oobRead := by
  cases k with
  | none => cases h
  | some b =>
    have h' : (if w n .key then keyBits (some b) else .ok []) = .fault f := by
      rw [← h]
      unfold keyW attempt
      simp only [bind, StateT.bind, pure]
      cases hk : w n .key <;> simp [StateT.pure, pure]
    split at h'
    · unfold keyBits at h' ⊢
      dsimp only at h' ⊢
      split at h'
      · rename_i hl
        cases h'
        exact ⟨if_pos hl, rfl⟩
      · cases h'
    · cases h'

/-- Whatever is missing, a message is made or not, or the process ends by a null pointer or as it does with memory. -/
theorem genW_any (w : World) (lax debug : Bool) (n : Nat) (m : TxMsg) : (∃ o, genW w lax debug n m = .ok o) ∨
    genW w lax debug n m = .fault .nullDeref ∨ genW w lax debug n m = Linked.gen m := by
  cases h : callOf m with
  | none => cases m <;> cases h; exact .inl ⟨_, rfl⟩
  | some c =>
    obtain ⟨h1, h2, -⟩ := genW_call h w lax debug n
    rw [h1, h2]
    have planned : ∀ x, plan c = some x → (∃ o, (callW w lax debug c n).1 = .ok o) ∨ (callW w lax debug c n).1 = .fault .nullDeref ∨
        (callW w lax debug c n).1 = c.result := by
      intro x hx
      rw [callW_plan hx]
      cases x with
      | fault f => exact .inr (.inr (C120_plan c _ hx).symm)
      | ok q =>
        show (∃ o, (q.runW w debug n).1 = _) ∨ (q.runW w debug n).1 = _ ∨ _
        rw [runW_eq]
        split
        · exact .inl ⟨_, rfl⟩
        · exact .inr (.inl rfl)
    cases m with
    | raw d => cases h
    | secModCmd ik ck newKey =>
      cases h
      show (∃ o, (secModCmd2W w debug (some ik) ck (if newKey then 1 else 0) 6 6 n).1 = _) ∨
        (secModCmd2W w debug (some ik) ck (if newKey then 1 else 0) 6 6 n).1 = _ ∨
        (secModCmd2W w debug (some ik) ck (if newKey then 1 else 0) 6 6 n).1 =
          Factory.secModCmd2 (some ik) ck (if newKey then 1 else 0) 6 6
      obtain ⟨n1, n2, n3, n4, he⟩ := secModW_eq w debug (some ik) ck (if newKey then 1 else 0) 6 6 n
      have ha := algorithmsW_sub w 6 0 1 8 n
      have hb := algorithmsW_sub w 6 1 2 8 n2
      rw [he]
      unfold Factory.secModCmd2
      generalize (algorithmsW w 6 0 1 8 n).1 = x at ha ⊢
      rcases x with ⟨_ | x⟩ | f
      · exact .inl ⟨_, rfl⟩
      · obtain ⟨l0, ha, -⟩ := ha
        simp only [ha]
        cases hk : (keyW w (some ik) n1).1 with
        | fault f =>
          obtain ⟨h1, rfl⟩ := keyW_fault hk
          rw [h1]
          exact .inr (.inr rfl)
        | ok ikBits =>
          cases ck with
          | none => exact .inl ⟨_, rfl⟩
          | some ck =>
            dsimp only
            generalize (algorithmsW w 6 1 2 8 n2).1 = y at hb ⊢
            rcases y with ⟨_ | y⟩ | f
            · exact .inl ⟨_, rfl⟩
            · obtain ⟨l1, hb, -⟩ := hb
              simp only [hb]
              cases hk' : (keyW w (some ck) n3).1 with
              | fault f =>
                obtain ⟨h1, rfl⟩ := keyW_fault hk'
                rw [h1]
                refine .inr (.inr ?_)
                cases hi : keyBits (some ik) with
                | ok _ => rfl
                | fault f =>
                  unfold keyBits at hi
                  dsimp only at hi
                  split at hi <;> cases hi
                  rfl
              | ok ckBits => exact .inl ⟨_, rfl⟩
            · cases hb
              exact .inr (.inl rfl)
      · cases ha
        exact .inr (.inl rfl)
    | commonId imsi => cases h; cases imsi <;> exact planned _ rfl
    | _ => cases h; exact planned _ rfl

/-! ## C129 -/

/-- The registry, the contexts, the timers and the number of records of a client are consistent. -/
structure Consistent (s : State) : Prop where
  /-- no RNC twice -/
  rncs : s.rncs.Pairwise fun a b => ¬ SameRnc a.rncId b.rncId ∧ a.ptr ≠ b.ptr
  /-- no area with two RNCs, or twice with one -/
  areas : (s.rncs.flatMap (·.areas)).Pairwise fun a b => ¬ SameArea a b
  /-- contexts have different handles -/
  handles : s.ues.Pairwise fun a b => a.ptr ≠ b.ptr
  /-- a context is with a registered RNC -/
  served : ∀ u ∈ s.ues, ∃ r ∈ s.rncs, r.ptr = u.rnc
  /-- a timer that runs is that of a context which is to be freed on release -/
  timers : ∀ t ∈ s.timers, ∃ u ∈ s.ues, u.ptr = t.1 ∧ u.freeOnRelease = true
  /-- all memory taken is in use -/
  memory : s.blocks = s.ues.length + s.cache.length + s.rncs.length + (s.rncs.flatMap (·.areas)).length

/-- **C129.** Whatever memory is missing whenever, as long as the process lives the records of the client are consistent. -/
theorem C129_consistent (B : Blind env) {ops : List (Lack × Op)} {s : State} (h : runL env ops init = .ok ((), s)) :
    Consistent s := by
  obtain ⟨hi, hm⟩ := runL_inv B h Inv.init MInv.init
  have h2 : s.rncs.Pairwise fun a b => a.ptr ≠ b.ptr := List.pairwise_map.1 hi.reg.nodup
  exact ⟨hi.reg.ids.and h2, hi.reg.areas, List.pairwise_map.1 hi.ueNodup, hi.ueRnc,
    fun t ht => (hi.tLive t ht).imp fun u hu => ⟨hu.1, hu.2.1, hu.2.2.2⟩, hm.bal⟩

/-- New connections get ids that are not in use. -/
def FreshL (env : Env) : State → List (Lack × Op) → Prop
  | _, [] => True
  | s, (x, op) :: ops => (∀ c a d, op = .connectInd c a d → ¬ InUse s c) ∧
      ∀ rc s', stepL env x op s = .ok (rc, s') → FreshL env s' ops

theorem runL_cinv (B : Blind env) {ops : List (Lack × Op)} {s s' : State} (h : runL env ops s = .ok ((), s')) (hi : CInv s)
    (hf : FreshL env s ops) : CInv s' := by
  induction ops generalizing s with
  | nil => cases h; exact hi
  | cons o ops ih =>
    obtain ⟨x, op⟩ := o
    obtain ⟨rc, s1, h1, h2⟩ := runL_cons h
    exact ih h2 (stepL_cinv B h1 hi hf.1) (hf.2 rc s1 h1)

/-- **C129.** As long as the process lives, a connection has at most one context or one remembered address. -/
theorem C129_connections (B : Blind env) {ops : List (Lack × Op)} {s : State} (h : runL env ops init = .ok ((), s))
    (hf : FreshL env init ops) :
    s.ues.Pairwise (fun a b => a.conn ≠ b.conn) ∧ s.cache.Pairwise (fun a b => a.1 ≠ b.1) ∧
    ∀ u ∈ s.ues, ∀ e ∈ s.cache, u.conn ≠ e.1 := by
  have hi := runL_cinv B h CInv.init hf
  exact ⟨List.pairwise_map.1 hi.conns, List.pairwise_map.1 hi.cached, hi.disj⟩

/-- API calls are proper (with memory), and new connections get ids that are not in use. -/
def ProperL (env : Env) : State → List (Lack × Op) → Prop
  | _, [] => True
  | s, (x, op) :: ops => OpOk (linked env) s op ∧ ∀ rc s', stepL env x op s = .ok (rc, s') → ProperL env s' ops

theorem fresh_of_proper {ops : List (Lack × Op)} {s : State} (h : ProperL env s ops) : FreshL env s ops := by
  induction ops generalizing s with
  | nil => trivial
  | cons o ops ih =>
    obtain ⟨x, op⟩ := o
    refine ⟨?_, fun rc s' hs => ih (h.2 rc s' hs)⟩
    rintro c a d rfl
    exact h.1

/-- What a client with memory hears of a message: nothing if there is no memory for decoding, and nothing of the items of a RAB
Assignment Response if there is none for these. -/
def heard (x : Lack) (env : Env) : Env := hearing x.hears (linked env)

theorem lacking_eq (x : Lack) (env : Env) : lacking x env = making (genW x.world x.lax x.debug x.count) (heard x env) := by
  unfold lacking heard
  cases x.hears <;> rfl

theorem heard_gen (x : Lack) (env : Env) : (heard x env).gen = Linked.gen := by
  unfold heard
  cases x.hears <;> rfl

theorem stepL_faults (B : Blind env) (hc : CallbacksOk (linked env)) (hl : LinkOk (linked env)) {x : Lack} {op : Op} {s : State}
    (hi : Inv s) (hci : CInv s) (ho : OpOk (linked env) s op) {e : Fault} (h : stepL env x op s = .fault e) :
    e = .nullDeref ∨ e = .abort ∨ Kills s op := by
  rcases (surv_step (w := x.supply) (lacking_blind B x) op).at_ s s (near_refl s) with (h1 | h1) | ⟨e', h1, h2⟩ | ⟨a, s1, t1, h1, -⟩
  · rw [show stepR (lacking x env) x.supply op s = _ from h] at h1; cases h1; exact .inl rfl
  · rw [show stepR (lacking x env) x.supply op s = _ from h] at h1; cases h1; exact .inr (.inl rfl)
  · rw [show stepR (lacking x env) x.supply op s = _ from h] at h1
    cases h1
    rw [lacking_eq] at h2
    rcases faults_making (env := heard x env) (by rw [heard_gen]; exact genW_any x.world x.lax x.debug x.count)
      (genW_raw x.world x.lax x.debug x.count) (by rw [heard_gen]; exact fun _ => rfl) h2 with h | ⟨e', h⟩
    · exact .inl h
    · refine .inr (.inr ((step_faults hc hl hi hci ho).1 ?_))
      unfold heard at h
      cases hx : x.hears with
      | all => rw [hx] at h; exact ⟨_, h⟩
      | noItem => rw [hx] at h; exact ⟨_, faults_noItem hc hl hi hci ho h⟩
      | nothing =>
        exfalso
        rw [hx] at h
        have ho' : OpOk (deaf (linked env)) s op := by cases op <;> exact ho
        have := sf_step (callbacksOk_deco hc) (env := deaf (linked env)) hl hi hci ho'
        unfold wp at this
        rw [h] at this
        obtain ⟨m, hm, -⟩ := this
        rw [opMsg_deaf] at hm
        cases hm
  · rw [show stepR (lacking x env) x.supply op s = _ from h] at h1; cases h1

theorem runL_faults (B : Blind env) (hc : CallbacksOk (linked env)) (hl : LinkOk (linked env)) {ops : List (Lack × Op)} {s : State}
    (hi : Inv s) (hci : CInv s) (hr : ProperL env s ops) {e : Fault} (h : runL env ops s = .fault e) :
    e = .nullDeref ∨ e = .abort ∨ ∃ before x op after t, ops = before ++ (x, op) :: after ∧ runL env before s = .ok ((), t) ∧
      Kills t op := by
  induction ops generalizing s with
  | nil => cases h
  | cons o ops ih =>
    obtain ⟨x, op⟩ := o
    have h' : M.bind (stepL env x op) (fun _ => runL env ops) s = .fault e := h
    unfold M.bind at h'
    cases hs : stepL env x op s with
    | fault e' =>
      rw [hs] at h'
      cases h'
      rcases stepL_faults B hc hl hi hci hr.1 hs with h | h | h
      · exact .inl h
      · exact .inr (.inl h)
      · exact .inr (.inr ⟨[], x, op, ops, s, rfl, rfl, h⟩)
    | ok y =>
      obtain ⟨rc, s1⟩ := y
      rw [hs] at h'
      have hf : ∀ c a d, op = .connectInd c a d → ¬ InUse s c := by
        rintro c a d rfl; exact hr.1
      rcases ih (stepL_inv B hs hi) (stepL_cinv B hs hci hf) (hr.2 rc s1 hs) h' with h | h | ⟨before, x', op', after, t, h1, h2, h3⟩
      · exact .inl h
      · exact .inr (.inl h)
      · refine .inr (.inr ⟨(x, op) :: before, x', op', after, t, by rw [h1]; rfl, ?_, h3⟩)
        exact bind_ok.2 ⟨rc, s1, hs, h2⟩

/-- **C129.** Whatever memory is missing whenever, if the client is used properly then the process ends by a null pointer or an
assertion, or by a message that ends it with memory, too: in particular no context is used after it was freed, and no loop is
endless. -/
theorem C129_ends (B : Blind env) (hc : CallbacksOk (linked env)) (hl : LinkOk (linked env)) {ops : List (Lack × Op)}
    (hr : ProperL env init ops) {e : Fault} (h : runL env ops init = .fault e) :
    e = .nullDeref ∨ e = .abort ∨ ∃ before x op after t, ops = before ++ (x, op) :: after ∧ runL env before init = .ok ((), t) ∧
      Kills t op :=
  runL_faults B hc hl Inv.init CInv.init hr h

/-- **C129.** In the states in between it is the same for every single operation. -/
theorem C129_operation (B : Blind env) (hc : CallbacksOk (linked env)) (hl : LinkOk (linked env)) {ops : List (Lack × Op)} {s : State}
    (hr : ProperL env init ops) (h0 : runL env ops init = .ok ((), s)) {x : Lack} {op : Op} (ho : OpOk (linked env) s op)
    {e : Fault} (h : stepL env x op s = .fault e) : e = .nullDeref ∨ e = .abort ∨ Kills s op :=
  stepL_faults B hc hl (runL_inv B h0 Inv.init MInv.init).1 (runL_cinv B h0 CInv.init (fresh_of_proper hr)) ho h

/-- **C129.** Whatever memory is missing: an operation that a client with memory survives ends the process (by a null pointer or an
assertion), or it returns and leaves what it does with memory, except for buffers left behind; or it is a RESET, which changes
nothing, and to which at most its answer is sent. -/
theorem C129_effect (B : Blind env) (x : Lack) {op : Op} {s t : State} {rc : Int} (h : step (heard x env) op s = .ok (rc, t)) :
    stepL env x op s = .fault .nullDeref ∨ stepL env x op s = .fault .abort ∨
    (∃ n, stepL env x op s = .ok (rc, { t with nasBufs := n })) ∨
    ∃ a data d r, op = .unitdataInd a data ∧ (linked env).decodeCl data = some ⟨1, 9, .reset d r⟩ ∧
      (stepL env x op s = .ok (0, s) ∨
        ∃ rc', stepL env x op s = .ok (0, { s with trace := s.trace ++ [.sap (.unitdataReq a (.resetAck d r)) rc'] })) := by
  have T : ∀ m, (∃ o, genW x.world x.lax x.debug x.count m = .ok o) ∨ genW x.world x.lax x.debug x.count m = .fault .nullDeref ∨
      genW x.world x.lax x.debug x.count m = (heard x env).gen m := by
    rw [heard_gen]
    exact genW_any x.world x.lax x.debug x.count
  have R' : ∀ d, (heard x env).gen (.raw d) = .ok (some d) := by
    rw [heard_gen]
    exact fun _ => rfl
  have reset : ∀ a data d r, op = .unitdataInd a data →
      (heard x env).decodeCl data = some ⟨PR_initiatingMessage, id_Reset, .reset d r⟩ →
      stepL env x op s = .fault .nullDeref ∨ stepL env x op s = .fault .abort ∨
      (∃ n, stepL env x op s = .ok (rc, { t with nasBufs := n })) ∨
      ∃ a data d r, op = .unitdataInd a data ∧ (linked env).decodeCl data = some ⟨1, 9, .reset d r⟩ ∧
        (stepL env x op s = .ok (0, s) ∨
          ∃ rc', stepL env x op s = .ok (0, { s with trace := s.trace ++ [.sap (.unitdataReq a (.resetAck d r)) rc'] })) := by
    rintro a data d r rfl hd
    have he : stepL env x (.unitdataInd a data) s = step (making (genW x.world x.lax x.debug x.count) (heard x env)) (.unitdataInd a data) s := by
      rw [← lacking_eq]
      rfl
    have hl : (linked env).decodeCl data = some ⟨1, 9, .reset d r⟩ := by
      unfold heard at hd
      cases hx : x.hears with
      | all => rw [hx] at hd; exact hd
      | noItem => rw [hx] at hd; exact hd
      | nothing => rw [hx] at hd; cases hd
    have hg : ∀ e, (heard x env).gen (.resetAck d r) ≠ .fault e := by
      intro e hge
      have hu : ¬ ∃ y, step (heard x env) (.unitdataInd a data) s = .ok y := by
        rintro ⟨y, hy⟩
        unfold step at hy
        simp only [hd] at hy
        unfold handleCl at hy
        rw [if_pos rfl, if_pos rfl] at hy
        simp only [bind_eq, handleClReset, hge] at hy
        cases hy
      exact hu ⟨_, h⟩
    rcases reset_effect (env := making (genW x.world x.lax x.debug x.count) (heard x env)) (a := a) hd s with ⟨e, h1, h2⟩ | h2 | ⟨rc', h2⟩
    · rcases T (.resetAck d r) with ⟨o, ho⟩ | ho | ho
      · rw [show genW x.world x.lax x.debug x.count (.resetAck d r) = _ from h1] at ho; cases ho
      · rw [show genW x.world x.lax x.debug x.count (.resetAck d r) = _ from h1] at ho
        cases ho
        exact .inl (he.trans h2)
      · rw [show genW x.world x.lax x.debug x.count (.resetAck d r) = _ from h1] at ho
        exact absurd ho.symm (hg e)
    · exact .inr (.inr (.inr ⟨a, data, d, r, rfl, hl, .inl (he.trans h2)⟩))
    · exact .inr (.inr (.inr ⟨a, data, d, r, rfl, hl, .inr ⟨rc', he.trans h2⟩⟩))
  rcases same_making T (genW_raw x.world x.lax x.debug x.count) R' h with h1 | ⟨a, data, d, r, ho, hd, -⟩ | ⟨a, data, d, r, ho, hd, -⟩ | h1
  · rw [← lacking_eq] at h1
    rcases (surv_step (w := x.supply) (lacking_blind B x) op).at_ s s (near_refl s) with (h2 | h2) | ⟨e, h2, h3⟩ | ⟨a, s1, t1, -, h3, -⟩
    · exact .inl h2
    · exact .inr (.inl h2)
    · rw [h1] at h3
      cases h3
      exact .inl h2
    · rw [h1] at h3
      cases h3
  · exact reset a data d r ho hd
  · exact reset a data d r ho hd
  · rw [← lacking_eq] at h1
    rcases (surv_step (w := x.supply) (lacking_blind B x) op).at_ s s (near_refl s) with (h2 | h2) | ⟨e, h2, h3⟩ | ⟨a, s1, t1, h2, h3, hn⟩
    · exact .inl h2
    · exact .inr (.inl h2)
    · rw [h1] at h3
      cases h3
    · rw [h1] at h3
      cases h3
      obtain ⟨k, rfl⟩ := hn
      exact .inr (.inr (.inl ⟨_, h2⟩))

/-- All memory is there. -/
structure Enough (x : Lack) : Prop where
  supply : x.supply = plenty
  world : Memory x.world
  output : x.debug = false ∨ Writable x.world
  hears : x.hears = .all

/-- **C129.** With memory, the client is the one of the other properties. -/
theorem C129_sufficient (env : Env) {x : Lack} (h : Enough x) (op : Op) : stepL env x op = step (linked env) op := by
  unfold stepL lacking
  rw [h.hears]
  show stepR (scarce _ _ _ _ _) _ _ = _
  rw [h.supply, stepR_plenty, C126_sufficient env x.world h.world x.lax x.debug h.output x.count]

/-! ## Examples -/

/-- All memory. -/
def allThere : Lack := ⟨plenty, fun _ _ => true, false, false, 0, .all⟩
/-- No memory for decoding. -/
def noDecoding : Lack := { allThere with hears := .nothing }
/-- No memory for message buffers. -/
def noBuf : Lack := { allThere with world := noBuffers }
/-- No memory for a new subscriber. -/
def noSubscriber : Lack := { allThere with supply := noUe }

example : Enough allThere := ⟨rfl, fun _ _ _ => rfl, .inl rfl, rfl⟩

/-- A RESET. -/
def resetOctets : Bytes := [0x00, 0x09, 0x00, 0x0d, 0x00, 0x00, 0x02, 0x00, 0x04, 0x40, 0x01, 0x40, 0x00, 0x03, 0x00, 0x01, 0x00]
/-- An Iu Release Request with a cause. -/
def releaseOctets : Bytes := [0x00, 0x0b, 0x40, 0x09, 0x00, 0x00, 0x01, 0x00, 0x04, 0x40, 0x02, 0x0b, 0x40]

/-- A subscriber connects; a release request for which there is no memory passes unseen, and so does a RESET for whose answer there is
no buffer; another subscriber connects. -/
def leanTimes : List (Lack × Op) := [(allThere, .connectInd 10 (Demo.addr 1) initialOctets), (noDecoding, .dataInd 10 releaseOctets),
  (noBuf, .unitdataInd (Demo.addr 1) resetOctets), (noSubscriber, .connectInd 11 (Demo.addr 1) [])]

/-- What holds after a history. -/
def afterL (env : Env) (ops : List (Lack × Op)) (P : State → Bool) : Bool :=
  match runL env ops init with
  | .ok (_, s) => P s
  | .fault _ => false

theorem afterL_iff {ops : List (Lack × Op)} {P : State → Bool} :
    afterL env ops P = true ↔ ∃ s, runL env ops init = .ok ((), s) ∧ P s = true := by
  unfold afterL
  cases runL env ops init with
  | ok x => obtain ⟨_, s⟩ := x; simp
  | fault e => simp

/-- The process survives this, with one context and one remembered address. -/
example : Blind Demo.env ∧ ∃ s, runL Demo.env leanTimes init = .ok ((), s) ∧
    (s.ues.length = 1 && s.cache.length = 1 && s.blocks = 4) = true :=
  ⟨demo_blind, afterL_iff.1 (by decide +kernel)⟩

/-- Beside `C129_effect`: what the operations of `leanTimes` do with what is heard of them is survived; the release request is not
heard, and the RESET is. -/
example : (step (heard noDecoding Demo.env) (.dataInd 10 releaseOctets) init).isOk = true ∧
    (step (heard noBuf Demo.env) (.unitdataInd (Demo.addr 1) resetOctets) init).isOk = true ∧
    ((heard noDecoding Demo.env).decodeCo releaseOctets).isSome = false ∧
    ((heard noBuf Demo.env).decodeCl resetOctets).map (fun m => (m.dir, m.proc)) = some (1, 9) := by
  decide +kernel

/-- No memory for items. -/
def noItems : Lack := { allThere with hears := .noItem }
/-- A RAB Assignment Response with one item. -/
def rabOctets : Bytes := [0x60, 0x00, 0x00, 0x10, 0x00, 0x00, 0x01, 0x00, 0x34, 0x40, 0x09, 0x00, 0x00, 0x01, 0x00, 0x33, 0x40, 0x02, 0x00,
  0x08]

/-- The user is told of a RAB Assignment Response if there is memory for its item, and not otherwise. -/
example : afterL Demo.env [(allThere, .connectInd 10 (Demo.addr 1) initialOctets), (allThere, .dataInd 10 rabOctets)]
      (fun s => s.trace.any fun e => match e with | .event _ (.rabAssign it) => it == [0x00, 0x08] | _ => false) = true ∧
    afterL Demo.env [(allThere, .connectInd 10 (Demo.addr 1) initialOctets), (noItems, .dataInd 10 rabOctets)]
      (fun s => s.ues.length = 1 && !s.trace.any fun e => match e with | .event _ (.rabAssign _) => true | _ => false) = true := by
  decide +kernel

theorem unused_at_start (c : ConnId) : ¬ InUse init c := by
  rintro (⟨u, hu, -⟩ | ⟨u, hu, -⟩)
  · cases hu
  · cases hu

/-- What ends the process: a new subscriber without memory, and a release request without memory for the answer, both used
properly and neither of them deadly with memory. -/
example : Blind Demo.env ∧ CallbacksOk (linked Demo.env) ∧ LinkOk (linked Demo.env) ∧
    ProperL Demo.env init [(noSubscriber, .connectInd 10 (Demo.addr 1) initialOctets)] ∧
    (match runL Demo.env [(noSubscriber, .connectInd 10 (Demo.addr 1) initialOctets)] init with
      | .fault e => some e | _ => none) = some .nullDeref ∧
    ProperL Demo.env init [(allThere, .connectInd 10 (Demo.addr 1) initialOctets), (noBuf, .dataInd 10 releaseOctets)] ∧
    (match runL Demo.env [(allThere, .connectInd 10 (Demo.addr 1) initialOctets), (noBuf, .dataInd 10 releaseOctets)] init with
      | .fault e => some e | _ => none) = some .nullDeref ∧
    afterL Demo.env [(allThere, .connectInd 10 (Demo.addr 1) initialOctets), (allThere, .dataInd 10 releaseOctets)]
      (fun s => s.ues.length = 1) = true :=
  ⟨demo_blind, fun _ _ _ => trivial, fun _ _ _ => trivial, ⟨unused_at_start 10, fun _ _ _ => trivial⟩,
    by decide +kernel, ⟨unused_at_start 10, fun _ _ _ => ⟨trivial, fun _ _ _ => trivial⟩⟩,
    by decide +kernel, by decide +kernel⟩

end Verif.Props
