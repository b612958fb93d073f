import Verif.Proofs.IuInv

/-!
# Decomposition of every operation into labelled atomic steps
-/

namespace Verif.Iu
open Spec

/-- Atomic steps. -/
inductive Lbl where
  /-- a primitive other than N-DISCONNECT.req goes to SCCP -/
  | sap (p : Prim) (rc : Int)
  /-- a context is freed (with N-DISCONNECT.req) -/
  | free (p : Ptr)
  /-- flags switched, Iu Release Command sent, timer armed -/
  | release (p : Ptr) (cause : Option Cause) (timeout : Int)
  /-- a user callback is invoked -/
  | cb (o : Out)
  | cacheAdd (c : ConnId) (a : SccpAddr)
  | cacheDel (c : ConnId)
  | register (id : RncId) (rai : Rai) (addr : SccpAddr)
  | alloc (p rnc : Ptr) (conn : ConnId) (ra : GprsRaId)
  | nasAlloc
  | nasFree
  /-- a buffer was handed to `ranap_iu_tx`, or freed there -/
  | txBuf (d : Int)
  | timerDel (p : Ptr)

def Prim.isDisc : Prim → Bool
  | .disconnectReq _ => true
  | _ => false

/-- Labels an API call may have. -/
def Lbl.isApi : Lbl → Bool
  | .sap (.dataReq _ _) _ => true
  | .sap (.unitdataReq _ _) _ => true
  | .free _ => true
  | .release _ _ _ => true
  | .txBuf _ => true
  | _ => false

/-- Freeing context `u`. -/
def freeSt (env : Env) (s : State) (u : Ue) : State :=
  { s with timers := s.timers.filter (·.1 ≠ u.ptr), ues := s.ues.filter (·.ptr ≠ u.ptr),
           blocks := s.blocks - 1,
           trace := s.trace ++ [.sap (.disconnectReq u.conn)
             (env.sapRc { s with timers := s.timers.filter (·.1 ≠ u.ptr) } (.disconnectReq u.conn))] }

/-- Marking a context for release. -/
def markSt (s : State) (p : Ptr) : State :=
  { s with ues := s.ues.map fun u =>
      if u.ptr = p then { u with notification := false, freeOnRelease := true } else u }

/-- Iu Release Command and timer for context `u`. -/
def releaseSt (env : Env) (s : State) (u : Ue) (cause : Option Cause) (timeout : Int) : State :=
  let m := TxMsg.iuRelCmd (cause.getD (.nAS CauseNAS_normal_release))
  let s1 := markSt s u.ptr
  let rc := env.sapRc s1 (.dataReq u.conn m)
  { s1 with trace := s.trace ++ [.sap (.dataReq u.conn m) rc],
            timers := (u.ptr, if rc ≠ 0 then 0 else timeout) :: s.timers.filter (·.1 ≠ u.ptr) }

/-- A new context at the head of the list. -/
def allocSt (s : State) (rnc : Ptr) (conn : ConnId) (ra : GprsRaId) : State :=
  { s with ues := ⟨s.next, rnc, conn, ra, true, false⟩ :: s.ues.map (fun u =>
             if u.ptr = s.next then { u with raId := ra } else u),
           next := s.next + 1, blocks := s.blocks + 1 }

inductive Atom (env : Env) : Lbl → State → State → Prop where
  | sap {s : State} (p : Prim) (h : p.isDisc = false) (hx : ∀ c m, p = .dataReq c m → ∃ u ∈ s.ues, u.conn = c) :
      Atom env (.sap p (env.sapRc s p)) s { s with trace := s.trace ++ [.sap p (env.sapRc s p)] }
  | free {s : State} (u : Ue) (h : s.ues.find? (·.ptr = u.ptr) = some u) :
      Atom env (.free u.ptr) s (freeSt env s u)
  | release {s : State} (u : Ue) (c : Option Cause) (t : Int) (h : s.ues.find? (·.ptr = u.ptr) = some u) :
      Atom env (.release u.ptr c t) s (releaseSt env s u c t)
  | cbRecv {s : State} (p : Ptr) (c : ConnId) (nas : Bytes) (ra : Option GprsRaId) (sai : Option (BitVec 16))
      (h : ∃ u ∈ s.ues, u.ptr = p ∧ u.conn = c) :
      Atom env (.cb (.recv p c nas ra sai)) s { s with trace := s.trace ++ [.recv p c nas ra sai] }
  | cbEvent {s : State} (u : Ue) (e : Event) (hcb : env.hasEventCb = true)
      (h : s.ues.find? (·.ptr = u.ptr) = some u) (hn : u.notification = true) :
      Atom env (.cb (.event (some (u.ptr, u.conn)) e)) s
        { s with trace := s.trace ++ [.event (some (u.ptr, u.conn)) e] }
  | cbArea {s : State} (e : Event) (hcb : env.hasEventCb = true) :
      Atom env (.cb (.event none e)) s { s with trace := s.trace ++ [.event none e] }
  | cacheAdd {s : State} (c : ConnId) (a : SccpAddr) :
      Atom env (.cacheAdd c a) s { s with cache := (c, a) :: s.cache, blocks := s.blocks + 1 }
  | cacheDel {s : State} (c : ConnId) :
      Atom env (.cacheDel c) s
        { s with cache := s.cache.eraseP (·.1 = c), blocks := s.blocks - if s.cache.any (·.1 = c) then 1 else 0 }
  | register {s : State} (id : RncId) (rai : Rai) (addr : SccpAddr) :
      Atom env (.register id rai addr) s (regState env s id rai addr)
  | alloc {s : State} (rnc : Ptr) (conn : ConnId) (ra : GprsRaId) :
      Atom env (.alloc s.next rnc conn ra) s (allocSt s rnc conn ra)
  | nasAlloc {s : State} : Atom env .nasAlloc s { s with nasBufs := s.nasBufs + 1 }
  | nasFree {s : State} : Atom env .nasFree s { s with nasBufs := s.nasBufs - 1 }
  | txBuf {s : State} (d : Int) : Atom env (.txBuf d) s { s with txBufs := s.txBufs + d }
  | timerDel {s : State} (p : Ptr) : Atom env (.timerDel p) s { s with timers := s.timers.filter (·.1 ≠ p) }

/-- A sequence of atomic steps. -/
inductive Path (env : Env) : List Lbl → State → State → Prop where
  | nil (s : State) : Path env [] s s
  | cons {l : Lbl} {ls : List Lbl} {a b c : State} : Atom env l a b → Path env ls b c → Path env (l :: ls) a c

variable {env : Env}

theorem Path.append {ls ls' : List Lbl} {a b c : State} (h : Path env ls a b) (h' : Path env ls' b c) :
    Path env (ls ++ ls') a c := by
  induction h with
  | nil => exact h'
  | cons ha _ ih => exact .cons ha (ih h')

theorem Path.one {l : Lbl} {a b : State} (h : Atom env l a b) : Path env [l] a b := .cons h (.nil b)

/-- A property kept by every atomic step is kept by a path. -/
theorem Path.induct {I : State → Prop} (hI : ∀ l a b, Atom env l a b → I a → I b) {ls : List Lbl} {a b : State}
    (h : Path env ls a b) (ha : I a) : I b := by
  induction h with
  | nil => exact ha
  | cons hat _ ih => exact ih (hI _ _ _ hat ha)

/-- Labelled weakest precondition. -/
def wpl {α : Type} (env : Env) (F : Fault → Prop) (m : M α) (S : α → List Lbl → State → Prop) (s : State) : Prop :=
  wp F m (fun a s' => ∃ ls, Path env ls s s' ∧ S a ls s') s

theorem wpl_pure {α : Type} {F : Fault → Prop} {a : α} {S : α → List Lbl → State → Prop} {s : State}
    (h : S a [] s) : wpl env F (pure a : M α) S s := ⟨[], .nil s, h⟩

theorem wpl_fault {α : Type} {F : Fault → Prop} {e : Fault} {S : α → List Lbl → State → Prop} {s : State}
    (h : F e) : wpl env F (M.fault e : M α) S s := h

theorem wpl_bind {α β : Type} {F : Fault → Prop} {m : M α} {f : α → M β} {S : β → List Lbl → State → Prop}
    {s : State}
    (h : wpl env F m (fun a ls s' => wpl env F (f a) (fun b ls' s'' => S b (ls ++ ls') s'') s') s) :
    wpl env F (m >>= f) S s := by
  unfold wpl
  rw [wp_bind]
  refine wp_mono h ?_
  rintro a s' ⟨ls, hp, h'⟩
  refine wp_mono h' ?_
  rintro b s'' ⟨ls', hp', hS⟩
  exact ⟨ls ++ ls', hp.append hp', hS⟩

theorem wpl_txBuf {F : Fault → Prop} {d : Int} {S : Unit → List Lbl → State → Prop} {s : State}
    (h : S () [.txBuf d] { s with txBufs := s.txBufs + d }) : wpl env F (txBuf d) S s :=
  ⟨[.txBuf d], Path.one (Atom.txBuf d), h⟩

theorem wpl_mono {α : Type} {F : Fault → Prop} {m : M α} {S S' : α → List Lbl → State → Prop} {s : State}
    (h : wpl env F m S s) (hS : ∀ a ls s', Path env ls s s' → S a ls s' → S' a ls s') : wpl env F m S' s :=
  wp_mono h (by rintro a s' ⟨ls, hp, h⟩; exact ⟨ls, hp, hS _ _ _ hp h⟩)

theorem wpl_and {α : Type} {F F' : Fault → Prop} {m : M α} {S : α → List Lbl → State → Prop}
    {Q : α → State → Prop} {s : State}
    (h : wpl env F m S s) (h' : wp F' m Q s) : wpl env F m (fun a ls s' => S a ls s' ∧ Q a s') s :=
  wp_mono (wp_and h h') (by rintro a s' ⟨⟨ls, hp, h⟩, hq⟩; exact ⟨ls, hp, h, hq⟩)

theorem wpl_get {F : Fault → Prop} {S : State → List Lbl → State → Prop} {s : State} (h : S s [] s) :
    wpl env F M.get S s := ⟨[], .nil s, h⟩

theorem wpl_lift {α : Type} {F : Fault → Prop} {r : Res α} {S : α → List Lbl → State → Prop} {s : State}
    (h : match r with | .ok a => S a [] s | .fault e => F e) : wpl env F (M.lift r) S s := by
  unfold wpl
  rw [wp_lift]
  cases r with
  | ok a => exact ⟨[], .nil s, h⟩
  | fault e => exact h

theorem wpl_deref {F : Fault → Prop} {p : Ptr} {S : Ue → List Lbl → State → Prop} {s : State}
    (h : ∀ u, s.ues.find? (·.ptr = p) = some u → S u [] s)
    (hf : s.ues.find? (·.ptr = p) = none → F .useAfterFree) : wpl env F (deref p) S s := by
  unfold wpl
  rw [wp_deref]
  split
  · exact ⟨[], .nil s, h _ ‹_›⟩
  · exact hf ‹_›

theorem wpl_sap {F : Fault → Prop} {p : Prim} (hd : p.isDisc = false) {S : Int → List Lbl → State → Prop} {s : State}
    (hx : ∀ c m, p = .dataReq c m → ∃ u ∈ s.ues, u.conn = c)
    (h : S (env.sapRc s p) [.sap p (env.sapRc s p)] { s with trace := s.trace ++ [.sap p (env.sapRc s p)] }) :
    wpl env F (sapDown env p) S s := by
  unfold wpl
  rw [wp_sapDown]
  exact ⟨_, Path.one (Atom.sap p hd hx), h⟩

theorem wpl_genMsg {F : Fault → Prop} {m : TxMsg} {S : Unit → List Lbl → State → Prop} {s : State}
    (h : S () [] s) (hf : ∀ e, env.gen m = .fault e → F e) (hn : env.gen m = .ok none → F .nullDeref) :
    wpl env F (genMsg env m) S s := by
  unfold genMsg
  refine wpl_bind (wpl_lift ?_)
  cases hg : env.gen m with
  | fault e => exact hf e hg
  | ok o =>
    cases o with
    | none => exact wpl_fault (hn hg)
    | some b => exact wpl_pure h

/-- Equality of runs transfers. -/
theorem wpl_congr {α : Type} {F : Fault → Prop} {m m' : M α} {S : α → List Lbl → State → Prop} {s : State}
    (he : m s = m' s) (h : wpl env F m' S s) : wpl env F m S s := by
  unfold wpl wp at *; rw [he]; exact h

/-! ## The functions of the client -/

/-- Faults of an API call. -/
abbrev af : Fault → Prop := anyF

theorem find_ptr {l : List Ue} {p : Ptr} {u : Ue} (h : l.find? (·.ptr = p) = some u) : u.ptr = p := by
  simpa using List.find?_some h

theorem pl_freeUe (p : Ptr) (s : State) :
    wpl env anyF (freeUe env (some p)) (fun _ ls s' =>
      ∃ u, s.ues.find? (·.ptr = p) = some u ∧ ls = [.free p] ∧ s' = freeSt env s u) s := by
  unfold wpl freeUe
  simp only [wp_bind]
  refine wp_mono (eff_deref p s) ?_
  rintro u s' ⟨rfl, hu⟩
  simp only [wp_modify, wp_sapDown]
  have hp := find_ptr hu
  subst hp
  exact ⟨[.free u.ptr], Path.one (Atom.free u hu), u, hu, rfl, rfl⟩

theorem pl_iuTxReleaseFree (p : Ptr) (c : Option Cause) (t : Int) (s : State) :
    wpl env anyF (iuTxReleaseFree env p c t) (fun _ ls s' =>
      ∃ u, s.ues.find? (·.ptr = p) = some u ∧ ls = [.release p c t] ∧ s' = releaseSt env s u c t) s := by
  unfold wpl iuTxReleaseFree iuTxRelease
  simp only [wp_bind]
  refine wp_mono (eff_deref p s) ?_
  rintro u s' ⟨rfl, hu⟩
  simp only [wp_modify]
  refine wp_mono (eff_genMsg _ _) ?_
  rintro _ s'' rfl
  refine wp_mono (eff_deref p _) ?_
  rintro v s'' ⟨rfl, hv⟩
  have hp := find_ptr hu
  subst hp
  have hvc : v.conn = u.conn := by
    rw [List.find?_map] at hv
    rw [Option.map_eq_some_iff] at hv
    obtain ⟨w, hw, rfl⟩ := hv
    have hfun : ((fun x : Ue => decide (x.ptr = u.ptr)) ∘ fun x : Ue =>
        if x.ptr = u.ptr then { x with notification := false, freeOnRelease := true } else x)
        = fun x => decide (x.ptr = u.ptr) := by
      funext x; simp only [Function.comp]; split <;> simp_all
    rw [hfun, hu] at hw
    cases hw
    simp
  unfold txData
  simp only [wp_sapDown, hvc, wp_modify]
  exact ⟨[.release u.ptr c t], Path.one (Atom.release u c t hu), u, hu, rfl, rfl⟩

/-- A sequence of API labels. -/
def ApiLbls (ls : List Lbl) : Prop := ∀ l ∈ ls, l.isApi = true

theorem ApiLbls.nil : ApiLbls [] := by intro l h; cases h
theorem ApiLbls.append {a b : List Lbl} (h : ApiLbls a) (h' : ApiLbls b) : ApiLbls (a ++ b) := by
  intro l hl
  rcases List.mem_append.1 hl with hl | hl
  · exact h l hl
  · exact h' l hl
theorem ApiLbls.one {l : Lbl} (h : l.isApi = true) : ApiLbls [l] := by
  intro x hx; simp at hx; subst hx; exact h

theorem find_conn {s : State} {p : Ptr} {u : Ue} (h : s.ues.find? (·.ptr = p) = some u) (m : TxMsg) (c : ConnId)
    (m' : TxMsg) (he : Prim.dataReq u.conn m = .dataReq c m') : ∃ v ∈ s.ues, v.conn = c := by
  cases he; exact ⟨u, List.mem_of_find?_eq_some h, rfl⟩

theorem pl_txData {p : Ptr} {u : Ue} (m : TxMsg) (s : State) (hu : s.ues.find? (·.ptr = p) = some u) :
    wpl env anyF (txData env u.conn m) (fun rc ls s' => ls = [.sap (.dataReq u.conn m) rc] ∧
      s' = { s with trace := s.trace ++ [.sap (.dataReq u.conn m) rc] }) s :=
  wpl_sap rfl (find_conn hu m) ⟨rfl, rfl⟩

theorem pl_iuTxRelease (p : Ptr) (c : Option Cause) (s : State) :
    wpl env anyF (iuTxRelease env p c) (fun rc ls s' => ∃ u, s.ues.find? (·.ptr = p) = some u ∧
      ls = [.sap (.dataReq u.conn (.iuRelCmd (c.getD (.nAS CauseNAS_normal_release)))) rc] ∧
      s' = { s with trace := s.trace ++
        [.sap (.dataReq u.conn (.iuRelCmd (c.getD (.nAS CauseNAS_normal_release)))) rc] }) s := by
  unfold iuTxRelease
  refine wpl_bind (wpl_genMsg ?_ (fun _ _ => trivial) (fun _ => trivial))
  refine wpl_bind (wpl_deref ?_ (fun _ => trivial))
  intro u hu
  refine wpl_mono (pl_txData _ _ hu) ?_
  rintro rc ls s' _ ⟨rfl, rfl⟩
  exact ⟨u, hu, rfl, rfl⟩

theorem pl_txPagingCmd (a : SccpAddr) (imsi : Bytes) (t : Option (BitVec 32)) (ps : Bool) (c : Nat) (s : State) :
    wpl env anyF (txPagingCmd env a imsi t ps c) (fun rc ls s' =>
      ls = [.sap (.unitdataReq a (.paging imsi t ps c)) rc] ∧
      s' = { s with trace := s.trace ++ [.sap (.unitdataReq a (.paging imsi t ps c)) rc] }) s := by
  unfold txPagingCmd
  refine wpl_bind (wpl_genMsg ?_ (fun _ _ => trivial) (fun _ => trivial))
  exact wpl_sap rfl (by intro c m h; cases h) ⟨rfl, rfl⟩

theorem pl_iuPage (imsi : Bytes) (t : Option (BitVec 32)) (lac : BitVec 16) (rac : BitVec 8) (ps : Bool) (s : State) :
    wpl env anyF (iuPage env imsi t lac rac ps) (fun _ ls _ => ApiLbls ls) s := by
  unfold iuPage
  refine wpl_bind (wpl_get ?_)
  cases lacRacFindLegacy s lac rac with
  | none => exact wpl_pure ApiLbls.nil
  | some r =>
    refine wpl_bind (wpl_mono (pl_txPagingCmd _ _ _ _ _ s) ?_)
    rintro rc ls s' _ ⟨rfl, rfl⟩
    exact wpl_pure (ApiLbls.one rfl)

theorem pl_pageLoop (imsi : Bytes) (t : Option (BitVec 32)) (ps : Bool) (hit : Rai → Bool)
    (l : List Rnc) (n : Int) (s : State) :
    wpl env anyF (pageLoop env imsi t ps hit l n) (fun _ ls _ => ApiLbls ls) s := by
  induction l generalizing n s with
  | nil => exact wpl_pure ApiLbls.nil
  | cons r l ih =>
    unfold pageLoop
    split
    · refine wpl_bind (wpl_mono (pl_txPagingCmd _ _ _ _ _ s) ?_)
      rintro rc ls s' _ ⟨rfl, rfl⟩
      exact wpl_mono (ih _ _) fun _ _ _ _ h => (ApiLbls.one rfl).append h
    · exact ih _ s

theorem pl_runApi (a : Api) (s : State) : wpl env anyF (runApi env a) (fun _ ls _ => ApiLbls ls) s := by
  unfold runApi
  cases a with
  | freeUe ue =>
    refine wpl_bind ?_
    cases ue with
    | none => exact wpl_pure (wpl_pure ApiLbls.nil)
    | some p =>
      refine wpl_mono (pl_freeUe p s) ?_
      rintro _ ls s' _ ⟨u, _, rfl, _⟩
      exact wpl_pure (ApiLbls.one rfl)
  | tx ue nas sapi =>
    unfold iuTx
    refine wpl_bind (wpl_txBuf ?_)
    cases ue with
    | none => exact wpl_pure (ApiLbls.one rfl)
    | some p =>
      refine wpl_bind (wpl_deref (fun u hu => ?_) (fun _ => trivial))
      refine wpl_bind (wpl_genMsg ?_ (fun _ _ => trivial) (fun _ => trivial))
      refine wpl_bind (wpl_txBuf ?_)
      exact wpl_sap rfl (find_conn (s := { s with txBufs := s.txBufs + 1 + -1 }) hu _)
        ((ApiLbls.one rfl).append ((ApiLbls.one rfl).append (ApiLbls.one rfl)))
  | txRelease p c =>
    refine wpl_mono (pl_iuTxRelease p c s) ?_
    rintro _ ls s' _ ⟨u, _, rfl, _⟩
    exact ApiLbls.one rfl
  | txReleaseFree p c t =>
    refine wpl_bind (wpl_mono (pl_iuTxReleaseFree p c t s) ?_)
    rintro _ ls s' _ ⟨u, _, rfl, _⟩
    exact wpl_pure (ApiLbls.one rfl)
  | txSecModeCmd p ik ck a b =>
    unfold iuTxSecModeCmd
    refine wpl_bind (wpl_genMsg ?_ (fun _ _ => trivial) (fun _ => trivial))
    refine wpl_bind (wpl_deref (fun u hu => ?_) (fun _ => trivial))
    exact wpl_sap rfl (find_conn hu _) (ApiLbls.one rfl)
  | txCommonId p imsi =>
    unfold iuTxCommonId
    refine wpl_bind (wpl_deref (fun u hu => ?_) (fun _ => trivial))
    refine wpl_bind (wpl_genMsg ?_ (fun _ _ => trivial) (fun _ => trivial))
    exact wpl_sap rfl (find_conn hu _) (ApiLbls.one rfl)
  | rabAct p msg =>
    unfold iuRabAct
    refine wpl_bind (wpl_deref (fun u hu => ?_) (fun _ => trivial))
    exact wpl_sap rfl (find_conn hu _) (ApiLbls.one rfl)
  | rabDeact p r => exact wpl_pure ApiLbls.nil
  | pageCs imsi t lac => exact pl_iuPage _ _ _ _ _ s
  | pagePs imsi t lac rac => exact pl_iuPage _ _ _ _ _ s
  | pageCs2 imsi t lai => exact wpl_bind (wpl_get (pl_pageLoop _ _ _ _ _ _ s))
  | pagePs2 imsi t rai => exact wpl_bind (wpl_get (pl_pageLoop _ _ _ _ _ _ s))

theorem pl_runScript (sc : Script) (s : State) :
    wpl env anyF (runScript env sc) (fun _ ls _ => ApiLbls ls) s := by
  induction sc generalizing s with
  | done => exact wpl_pure ApiLbls.nil
  | call a k ih =>
    refine wpl_bind (wpl_mono (pl_runApi a s) ?_)
    intro rc ls s' _ h
    exact wpl_mono (ih rc s') fun _ _ _ _ h' => h.append h'

/-- A callback whose recording is an atomic step. -/
theorem pl_callback (o : Out) (s : State) (h : Atom env (.cb o) s { s with trace := s.trace ++ [o] }) :
    wpl env anyF (callback env o) (fun _ ls _ => ∃ as, ls = .cb o :: as ∧ ApiLbls as) s := by
  unfold callback
  have h1 : wpl env anyF (emit o) (fun _ ls s' => ls = [.cb o] ∧ s' = { s with trace := s.trace ++ [o] }) s :=
    ⟨[.cb o], Path.one h, rfl, rfl⟩
  refine wpl_bind (wpl_mono h1 ?_)
  rintro _ ls s' _ ⟨rfl, rfl⟩
  refine wpl_bind (wpl_get ?_)
  exact wpl_mono (pl_runScript _ _) fun _ ls _ _ h => ⟨ls, by simp, h⟩

/-- An event for a context is delivered iff a callback is registered and the context has
notifications on. -/
theorem pl_iuEvent (p : Ptr) (e : Event) (s : State) :
    wpl env anyF (iuEvent env (some p) e) (fun _ ls s' =>
      (env.hasEventCb = false ∧ ls = [] ∧ s' = s) ∨
      ∃ u, s.ues.find? (·.ptr = p) = some u ∧
        ((env.hasEventCb = true ∧ u.notification = true ∧
            ∃ as, ls = .cb (.event (some (p, u.conn)) e) :: as ∧ ApiLbls as) ∨
         (env.hasEventCb = true ∧ u.notification = false ∧ ls = [] ∧ s' = s))) s := by
  unfold iuEvent
  split
  · rename_i hcb
    refine wpl_bind (wpl_deref (fun u hu => ?_) (fun _ => trivial))
    split
    · rename_i hn
      have hp := find_ptr hu
      subst hp
      refine wpl_mono (pl_callback _ s (Atom.cbEvent u e hcb hu hn)) ?_
      rintro _ ls s' _ ⟨as, rfl, h⟩
      exact .inr ⟨u, hu, .inl ⟨hcb, hn, as, rfl, h⟩⟩
    · rename_i hn
      exact wpl_pure (.inr ⟨u, hu, .inr ⟨hcb, by simpa using hn, rfl, rfl⟩⟩)
  · rename_i hcb
    exact wpl_pure (.inl ⟨by simpa using hcb, rfl, rfl⟩)

/-- The area as reported: LAC if the RAC is the reserved one. -/
def areaOf (rai : Rai) : Area := if rai.rac = RESERVED_RAC then .lac rai.lai else .rac rai

theorem iuEventNewArea_eq (id : RncId) (rai : Rai) :
    iuEventNewArea env id rai = iuEvent env none (.newArea id (areaOf rai)) := by
  unfold iuEventNewArea areaOf; split <;> rfl

theorem pl_iuEventNewArea (id : RncId) (rai : Rai) (s : State) :
    wpl env anyF (iuEventNewArea env id rai) (fun _ ls s' =>
      (env.hasEventCb = false ∧ ls = [] ∧ s' = s) ∨
      (env.hasEventCb = true ∧ ∃ as, ls = .cb (.event none (.newArea id (areaOf rai))) :: as ∧ ApiLbls as)) s := by
  rw [iuEventNewArea_eq]
  unfold iuEvent
  split
  · rename_i hcb
    refine wpl_mono (pl_callback _ s (Atom.cbArea _ hcb)) ?_
    rintro _ ls s' _ ⟨as, rfl, h⟩
    exact .inr ⟨hcb, as, rfl, h⟩
  · rename_i hcb
    exact wpl_pure (.inl ⟨by simpa using hcb, rfl, rfl⟩)

end Verif.Iu
