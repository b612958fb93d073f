import Verif.Model.ScarceRec
import Verif.Proofs.IuWp

/-!
# The client without memory for its records, beside the client with memory

The two are in the same state, except for the number of NAS buffers that are never freed.
-/

namespace Verif.ScarceRec
open Verif.Iu Verif.Lai

variable {α β : Type} {env : Env} {w : Supply}

/-- Neither the SCCP layer nor the user can see how many buffers are left behind. -/
structure Blind (env : Env) : Prop where
  sap : ∀ s n p, env.sapRc { s with nasBufs := n } p = env.sapRc s p
  cb : ∀ s n o, env.cb { s with nasBufs := n } o = env.cb s o

/-- The same state, but for the number of buffers left behind. -/
def Near (s t : State) : Prop := ∃ k : Int, s = { t with nasBufs := t.nasBufs - k }

/-- The process ends. -/
def Ends (r : Res α) : Prop := r = .fault .nullDeref ∨ r = .fault .abort

/-- A computation ends the process, or does the same as another one from the same state. -/
structure Surv (x y : M α) : Prop where
  at_ : ∀ s t, Near s t → Ends (x s) ∨ (∃ e, x s = .fault e ∧ y t = .fault e) ∨
    ∃ a s' t', x s = .ok (a, s') ∧ y t = .ok (a, t') ∧ Near s' t'

theorem Surv.bind {x y : M α} {k l : α → M β} (h : Surv x y) (hk : ∀ a, Surv (k a) (l a)) : Surv (x >>= k) (y >>= l) := by
  constructor
  intro s t hn
  show Ends (M.bind x k s) ∨ (∃ e, M.bind x k s = _ ∧ M.bind y l t = _) ∨ ∃ a s' t', M.bind x k s = _ ∧ M.bind y l t = _ ∧ _
  unfold M.bind
  rcases h.at_ s t hn with (h | h) | ⟨e, h1, h2⟩ | ⟨a, s', t', h1, h2, h3⟩
  · rw [h]; exact .inl (.inl rfl)
  · rw [h]; exact .inl (.inr rfl)
  · rw [h1, h2]; exact .inr (.inl ⟨e, rfl, rfl⟩)
  · rw [h1, h2]; exact (hk a).at_ s' t' h3

theorem surv_pure (a : α) : Surv (pure a : M α) (pure a) := ⟨fun s t h => .inr (.inr ⟨a, s, t, rfl, rfl, h⟩)⟩

theorem surv_fault (e : Fault) : Surv (M.fault e : M α) (M.fault e) := ⟨fun _ _ _ => .inr (.inl ⟨e, rfl, rfl⟩)⟩

theorem surv_lift (r : Res α) : Surv (M.lift r) (M.lift r) := by
  constructor
  intro s t h
  cases r with
  | ok a => exact .inr (.inr ⟨a, s, t, rfl, rfl, h⟩)
  | fault e => exact .inr (.inl ⟨e, rfl, rfl⟩)

theorem surv_modify {f f' : State → State} (hf : ∀ (t : State) (k : Int), Near (f { t with nasBufs := t.nasBufs - k }) (f' t)) :
    Surv (M.modify f) (M.modify f') :=
  ⟨fun s t h => by obtain ⟨k, rfl⟩ := h; exact .inr (.inr ⟨(), _, _, rfl, rfl, hf t k⟩)⟩

theorem surv_get {f f' : State → M β} (h : ∀ (t : State) (k : Int), Surv (f { t with nasBufs := t.nasBufs - k }) (f' t)) :
    Surv (M.get >>= f) (M.get >>= f') :=
  ⟨fun s t hn => by
    obtain ⟨k, rfl⟩ := hn
    exact (h t k).at_ _ _ ⟨k, rfl⟩⟩

theorem surv_deref (p : Ptr) : Surv (deref p) (deref p) := by
  constructor
  rintro s t ⟨k, rfl⟩
  show Ends (match t.ues.find? (·.ptr = p) with | some u => .ok (u, _) | none => .fault .useAfterFree) ∨ _
  unfold deref
  cases t.ues.find? (·.ptr = p) with
  | none => exact .inr (.inl ⟨_, rfl, rfl⟩)
  | some u => exact .inr (.inr ⟨u, _, _, rfl, rfl, k, rfl⟩)

theorem surv_emit (o : Out) : Surv (emit o) (emit o) := surv_modify fun t k => ⟨k, rfl⟩

theorem surv_need {b : Bool} {e : Fault} (he : e = .nullDeref ∨ e = .abort) {x y : M β} (h : b = true → Surv x y) :
    Surv (need b e >>= fun _ => x) y := by
  cases b with
  | true => exact ⟨fun s t hn => (h rfl).at_ s t hn⟩
  | false =>
    constructor
    intro s t _
    left
    rcases he with rfl | rfl
    · exact .inl rfl
    · exact .inr rfl

@[simp] theorem ctxFind_b (s : State) (n : Int) (c : ConnId) : ctxFind { s with nasBufs := n } c = ctxFind s c := rfl
@[simp] theorem cacheFind_b (s : State) (n : Int) (c : ConnId) : cacheFind { s with nasBufs := n } c = cacheFind s c := rfl
@[simp] theorem lacRacFind_b (s : State) (n : Int) (r : Rai) : lacRacFind { s with nasBufs := n } r = lacRacFind s r := rfl
@[simp] theorem rncIdFind_b (s : State) (n : Int) (r : RncId) : rncIdFind { s with nasBufs := n } r = rncIdFind s r := rfl
@[simp] theorem legacy_b (s : State) (n : Int) (l : BitVec 16) (r : BitVec 8) :
    lacRacFindLegacy { s with nasBufs := n } l r = lacRacFindLegacy s l r := rfl
@[simp] theorem ueNext_b (s : State) (n : Int) (p : Ptr) : ueNext { s with nasBufs := n } p = ueNext s p := rfl

theorem surv_genMsg (m : TxMsg) : Surv (genMsg env m) (genMsg env m) := by
  unfold genMsg
  refine (surv_lift _).bind fun r => ?_
  cases r with
  | none => exact surv_fault _
  | some _ => exact surv_pure _

variable (B : Blind env)
include B

theorem surv_sap (p : Prim) : Surv (sapDown env p) (sapDown env p) := by
  unfold sapDown
  refine surv_get fun t k => ?_
  rw [B.sap]
  exact (surv_emit _).bind fun _ => surv_pure _

theorem surv_data (c : ConnId) (m : TxMsg) : Surv (txData env c m) (txData env c m) := surv_sap B _

theorem surv_freeUe (p : Option Ptr) : Surv (freeUe env p) (freeUe env p) := by
  cases p with
  | none => exact surv_pure _
  | some p =>
    exact (surv_deref p).bind fun u => (surv_modify fun t k => ⟨k, rfl⟩).bind fun _ =>
      (surv_sap B _).bind fun _ => surv_modify fun t k => ⟨k, rfl⟩

theorem surv_iuTxRelease (p : Ptr) (c : Option Cause) : Surv (iuTxRelease env p c) (iuTxRelease env p c) :=
  (surv_genMsg _).bind fun _ => (surv_deref p).bind fun u => surv_data B ..

theorem surv_txPagingCmd (a : SccpAddr) (imsi : Bytes) (t : Option (BitVec 32)) (ps : Bool) (c : Nat) :
    Surv (txPagingCmd env a imsi t ps c) (txPagingCmd env a imsi t ps c) := (surv_genMsg _).bind fun _ => surv_sap B _

theorem surv_iuPage (imsi : Bytes) (t : Option (BitVec 32)) (lac : BitVec 16) (rac : BitVec 8) (ps : Bool) :
    Surv (iuPage env imsi t lac rac ps) (iuPage env imsi t lac rac ps) := by
  refine surv_get fun s k => ?_
  rw [legacy_b]
  cases lacRacFindLegacy s lac rac with
  | none => exact surv_pure _
  | some r => exact (surv_txPagingCmd B ..).bind fun _ => surv_pure _

theorem surv_pageLoop (imsi : Bytes) (t : Option (BitVec 32)) (ps : Bool) (hit : Rai → Bool) : ∀ l n,
    Surv (pageLoop env imsi t ps hit l n) (pageLoop env imsi t ps hit l n)
  | [], n => surv_pure _
  | r :: l, n => by
    unfold pageLoop
    split
    · exact (surv_txPagingCmd B ..).bind fun _ => surv_pageLoop imsi t ps hit l _
    · exact surv_pageLoop imsi t ps hit l _

theorem surv_runApi (a : Api) : Surv (runApi env a) (runApi env a) := by
  cases a with
  | freeUe p => exact (surv_freeUe B p).bind fun _ => surv_pure _
  | tx p nas sapi =>
    refine (surv_modify fun t k => ⟨k, rfl⟩).bind fun _ => ?_
    cases p with
    | none => exact surv_pure _
    | some p => exact (surv_deref p).bind fun u => (surv_genMsg _).bind fun _ => (surv_modify fun t k => ⟨k, rfl⟩).bind fun _ =>
        surv_data B ..
  | txRelease p c => exact surv_iuTxRelease B p c
  | txReleaseFree p c t =>
    exact ((surv_deref p).bind fun _ => (surv_modify fun t k => ⟨k, rfl⟩).bind fun _ => (surv_iuTxRelease B p c).bind fun _ =>
      surv_modify fun t k => ⟨k, rfl⟩).bind fun _ => surv_pure _
  | txSecModeCmd p ik ck sendCk newKey =>
    exact (surv_genMsg _).bind fun _ => (surv_deref p).bind fun u => surv_data B ..
  | txCommonId p imsi => exact (surv_deref p).bind fun u => (surv_genMsg _).bind fun _ => surv_data B ..
  | rabAct p msg => exact (surv_deref p).bind fun u => surv_data B ..
  | rabDeact p r => exact surv_pure _
  | pageCs imsi t lac => exact surv_iuPage B ..
  | pagePs imsi t lac rac => exact surv_iuPage B ..
  | pageCs2 imsi t lai => exact surv_get fun s k => surv_pageLoop B ..
  | pagePs2 imsi t rai => exact surv_get fun s k => surv_pageLoop B ..

theorem surv_runScript : ∀ sc, Surv (runScript env sc) (runScript env sc)
  | .done => surv_pure _
  | .call a k => (surv_runApi B a).bind fun rc => surv_runScript (k rc)

theorem surv_callback (o : Out) : Surv (callback env o) (callback env o) := by
  refine (surv_emit o).bind fun _ => surv_get fun s k => ?_
  rw [B.cb]
  exact surv_runScript B _

theorem surv_iuEvent (p : Option Ptr) (e : Event) : Surv (iuEvent env p e) (iuEvent env p e) := by
  unfold iuEvent
  split
  · cases p with
    | none => exact surv_callback B _
    | some p =>
      refine (surv_deref p).bind fun u => ?_
      split
      · exact surv_callback B _
      · exact surv_pure _
  · exact surv_pure _

theorem surv_newArea (r : RncId) (a : Rai) : Surv (iuEventNewArea env r a) (iuEventNewArea env r a) := by
  unfold iuEventNewArea
  split <;> exact surv_iuEvent B ..

omit B in
theorem surv_updRnc (p : Ptr) (f : Rnc → Rnc) : Surv (updRnc p f) (updRnc p f) := surv_modify fun t k => ⟨k, rfl⟩

omit B in
theorem surv_rncAlloc (id : RncId) (a : SccpAddr) : Surv (rncAllocR w id a) (rncAlloc id a) :=
  surv_need (.inr rfl) fun _ => surv_get fun s k => (surv_modify fun t k => ⟨k, rfl⟩).bind fun _ => surv_pure _

omit B in
theorem surv_ctxAlloc (r : Ptr) (c : ConnId) : Surv (ctxAllocR w r c) (ctxAlloc r c) :=
  surv_need (.inl rfl) fun _ => surv_get fun s k => (surv_modify fun t k => ⟨k, rfl⟩).bind fun _ => surv_pure _

theorem surv_rncRegister (id : RncId) (rai : Rai) (a : SccpAddr) :
    Surv (rncRegisterR env w id rai a) (rncRegister env id rai a) := by
  unfold rncRegisterR rncRegister
  refine surv_get fun s k => ?_
  have fin : ∀ r, Surv (do
      let s ← M.get
      match lacRacFind s rai with
      | some (old, e) =>
        if old.ptr ≠ r then
          updRnc old.ptr fun r => { r with areas := r.areas.eraseP fun x => raiEq x rai }
          updRnc r fun r => { r with areas := e :: r.areas }
          iuEventNewArea env id rai
        else pure ()
      | none =>
        need w.area .nullDeref
        M.modify fun s => { s with blocks := s.blocks + 1 }
        updRnc r fun r => { r with areas := rai :: r.areas }
        iuEventNewArea env id rai
      pure r) (do
      let s ← M.get
      match lacRacFind s rai with
      | some (old, e) =>
        if old.ptr ≠ r then
          updRnc old.ptr fun r => { r with areas := r.areas.eraseP fun x => raiEq x rai }
          updRnc r fun r => { r with areas := e :: r.areas }
          iuEventNewArea env id rai
        else pure ()
      | none =>
        M.modify fun s => { s with blocks := s.blocks + 1 }
        updRnc r fun r => { r with areas := rai :: r.areas }
        iuEventNewArea env id rai
      pure r) := by
    intro r
    refine surv_get fun s' k => ?_
    rw [lacRacFind_b]
    cases lacRacFind s' rai with
    | none =>
      exact surv_need (.inl rfl) fun _ => (surv_modify fun t k => ⟨k, rfl⟩).bind fun _ => (surv_updRnc ..).bind fun _ =>
        (surv_newArea B ..).bind fun _ => surv_pure _
    | some x =>
      dsimp only
      split
      · exact (surv_updRnc ..).bind fun _ => (surv_updRnc ..).bind fun _ =>
          (surv_newArea B ..).bind fun _ => surv_pure _
      · exact surv_pure _
  rw [rncIdFind_b]
  cases rncIdFind s id with
  | none => exact (surv_rncAlloc ..).bind fin
  | some r =>
    dsimp only
    split
    · exact (surv_updRnc ..).bind fun _ => fin _
    · exact fin _

omit B in
theorem surv_nasAlloc : Surv (nasAllocR w) nasAlloc :=
  surv_modify fun t k => by
    cases w.nas with
    | true => exact ⟨k, by simp only [if_true]; congr 1; omega⟩
    | false => exact ⟨k + 1, by simp only [Bool.false_eq_true, if_false]; congr 1; omega⟩

omit B in
theorem surv_nasFree : Surv nasFree nasFree := surv_modify fun t k => ⟨k, by dsimp only; congr 1; omega⟩

omit B in
theorem surv_nasPut (nas : Bytes) : Surv (nasPutR w nas) (nasPut nas) := by
  refine surv_need (.inl rfl) fun _ => ?_
  unfold nasPut
  split
  · exact surv_pure _
  · exact surv_fault _

theorem surv_handleInitialUe (ctx : NewCtx) (ies : InitialUeIes) :
    Surv (handleInitialUeR env w ctx ies) (handleInitialUe env ctx ies) := by
  unfold handleInitialUeR handleInitialUe
  refine surv_nasAlloc.bind fun _ => (surv_lift _).bind fun x => ?_
  obtain ⟨rc, ra⟩ := x
  dsimp only
  split
  · exact surv_pure _
  · have fin : ∀ rac : BitVec 8, Surv (α := Int) (if ies.rac.isSome ∧ rac = RESERVED_RAC then pure (-1)
        else do
          let ra := { ra with rac := rac }
          match grncIdParse ies.grnc.plmn ies.grnc.rncId with
          | none => pure (-1)
          | some rncId => do
            let sai ← M.lift (asn1strToU16 ies.saiSac)
            nasPutR w ies.nas
            let rnc ← rncRegisterR env w rncId (gprsRaiToOsmo ra) ctx.addr
            let ue ← ctxAllocR w rnc ctx.conn
            M.modify fun s => { s with ues := s.ues.map fun u => if u.ptr = ue then { u with raId := ra } else u }
            callback env (.recv ue ctx.conn ies.nas (some ra) (some sai))
            nasFree
            pure 0) (if ies.rac.isSome ∧ rac = RESERVED_RAC then pure (-1)
        else do
          let ra := { ra with rac := rac }
          match grncIdParse ies.grnc.plmn ies.grnc.rncId with
          | none => pure (-1)
          | some rncId => do
            let sai ← M.lift (asn1strToU16 ies.saiSac)
            nasPut ies.nas
            let rnc ← rncRegister env rncId (gprsRaiToOsmo ra) ctx.addr
            let ue ← ctxAlloc rnc ctx.conn
            M.modify fun s => { s with ues := s.ues.map fun u => if u.ptr = ue then { u with raId := ra } else u }
            callback env (.recv ue ctx.conn ies.nas (some ra) (some sai))
            nasFree
            pure 0) := by
      intro rac
      split
      · exact surv_pure _
      · dsimp only
        cases grncIdParse ies.grnc.plmn ies.grnc.rncId with
        | none => exact surv_pure _
        | some id =>
          exact (surv_lift _).bind fun sai => (surv_nasPut _).bind fun _ => (surv_rncRegister B ..).bind fun _ =>
            (surv_ctxAlloc ..).bind fun _ => (surv_modify fun t k => ⟨k, rfl⟩).bind fun _ =>
            (surv_callback B _).bind fun _ => surv_nasFree.bind fun _ => surv_pure _
    cases hr : ies.rac with
    | none =>
      rw [hr] at fin
      exact fin _
    | some b =>
      rw [hr] at fin
      exact (surv_lift _).bind fin

theorem surv_handleDt (ue : Ptr) (ies : DtIes) : Surv (handleDtR env w ue ies) (handleDt env ue ies) := by
  unfold handleDtR handleDt
  refine surv_nasAlloc.bind fun _ => Surv.bind (x := _) (y := _) ?_ fun loc => ?_
  · cases ies.lai with
    | none => exact surv_pure _
    | some x =>
      obtain ⟨plmn, lac⟩ := x
      dsimp only
      refine (surv_lift _).bind fun x => ?_
      obtain ⟨rc, ra⟩ := x
      dsimp only
      split
      · exact surv_pure _
      · cases ies.rac <;> cases ies.saiSac <;>
          first
          | exact surv_pure _
          | exact (surv_lift _).bind fun _ => surv_pure _
          | exact (surv_lift _).bind fun _ => (surv_lift _).bind fun _ => surv_pure _
  · cases loc with
    | none => exact surv_pure _
    | some x =>
      exact (surv_nasPut _).bind fun _ => (surv_deref _).bind fun _ => (surv_callback B _).bind fun _ =>
        surv_nasFree.bind fun _ => surv_pure _

theorem surv_handleRabAssResp (ue : Ptr) (items : Option (List (Option Bytes))) :
    Surv (handleRabAssResp env ue items) (handleRabAssResp env ue items) := by
  refine (surv_deref _).bind fun _ => ?_
  rcases items with _ | _ | ⟨_ | it, l⟩
  · exact surv_pure _
  · exact surv_fault _
  · exact surv_pure _
  · exact (surv_iuEvent B ..).bind fun _ => surv_pure _

theorem surv_handleCoInitial (ctx : NewCtx) (m : Iu.Msg) :
    Surv (handleCoInitialR env w ctx m) (handleCoInitial env ctx m) := by
  unfold handleCoInitialR handleCoInitial
  split
  · exact surv_pure _
  · cases m.body <;>
      first
      | exact surv_fault _
      | exact (surv_handleInitialUe B ..).bind fun _ => surv_pure _

omit B in
/-- The program without a Direct Transfer in its hands. -/
theorem handleCo_dt {ue : Ptr} {m : Iu.Msg} (h : m.dir = PR_initiatingMessage ∧ m.proc = id_DirectTransfer) :
    handleCo env ue m = match m.body with
      | .directTransfer ies => do let _ ← handleDt env ue ies; pure ()
      | _ => M.fault .wrongUnion := by
  unfold handleCo
  rw [if_pos h.1, if_neg (by rw [h.2]; decide), if_pos h.2]
  cases m.body <;> rfl

theorem surv_handleCo' (ue : Ptr) (m : Iu.Msg) (h : ¬ (m.dir = PR_initiatingMessage ∧ m.proc = id_DirectTransfer)) :
    Surv (handleCo env ue m) (handleCo env ue m) := by
  unfold handleCo
  by_cases h1 : m.dir = PR_initiatingMessage
  · rw [if_pos h1]
    by_cases h2 : m.proc = id_InitialUE_Message
    · rw [if_pos h2]; exact surv_pure _
    · rw [if_neg h2, if_neg fun h3 => h ⟨h1, h3⟩]
      repeat' split
      all_goals first
        | exact surv_pure _
        | exact surv_fault _
        | exact (surv_iuTxRelease B ..).bind fun _ => surv_pure _
  · rw [if_neg h1]
    repeat' split
    all_goals first
      | exact surv_pure _
      | exact surv_fault _
      | exact surv_iuEvent B ..
      | exact (surv_handleRabAssResp B ..).bind fun _ => surv_pure _

theorem surv_handleCo (ue : Ptr) (m : Iu.Msg) : Surv (handleCoR env w ue m) (handleCo env ue m) := by
  unfold handleCoR
  split
  · rename_i h
    rw [handleCo_dt h]
    cases m.body <;>
      first
      | exact surv_fault _
      | exact (surv_handleDt B ..).bind fun _ => surv_pure _
  · exact surv_handleCo' B ue m (by assumption)

omit B in
theorem surv_rxCo {h h' : Iu.Msg → M Unit} (hh : ∀ m, Surv (h m) (h' m)) (data : Bytes) :
    Surv (rxCo env h data) (rxCo env h' data) := by
  unfold rxCo
  cases env.decodeCo data with
  | none => exact surv_pure _
  | some m => exact (hh m).bind fun _ => surv_pure _

theorem surv_linkInvalidatedFree (p : Ptr) : Surv (linkInvalidatedFree env p) (linkInvalidatedFree env p) := by
  unfold linkInvalidatedFree
  refine (surv_deref _).bind fun u => (surv_iuEvent B ..).bind fun _ => surv_get fun s k => ?_
  rw [ctxFind_b]
  cases ctxFind s u.conn with
  | none => exact surv_pure _
  | some u' =>
    dsimp only
    split
    · exact surv_freeUe B _
    · exact surv_pure _

theorem surv_ueLoop (r : Ptr) : ∀ k p, Surv (ueLoop env r k p) (ueLoop env r k p)
  | 0, _ => surv_fault _
  | k + 1, p => by
    unfold ueLoop
    refine (surv_deref _).bind fun u => surv_get fun s k' => ?_
    rw [ueNext_b]
    have fin : Surv (α := Unit) (match ueNext s p with | none => pure () | some q => ueLoop env r k q)
        (match ueNext s p with | none => pure () | some q => ueLoop env r k q) := by
      cases ueNext s p with
      | none => exact surv_pure _
      | some q => exact surv_ueLoop r k q
    dsimp only
    split
    · exact (surv_linkInvalidatedFree B p).bind fun _ => fin
    · exact fin

theorem surv_rncLoop (hit : SccpAddr → Bool) : ∀ l, Surv (rncLoop env hit l) (rncLoop env hit l)
  | [] => surv_pure _
  | r :: l => by
    unfold rncLoop
    split
    · refine Surv.bind (surv_get fun s k => ?_) fun _ => surv_rncLoop hit l
      dsimp only
      cases s.ues with
      | nil => exact surv_pure _
      | cons u us => exact surv_ueLoop B ..
    · exact surv_rncLoop hit l

theorem surv_handleCl (a : SccpAddr) (m : Iu.Msg) : Surv (handleCl env a m) (handleCl env a m) := by
  unfold handleCl
  repeat' split
  all_goals first
    | exact surv_pure _
    | exact surv_fault _
    | skip
  refine Surv.bind ?_ fun _ => surv_pure _
  unfold handleClReset
  refine (surv_lift _).bind fun o => ?_
  cases o with
  | none => exact surv_pure _
  | some _ => exact surv_sap B _

/-- Every operation. -/
theorem surv_step (op : Op) : Surv (stepR env w op) (step env op) := by
  cases op with
  | connectConf => exact surv_pure _
  | connectInd c a data =>
    refine surv_need (.inl rfl) fun _ => (surv_sap B _).bind fun _ => ?_
    split
    · exact Surv.bind (surv_need (.inl rfl) fun _ => surv_modify fun t k => ⟨k, rfl⟩) fun _ => surv_pure _
    · exact surv_rxCo (surv_handleCoInitial B _) data
  | disconnectInd c data =>
    refine (surv_modify fun t k => ⟨k, rfl⟩).bind fun _ => surv_get fun s k => ?_
    rw [ctxFind_b]
    cases ctxFind s c with
    | none => exact surv_pure _
    | some u =>
      dsimp only
      have fin : ∀ rc : Int, Surv (do
          let s ← M.get
          match ctxFind s c with
          | none => pure rc
          | some u => do linkInvalidatedFree env u.ptr; pure rc) (do
          let s ← M.get
          match ctxFind s c with
          | none => pure rc
          | some u => do linkInvalidatedFree env u.ptr; pure rc) := by
        intro rc
        refine surv_get fun s k => ?_
        rw [ctxFind_b]
        cases ctxFind s c with
        | none => exact surv_pure _
        | some u => exact (surv_linkInvalidatedFree B ..).bind fun _ => surv_pure _
      split
      · exact (surv_rxCo (surv_handleCo B _) data).bind fin
      · exact fin _
  | dataInd c data =>
    refine surv_get fun s k => ?_
    rw [ctxFind_b, cacheFind_b]
    cases ctxFind s c with
    | some u => exact surv_rxCo (surv_handleCo B _) data
    | none =>
      dsimp only
      cases cacheFind s c with
      | none => exact surv_pure _
      | some a => exact (surv_modify fun t k => ⟨k, rfl⟩).bind fun _ => surv_rxCo (surv_handleCoInitial B _) data
  | unitdataInd a data =>
    show Surv (match env.decodeCl data with
      | none => pure (-1)
      | some m => do handleCl env a m; pure 0) (match env.decodeCl data with
      | none => pure (-1)
      | some m => do handleCl env a m; pure 0)
    cases env.decodeCl data with
    | none => exact surv_pure _
    | some m => exact (surv_handleCl B a m).bind fun _ => surv_pure _
  | noticeInd a c =>
    show Surv (step env (.noticeInd a c)) _
    refine Surv.bind ?_ fun _ => surv_pure _
    unfold handleNotice
    split
    · exact surv_pure _
    · exact surv_get fun s k => surv_rncLoop B _ _
  | pcstateInd pc sp rem =>
    show Surv (step env (.pcstateInd pc sp rem)) _
    refine Surv.bind ?_ fun _ => surv_pure _
    unfold handlePcstate
    dsimp only
    split
    · exact surv_get fun s k => surv_rncLoop B _ _
    · exact surv_pure _
  | otherInd => exact surv_pure _
  | timer p =>
    show Surv (step env (.timer p)) _
    refine surv_get fun s k => ?_
    dsimp only
    split
    · exact (surv_modify fun t k => ⟨k, rfl⟩).bind fun _ => (surv_iuEvent B ..).bind fun _ => surv_pure _
    · exact surv_pure _
  | api a => exact surv_runApi B a

/-- Every history. -/
theorem surv_run : ∀ ops : List (Supply × Op), Surv (runR env ops) (run env (ops.map (·.2)))
  | [] => surv_pure _
  | (w, op) :: ops => (surv_step B op).bind fun _ => surv_run ops

end Verif.ScarceRec
