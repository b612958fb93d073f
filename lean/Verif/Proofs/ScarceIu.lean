import Verif.Model.ScarceIu
import Verif.Proofs.IuWp

/-!
# Two clients that differ in the making of messages

Whenever the one makes a message, it is as the message of the other, or NULL, or the process ends.
-/

namespace Verif.ScarceIu
open Verif.Iu Verif.Lai

variable {α β : Type} {env : Env} {F : Fault → Prop} {g : TxMsg → Res (Option Bytes)}

/-- The client that makes messages in another way. -/
abbrev making (g : TxMsg → Res (Option Bytes)) (env : Env) : Env := { env with gen := g }

/-- What is handed to the SCCP layer was made. -/
def Sent (g : TxMsg → Res (Option Bytes)) : Out → Prop
  | .sap (.dataReq _ m) _ => ∃ bs, g m = .ok (some bs)
  | .sap (.unitdataReq _ m) _ => ∃ bs, g m = .ok (some bs)
  | _ => True

/-- A computation ends the process, or does the same as another one, and what it sends was made. -/
structure Follows (F : Fault → Prop) (g : TxMsg → Res (Option Bytes)) (x y : M α) : Prop where
  at_ : ∀ s, (∃ e, F e ∧ x s = .fault e) ∨
    x s = y s ∧ ∀ a s', x s = .ok (a, s') → ∃ d, s'.trace = s.trace ++ d ∧ ∀ o ∈ d, Sent g o

theorem Follows.bind {x y : M α} {k l : α → M β} (h : Follows F g x y) (hk : ∀ a, Follows F g (k a) (l a)) :
    Follows F g (x >>= k) (y >>= l) := by
  constructor
  intro s
  show (∃ e, F e ∧ M.bind x k s = _) ∨ M.bind x k s = M.bind y l s ∧ _
  rcases h.at_ s with ⟨e, he, h⟩ | ⟨h, ht⟩
  · refine .inl ⟨e, he, ?_⟩
    unfold M.bind
    rw [h]
  · unfold M.bind
    rw [← h]
    show _ ∨ _ ∧ ∀ b s', M.bind x k s = .ok (b, s') → _
    unfold M.bind
    cases hx : x s with
    | fault e => exact .inr ⟨rfl, nofun⟩
    | ok r =>
      obtain ⟨a, s1⟩ := r
      obtain ⟨d, hd, hs⟩ := ht a s1 hx
      dsimp only
      rcases (hk a).at_ s1 with h2 | ⟨h2, ht2⟩
      · exact .inl h2
      · refine .inr ⟨h2, fun b s' hb => ?_⟩
        obtain ⟨d2, hd2, hs2⟩ := ht2 b s' hb
        refine ⟨d ++ d2, by rw [hd2, hd, List.append_assoc], fun o ho => ?_⟩
        rcases List.mem_append.1 ho with ho | ho
        · exact hs o ho
        · exact hs2 o ho

/-- Nothing is sent. -/
theorem Follows.quiet {x : M α} (h : ∀ s a s', x s = .ok (a, s') → s'.trace = s.trace) : Follows F g x x :=
  ⟨fun s => .inr ⟨rfl, fun a s' hx => ⟨[], by rw [h s a s' hx, List.append_nil], nofun⟩⟩⟩

theorem follows_pure (a : α) : Follows F g (pure a : M α) (pure a) :=
  .quiet fun s b s' h => by cases h; rfl

theorem follows_get : Follows F g M.get M.get := .quiet fun s b s' h => by cases h; rfl

theorem follows_modify {f : State → State} (hf : ∀ s, (f s).trace = s.trace) : Follows F g (M.modify f) (M.modify f) :=
  .quiet fun s b s' h => by cases h; exact hf s

theorem follows_fault (e : Fault) : Follows F g (M.fault e : M α) (M.fault e) := .quiet fun s b s' h => by cases h

theorem follows_lift (r : Res α) : Follows F g (M.lift r) (M.lift r) :=
  .quiet fun s b s' h => by
    unfold M.lift at h
    cases r <;> cases h
    rfl

theorem follows_deref (p : Ptr) : Follows F g (deref p) (deref p) :=
  .quiet fun s b s' h => by
    unfold deref at h
    split at h <;> cases h
    rfl

theorem follows_emit {o : Out} (ho : Sent g o) : Follows F g (emit o) (emit o) :=
  ⟨fun s => .inr ⟨rfl, fun a s' hx => by
    cases hx
    exact ⟨[o], rfl, fun o' h => by rw [List.mem_singleton.1 h]; exact ho⟩⟩⟩

theorem follows_sap {p : Prim} (hp : ∀ rc, Sent g (.sap p rc)) : Follows F g (sapDown (making g env) p) (sapDown env p) := by
  unfold sapDown
  exact follows_get.bind fun s => (follows_emit (hp _)).bind fun _ => follows_pure _

theorem follows_data {m : TxMsg} {bs : Bytes} (h : g m = .ok (some bs)) {c : ConnId} :
    Follows F g (sapDown (making g env) (.dataReq c m)) (sapDown env (.dataReq c m)) := follows_sap fun _ => ⟨bs, h⟩

theorem genMsg_bind (env : Env) (m : TxMsg) (k : Unit → M α) (s : State) : (genMsg env m >>= k) s = match env.gen m with
    | .ok (some _) => k () s
    | .ok none => .fault .nullDeref
    | .fault e => .fault e := by
  show M.bind (M.bind (M.lift (env.gen m)) _) k s = _
  unfold M.bind M.lift
  rcases env.gen m with (_ | _) | _ <;> rfl

variable (H : F .nullDeref ∧ ∀ m, g m = .ok none ∨ (∃ e, F e ∧ g m = .fault e) ∨ g m = env.gen m ∨
  ∃ b b', g m = .ok (some b) ∧ env.gen m = .ok (some b')) (R : ∀ d, g (.raw d) = .ok (some d))

include H

/-- A message is made, or the process ends. -/
theorem follows_gen {m : TxMsg} {k l : Unit → M α} (hk : ∀ bs, g m = .ok (some bs) → Follows F g (k ()) (l ())) :
    Follows F g (genMsg (making g env) m >>= k) (genMsg env m >>= l) := by
  constructor
  intro s
  rw [genMsg_bind, genMsg_bind]
  dsimp only
  have he := H.2 m
  cases hg : g m with
  | fault e =>
    rw [hg] at he
    rcases he with h | ⟨e', h', h⟩ | h | ⟨b, b', h, -⟩
    · cases h
    · cases h; exact .inl ⟨e, h', rfl⟩
    · rw [← h]
      exact .inr ⟨rfl, by intro _ _ h; cases h⟩
    · cases h
  | ok o =>
    cases o with
    | none => exact .inl ⟨_, H.1, rfl⟩
    | some b =>
      rw [hg] at he
      rcases he with h | ⟨e', h', h⟩ | h | ⟨b', b'', -, h⟩
      · cases h
      · cases h
      · rw [← h]
        exact (hk b hg).at_ s
      · rw [h]
        exact (hk b hg).at_ s

theorem follows_iuTxRelease (p : Ptr) (c : Option Cause) : Follows F g (iuTxRelease (making g env) p c) (iuTxRelease env p c) :=
  follows_gen H fun bs hb => (follows_deref p).bind fun u => follows_data hb

theorem follows_txPagingCmd (a : SccpAddr) (imsi : Bytes) (t : Option (BitVec 32)) (ps : Bool) (c : Nat) :
    Follows F g (txPagingCmd (making g env) a imsi t ps c) (txPagingCmd env a imsi t ps c) :=
  follows_gen H fun bs hb => follows_sap (p := .unitdataReq a (.paging imsi t ps c)) fun _ => ⟨bs, hb⟩

theorem follows_iuPage (imsi : Bytes) (t : Option (BitVec 32)) (lac : BitVec 16) (rac : BitVec 8) (ps : Bool) :
    Follows F g (iuPage (making g env) imsi t lac rac ps) (iuPage env imsi t lac rac ps) := by
  refine follows_get.bind fun s => ?_
  cases lacRacFindLegacy s lac rac with
  | none => exact follows_pure _
  | some r => exact (follows_txPagingCmd H ..).bind fun _ => follows_pure _

theorem follows_pageLoop (imsi : Bytes) (t : Option (BitVec 32)) (ps : Bool) (hit : Rai → Bool) : ∀ l n,
    Follows F g (pageLoop (making g env) imsi t ps hit l n) (pageLoop env imsi t ps hit l n)
  | [], n => follows_pure _
  | r :: l, n => by
    unfold pageLoop
    split
    · exact (follows_txPagingCmd H ..).bind fun _ => follows_pageLoop imsi t ps hit l _
    · exact follows_pageLoop imsi t ps hit l _

omit H in
theorem follows_freeUe (p : Option Ptr) : Follows F g (freeUe (making g env) p) (freeUe env p) := by
  cases p with
  | none => exact follows_pure _
  | some p =>
    exact (follows_deref p).bind fun u => (follows_modify (by intro; rfl)).bind fun _ =>
      (follows_sap (p := .disconnectReq u.conn) fun _ => trivial).bind fun _ => follows_modify (by intro; rfl)

include R

theorem follows_runApi (a : Api) : Follows F g (runApi (making g env) a) (runApi env a) := by
  cases a with
  | freeUe p => exact (follows_freeUe p).bind fun _ => follows_pure _
  | tx p nas sapi =>
    refine (follows_modify (by intro; rfl)).bind fun _ => ?_
    cases p with
    | none => exact follows_pure _
    | some p => exact (follows_deref p).bind fun u => follows_gen H fun bs hb => (follows_modify (by intro; rfl)).bind fun _ =>
        follows_data hb
  | txRelease p c => exact follows_iuTxRelease H p c
  | txReleaseFree p c t =>
    exact ((follows_deref p).bind fun _ => (follows_modify (by intro; rfl)).bind fun _ => (follows_iuTxRelease H p c).bind fun _ =>
      follows_modify (by intro; rfl)).bind fun _ => follows_pure _
  | txSecModeCmd p ik ck sendCk newKey =>
    exact follows_gen H fun bs hb => (follows_deref p).bind fun u => follows_data hb
  | txCommonId p imsi => exact (follows_deref p).bind fun u => follows_gen H fun bs hb => follows_data hb
  | rabAct p msg => exact (follows_deref p).bind fun u => follows_data (R _)
  | rabDeact p r => exact follows_pure _
  | pageCs imsi t lac => exact follows_iuPage H ..
  | pagePs imsi t lac rac => exact follows_iuPage H ..
  | pageCs2 imsi t lai => exact follows_get.bind fun s => follows_pageLoop H ..
  | pagePs2 imsi t rai => exact follows_get.bind fun s => follows_pageLoop H ..

theorem follows_runScript : ∀ sc, Follows F g (runScript (making g env) sc) (runScript env sc)
  | .done => follows_pure _
  | .call a k => (follows_runApi H R a).bind fun rc => follows_runScript (k rc)

theorem follows_callback {o : Out} (ho : Sent g o) : Follows F g (callback (making g env) o) (callback env o) :=
  (follows_emit ho).bind fun _ => follows_get.bind fun _ => follows_runScript H R _

theorem follows_recv (p : Ptr) (c : ConnId) (nas : Bytes) (ra : Option GprsRaId) (sai : Option (BitVec 16)) :
    Follows F g (callback (making g env) (.recv p c nas ra sai)) (callback env (.recv p c nas ra sai)) :=
  follows_callback H R trivial

theorem follows_iuEvent (p : Option Ptr) (e : Event) : Follows F g (iuEvent (making g env) p e) (iuEvent env p e) := by
  unfold iuEvent
  show Follows F g (if env.hasEventCb then _ else _) _
  split
  · cases p with
    | none => exact follows_callback H R trivial
    | some p =>
      refine (follows_deref p).bind fun u => ?_
      split
      · exact follows_callback H R trivial
      · exact follows_pure _
  · exact follows_pure _

theorem follows_newArea (r : RncId) (a : Rai) : Follows F g (iuEventNewArea (making g env) r a) (iuEventNewArea env r a) := by
  unfold iuEventNewArea
  split <;> exact follows_iuEvent H R ..

omit H R in
theorem follows_updRnc (p : Ptr) (f : Rnc → Rnc) : Follows F g (updRnc p f) (updRnc p f) := follows_modify (by intro; rfl)

omit H R in
theorem follows_rncAlloc (id : RncId) (a : SccpAddr) : Follows F g (rncAlloc id a) (rncAlloc id a) :=
  follows_get.bind fun _ => (follows_modify (by intro; rfl)).bind fun _ => follows_pure _

theorem follows_rncRegister (id : RncId) (rai : Rai) (a : SccpAddr) :
    Follows F g (rncRegister (making g env) id rai a) (rncRegister env id rai a) := by
  unfold rncRegister
  refine follows_get.bind fun s => ?_
  have fin : ∀ r, Follows F g (do
      let s ← M.get
      match lacRacFind s rai with
      | some (old, e) =>
        if old.ptr ≠ r then
          updRnc old.ptr fun r => { r with areas := r.areas.eraseP fun x => raiEq x rai }
          updRnc r fun r => { r with areas := e :: r.areas }
          iuEventNewArea (making g env) id rai
        else pure ()
      | none =>
        M.modify fun s => { s with blocks := s.blocks + 1 }
        updRnc r fun r => { r with areas := rai :: r.areas }
        iuEventNewArea (making g env) id rai
      pure r) (do
      let s ← M.get
      match lacRacFind s rai with
      | some (old, e) =>
        if old.ptr ≠ r then
          updRnc old.ptr fun r => { r with areas := r.areas.eraseP fun x => raiEq x rai }
          updRnc r fun r => { r with areas := e :: r.areas }
          iuEventNewArea env id rai
        else pure ()
      | none =>
        M.modify fun s => { s with blocks := s.blocks + 1 }
        updRnc r fun r => { r with areas := rai :: r.areas }
        iuEventNewArea env id rai
      pure r) := by
    intro r
    refine follows_get.bind fun s' => ?_
    cases lacRacFind s' rai with
    | none =>
      exact (follows_modify (by intro; rfl)).bind fun _ => (follows_updRnc ..).bind fun _ =>
        (follows_newArea H R ..).bind fun _ => follows_pure _
    | some x =>
      dsimp only
      split
      · exact (follows_updRnc ..).bind fun _ => (follows_updRnc ..).bind fun _ =>
          (follows_newArea H R ..).bind fun _ => follows_pure _
      · exact follows_pure _
  cases rncIdFind s id with
  | none => exact (follows_rncAlloc ..).bind fin
  | some r =>
    dsimp only
    have hs : sameSccpAddr (making g env) r.addr a = sameSccpAddr env r.addr a := rfl
    rw [hs]
    split
    · exact (follows_updRnc ..).bind fun _ => fin _
    · exact fin _

omit H R in
theorem follows_ctxAlloc (r : Ptr) (c : ConnId) : Follows F g (ctxAlloc r c) (ctxAlloc r c) :=
  follows_get.bind fun _ => (follows_modify (by intro; rfl)).bind fun _ => follows_pure _

omit H R in
theorem follows_nasPut (nas : Bytes) : Follows F g (nasPut nas) (nasPut nas) := by
  unfold nasPut
  split
  · exact follows_pure _
  · exact follows_fault _

theorem follows_handleInitialUe (ctx : NewCtx) (ies : InitialUeIes) :
    Follows F g (handleInitialUe (making g env) ctx ies) (handleInitialUe env ctx ies) := by
  unfold handleInitialUe
  refine (follows_modify (by intro; rfl)).bind fun _ => (follows_lift _).bind fun x => ?_
  obtain ⟨rc, ra⟩ := x
  dsimp only
  split
  · exact follows_pure _
  · have fin : ∀ rac : BitVec 8, Follows F g (α := Int) (if ies.rac.isSome ∧ rac = RESERVED_RAC then pure (-1)
        else do
          let ra := { ra with rac := rac }
          match grncIdParse ies.grnc.plmn ies.grnc.rncId with
          | none => pure (-1)
          | some rncId => do
            let sai ← M.lift (asn1strToU16 ies.saiSac)
            nasPut ies.nas
            let rnc ← rncRegister (making g env) rncId (gprsRaiToOsmo ra) ctx.addr
            let ue ← ctxAlloc rnc ctx.conn
            M.modify fun s => { s with ues := s.ues.map fun u => if u.ptr = ue then { u with raId := ra } else u }
            callback (making g env) (.recv ue ctx.conn ies.nas (some ra) (some sai))
            nasFree
            pure 0) (if ies.rac.isSome ∧ rac = RESERVED_RAC then pure (-1)
        else do
          let ra := { ra with rac := rac }
          match grncIdParse ies.grnc.plmn ies.grnc.rncId with
          | none => pure (-1)
          | some rncId => do
            let sai ← M.lift (asn1strToU16 ies.saiSac)
            nasPut ies.nas
            let rnc ← rncRegister env rncId (gprsRaiToOsmo ra) ctx.addr
            let ue ← ctxAlloc rnc ctx.conn
            M.modify fun s => { s with ues := s.ues.map fun u => if u.ptr = ue then { u with raId := ra } else u }
            callback env (.recv ue ctx.conn ies.nas (some ra) (some sai))
            nasFree
            pure 0) := by
      intro rac
      split
      · exact follows_pure _
      · dsimp only
        cases grncIdParse ies.grnc.plmn ies.grnc.rncId with
        | none => exact follows_pure _
        | some id =>
          exact (follows_lift _).bind fun sai => (follows_nasPut _).bind fun _ => (follows_rncRegister H R ..).bind fun _ =>
            (follows_ctxAlloc ..).bind fun _ => (follows_modify (by intro; rfl)).bind fun _ =>
            (follows_recv H R ..).bind fun _ => (follows_modify (by intro; rfl)).bind fun _ => follows_pure _
    cases hr : ies.rac with
    | none =>
      rw [hr] at fin
      exact fin _
    | some b =>
      rw [hr] at fin
      exact (follows_lift _).bind fin

theorem follows_handleDt (ue : Ptr) (ies : DtIes) : Follows F g (handleDt (making g env) ue ies) (handleDt env ue ies) := by
  unfold handleDt
  refine (follows_modify (by intro; rfl)).bind fun _ => Follows.bind (x := _) (y := _) ?_ fun loc => ?_
  · cases ies.lai with
    | none => exact follows_pure _
    | some x =>
      obtain ⟨plmn, lac⟩ := x
      dsimp only
      refine (follows_lift _).bind fun x => ?_
      obtain ⟨rc, ra⟩ := x
      dsimp only
      split
      · exact follows_pure _
      · cases ies.rac <;> cases ies.saiSac <;>
          first
          | exact follows_pure _
          | exact (follows_lift _).bind fun _ => follows_pure _
          | exact (follows_lift _).bind fun _ => (follows_lift _).bind fun _ => follows_pure _
  · cases loc with
    | none => exact follows_pure _
    | some x =>
      exact (follows_nasPut _).bind fun _ => (follows_deref _).bind fun _ => (follows_recv H R ..).bind fun _ =>
        (follows_modify (by intro; rfl)).bind fun _ => follows_pure _

theorem follows_handleRabAssResp (ue : Ptr) (items : Option (List (Option Bytes))) :
    Follows F g (handleRabAssResp (making g env) ue items) (handleRabAssResp env ue items) := by
  refine (follows_deref _).bind fun _ => ?_
  rcases items with _ | _ | ⟨_ | it, l⟩
  · exact follows_pure _
  · exact follows_fault _
  · exact follows_pure _
  · exact (follows_iuEvent H R ..).bind fun _ => follows_pure _

theorem follows_handleCoInitial (ctx : NewCtx) (m : Iu.Msg) :
    Follows F g (handleCoInitial (making g env) ctx m) (handleCoInitial env ctx m) := by
  unfold handleCoInitial
  split
  · exact follows_pure _
  · cases m.body <;>
      first
      | exact follows_fault _
      | exact (follows_handleInitialUe H R ..).bind fun _ => follows_pure _

theorem follows_handleCo (ue : Ptr) (m : Iu.Msg) : Follows F g (handleCo (making g env) ue m) (handleCo env ue m) := by
  unfold handleCo
  repeat' split
  all_goals first
    | exact follows_pure _
    | exact follows_fault _
    | exact follows_iuEvent H R ..
    | exact (follows_handleDt H R ..).bind fun _ => follows_pure _
    | exact (follows_handleRabAssResp H R ..).bind fun _ => follows_pure _
    | exact (follows_iuTxRelease H ..).bind fun _ => follows_pure _

omit H R in
theorem follows_rxCo {h h' : Iu.Msg → M Unit} (hh : ∀ m, Follows F g (h m) (h' m)) (data : Bytes) :
    Follows F g (rxCo (making g env) h data) (rxCo env h' data) := by
  unfold rxCo
  show Follows F g (match env.decodeCo data with | none => _ | some m => _) _
  cases env.decodeCo data with
  | none => exact follows_pure _
  | some m => exact (hh m).bind fun _ => follows_pure _

theorem follows_linkInvalidatedFree (p : Ptr) :
    Follows F g (linkInvalidatedFree (making g env) p) (linkInvalidatedFree env p) := by
  unfold linkInvalidatedFree
  refine (follows_deref _).bind fun u => (follows_iuEvent H R ..).bind fun _ => follows_get.bind fun s => ?_
  cases ctxFind s u.conn with
  | none => exact follows_pure _
  | some u' =>
    dsimp only
    split
    · exact follows_freeUe _
    · exact follows_pure _

theorem follows_ueLoop (r : Ptr) : ∀ k p, Follows F g (ueLoop (making g env) r k p) (ueLoop env r k p)
  | 0, _ => follows_fault _
  | k + 1, p => by
    unfold ueLoop
    refine (follows_deref _).bind fun u => follows_get.bind fun s => ?_
    have fin : Follows F g (α := Unit) (match ueNext s p with | none => pure () | some q => ueLoop (making g env) r k q)
        (match ueNext s p with | none => pure () | some q => ueLoop env r k q) := by
      cases ueNext s p with
      | none => exact follows_pure _
      | some q => exact follows_ueLoop r k q
    dsimp only
    split
    · exact (follows_linkInvalidatedFree H R p).bind fun _ => fin
    · exact fin

theorem follows_rncLoop (hit : SccpAddr → Bool) : ∀ l, Follows F g (rncLoop (making g env) hit l) (rncLoop env hit l)
  | [] => follows_pure _
  | r :: l => by
    unfold rncLoop
    split
    · refine Follows.bind (follows_get.bind fun s => ?_) fun _ => follows_rncLoop hit l
      cases s.ues with
      | nil => exact follows_pure _
      | cons u us => exact follows_ueLoop H R ..
    · exact follows_rncLoop hit l

/-- A RESET for whose answer there is no memory. -/
def Unanswered (g : TxMsg → Res (Option Bytes)) (env : Env) (op : Op) : Prop :=
  ∃ a data d r, op = .unitdataInd a data ∧ env.decodeCl data = some ⟨PR_initiatingMessage, id_Reset, .reset d r⟩ ∧
    g (.resetAck d r) = .ok none

/-- Any operation but such a RESET. -/
theorem follows_step (op : Op) (hr : ¬ Unanswered g env op) : Follows F g (step (making g env) op) (step env op) := by
  cases op with
  | connectConf => exact follows_pure _
  | connectInd c a data =>
    refine (follows_sap (p := .connectResp c) fun _ => trivial).bind fun _ => ?_
    split
    · exact (follows_modify (by intro; rfl)).bind fun _ => follows_pure _
    · exact follows_rxCo (follows_handleCoInitial H R _) data
  | disconnectInd c data =>
    refine (follows_modify (by intro; rfl)).bind fun _ => follows_get.bind fun s => ?_
    cases ctxFind s c with
    | none => exact follows_pure _
    | some u =>
      dsimp only
      have fin : ∀ rc : Int, Follows F g (do
          let s ← M.get
          match ctxFind s c with
          | none => pure rc
          | some u => do linkInvalidatedFree (making g env) u.ptr; pure rc) (do
          let s ← M.get
          match ctxFind s c with
          | none => pure rc
          | some u => do linkInvalidatedFree env u.ptr; pure rc) := by
        intro rc
        refine follows_get.bind fun s => ?_
        cases ctxFind s c with
        | none => exact follows_pure _
        | some u => exact (follows_linkInvalidatedFree H R ..).bind fun _ => follows_pure _
      split
      · exact (follows_rxCo (follows_handleCo H R _) data).bind fin
      · exact fin _
  | dataInd c data =>
    refine follows_get.bind fun s => ?_
    cases ctxFind s c with
    | some u => exact follows_rxCo (follows_handleCo H R _) data
    | none =>
      dsimp only
      cases cacheFind s c with
      | none => exact follows_pure _
      | some a => exact (follows_modify (by intro; rfl)).bind fun _ => follows_rxCo (follows_handleCoInitial H R _) data
  | unitdataInd a data =>
    show Follows F g (match env.decodeCl data with
      | none => pure (-1)
      | some m => do handleCl (making g env) a m; pure 0) (match env.decodeCl data with
      | none => pure (-1)
      | some m => do handleCl env a m; pure 0)
    cases hd : env.decodeCl data with
    | none => exact follows_pure _
    | some m =>
      refine Follows.bind ?_ fun _ => follows_pure _
      unfold handleCl
      split
      · split
        · rename_i h1 h2
          split
          · rename_i d r hb
            refine Follows.bind ?_ fun _ => follows_pure _
            have hn : g (.resetAck d r) ≠ .ok none := fun hg => hr ⟨a, data, d, r, rfl, by
              rw [hd, ← h1, ← h2, ← hb], hg⟩
            unfold handleClReset
            dsimp only
            rcases (H.2 (.resetAck d r)).resolve_left hn with ⟨e, he, hs⟩ | hs
            · rw [hs]
              exact ⟨fun s => .inl ⟨e, he, rfl⟩⟩
            rcases hs.symm with ⟨b, b', hs, hs'⟩ | hs
            · rw [hs, hs']
              exact follows_sap (p := .unitdataReq a (.resetAck d r)) fun _ => ⟨b, hs⟩
            rw [← hs]
            cases hg : g (.resetAck d r) with
            | fault e => exact ⟨fun s => .inr ⟨rfl, by intro _ _ h; cases h⟩⟩
            | ok o =>
              cases o with
              | none => exact absurd hg hn
              | some bs =>
                refine (follows_lift _).bind fun o => ?_
                cases o with
                | none => exact follows_pure _
                | some _ => exact follows_sap (p := .unitdataReq a (.resetAck d r)) fun _ => ⟨bs, hg⟩
          · exact follows_fault _
        · split
          · split
            · exact follows_pure _
            · exact follows_fault _
          · exact follows_pure _
      · exact follows_pure _
  | noticeInd a cause =>
    refine Follows.bind ?_ fun _ => follows_pure _
    unfold handleNotice
    split
    · exact follows_pure _
    · exact follows_get.bind fun s => follows_rncLoop H R _ _
  | pcstateInd pc sp rem =>
    refine Follows.bind ?_ fun _ => follows_pure _
    unfold handlePcstate
    dsimp only
    split
    · exact follows_get.bind fun s => follows_rncLoop H R _ _
    · exact follows_pure _
  | otherInd => exact follows_pure _
  | timer p =>
    refine follows_get.bind fun s => ?_
    split
    · exact (follows_modify (by intro; rfl)).bind fun _ => (follows_iuEvent H R ..).bind fun _ => follows_pure _
    · exact follows_pure _
  | api a => exact follows_runApi H R a

omit H R in
/-- Such a RESET gets no answer, and changes nothing. -/
theorem step_unanswered {op : Op} (hr : Unanswered g env op) (s : State) : step (making g env) op s = .ok (0, s) := by
  obtain ⟨a, data, d, r, rfl, hd, hg⟩ := hr
  have hd' : (making g env).decodeCl data = some ⟨PR_initiatingMessage, id_Reset, .reset d r⟩ := hd
  unfold step
  dsimp only
  rw [hd]
  show M.bind _ _ s = _
  unfold handleCl
  rw [if_pos rfl, if_pos rfl]
  show M.bind (M.bind (M.bind (M.lift (g (.resetAck d r))) _) _) _ s = _
  rw [hg]
  rfl

end Verif.ScarceIu
