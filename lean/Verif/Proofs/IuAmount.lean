import Verif.Spec.IuAmount
import Verif.Proofs.IuMem

/-!
# How much the client sends and tells: accounting
-/

namespace Verif.IuAmount
open Verif.Iu Verif.Iu.Spec Verif.Lai

variable {env : Env} {H : Prop} {k c c' t t' : Nat} {α β : Type}

/-- From one state to another, at most `c` messages were sent and the user was called at most `t` times, not counting `k` messages
for each call. (The former only if `H`.) -/
structure Account (H : Prop) (k c t : Nat) (s s' : State) : Prop where
  sent : H → sent s' + k * told s ≤ sent s + c + k * told s'
  told : told s ≤ told s'
  most : Spec.told s' ≤ Spec.told s + t

theorem Account.trans {s s1 s2 : State} (h : Account H k c t s s1) (h' : Account H k c' t' s1 s2) : Account H k (c + c') (t + t') s s2 := by
  obtain ⟨a, b, d⟩ := h
  obtain ⟨a', b', d'⟩ := h'
  exact ⟨fun hh => by have := a hh; have := a' hh; omega, by omega, by omega⟩

theorem Account.mono {s s' : State} (h : Account H k c t s s') (hc : c ≤ c') (ht : t ≤ t') : Account H k c' t' s s' := by
  obtain ⟨a, b, d⟩ := h
  exact ⟨fun hh => by have := a hh; omega, by omega, by omega⟩

theorem Account.same {s s' : State} (h : s'.trace = s.trace) : Account H k c t s s' := by
  have h1 : Spec.sent s' = Spec.sent s := by unfold Spec.sent; rw [h]
  have h2 : Spec.told s' = Spec.told s := by unfold Spec.told; rw [h]
  exact ⟨fun _ => by rw [h1, h2]; omega, by rw [h2]; omega, by rw [h2]; omega⟩

/-- A computation that sends at most `c` messages and calls the user at most `t` times. -/
def Adds (H : Prop) (k c t : Nat) (m : M α) : Prop := ∀ s a s', m s = .ok (a, s') → Account H k c t s s'

/-- A computation that does neither. -/
def Still (m : M α) : Prop := ∀ s a s', m s = .ok (a, s') → s'.trace = s.trace

theorem Still.adds {m : M α} (h : Still m) : Adds H k c t m := fun s a s' hs => .same (h s a s' hs)

theorem Adds.mono {m : M α} (h : Adds H k c t m) (hc : c ≤ c') (ht : t ≤ t') : Adds H k c' t' m :=
  fun s a s' hs => (h s a s' hs).mono hc ht

theorem Adds.bind {m : M α} {f : α → M β} (h : Adds H k c t m) (hf : ∀ a, Adds H k c' t' (f a)) :
    Adds H k (c + c') (t + t') (m >>= f) := by
  intro s b s' hs
  obtain ⟨a, s1, h1, h2⟩ := bind_ok.1 hs
  exact (h s a s1 h1).trans (hf a s1 b s' h2)

theorem Adds.after {m : M α} {f : α → M β} (h : Still m) (hf : ∀ a, Adds H k c t (f a)) : Adds H k c t (m >>= f) :=
  (Adds.bind (c := 0) (t := 0) h.adds hf).mono (by omega) (by omega)

theorem Adds.before {m : M α} {f : α → M β} (h : Adds H k c t m) (hf : ∀ a, Still (f a)) : Adds H k c t (m >>= f) :=
  Adds.bind (c' := 0) (t' := 0) h fun a => (hf a).adds

theorem Adds.cond {p : Prop} [Decidable p] {m m' : M α} (h : Adds H k c t m) (h' : Adds H k c t m') : Adds H k c t (if p then m else m') := by
  split <;> assumption

theorem Still.bind {m : M α} {f : α → M β} (h : Still m) (hf : ∀ a, Still (f a)) : Still (m >>= f) := by
  intro s b s' hs
  obtain ⟨a, s1, h1, h2⟩ := bind_ok.1 hs
  rw [hf a s1 b s' h2, h s a s1 h1]

theorem still_pure (a : α) : Still (pure a : M α) := by rintro s b s' ⟨⟩; rfl
theorem still_pure' (a : α) : Still (M.pure a) := by rintro s b s' ⟨⟩; rfl
theorem still_get : Still M.get := by rintro s b s' ⟨⟩; rfl
theorem still_fault (e : Fault) : Still (M.fault e : M α) := by rintro s b s' ⟨⟩
theorem still_modify {f : State → State} (h : ∀ s, (f s).trace = s.trace) : Still (M.modify f) := by rintro s b s' ⟨⟩; exact h s
theorem still_lift (r : Res α) : Still (M.lift r) := by
  intro s b s' h
  cases r with
  | ok a => cases h; rfl
  | fault e => cases h
theorem still_deref (p : Ptr) : Still (deref p) := by
  intro s b s' h
  unfold deref at h
  split at h
  · cases h; rfl
  · cases h
theorem still_genMsg (m : TxMsg) : Still (genMsg env m) := by
  unfold genMsg
  refine (still_lift _).bind fun a => ?_
  cases a
  · exact still_fault _
  · exact still_pure _
theorem still_nasPut (b : Bytes) : Still (nasPut b) := by
  unfold nasPut
  split
  · exact still_pure _
  · exact still_fault _
theorem still_txBuf (d : Int) : Still (txBuf d) := still_modify fun _ => rfl
theorem still_nasAlloc : Still nasAlloc := still_modify fun _ => rfl
theorem still_nasFree : Still nasFree := still_modify fun _ => rfl
theorem still_updRnc (p : Ptr) (f : Rnc → Rnc) : Still (updRnc p f) := still_modify fun _ => rfl
theorem still_cacheAdd (n : ConnId) (a : SccpAddr) : Still (cacheAdd n a) := still_modify fun _ => rfl
theorem still_cacheDel (n : ConnId) : Still (cacheDel n) := still_modify fun _ => rfl
theorem still_ctxAlloc (r : Ptr) (n : ConnId) : Still (ctxAlloc r n) :=
  still_get.bind fun _ => Still.bind (m := M.modify _) (still_modify fun _ => rfl) fun _ => still_pure _
theorem still_rncAlloc (r : RncId) (a : SccpAddr) : Still (rncAlloc r a) :=
  still_get.bind fun _ => Still.bind (m := M.modify _) (still_modify fun _ => rfl) fun _ => still_pure _

theorem sapDown_ok {p : Prim} {s s' : State} {rc : Int} (h : sapDown env p s = .ok (rc, s')) :
    s'.trace = s.trace ++ [.sap p rc] := by
  unfold sapDown emit at h
  cases h
  rfl

/-- Messages in a primitive. -/
def load : Prim → Nat
  | .dataReq _ _ => 1
  | .unitdataReq _ _ => 1
  | _ => 0

theorem adds_sapDown (p : Prim) : Adds H k (load p) 0 (sapDown env p) := by
  intro s rc s' h
  have h := sapDown_ok h
  have h1 : Spec.sent s' = Spec.sent s + load p := by
    unfold Spec.sent
    rw [h, List.countP_append]
    cases p <;> rfl
  have h2 : Spec.told s' = Spec.told s := by
    unfold Spec.told
    rw [h, List.countP_append]
    cases p <;> rfl
  exact ⟨fun _ => by rw [h1, h2]; omega, by omega, by omega⟩

theorem adds_freeUe (ue : Option Ptr) : Adds H k 0 0 (freeUe env ue) := by
  unfold freeUe
  cases ue with
  | none => exact (still_pure _).adds
  | some p =>
    refine .after (still_deref _) fun u => .after (still_modify fun _ => rfl) fun _ => ?_
    exact .before (adds_sapDown (.disconnectReq u.conn)) fun _ => still_modify fun _ => rfl

theorem adds_iuTx (ue : Option Ptr) (nas : Bytes) (sapi : BitVec 8) : Adds H k 1 0 (iuTx env ue nas sapi) := by
  unfold iuTx
  refine .after (still_txBuf _) fun _ => ?_
  cases ue with
  | none => exact (still_pure _).adds
  | some p =>
    exact .after (still_deref _) fun u => .after (still_genMsg _) fun _ => .after (still_txBuf _) fun _ => adds_sapDown (.dataReq _ _)

theorem adds_iuTxRelease (p : Ptr) (cause : Option Cause) : Adds H k 1 0 (iuTxRelease env p cause) := by
  unfold iuTxRelease
  exact .after (still_genMsg _) fun _ => .after (still_deref _) fun u => adds_sapDown (.dataReq _ _)

theorem adds_txPagingCmd (a : SccpAddr) (imsi : Bytes) (tmsi : Option (BitVec 32)) (ps : Bool) (cause : Nat) :
    Adds H k 1 0 (txPagingCmd env a imsi tmsi ps cause) := by
  unfold txPagingCmd
  exact .after (still_genMsg _) fun _ => adds_sapDown (.unitdataReq _ _)

theorem adds_pageLoop (imsi : Bytes) (tmsi : Option (BitVec 32)) (ps : Bool) (hit : Rai → Bool) :
    ∀ (l : List Rnc) (n : Int), Adds H k (l.countP fun r => r.areas.any hit) 0 (pageLoop env imsi tmsi ps hit l n)
  | [], n => (still_pure _).adds
  | r :: l, n => by
    unfold pageLoop
    by_cases h : r.areas.any hit = true
    · rw [if_pos h, List.countP_cons_of_pos (p := fun r : Rnc => r.areas.any hit) h]
      exact (Adds.bind (adds_txPagingCmd _ _ _ _ _) fun _ => adds_pageLoop imsi tmsi ps hit l (n + 1)).mono (by omega) (by omega)
    · rw [if_neg h, List.countP_cons_of_neg (p := fun r : Rnc => r.areas.any hit) h]
      exact adds_pageLoop imsi tmsi ps hit l n

theorem adds_iuPage (imsi : Bytes) (tmsi : Option (BitVec 32)) (lac : BitVec 16) (rac : BitVec 8) (ps : Bool) :
    Adds H k 1 0 (iuPage env imsi tmsi lac rac ps) := by
  unfold iuPage
  refine .after still_get fun s => ?_
  split
  · exact .before (adds_txPagingCmd _ _ _ _ _) fun _ => still_pure _
  · exact (still_pure _).adds

theorem adds_runApi {a : Api} {s s' : State} {rc : Int} (h : runApi env a s = .ok (rc, s')) : Account H k (most s a) 0 s s' := by
  unfold runApi at h
  cases a with
  | freeUe ue => exact Adds.before (adds_freeUe ue) (fun _ => still_pure _) s rc s' h
  | tx ue nas sapi => exact adds_iuTx ue nas sapi s rc s' h
  | txRelease ue cause => exact adds_iuTxRelease ue cause s rc s' h
  | txReleaseFree ue cause tm =>
    refine Adds.before ?_ (fun _ => still_pure _) s rc s' h
    unfold iuTxReleaseFree
    refine .after (still_deref _) fun _ => .after (still_modify fun _ => rfl) fun _ => ?_
    exact .before (adds_iuTxRelease ue cause) fun _ => still_modify fun _ => rfl
  | txSecModeCmd ue ik ck sendCk newKey =>
    refine Adds.after (H := H) (k := k) (c := 1) (t := 0) (still_genMsg _) (fun _ => .after (still_deref _) fun u => ?_) s rc s' h
    exact adds_sapDown (.dataReq _ _)
  | txCommonId ue imsi =>
    refine Adds.after (H := H) (k := k) (c := 1) (t := 0) (still_deref _) (fun _ => .after (still_genMsg _) fun u => ?_) s rc s' h
    exact adds_sapDown (.dataReq _ _)
  | rabAct ue msg =>
    refine Adds.after (H := H) (k := k) (c := 1) (t := 0) (still_deref _) (fun _ => ?_) s rc s' h
    exact adds_sapDown (.dataReq _ _)
  | rabDeact ue r => exact (still_pure _).adds s rc s' h
  | pageCs imsi tmsi lac => exact adds_iuPage imsi tmsi lac 0 false s rc s' h
  | pagePs imsi tmsi lac rac => exact adds_iuPage imsi tmsi lac rac true s rc s' h
  | pageCs2 imsi tmsi lai => exact adds_pageLoop imsi tmsi false _ s.rncs 0 s rc s' h
  | pagePs2 imsi tmsi rai => exact adds_pageLoop imsi tmsi true _ s.rncs 0 s rc s' h

theorem told_runScript : ∀ (sc : Script) (s s' : State), runScript env sc s = .ok ((), s') → Spec.told s' = Spec.told s
  | .done, s, s', h => by cases h; rfl
  | .call a f, s, s', h => by
    unfold runScript at h
    obtain ⟨rc, s1, h1, h2⟩ := bind_ok.1 h
    have h3 := told_runScript (f rc) s1 s' h2
    have h4 := adds_runApi (H := False) (k := 0) h1
    have := h4.told
    have := h4.most
    omega

/-- The user is called: what they send is accounted to the call. -/
theorem adds_callback (h : H → Replies env k) {o : Out} (ho : isTold o = true) : Adds H k 0 1 (callback env o) := by
  intro s a s' hs
  unfold callback at hs
  obtain ⟨_, s1, h1, h2⟩ := bind_ok.1 hs
  obtain ⟨_, s2, h3, h4⟩ := bind_ok.1 h2
  cases h3
  cases h1
  have hk := fun hh => h hh _ _ _ h4
  have ht := told_runScript _ _ _ h4
  have h1 : Spec.told { s with trace := s.trace ++ [o] } = Spec.told s + 1 := by
    unfold Spec.told
    show List.countP _ (s.trace ++ [o]) = _
    rw [List.countP_append, List.countP_cons_of_pos ho]
    rfl
  have h2 : Spec.sent { s with trace := s.trace ++ [o] } = Spec.sent s := by
    unfold Spec.sent
    show List.countP _ (s.trace ++ [o]) = _
    rw [List.countP_append]
    cases o with
    | sap p rc => cases ho
    | _ => rfl
  rw [h1] at ht
  rw [h2] at hk
  refine ⟨fun hh => ?_, by omega, by omega⟩
  have hk := hk hh
  rw [ht, Nat.mul_add]
  omega

section
variable (h : H → Replies env k)
include h

theorem adds_iuEvent (ue : Option Ptr) (e : Event) : Adds H k 0 1 (iuEvent env ue e) := by
  unfold iuEvent
  refine .cond ?_ (still_pure _).adds
  cases ue with
  | none => exact adds_callback h rfl
  | some p => exact .after (still_deref _) fun u => .cond (adds_callback h rfl) (still_pure _).adds

theorem adds_iuEventNewArea (r : RncId) (a : Rai) : Adds H k 0 1 (iuEventNewArea env r a) :=
  .cond (adds_iuEvent h _ _) (adds_iuEvent h _ _)

theorem adds_rncRegister (id : RncId) (rai : Rai) (addr : SccpAddr) : Adds H k 0 1 (rncRegister env id rai addr) := by
  unfold rncRegister
  refine .after still_get fun s => ?_
  extract_lets next
  have tail : ∀ rnc, Adds H k 0 1 (next rnc) := by
    intro rnc
    refine .after still_get fun s => ?_
    dsimp only
    split
    · split
      · exact .after (still_updRnc _ _) fun _ => .after (still_updRnc _ _) fun _ => .before (adds_iuEventNewArea h _ _) fun _ => still_pure _
      · exact (still_pure _).adds
    · exact .after (still_modify fun _ => rfl) fun _ => .after (still_updRnc _ _) fun _ => .before (adds_iuEventNewArea h _ _) fun _ => still_pure _
  clear_value next
  split
  · dsimp only
    split
    · exact .after (still_updRnc _ _) fun _ => .after (still_pure _) fun _ => tail _
    · exact .after (still_pure _) fun _ => tail _
  · exact .after (still_rncAlloc _ _) fun _ => tail _

theorem adds_handleInitialUe (ctx : NewCtx) (ies : InitialUeIes) : Adds H k 0 2 (handleInitialUe env ctx ies) := by
  unfold handleInitialUe
  refine .after still_nasAlloc fun _ => .after (still_lift _) fun x => ?_
  obtain ⟨rc, ra⟩ := x
  dsimp only
  refine .cond (still_pure _).adds ?_
  split
  all_goals
    refine .after (by first | exact still_lift _ | exact still_pure _) fun rac => .cond (still_pure _).adds ?_
    split
    · exact (still_pure _).adds
    · refine .after (still_lift _) fun sai => .after (still_nasPut _) fun _ => ?_
      refine Adds.bind (c := 0) (t := 1) (c' := 0) (t' := 1) (adds_rncRegister h _ _ _) fun rnc => ?_
      refine .after (still_ctxAlloc _ _) fun ue => .after (still_modify fun _ => rfl) fun _ => ?_
      exact .before (adds_callback h rfl) fun _ => still_nasFree.bind fun _ => still_pure _

theorem adds_handleDt (ue : Ptr) (ies : DtIes) : Adds H k 0 1 (handleDt env ue ies) := by
  unfold handleDt
  refine .after still_nasAlloc fun _ => .after ?_ fun loc => ?_
  · split
    · exact still_pure _
    · refine (still_lift _).bind fun x => ?_
      obtain ⟨rc, ra⟩ := x
      dsimp only
      split
      · exact still_pure _
      · have tail : ∀ ra : GprsRaId, Still (match ies.saiSac with
          | some b => do let v ← M.lift (asn1strToU16 b); pure (some (some ra, some v))
          | none => pure (some (some ra, none)) : M (Option (Option GprsRaId × Option (BitVec 16)))) := by
          intro ra
          split
          · exact (still_lift _).bind fun _ => still_pure _
          · exact still_pure _
        split
        · exact (still_lift _).bind fun _ => (still_pure _).bind fun _ => tail _
        · exact (still_pure _).bind fun _ => tail _
  · split
    · exact (still_pure _).adds
    · refine .after (still_nasPut _) fun _ => .after (still_deref _) fun u => ?_
      exact .before (adds_callback h rfl) fun _ => still_nasFree.bind fun _ => still_pure _

theorem adds_handleRabAssResp (ue : Ptr) (items : Option (List (Option Bytes))) : Adds H k 0 1 (handleRabAssResp env ue items) := by
  unfold handleRabAssResp
  refine .after (still_deref _) fun _ => ?_
  split
  · exact (still_pure _).adds
  · exact (still_fault _).adds
  · exact (still_pure _).adds
  · exact .before (adds_iuEvent h _ _) fun _ => still_pure _

theorem adds_handleCoInitial (ctx : NewCtx) (m : Msg) : Adds H k 0 2 (handleCoInitial env ctx m) := by
  unfold handleCoInitial
  refine .cond (still_pure _).adds ?_
  split
  · exact .before (adds_handleInitialUe h _ _) fun _ => still_pure _
  · exact (still_fault _).adds

theorem adds_handleCo (ue : Ptr) (m : Msg) : Adds H k 1 1 (handleCo env ue m) := by
  unfold handleCo
  refine .cond (.cond (still_pure _).adds (.cond ?_ (.cond ?_ (.cond ?_ (still_pure _).adds))))
    (.cond (.cond ?_ (.cond ?_ (still_pure _).adds)) (.cond (.cond ?_ (still_pure _).adds) (still_pure _).adds))
  · split
    · exact (Adds.before (adds_handleDt h _ _) fun _ => still_pure _).mono (by omega) (by omega)
    · exact (still_fault _).adds
  · split
    · exact (still_pure _).adds
    · exact (still_fault _).adds
  · split
    · exact (Adds.before (adds_iuTxRelease _ _) fun _ => still_pure _).mono (by omega) (by omega)
    · exact (still_fault _).adds
  · exact (adds_iuEvent h _ _).mono (by omega) (by omega)
  · exact (adds_iuEvent h _ _).mono (by omega) (by omega)
  · split
    · exact (Adds.before (adds_handleRabAssResp h _ _) fun _ => still_pure _).mono (by omega) (by omega)
    · exact (still_fault _).adds

theorem adds_linkInvalidatedFree (p : Ptr) : Adds H k 0 1 (linkInvalidatedFree env p) := by
  unfold linkInvalidatedFree
  refine .after (still_deref _) fun u => ?_
  refine Adds.bind (c := 0) (t := 1) (c' := 0) (t' := 0) (adds_iuEvent h _ _) fun _ => .after still_get fun s => ?_
  split
  · exact (still_pure _).adds
  · exact .cond (adds_freeUe _) (still_pure _).adds

theorem adds_ueLoop (rnc : Ptr) : ∀ (n : Nat) (p : Ptr), Adds H k 0 n (ueLoop env rnc n p)
  | 0, _ => (still_fault _).adds
  | n + 1, p => by
    unfold ueLoop
    refine .after (still_deref _) fun u => .after still_get fun s => ?_
    have rest : Adds H k 0 n (match ueNext s p with
      | none => pure ()
      | some q => ueLoop env rnc n q) := by
      split
      · exact (still_pure _).adds
      · exact adds_ueLoop rnc n _
    dsimp only
    split
    · exact (Adds.bind (adds_linkInvalidatedFree h p) fun _ => rest).mono (by omega) (by omega)
    · exact rest.mono (by omega) (by omega)

end

theorem adds_rxCo {f : Msg → M Unit} (hf : ∀ m, Adds H k c t (f m)) (d : Bytes) : Adds H k c t (rxCo env f d) := by
  unfold rxCo
  split
  · exact (still_pure _).adds
  · exact .before (hf _) fun _ => still_pure _

theorem adds_handleCl (a : SccpAddr) (m : Msg) : Adds H k 1 0 (handleCl env a m) := by
  unfold handleCl
  refine .cond (.cond ?_ (.cond ?_ (still_pure _).adds)) (still_pure _).adds
  · split
    · refine .before ?_ fun _ => still_pure _
      unfold handleClReset
      refine .after (still_lift _) fun r => ?_
      split
      · exact (still_pure _).adds
      · exact adds_sapDown (.unitdataReq _ _)
    · exact (still_fault _).adds
  · split
    · exact (still_pure _).adds
    · exact (still_fault _).adds

/-- Without an Iu Release Request nothing is answered. -/
theorem adds_handleCo_quiet (h : H → Replies env k) (ue : Ptr) {m : Msg} (hm : m.dir = PR_initiatingMessage → m.proc ≠ id_Iu_ReleaseRequest) :
    Adds H k 0 1 (handleCo env ue m) := by
  unfold handleCo
  by_cases hd : m.dir = PR_initiatingMessage
  · rw [if_pos hd]
    refine .cond (still_pure _).adds (.cond ?_ (.cond ?_ ?_))
    · split
      · exact (Adds.before (adds_handleDt h _ _) fun _ => still_pure _).mono (by omega) (by omega)
      · exact (still_fault _).adds
    · split
      · exact (still_pure _).adds
      · exact (still_fault _).adds
    · rw [if_neg (hm hd)]
      exact (still_pure _).adds
  · rw [if_neg hd]
    refine .cond (.cond ?_ (.cond ?_ (still_pure _).adds)) (.cond (.cond ?_ (still_pure _).adds) (still_pure _).adds)
    · exact (adds_iuEvent h _ _).mono (by omega) (by omega)
    · exact (adds_iuEvent h _ _).mono (by omega) (by omega)
    · split
      · exact (Adds.before (adds_handleRabAssResp h _ _) fun _ => still_pure _).mono (by omega) (by omega)
      · exact (still_fault _).adds

theorem adds_rxCo_quiet (h : H → Replies env k) (ue : Ptr) {d : Bytes} (hd : ¬ ReleaseRequest env d) :
    Adds H k 0 1 (rxCo env (handleCo env ue) d) := by
  unfold rxCo
  split
  · exact (still_pure _).adds
  next m hm => exact .before (adds_handleCo_quiet h ue fun h1 h2 => hd ⟨m, hm, h1, h2⟩) fun _ => still_pure _

/-- Without a RESET nothing is answered. -/
theorem still_handleCl_quiet (a : SccpAddr) {m : Msg} (hm : m.dir = PR_initiatingMessage → m.proc ≠ id_Reset) : Still (handleCl env a m) := by
  unfold handleCl
  split
  next hd =>
    rw [if_neg (hm hd)]
    split
    · split
      · exact still_pure _
      · exact still_fault _
    · exact still_pure _
  next => exact still_pure _

/-- Nothing is sent but what is accounted to calls of the user. -/
def Owns (H : Prop) (k : Nat) (m : M α) : Prop := ∀ s a s', m s = .ok (a, s') → ∃ t, Account H k 0 t s s'

theorem Owns.bind {m : M α} {f : α → M β} (h : Owns H k m) (hf : ∀ a, Owns H k (f a)) : Owns H k (m >>= f) := by
  intro s b s' hs
  obtain ⟨a, s1, h1, h2⟩ := bind_ok.1 hs
  obtain ⟨t, ht⟩ := h s a s1 h1
  obtain ⟨t', ht'⟩ := hf a s1 b s' h2
  exact ⟨_, ht.trans ht'⟩

theorem Still.owns {m : M α} (h : Still m) : Owns H k m := fun s a s' hs => ⟨0, .same (h s a s' hs)⟩

theorem owns_rncLoop (h : H → Replies env k) (hit : SccpAddr → Bool) : ∀ l, Owns H k (rncLoop env hit l)
  | [] => (still_pure _).owns
  | r :: l => by
    unfold rncLoop
    have e : Owns H k (ueForEachSafe env r.ptr) := by
      unfold ueForEachSafe
      refine Owns.bind still_get.owns fun s => ?_
      split
      · exact (still_pure _).owns
      · exact fun s a s' hs => ⟨_, adds_ueLoop h _ _ _ s a s' hs⟩
    split
    · exact e.bind fun _ => owns_rncLoop h hit l
    · exact owns_rncLoop h hit l

end Verif.IuAmount
