import Verif.Proofs.IuFlow
import Verif.Spec.IuBufs

/-!
# Accounting for buffers of NAS messages
-/

namespace Verif.Iu
open Spec Lai

variable {env : Env}

/-! ## Received messages: labels -/

/-- Buffers a step allocates, less those it frees. -/
def Lbl.nas : Lbl → Int
  | .nasAlloc => 1
  | .nasFree => -1
  | _ => 0

def nasSum : List Lbl → Int
  | [] => 0
  | l :: ls => l.nas + nasSum ls

theorem nasSum_append (a b : List Lbl) : nasSum (a ++ b) = nasSum a + nasSum b := by
  induction a with
  | nil => simp [nasSum]
  | cons l a ih => simp only [List.cons_append, nasSum, ih]; omega

theorem regState_nasBufs (s : State) (id : RncId) (rai : Rai) (addr : SccpAddr) :
    (regState env s id rai addr).nasBufs = s.nasBufs := rfl

theorem Path.nas {ls : List Lbl} {s s' : State} (h : Path env ls s s') : s'.nasBufs = s.nasBufs + nasSum ls := by
  induction h with
  | nil => simp [nasSum]
  | @cons l ls a b c ha _ ih =>
    have : b.nasBufs = a.nasBufs + l.nas := by
      cases ha <;> simp [Lbl.nas, freeSt, releaseSt, markSt, allocSt, regState_nasBufs] <;> omega
    rw [ih, this, nasSum]; omega

theorem LinkLbls.nas {ls : List Lbl} (h : LinkLbls ls) : nasSum ls = 0 := by
  induction ls with
  | nil => rfl
  | cons l ls ih =>
    rw [nasSum, ih fun x hx => h x (List.mem_cons_of_mem _ hx)]
    rcases h l List.mem_cons_self with h | ⟨p, c, rfl⟩
    · cases l <;> simp_all [Lbl.isApi, Lbl.nas]
    · rfl

theorem ApiLbls.nas {ls : List Lbl} (h : ApiLbls ls) : nasSum ls = 0 := h.link.nas

theorem EvShape.nas {s s' : State} {p : Ptr} {e : Event} {ls : List Lbl} (h : EvShape env s p e ls s') :
    nasSum ls = 0 := by
  rcases h with ⟨_, rfl, _⟩ | ⟨u, _, ⟨_, _, as, rfl, has⟩ | ⟨_, _, rfl, _⟩⟩
  · rfl
  · rw [nasSum, has.nas]; rfl
  · rfl

theorem CoShape.nas {s s' : State} {p : Ptr} {m : Msg} {ls : List Lbl} (h : CoShape env s p m ls s') :
    (∃ ies, m.dir = PR_initiatingMessage ∧ m.proc = id_DirectTransfer ∧ m.body = .directTransfer ies ∧
      nasSum ls = if readDt ies = none then 1 else 0) ∨
    ((¬ ∃ ies, m.dir = PR_initiatingMessage ∧ m.proc = id_DirectTransfer ∧ m.body = .directTransfer ies) ∧
      nasSum ls = 0) := by
  rcases h with ⟨h1, h2, ies, hb, h⟩ | ⟨_, hp, c, u, rc, _, _, rfl, _⟩ | ⟨hp, _, h⟩ | ⟨hp, _, h⟩ |
    ⟨hp, _, it, l, _, h⟩ | ⟨rfl, _, hno, _⟩
  · refine .inl ⟨ies, h1, h2, hb, ?_⟩
    rcases h with ⟨hc, rfl⟩ | ⟨ra, sai, u, as, hc, _, hu, rfl, has⟩
    · rw [dtCheck_ok hc, if_pos rfl]; rfl
    · rw [dtCheck_ok hc, if_neg (by simp), nasSum_append, nasSum, nasSum, has.nas]; rfl
  · refine .inr ⟨?_, rfl⟩
    rintro ⟨ies, _, h, _⟩
    rw [h] at hp; revert hp; decide
  · refine .inr ⟨?_, h.nas⟩
    rintro ⟨ies, h, _⟩
    rw [h] at hp; revert hp; decide
  · refine .inr ⟨?_, h.nas⟩
    rintro ⟨ies, h, _⟩
    rw [h] at hp; revert hp; decide
  · refine .inr ⟨?_, h.nas⟩
    rintro ⟨ies, h, _⟩
    rw [h] at hp; revert hp; decide
  · refine .inr ⟨?_, rfl⟩
    rintro ⟨ies, h1, h2, _⟩
    exact hno ⟨h1, h2⟩

theorem refused_none {s : State} {op : Op} (h : initialUe env s op = none) (h' : directTransfer env s op = none) :
    refused env s op = false := by
  unfold refused; rw [h, h']; rfl

theorem refused_none_of {s : State} {op : Op} (h : firstPayload s op = none) (h' : coMsg env s op = none) :
    refused env s op = false :=
  refused_none (initialUe_none_of h) (by unfold directTransfer; rw [h'])

theorem RxInitShape.nas {s0 s s' : State} {op : Op} {c : ConnId} {a : SccpAddr} {d : Bytes} {rc : Int}
    {ls : List Lbl} (hf : firstPayload s0 op = some (c, a, d)) (h : RxInitShape env s ⟨a, c⟩ d rc ls s') :
    nasSum ls = if refused env s0 op then 1 else 0 := by
  have hdt := uplink_of_first (env := env) hf
  rcases h with ⟨hd, _, rfl, _⟩ | ⟨m, hm, _, h⟩
  · have : initialUe env s0 op = none := by unfold initialUe; rw [hf]; simp only [hd]
    rw [refused_none this hdt]; rfl
  · rcases h with ⟨hn, rfl, _⟩ | ⟨hdir, hproc, ies, hb, h⟩
    · have : initialUe env s0 op = none := by
        cases hi : initialUe env s0 op with
        | none => rfl
        | some x =>
          obtain ⟨c', a', ies⟩ := x
          obtain ⟨d', m', hf', hm', e1, e2, _⟩ := initialUe_some hi
          rw [hf] at hf'
          cases hf'
          rw [hm] at hm'
          cases hm'
          exact absurd ⟨e1, e2⟩ hn
      rw [refused_none this hdt]; rfl
    · have hi := initialUe_of hf hm hdir hproc hb
      rcases h with ⟨hc, rfl⟩ | ⟨id, ra, sai, es, p, as, hc, rfl, has, hp, hes⟩
      · have : refused env s0 op = true := by
          unfold refused uplink
          rw [hi]
          simp [initialCheck_ok hc]
        rw [this]; rfl
      · have : refused env s0 op = false := by
          unfold refused uplink
          rw [hi]
          simp [initialCheck_ok hc]
        have hes' : nasSum es = 0 := by
          rcases hes with ⟨_, rfl⟩ | ⟨_, as', rfl, has'⟩
          · rfl
          · rw [nasSum, has'.nas]; rfl
        rw [this, nasSum_append, nasSum_append, nasSum, nasSum, nasSum, nasSum, hes', has.nas]; rfl

theorem RxCoShape.nas {s0 s s' : State} {op : Op} {c : ConnId} {d : Bytes} {rc : Int} {p : Ptr}
    {ls : List Lbl} (hf : initialUe env s0 op = none) (hco : coMsg env s0 op = (env.decodeCo d).map fun m => (c, m))
    (h : RxCoShape env s p d rc ls s') : nasSum ls = if refused env s0 op then 1 else 0 := by
  rcases h with ⟨hd, _, rfl, _⟩ | ⟨m, hm, _, h⟩
  · rw [refused_none hf (by unfold directTransfer; rw [hco, hd]; rfl)]; rfl
  · rw [hm, Option.map_some] at hco
    rcases h.nas with ⟨ies, h1, h2, h3, h⟩ | ⟨hn, h⟩
    · have hdt : directTransfer env s0 op = some (c, ies) := by
        unfold directTransfer
        rw [hco]
        obtain ⟨dir, proc, body⟩ := m
        simp only at h1 h2 h3
        subst h1 h2 h3
        simp
      rw [h]
      unfold refused uplink
      rw [hf, hdt]
      cases hr : readDt ies <;> simp [hr]
    · have : directTransfer env s0 op = none := by
        unfold directTransfer
        rw [hco]
        obtain ⟨dir, proc, body⟩ := m
        cases body with
        | directTransfer ies =>
          simp only
          rw [if_neg]
          rintro ⟨h1, h2⟩
          exact hn ⟨ies, h1, h2, rfl⟩
        | _ => rfl
      rw [refused_none hf this, h]; rfl

/-- Buffers left behind by an operation. -/
theorem step_nas {op : Op} {s s' : State} {rc : Int} (h : step env op s = .ok (rc, s')) :
    s'.nasBufs = s.nasBufs + if refused env s op then 1 else 0 := by
  have key : ∀ (P : List Lbl → Prop), (∃ ls, Path env ls s s' ∧ P ls) → ∃ ls, s'.nasBufs = s.nasBufs + nasSum ls ∧ P ls := by
    rintro P ⟨ls, hp, h⟩
    exact ⟨ls, hp.nas, h⟩
  cases op with
  | connectInd c a dd =>
    obtain ⟨ls, e, ls', rfl, h'⟩ := key _ (wp_ok (pl_connectInd c a dd s) h)
    rw [e, nasSum, show Lbl.nas (.sap _ _) = 0 from rfl, Int.zero_add]
    rcases h' with ⟨hd, _, rfl⟩ | ⟨hd, h'⟩
    · rw [refused_none_of (by rw [firstPayload_connect, if_pos hd]) rfl]; rfl
    · rw [h'.nas (show firstPayload s (.connectInd c a dd) = some (c, a, dd) by rw [firstPayload_connect, if_neg hd])]
  | connectConf => cases h; rw [refused_none_of rfl rfl]; simp
  | otherInd => cases h; rw [refused_none_of rfl rfl]; simp
  | dataInd c dd =>
    obtain ⟨ls, e, h'⟩ := key _ (wp_ok (pl_dataInd c dd s) h)
    rw [e]
    rcases h' with ⟨u, hu, h'⟩ | ⟨hn, hc, _, rfl, _⟩ | ⟨addr, ls', hn, hc, rfl, h'⟩
    · have hx : HasCtx s c := ⟨u, ctxFind_some hu⟩
      have hf : firstPayload s (.dataInd c dd) = none := by rw [firstPayload_data, if_pos hx]
      rw [h'.nas (op := .dataInd c dd) (initialUe_none_of hf) (by rw [coMsg_data, if_pos hx])]
    · rw [refused_none_of]
      · rfl
      · rw [firstPayload_data, if_neg (ctxFind_none.1 hn)]
        unfold cacheFind at hc
        rw [Option.map_eq_none_iff] at hc ⊢
        exact hc
      · rw [coMsg_data, if_neg (ctxFind_none.1 hn)]
    · unfold cacheFind at hc
      rw [Option.map_eq_some_iff] at hc
      obtain ⟨x, he, rfl⟩ := hc
      have hf : firstPayload s (.dataInd c dd) = some (c, x.2, dd) := by
        rw [firstPayload_data, if_neg (ctxFind_none.1 hn), he]; rfl
      rw [nasSum, show Lbl.nas (.cacheDel _) = 0 from rfl, Int.zero_add, h'.nas hf]
  | disconnectInd c dd =>
    obtain ⟨ls, e, ls1, rfl, h'⟩ := key _ (wp_ok (pl_disconnectInd c dd s) h)
    rw [e, nasSum, show Lbl.nas (.cacheDel _) = 0 from rfl, Int.zero_add]
    rcases h' with ⟨hn, _, rfl, _⟩ | ⟨u, ms, s1, fs, hu, rfl, _, hm, hf⟩
    · rw [refused_none_of rfl (by rw [coMsg_disc, if_neg fun h => ctxFind_none.1 hn h.1])]; rfl
    · have hx : HasCtx s c := ⟨u, ctxFind_some hu⟩
      have hfs : nasSum fs = 0 := by
        rcases hf with ⟨_, rfl, _⟩ | ⟨v, _, hf⟩
        · rfl
        · exact hf.lbls.nas
      rw [nasSum_append, hfs, Int.add_zero]
      rcases hm with ⟨hd, _, rfl, _⟩ | ⟨hd, hm⟩
      · rw [refused_none_of rfl (by rw [coMsg_disc, if_neg fun h => h.2 hd])]; rfl
      · rw [hm.nas (s0 := s) (op := .disconnectInd c dd) rfl (by rw [coMsg_disc, if_pos ⟨hx, hd⟩])]
  | unitdataInd a dd =>
    obtain ⟨ls, e, h'⟩ := key _ (wp_ok (pl_unitdataInd a dd s) h)
    rw [e, refused_none_of rfl rfl]
    rcases h' with ⟨_, _, rfl⟩ | ⟨m, _, _, h'⟩
    · rfl
    · rcases h' with ⟨_, _, d, rnc, _, ⟨_, rfl⟩ | ⟨b, rc, _, rfl⟩⟩ | ⟨_, rfl⟩ <;> rfl
  | noticeInd a c =>
    obtain ⟨ls, e, _, h'⟩ := key _ (wp_ok (pl_notice a c s) h)
    rw [e, refused_none_of rfl rfl, h'.nas]; rfl
  | pcstateInd a b c =>
    obtain ⟨ls, e, _, h'⟩ := key _ (wp_ok (pl_pcstate a b c s) h)
    rw [e, refused_none_of rfl rfl, h'.nas]; rfl
  | timer p =>
    obtain ⟨ls, e, _, h'⟩ := key _ (wp_ok (pl_timer p s) h)
    rw [e, refused_none_of rfl rfl]
    rcases h' with ⟨_, rfl, _⟩ | ⟨_, ls', rfl, h'⟩
    · rfl
    · rw [nasSum, h'.nas]; rfl
  | api a =>
    obtain ⟨ls, e, h'⟩ := key _ (wp_ok (pl_runApi a s) h)
    rw [e, refused_none_of rfl rfl, h'.nas]; rfl

/-! ## Messages to be sent -/

theorem pres_sapDown {P : Int → Prop} (p : Prim) : Pres (fun s => P s.txBufs) (sapDown env p) := by
  intro s h; rw [wp_sapDown]; exact h

/-- Everything but `ranap_iu_tx` leaves the count alone. -/
theorem pres_runApi {P : Int → Prop} (a : Api) (ha : ∀ ue nas sapi, a ≠ .tx ue nas sapi) :
    Pres (fun s => P s.txBufs) (runApi env a) := by
  have hp : ∀ x imsi t ps c, Pres (fun s => P s.txBufs) (txPagingCmd env x imsi t ps c) := fun x imsi t ps c =>
    Pres.bind (Pres.genMsg _) fun _ => pres_sapDown _
  have hpage : ∀ imsi t lac rac ps, Pres (fun s => P s.txBufs) (iuPage env imsi t lac rac ps) := by
    intro imsi t lac rac ps
    refine Pres.bind Pres.get fun s => ?_
    cases lacRacFindLegacy s lac rac with
    | none => exact Pres.pure _
    | some r => exact Pres.bind (hp _ _ _ _ _) fun _ => Pres.pure _
  have hloop : ∀ imsi t ps hit l n, Pres (fun s => P s.txBufs) (pageLoop env imsi t ps hit l n) := by
    intro imsi t ps hit l
    induction l with
    | nil => exact fun n => Pres.pure _
    | cons r l ih => exact fun n => Pres.ite (Pres.bind (hp _ _ _ _ _) fun _ => ih _) (ih _)
  have hrel : ∀ p c, Pres (fun s => P s.txBufs) (iuTxRelease env p c) := fun p c =>
    Pres.bind (Pres.genMsg _) fun _ => Pres.bind (Pres.deref _) fun _ => pres_sapDown _
  cases a with
  | freeUe ue =>
    refine Pres.bind ?_ fun _ => Pres.pure _
    cases ue with
    | none => exact Pres.pure _
    | some p =>
      exact Pres.bind (Pres.deref _) fun _ => Pres.bind (Pres.modify fun _ h => h) fun _ =>
        Pres.bind (pres_sapDown _) fun _ => Pres.modify fun _ h => h
  | tx ue nas sapi => exact absurd rfl (ha ue nas sapi)
  | txRelease p c => exact hrel p c
  | txReleaseFree p c t =>
    refine Pres.bind ?_ fun _ => Pres.pure _
    exact Pres.bind (Pres.deref _) fun _ => Pres.bind (Pres.modify fun _ h => h) fun _ =>
      Pres.bind (hrel _ _) fun _ => Pres.modify fun _ h => h
  | txSecModeCmd p ik ck x y => exact Pres.bind (Pres.genMsg _) fun _ => Pres.bind (Pres.deref _) fun _ => pres_sapDown _
  | txCommonId p imsi => exact Pres.bind (Pres.deref _) fun _ => Pres.bind (Pres.genMsg _) fun _ => pres_sapDown _
  | rabAct p msg => exact Pres.bind (Pres.deref _) fun _ => pres_sapDown _
  | rabDeact p r => exact Pres.pure _
  | pageCs imsi t lac => exact hpage _ _ _ _ _
  | pagePs imsi t lac rac => exact hpage _ _ _ _ _
  | pageCs2 imsi t lai => exact Pres.bind Pres.get fun _ => hloop _ _ _ _ _ _
  | pagePs2 imsi t rai => exact Pres.bind Pres.get fun _ => hloop _ _ _ _ _ _

/-- `ranap_iu_tx` frees the buffer unless it has no destination. -/
theorem tx_iuTx (ue : Option Ptr) (nas : Bytes) (sapi : BitVec 8) (s : State) :
    wp anyF (iuTx env ue nas sapi) (fun _ s' => s'.txBufs = s.txBufs + if ue = none then 1 else 0) s := by
  unfold iuTx txBuf txData
  cases ue with
  | none => simp
  | some p =>
    simp only [wp_bind, wp_modify]
    refine wp_mono (eff_deref p _) ?_
    rintro u s' ⟨rfl, _⟩
    refine wp_mono (eff_genMsg _ _) ?_
    rintro _ s'' rfl
    simp only [wp_sapDown]
    simp; omega

/-- Every API call. -/
theorem tx_runApi (a : Api) (s : State) :
    wp anyF (runApi env a) (fun _ s' => s'.txBufs = s.txBufs + if unsetDst a then 1 else 0) s := by
  by_cases h : ∃ ue nas sapi, a = .tx ue nas sapi
  · obtain ⟨ue, nas, sapi, rfl⟩ := h
    refine wp_mono (tx_iuTx ue nas sapi s) ?_
    intro _ s' h
    rw [h]
    cases ue <;> rfl
  · have hu : unsetDst a = false := by
      cases a <;> first | rfl | exact absurd ⟨_, _, _, rfl⟩ h
    rw [hu]
    refine wp_mono (pres_runApi (P := fun b => b = s.txBufs) a (fun ue nas sapi e => h ⟨ue, nas, sapi, e⟩) s rfl) ?_
    intro _ s' h
    simpa using h

/-- A property of the count that allowed API calls keep is kept by all operations. -/
theorem pres_step {P : Int → Prop} {A : Api → Prop} {S : Script → Prop}
    (hA : ∀ a, A a → Pres (fun s => P s.txBufs) (runApi env a))
    (hS : ∀ a k, S (.call a k) → A a ∧ ∀ rc, S (k rc)) (hcb : ∀ s o, S (env.cb s o))
    (op : Op) (hop : ∀ a, op = .api a → A a) : Pres (fun s => P s.txBufs) (step env op) := by
  have hsc : ∀ sc, S sc → Pres (fun s => P s.txBufs) (runScript env sc) := by
    intro sc
    induction sc with
    | done => exact fun _ => Pres.pure _
    | call a k ih => exact fun h => Pres.bind (hA a (hS a k h).1) fun rc => ih rc ((hS a k h).2 rc)
  have hc : ∀ o, Pres (fun s => P s.txBufs) (callback env o) := fun o =>
    Pres.bind (Pres.modify fun _ h => h) fun _ => Pres.bind Pres.get fun _ => hsc _ (hcb _ _)
  have hev : ∀ ue e, Pres (fun s => P s.txBufs) (iuEvent env ue e) := by
    intro ue e
    refine Pres.ite ?_ (Pres.pure _)
    cases ue with
    | none => exact hc _
    | some p => exact Pres.bind (Pres.deref _) fun _ => Pres.ite (hc _) (Pres.pure _)
  have hna : ∀ id rai, Pres (fun s => P s.txBufs) (iuEventNewArea env id rai) := fun id rai =>
    Pres.ite (hev _ _) (hev _ _)
  have hreg : ∀ id rai addr, Pres (fun s => P s.txBufs) (rncRegister env id rai addr) := by
    intro id rai addr
    unfold rncRegister
    refine Pres.bind Pres.get fun s => ?_
    have tail : ∀ rnc : Ptr, Pres (fun s => P s.txBufs) (do
        let s ← M.get
        match lacRacFind s rai with
        | some (old, e) =>
          if old.ptr ≠ rnc then do
            updRnc old.ptr fun r => { r with areas := r.areas.eraseP fun x => raiEq x rai }
            updRnc rnc fun r => { r with areas := e :: r.areas }
            iuEventNewArea env id rai
            pure rnc
          else pure rnc
        | none => do
            M.modify fun s => { s with blocks := s.blocks + 1 }
            updRnc rnc fun r => { r with areas := rai :: r.areas }
            iuEventNewArea env id rai
            pure rnc) := by
      intro rnc
      refine Pres.bind Pres.get fun s => ?_
      split
      · exact Pres.ite (Pres.bind (Pres.modify fun _ h => h) fun _ => Pres.bind (Pres.modify fun _ h => h) fun _ =>
          Pres.bind (hna _ _) fun _ => Pres.pure _) (Pres.pure _)
      · exact Pres.bind (Pres.modify fun _ h => h) fun _ => Pres.bind (Pres.modify fun _ h => h) fun _ =>
          Pres.bind (hna _ _) fun _ => Pres.pure _
    simp only
    split
    · exact Pres.ite (Pres.bind (Pres.modify fun _ h => h) fun _ => tail _) (tail _)
    · exact Pres.bind (Pres.bind Pres.get fun _ => Pres.bind (Pres.modify fun _ h => h) fun _ => Pres.pure _) fun _ => tail _
  have hput : ∀ b, Pres (fun s => P s.txBufs) (nasPut b) := fun b => Pres.ite (Pres.pure _) (Pres.fault _)
  have halloc : Pres (fun s => P s.txBufs) nasAlloc := Pres.modify fun _ h => h
  have hfree : Pres (fun s => P s.txBufs) nasFree := Pres.modify fun _ h => h
  have hini : ∀ ctx ies, Pres (fun s => P s.txBufs) (handleInitialUe env ctx ies) := by
    intro ctx ies
    have tail : ∀ ra : GprsRaId, Pres (fun s => P s.txBufs) (match grncIdParse ies.grnc.plmn ies.grnc.rncId with
      | none => pure (-1)
      | some rncId => do
        let sai ← M.lift (asn1strToU16 ies.saiSac)
        nasPut ies.nas
        let rnc ← rncRegister env rncId (gprsRaiToOsmo ra) ctx.addr
        let ue ← ctxAlloc rnc ctx.conn
        M.modify fun s => { s with ues := s.ues.map fun u =>
          if u.ptr = ue then { u with raId := ra } else u }
        callback env (.recv ue ctx.conn ies.nas (some ra) (some sai))
        nasFree
        pure 0 : M Int) := by
      intro ra
      split
      · exact Pres.pure _
      · exact Pres.bind (Pres.lift _) fun _ => Pres.bind (hput _) fun _ => Pres.bind (hreg _ _ _) fun _ =>
          Pres.bind (Pres.bind Pres.get fun _ => Pres.bind (Pres.modify fun _ h => h) fun _ => Pres.pure _) fun _ =>
          Pres.bind (Pres.modify fun _ h => h) fun _ => Pres.bind (hc _) fun _ => Pres.bind hfree fun _ => Pres.pure _
    unfold handleInitialUe
    refine Pres.bind halloc fun _ => Pres.bind (Pres.lift _) fun x => Pres.ite (Pres.pure _) ?_
    cases ies.rac with
    | none => exact Pres.bind (Pres.pure _) fun _ => Pres.ite (Pres.pure _) (tail _)
    | some b => exact Pres.bind (Pres.lift _) fun _ => Pres.ite (Pres.pure _) (tail _)
  have hdt : ∀ ue ies, Pres (fun s => P s.txBufs) (handleDt env ue ies) := by
    intro ue ies
    unfold handleDt
    refine Pres.bind halloc fun _ => Pres.bind ?_ fun loc => ?_
    · cases ies.lai with
      | none => exact Pres.pure _
      | some x =>
        obtain ⟨plmn, lac⟩ := x
        refine Pres.bind (Pres.lift _) fun x => Pres.ite (Pres.pure _) ?_
        cases ies.rac with
        | none =>
          refine Pres.bind (Pres.pure _) fun ra => ?_
          cases ies.saiSac with
          | none => exact Pres.pure _
          | some b => exact Pres.bind (Pres.lift _) fun _ => Pres.pure _
        | some b =>
          refine Pres.bind (Pres.lift _) fun _ => Pres.bind (Pres.pure _) fun ra => ?_
          cases ies.saiSac with
          | none => exact Pres.pure _
          | some b => exact Pres.bind (Pres.lift _) fun _ => Pres.pure _
    · split
      · exact Pres.pure _
      · exact Pres.bind (hput _) fun _ => Pres.bind (Pres.deref _) fun _ => Pres.bind (hc _) fun _ =>
          Pres.bind hfree fun _ => Pres.pure _
  have hrel : ∀ p c, Pres (fun s => P s.txBufs) (iuTxRelease env p c) := fun p c =>
    Pres.bind (Pres.genMsg _) fun _ => Pres.bind (Pres.deref _) fun _ => pres_sapDown _
  have hfu : ∀ p, Pres (fun s => P s.txBufs) (freeUe env (some p)) := fun p =>
    Pres.bind (Pres.deref _) fun _ => Pres.bind (Pres.modify fun _ h => h) fun _ =>
      Pres.bind (pres_sapDown _) fun _ => Pres.modify fun _ h => h
  have hci : ∀ ctx m, Pres (fun s => P s.txBufs) (handleCoInitial env ctx m) := by
    intro ctx m
    refine Pres.ite (Pres.pure _) ?_
    split
    · exact Pres.bind (hini _ _) fun _ => Pres.pure _
    · exact Pres.fault _
  have hco : ∀ ue m, Pres (fun s => P s.txBufs) (handleCo env ue m) := by
    intro ue m
    unfold handleCo
    refine Pres.ite (Pres.ite (Pres.pure _) (Pres.ite ?_ (Pres.ite ?_ (Pres.ite ?_ (Pres.pure _)))))
      (Pres.ite (Pres.ite (hev _ _) (Pres.ite (hev _ _) (Pres.pure _)))
        (Pres.ite (Pres.ite ?_ (Pres.pure _)) (Pres.pure _)))
    · split
      · exact Pres.bind (hdt _ _) fun _ => Pres.pure _
      · exact Pres.fault _
    · split
      · exact Pres.pure _
      · exact Pres.fault _
    · split
      · exact Pres.bind (hrel _ _) fun _ => Pres.pure _
      · exact Pres.fault _
    · split
      · refine Pres.bind ?_ fun _ => Pres.pure _
        refine Pres.bind (Pres.deref _) fun _ => ?_
        split
        · exact Pres.pure _
        · exact Pres.fault _
        · exact Pres.pure _
        · exact Pres.bind (hev _ _) fun _ => Pres.pure _
      · exact Pres.fault _
  have hrx : ∀ (h : Msg → M Unit) d, (∀ m, Pres (fun s => P s.txBufs) (h m)) → Pres (fun s => P s.txBufs) (rxCo env h d) := by
    intro h d hm
    unfold rxCo
    split
    · exact Pres.pure _
    · exact Pres.bind (hm _) fun _ => Pres.pure _
  have hlf : ∀ p, Pres (fun s => P s.txBufs) (linkInvalidatedFree env p) := by
    intro p
    refine Pres.bind (Pres.deref _) fun _ => Pres.bind (hev _ _) fun _ => Pres.bind Pres.get fun _ => ?_
    split
    · exact Pres.pure _
    · exact Pres.ite (hfu _) (Pres.pure _)
  have hul : ∀ rnc n p, Pres (fun s => P s.txBufs) (ueLoop env rnc n p) := by
    intro rnc n
    induction n with
    | zero => exact fun _ => Pres.fault _
    | succ n ih =>
      intro p
      unfold ueLoop
      refine Pres.bind (Pres.deref _) fun u => Pres.bind Pres.get fun s => ?_
      have hn : Pres (fun s => P s.txBufs) (match ueNext s p with
        | none => (pure () : M Unit)
        | some q => ueLoop env rnc n q) := by
        split
        · exact Pres.pure _
        · exact ih _
      simp only
      split
      · exact Pres.bind (hlf _) fun _ => hn
      · exact hn
  have hrl : ∀ hit l, Pres (fun s => P s.txBufs) (rncLoop env hit l) := by
    intro hit l
    induction l with
    | nil => exact Pres.pure _
    | cons r l ih =>
      unfold rncLoop
      split
      · refine Pres.bind ?_ fun _ => ih
        refine Pres.bind Pres.get fun s => ?_
        split
        · exact Pres.pure _
        · exact hul _ _ _
      · exact ih
  unfold step
  cases op with
  | connectConf => exact Pres.pure _
  | connectInd c a d =>
    exact Pres.bind (pres_sapDown _) fun _ =>
      Pres.ite (Pres.bind (Pres.modify fun _ h => h) fun _ => Pres.pure _) (hrx _ _ fun _ => hci _ _)
  | disconnectInd c d =>
    refine Pres.bind (Pres.modify fun _ h => h) fun _ => Pres.bind Pres.get fun s => ?_
    split
    · exact Pres.pure _
    · have tail : ∀ rc : Int, Pres (fun s => P s.txBufs) (do
          let s ← M.get
          match ctxFind s c with
          | none => pure rc
          | some u => do
            linkInvalidatedFree env u.ptr
            pure rc) := by
        intro rc
        refine Pres.bind Pres.get fun _ => ?_
        split
        · exact Pres.pure _
        · exact Pres.bind (hlf _) fun _ => Pres.pure _
      exact Pres.ite (Pres.bind (hrx _ _ fun _ => hco _ _) fun _ => tail _) (Pres.bind (Pres.pure _) fun _ => tail _)
  | dataInd c d =>
    refine Pres.bind Pres.get fun s => ?_
    split
    · split
      · exact Pres.pure _
      · exact Pres.bind (Pres.modify fun _ h => h) fun _ => hrx _ _ fun _ => hci _ _
    · exact hrx _ _ fun _ => hco _ _
  | unitdataInd a d =>
    simp only
    split
    · exact Pres.pure _
    · refine Pres.bind ?_ fun _ => Pres.pure _
      unfold handleCl
      refine Pres.ite (Pres.ite ?_ (Pres.ite ?_ (Pres.pure _))) (Pres.pure _)
      · split
        · refine Pres.bind ?_ fun _ => Pres.pure _
          refine Pres.bind (Pres.lift _) fun r => ?_
          cases r with
          | none => exact Pres.pure _
          | some _ => exact pres_sapDown _
        · exact Pres.fault _
      · split
        · exact Pres.pure _
        · exact Pres.fault _
  | noticeInd a c => exact Pres.bind (Pres.ite (Pres.pure _) (Pres.bind Pres.get fun _ => hrl _ _)) fun _ => Pres.pure _
  | pcstateInd a b c => exact Pres.bind (Pres.ite (Pres.bind Pres.get fun _ => hrl _ _) (Pres.pure _)) fun _ => Pres.pure _
  | otherInd => exact Pres.pure _
  | timer p =>
    exact Pres.bind Pres.get fun _ => Pres.ite (Pres.bind (Pres.modify fun _ h => h) fun _ =>
      Pres.bind (hev _ _) fun _ => Pres.pure _) (Pres.pure _)
  | api a => exact hA a (hop a rfl)

end Verif.Iu
