import Verif.Proofs.IuHist
import Verif.Spec.IuDisc

/-!
# Absence of faults for disciplined users
-/

namespace Verif.Iu
open Spec Lai

variable {env : Env}

theorem live_find {s : State} {p : Ptr} (h : Live s p) : ∃ u, s.ues.find? (·.ptr = p) = some u := by
  obtain ⟨u, hu, hp⟩ := h
  cases hf : s.ues.find? (·.ptr = p) with
  | some v => exact ⟨v, rfl⟩
  | none => exact absurd hp (by simpa using List.find?_eq_none.1 hf u hu)

theorem find_live {s : State} {p : Ptr} {u : Ue} (h : s.ues.find? (·.ptr = p) = some u) : u ∈ s.ues ∧ u.ptr = p :=
  ⟨List.mem_of_find?_eq_some h, find_ptr h⟩

theorem LiveConn.live {s : State} {p : Ptr} {c : ConnId} (h : LiveConn s p c) : Live s p := by
  obtain ⟨u, hu, hp, _⟩ := h; exact ⟨u, hu, hp⟩

theorem sf_deref {F : Fault → Prop} {s : State} {p : Ptr} (h : Live s p) {Q : Ue → State → Prop}
    (hq : ∀ u, s.ues.find? (·.ptr = p) = some u → Q u s) : wp F (deref p) Q s := by
  obtain ⟨u, hu⟩ := live_find h
  rw [wp_deref, hu]
  exact hq u hu

theorem sf_gen {F : Fault → Prop} {s : State} {m : TxMsg} (h : Generable env m) {Q : Unit → State → Prop}
    (hq : Q () s) : wp F (genMsg env m) Q s := by
  obtain ⟨b, hb⟩ := h
  unfold genMsg
  simp only [wp_bind, wp_lift, hb, wp_pure]
  exact hq

theorem sf_freeUe {F : Fault → Prop} {s : State} {p : Ptr} (h : Live s p) :
    wp F (freeUe env (some p)) (fun _ s' => ∃ u, s.ues.find? (·.ptr = p) = some u ∧ s' = freeSt env s u) s := by
  unfold freeUe
  simp only [wp_bind]
  refine sf_deref h fun u hu => ?_
  simp only [wp_modify, wp_sapDown]
  have := find_ptr hu
  subst this
  exact ⟨u, hu, rfl⟩

theorem sf_iuTxRelease {F : Fault → Prop} {s : State} {p : Ptr} {c : Option Cause} (h : Live s p)
    (hg : Generable env (.iuRelCmd (c.getD (.nAS CauseNAS_normal_release)))) :
    wp F (iuTxRelease env p c) (fun _ _ => True) s := by
  unfold iuTxRelease txData
  simp only [wp_bind]
  refine sf_gen hg ?_
  refine sf_deref h fun u hu => ?_
  simp

theorem releaseCause_eq (c : Option Cause) : releaseCause c = c.getD (.nAS CauseNAS_normal_release) := by
  cases c <;> rfl

theorem sf_pageLoop {F : Fault → Prop} {imsi : Bytes} {t : Option (BitVec 32)} {ps : Bool} {hit : Rai → Bool}
    (hg : Generable env (.paging imsi t ps 0)) (l : List Rnc) (n : Int) (s : State) :
    wp F (pageLoop env imsi t ps hit l n) (fun _ _ => True) s := by
  obtain ⟨b, hb⟩ := hg
  obtain ⟨d, h, _⟩ := pageLoop_ok (hit := hit) hb l n s
  unfold wp; rw [h]; trivial

theorem sf_iuPage {F : Fault → Prop} {imsi : Bytes} {t : Option (BitVec 32)} {lac : BitVec 16} {rac : BitVec 8} {ps : Bool}
    (hg : Generable env (.paging imsi t ps 0)) (s : State) :
    wp F (iuPage env imsi t lac rac ps) (fun _ _ => True) s := by
  unfold iuPage txPagingCmd
  simp only [wp_bind, wp_get]
  split
  · simp only [wp_bind]
    refine sf_gen hg ?_
    simp
  · trivial

theorem sf_runApi {F : Fault → Prop} {s : State} {a : Api} (h : ApiOk env s a) :
    wp F (runApi env a) (fun _ _ => True) s := by
  obtain ⟨hl, hg⟩ := h
  unfold runApi
  cases a with
  | freeUe ue =>
    cases ue with
    | none => trivial
    | some p =>
      simp only [wp_bind, wp_pure]
      exact wp_mono (sf_freeUe (hl p (by simp [args]))) fun _ _ _ => trivial
  | tx ue nas sapi =>
    cases ue with
    | none => trivial
    | some p =>
      unfold iuTx txData txBuf
      simp only [wp_bind, wp_modify]
      refine sf_deref (s := { s with txBufs := s.txBufs + 1 }) (hl p (by simp [args])) fun u hu => ?_
      refine sf_gen (hg _ rfl) ?_
      simp
  | txRelease p c => exact sf_iuTxRelease (hl p (by simp [args])) (by rw [← releaseCause_eq]; exact hg _ rfl)
  | txReleaseFree p c t =>
    unfold iuTxReleaseFree
    simp only [wp_bind]
    refine sf_deref (hl p (by simp [args])) fun u hu => ?_
    simp only [wp_modify]
    refine wp_mono (sf_iuTxRelease ?_ (by rw [← releaseCause_eq]; exact hg _ rfl)) fun _ _ _ => ?_
    · obtain ⟨h1, h2⟩ := find_live hu
      refine ⟨_, List.mem_map.2 ⟨u, h1, rfl⟩, ?_⟩
      split <;> exact h2
    · simp
  | txSecModeCmd p ik ck x y =>
    unfold iuTxSecModeCmd txData
    simp only [wp_bind]
    refine sf_gen (hg _ rfl) ?_
    refine sf_deref (hl p (by simp [args])) fun u hu => ?_
    simp
  | txCommonId p imsi =>
    unfold iuTxCommonId txData
    simp only [wp_bind]
    refine sf_deref (hl p (by simp [args])) fun u hu => ?_
    refine sf_gen (hg _ rfl) ?_
    simp
  | rabAct p msg =>
    unfold iuRabAct txData
    simp only [wp_bind]
    refine sf_deref (hl p (by simp [args])) fun u hu => ?_
    simp
  | rabDeact p r => trivial
  | pageCs imsi t lac => exact sf_iuPage (hg _ rfl) s
  | pagePs imsi t lac rac => exact sf_iuPage (hg _ rfl) s
  | pageCs2 imsi t lai =>
    show wp F (iuPageCs2 env imsi t lai) _ s
    unfold iuPageCs2
    simp only [wp_bind, wp_get]
    exact sf_pageLoop (hg _ rfl) _ _ s
  | pagePs2 imsi t rai =>
    show wp F (iuPagePs2 env imsi t rai) _ s
    unfold iuPagePs2
    simp only [wp_bind, wp_get]
    exact sf_pageLoop (hg _ rfl) _ _ s

theorem wp_keep {α : Type} {F : Fault → Prop} {m : M α} {s : State} (h : wp F m (fun _ _ => True) s) :
    wp F m (fun a s' => m s = .ok (a, s')) s := by
  unfold wp at *
  split
  · exact trivial |> fun _ => by assumption
  · rename_i h'; rw [h'] at h; exact h

theorem sf_runScript {F : Fault → Prop} {sc : Script} {s : State} (h : ScriptOk env sc s) :
    wp F (runScript env sc) (fun _ _ => True) s := by
  induction sc generalizing s with
  | done => trivial
  | call a k ih =>
    show wp F (do let rc ← runApi env a; runScript env (k rc)) _ s
    rw [wp_bind]
    exact wp_mono (wp_keep (sf_runApi h.1)) fun rc s' hr => ih rc (h.2 rc s' hr)

theorem sf_callback {F : Fault → Prop} {o : Out} {s : State} (hc : CallbacksOk env) (hg : Given s o) :
    wp F (callback env o) (fun _ _ => True) s := by
  unfold callback
  simp only [wp_bind, wp_emit, wp_get]
  refine sf_runScript (hc _ _ ?_)
  cases o with
  | sap => exact hg
  | recv => exact hg
  | event ue e =>
    cases ue with
    | none => trivial
    | some x => exact hg

theorem sf_iuEvent {F : Fault → Prop} {p : Ptr} {e : Event} {s : State} (hc : CallbacksOk env) (hl : Live s p) :
    wp F (iuEvent env (some p) e) (fun _ _ => True) s := by
  unfold iuEvent
  split
  · simp only [wp_bind]
    refine sf_deref hl fun u hu => ?_
    split
    · obtain ⟨h1, h2⟩ := find_live hu
      exact sf_callback hc ⟨u, h1, h2, rfl⟩
    · trivial
  · trivial

theorem sf_iuEventNewArea {F : Fault → Prop} {id : RncId} {rai : Rai} {s : State} (hc : CallbacksOk env) :
    wp F (iuEventNewArea env id rai) (fun _ _ => True) s := by
  rw [iuEventNewArea_eq]
  unfold iuEvent
  split
  · exact sf_callback hc trivial
  · trivial

theorem sf_rncRegister {F : Fault → Prop} {id : RncId} {rai : Rai} {addr : SccpAddr} {s : State}
    (hc : CallbacksOk env) : wp F (rncRegister env id rai addr) (fun _ _ => True) s := by
  unfold wp
  rw [rncRegister_eq]
  have key : wp F (regEvent env s id rai addr >>= fun _ => pure (regPtr env s id addr)) (fun _ _ => True)
      (regState env s id rai addr) := by
    simp only [wp_bind, wp_pure]
    unfold regEvent
    split
    · exact sf_iuEventNewArea hc
    · trivial
  exact key

theorem sf_initialTail {F : Fault → Prop} {ctx : NewCtx} {id : RncId} {ra : GprsRaId} {nas : Bytes}
    {sai : BitVec 16} {s : State} (hc : CallbacksOk env) :
    wp F (initialTail env ctx id ra nas sai) (fun _ _ => True) s := by
  unfold initialTail
  simp only [wp_bind]
  refine wp_mono (sf_rncRegister hc) fun rnc s1 _ => ?_
  unfold ctxAlloc
  simp only [wp_bind, wp_get, wp_modify, wp_pure]
  refine wp_mono (sf_callback hc ?_) fun _ _ _ => ?_
  · refine ⟨⟨s1.next, rnc, ctx.conn, ra, true, false⟩, ?_, rfl, rfl⟩
    simp
  · trivial

theorem u16_fault {b : Bytes} {e : Fault} (h : asn1strToU16 b = .fault e) : e = .abort ∧ b.length < 2 := by
  unfold asn1strToU16 at h
  split at h
  · cases h
  · rename_i hn
    injection h with h
    refine ⟨h.symm, ?_⟩
    match b, hn with
    | [], _ => decide
    | [_], _ => simp
    | x :: y :: l, hn => exact absurd rfl (hn x y l)

theorem u8_fault {b : Bytes} {e : Fault} (h : asn1strToU8 b = .fault e) : e = .abort ∧ b = [] := by
  unfold asn1strToU8 at h
  split at h
  · cases h
  · rename_i hn
    injection h with h
    refine ⟨h.symm, ?_⟩
    match b, hn with
    | [], _ => rfl
    | x :: l, hn => exact absurd rfl (hn x l)

theorem parseLai_total (plmn lac : Bytes) : ∃ rc ra, parseLai plmn lac = .ok (rc, ra) := by
  unfold parseLai
  split
  · simp only
    split
    · exact ⟨_, _, rfl⟩
    · rename_i hl
      cases hu : asn1strToU16 lac with
      | fault e => exact absurd (u16_fault hu).2 (by simp at hl; omega)
      | ok v =>
        simp only [Res.ok_bind]
        split
        · exact ⟨_, _, rfl⟩
        · exact ⟨_, _, rfl⟩
  · exact ⟨_, _, rfl⟩

theorem initialCheck_fault {ies : InitialUeIes} {e : Fault} (h : initialCheck ies = .fault e) :
    e = .abort ∧ (256 < ies.nas.length ∨ ies.saiSac.length < 2 ∨ ies.rac = some []) := by
  unfold initialCheck at h
  obtain ⟨rc, ra, hp⟩ := parseLai_total ies.laiPlmn ies.laiLac
  rw [hp] at h
  simp only at h
  split at h
  · cases h
  · split at h
    · rename_i hr
      split at hr
      · rename_i hb
        obtain ⟨h1, h2⟩ := u8_fault hr
        injection h with h
        subst h2
        exact ⟨by rw [← h, h1], .inr (.inr hb)⟩
      · cases hr
    · split at h
      · cases h
      · split at h
        · cases h
        · split at h
          · rename_i hs
            obtain ⟨h1, h2⟩ := u16_fault hs
            injection h with h
            exact ⟨by rw [← h, h1], .inr (.inl h2)⟩
          · split at h
            · cases h
            · injection h with h
              exact ⟨h.symm, .inl (by omega)⟩

theorem sf_handleInitialUe {m : Msg} {ctx : NewCtx} {ies : InitialUeIes} {s : State} (hc : CallbacksOk env)
    (hb : m.body = .initialUe ies) : wp (Hazard env m) (handleInitialUe env ctx ies) (fun _ _ => True) s := by
  unfold wp
  rw [handleInitialUe_eq]
  cases hi : initialCheck ies with
  | fault e =>
    obtain ⟨rfl, h | h | h⟩ := initialCheck_fault hi
    · exact .nasInitial ies hb h
    · exact .sacInitial ies hb h
    · exact .racInitial ies hb h
  | ok o =>
    cases o with
    | none => trivial
    | some x =>
      obtain ⟨id, ra, sai⟩ := x
      exact sf_initialTail hc

theorem sf_handleCoInitial {m : Msg} {ctx : NewCtx} {s : State} (hc : CallbacksOk env) :
    wp (Hazard env m) (handleCoInitial env ctx m) (fun _ _ => True) s := by
  unfold handleCoInitial
  split
  · trivial
  · rename_i h
    have h1 : m.dir = PR_initiatingMessage := Classical.byContradiction fun hh => h (.inl hh)
    have h2 : m.proc = id_InitialUE_Message := Classical.byContradiction fun hh => h (.inr hh)
    split
    · rename_i ies hb
      simp only [wp_bind, wp_pure]
      exact sf_handleInitialUe hc hb
    · rename_i hb
      refine Hazard.union (.inl ⟨h1, h2, ?_⟩)
      rintro ⟨x, hx⟩
      exact hb x hx

theorem dtCheck_fault {ies : DtIes} {e : Fault} (h : dtCheck ies = .fault e) :
    e = .abort ∧ ((∃ b, ies.saiSac = some b ∧ b.length < 2) ∨ ies.rac = some []) := by
  unfold dtCheck at h
  split at h
  · cases h
  · rename_i plmn lac _
    obtain ⟨rc, ra, hp⟩ := parseLai_total plmn lac
    rw [hp] at h
    simp only at h
    split at h
    · cases h
    · split at h
      · rename_i hr
        split at hr
        · rename_i hb
          split at hr
          · cases hr
          · rename_i h8
            injection hr with hr
            injection h with h
            obtain ⟨h1, h2⟩ := u8_fault h8
            subst h2
            exact ⟨by rw [← h, ← hr, h1], .inr hb⟩
        · cases hr
      · split at h
        · rename_i b hb
          split at h
          · cases h
          · rename_i h16
            injection h with h
            obtain ⟨h1, h2⟩ := u16_fault h16
            exact ⟨by rw [← h, h1], .inl ⟨b, hb, h2⟩⟩
        · cases h

theorem sf_handleDt {m : Msg} {ue : Ptr} {ies : DtIes} {s : State} (hc : CallbacksOk env) (hl : Live s ue)
    (hb : m.body = .directTransfer ies) : wp (Hazard env m) (handleDt env ue ies) (fun _ _ => True) s := by
  unfold wp
  rw [handleDt_eq]
  cases hd : dtCheck ies with
  | fault e =>
    obtain ⟨rfl, ⟨b, h1, h2⟩ | h⟩ := dtCheck_fault hd
    · exact .sacDt ies b hb h1 h2
    · exact .racDt ies hb h
  | ok o =>
    cases o with
    | none => trivial
    | some x =>
      obtain ⟨ra, sai⟩ := x
      have : wp (Hazard env m) (dtTail env ue ies.nas ra sai) (fun _ _ => True) { s with nasBufs := s.nasBufs + 1 } := by
        unfold dtTail nasPut
        simp only [wp_bind]
        split
        · simp only [wp_pure]
          refine sf_deref (s := { s with nasBufs := s.nasBufs + 1 }) hl fun u hu => ?_
          obtain ⟨h1, h2⟩ := find_live (s := { s with nasBufs := s.nasBufs + 1 }) hu
          refine wp_mono (sf_callback hc ⟨u, h1, h2, rfl⟩) fun _ _ _ => ?_
          trivial
        · exact .nasDt ies hb (by omega)
      exact this

theorem sf_handleRabAssResp {m : Msg} {ue : Ptr} {items : Option (List (Option Bytes))} {s : State}
    (hc : CallbacksOk env) (hl : Live s ue) (hb : m.body = .rabAssResp items) :
    wp (Hazard env m) (handleRabAssResp env ue items) (fun _ _ => True) s := by
  unfold handleRabAssResp
  simp only [wp_bind]
  refine sf_deref hl fun u hu => ?_
  split
  · trivial
  · exact .rab hb
  · trivial
  · simp only [wp_bind, wp_pure]
    exact sf_iuEvent hc hl

theorem sf_handleCo {m : Msg} {ue : Ptr} {s : State} (hc : CallbacksOk env) (hl : Live s ue) :
    wp (Hazard env m) (handleCo env ue m) (fun _ _ => True) s := by
  unfold handleCo
  by_cases h1 : m.dir = PR_initiatingMessage
  · rw [if_pos h1]
    split
    · trivial
    · split
      · rename_i hp
        split
        · rename_i ies hb
          simp only [wp_bind, wp_pure]
          exact sf_handleDt hc hl hb
        · rename_i hb
          refine Hazard.union (.inr (.inl ⟨h1, hp, ?_⟩))
          rintro ⟨x, hx⟩; exact hb x hx
      · split
        · rename_i hp
          split
          · trivial
          · rename_i hb
            refine Hazard.union (.inr (.inr (.inl ⟨h1, hp, ?_⟩)))
            rintro ⟨x, hx⟩; exact hb x hx
        · split
          · rename_i hp
            split
            · rename_i c hb
              simp only [wp_bind, wp_pure]
              unfold iuTxRelease txData genMsg
              simp only [wp_bind, wp_lift, Option.getD_some]
              cases hg : env.gen (.iuRelCmd c) with
              | fault e => exact .causeFault c e hb hg
              | ok o =>
                cases o with
                | none => exact .cause c hb hg
                | some b =>
                  simp only [wp_pure]
                  refine sf_deref hl fun u hu => ?_
                  simp
            · rename_i hb
              refine Hazard.union (.inr (.inr (.inr (.inl ⟨h1, hp, ?_⟩))))
              rintro ⟨x, hx⟩; exact hb x hx
          · trivial
  · rw [if_neg h1]
    split
    · split
      · exact sf_iuEvent hc hl
      · split
        · exact sf_iuEvent hc hl
        · trivial
    · split
      · rename_i h4
        split
        · rename_i hp
          split
          · rename_i items hb
            simp only [wp_bind, wp_pure]
            exact sf_handleRabAssResp hc hl hb
          · rename_i hb
            refine Hazard.union (.inr (.inr (.inr (.inr (.inr ⟨h4, hp, ?_⟩)))))
            rintro ⟨x, hx⟩; exact hb x hx
        · trivial
      · trivial

theorem sf_handleCl {m : Msg} {a : SccpAddr} {s : State} :
    wp (Hazard env m) (handleCl env a m) (fun _ _ => True) s := by
  unfold handleCl
  split
  · rename_i h1
    split
    · rename_i hp
      split
      · rename_i dom r hb
        simp only [wp_bind, wp_pure]
        unfold handleClReset
        simp only [wp_bind, wp_lift]
        cases hg : env.gen (.resetAck dom r) with
        | fault e => exact .reset dom r e hb hg
        | ok o => cases o <;> simp
      · rename_i hb
        refine Hazard.union (.inr (.inr (.inr (.inr (.inl ⟨h1, hp, ?_⟩)))))
        rintro ⟨x, y, hx⟩; exact hb x y hx
    · split
      · rename_i hp
        split
        · trivial
        · rename_i hb
          refine Hazard.union (.inr (.inr (.inl ⟨h1, hp, ?_⟩)))
          rintro ⟨x, hx⟩; exact hb x hx
      · trivial
  · trivial

end Verif.Iu
