import Verif.Proofs.Linked
import Verif.Proofs.IuLoop
import Verif.Props.Lai
import Verif.Props.Factory
import Verif.Props.FactorySec

/-!
# The Iu client linked with the RANAP library: what received octets kill the process
-/

namespace Verif.Linked
open Verif.Aper Verif.Aper.Spec Verif.Ie Verif.Ie.Spec Verif.Rx Verif.Rx.Spec Verif.Gen.Ranap Verif.Linked.Spec
open Verif.Iu Verif.Iu.Spec Verif.Lai

variable {env : Env}

/-! ## Elements of valid messages -/

section
variable {m : MsgDef} {l : List Ie}

theorem lai_there {id : Nat} (hd : ∀ d, m.ies.find? (·.id = id) = some d → d.ty = RANAP_LAI)
    (he : (∃ v, elem m l id = some v) ↔ Has l id) (h : Has l id) :
    (laiOf (elem m l id)).1.length = 3 ∧ (laiOf (elem m l id)).2.length = 2 := by
  obtain ⟨v, hv⟩ := he.2 h
  cases hf : m.ies.find? (·.id = id) with
  | none => unfold elem at hv; rw [hf] at hv; cases hv
  | some d =>
    have := elem_shaped hf hv
    rw [hd d hf] at this
    obtain ⟨p, q, x, rfl, hp, hq⟩ := lai_shape this
    rw [hv]
    exact ⟨hp, hq⟩

theorem sac_there {id : Nat} (hd : ∀ d, m.ies.find? (·.id = id) = some d → d.ty = RANAP_SAI)
    (he : (∃ v, elem m l id = some v) ↔ Has l id) (h : Has l id) : (sacOf (elem m l id)).length = 2 := by
  obtain ⟨v, hv⟩ := he.2 h
  cases hf : m.ies.find? (·.id = id) with
  | none => unfold elem at hv; rw [hf] at hv; cases hv
  | some d =>
    have := elem_shaped hf hv
    rw [hd d hf] at this
    obtain ⟨p, q, c, x, rfl, hc⟩ := sai_shape this
    rw [hv]
    exact hc

theorem rac_there {id : Nat} (hd : ∀ d, m.ies.find? (·.id = id) = some d → d.ty = RANAP_RAC)
    (he : (∃ v, elem m l id = some v) ↔ Has l id) (h : Has l id) : (octetsOf (elem m l id)).length = 1 := by
  obtain ⟨v, hv⟩ := he.2 h
  cases hf : m.ies.find? (·.id = id) with
  | none => unfold elem at hv; rw [hf] at hv; cases hv
  | some d =>
    have := elem_shaped hf hv
    rw [hd d hf] at this
    obtain ⟨b, rfl, hb⟩ := rac_shape this
    rw [hv]
    exact hb

theorem grnc_there {id : Nat} (hd : ∀ d, m.ies.find? (·.id = id) = some d → d.ty = RANAP_GlobalRNC_ID)
    (he : (∃ v, elem m l id = some v) ↔ Has l id) (h : Has l id) :
    (rncOf (elem m l id)).plmn.length = 3 ∧ (rncOf (elem m l id)).rncId < 65536 := by
  obtain ⟨v, hv⟩ := he.2 h
  cases hf : m.ies.find? (·.id = id) with
  | none => unfold elem at hv; rw [hf] at hv; cases hv
  | some d =>
    have := elem_shaped hf hv
    rw [hd d hf] at this
    obtain ⟨p, n, rfl, hp, h0, h1⟩ := grnc_shape this
    rw [hv]
    exact ⟨hp, by show n.toNat < 65536; omega⟩

theorem elem_none {id : Nat} (h : ¬ Has l id) : elem m l id = none := by
  cases he : elem m l id with
  | none => rfl
  | some v =>
    exfalso
    apply h
    unfold elem at he
    split at he
    · rename_i h1 h2
      exact lastWith_some.1 ⟨_, h2⟩
    · cases he

/-- A cause that was received can be sent. -/
theorem cause_there {id : Nat} (hd : ∀ d, m.ies.find? (·.id = id) = some d → d.ty = RANAP_Cause)
    (he : (∃ v, elem m l id = some v) ↔ Has l id) (h : Has l id) :
    Factory.Spec.ValidCause (toCause (causeOf (elem m l id))) := by
  obtain ⟨v, hv⟩ := he.2 h
  cases hf : m.ies.find? (·.id = id) with
  | none => unfold elem at hv; rw [hf] at hv; cases hv
  | some d =>
    have := elem_shaped hf hv
    rw [hd d hf] at this
    rw [hv]
    unfold Factory.Spec.ValidCause
    rcases cause_shape this with ⟨n, rfl, a, b⟩ | ⟨n, rfl, a, b⟩ | ⟨n, rfl, a, b⟩ | ⟨n, rfl, a, b⟩ | ⟨n, rfl, a, b⟩ |
      ⟨n, rfl, a, b⟩ | ⟨n, rfl, a, b⟩ <;> simp [causeOf, toCause] <;> omega

end

/-! ## Location -/

theorem parse_fixed {p q : Bytes} (hp : p.length = 3) (hq : q.length = 2) :
    ∃ rc ra, parseLai p q = .ok (rc, ra) ∧ (rc ≠ 0 ↔ ReservedLac q) := by
  obtain ⟨rc, ra, h1, h2, -⟩ := Props.C12_parse_lai p q
  refine ⟨rc, ra, h1, ?_⟩
  unfold ReservedLac
  rw [ne_eq, h2]
  constructor
  · intro h
    by_cases h0 : q = [0, 0]
    · exact .inl h0
    by_cases h1 : q = [0xff, 0xfe]
    · exact .inr h1
    exact absurd ⟨hp, hq, h0, h1⟩ h
  · rintro (rfl | rfl) ⟨_, _, h3, h4⟩
    · exact h3 rfl
    · exact h4 rfl

theorem u16_ok {b : Bytes} (h : b.length = 2) : ∃ v, asn1strToU16 b = .ok v := by
  match b, h with
  | [x, y], _ => exact ⟨_, rfl⟩

theorem u8_ok {b : Bytes} (h : b.length = 1) : ∃ v, asn1strToU8 b = .ok v ∧ (v = RESERVED_RAC ↔ b = [0xff]) := by
  match b, h with
  | [x], _ => exact ⟨x, rfl, by simp [RESERVED_RAC]⟩

/-! ## Direct Transfer -/

structure DtForm (ies : DtIes) : Prop where
  lai : ∀ x, ies.lai = some x → x.1.length = 3 ∧ x.2.length = 2
  rac : ∀ b, ies.rac = some b → b.length = 1
  sac : ∀ b, ies.saiSac = some b → b.length = 2

theorem dtCheck_form {ies : DtIes} (h : DtForm ies) :
    ∃ o, dtCheck ies = .ok o ∧ (o = none ↔ ∃ x, ies.lai = some x ∧ ReservedLac x.2) := by
  unfold dtCheck
  cases hl : ies.lai with
  | none => exact ⟨_, rfl, by simp⟩
  | some x =>
    obtain ⟨p, q⟩ := x
    obtain ⟨hp, hq⟩ := h.lai _ hl
    obtain ⟨rc, ra, h1, h2⟩ := parse_fixed hp hq
    simp only [h1]
    by_cases hr : ReservedLac q
    · rw [if_pos (h2.2 hr)]
      exact ⟨none, rfl, by simp [hr]⟩
    · rw [if_neg (fun hh => hr (h2.1 hh))]
      cases hrac : ies.rac with
      | none =>
        cases hs : ies.saiSac with
        | none => exact ⟨_, rfl, by simp [hr]⟩
        | some b =>
          obtain ⟨v, hv⟩ := u16_ok (h.sac b hs)
          simp only [hv]
          exact ⟨_, rfl, by simp [hr]⟩
      | some r =>
        obtain ⟨w, hw, -⟩ := u8_ok (h.rac r hrac)
        simp only [hw]
        cases hs : ies.saiSac with
        | none => exact ⟨_, rfl, by simp [hr]⟩
        | some b =>
          obtain ⟨v, hv⟩ := u16_ok (h.sac b hs)
          simp only [hv]
          exact ⟨_, rfl, by simp [hr]⟩

theorem noFault_of_wp {α : Type} {m : M α} {s : State} {Q : α → State → Prop} (h : wp (fun _ => False) m Q s) :
    ¬ ∃ e, m s = .fault e := by
  rintro ⟨e, he⟩
  unfold wp at h
  rw [he] at h
  exact h

theorem wp_of_noFault {α : Type} {m : M α} {s : State} (h : ¬ ∃ e, m s = .fault e) :
    wp (fun _ => False) m (fun _ _ => True) s := by
  unfold wp
  cases hm : m s with
  | ok x => trivial
  | fault e => exact h ⟨e, hm⟩

theorem dt_faults {ue : Ptr} {ies : DtIes} {s : State} (hc : CallbacksOk env) (hl : Live s ue) (h : DtForm ies) :
    (∃ e, handleDt env ue ies s = .fault e) ↔
      256 < ies.nas.length ∧ ¬ ∃ x, ies.lai = some x ∧ ReservedLac x.2 := by
  obtain ⟨o, h1, h2⟩ := dtCheck_form h
  rw [handleDt_eq, h1]
  cases o with
  | none => simp [h2.1 rfl]
  | some x =>
    obtain ⟨ra, sai⟩ := x
    have hn : ¬ ∃ x, ies.lai = some x ∧ ReservedLac x.2 := fun hh => by cases h2.2 hh
    simp only [hn, not_false_eq_true, and_true]
    by_cases h256 : ies.nas.length ≤ 256
    · constructor
      · intro hf
        refine absurd hf (noFault_of_wp (Q := fun _ _ => True) ?_)
        unfold dtTail nasPut
        simp only [wp_bind]
        rw [if_pos h256]
        simp only [wp_pure]
        refine sf_deref (s := { s with nasBufs := s.nasBufs + 1 }) hl fun u hu => ?_
        obtain ⟨h1, h2⟩ := find_live (s := { s with nasBufs := s.nasBufs + 1 }) hu
        refine wp_mono (sf_callback hc ⟨u, h1, h2, rfl⟩) fun _ _ _ => ?_
        trivial
      · intro; omega
    · refine ⟨fun _ => by omega, fun _ => ⟨.abort, ?_⟩⟩
      unfold dtTail nasPut
      rw [if_neg h256]
      rfl

/-! ## Initial UE Message -/

structure InitialForm (ies : InitialUeIes) : Prop where
  lai : (ies.laiPlmn = [] ∧ ies.laiLac = []) ∨ (ies.laiPlmn.length = 3 ∧ ies.laiLac.length = 2)
  rac : ∀ b, ies.rac = some b → b.length = 1
  sac : ies.saiSac = [] ∨ ies.saiSac.length = 2
  grnc : ies.grnc.plmn = [] ∨ ies.grnc.plmn.length = 3

theorem grnc_ok {p : Bytes} {n : Nat} (h : p.length = 3) : ∃ r, grncIdParse p n = some r := by
  match p, h with
  | [_, _, _], _ => exact ⟨_, rfl⟩

theorem initialCheck_form {ies : InitialUeIes} (h : InitialForm ies) :
    (∃ e, initialCheck ies = .fault e) ↔ ies.laiPlmn.length = 3 ∧ ies.grnc.plmn.length = 3 ∧
      ¬ ReservedLac ies.laiLac ∧ ies.rac ≠ some [0xff] ∧ (ies.saiSac = [] ∨ 256 < ies.nas.length) := by
  unfold initialCheck
  rcases h.lai with ⟨h1, h2⟩ | ⟨hp, hq⟩
  · rw [h1, h2]; simp [parseLai]
  obtain ⟨rc, ra, h1, h2⟩ := parse_fixed hp hq
  simp only [h1]
  by_cases hr : ReservedLac ies.laiLac
  · rw [if_pos (h2.2 hr)]; simp [hr]
  rw [if_neg (fun hh => hr (h2.1 hh))]
  have rest : ∀ w : BitVec 8, (∃ e, (match grncIdParse ies.grnc.plmn ies.grnc.rncId with
      | none => (.ok none : Res (Option (RncId × GprsRaId × BitVec 16)))
      | some id => match asn1strToU16 ies.saiSac with
        | .fault e => .fault e
        | .ok sai => if ies.nas.length ≤ 256 then .ok (some (id, { ra with rac := w }, sai)) else .fault .abort) = .fault e) ↔
      ies.grnc.plmn.length = 3 ∧ (ies.saiSac = [] ∨ 256 < ies.nas.length) := by
    intro w
    rcases h.grnc with hg | hg
    · rw [hg]; simp [grncIdParse]
    obtain ⟨r, hr⟩ := grnc_ok (n := ies.grnc.rncId) hg
    simp only [hr]
    rcases h.sac with hs | hs
    · rw [hs]; simp [asn1strToU16, hg]
    obtain ⟨v, hv⟩ := u16_ok hs
    have hs0 : ies.saiSac ≠ [] := by rintro h0; rw [h0] at hs; cases hs
    simp only [hv, hs0, false_or, hg, true_and]
    by_cases h256 : ies.nas.length ≤ 256
    · rw [if_pos h256]; simp; omega
    · rw [if_neg h256]; simp; omega
  cases hrac : ies.rac with
  | none =>
    simp only [Option.isSome_none, Bool.false_eq_true, false_and, if_false]
    refine (rest _).trans ?_
    simp [hr, hp]
  | some b =>
    obtain ⟨w, hw, hres⟩ := u8_ok (h.rac b hrac)
    simp only [hw, Option.isSome_some, true_and]
    by_cases hff : w = RESERVED_RAC
    · rw [if_pos hff]; simp [hres.1 hff]
    · rw [if_neg hff]
      refine (rest _).trans ?_
      have : b ≠ [0xff] := fun hh => hff (hres.2 hh)
      simp only [hr, hp, ne_eq, Option.some.injEq, this, not_false_eq_true, true_and]

theorem initial_faults {ctx : NewCtx} {ies : InitialUeIes} {s : State} (hc : CallbacksOk env) :
    (∃ e, handleInitialUe env ctx ies s = .fault e) ↔ ∃ e, initialCheck ies = .fault e := by
  rw [handleInitialUe_eq]
  cases hi : initialCheck ies with
  | fault e => simp
  | ok o =>
    cases o with
    | none => simp
    | some x =>
      obtain ⟨id, ra, sai⟩ := x
      simp only [reduceCtorEq, exists_false, iff_false]
      exact noFault_of_wp (sf_initialTail hc)

/-! ## Octets -/

theorem co_def {data : Bytes} {p c : Nat} {l : List Ie} {m : MsgDef} (h : CoMsg data p c l) (hm : cnCoMsg p c = some m) :
    ∀ ie ∈ l, Valid m ie := by
  obtain ⟨crit, m', ⟨value, -, hm', -⟩, hv⟩ := h
  rw [hm] at hm'
  cases hm'
  exact hv

theorem find_unique {id : Nat} {d x : IeDef} {L : List IeDef} (hn : (L.map (·.id)).Nodup)
    (hf : L.find? (·.id = id) = some d) (hx : x ∈ L) (hid : x.id = id) : x = d := by
  induction L with
  | nil => cases hx
  | cons a L ih =>
    simp only [List.map_cons, List.nodup_cons, List.mem_map, not_exists, not_and] at hn
    rw [List.find?_cons] at hf
    by_cases ha : a.id = id
    · simp only [ha, decide_true, Option.some.injEq] at hf
      subst hf
      rcases List.mem_cons.1 hx with h | h
      · exact h
      · exact absurd (hid.trans ha.symm) (hn.1 x h)
    · simp only [ha, decide_false] at hf
      rcases List.mem_cons.1 hx with h | h
      · subst h; exact absurd hid ha
      · exact ih hn.2 hf h

theorem elem_has {m : MsgDef} {l : List Ie} {id : Nat} {d : IeDef} (hn : (m.ies.map (·.id)).Nodup)
    (hf : m.ies.find? (·.id = id) = some d) (hv : ∀ ie ∈ l, Valid m ie) : (∃ v, elem m l id = some v) ↔ Has l id :=
  elem_some (fun _ hx hid => by rw [find_unique hn hf hx hid]) hf hv

theorem dtForm {l : List Ie} (hv : ∀ ie ∈ l, Valid directTransferIEs ie) : DtForm (dtOf l) := by
  have hn : (directTransferIEs.ies.map (·.id)).Nodup := by decide +kernel
  have e15 := elem_has (id := 15) (d := directTransferIEs.ies[1]) hn (by with_unfolding_all rfl) hv
  have e55 := elem_has (id := 55) (d := directTransferIEs.ies[2]) hn (by with_unfolding_all rfl) hv
  have e58 := elem_has (id := 58) (d := directTransferIEs.ies[3]) hn (by with_unfolding_all rfl) hv
  refine ⟨?_, ?_, ?_⟩
  · intro x hx
    simp only [dtOf] at hx
    split at hx
    · rename_i h
      cases hx
      exact lai_there (fun d hd => by cases (show some directTransferIEs.ies[1] = some d from hd); rfl) e15 h
    · cases hx
  · intro x hx
    simp only [dtOf] at hx
    split at hx
    · rename_i h
      cases hx
      exact rac_there (fun d hd => by cases (show some directTransferIEs.ies[2] = some d from hd); rfl) e55 h
    · cases hx
  · intro x hx
    simp only [dtOf] at hx
    split at hx
    · rename_i h
      cases hx
      exact sac_there (fun d hd => by cases (show some directTransferIEs.ies[3] = some d from hd); rfl) e58 h
    · cases hx

theorem initialForm {l : List Ie} (hv : ∀ ie ∈ l, Valid initialUE_MessageIEs ie) : InitialForm (initialUeOf l) ∧
    ((initialUeOf l).laiPlmn.length = 3 ↔ Has l 15) ∧ ((initialUeOf l).grnc.plmn.length = 3 ↔ Has l 86) ∧
    ((initialUeOf l).saiSac = [] ↔ ¬ Has l 58) := by
  have hn : (initialUE_MessageIEs.ies.map (·.id)).Nodup := by decide +kernel
  have e15 := elem_has (id := 15) (d := initialUE_MessageIEs.ies[1]) hn (by with_unfolding_all rfl) hv
  have e55 := elem_has (id := 55) (d := initialUE_MessageIEs.ies[2]) hn (by with_unfolding_all rfl) hv
  have e58 := elem_has (id := 58) (d := initialUE_MessageIEs.ies[3]) hn (by with_unfolding_all rfl) hv
  have e86 := elem_has (id := 86) (d := initialUE_MessageIEs.ies[6]) hn (by with_unfolding_all rfl) hv
  have t15 := lai_there (fun d hd => by cases (show some initialUE_MessageIEs.ies[1] = some d from hd); rfl) e15
  have t55 := rac_there (fun d hd => by cases (show some initialUE_MessageIEs.ies[2] = some d from hd); rfl) e55
  have t58 := sac_there (fun d hd => by cases (show some initialUE_MessageIEs.ies[3] = some d from hd); rfl) e58
  have t86 := grnc_there (fun d hd => by cases (show some initialUE_MessageIEs.ies[6] = some d from hd); rfl) e86
  have n15 : ¬ Has l 15 → laiOf (elem initialUE_MessageIEs l 15) = ([], []) := fun h => by rw [elem_none h]; rfl
  have n58 : ¬ Has l 58 → sacOf (elem initialUE_MessageIEs l 58) = [] := fun h => by rw [elem_none h]; rfl
  have n86 : ¬ Has l 86 → rncOf (elem initialUE_MessageIEs l 86) = ⟨[], 0⟩ := fun h => by rw [elem_none h]; rfl
  refine ⟨⟨?_, ?_, ?_, ?_⟩, ?_, ?_, ?_⟩
  · by_cases h : Has l 15
    · exact .inr (t15 h)
    · exact .inl (by simp only [initialUeOf, n15 h, and_self])
  · intro b hb
    simp only [initialUeOf] at hb
    split at hb
    · rename_i h
      cases hb
      exact t55 h
    · cases hb
  · by_cases h : Has l 58
    · exact .inr (t58 h)
    · exact .inl (n58 h)
  · by_cases h : Has l 86
    · exact .inr (t86 h).1
    · exact .inl (by simp only [initialUeOf, n86 h])
  · refine ⟨fun h => Classical.byContradiction fun hh => ?_, fun h => (t15 h).1⟩
    simp only [initialUeOf, n15 hh] at h
    cases h
  · refine ⟨fun h => Classical.byContradiction fun hh => ?_, fun h => (t86 h).1⟩
    simp only [initialUeOf, n86 hh] at h
    cases h
  · refine ⟨fun h hh => ?_, n58⟩
    have := t58 hh
    have h' : sacOf (elem initialUE_MessageIEs l 58) = [] := h
    rw [h'] at this
    cases this

theorem pure_faults {α : Type} {a : α} {s : State} : (∃ e, (pure a : M α) s = .fault e) ↔ False := by
  simp [Pure.pure, M.pure]

theorem then_faults {α β : Type} {m : M α} {b : β} {s : State} :
    (∃ e, (do let _ ← m; pure b : M β) s = .fault e) ↔ ∃ e, m s = .fault e := by
  show (∃ e, M.bind m (fun _ => M.pure b) s = .fault e) ↔ _
  unfold M.bind
  cases m s <;> simp [M.pure]

theorem first_faults {data : Bytes} {p c : Nat} {l : List Ie} {ctx : NewCtx} {s : State} (hc : CallbacksOk env)
    (h : CoMsg data p c l) :
    (∃ e, handleCoInitial env ctx ⟨p, c, coBody p c l⟩ s = .fault e) ↔ FatalFirst p c l := by
  generalize hm : Msg.mk p c (coBody p c l) = m
  have hp : m.dir = p := by rw [← hm]
  have hq : m.proc = c := by rw [← hm]
  have hb : m.body = coBody p c l := by rw [← hm]
  unfold handleCoInitial FatalFirst
  by_cases h1 : p = 1 ∧ c = 19
  · obtain ⟨rfl, rfl⟩ := h1
    have hv := co_def (m := initialUE_MessageIEs) h rfl
    obtain ⟨hf, f1, f2, f3⟩ := initialForm hv
    rw [if_neg (by rw [hp, hq]; decide), hb]
    show (∃ e, (do let _ ← handleInitialUe env ctx (initialUeOf l); pure ()) s = .fault e) ↔ _
    rw [then_faults, initial_faults hc, initialCheck_form hf, f1, f2, f3]
    have hr : (initialUeOf l).rac ≠ some [0xff] ↔ ¬ (Has l 55 ∧ octetsOf (elem initialUE_MessageIEs l 55) = [0xff]) := by
      simp only [initialUeOf]
      by_cases h55 : Has l 55
      · simp [h55]
      · simp [h55]
    rw [hr]
    simp only [true_and]
    exact Iff.rfl
  · rw [if_pos (by rw [hp, hq]; simp only [PR_initiatingMessage, id_InitialUE_Message]; omega), pure_faults]
    simp only [false_iff]
    rintro ⟨h2, h3, -⟩
    exact h1 ⟨h2, h3⟩

theorem event_noFault {p : Ptr} {ev : Event} {s : State} (hc : CallbacksOk env) (hl : Live s p) :
    ¬ ∃ e, iuEvent env (some p) ev s = .fault e := noFault_of_wp (sf_iuEvent hc hl)

theorem rab_faults {ue : Ptr} {s : State} (hc : CallbacksOk env) (hl : Live s ue) (items : Option (List (Option Bytes))) :
    (∃ e, handleRabAssResp env ue items s = .fault e) ↔ items = some [] := by
  constructor
  · intro hf
    refine Classical.byContradiction fun hne => absurd hf (noFault_of_wp (Q := fun _ _ => True) ?_)
    unfold handleRabAssResp
    simp only [wp_bind]
    refine sf_deref hl fun u hu => ?_
    split
    · trivial
    · exact absurd rfl hne
    · trivial
    · simp only [wp_bind, wp_pure]
      exact sf_iuEvent hc hl
  · rintro rfl
    obtain ⟨u, hu⟩ := live_find hl
    refine ⟨.oobRead, ?_⟩
    show M.bind (deref ue) (fun _ => M.fault .oobRead) s = _
    unfold M.bind deref
    rw [hu]
    rfl

theorem release_faults {data : Bytes} {l : List Ie} {ue : Ptr} {s : State} (hl : Live s ue) (h : CoMsg data 1 11 l) :
    (∃ e, iuTxRelease (linked env) ue (some (causeOf (elem iu_ReleaseRequestIEs l 4))) s = .fault e) ↔ ¬ Has l 4 := by
  have hv := co_def (m := iu_ReleaseRequestIEs) h rfl
  have e4 := elem_has (id := 4) (d := iu_ReleaseRequestIEs.ies[0]) (by decide +kernel) (by with_unfolding_all rfl) hv
  by_cases h4 : Has l 4
  · have hvc := cause_there (fun d hd => by cases (show some iu_ReleaseRequestIEs.ies[0] = some d from hd); rfl) e4 h4
    obtain ⟨bs, hb, -⟩ := (Props.C65_iu_rel_cmd _).1 hvc
    refine ⟨fun hf => ?_, fun hh => absurd h4 hh⟩
    exact absurd hf (noFault_of_wp (sf_iuTxRelease hl ⟨bs, hb⟩))
  · refine ⟨fun _ => h4, fun _ => ?_⟩
    rw [elem_none h4]
    exact ⟨.nullDeref, rfl⟩

theorem co_faults {data : Bytes} {p c : Nat} {l : List Ie} {ue : Ptr} {s : State} (hc : CallbacksOk (linked env))
    (hl : Live s ue) (h : CoMsg data p c l) :
    (∃ e, handleCo (linked env) ue ⟨p, c, coBody p c l⟩ s = .fault e) ↔ FatalCo p c l := by
  generalize hm : Msg.mk p c (coBody p c l) = m
  have hp : m.dir = p := by rw [← hm]
  have hq : m.proc = c := by rw [← hm]
  have hb : m.body = coBody p c l := by rw [← hm]
  unfold handleCo FatalCo
  by_cases h1 : p = 1
  · rw [if_pos (by rw [hp, h1]; rfl)]
    by_cases h20 : c = 20
    · subst h1 h20
      rw [if_neg (by rw [hq]; decide), if_pos (by rw [hq]; rfl), hb]
      show (∃ e, (do let _ ← handleDt (linked env) ue (dtOf l); pure ()) s = .fault e) ↔ _
      rw [then_faults, dt_faults hc hl (dtForm (co_def (m := directTransferIEs) h rfl))]
      simp only [dtOf]
      by_cases h15 : Has l 15 <;> simp [h15]
    by_cases h11 : c = 11
    · subst h1 h11
      rw [if_neg (by rw [hq]; decide), if_neg (by rw [hq]; decide), if_neg (by rw [hq]; decide), if_pos (by rw [hq]; rfl), hb]
      show (∃ e, (do let _ ← iuTxRelease (linked env) ue (some (causeOf (elem iu_ReleaseRequestIEs l 4))); pure ()) s =
        .fault e) ↔ _
      rw [then_faults, release_faults hl h]
      simp
    have hno : ∀ x y z : Prop, ¬ (p = 1 ∧ c = 20 ∧ x ∨ p = 1 ∧ c = 11 ∧ y ∨ p = 4 ∧ c = 0 ∧ z) := by
      rintro x y z (⟨-, h, -⟩ | ⟨-, h, -⟩ | ⟨h, -⟩) <;> omega
    simp only [hno, iff_false]
    by_cases h22 : c = 22
    · subst h1 h22
      rw [if_neg (by rw [hq]; decide), if_neg (by rw [hq]; decide), if_pos (by rw [hq]; rfl), hb]
      exact fun hh => pure_faults.1 hh
    by_cases h19 : c = 19
    · rw [if_pos (by rw [hq, h19]; rfl), pure_faults]
      exact id
    · rw [if_neg (by rw [hq]; exact h19), if_neg (by rw [hq]; exact h20), if_neg (by rw [hq]; exact h22),
        if_neg (by rw [hq]; exact h11), pure_faults]
      exact id
  rw [if_neg (by rw [hp]; exact h1)]
  by_cases h4 : p = 4 ∧ c = 0
  · obtain ⟨rfl, rfl⟩ := h4
    rw [if_neg (by rw [hp]; decide), if_pos (by rw [hp]; rfl), if_pos (by rw [hq]; rfl), hb]
    show (∃ e, (do
      let _ ← handleRabAssResp (linked env) ue (if Has l 52 then some (rabsOf (elem rAB_AssignmentResponseIEs l 52)) else none)
      pure ()) s = .fault e) ↔ _
    rw [then_faults, rab_faults hc hl]
    by_cases h52 : Has l 52 <;> simp [h52]
  have hno : ∀ x y z : Prop, ¬ (p = 1 ∧ c = 20 ∧ x ∨ p = 1 ∧ c = 11 ∧ y ∨ p = 4 ∧ c = 0 ∧ z) := by
    rintro x y z (⟨h, -⟩ | ⟨h, -⟩ | ⟨h, h', -⟩)
    · exact h1 h
    · exact h1 h
    · exact h4 ⟨h, h'⟩
  simp only [hno, iff_false]
  split
  · split
    · exact event_noFault hc hl
    · split
      · exact event_noFault hc hl
      · rw [pure_faults]; exact id
  · split
    · rename_i h4'
      rw [if_neg (show ¬ m.proc = id_RAB_Assignment from fun hh => h4 ⟨hp.symm.trans h4', hq.symm.trans hh⟩), pure_faults]
      exact id
    · rw [pure_faults]; exact id

/-- A received connectionless message does no harm. -/
theorem cl_noFault {data : Bytes} {a : SccpAddr} {s : State} {msg : Msg} (h : (linked env).decodeCl data = some msg) :
    ¬ ∃ e, handleCl (linked env) a msg s = .fault e := by
  rw [decodeCl_iff] at h
  have hr : msg.dir = PR_initiatingMessage → msg.proc = id_Reset → ∃ x y, msg.body = .reset x y := by
    intro h1 h9
    rcases h with ⟨p, c, l, -, rfl⟩ | ⟨p, c, crit, value, -, hu, rfl⟩
    · cases h1; cases h9; exact ⟨_, _, rfl⟩
    · cases h1; cases h9; cases hu
  have hx : msg.dir = PR_initiatingMessage → msg.proc = id_ErrorIndication → ∃ x, msg.body = .errorInd x := by
    intro h1 h9
    rcases h with ⟨p, c, l, -, rfl⟩ | ⟨p, c, crit, value, -, hu, rfl⟩
    · cases h1; cases h9; exact ⟨_, rfl⟩
    · cases h1; cases h9; cases hu
  unfold handleCl
  split
  · rename_i h1
    split
    · rename_i h9
      obtain ⟨d, r, hb⟩ := hr h1 h9
      rw [hb]
      dsimp only
      rw [then_faults]
      refine noFault_of_wp (Q := fun _ _ => True) ?_
      unfold handleClReset
      simp only [wp_bind, wp_lift]
      show wp _ (match Factory.generate 2 9 Factory.reject _ _ with | none => _ | some _ => _) _ _
      split <;> simp
    · split
      · rename_i h22
        obtain ⟨x, hb⟩ := hx h1 h22
        rw [hb]
        exact fun hh => pure_faults.1 hh
      · exact fun hh => pure_faults.1 hh
  · exact fun hh => pure_faults.1 hh

/-! ## Steps -/

theorem rxCo_faults {H : Msg → M Unit} {data : Bytes} {s : State} {F : Nat → Nat → List Ie → Prop}
    (hH : ∀ p c l, CoMsg data p c l → ((∃ e, H ⟨p, c, coBody p c l⟩ s = .fault e) ↔ F p c l)) :
    (∃ e, rxCo (linked env) H data s = .fault e) ↔ ∃ p c l, CoMsg data p c l ∧ F p c l := by
  unfold rxCo
  cases hd : (linked env).decodeCo data with
  | none =>
    rw [pure_faults]
    simp only [false_iff]
    rintro ⟨p, c, l, h, -⟩
    have := (decodeCo_iff (env := env)).2 ⟨p, c, l, h, rfl⟩
    rw [hd] at this
    cases this
  | some msg =>
    obtain ⟨p, c, l, h, rfl⟩ := decodeCo_iff.1 hd
    dsimp only
    rw [then_faults, hH p c l h]
    constructor
    · exact fun hf => ⟨p, c, l, h, hf⟩
    · rintro ⟨p', c', l', h', hf⟩
      have h1 := (hH p' c' l' h').2 hf
      have := (decodeCo_iff (env := env)).2 ⟨p', c', l', h', rfl⟩
      rw [hd] at this
      injection this with this
      rw [← this, hH p c l h] at h1
      exact h1

theorem coMsg_nil {p c : Nat} {l : List Ie} : ¬ CoMsg [] p c l := by
  rintro ⟨crit, m, ⟨value, h, -⟩, -⟩
  rw [isPdu_iff] at h
  have : decodePdu [] = none := by decide +kernel
  rw [this] at h
  cases h

theorem bind_faults {α β : Type} {m : M α} {f : α → M β} {s : State} (h : ∀ a s', ¬ ∃ e, f a s' = .fault e) :
    (∃ e, (m >>= f) s = .fault e) ↔ ∃ e, m s = .fault e := by
  show (∃ e, M.bind m f s = .fault e) ↔ _
  unfold M.bind
  cases m s with
  | fault e => simp
  | ok x => simpa using h x.1 x.2

theorem step_faults (hc : CallbacksOk (linked env)) (hl : LinkOk (linked env)) {op : Op} {s : State} (hi : Inv s)
    (hci : CInv s) (ho : OpOk (linked env) s op) : (∃ e, step (linked env) op s = .fault e) ↔ Kills s op := by
  have other : (∀ m, opMsg (linked env) op ≠ some m) → ¬ ∃ e, step (linked env) op s = .fault e := by
    rintro h ⟨e, he⟩
    have := sf_step hc hl hi hci ho
    unfold wp at this
    rw [he] at this
    obtain ⟨m, hm, -⟩ := this
    exact h m hm
  cases op with
  | connectConf => exact iff_of_false (other (by intro m h; cases h)) id
  | otherInd => exact iff_of_false (other (by intro m h; cases h)) id
  | noticeInd => exact iff_of_false (other (by intro m h; cases h)) id
  | pcstateInd => exact iff_of_false (other (by intro m h; cases h)) id
  | timer => exact iff_of_false (other (by intro m h; cases h)) id
  | api => exact iff_of_false (other (by intro m h; cases h)) id
  | unitdataInd a d =>
    refine iff_of_false ?_ id
    have he : step (linked env) (.unitdataInd a d) = (match (linked env).decodeCl d with
      | none => pure (-1)
      | some m => do handleCl (linked env) a m; pure 0 : M Int) := rfl
    rw [he]
    cases hd : (linked env).decodeCl d with
    | none => exact fun hh => pure_faults.1 hh
    | some m =>
      dsimp only
      rw [then_faults]
      exact cl_noFault hd
  | connectInd c a d =>
    by_cases hd : d = []
    · subst hd
      refine iff_of_false (other (by intro m h; cases h)) ?_
      rintro ⟨p, c, l, h, -⟩
      exact coMsg_nil h
    · have he : step (linked env) (.connectInd c a d) s =
          rxCo (linked env) (handleCoInitial (linked env) ⟨a, c⟩) d
            { s with trace := s.trace ++ [.sap (.connectResp c) ((linked env).sapRc s (.connectResp c))] } := by
        show (if d.length = 0 then _ else _ : M Int) _ = _
        rw [if_neg (by simpa using hd)]
      rw [he]
      exact rxCo_faults fun p c l h => first_faults hc h
  | dataInd c d =>
    show _ ↔ ∃ direction code l, CoMsg d direction code l ∧ _
    have he : step (linked env) (.dataInd c d) s = (match ctxFind s c with
      | none => (match cacheFind s c with
        | none => pure (-1)
        | some addr => do
          cacheDel c
          rxCo (linked env) (handleCoInitial (linked env) ⟨addr, c⟩) d)
      | some u => rxCo (linked env) (handleCo (linked env) u.ptr) d : M Int) s := rfl
    rw [he]
    cases hf : ctxFind s c with
    | some u =>
      obtain ⟨hu, huc⟩ := ctxFind_some hf
      have hctx : HasCtx s c := ⟨u, hu, huc⟩
      dsimp only
      rw [rxCo_faults (F := FatalCo) fun p c l h => co_faults hc ⟨u, hu, rfl⟩ h]
      simp [hctx]
    | none =>
      have hctx : ¬ HasCtx s c := ctxFind_none.1 hf
      dsimp only
      cases hca : cacheFind s c with
      | none =>
        have hiu : ¬ InUse s c := by
          rintro (h | ⟨e, he, hec⟩)
          · exact hctx h
          · unfold cacheFind at hca
            simp only [Option.map_eq_none_iff, List.find?_eq_none] at hca
            exact hca e he (by simpa using hec)
        simp only [hctx, hiu, false_and, and_false, or_self, exists_const, iff_false]
        exact fun hh => pure_faults.1 hh
      | some addr =>
        have hiu : InUse s c := by
          unfold cacheFind at hca
          simp only [Option.map_eq_some_iff] at hca
          obtain ⟨x, hx, -⟩ := hca
          exact .inr ⟨x, List.mem_of_find?_eq_some hx, by simpa using List.find?_some hx⟩
        show (∃ e, rxCo (linked env) (handleCoInitial (linked env) ⟨addr, c⟩) d (uncached s c) = .fault e) ↔ _
        rw [rxCo_faults (F := FatalFirst) fun p c l h => first_faults hc h]
        simp [hctx, hiu]
  | disconnectInd c d =>
    show _ ↔ ∃ direction code l, CoMsg d direction code l ∧ _
    by_cases hd : d = []
    · subst hd
      refine iff_of_false (other (by intro m h; cases h)) ?_
      rintro ⟨p, c, l, h, -⟩
      exact coMsg_nil h
    let tail : Int → M Int := fun rc => do
      let s ← M.get
      match ctxFind s c with
      | none => pure rc
      | some u => do linkInvalidatedFree (linked env) u.ptr; pure rc
    have htail : ∀ (rc : Int) (s1 : State), ¬ ∃ e, tail rc s1 = .fault e := by
      intro rc s1
      refine noFault_of_wp (Q := fun _ _ => True) ?_
      show wp _ (do
        let s ← M.get
        match ctxFind s c with
        | none => pure rc
        | some u => do linkInvalidatedFree (linked env) u.ptr; pure rc) _ s1
      simp only [wp_bind, wp_get]
      split
      · trivial
      · rename_i v hv
        simp only [wp_bind, wp_pure]
        exact sf_linkInvalidatedFree hc ⟨v, (ctxFind_some hv).1, rfl⟩
    have he : step (linked env) (.disconnectInd c d) s = (match ctxFind (uncached s c) c with
      | none => pure (-1)
      | some u => (if d.length > 0 then rxCo (linked env) (handleCo (linked env) u.ptr) d >>= tail
          else pure 0 >>= tail) : M Int) (uncached s c) := rfl
    rw [he]
    cases hf : ctxFind (uncached s c) c with
    | some u =>
      obtain ⟨hu, huc⟩ := ctxFind_some hf
      have hctx : HasCtx s c := ⟨u, hu, huc⟩
      dsimp only
      rw [if_pos (List.length_pos_iff.2 hd), bind_faults htail,
        rxCo_faults (F := FatalCo) fun p c l h => co_faults hc ⟨u, hu, rfl⟩ h]
      simp [hctx]
    | none =>
      have hctx : ¬ HasCtx s c := ctxFind_none.1 hf
      simp only [hctx, false_and, and_false, exists_const, iff_false]
      exact fun hh => pure_faults.1 hh

theorem run_faults (hc : CallbacksOk (linked env)) (hl : LinkOk (linked env)) {ops : List Op} {s : State} (hi : Inv s)
    (hci : CInv s) (hr : RunOk (linked env) s ops) : (∃ e, run (linked env) ops s = .fault e) ↔
      ∃ before op after s', ops = before ++ op :: after ∧ run (linked env) before s = .ok ((), s') ∧ Kills s' op := by
  induction ops generalizing s with
  | nil =>
    refine iff_of_false (fun ⟨e, he⟩ => by cases he) ?_
    rintro ⟨b, op, a, s', h, -⟩
    simp at h
  | cons op ops ih =>
    have hs := step_faults hc hl hi hci hr.1
    show (∃ e, M.bind (step (linked env) op) (fun _ => run (linked env) ops) s = .fault e) ↔ _
    unfold M.bind
    cases hst : step (linked env) op s with
    | fault e =>
      have hk : Kills s op := hs.1 ⟨e, hst⟩
      exact iff_of_true ⟨e, rfl⟩ ⟨[], op, ops, s, rfl, rfl, hk⟩
    | ok x =>
      obtain ⟨rc, s1⟩ := x
      have hk : ¬ Kills s op := by
        intro hk
        obtain ⟨e, he⟩ := hs.2 hk
        rw [hst] at he
        cases he
      have hf : ∀ c a d, op = .connectInd c a d → ¬ InUse s c := by
        rintro c a d rfl; exact hr.1
      dsimp only
      rw [ih (step_inv hst hi) (step_cinv hst hci hf) (hr.2 rc s1 hst)]
      have hrun : ∀ b : List Op, run (linked env) (op :: b) s = run (linked env) b s1 := by
        intro b
        show M.bind (step (linked env) op) (fun _ => run (linked env) b) s = _
        unfold M.bind
        rw [hst]
      constructor
      · rintro ⟨b, o, a, s', rfl, h1, h2⟩
        exact ⟨op :: b, o, a, s', rfl, by rw [hrun, h1], h2⟩
      · rintro ⟨b, o, a, s', h0, h1, h2⟩
        cases b with
        | nil =>
          cases h1
          simp only [List.nil_append, List.cons.injEq] at h0
          rw [h0.1] at hk
          exact absurd h2 hk
        | cons o' b =>
          simp only [List.cons_append, List.cons.injEq] at h0
          obtain ⟨rfl, rfl⟩ := h0
          rw [hrun] at h1
          exact ⟨b, o, a, s', rfl, h1, h2⟩

end Verif.Linked
