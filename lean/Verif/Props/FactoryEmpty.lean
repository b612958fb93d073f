import Verif.Props.FactoryMsgs
import Verif.Props.FactorySec
import Verif.Props.FactoryRab

/-!
# Generated messages are never silently empty (C60)
-/

namespace Verif.Props
open Verif.Aper Verif.Ie Verif.Ie.Spec Verif.Rx.Spec Verif.Wire Verif.Gen.Ranap Verif.Factory Verif.Factory.Spec
open Verif.Spec.Bcd (IsDigit)

/-- A call of one of the RANAP message generators returned this message (not NULL). -/
inductive Returned : Bytes → Prop where
  | reset (d c r bs) : reset2 d c r = .ok (some bs) → Returned bs
  | resetAck (d r bs) : resetAck d r = .ok (some bs) → Returned bs
  | errorInd (c v d r bs) : errorInd c v d r = .ok (some bs) → Returned bs
  | initialUe (i ps r n bs) : initialUe i ps r n = .ok (some bs) → Returned bs
  | dt (s n bs) : dt s n = .ok (some bs) → Returned bs
  | secModCmd (ik ck st uia uea bs) : secModCmd2 ik ck st uia uea = .ok (some bs) → Returned bs
  | secModCompl (i e bs) : secModCompl i e = .ok (some bs) → Returned bs
  | commonId (i bs) : commonId i = .ok (some bs) → Returned bs
  | iuRelCmd (c bs) : iuRelCmd c = .ok (some bs) → Returned bs
  | iuRelCompl (bs) : iuRelCompl = .ok (some bs) → Returned bs
  | paging (i t ps c bs) : pagingCmd i t ps c = .ok (some bs) → Returned bs
  | rabVoice (r ip p x bs) : rabAssignVoice r ip p x = .ok (some bs) → Returned bs
  | rabData (r ip t x bs) : rabAssignData r ip t x = .ok (some bs) → Returned bs
  | iuRelReq (c bs) : iuRelReq c = .ok (some bs) → Returned bs
  | rabRelReq (r c bs) : rabRelReq r c = .ok (some bs) → Returned bs
  | resetResource (d c i r bs) : resetResource d c i r = .ok (some bs) → Returned bs

/-- **C60, full statement**: what is returned, if not NULL, is a complete message. -/
def C60_full : Prop := ∀ bs, Returned bs → ∃ direction code want, Says bs direction code want

/-- **C60 is violated.** -/
theorem C60_violated : ¬ C60_full := by
  intro h
  obtain ⟨_, _, _, h⟩ := h [] (.dt 0 _ _ (C53_too_long 0 (List.replicate 1005 0) (by rw [List.length_replicate]; decide)))
  exact says_nonempty h rfl

theorem rows_of_encode {ds : List IeDef} {sh : Nat} {mask : BitVec 16} {fs : List (Option Slot)} {l : List Ie}
    (h : encodeRows ds sh mask fs = some l) : ∃ c, contentsRows ds sh mask fs = some c := by
  induction ds generalizing sh fs l with
  | nil => exact ⟨[], rfl⟩
  | cons d ds ih =>
    cases fs with
    | nil => simp [encodeRows] at h
    | cons f fs =>
      simp only [encodeRows] at h
      simp only [contentsRows]
      split at h
      · rename_i hp
        rw [if_pos hp]
        exact ih h
      · rename_i hp
        rw [if_neg hp]
        rw [newIe_slotVal] at h
        cases hv : slotVal d f with
        | none => rw [hv] at h; cases h
        | some v =>
          rw [hv] at h
          simp only at h
          cases he : encode d.ty v with
          | none => rw [he] at h; cases h
          | some b =>
            rw [he] at h
            simp only at h
            split at h
            · cases h
            · rename_i hr
              obtain ⟨c, hc⟩ := ih hr
              exact ⟨_, by rw [hc]⟩

/-- Whatever a generator puts into the structure, what it returns is empty or complete. -/
theorem empty_or_complete {m : MsgDef} {direction code crit : Nat} (k : Kind m direction code crit) {s : Struct} {bs : Bytes}
    (h : generate direction code crit m s = some bs) : bs = [] ∨ ∃ want, Says bs direction code want := by
  by_cases hb : bs = []
  · exact .inl hb
  · right
    have : ∃ c, contents m s = some c := by
      unfold generate encodeMsg encodeIes at h
      cases he : encodeRows m.ies 0 s.mask s.fields with
      | none => rw [he] at h; cases h
      | some l => exact rows_of_encode he
    obtain ⟨c, hc⟩ := this
    obtain ⟨p, rfl, h3, hp, hk⟩ := k.proc
    exact ⟨_, generate_nonempty k.mem hc k.pos k.le k.small h3 hp hk h hb⟩

/-- **C60, proved part**: what is returned is a complete message or has no contents at all; there are no
truncated messages. -/
theorem C60_empty_or_complete_partial {bs : Bytes} (h : Returned bs) :
    bs = [] ∨ ∃ direction code want, Says bs direction code want := by
  have fin : ∀ {m : MsgDef} {direction code crit : Nat} (_ : Kind m direction code crit) {s : Struct},
      Res.ok (generate direction code crit m s) = .ok (some bs) → bs = [] ∨ ∃ direction code want, Says bs direction code want := by
    intro m direction code crit k s h
    rcases empty_or_complete k (Res.ok.inj h) with h | h
    · exact .inl h
    · exact .inr ⟨_, _, h⟩
  cases h with
  | reset d c r _ h => exact fin is_resetIEs h
  | resetAck d r _ h => exact fin is_resetAcknowledgeIEs h
  | errorInd c v d r _ h => exact fin is_errorIndicationIEs h
  | initialUe i ps r n _ h =>
    cases r with
    | none => cases h
    | some r => exact fin is_initialUE_MessageIEs h
  | dt s n _ h => exact fin is_directTransferIEs h
  | secModCmd ik ck st uia uea _ h =>
    unfold secModCmd2 at h
    simp only at h
    repeat' split at h
    all_goals first
      | exact fin is_securityModeCommandIEs h
      | cases h
  | secModCompl i e _ h => exact fin is_securityModeCompleteIEs h
  | commonId i _ h =>
    unfold commonId at h
    repeat' split at h
    all_goals first
      | exact fin is_commonID_IEs h
      | cases h
  | iuRelCmd c _ h =>
    cases c with
    | none => cases h
    | some c => exact fin is_iu_ReleaseCommandIEs h
  | iuRelCompl _ h => exact fin is_iu_ReleaseCompleteIEs h
  | paging i t ps c _ h =>
    unfold pagingCmd at h
    simp only at h
    repeat' split at h
    all_goals first
      | exact fin is_pagingIEs h
      | cases h
  | rabVoice r ip p x _ h => exact fin is_rAB_AssignmentRequestIEs h
  | rabData r ip t x _ h => exact fin is_rAB_AssignmentRequestIEs h
  | iuRelReq c _ h =>
    cases c with
    | none => cases h
    | some c => exact fin is_iu_ReleaseRequestIEs h
  | rabRelReq r c _ h =>
    unfold rabRelReq at h
    simp only at h
    repeat' split at h
    all_goals first
      | exact fin is_rAB_ReleaseRequestIEs h
      | cases h
  | resetResource d c i r _ h =>
    unfold resetResource at h
    simp only at h
    repeat' split at h
    all_goals first
      | exact fin is_resetResourceIEs h
      | cases h

example : Returned [] :=
  .dt 0 _ _ (C53_too_long 0 (List.replicate 1005 0) (by rw [List.length_replicate]; decide))

/-- **C60, proved part**: who can return an empty message: Direct Transfer for a NAS-PDU of more than 1004
octets, Initial UE for one of more than 966, and Error Indication with criticality diagnostics.  (IMSIs
consist of digits.) -/
theorem C60_when_empty_partial :
    (∀ d c r, reset2 d c r ≠ .ok (some [])) ∧ (∀ d r, resetAck d r ≠ .ok (some [])) ∧
    (∀ c d r, errorInd c none d r ≠ .ok (some [])) ∧
    (∀ i ps r n, ValidRnc r → (initialUe i ps (some r) n = .ok (some []) ↔ 966 < n.length)) ∧
    (∀ s n, dt s n = .ok (some []) ↔ 1004 < n.length) ∧
    (∀ ik ck st uia uea, secModCmd2 ik ck st uia uea ≠ .ok (some [])) ∧
    (∀ i e, secModCompl i e ≠ .ok (some [])) ∧
    (∀ i, (∀ c ∈ i, IsDigit c) → commonId (some i) ≠ .ok (some [])) ∧
    (∀ c, iuRelCmd c ≠ .ok (some [])) ∧ iuRelCompl ≠ .ok (some []) ∧
    (∀ i t ps c, (∀ c ∈ i, IsDigit c) → pagingCmd (some i) t ps c ≠ .ok (some [])) ∧
    (∀ r ip p x, rabAssignVoice r ip p x ≠ .ok (some [])) ∧ (∀ r ip t x, rabAssignData r ip t x ≠ .ok (some [])) ∧
    (∀ c, iuRelReq c ≠ .ok (some [])) ∧ (∀ r c, rabRelReq r c ≠ .ok (some [])) ∧
    (∀ d c i r, resetResource d c i r ≠ .ok (some [])) := by
  have key : ∀ {f : Res (Option Bytes)} {valid : Prop},
      (valid → ∃ bs, f = .ok (some bs) ∧ bs ≠ []) → (¬ valid → f = .ok none) → f ≠ .ok (some []) := by
    intro f valid h1 h2 h
    by_cases hv : valid
    · obtain ⟨bs, e1, e2⟩ := h1 hv
      rw [h] at e1
      exact e2 (Option.some.inj (Res.ok.inj e1)).symm
    · rw [h2 hv] at h; cases h
  have ne : ∀ {f : Res (Option Bytes)} {direction code : Nat} {want : List (Nat × Val)},
      (∃ bs, f = .ok (some bs) ∧ Says bs direction code want) → ∃ bs, f = .ok (some bs) ∧ bs ≠ [] :=
    fun ⟨bs, h1, h2⟩ => ⟨bs, h1, says_nonempty h2⟩
  refine ⟨?_, ?_, ?_, ?_, ?_, ?_, ?_, ?_, ?_, ?_, ?_, ?_, ?_, ?_, ?_, ?_⟩
  · intro d c r
    cases c with
    | none => rw [C52_reset_no_cause]; simp
    | some c => exact key (fun hv => ne ((C52_reset d c r).1 hv)) (C52_reset d c r).2
  · exact fun d r => key (fun hv => ne ((C52_reset_ack d r).1 hv)) (C52_reset_ack d r).2
  · intro c d r
    cases r with
    | none =>
      exact key
        (fun hv => by
          obtain ⟨bs, h1, -, h2⟩ := (C51_error_ind_partial c none d).1 hv
          exact ⟨bs, h1, says_nonempty (h2 rfl)⟩) (C51_error_ind_partial c none d).2
    | some r =>
      obtain ⟨bs, h1, h2, -⟩ := C51_with_rnc_id c none d r (by simp)
      rw [h1]
      intro h
      exact says_nonempty (h2 rfl) (Option.some.inj (Res.ok.inj h))
  · intro i ps r n hr
    constructor
    · intro h
      by_cases hn : 966 < n.length
      · exact hn
      · obtain ⟨bs, h1, h2⟩ := (C65_initial_ue i ps r n).1 hr (by omega)
        rw [h] at h1
        exact absurd (Option.some.inj (Res.ok.inj h1)).symm (says_nonempty h2)
    · exact (C65_initial_ue i ps r n).2.1 hr
  · intro s n
    constructor
    · intro h
      by_cases hn : 1004 < n.length
      · exact hn
      · obtain ⟨bs, h1, h2⟩ := C53_direct_transfer s n (by omega)
        rw [h] at h1
        exact absurd (Option.some.inj (Res.ok.inj h1)).symm (says_nonempty h2)
    · exact C53_too_long s n
  · intro ik ck st uia uea
    by_cases hck : ∀ k ∈ ck, 16 ≤ k.length
    · cases ik with
      | none => rw [C54_no_key ck st uia uea hck]; simp
      | some ik =>
        by_cases hik : 16 ≤ ik.length
        · exact key (fun hv => ne ((C54_sec_mod_cmd ik ck st uia uea hik hck).1 hv)) (C54_sec_mod_cmd ik ck st uia uea hik hck).2
        · unfold secModCmd2
          simp only [keyBits]
          rw [if_pos (by omega)]
          split <;> simp
    · cases ck with
      | none => simp at hck
      | some k =>
        simp only [Option.mem_def, Option.some.injEq, forall_eq', Nat.not_le] at hck
        unfold secModCmd2
        simp only [keyBits]
        rw [if_pos hck]
        repeat' split
        all_goals first
          | (rename_i h; cases h; done)
          | simp
  · exact fun i e => key (fun hv => ne ((C65_sec_mod_compl i e).1 hv)) (C65_sec_mod_compl i e).2
  · intro i hd
    by_cases hl : i.length ≤ 32
    · exact key (fun hv => by
        obtain ⟨bs, v, h1, h2, h3⟩ := (C65_common_id i hd hl).1 hv
        exact ⟨bs, h1, says_nonempty h3⟩) (C65_common_id i hd hl).2.1
    · rw [(C55_overrun i none false 0 hd (by omega)).2]; simp
  · intro c
    cases c with
    | none => simp [iuRelCmd]
    | some c => exact key (fun hv => ne ((C65_iu_rel_cmd c).1 hv)) (C65_iu_rel_cmd c).2
  · obtain ⟨bs, h1, h2⟩ := C65_iu_rel_compl
    rw [h1]
    intro h
    exact says_nonempty h2 (Option.some.inj (Res.ok.inj h))
  · intro i t ps c hd
    by_cases hl : i.length ≤ 32
    · refine key (fun hv => ?_) (C55_paging i t ps c hd hl).2
      obtain ⟨bs, v, h1, h2, h3⟩ := (C55_paging i t ps c hd hl).1 hv
      exact ⟨bs, h1, says_nonempty h3⟩
    · rw [(C55_overrun i t ps c hd (by omega)).1]; simp
  · intro r ip p x h
    obtain ⟨bs, h1, b1, b2, nas, par, up, t, second, h2, -⟩ := C56_voice r ip p x
    rw [h] at h1
    exact says_nonempty h2 (Option.some.inj (Res.ok.inj h1)).symm
  · intro r ip t x h
    obtain ⟨bs, h1, b1, b2, nas, par, up, t, second, h2, -⟩ := C56_data r ip t x
    rw [h] at h1
    exact says_nonempty h2 (Option.some.inj (Res.ok.inj h1)).symm
  · intro c
    cases c with
    | none => simp [iuRelReq]
    | some c => exact key (fun hv => ne ((C65_iu_rel_req c).1 hv)) (C65_iu_rel_req c).2
  · intro r c
    cases c with
    | none => simp [rabRelReq]
    | some c =>
      refine key (fun hv => ?_) (C65_rab_rel_req r c).2
      obtain ⟨bs, b, h1, h2, h3⟩ := (C65_rab_rel_req r c).1 hv
      exact ⟨bs, h1, says_nonempty h2⟩
  · intro d c i r
    cases c with
    | none => cases i <;> simp [resetResource]
    | some c =>
      cases i with
      | none => simp [resetResource]
      | some l =>
        by_cases hl : l.length = 1
        · obtain ⟨id, rfl⟩ := List.length_eq_one_iff.1 hl
          refine key (fun hv => ?_) (C52_reset_resource d c id r).2
          obtain ⟨bs, b, h1, h2, h3⟩ := (C52_reset_resource d c id r).1 hv
          exact ⟨bs, h1, says_nonempty h2⟩
        · rw [(C52_reset_resource_refused d c l r).1 hl]; simp

example : ValidRnc rnc926 ∧ ([1, 2, 3] : Bytes).length ≤ 750 := by decide

end Verif.Props
