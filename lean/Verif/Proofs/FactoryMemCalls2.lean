import Verif.Proofs.FactoryMemCalls

/-!
# Memory of the message generators: Reset Resource, RAB assignment, Security Mode Command
-/

namespace Verif.Factory
open Verif.Aper Verif.Ie Verif.Ie.Spec Verif.Rx.Spec Verif.Wire Verif.Gen.Ranap Verif.Factory.Spec Verif.Props
open Verif.Aper.Spec (fits fitsFields fitsAlt fitsOct fitsLen)

theorem rr_rows (d c l : Val) (r : Option Val) : rows resetResourceIEs
    (match r with
      | some r => put resetResourceIEs idGlobalRNC_ID r (setMask (present resetIEs idGlobalRNC_ID)
        (put resetResourceIEs idIuSigConIdList l (put resetResourceIEs idCause c
          (put resetResourceIEs idCN_DomainIndicator d resetResourceIEs.zero))))
      | none => put resetResourceIEs idIuSigConIdList l (put resetResourceIEs idCause c
          (put resetResourceIEs idCN_DomainIndicator d resetResourceIEs.zero))) =
    [(resetResourceIEs.ies[0], some d), (resetResourceIEs.ies[1], some c), (resetResourceIEs.ies[2], some l)] ++
      r.toList.map fun r => (resetResourceIEs.ies[3], some r) := by
  cases r <;> with_unfolding_all rfl

theorem ok_resetResource (d : Nat) (c : Option Cause) (i : Option (List (BitVec 32))) (r : Option RncId) :
    CallOk (.resetResource d c i r) := by
  cases i with
  | none => cases c <;> rfl
  | some ids =>
    cases c with
    | none =>
      match ids with
      | [] => rfl
      | [_] => rfl
      | _ :: _ :: _ => rfl
    | some c =>
      match ids with
      | [] => exact ⟨none, rfl, does_give_up [] (by simp [leftBehind])⟩
      | _ :: _ :: _ => exact ⟨none, rfl, does_give_up [] (by simp [leftBehind])⟩
      | [id] =>
        simp only [CallOk, Call.run, Call.result, resetResourceM, resetResource]
        generalize hs : put resetResourceItemIEs idIuSigConIdItem (.seq [some (.bits (u24Bits id)), none])
          resetResourceItemIEs.zero = s
        obtain ⟨b, hb1, -⟩ := encode_exists (t := RANAP_ResetResourceItem) (by decide)
          (v := .seq [some (.bits (low24 id)), none]) rfl
        have hitem : encodeIes resetResourceItemIEs s = some [⟨78, 0, b⟩] := by
          rw [← hs]
          show encodeRows _ 0 0 [some ⟨.seq [some (.bits (low24 id)), none], none⟩] = _
          simp [encodeRows, resetResourceItemIEs, newIe, hb1]
        have hfl : fits RANAP_ResetResourceList (container [⟨78, 0, b⟩]) = true := rfl
        rw [hitem]
        refine ⟨_, rfl, does_encode item_mem.2 fun out _ => ?_⟩
        rw [hitem, List.append_nil]
        refine does_finish 1 27 reject is_resetResourceIEs.mem _ out false ?_
        have hd := domain_fits d
        have hc := cause_fits c
        simp only [Bool.false_eq_true, if_false, leftBehind]
        refine Eq.trans (congrArg leftOf (Eq.trans ?_ (rr_rows (.enum d) c.toVal (container [⟨78, 0, b⟩]) (r.map RncId.toVal)))) ?_
        · cases r <;> rfl
        · cases r with
          | none =>
            by_cases h1 : ValidDomain d <;> by_cases h2 : ValidCause c <;>
              simp [leftOf, made, good, resetResourceIEs, hd, hc, hfl, h1, h2, elementBlocks]
          | some r =>
            have hr := rnc_fits r
            by_cases h1 : ValidDomain d <;> by_cases h2 : ValidCause c <;> by_cases h3 : ValidRnc r <;>
              simp [leftOf, made, good, resetResourceIEs, hd, hc, hr, hfl, h1, h2, h3, elementBlocks]

/-! ## RAB assignment -/

theorem does_pair {ies : List Nat} (t1 : Ty) (v1 : Val) (t2 : Ty) (v2 : Val)
    {k : Option (List Nat) → M (Option (Bytes × List Nat))} {res : Option Bytes} {left : Nat}
    (h0 : DoesWith ies (k none) res left) (h1 : ∀ p, DoesWith (p ++ ies) (k (some p)) res left) :
    DoesWith ies (newIePairM t1 v1 t2 v2 >>= k) res left := by
  intro μ live hl
  have l1 := live_calloc hl
  rw [bind_eq, newIePairM, bind_eq]
  cases encode t1 v1 with
  | none => exact h0 _ _ (live_release l1)
  | some b1 =>
    have l2 := live_calloc l1
    simp only [bind_eq]
    cases encode t2 v2 with
    | none =>
      refine h0 _ _ (live_release (l2.perm ?_))
      rw [List.append_assoc]
      exact List.perm_append_comm_assoc _ _ _
    | some b2 =>
      have l3 := live_calloc l2
      refine h1 ((calloc μ).1 ++ (calloc (calloc μ).2).1 ++ (calloc (calloc (calloc μ).2).2).1) _ _ (l3.perm ?_)
      refine List.perm_iff_count.2 fun a => ?_
      simp only [List.count_append]
      omega

/-- With the blocks `ies` in hand, these or others are handed on. -/
def GivesWith (ies : List Nat) (c : M (List Nat)) : Prop := ∀ μ l, Live μ (ies ++ l) → Live (c μ).2 ((c μ).1 ++ l)

theorem gw_give {ies : List Nat} {c : M (List Nat)} (hc : Gives c) {k : List Nat → M (List Nat)}
    (hk : ∀ bs, GivesWith (bs ++ ies) (k bs)) : GivesWith ies (c >>= k) := by
  intro μ l hl
  have := hc μ _ hl
  rw [← List.append_assoc] at this
  exact hk _ _ _ this

theorem gw_release {ies ies' bs : List Nat} (hp : ies'.Perm (bs ++ ies)) {k : Unit → M (List Nat)}
    (hk : GivesWith ies (k ())) : GivesWith ies' (release bs >>= k) := by
  intro μ l hl
  have := hl.perm (hp.append_right l)
  rw [List.append_assoc] at this
  exact hk _ _ (live_release this)

theorem gw_pure {ies r : List Nat} (hp : ies.Perm r) : GivesWith ies (pure r) :=
  fun _ l hl => hl.perm (hp.append_right l)

theorem gives_formatInfo : Gives formatInfoParsM := gives_parts (by simp [newLongM, gives_calloc])

theorem gives_sduVoice (ratio : Bool) : Gives (sduParVoiceM ratio) :=
  gives_parts (by simp [arrayM, gives_calloc, gives_formatInfo, gives_callocIf])

theorem gives_sduData : Gives sduParDataM := by
  refine fun μ l hl => gw_give (ies := []) gives_calloc (fun a => gw_give gives_calloc fun b => gw_give gives_calloc fun c =>
    gw_release (ies := a ++ c) ?_ (gw_pure (.refl _))) μ l hl
  refine List.perm_iff_count.2 fun a => ?_
  simp only [List.count_append, List.count_nil]
  omega

theorem gives_parVoice : Gives rabParVoiceM :=
  gives_parts (by simp [newLongM, arrayM, gives_calloc, gives_sduVoice])

theorem gives_parData : Gives rabParDataM := by
  refine fun μ l hl => gw_give (ies := []) (gives_parts ?_) (fun a => gw_give gives_calloc fun b =>
    gw_give (gives_parts ?_) fun c => gw_give gives_calloc fun d => gw_release (ies := a ++ b ++ d) ?_
      (gw_give (gives_parts ?_) fun e => gw_pure ?_)) μ l hl
  · simp [newLongM, arrayM, gives_calloc, gives_sduData]
  · simp [arrayM, gives_calloc]
  · refine List.perm_iff_count.2 fun a => ?_
    simp only [List.count_append, List.count_nil]
    omega
  · simp [arrayM, gives_calloc]
  · refine List.perm_iff_count.2 fun a => ?_
    simp only [List.count_append]
    omega

theorem gives_small : Gives nasSyncIndM ∧ Gives upiM ∧ Gives rabIdM ∧ Gives transpInfoM :=
  ⟨gives_parts (by simp [gives_calloc]), gives_parts (by simp [gives_calloc]), gives_calloc,
    gives_parts (by simp [gives_calloc])⟩

theorem does_rabAssign (first second : Val) {firstM secondM : M (List Nat)} (h1 : Gives firstM) (h2 : Gives secondM) :
    ∃ r, rabAssign first second = .ok r ∧ DoesWith [] (rabAssignM first second firstM secondM) r 0 := by
  refine ⟨_, rfl, ?_⟩
  have hleft : ∀ v, leftOf (rows rAB_AssignmentRequestIEs (put rAB_AssignmentRequestIEs idRAB_SetupOrModifyList v
      (setMask (present rAB_AssignmentRequestIEs idRAB_SetupOrModifyList) rAB_AssignmentRequestIEs.zero))) = 0 := by
    intro v
    have : rows rAB_AssignmentRequestIEs (put rAB_AssignmentRequestIEs idRAB_SetupOrModifyList v
      (setMask (present rAB_AssignmentRequestIEs idRAB_SetupOrModifyList) rAB_AssignmentRequestIEs.zero)) =
      [(rAB_AssignmentRequestIEs.ies[0], some v)] := by with_unfolding_all rfl
    rw [this]
    exact leftOf_one _
  refine does_bind h1 fun f => does_bind h2 fun s => does_pair _ _ _ _ ?_ fun p => ?_
  · refine DoesWith.perm (ies := f ++ (s ++ [])) (does_release (does_release ?_)) ?_
    · refine does_bind gives_calloc fun cp => does_bind (gives_callocIf _) fun ca => does_bind gives_calloc fun a => ?_
      refine DoesWith.perm (does_finish 1 0 reject is_rAB_AssignmentRequestIEs.mem _ _ false (hleft _)) ?_
      refine List.perm_iff_count.2 fun x => ?_
      simp only [List.count_append, List.count_nil]
      omega
    · refine List.perm_iff_count.2 fun x => ?_
      simp only [List.count_append, List.count_nil]
      omega
  · refine DoesWith.perm (ies := f ++ (s ++ p)) (does_release (does_release ?_)) ?_
    · refine does_bind gives_calloc fun cp => does_bind (gives_callocIf _) fun ca => does_bind gives_calloc fun a => ?_
      refine DoesWith.perm (does_finish 1 0 reject is_rAB_AssignmentRequestIEs.mem _ _ false (hleft _)) ?_
      refine List.perm_iff_count.2 fun x => ?_
      simp only [List.count_append]
      omega
    · refine List.perm_iff_count.2 fun x => ?_
      simp only [List.count_append, List.count_nil]
      omega

theorem ok_rabAssignVoice (rab : Byte) (ip : BitVec 32) (port : BitVec 16) (x213 : Bool) :
    CallOk (.rabAssignVoice rab ip port x213) :=
  does_rabAssign _ _ (gives_parts (by
    simp [gives_parVoice, gives_small.1, gives_small.2.1, gives_small.2.2.1, gives_small.2.2.2])) gives_nil

theorem ok_rabAssignData (rab : Byte) (ip tei : BitVec 32) (x213 : Bool) : CallOk (.rabAssignData rab ip tei x213) :=
  does_rabAssign _ _ (gives_parts (by
    simp [gives_parData, gives_small.2.1, gives_small.2.2.1, gives_small.2.2.2]))
    (gives_parts (by simp [newLongM, arrayM, gives_calloc]))

/-! ## Security Mode Command -/

/-- Algorithms made by the loop. -/
def cnt (mask : Byte) : List Nat → Nat
  | [] => 0
  | i :: is =>
    if mask &&& ((1 : Byte) <<< i) = 0 then cnt mask is
    else if i = 1 ∨ i = 2 then cnt mask is + 1
    else 0

theorem algorithmsM_spec (mask : Byte) (is els array : List Nat) (μ : Heap) (l : List Nat)
    (h : Live μ (els ++ array ++ l)) :
    Live (algorithmsM mask is els array μ).2 ((algorithmsM mask is els array μ).1.2.1 ++
      (algorithmsM mask is els array μ).1.2.2 ++ l) ∧
    (algorithmsM mask is els array μ).1.2.1.length = els.length + cnt mask is ∧
    (algorithmsM mask is els array μ).1.2.2.length =
      if array.isEmpty = true ∧ cnt mask is ≠ 0 then 1 else array.length := by
  induction is generalizing els array μ with
  | nil => exact ⟨h, rfl, by simp [algorithmsM, cnt, pure_eq]⟩
  | cons i is ih =>
    rw [algorithmsM, cnt]
    split
    · exact ih _ _ _ h
    · split
      · have h1 := live_calloc h
        have n1 : (calloc μ).1.length = 1 := rfl
        simp only [bind_eq]
        generalize calloc μ = r1 at *
        obtain ⟨alg, μ1⟩ := r1
        simp only at h1 n1 ⊢
        have h2 := gives_callocIf array.isEmpty μ1 _ h1
        have n2 : (callocIf array.isEmpty μ1).1.length = if array.isEmpty = true then 1 else 0 := by
          unfold callocIf; split <;> rfl
        generalize callocIf array.isEmpty μ1 = r2 at *
        obtain ⟨a, μ2⟩ := r2
        simp only at h2 n2 ⊢
        obtain ⟨i1, i2, i3⟩ := ih (alg ++ els) (a ++ array) μ2 (h2.perm (by
          refine List.perm_iff_count.2 fun x => ?_
          simp only [List.count_append]
          omega))
        refine ⟨i1, ?_, ?_⟩
        · rw [i2]; simp only [List.length_append]; omega
        · rw [i3]
          cases array with
          | nil =>
            simp only [List.isEmpty_nil, if_true] at n2
            cases a with
            | nil => simp at n2
            | cons x xs => simp at n2; simp [n2]
          | cons x xs =>
            simp only [List.isEmpty_cons, Bool.false_eq_true, if_false] at n2
            simp [n2]
      · exact ⟨h, by simp [pure_eq], by simp [pure_eq]⟩

/-- Algorithms made for a mask. -/
def algs (mask : Byte) : Nat := if mask.getLsbD 0 then 0 else known mask

theorem cnt_algs : ∀ mask, cnt mask [0, 1, 2, 3, 4, 5, 6, 7] = algs mask := by decide +kernel

theorem does_algs {ies : List Nat} (mask : Byte) {k : Bool × List Nat × List Nat → M (Option (Bytes × List Nat))}
    {res : Option Bytes} {left : Nat}
    (hk : ∀ ok els array, els.length = algs mask → array.length = (if algs mask = 0 then 0 else 1) →
      DoesWith (els ++ array ++ ies) (k (ok, els, array)) res left) :
    DoesWith ies (algorithmsM mask [0, 1, 2, 3, 4, 5, 6, 7] [] [] >>= k) res left := by
  intro μ live hl
  obtain ⟨h1, h2, h3⟩ := algorithmsM_spec mask [0, 1, 2, 3, 4, 5, 6, 7] [] [] μ (ies ++ live) hl
  rw [bind_eq]
  generalize algorithmsM mask [0, 1, 2, 3, 4, 5, 6, 7] [] [] μ = r at *
  obtain ⟨⟨ok, els, array⟩, μ'⟩ := r
  simp only [cnt_algs, List.length_nil, Nat.zero_add, List.isEmpty_nil, true_and] at h1 h2 h3
  rw [← List.append_assoc] at h1
  refine hk ok els array h2 ?_ _ _ h1
  rw [h3]
  by_cases h0 : algs mask = 0 <;> simp [h0]

theorem does_key {ies : List Nat} (key : Option Bytes) {k : List Nat → M (Option (Bytes × List Nat))}
    {res : Option Bytes} {left : Nat}
    (hk : ∀ bs, bs.length = key.toList.length → DoesWith (bs ++ ies) (k bs) res left) :
    DoesWith ies (keyM key >>= k) res left := by
  cases key with
  | none => exact hk [] rfl
  | some key => exact does_calloc hk

theorem unknown_iff (mask : Byte) : Unknown mask ↔ ¬ onlyTwo mask := by
  unfold Unknown onlyTwo
  constructor
  · rintro ⟨i, h, h1, h2⟩ h'
    rcases h' i h with h | h <;> contradiction
  · intro h
    apply Classical.byContradiction
    intro h'
    refine h fun i hi => Classical.byContradiction fun hn => h' ⟨i, hi, fun e => hn (.inl e), fun e => hn (.inr e)⟩

theorem algs_known {mask : Byte} (h : onlyTwo mask) : algs mask = known mask := by
  have := ((onlyTwo_iff mask).1 h).1
  unfold algs
  rw [this]
  rfl

theorem known_zero (mask : Byte) : (mask.getLsbD 1 || mask.getLsbD 2) = !decide (known mask = 0) := by
  unfold known
  cases mask.getLsbD 1 <;> cases mask.getLsbD 2 <;> rfl

theorem sm_rows (a k : Val) (e : Option Val) : rows securityModeCommandIEs
    (put securityModeCommandIEs idKeyStatus k (match e with
      | some e => put securityModeCommandIEs idEncryptionInformation e
        (setMask (present securityModeCommandIEs idEncryptionInformation)
          (put securityModeCommandIEs idIntegrityProtectionInformation a securityModeCommandIEs.zero))
      | none => put securityModeCommandIEs idIntegrityProtectionInformation a securityModeCommandIEs.zero)) =
    (securityModeCommandIEs.ies[0], some a) :: (e.toList.map fun e => (securityModeCommandIEs.ies[1], some e)) ++
      [(securityModeCommandIEs.ies[2], some k)] := by
  cases e <;> with_unfolding_all rfl

theorem no_key_fits (l : List Val) :
    fits RANAP_IntegrityProtectionInformation (.seq [some (.list l), some (.bits []), none]) = false := by
  have h0 : fits RANAP_IntegrityProtectionKey (.bits []) = false := rfl
  simp only [RANAP_IntegrityProtectionInformation, fits, fitsFields, h0, Bool.and_false, Bool.false_and]

theorem ok_secModCmd2 (ik ck : Option Bytes) (st : Nat) (uia uea : Byte) : CallOk (.secModCmd2 ik ck st uia uea) := by
  simp only [CallOk, Call.run, Call.result, secModCmd2M, secModCmd2, leftBehind]
  obtain ⟨a1, a2⟩ := algorithms_eq uia 0 1
  obtain ⟨e1, e2⟩ := algorithms_eq uea 1 2
  have hst : fits RANAP_KeyStatus (.enum st) = decide (st < 2) := by
    simp only [RANAP_KeyStatus, fits]
    by_cases h : st < 2 <;> simp [h]
  by_cases hu : ¬ onlyTwo uia
  · rw [a2 hu]
    simp only [if_pos ((unknown_iff uia).2 hu)]
    refine ⟨none, rfl, does_algs uia fun ok els array h1 h2 => does_give_up _ ?_⟩
    simp only [List.length_append, List.length_nil, h1, h2, algorithmBlocks]
    rw [show (if uia.getLsbD 0 = true then 0 else known uia) = algs uia from rfl]
    split <;> omega
  have hu := Classical.not_not.1 hu
  rw [a1 hu]
  have hu' : ¬ Unknown uia := by rw [unknown_iff]; exact fun h => h hu
  simp only [if_neg hu']
  generalize hk : keyBits ik = kr
  cases kr with
  | fault f => rfl
  | ok ikBits =>
    have hfi : fits RANAP_IntegrityProtectionInformation (.seq [some (.list (selected uia 0 1)), some (.bits ikBits), none]) =
        decide (¬ (known uia = 0 ∨ ik = none)) := by
      cases ik with
      | none => cases hk; rw [no_key_fits]; simp
      | some b =>
        simp only [keyBits] at hk
        split at hk
        · cases hk
        · rename_i hb
          cases hk
          have := (secInfo_fits uia 0 1 (by decide) (by decide) b (by omega)).1
          rw [known_zero] at this
          unfold securityInfo at this
          rw [this]
          simp
    cases ck with
    | none =>
      refine ⟨_, rfl, does_algs uia fun ok els array _ _ => does_key ik fun k _ => ?_⟩
      refine DoesWith.perm (does_finish 1 6 reject is_securityModeCommandIEs.mem _ _ false ?_) ?_
      · refine Eq.trans (congrArg leftOf (sm_rows _ _ none)) ?_
        by_cases h1 : known uia = 0 ∨ ik = none <;> by_cases h2 : st < 2 <;>
          simp [leftOf, made, good, securityModeCommandIEs, hfi, hst, h1, h2, elementBlocks]
      · refine List.perm_iff_count.2 fun x => ?_
        simp only [List.count_append, List.count_nil]
        omega
    | some ck =>
      by_cases hv : ¬ onlyTwo uea
      · rw [e2 hv]
        simp only [(unknown_iff uea).2 hv, Option.isSome_some, and_self, if_true]
        refine ⟨none, rfl, does_algs uia fun ok els array n1 _ => does_key ik fun k n2 =>
          does_algs uea fun ok' els' array' n3 n4 => ?_⟩
        refine DoesWith.perm (ies := array ++ (els ++ k ++ (els' ++ array'))) (does_release (does_give_up _ ?_)) ?_
        · simp only [List.length_append, n1, n2, n3, n4, algs_known hu, algorithmBlocks]
          rw [show (if uea.getLsbD 0 = true then 0 else known uea) = algs uea from rfl]
          split <;> omega
        · refine List.perm_iff_count.2 fun x => ?_
          simp only [List.count_append, List.count_nil]
          omega
      have hv := Classical.not_not.1 hv
      rw [e1 hv]
      have hv' : ¬ Unknown uea := by rw [unknown_iff]; exact fun h => h hv
      simp only [hv', and_false, if_false]
      by_cases hl : ck.length < 16
      · simp only [keyBits, if_pos hl]
      · simp only [keyBits, if_neg hl]
        have hfe : fits RANAP_EncryptionInformation (.seq [some (.list (selected uea 1 2)),
            some (.bits (octetsBits (ck.take 16))), none]) = decide (¬ known uea = 0) := by
          have := (secInfo_fits uea 1 2 (by decide) (by decide) ck (by omega)).1
          rw [known_zero] at this
          have h' : fits RANAP_EncryptionInformation (securityInfo (selected uea 1 2) ck) = _ := this
          unfold securityInfo at h'
          rw [h']
          simp
        refine ⟨_, rfl, does_algs uia fun ok els array _ _ => does_key ik fun k _ =>
          does_algs uea fun ok' els' array' _ _ => does_key (some ck) fun k' _ => ?_⟩
        refine DoesWith.perm (does_finish 1 6 reject is_securityModeCommandIEs.mem _ _ false ?_) ?_
        · refine Eq.trans (congrArg leftOf (sm_rows _ _ (some (.seq [some (.list (selected uea 1 2)),
            some (.bits (octetsBits (ck.take 16))), none])))) ?_
          by_cases h1 : known uia = 0 ∨ ik = none <;> by_cases h3 : known uea = 0 <;> by_cases h2 : st < 2 <;>
            simp [leftOf, made, good, securityModeCommandIEs, hfi, hfe, hst, h1, h2, h3, elementBlocks]
        · refine List.perm_iff_count.2 fun x => ?_
          simp only [List.count_append, List.count_nil]
          omega

theorem call_ok (c : Call) : CallOk c := by
  cases c with
  | reset2 d c r => exact ok_reset2 d c r
  | resetAck d r => exact ok_resetAck d r
  | errorInd c v d r => exact ok_errorInd c v d r
  | initialUe i p r n => exact ok_initialUe i p r n
  | dt s n => exact ok_dt s n
  | secModCmd2 ik ck st a e => exact ok_secModCmd2 ik ck st a e
  | secModCompl i e => exact ok_secModCompl i e
  | commonId i => exact ok_commonId i
  | iuRelCmd c => exact ok_iuRelCmd c
  | iuRelCompl => exact ok_iuRelCompl
  | pagingCmd i t p c => exact ok_pagingCmd i t p c
  | rabAssignVoice r i p x => exact ok_rabAssignVoice r i p x
  | rabAssignData r i t x => exact ok_rabAssignData r i t x
  | iuRelReq c => exact ok_iuRelReq c
  | rabRelReq r c => exact ok_rabRelReq r c
  | resetResource d c i r => exact ok_resetResource d c i r

end Verif.Factory
