import Verif.Proofs.FactoryMem
import Verif.Props.FactorySec
import Verif.Props.FactoryRab

/-!
# Memory of the message generators, one by one
-/

namespace Verif.Factory
open Verif.Aper Verif.Ie Verif.Ie.Spec Verif.Rx.Spec Verif.Wire Verif.Gen.Ranap Verif.Factory.Spec Verif.Props
open Verif.Aper.Spec (fits fitsFields fitsAlt fitsOct fitsLen)

/-- With the blocks `ies` in hand: the result, and the number of blocks left behind. -/
def DoesWith (ies : List Nat) (x : M (Option (Bytes × List Nat))) (res : Option Bytes) (left : Nat) : Prop :=
  ∀ μ live, Live μ (ies ++ live) → (x μ).1.map (·.1) = res ∧ ∃ lost : List Nat, lost.length = left ∧
    (match (x μ).1 with
    | some (_, msg) => msg.length = 1 ∧ Live (x μ).2 (msg ++ lost ++ live)
    | none => Live (x μ).2 (lost ++ live)) ∧ (res.isSome = true → left = 0)

theorem does_finish (present code crit : Nat) {m : MsgDef} (hm : m ∈ tables) (s : Struct) (ies : List Nat)
    (rel : Bool) {left : Nat} (h : (if rel = true then 0 else leftOf (rows m s)) = left) :
    DoesWith ies (finish present code crit m s ies rel) (generate present code crit m s) left := by
  intro μ live hl
  obtain ⟨h1, lost, h2, h3⟩ := finish_spec present code crit hm s ies rel μ live hl
  refine ⟨h1, lost, h2.trans h, h3, fun hs => ?_⟩
  rw [← h]
  split
  · rfl
  · have h4 := (encodeM_spec hm s μ _ hl).2.2.2
    unfold generate encodeMsg at hs
    cases he : encodeIes m s with
    | none => rw [he] at hs; cases hs
    | some l =>
      rw [he, Option.isSome_some] at h4
      rw [leftOf, if_pos h4.symm]

theorem does_bind {ies : List Nat} {c : M (List Nat)} (hc : Gives c) {k : List Nat → M (Option (Bytes × List Nat))}
    {res : Option Bytes} {left : Nat} (hk : ∀ bs, DoesWith (bs ++ ies) (k bs) res left) :
    DoesWith ies (c >>= k) res left := by
  intro μ live hl
  have := hc μ _ hl
  rw [← List.append_assoc] at this
  exact hk _ _ _ this

theorem does_calloc {ies : List Nat} {k : List Nat → M (Option (Bytes × List Nat))}
    {res : Option Bytes} {left : Nat} (hk : ∀ bs, bs.length = 1 → DoesWith (bs ++ ies) (k bs) res left) :
    DoesWith ies (calloc >>= k) res left := by
  intro μ live hl
  have := live_calloc hl
  rw [← List.append_assoc] at this
  exact hk _ rfl _ _ this

theorem DoesWith.perm {ies ies' : List Nat} {x : M (Option (Bytes × List Nat))} {res : Option Bytes} {left : Nat}
    (h : DoesWith ies x res left) (p : ies'.Perm ies) : DoesWith ies' x res left :=
  fun μ live hl => h μ live (hl.perm (p.append_right _))

theorem does_encode {ies : List Nat} {m : MsgDef} (hm : m ∈ tables) {s : Struct}
    {k : Option (List Ie) × List Nat → M (Option (Bytes × List Nat))} {res : Option Bytes} {left : Nat}
    (hk : ∀ out, out.length = elementBlocks (made (rows m s)) → DoesWith (out ++ ies) (k (encodeIes m s, out)) res left) :
    DoesWith ies (encodeM m s >>= k) res left := by
  intro μ live hl
  obtain ⟨h1, h2, h3, -⟩ := encodeM_spec hm s μ _ hl
  rw [← List.append_assoc] at h2
  have := hk _ h3 _ _ h2
  rw [← h1] at this
  exact this

theorem encodeIes_isSome {m : MsgDef} (hm : m ∈ tables) (s : Struct) :
    (encodeIes m s).isSome = (rows m s).all good :=
  (encodeM_spec hm s ⟨0, []⟩ [] ⟨⟨[], rfl, .refl _⟩, by simp⟩).2.2.2

theorem does_give_up (ies : List Nat) {left : Nat} (h : ies.length = left) : DoesWith ies (pure none) none left :=
  fun _ _ hl => ⟨rfl, ies, h, hl, by simp⟩

theorem does_release {bs ies : List Nat} {k : Unit → M (Option (Bytes × List Nat))} {res : Option Bytes} {left : Nat}
    (hk : DoesWith ies (k ()) res left) : DoesWith (bs ++ ies) (release bs >>= k) res left := by
  intro μ live hl
  rw [List.append_assoc] at hl
  exact hk _ _ (live_release hl)

/-- What is proved of every call. -/
def CallOk (c : Call) : Prop :=
  match c.run with
  | .fault f => c.result = .fault f
  | .ok x => ∃ r, c.result = .ok r ∧ DoesWith [] x r (leftBehind c)

/-- Nothing is left of a single element. -/
theorem leftOf_one (x : IeDef × Option Val) : leftOf [x] = 0 := by
  unfold leftOf made
  cases h : good x <;> simp [h, elementBlocks]

theorem ok_reset2 (d : Nat) (c : Option Cause) (r : Option RncId) : CallOk (.reset2 d c r) := by
  refine ⟨_, rfl, does_finish 1 9 reject is_resetIEs.mem _ [] false ?_⟩
  simp only [Bool.false_eq_true, if_false, leftBehind]
  have hd := domain_fits d
  have hz : zeroVal RANAP_Cause = none := rfl
  cases c with
  | none =>
    have : ∀ s1 s2 mask, leftOf (rows resetIEs ⟨mask, [none, s1, s2]⟩) = 0 := by
      intro s1 s2 mask
      simp [leftOf, rows, rowsOf, resetIEs, made, good, slotVal, hz, elementBlocks]
    cases r <;> simp <;> exact this ..
  | some c =>
    have hc := cause_fits c
    cases r with
    | none =>
      have : rows resetIEs (put resetIEs idCause c.toVal (put resetIEs idCN_DomainIndicator (.enum d) resetIEs.zero)) =
        [(resetIEs.ies[0], some c.toVal), (resetIEs.ies[1], some (.enum d))] := by with_unfolding_all rfl
      simp only
      rw [this]
      by_cases h1 : ValidCause c <;> by_cases h2 : ValidDomain d <;> simp [leftOf, made, good, resetIEs, hd, hc, h1, h2, elementBlocks]
    | some r =>
      have hr := rnc_fits r
      have : rows resetIEs (put resetIEs idGlobalRNC_ID r.toVal (setMask (present resetIEs idGlobalRNC_ID)
          (put resetIEs idCause c.toVal (put resetIEs idCN_DomainIndicator (.enum d) resetIEs.zero)))) =
        [(resetIEs.ies[0], some c.toVal), (resetIEs.ies[1], some (.enum d)), (resetIEs.ies[2], some r.toVal)] := by
        with_unfolding_all rfl
      simp only
      rw [this]
      by_cases h1 : ValidCause c <;> by_cases h2 : ValidDomain d <;> by_cases h3 : ValidRnc r <;>
        simp [leftOf, made, good, resetIEs, hd, hc, hr, h1, h2, h3, elementBlocks]

theorem ok_resetAck (d : Nat) (r : Option RncId) : CallOk (.resetAck d r) := by
  refine ⟨_, rfl, does_finish 2 9 reject is_resetAcknowledgeIEs.mem _ [] false ?_⟩
  simp only [Bool.false_eq_true, if_false, leftBehind]
  have hd := domain_fits d
  cases r with
  | none =>
    have : rows resetAcknowledgeIEs (put resetAcknowledgeIEs idCN_DomainIndicator (.enum d) resetAcknowledgeIEs.zero) =
      [(resetAcknowledgeIEs.ies[0], some (.enum d))] := by with_unfolding_all rfl
    simp only
    rw [this]
    by_cases h2 : ValidDomain d <;> simp [leftOf, made, good, resetAcknowledgeIEs, hd, h2, elementBlocks]
  | some r =>
    have hr := rnc_fits r
    have : rows resetAcknowledgeIEs (put resetAcknowledgeIEs idGlobalRNC_ID r.toVal (setMask (present resetAcknowledgeIEs idGlobalRNC_ID)
        (put resetAcknowledgeIEs idCN_DomainIndicator (.enum d) resetAcknowledgeIEs.zero))) =
      [(resetAcknowledgeIEs.ies[0], some (.enum d)), (resetAcknowledgeIEs.ies[2], some r.toVal)] := by
      with_unfolding_all rfl
    simp only
    rw [this]
    by_cases h2 : ValidDomain d <;> by_cases h3 : ValidRnc r <;>
      simp [leftOf, made, good, resetAcknowledgeIEs, hd, hr, h2, h3, elementBlocks]

/-- The structure without a Global-RNC-ID. -/
def eiStruct (c : Option Cause) (v : Option Val) (d : Option Nat) : Struct :=
  let m := errorIndicationIEs
  let s := m.zero
  let s := match c with
    | some c => put m idCause c.toVal (orMask (present m idCause) s)
    | none => s
  let s := match v with
    | some v => put m idCriticalityDiagnostics v (orMask (present m idCriticalityDiagnostics) s)
    | none => s
  match d with
    | some d => put m idCN_DomainIndicator (.enum d) (orMask (present m idCN_DomainIndicator) s)
    | none => s

theorem ok_errorInd (c : Option Cause) (v : Option Val) (d : Option Nat) (r : Option RncId) :
    CallOk (.errorInd c v d r) := by
  refine ⟨_, rfl, does_finish 1 22 ignore is_errorIndicationIEs.mem _ [] false ?_⟩
  simp only [Bool.false_eq_true, if_false, leftBehind]
  cases r with
  | some r =>
    simp only [Option.isSome_some, if_true]
    have : ∀ s1 s2 s3 s4, leftOf (rows errorIndicationIEs ⟨2, [s1, s2, s3, s4]⟩) = 0 := by
      intro s1 s2 s3 s4
      have : rows errorIndicationIEs ⟨2, [s1, s2, s3, s4]⟩ =
        [(errorIndicationIEs.ies[1], slotVal errorIndicationIEs.ies[1] s2)] := by with_unfolding_all rfl
      rw [this]
      exact leftOf_one _
    cases c <;> cases v <;> cases d <;> exact this ..
  | none =>
    simp only [Option.isSome_none, Bool.false_eq_true, if_false]
    have hrows : rows errorIndicationIEs (eiStruct c v d) =
        c.toList.map (fun c => (errorIndicationIEs.ies[0], some c.toVal)) ++
        v.toList.map (fun v => (errorIndicationIEs.ies[1], some v)) ++
        d.toList.map (fun d => (errorIndicationIEs.ies[2], some (.enum d))) := by
      obtain ⟨m1, m2, m3, m4⟩ := ei_mask
      dsimp only [eiStruct]
      rw [ei_zero, m1, m2, m3]
      cases c <;> cases v <;> cases d <;> simp only [ei_or, ei_put] <;>
        simp [rows, rowsOf, isPresent, presentConst, errorIndicationIEs, slotVal]
    refine Eq.trans (congrArg leftOf hrows) ?_
    cases c with
    | none =>
      cases v with
      | none =>
        cases d with
        | none => simp [leftOf]
        | some d => simpa [elementBlocks] using leftOf_one _
      | some v =>
        cases d with
        | none => simpa [elementBlocks] using leftOf_one _
        | some d =>
          have hd := domain_fits d
          by_cases h1 : fits RANAP_CriticalityDiagnostics v = true <;> by_cases h2 : ValidDomain d <;>
            simp [leftOf, made, good, errorIndicationIEs, hd, h1, h2, elementBlocks]
    | some c =>
      have hc := cause_fits c
      cases v with
      | none =>
        cases d with
        | none => simpa [elementBlocks] using leftOf_one _
        | some d =>
          have hd := domain_fits d
          by_cases h1 : ValidCause c <;> by_cases h2 : ValidDomain d <;>
            simp [leftOf, made, good, errorIndicationIEs, hd, hc, h1, h2, elementBlocks]
      | some v =>
        cases d with
        | none =>
          by_cases h1 : ValidCause c <;> by_cases h2 : fits RANAP_CriticalityDiagnostics v = true <;>
            simp [leftOf, made, good, errorIndicationIEs, hc, h1, h2, elementBlocks]
        | some d =>
          have hd := domain_fits d
          by_cases h1 : ValidCause c <;> by_cases h2 : fits RANAP_CriticalityDiagnostics v = true <;>
            by_cases h3 : ValidDomain d <;>
            simp [leftOf, made, good, errorIndicationIEs, hc, hd, h1, h2, h3, elementBlocks]

theorem ok_initialUe (i : BitVec 32) (p : Bool) (r : Option RncId) (nas : Bytes) : CallOk (.initialUe i p r nas) := by
  cases r with
  | none => rfl
  | some r =>
    refine ⟨_, rfl, does_finish 1 19 ignore is_initialUE_MessageIEs.mem _ [] false ?_⟩
    simp only [Bool.false_eq_true, if_false, leftBehind]
    have hrows : ∀ a b c d e f, rows initialUE_MessageIEs ⟨0, [some ⟨a, none⟩, some ⟨b, none⟩, none, some ⟨c, none⟩,
        some ⟨d, none⟩, some ⟨e, none⟩, some ⟨f, none⟩]⟩ =
        [(initialUE_MessageIEs.ies[0], some a), (initialUE_MessageIEs.ies[1], some b), (initialUE_MessageIEs.ies[3], some c),
          (initialUE_MessageIEs.ies[4], some d), (initialUE_MessageIEs.ies[5], some e),
          (initialUE_MessageIEs.ies[6], some f)] := by
      intros; with_unfolding_all rfl
    refine Eq.trans (congrArg leftOf (hrows (.enum (if p then 1 else 0))
      (.seq [some (.octets r.plmn), some (.octets buf0), none])
      (.seq [some (.octets r.plmn), some (.octets buf0), some (.octets buf0), none]) (.octets nas)
      (.bits (u24Bits i)) r.toVal)) ?_
    have fd : fits RANAP_CN_DomainIndicator (.enum (if p then 1 else 0)) = true := by cases p <;> rfl
    have fr := rnc_fits r
    have fl : fits RANAP_LAI (.seq [some (.octets r.plmn), some (.octets buf0), none]) = decide (r.plmn.length = 3) := by
      by_cases h : r.plmn.length = 3
      · simp [RANAP_LAI, RANAP_PLMNidentity, RANAP_LAC, fits, fitsFields, fitsOct, h, buf0]
      · have h' : ¬ (3 ≤ r.plmn.length ∧ r.plmn.length ≤ 3) := by omega
        simp [RANAP_LAI, RANAP_PLMNidentity, fits, fitsFields, fitsOct, h, h']
    have fs : r.plmn.length = 3 → fits RANAP_SAI (.seq [some (.octets r.plmn), some (.octets buf0), some (.octets buf0), none])
        = true := by
      intro h
      simp [RANAP_SAI, RANAP_PLMNidentity, RANAP_LAC, RANAP_SAC, fits, fitsFields, fitsOct, h, buf0]
    have fi : fits RANAP_IuSignallingConnectionIdentifier (.bits (u24Bits i)) = true := rfl
    have fn := nas_fits nas
    by_cases h1 : r.plmn.length = 3
    · have fs := fs h1
      by_cases h2 : ValidRnc r <;>
        simp [leftOf, made, good, initialUE_MessageIEs, fd, fr, fl, fs, fi, fn, h1, h2, elementBlocks]
    · simp [leftOf, made, good, initialUE_MessageIEs, fd, fl, h1, elementBlocks]

theorem ok_dt (sapi : Byte) (nas : Bytes) : CallOk (.dt sapi nas) := by
  refine ⟨_, rfl, does_finish 1 20 ignore is_directTransferIEs.mem _ [] false ?_⟩
  simp only [Bool.false_eq_true, if_false, leftBehind]
  have hrows : ∀ a b, rows directTransferIEs (put directTransferIEs idNAS_PDU b (put directTransferIEs idSAPI a
      (setMask (present directTransferIEs idSAPI) directTransferIEs.zero))) =
      [(directTransferIEs.ies[0], some b), (directTransferIEs.ies[4], some a)] := by intros; with_unfolding_all rfl
  refine Eq.trans (congrArg leftOf (hrows _ _)) ?_
  have fn := nas_fits nas
  have fs : fits RANAP_SAPI (.enum (if sapi = 3#8 then 1 else 0)) = true := by split <;> rfl
  simp [leftOf, directTransferIEs, good, fn, fs]

theorem ok_secModCompl (i e : Int) : CallOk (.secModCompl i e) := by
  refine ⟨_, rfl, does_finish 2 6 reject is_securityModeCompleteIEs.mem _ [] false ?_⟩
  simp only [Bool.false_eq_true, if_false, leftBehind]
  have hrows : ∀ a b, rows securityModeCompleteIEs (put securityModeCompleteIEs idChosenEncryptionAlgorithm b
      (put securityModeCompleteIEs idChosenIntegrityProtectionAlgorithm a
      (setMask (present securityModeCompleteIEs idChosenEncryptionAlgorithm) securityModeCompleteIEs.zero))) =
      [(securityModeCompleteIEs.ies[0], some a), (securityModeCompleteIEs.ies[1], some b)] := by
    intros; with_unfolding_all rfl
  refine Eq.trans (congrArg leftOf (hrows _ _)) ?_
  have f1 : fits RANAP_ChosenIntegrityProtectionAlgorithm (.int i) = decide (0 ≤ i ∧ i ≤ 15) := by
    simp [RANAP_ChosenIntegrityProtectionAlgorithm, RANAP_IntegrityProtectionAlgorithm, fits]
  have f2 : fits RANAP_ChosenEncryptionAlgorithm (.int e) = decide (0 ≤ e ∧ e ≤ 15) := by
    simp [RANAP_ChosenEncryptionAlgorithm, RANAP_EncryptionAlgorithm, fits]
  by_cases h1 : 0 ≤ i ∧ i ≤ 15 <;> by_cases h2 : 0 ≤ e ∧ e ≤ 15 <;>
    simp [leftOf, made, good, securityModeCompleteIEs, f1, f2, h1, h2, elementBlocks]

theorem ok_iuRelCmd (c : Option Cause) : CallOk (.iuRelCmd c) := by
  cases c with
  | none => rfl
  | some c => exact ⟨_, rfl, does_finish 1 1 reject is_iu_ReleaseCommandIEs.mem _ [] false (leftOf_one _)⟩

theorem ok_iuRelCompl : CallOk .iuRelCompl :=
  ⟨_, rfl, does_finish 2 1 reject is_iu_ReleaseCompleteIEs.mem _ [] false (by with_unfolding_all rfl)⟩

theorem ok_iuRelReq (c : Option Cause) : CallOk (.iuRelReq c) := by
  cases c with
  | none => rfl
  | some c => exact ⟨_, rfl, does_finish 1 11 ignore is_iu_ReleaseRequestIEs.mem _ [] true rfl⟩

theorem ok_commonId (imsi : Option Bytes) : CallOk (.commonId imsi) := by
  cases imsi with
  | none => exact ⟨_, rfl, does_finish 1 15 ignore is_commonID_IEs.mem _ [] false (by with_unfolding_all rfl)⟩
  | some imsi =>
    simp only [CallOk, Call.run, Call.result, commonIdM, commonId]
    cases permanentId imsi with
    | fault f => rfl
    | ok v =>
      refine ⟨_, rfl, does_bind gives_calloc fun bs => ?_⟩
      rw [List.append_nil]
      exact does_finish 1 15 ignore is_commonID_IEs.mem _ bs false (leftOf_one _)

theorem gives_callocIf (b : Bool) : Gives (callocIf b) := by
  cases b
  · exact gives_nil
  · exact gives_calloc

/-- Whether the permanent identity can be encoded depends on the length of the IMSI only. -/
theorem permanentId_fits {imsi : Bytes} {v : Val} (h : permanentId imsi = .ok v) :
    fits RANAP_PermanentNAS_UE_ID v = decide (5 ≤ imsi.length ∧ imsi.length ≤ 16) := by
  have hl := Bcd.tbcd_length imsi
  unfold permanentId at h
  rw [Bcd.imsiEncode_eq] at h
  split at h
  · cases h
  · rename_i buf n heq
    split at heq
    · cases heq
      cases h
      simp only [List.take_left]
      simp only [RANAP_PermanentNAS_UE_ID, RANAP_IMSI, fits, fitsAlt, fitsOct, Fields.length, hl]
      by_cases h1 : 5 ≤ imsi.length ∧ imsi.length ≤ 16
      · rw [if_pos (by omega), if_pos (by omega)]; simp [h1]
      · rw [if_pos (by omega), if_neg (by omega)]; simp only [h1, decide_false]
    · cases heq

/-- The structure for a Paging. -/
def pgStruct (v : Val) (t : Option (BitVec 32)) (p : Bool) (c : BitVec 32) : Struct :=
  let m := pagingIEs
  let s := put m idCN_DomainIndicator (.enum (if p then 1 else 0)) m.zero
  let s := put m idPermanentNAS_UE_ID v s
  let s := match t with
    | none => s
    | some t => put m idTemporaryUE_ID (.choice (if p then 1 else 0) (.octets (store32be t)))
      (orMask (present m idTemporaryUE_ID) s)
  if c ≠ 0 then put m idPagingCause (.enum c.toNat) (orMask (present m idPagingCause) s) else s

theorem ok_pagingCmd (imsi : Option Bytes) (t : Option (BitVec 32)) (p : Bool) (c : BitVec 32) :
    CallOk (.pagingCmd imsi t p c) := by
  cases imsi with
  | none => rfl
  | some imsi =>
    simp only [CallOk, Call.run, Call.result, pagingCmdM, pagingCmd]
    cases hv : permanentId imsi with
    | fault f => rfl
    | ok v =>
      refine ⟨_, rfl, does_bind gives_calloc fun bs => does_bind (gives_callocIf _) fun bs' => ?_⟩
      rw [List.append_nil]
      refine DoesWith.perm (does_finish 1 14 ignore is_pagingIEs.mem _ (bs ++ bs') false ?_) List.perm_append_comm
      simp only [Bool.false_eq_true, if_false, leftBehind]
      have hf := permanentId_fits hv
      have fd : fits RANAP_CN_DomainIndicator (.enum (if p then 1 else 0)) = true := by cases p <;> rfl
      have ft : ∀ t : BitVec 32, fits RANAP_TemporaryUE_ID (.choice (if p then 1 else 0) (.octets (store32be t))) = true := by
        intro t
        cases p <;> rfl
      have fc : fits RANAP_PagingCause (.enum c.toNat) = decide (c.toNat < 6) := by
        simp only [RANAP_PagingCause, fits]
        by_cases h : c.toNat < 6 <;> simp [h] <;> omega
      have hrows : rows pagingIEs (pgStruct v t p c) =
          [(pagingIEs.ies[0], some (.enum (if p then 1 else 0))), (pagingIEs.ies[1], some v)] ++
          t.toList.map (fun t => (pagingIEs.ies[2], some (.choice (if p then 1 else 0) (.octets (store32be t))))) ++
          (if c ≠ 0 then [(pagingIEs.ies[4], some (.enum c.toNat))] else []) := by
        dsimp only [pgStruct]
        have h1 : present pagingIEs idPagingCause = 4 := by decide
        have h2 : present pagingIEs idTemporaryUE_ID = 1 := by decide
        rw [h1, h2]
        have hs : ∀ d v t c, put pagingIEs idPagingCause c (orMask 4 (put pagingIEs idTemporaryUE_ID t
            (orMask 1 (put pagingIEs idPermanentNAS_UE_ID v (put pagingIEs idCN_DomainIndicator d pagingIEs.zero))))) =
            ⟨0 ||| 1 ||| 4, [some ⟨d, none⟩, some ⟨v, none⟩, some ⟨t, none⟩, none, some ⟨c, none⟩, none, none]⟩ :=
          fun _ _ _ _ => rfl
        have hs1 : ∀ d v t, put pagingIEs idTemporaryUE_ID t
            (orMask 1 (put pagingIEs idPermanentNAS_UE_ID v (put pagingIEs idCN_DomainIndicator d pagingIEs.zero))) =
            ⟨0 ||| 1, [some ⟨d, none⟩, some ⟨v, none⟩, some ⟨t, none⟩, none, none, none, none]⟩ :=
          fun _ _ _ => rfl
        have hs2 : ∀ d v c, put pagingIEs idPagingCause c (orMask 4
            (put pagingIEs idPermanentNAS_UE_ID v (put pagingIEs idCN_DomainIndicator d pagingIEs.zero))) =
            ⟨0 ||| 4, [some ⟨d, none⟩, some ⟨v, none⟩, none, none, some ⟨c, none⟩, none, none]⟩ :=
          fun _ _ _ => rfl
        have hs3 : ∀ d v, put pagingIEs idPermanentNAS_UE_ID v (put pagingIEs idCN_DomainIndicator d pagingIEs.zero) =
            ⟨0, [some ⟨d, none⟩, some ⟨v, none⟩, none, none, none, none, none]⟩ :=
          fun _ _ => rfl
        by_cases hc : c ≠ 0
        · simp only [if_pos hc]
          cases t
          · simp only [hs2]; simp [rows, rowsOf, isPresent, presentConst, pagingIEs, slotVal]
          · simp only [hs]; simp [rows, rowsOf, isPresent, presentConst, pagingIEs, slotVal]
        · simp only [if_neg hc]
          cases t
          · simp only [hs3]; simp [rows, rowsOf, isPresent, presentConst, pagingIEs, slotVal]
          · simp only [hs1]; simp [rows, rowsOf, isPresent, presentConst, pagingIEs, slotVal]
      refine Eq.trans (congrArg leftOf hrows) ?_
      by_cases hi : 5 ≤ imsi.length ∧ imsi.length ≤ 16
      · by_cases hc : c ≠ 0
        · have hx : c.toNat < 6 ↔ ¬ 6 ≤ c.toNat := by omega
          simp only [hx] at fc
          rw [if_pos hc]
          cases t with
          | none =>
            by_cases h6 : 6 ≤ c.toNat <;>
              simp [leftOf, made, good, pagingIEs, fd, hf, fc, hi, h6, elementBlocks, ImsiLength]
          | some t =>
            have ft := ft t
            by_cases h6 : 6 ≤ c.toNat <;>
              simp [leftOf, made, good, pagingIEs, fd, hf, ft, fc, hi, h6, elementBlocks, ImsiLength]
        · have : c = 0 := Classical.not_not.1 hc
          subst this
          cases t with
          | none => simp [leftOf, made, good, pagingIEs, fd, hf, hi, ImsiLength]
          | some t => simp [leftOf, made, good, pagingIEs, fd, hf, ft t, hi, ImsiLength]
      · have : ¬ ImsiLength imsi := hi
        simp [leftOf, made, good, pagingIEs, fd, hf, hi, this]

theorem item_mem : rAB_ReleaseItemIEs ∈ tables ∧ resetResourceItemIEs ∈ tables :=
  ⟨mem_tables (by simp [Gen.Ranap.all]), mem_tables (by simp [Gen.Ranap.all])⟩

theorem ok_rabRelReq (rab : Byte) (c : Option Cause) : CallOk (.rabRelReq rab c) := by
  cases c with
  | none => rfl
  | some c =>
    simp only [CallOk, Call.run, Call.result, rabRelReqM, rabRelReq]
    generalize hs : put rAB_ReleaseItemIEs idRAB_ReleaseItem (.seq [some (rabId rab), some c.toVal, none])
      rAB_ReleaseItemIEs.zero = s
    have hrows : rows rAB_ReleaseItemIEs s =
        [(rAB_ReleaseItemIEs.ies[0], some (.seq [some (rabId rab), some c.toVal, none]))] := by
      rw [← hs]; with_unfolding_all rfl
    have hfit : fits RANAP_RAB_ReleaseItem (.seq [some (rabId rab), some c.toVal, none]) = decide (ValidCause c) := by
      have hc := cause_fits c
      have hb : fits RANAP_RAB_ID (rabId rab) = true := rfl
      simp [RANAP_RAB_ReleaseItem, fits, fitsFields, hc, hb]
    have hsome : (encodeIes rAB_ReleaseItemIEs s).isSome = decide (ValidCause c) := by
      rw [encodeIes_isSome item_mem.1, hrows]
      simp [good, rAB_ReleaseItemIEs, hfit]
    have hmade : elementBlocks (made (rows rAB_ReleaseItemIEs s)) = if ValidCause c then 3 else 0 := by
      rw [hrows]
      by_cases hv : ValidCause c <;> simp [made, good, rAB_ReleaseItemIEs, hfit, hv, elementBlocks]
    cases he : encodeIes rAB_ReleaseItemIEs s with
    | none =>
      rw [he] at hsome
      have hv : ¬ ValidCause c := of_decide_eq_false hsome.symm
      refine ⟨_, rfl, does_calloc fun bs hb => does_encode item_mem.1 fun out ho => ?_⟩
      rw [hmade, if_neg hv] at ho
      rw [he]
      exact does_give_up _ (by simp [ho, hb, leftBehind, hv])
    | some l =>
      rw [he] at hsome
      have hv : ValidCause c := of_decide_eq_true hsome.symm
      refine ⟨_, rfl, does_calloc fun bs hb => does_encode item_mem.1 fun out ho => ?_⟩
      rw [he]
      refine DoesWith.perm (ies := bs ++ out) (does_release (does_finish 1 10 ignore is_rAB_ReleaseRequestIEs.mem _ out false ?_))
        (by simpa using List.perm_append_comm)
      simp only [leftBehind, Option.mem_def, Option.some.injEq, forall_eq', hv]
      exact leftOf_one _

end Verif.Factory
