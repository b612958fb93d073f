import Verif.Props.FactoryMsgs

/-!
# Generated messages: Security Mode, Paging and the others (C54, C55, C65)
-/

namespace Verif.Props
open Verif.Aper Verif.Ie Verif.Ie.Spec Verif.Rx.Spec Verif.Wire Verif.Gen.Ranap Verif.Factory Verif.Factory.Spec
open Verif.Aper.Spec (fits fitsFields fitsAlt fitsOct fitsLen)
open Verif.Spec.Bcd (IsDigit)

/-! ## C54: Security Mode Command -/

/-- Permitted algorithms and a key of 16 octets. -/
def securityInfo (algs : List Val) (key : Bytes) : Val :=
  .seq [some (.list algs), some (.bits (octetsBits (key.take 16))), none]

theorem secInfo_fits (mask : Byte) (a1 a2 : Int) (h1 : 0 ≤ a1 ∧ a1 ≤ 15) (h2 : 0 ≤ a2 ∧ a2 ≤ 15) (key : Bytes)
    (hk : 16 ≤ key.length) :
    fits RANAP_IntegrityProtectionInformation (securityInfo (selected mask a1 a2) key) =
      (mask.getLsbD 1 || mask.getLsbD 2) ∧
    openOcts (maxBits RANAP_IntegrityProtectionInformation (securityInfo (selected mask a1 a2) key)) ≤ 100 := by
  have hl : (octetsBits (key.take 16)).length = 128 := by
    rw [octetsBits_length, List.length_take]; omega
  unfold selected securityInfo
  generalize mask.getLsbD 1 = b1
  generalize mask.getLsbD 2 = b2
  have hs : sBits (some ⟨1, 16, false⟩) + sBits (some ⟨128, 128, false⟩) ≤ 100 := by decide
  constructor
  · cases b1 <;> cases b2 <;>
      simp [RANAP_IntegrityProtectionInformation, RANAP_PermittedIntegrityProtectionAlgorithms,
        RANAP_IntegrityProtectionAlgorithm, RANAP_IntegrityProtectionKey, fits, fitsFields, fitsLen, hl, h1, h2]
  · have hm : ∀ l b, maxBits RANAP_IntegrityProtectionInformation (.seq [some (.list l), some (.bits b), none]) =
        1 + 3 + ((sBits (some ⟨1, 16, false⟩) + sumOf (maxBits RANAP_IntegrityProtectionAlgorithm) l) +
          ((sBits (some ⟨128, 128, false⟩) + 7 + b.length) + 0)) := fun _ _ => rfl
    have ha : ∀ n, maxBits RANAP_IntegrityProtectionAlgorithm (.int n) ≤ 50 := by
      intro n; simp only [RANAP_IntegrityProtectionAlgorithm, maxBits]; decide
    have h1 := ha a1
    have h2 := ha a2
    rw [hm, hl]
    generalize sBits (some ⟨1, 16, false⟩) = x at *
    generalize sBits (some ⟨128, 128, false⟩) = y at *
    unfold openOcts
    cases b1 <;> cases b2 <;> simp only [Bool.false_eq_true, if_true, if_false, List.nil_append, List.append_nil,
      List.cons_append, sumOf] <;> omega

/-- **C54.** Security Mode Command: with algorithms that exist and keys of 16 octets the message permits exactly
the algorithms selected, and carries the keys and the key status; the encryption information is there iff a
ciphering key is given.  If a mask selects nothing or an unknown algorithm, NULL is returned. -/
theorem C54_sec_mod_cmd (ik : Bytes) (ck : Option Bytes) (status : Nat) (uia uea : Byte)
    (hik : 16 ≤ ik.length) (hck : ∀ k ∈ ck, 16 ≤ k.length) :
    (SelectsAlgorithms uia ∧ (ck.isSome = true → SelectsAlgorithms uea) ∧ status < 2 →
      ∃ bs, secModCmd2 (some ik) ck status uia uea = .ok (some bs) ∧
        Says bs 1 6 ([(12, securityInfo (selected uia 0 1) ik)] ++
          opt 11 (fun k => securityInfo (selected uea 1 2) k) ck ++ [(75, .enum status)])) ∧
    (¬ (SelectsAlgorithms uia ∧ (ck.isSome = true → SelectsAlgorithms uea) ∧ status < 2) →
      secModCmd2 (some ik) ck status uia uea = .ok none) := by
  have hst : fits RANAP_KeyStatus (.enum status) = decide (status < 2) := by
    simp only [RANAP_KeyStatus, fits]
    by_cases h : status < 2 <;> simp [h]
  have hsb : openOcts (maxBits RANAP_KeyStatus (.enum status)) ≤ 100 := by
    unfold openOcts; simp only [RANAP_KeyStatus, maxBits]; decide
  have hsel : ∀ mask, SelectsAlgorithms mask ↔ (mask.getLsbD 1 || mask.getLsbD 2) = true ∧ onlyTwo mask := by
    intro mask; unfold SelectsAlgorithms onlyTwo; simp
  obtain ⟨a1, a2⟩ := algorithms_eq uia 0 1
  obtain ⟨e1, e2⟩ := algorithms_eq uea 1 2
  obtain ⟨fi, bi⟩ := secInfo_fits uia 0 1 (by decide) (by decide) ik hik
  unfold secModCmd2
  by_cases hu : ¬ onlyTwo uia
  · simp only [a2 hu, implies_true, and_true]
    intro h; exact absurd ((hsel _).1 h.1).2 hu
  have hu := Classical.not_not.1 hu
  simp only [a1 hu, keyBits, if_neg (Nat.not_lt.2 hik)]
  cases ck with
  | none =>
    refine is_securityModeCommandIEs.both (c := [(securityModeCommandIEs.ies[0], securityInfo (selected uia 0 1) ik),
      (securityModeCommandIEs.ies[2], .enum status)]) (by with_unfolding_all rfl) ?_ ?_
    · simp [allFit, securityModeCommandIEs, hst, fi, hsel, hu]
    · intro
      simp only [bound, securityModeCommandIEs, List.getElem_cons_zero, List.getElem_cons_succ]
      omega
  | some k =>
    have hk := hck k rfl
    obtain ⟨fe, be⟩ := secInfo_fits uea 1 2 (by decide) (by decide) k hk
    by_cases hv : ¬ onlyTwo uea
    · simp only [e2 hv, implies_true, and_true]
      intro h; exact absurd ((hsel _).1 (h.2.1 rfl)).2 hv
    have hv := Classical.not_not.1 hv
    simp only [e1 hv, keyBits, if_neg (Nat.not_lt.2 hk)]
    refine is_securityModeCommandIEs.both (c := [(securityModeCommandIEs.ies[0], securityInfo (selected uia 0 1) ik),
      (securityModeCommandIEs.ies[1], securityInfo (selected uea 1 2) k),
      (securityModeCommandIEs.ies[2], .enum status)]) (by with_unfolding_all rfl) ?_ ?_
    · have fe' : fits RANAP_EncryptionInformation (securityInfo (selected uea 1 2) k) = _ := fe
      simp only [Bool.or_eq_true] at hsel
      simp [allFit, securityModeCommandIEs, hst, fi, fe', hsel, hu, hv]
    · intro
      have be' : openOcts (maxBits RANAP_EncryptionInformation (securityInfo (selected uea 1 2) k)) ≤ 100 := be
      simp only [bound, securityModeCommandIEs, List.getElem_cons_zero, List.getElem_cons_succ]
      omega

example : SelectsAlgorithms 0x06 ∧ SelectsAlgorithms 0x02 ∧ ¬ SelectsAlgorithms 0x00 ∧ ¬ SelectsAlgorithms 0x0a := by
  refine ⟨⟨by decide, ?_⟩, ⟨by decide, ?_⟩, ?_, ?_⟩
  · exact (onlyTwo_iff _).2 (by decide)
  · exact (onlyTwo_iff _).2 (by decide)
  · rintro ⟨h, -⟩; revert h; decide
  · rintro ⟨-, h⟩; have := h 3 (by decide); omega
example : 16 ≤ (List.replicate 16 (0x80 : Byte)).length ∧ ∀ k ∈ some (List.replicate 16 (0x20 : Byte)), 16 ≤ k.length := by decide

/-- **C54.** The shorter function permits both algorithms of each kind. -/
theorem C54_sec_mod_cmd_both (ik : Option Bytes) (ck : Option Bytes) (status : Nat) :
    secModCmd ik ck status = secModCmd2 ik ck status 0x06 0x06 ∧
    selected 0x06 0 1 = [.int 0, .int 1] ∧ selected 0x06 1 2 = [.int 1, .int 2] := ⟨rfl, rfl, rfl⟩

/-- **C54.** Without an integrity key there is no message. -/
theorem C54_no_key (ck : Option Bytes) (status : Nat) (uia uea : Byte) (hck : ∀ k ∈ ck, 16 ≤ k.length) :
    secModCmd2 none ck status uia uea = .ok none := by
  have hf : ∀ l, fits RANAP_IntegrityProtectionInformation (.seq [some (.list l), some (.bits []), none]) = false := by
    intro l
    have h0 : fits RANAP_IntegrityProtectionKey (.bits []) = false := rfl
    simp only [RANAP_IntegrityProtectionInformation, fits, fitsFields, h0, Bool.and_false, Bool.false_and]
  unfold secModCmd2
  simp only [keyBits]
  cases algorithms uia 0 1 8 with
  | none => rfl
  | some ia =>
    cases ck with
    | none =>
      exact congrArg _ (is_securityModeCommandIEs.null (c := [(securityModeCommandIEs.ies[0],
        .seq [some (.list ia), some (.bits []), none]), (securityModeCommandIEs.ies[2], .enum status)])
        (by with_unfolding_all rfl) (by simp [allFit, securityModeCommandIEs, hf]))
    | some k =>
      cases algorithms uea 1 2 8 with
      | none => rfl
      | some ea =>
        simp only [if_neg (Nat.not_lt.2 (hck k rfl))]
        exact congrArg _ (is_securityModeCommandIEs.null (c := [(securityModeCommandIEs.ies[0],
          .seq [some (.list ia), some (.bits []), none]), (securityModeCommandIEs.ies[1], securityInfo ea k),
          (securityModeCommandIEs.ies[2], .enum status)])
          (by with_unfolding_all rfl) (by simp [allFit, securityModeCommandIEs, hf]))

/-! ## C55: Paging; C65: Common ID -/

/-- A valid IMSI: 5 to 16 digits (3 to 8 octets, TS 25.413 9.2.3.1). -/
def ValidImsi (imsi : Bytes) : Prop := (∀ c ∈ imsi, IsDigit c) ∧ 5 ≤ imsi.length ∧ imsi.length ≤ 16

/-- The permanent identity built for a string of up to 32 characters, whatever they are. -/
theorem permanentId_any (imsi : Bytes) :
    (imsi.length ≤ 32 → permanentId imsi = .ok (.choice 0 (.octets (Bcd.tbcd imsi))) ∧
      fits RANAP_PermanentNAS_UE_ID (.choice 0 (.octets (Bcd.tbcd imsi))) = decide (5 ≤ imsi.length ∧ imsi.length ≤ 16) ∧
      (imsi.length ≤ 16 → openOcts (maxBits RANAP_PermanentNAS_UE_ID (.choice 0 (.octets (Bcd.tbcd imsi)))) ≤ 100)) ∧
    (32 < imsi.length → permanentId imsi = .fault .oobWrite) := by
  have hl := Bcd.tbcd_length imsi
  unfold permanentId
  rw [Bcd.imsiEncode_eq]
  simp only [List.length_replicate]
  constructor
  · intro h
    rw [if_pos (by omega)]
    refine ⟨?_, ?_, ?_⟩
    · simp only [List.take_left]
    · simp only [RANAP_PermanentNAS_UE_ID, RANAP_IMSI, fits, fitsAlt, fitsOct, Fields.length, hl]
      by_cases h1 : 5 ≤ imsi.length ∧ imsi.length ≤ 16
      · rw [if_pos (by omega), if_pos (by omega)]; simp [h1]
      · rw [if_pos (by omega), if_neg (by omega)]; simp only [h1, decide_false]
    · intro h16
      have hm : ∀ b : Bytes, maxBits RANAP_PermanentNAS_UE_ID (.choice 0 (.octets b)) =
          max (1 + consBits 1 + (sBits (some ⟨3, 8, false⟩) + 8 + octBits b.length)) (8 + octBits (openOcts 0)) :=
        fun _ => rfl
      have h1 : consBits 1 ≤ 10 := by decide
      have h2 : sBits (some ⟨3, 8, false⟩) ≤ 100 := by decide
      rw [hm, hl]
      unfold octBits openOcts
      omega
  · intro h
    rw [if_neg (by omega)]

/-- The permanent identity built for an IMSI of up to 32 digits. -/
theorem permanentId_spec (imsi : Bytes) (hd : ∀ c ∈ imsi, IsDigit c) :
    (imsi.length ≤ 32 → ∃ v, permanentId imsi = .ok v ∧ IsImsi imsi v ∧
      fits RANAP_PermanentNAS_UE_ID v = decide (5 ≤ imsi.length ∧ imsi.length ≤ 16) ∧
      (imsi.length ≤ 16 → openOcts (maxBits RANAP_PermanentNAS_UE_ID v) ≤ 100)) ∧
    (32 < imsi.length → permanentId imsi = .fault .oobWrite) := by
  refine ⟨fun h => ?_, (permanentId_any imsi).2⟩
  obtain ⟨h1, h2, h3⟩ := (permanentId_any imsi).1 h
  refine ⟨_, h1, ⟨Bcd.tbcd imsi, ⟨Bcd.tbcd_length imsi, ?_⟩, rfl⟩, h2, h3⟩
  intro i b hi
  obtain ⟨hi', rfl⟩ := List.getElem?_eq_some_iff.1 hi
  exact Bcd.tbcd_layout imsi hd i hi'

/-- Common ID for a permanent identity that has been built. -/
theorem commonId_says {imsi : Bytes} {v : Val} (h1 : permanentId imsi = .ok v)
    (h3 : fits RANAP_PermanentNAS_UE_ID v = decide (5 ≤ imsi.length ∧ imsi.length ≤ 16))
    (h4 : imsi.length ≤ 16 → openOcts (maxBits RANAP_PermanentNAS_UE_ID v) ≤ 100) :
    (5 ≤ imsi.length ∧ imsi.length ≤ 16 → ∃ bs, commonId (some imsi) = .ok (some bs) ∧ Says bs 1 15 [(23, v)]) ∧
    (¬ (5 ≤ imsi.length ∧ imsi.length ≤ 16) → commonId (some imsi) = .ok none) := by
  have hb := is_commonID_IEs.both (s := put commonID_IEs idPermanentNAS_UE_ID v commonID_IEs.zero)
    (valid := 5 ≤ imsi.length ∧ imsi.length ≤ 16) (c := [(commonID_IEs.ies[0], v)]) (by with_unfolding_all rfl)
    (by simp [allFit, commonID_IEs, h3])
    (by
      intro h
      have := h4 h.2
      simp only [bound, commonID_IEs, List.getElem_cons_zero]
      omega)
  unfold commonId
  simp only [h1]
  exact hb

/-- **C65.** Common ID carries exactly the IMSI; no or an invalid IMSI gives NULL. -/
theorem C65_common_id (imsi : Bytes) (hd : ∀ c ∈ imsi, IsDigit c) (hl : imsi.length ≤ 32) :
    (ValidImsi imsi → ∃ bs v, commonId (some imsi) = .ok (some bs) ∧ IsImsi imsi v ∧ Says bs 1 15 [(23, v)]) ∧
    (¬ ValidImsi imsi → commonId (some imsi) = .ok none) ∧ commonId none = .ok none := by
  obtain ⟨v, h1, h2, h3, h4⟩ := (permanentId_spec imsi hd).1 hl
  have hb := commonId_says h1 h3 h4
  have hv : ValidImsi imsi ↔ 5 ≤ imsi.length ∧ imsi.length ≤ 16 := ⟨And.right, fun h => ⟨hd, h⟩⟩
  rw [hv]
  refine ⟨fun h => ?_, hb.2, rfl⟩
  obtain ⟨bs, e1, e2⟩ := hb.1 h
  exact ⟨bs, v, e1, h2, e2⟩

/-- An IMSI of 15 digits. -/
def imsi15 : Bytes := [0x32, 0x30, 0x34, 0x30, 0x38, 0x30, 0x30, 0x30, 0x30, 0x30, 0x30, 0x30, 0x30, 0x30, 0x30]
example : ValidImsi imsi15 ∧ imsi15.length ≤ 32 := by
  refine ⟨⟨by decide, by decide, by decide⟩, by decide⟩
example : ¬ ValidImsi (imsi15 ++ imsi15) ∧ (imsi15 ++ imsi15).length ≤ 32 := by
  refine ⟨?_, by decide⟩; rintro ⟨-, -, h⟩; revert h; decide

/-- The temporary identity: TMSI in the CS domain, P-TMSI in the PS domain. -/
def tmsiVal (isPs : Bool) (tmsi : BitVec 32) : Val := .choice (if isPs then 1 else 0) (.octets (msb tmsi).toList)

theorem paging_contents (d v t c : Val) : contents pagingIEs (put pagingIEs idPagingCause c
    (orMask (present pagingIEs idPagingCause) (put pagingIEs idTemporaryUE_ID t
      (orMask (present pagingIEs idTemporaryUE_ID) (put pagingIEs idPermanentNAS_UE_ID v
        (put pagingIEs idCN_DomainIndicator d pagingIEs.zero)))))) =
    some [(pagingIEs.ies[0], d), (pagingIEs.ies[1], v), (pagingIEs.ies[2], t), (pagingIEs.ies[4], c)] := by
  have h1 : present pagingIEs idPagingCause = 4 := by decide
  have h2 : present pagingIEs idTemporaryUE_ID = 1 := by decide
  have hs : put pagingIEs idPagingCause c (orMask 4 (put pagingIEs idTemporaryUE_ID t
      (orMask 1 (put pagingIEs idPermanentNAS_UE_ID v (put pagingIEs idCN_DomainIndicator d pagingIEs.zero))))) =
      ⟨0 ||| 1 ||| 4, [some ⟨d, none⟩, some ⟨v, none⟩, some ⟨t, none⟩, none, some ⟨c, none⟩, none, none]⟩ := rfl
  rw [h1, h2, hs]
  simp [contents, contentsRows, isPresent, presentConst, pagingIEs, slotVal]

/-- Paging for a permanent identity that has been built. -/
theorem pagingCmd_says {imsi : Bytes} {v : Val} (tmsi : Option (BitVec 32)) (isPs : Bool) (cause : BitVec 32)
    (h1 : permanentId imsi = .ok v)
    (h3 : fits RANAP_PermanentNAS_UE_ID v = decide (5 ≤ imsi.length ∧ imsi.length ≤ 16))
    (h4 : imsi.length ≤ 16 → openOcts (maxBits RANAP_PermanentNAS_UE_ID v) ≤ 100) :
    ((5 ≤ imsi.length ∧ imsi.length ≤ 16) ∧ cause.toNat < 6 → ∃ bs, pagingCmd (some imsi) tmsi isPs cause = .ok (some bs) ∧
      Says bs 1 14 ([(3, .enum (psOrCs isPs)), (23, v)] ++ opt 64 (tmsiVal isPs) tmsi ++
        opt 22 .enum (if cause = 0 then none else some cause.toNat))) ∧
    (¬ ((5 ≤ imsi.length ∧ imsi.length ≤ 16) ∧ cause.toNat < 6) → pagingCmd (some imsi) tmsi isPs cause = .ok none) := by
  have fd : fits RANAP_CN_DomainIndicator (.enum (psOrCs isPs)) = true := by cases isPs <;> rfl
  have bd := openOcts_le (domain_bound (psOrCs isPs))
  have ft : ∀ t, fits RANAP_TemporaryUE_ID (tmsiVal isPs t) = true := by intro t; cases isPs <;> rfl
  have bt : ∀ t, openOcts (maxBits RANAP_TemporaryUE_ID (tmsiVal isPs t)) ≤ 100 := by
    intro t; cases isPs <;> exact Nat.le_of_ble_eq_true (by with_unfolding_all rfl)
  have fc : fits RANAP_PagingCause (.enum cause.toNat) = decide (cause.toNat < 6) := by
    simp only [RANAP_PagingCause, fits]
    by_cases h : cause.toNat < 6
    · by_cases h5 : cause.toNat < 5
      · simp [h, h5]
      · simp [h]; omega
    · simp [h]; omega
  have bc : openOcts (maxBits RANAP_PagingCause (.enum cause.toNat)) ≤ 100 := by
    unfold openOcts; simp only [RANAP_PagingCause, maxBits]; decide
  have f3 : fits RANAP_PermanentNAS_UE_ID v = true ↔ 5 ≤ imsi.length ∧ imsi.length ≤ 16 := by
    rw [h3, decide_eq_true_eq]
  unfold pagingCmd
  simp only [h1]
  by_cases h0 : cause = 0
  · have hc0 : cause.toNat < 6 := by rw [h0]; decide
    simp only [h0, ne_eq, not_true, if_false, if_true]
    rw [h0] at hc0
    cases tmsi with
    | none =>
      refine is_pagingIEs.both (c := [(pagingIEs.ies[0], .enum (psOrCs isPs)), (pagingIEs.ies[1], v)])
        (by with_unfolding_all rfl) ?_ ?_
      · simp [allFit, pagingIEs, fd, f3]
      · rintro ⟨h, -⟩
        have := h4 h.2
        simp only [bound, pagingIEs, List.getElem_cons_zero, List.getElem_cons_succ]
        omega
    | some t =>
      have := ft t
      have := bt t
      refine is_pagingIEs.both (c := [(pagingIEs.ies[0], .enum (psOrCs isPs)), (pagingIEs.ies[1], v),
        (pagingIEs.ies[2], tmsiVal isPs t)])
        (by with_unfolding_all rfl) ?_ ?_
      · simp [allFit, pagingIEs, fd, f3, ft]
      · rintro ⟨h, -⟩
        have := h4 h.2
        simp only [bound, pagingIEs, List.getElem_cons_zero, List.getElem_cons_succ]
        omega
  · simp only [ne_eq, h0, not_false_eq_true, if_true, if_false]
    cases tmsi with
    | none =>
      refine is_pagingIEs.both (c := [(pagingIEs.ies[0], .enum (psOrCs isPs)), (pagingIEs.ies[1], v),
        (pagingIEs.ies[4], .enum cause.toNat)])
        (by with_unfolding_all rfl) ?_ ?_
      · simp [allFit, pagingIEs, fd, f3, fc]
      · rintro ⟨h, -⟩
        have := h4 h.2
        simp only [bound, pagingIEs, List.getElem_cons_zero, List.getElem_cons_succ]
        omega
    | some t =>
      have := ft t
      have := bt t
      refine is_pagingIEs.both (c := [(pagingIEs.ies[0], .enum (psOrCs isPs)), (pagingIEs.ies[1], v),
        (pagingIEs.ies[2], tmsiVal isPs t), (pagingIEs.ies[4], .enum cause.toNat)])
        (paging_contents _ _ _ _) ?_ ?_
      · simp [allFit, pagingIEs, fd, f3, ft, fc]
      · rintro ⟨h, -⟩
        have := h4 h.2
        simp only [bound, pagingIEs, List.getElem_cons_zero, List.getElem_cons_succ]
        omega

/-- **C55.** Paging carries exactly the domain, the IMSI, the (P-)TMSI iff given, and the paging cause iff it is
not 0; arguments that cannot be expressed give NULL. -/
theorem C55_paging (imsi : Bytes) (tmsi : Option (BitVec 32)) (isPs : Bool) (cause : BitVec 32)
    (hd : ∀ c ∈ imsi, IsDigit c) (hl : imsi.length ≤ 32) :
    (ValidImsi imsi ∧ cause.toNat < 6 → ∃ bs v, pagingCmd (some imsi) tmsi isPs cause = .ok (some bs) ∧
      IsImsi imsi v ∧
      Says bs 1 14 ([(3, .enum (psOrCs isPs)), (23, v)] ++ opt 64 (tmsiVal isPs) tmsi ++
        opt 22 .enum (if cause = 0 then none else some cause.toNat))) ∧
    (¬ (ValidImsi imsi ∧ cause.toNat < 6) → pagingCmd (some imsi) tmsi isPs cause = .ok none) := by
  obtain ⟨v, h1, h2, h3, h4⟩ := (permanentId_spec imsi hd).1 hl
  have hv : ValidImsi imsi ↔ 5 ≤ imsi.length ∧ imsi.length ≤ 16 := ⟨And.right, fun h => ⟨hd, h⟩⟩
  rw [hv]
  have h := pagingCmd_says tmsi isPs cause h1 h3 h4
  refine ⟨fun hv => ?_, h.2⟩
  obtain ⟨bs, e1, e2⟩ := h.1 hv
  exact ⟨bs, v, e1, h2, e2⟩

example : ValidImsi imsi15 ∧ (5 : BitVec 32).toNat < 6 := by
  refine ⟨⟨by decide, by decide, by decide⟩, by decide⟩

/-- **C55, C65.** A string of more than 32 digits is written beyond the end of a buffer on the heap. -/
theorem C55_overrun (imsi : Bytes) (tmsi : Option (BitVec 32)) (isPs : Bool) (cause : BitVec 32)
    (hd : ∀ c ∈ imsi, IsDigit c) (h : 32 < imsi.length) :
    pagingCmd (some imsi) tmsi isPs cause = .fault .oobWrite ∧ commonId (some imsi) = .fault .oobWrite := by
  have := (permanentId_spec imsi hd).2 h
  simp [pagingCmd, commonId, this]

example : 32 < (imsi15 ++ imsi15 ++ imsi15).length := by decide

/-! ## C65: the other messages -/

/-- **C65.** Security Mode Complete. -/
theorem C65_sec_mod_compl (ip enc : Int) :
    (0 ≤ ip ∧ ip ≤ 15 ∧ 0 ≤ enc ∧ enc ≤ 15 →
      ∃ bs, secModCompl ip enc = .ok (some bs) ∧ Says bs 2 6 [(6, .int ip), (5, .int enc)]) ∧
    (¬ (0 ≤ ip ∧ ip ≤ 15 ∧ 0 ≤ enc ∧ enc ≤ 15) → secModCompl ip enc = .ok none) := by
  refine is_securityModeCompleteIEs.both (c := [(securityModeCompleteIEs.ies[0], .int ip),
    (securityModeCompleteIEs.ies[1], .int enc)]) (by with_unfolding_all rfl) ?_ ?_
  · simp [allFit, securityModeCompleteIEs, RANAP_ChosenIntegrityProtectionAlgorithm, RANAP_IntegrityProtectionAlgorithm,
      RANAP_ChosenEncryptionAlgorithm, RANAP_EncryptionAlgorithm, fits]
    omega
  · intro
    exact Nat.le_of_ble_eq_true (by with_unfolding_all rfl)

example : (0 : Int) ≤ 1 ∧ (1 : Int) ≤ 15 ∧ (0 : Int) ≤ 2 ∧ (2 : Int) ≤ 15 := by decide

/-- **C65.** Iu Release Command. -/
theorem C65_iu_rel_cmd (c : Cause) :
    (ValidCause c → ∃ bs, iuRelCmd (some c) = .ok (some bs) ∧ Says bs 1 1 [(4, causeVal c)]) ∧
    (¬ ValidCause c → iuRelCmd (some c) = .ok none) := by
  have h := is_iu_ReleaseCommandIEs.both (s := put iu_ReleaseCommandIEs idCause c.toVal iu_ReleaseCommandIEs.zero)
    (valid := ValidCause c) (c := [(iu_ReleaseCommandIEs.ies[0], c.toVal)]) (by with_unfolding_all rfl)
    (by simp [allFit, iu_ReleaseCommandIEs, cause_fits])
    (by intro h; have := openOcts_le (cause_bound h); simp [bound, iu_ReleaseCommandIEs]; omega)
  refine ⟨fun hv => ?_, h.2⟩
  rw [← causeVal_eq hv]
  exact h.1 hv

example : ValidCause cause46 := by decide

/-- validation against tests/test-ranap.ok (ranap_new_msg_iu_rel_cmd) -/
example : iuRelCmd (some cause46) = .ok (some [0x00, 0x01, 0x00, 0x09, 0x00, 0x00, 0x01, 0x00, 0x04, 0x40, 0x02, 0x0b, 0x40]) := by
  decide +kernel

/-- **C65.** Iu Release Complete. -/
theorem C65_iu_rel_compl : ∃ bs, iuRelCompl = .ok (some bs) ∧ Says bs 2 1 [] := by
  obtain ⟨bs, h1, h2⟩ := is_iu_ReleaseCompleteIEs.says (s := iu_ReleaseCompleteIEs.zero) (c := [])
    (by with_unfolding_all rfl) rfl (by decide)
  exact ⟨bs, congrArg _ h1, h2⟩

/-- **C65.** Iu Release Request. -/
theorem C65_iu_rel_req (c : Cause) :
    (ValidCause c → ∃ bs, iuRelReq (some c) = .ok (some bs) ∧ Says bs 1 11 [(4, causeVal c)]) ∧
    (¬ ValidCause c → iuRelReq (some c) = .ok none) := by
  have h := is_iu_ReleaseRequestIEs.both (s := put iu_ReleaseRequestIEs idCause c.toVal iu_ReleaseRequestIEs.zero)
    (valid := ValidCause c) (c := [(iu_ReleaseRequestIEs.ies[0], c.toVal)]) (by with_unfolding_all rfl)
    (by simp [allFit, iu_ReleaseRequestIEs, cause_fits])
    (by intro h; have := openOcts_le (cause_bound h); simp [bound, iu_ReleaseRequestIEs]; omega)
  refine ⟨fun hv => ?_, h.2⟩
  rw [← causeVal_eq hv]
  exact h.1 hv

/-- validation against tests/test-ranap.ok (ranap_new_msg_iu_rel_req) -/
example : iuRelReq (some cause46) = .ok (some [0x00, 0x0b, 0x40, 0x09, 0x00, 0x00, 0x01, 0x00, 0x04, 0x40, 0x02, 0x0b, 0x40]) := by
  decide +kernel

/-- **C65.** RAB Release Request for one RAB. -/
theorem C65_rab_rel_req (rab : Byte) (c : Cause) :
    (ValidCause c → ∃ bs b, rabRelReq rab (some c) = .ok (some bs) ∧ Says bs 1 10 [(41, oneItem 40 1 b)] ∧
      decode RANAP_RAB_ReleaseItem b = some (.seq [some (.bits (octetsBits [rab])), some (causeVal c), none])) ∧
    (¬ ValidCause c → rabRelReq rab (some c) = .ok none) := by
  have hz : put rAB_ReleaseItemIEs idRAB_ReleaseItem (.seq [some (rabId rab), some c.toVal, none]) rAB_ReleaseItemIEs.zero =
      ⟨0, [some ⟨.seq [some (.bits (octetsBits [rab])), some c.toVal, none], none⟩]⟩ := rfl
  have hf : fits RANAP_RAB_ReleaseItem (.seq [some (.bits (octetsBits [rab])), some c.toVal, none]) = decide (ValidCause c) := by
    have : fits RANAP_RAB_ID (.bits (octetsBits [rab])) = true := rfl
    simp only [RANAP_RAB_ReleaseItem, fits, fitsFields, this, cause_fits, Bool.true_and, Bool.and_true]
  have hsane : RANAP_RAB_ReleaseItem.sane = true := by decide
  unfold rabRelReq
  simp only [hz]
  refine ⟨fun hv => ?_, fun hv => ?_⟩
  · obtain ⟨b, hb1, hb2⟩ := encode_exists hsane (hf.trans (decide_eq_true hv))
    have hbl : b.length ≤ 40 := by
      have hm : maxBits RANAP_RAB_ReleaseItem (.seq [some (.bits (octetsBits [rab])), some c.toVal, none]) =
          1 + 3 + (maxBits RANAP_RAB_ID (.bits (octetsBits [rab])) + (maxBits RANAP_Cause c.toVal + 0)) := rfl
      have h8 : maxBits RANAP_RAB_ID (.bits (octetsBits [rab])) ≤ 80 := Nat.le_of_ble_eq_true (by with_unfolding_all rfl)
      have := cause_bound hv
      rw [hm] at hb2
      unfold openOcts at hb2
      omega
    have he : encodeIes rAB_ReleaseItemIEs ⟨0, [some ⟨.seq [some (.bits (octetsBits [rab])), some c.toVal, none], none⟩]⟩ =
        some [⟨40, 1, b⟩] := by
      simp [encodeIes, encodeRows, rAB_ReleaseItemIEs, newIe, hb1]
    simp only [he]
    have hbl' := oneItem_bound 40 1 hbl
    obtain ⟨bs, e1, e2⟩ := is_rAB_ReleaseRequestIEs.says
      (s := put rAB_ReleaseRequestIEs idRAB_ReleaseList (container [⟨40, 1, b⟩]) rAB_ReleaseRequestIEs.zero)
      (c := [(rAB_ReleaseRequestIEs.ies[0], oneItem 40 1 b)]) (by with_unfolding_all rfl) rfl (by
        simp only [bound, rAB_ReleaseRequestIEs, List.getElem_cons_zero]
        have : openOcts (maxBits RANAP_RAB_ReleaseList (oneItem 40 1 b)) ≤ 100 := hbl'
        omega)
    refine ⟨bs, b, congrArg _ e1, e2, ?_⟩
    rw [← causeVal_eq hv]
    exact decode_encode (by decide) hb1
  · have hn : encode RANAP_RAB_ReleaseItem (.seq [some (.bits (octetsBits [rab])), some c.toVal, none]) = none := by
      have h1 := encode_isSome hsane (.seq [some (.bits (octetsBits [rab])), some c.toVal, none])
      rw [hf, decide_eq_false hv] at h1
      exact Option.not_isSome_iff_eq_none.1 (by simp [h1])
    have he : encodeIes rAB_ReleaseItemIEs ⟨0, [some ⟨.seq [some (.bits (octetsBits [rab])), some c.toVal, none], none⟩]⟩ =
        none := by
      simp [encodeIes, encodeRows, rAB_ReleaseItemIEs, newIe, hn]
    simp only [he]

/-- validation against tests/test-ranap.ok (ranap_new_msg_rab_rel_req) -/
example : rabRelReq 23 (some cause46) = .ok (some [0x00, 0x0a, 0x40, 0x11, 0x00, 0x00, 0x01, 0x00, 0x29, 0x40, 0x0a, 0x00,
    0x00, 0x01, 0x00, 0x28, 0x40, 0x03, 0x05, 0xc2, 0xd0]) := by
  decide +kernel

/-- **C65.** Without a cause these functions access memory through NULL. -/
theorem C65_null_cause (rab : Byte) : iuRelCmd none = .fault .nullDeref ∧ iuRelReq none = .fault .nullDeref ∧
    rabRelReq rab none = .fault .nullDeref := ⟨rfl, rfl, rfl⟩

end Verif.Props
