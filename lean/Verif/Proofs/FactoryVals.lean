import Verif.Proofs.Factory
import Verif.Proofs.Bcd

/-!
# Arguments of the message generators
-/

namespace Verif.Factory
open Verif.Aper Verif.Ie Verif.Ie.Spec Verif.Rx.Spec Verif.Wire Verif.Gen.Ranap Verif.Factory.Spec
open Verif.Aper.Spec (fits fitsFields fitsAlt fitsOct fitsLen)

theorem causeVal_eq {c : Cause} (h : ValidCause c) : c.toVal = causeVal c := by
  unfold Cause.toVal causeVal
  rw [if_neg]
  unfold ValidCause at h
  omega

theorem cause_fits (c : Cause) : fits RANAP_Cause c.toVal = decide (ValidCause c) := by
  obtain ⟨p, v⟩ := c
  match p with
  | 0 => simp [Cause.toVal, ValidCause, RANAP_Cause, fits]
  | 1 => simp [Cause.toVal, ValidCause, RANAP_Cause, fits, Fields.length, fitsAlt, RANAP_CauseRadioNetwork]
  | 2 => simp [Cause.toVal, ValidCause, RANAP_Cause, fits, Fields.length, fitsAlt, RANAP_CauseTransmissionNetwork]
  | 3 => simp [Cause.toVal, ValidCause, RANAP_Cause, fits, Fields.length, fitsAlt, RANAP_CauseNAS]
  | 4 => simp [Cause.toVal, ValidCause, RANAP_Cause, fits, Fields.length, fitsAlt, RANAP_CauseProtocol]
  | 5 => simp [Cause.toVal, ValidCause, RANAP_Cause, fits, Fields.length, fitsAlt, RANAP_CauseMisc]
  | 6 => simp [Cause.toVal, ValidCause, RANAP_Cause, fits, Fields.length, fitsAlt, RANAP_CauseNon_Standard]
  | 7 => simp [Cause.toVal, ValidCause, RANAP_Cause, fits, Fields.length, fitsAlt, RANAP_CauseRadioNetworkExtension]
  | p + 8 =>
    have hv : ¬ ValidCause ⟨p + 8, v⟩ := by unfold ValidCause; simp only; omega
    rw [decide_eq_false hv]
    simp only [Cause.toVal, RANAP_Cause]
    rw [if_neg (by omega)]
    simp only [fits]
    split
    · rename_i h; simp only [Fields.length] at h; omega
    · simp [Fields.length, fitsAlt]

theorem cause_bound {c : Cause} (h : ValidCause c) : maxBits RANAP_Cause c.toVal ≤ 200 := by
  obtain ⟨p, v⟩ := c
  unfold ValidCause at h
  simp only at h
  have : p = 1 ∨ p = 2 ∨ p = 3 ∨ p = 4 ∨ p = 5 ∨ p = 6 ∨ p = 7 := by omega
  rcases this with rfl | rfl | rfl | rfl | rfl | rfl | rfl <;>
    (simp [Cause.toVal, RANAP_Cause, maxBits, maxAlt, RANAP_CauseRadioNetwork, RANAP_CauseTransmissionNetwork,
      RANAP_CauseNAS, RANAP_CauseProtocol, RANAP_CauseMisc, RANAP_CauseNon_Standard, RANAP_CauseRadioNetworkExtension,
      Fields.length]
     decide)

theorem rnc_fits (r : RncId) : fits RANAP_GlobalRNC_ID r.toVal = decide (ValidRnc r) := by
  obtain ⟨p, i⟩ := r
  simp only [RncId.toVal, ValidRnc, RANAP_GlobalRNC_ID, RANAP_PLMNidentity, RANAP_RNC_ID, fits, fitsFields, fitsOct]
  by_cases h : p.length = 3
  · simp [h]
  · rw [if_neg (by omega)]; simp [h]

theorem rnc_bound {r : RncId} (h : ValidRnc r) : maxBits RANAP_GlobalRNC_ID r.toVal ≤ 200 := by
  obtain ⟨p, i⟩ := r
  have : p.length = 3 := h.1
  simp only [RncId.toVal, RANAP_GlobalRNC_ID, RANAP_PLMNidentity, RANAP_RNC_ID, maxBits, maxFields, this, List.length_cons, List.length_nil]
  decide

theorem domain_fits (d : Nat) : fits RANAP_CN_DomainIndicator (.enum d) = decide (ValidDomain d) := by
  simp [RANAP_CN_DomainIndicator, fits, ValidDomain]

theorem domain_bound (d : Nat) : maxBits RANAP_CN_DomainIndicator (.enum d) ≤ 200 := by
  simp only [RANAP_CN_DomainIndicator, maxBits]; decide

/-- One element of the bound. -/
theorem openOcts_le {n : Nat} (h : n ≤ 200) : openOcts n ≤ 26 := by unfold openOcts; omega

/-- The generated functions' table is among those of the protocols. -/
theorem mem_tables {m : MsgDef} (h : m ∈ Gen.Ranap.all) : m ∈ tables := by
  unfold tables
  simp only [List.mem_append]
  exact Or.inl (Or.inl (Or.inl h))

/-- The message of this direction and code, with the criticality of the procedure. -/
structure Kind (m : MsgDef) (direction code crit : Nat) : Prop where
  mem : m ∈ tables
  pos : 1 ≤ direction
  le : direction ≤ 4
  small : code < 256
  proc : ∃ p, p.crit = crit ∧ crit < 3 ∧ procs.find? (·.code == code) = some p ∧ ofKind direction p = some m

theorem Kind.says {m : MsgDef} {direction code crit : Nat} (k : Kind m direction code crit) {s : Struct}
    {c : List (IeDef × Val)} (hcont : contents m s = some c) (hfit : allFit c = true) (hb : bound c ≤ 1000) :
    ∃ bs, generate direction code crit m s = some bs ∧ Says bs direction code (wanted c) := by
  obtain ⟨p, rfl, h1, h2, h3⟩ := k.proc
  exact generate_says k.mem hcont k.pos k.le k.small h1 h2 h3 hfit hb

theorem Kind.exact {m : MsgDef} {direction code crit : Nat} (k : Kind m direction code crit) {s : Struct}
    {c : List (IeDef × Val)} (hcont : contents m s = some c) (hfit : allFit c = true) :
    ∃ bs, generate direction code crit m s = some bs ∧ SaysOrEmpty bs direction code (wanted c) := by
  obtain ⟨p, rfl, h1, h2, h3⟩ := k.proc
  exact generate_exact k.mem hcont k.pos k.le k.small h1 h2 h3 hfit

theorem Kind.null {m : MsgDef} {direction code crit : Nat} (k : Kind m direction code crit) {s : Struct}
    {c : List (IeDef × Val)} (hcont : contents m s = some c) (hfit : allFit c = false) :
    generate direction code crit m s = none := by
  obtain ⟨p, rfl, h1, h2, h3⟩ := k.proc
  exact generate_none k.mem hcont k.pos k.le k.small h1 hfit

/-- Both outcomes for a message that is short when valid. -/
theorem Kind.both {m : MsgDef} {direction code crit : Nat} (k : Kind m direction code crit) {s : Struct}
    {c : List (IeDef × Val)} {valid : Prop} (hcont : contents m s = some c) (hfit : allFit c = true ↔ valid)
    (hb : valid → bound c ≤ 1000) :
    (valid → ∃ bs, Res.ok (generate direction code crit m s) = .ok (some bs) ∧
      Says bs direction code (wanted c)) ∧
    (¬ valid → Res.ok (generate direction code crit m s) = .ok none) := by
  refine ⟨fun h => ?_, fun h => ?_⟩
  · obtain ⟨bs, h1, h2⟩ := k.says hcont (hfit.2 h) (hb h)
    exact ⟨bs, congrArg _ h1, h2⟩
  · have : allFit c = false := by
      cases h' : allFit c
      · rfl
      · exact absurd (hfit.1 h') h
    exact congrArg _ (k.null hcont this)

theorem is_resetIEs : Kind resetIEs 1 9 0 :=
  ⟨mem_tables (List.mem_iff_getElem?.2 ⟨29, rfl⟩), by decide, by decide, by decide, _, rfl, by decide, rfl, rfl⟩

theorem is_resetAcknowledgeIEs : Kind resetAcknowledgeIEs 2 9 0 :=
  ⟨mem_tables (List.mem_iff_getElem?.2 ⟨30, rfl⟩), by decide, by decide, by decide, _, rfl, by decide, rfl, rfl⟩

theorem is_errorIndicationIEs : Kind errorIndicationIEs 1 22 1 :=
  ⟨mem_tables (List.mem_iff_getElem?.2 ⟨55, rfl⟩), by decide, by decide, by decide, _, rfl, by decide, rfl, rfl⟩

theorem is_initialUE_MessageIEs : Kind initialUE_MessageIEs 1 19 1 :=
  ⟨mem_tables (List.mem_iff_getElem?.2 ⟨51, rfl⟩), by decide, by decide, by decide, _, rfl, by decide, rfl, rfl⟩

theorem is_directTransferIEs : Kind directTransferIEs 1 20 1 :=
  ⟨mem_tables (List.mem_iff_getElem?.2 ⟨52, rfl⟩), by decide, by decide, by decide, _, rfl, by decide, rfl, rfl⟩

theorem is_securityModeCommandIEs : Kind securityModeCommandIEs 1 6 0 :=
  ⟨mem_tables (List.mem_iff_getElem?.2 ⟨22, rfl⟩), by decide, by decide, by decide, _, rfl, by decide, rfl, rfl⟩

theorem is_securityModeCompleteIEs : Kind securityModeCompleteIEs 2 6 0 :=
  ⟨mem_tables (List.mem_iff_getElem?.2 ⟨23, rfl⟩), by decide, by decide, by decide, _, rfl, by decide, rfl, rfl⟩

theorem is_commonID_IEs : Kind commonID_IEs 1 15 1 :=
  ⟨mem_tables (List.mem_iff_getElem?.2 ⟨46, rfl⟩), by decide, by decide, by decide, _, rfl, by decide, rfl, rfl⟩

theorem is_iu_ReleaseCommandIEs : Kind iu_ReleaseCommandIEs 1 1 0 :=
  ⟨mem_tables (List.mem_iff_getElem?.2 ⟨0, rfl⟩), by decide, by decide, by decide, _, rfl, by decide, rfl, rfl⟩

theorem is_iu_ReleaseCompleteIEs : Kind iu_ReleaseCompleteIEs 2 1 0 :=
  ⟨mem_tables (List.mem_iff_getElem?.2 ⟨1, rfl⟩), by decide, by decide, by decide, _, rfl, by decide, rfl, rfl⟩

theorem is_pagingIEs : Kind pagingIEs 1 14 1 :=
  ⟨mem_tables (List.mem_iff_getElem?.2 ⟨45, rfl⟩), by decide, by decide, by decide, _, rfl, by decide, rfl, rfl⟩

theorem is_rAB_AssignmentRequestIEs : Kind rAB_AssignmentRequestIEs 1 0 0 :=
  ⟨mem_tables (List.mem_iff_getElem?.2 ⟨58, rfl⟩), by decide, by decide, by decide, _, rfl, by decide, rfl, rfl⟩

theorem is_iu_ReleaseRequestIEs : Kind iu_ReleaseRequestIEs 1 11 1 :=
  ⟨mem_tables (List.mem_iff_getElem?.2 ⟨37, rfl⟩), by decide, by decide, by decide, _, rfl, by decide, rfl, rfl⟩

theorem is_rAB_ReleaseRequestIEs : Kind rAB_ReleaseRequestIEs 1 10 1 :=
  ⟨mem_tables (List.mem_iff_getElem?.2 ⟨35, rfl⟩), by decide, by decide, by decide, _, rfl, by decide, rfl, rfl⟩

theorem is_resetResourceIEs : Kind resetResourceIEs 1 27 0 :=
  ⟨mem_tables (List.mem_iff_getElem?.2 ⟨31, rfl⟩), by decide, by decide, by decide, _, rfl, by decide, rfl, rfl⟩

/-- Exact size. -/
theorem Kind.sized {m : MsgDef} {direction code crit : Nat} (k : Kind m direction code crit) {s : Struct}
    {c : List (IeDef × Val)} (hcont : contents m s = some c) {l : List Ie} (hl : encodeAll c = some l) :
    ((l.flatMap ieOctets).length ≤ 1016 → ∃ bs, generate direction code crit m s = some bs ∧
      Says bs direction code (wanted c)) ∧
    (1016 < (l.flatMap ieOctets).length → generate direction code crit m s = some []) := by
  obtain ⟨p, rfl, h1, h2, h3⟩ := k.proc
  obtain ⟨hmem, hlen⟩ := contents_mem hcont
  obtain ⟨e1, -⟩ := encodeAll_spec hmem (fun x hx => (row_facts k.mem (hmem x hx)).2.1)
    (fun x hx => (row_facts k.mem (hmem x hx)).1) hl
  have hw := pduOctets_length direction code p.crit (containerOctets l)
  rw [containerOctets_length] at hw
  rw [generate_eq k.mem hcont direction code p.crit k.pos k.le k.small h1, hl, Option.map_some]
  refine ⟨fun h => ?_, fun h => ?_⟩
  · have hle : (pduOctets direction code p.crit (containerOctets l)).length ≤ 1024 := by split at hw <;> omega
    rw [if_pos hle]
    exact ⟨_, rfl, ⟨p, m, l, h2, h3, rfl, e1⟩, hle⟩
  · rw [if_neg (by split at hw <;> omega)]

/-- The NAS-PDU element. -/
theorem nas_encode (b : Bytes) : ∃ o, encode RANAP_NAS_PDU (.octets b) = some o ∧
    (b.length < 16384 → o = lenOctets b.length ++ b) ∧ b.length ≤ o.length := by
  obtain ⟨o, ho, -⟩ := encode_exists (t := RANAP_NAS_PDU) rfl (v := .octets b) rfl
  refine ⟨o, ho, fun h => ?_, ?_⟩
  · have : encode RANAP_NAS_PDU (.octets b) = some (lenOctets b.length ++ b) :=
      complete_octs (octs_octets h) (by
        have := lenOctets_length b.length
        intro h0
        have := congrArg List.length h0
        simp only [List.length_append, List.length_nil] at this
        split at * <;> omega)
    rw [ho] at this
    exact Option.some.inj this
  · exact complete_atLeast (atLeast_octets b) ho

theorem ieOctets_length (ie : Ie) : (ieOctets ie).length = 3 + (if ie.value.length < 128 then 1 else 2) + ie.value.length := by
  simp only [ieOctets, be16, List.length_append, List.length_cons, List.length_nil, lenOctets_length]

theorem nas_fits (b : Bytes) : fits RANAP_NAS_PDU (.octets b) = true := by simp [RANAP_NAS_PDU, fits, fitsOct]

/-! ## Direct Transfer -/

theorem sapi_encode (n : Nat) (h : n < 2) : ∃ b, encode RANAP_SAPI (.enum n) = some [b] := by
  have : n = 0 ∨ n = 1 := by omega
  rcases this with rfl | rfl
  · exact ⟨0, by decide +kernel⟩
  · exact ⟨0x40, by decide +kernel⟩

theorem dt_both (sapi : Byte) (nas : Bytes) :
    (nas.length ≤ 1004 → ∃ bs, dt sapi nas = .ok (some bs) ∧
      Says bs 1 20 [(16, .octets nas), (59, .enum (if sapi = 3 then 1 else 0))]) ∧
    (1004 < nas.length → dt sapi nas = .ok (some [])) := by
  obtain ⟨o, ho, ho1, ho2⟩ := nas_encode nas
  obtain ⟨b, hb⟩ := sapi_encode (if sapi = 3 then 1 else 0) (by split <;> omega)
  have hcont : contents directTransferIEs (put directTransferIEs idNAS_PDU (.octets nas)
      (put directTransferIEs idSAPI (.enum (if sapi = 3 then 1 else 0))
        (setMask (present directTransferIEs idSAPI) directTransferIEs.zero))) =
      some [(directTransferIEs.ies[0], .octets nas), (directTransferIEs.ies[4], .enum (if sapi = 3 then 1 else 0))] := by
    with_unfolding_all rfl
  have hl : encodeAll [(directTransferIEs.ies[0], .octets nas),
      (directTransferIEs.ies[4], .enum (if sapi = 3 then 1 else 0))] = some [⟨16, 1, o⟩, ⟨59, 1, [b]⟩] := by
    simp only [BitVec.ofNat_eq_ofNat] at hb
    simp [encodeAll, directTransferIEs, ho, hb]
  have hlen : ([⟨16, 1, o⟩, ⟨59, 1, [b]⟩] : List Ie).flatMap ieOctets =
      ieOctets ⟨16, 1, o⟩ ++ ieOctets ⟨59, 1, [b]⟩ := by simp
  obtain ⟨h1, h2⟩ := is_directTransferIEs.sized hcont hl
  rw [hlen, List.length_append, ieOctets_length, ieOctets_length] at h1 h2
  simp only [List.length_cons, List.length_nil] at h1 h2
  have hol : nas.length < 16384 → o.length = nas.length + (if nas.length < 128 then 1 else 2) := by
    intro h
    rw [ho1 h, List.length_append, lenOctets_length]
    omega
  constructor
  · intro h
    have := hol (by omega)
    obtain ⟨bs, e1, e2⟩ := h1 (by split at this <;> split <;> split <;> omega)
    exact ⟨bs, congrArg _ e1, e2⟩
  · intro h
    refine congrArg Res.ok (h2 ?_)
    by_cases hn : nas.length < 16384
    · have := hol hn
      split at this <;> split <;> split <;> omega
    · split <;> split <;> omega

end Verif.Factory
