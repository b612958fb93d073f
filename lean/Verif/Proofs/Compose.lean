import Verif.Proofs.Rua
import Verif.Props.Rua
import Verif.Props.Factory
import Verif.Props.FactorySec
import Verif.Props.FactoryRab

/-! How long generated RANAP messages are. -/

namespace Verif.Factory
open Verif.Aper Verif.Ie Verif.Ie.Spec Verif.Rx.Spec Verif.Wire Verif.Gen.Ranap Verif.Factory.Spec

theorem Kind.sizedLen {m : MsgDef} {direction code crit : Nat} (k : Kind m direction code crit) {s : Struct}
    {c : List (IeDef × Val)} (hcont : contents m s = some c) {l : List Ie} (hl : encodeAll c = some l)
    (h : (l.flatMap ieOctets).length ≤ 1016) : ∃ bs, generate direction code crit m s = some bs ∧
      Says bs direction code (wanted c) ∧
      bs.length = 6 + (if 3 + (l.flatMap ieOctets).length < 128 then 1 else 2) + (l.flatMap ieOctets).length := by
  obtain ⟨p, rfl, h1, h2, h3⟩ := k.proc
  obtain ⟨hmem, hlen⟩ := contents_mem hcont
  obtain ⟨e1, -⟩ := encodeAll_spec hmem (fun x hx => (row_facts k.mem (hmem x hx)).2.1)
    (fun x hx => (row_facts k.mem (hmem x hx)).1) hl
  have hw := pduOctets_length direction code p.crit (containerOctets l)
  rw [containerOctets_length] at hw
  rw [generate_eq k.mem hcont direction code p.crit k.pos k.le k.small h1, hl, Option.map_some]
  have hle : (pduOctets direction code p.crit (containerOctets l)).length ≤ 1024 := by split at hw <;> omega
  rw [if_pos hle]
  exact ⟨_, rfl, ⟨⟨p, m, l, h2, h3, rfl, e1⟩, hle⟩, by rw [hw]; split <;> omega⟩

/-- An upper bound that does not need the octets. -/
theorem Kind.short {m : MsgDef} {direction code crit : Nat} (k : Kind m direction code crit) {s : Struct}
    {c : List (IeDef × Val)} (hcont : contents m s = some c) {bs : Bytes} (h : generate direction code crit m s = some bs) :
    bs.length ≤ 8 + bound c := by
  obtain ⟨p, rfl, h1, h2, h3⟩ := k.proc
  obtain ⟨hmem, hlen⟩ := contents_mem hcont
  rw [generate_eq k.mem hcont direction code p.crit k.pos k.le k.small h1] at h
  cases hl : encodeAll c with
  | none => rw [hl] at h; cases h
  | some l =>
    obtain ⟨-, -, -, e4⟩ := encodeAll_spec hmem (fun x hx => (row_facts k.mem (hmem x hx)).2.1)
      (fun x hx => (row_facts k.mem (hmem x hx)).1) hl
    have hw := pduOctets_length direction code p.crit (containerOctets l)
    rw [containerOctets_length] at hw
    rw [hl, Option.map_some, Option.some.injEq] at h
    split at h
    · rw [← h, hw]; split <;> omega
    · rw [← h]; simp

/-- Direct Transfer. -/
theorem dt_length (sapi : Byte) (nas : Bytes) (h : nas.length ≤ 1004) : ∃ bs, dt sapi nas = .ok (some bs) ∧
    Says bs 1 20 [(16, .octets nas), (59, .enum (if sapi = 3 then 1 else 0))] ∧
    bs.length ≤ nas.length + 20 ∧ (128 ≤ nas.length → bs.length = nas.length + 20) := by
  obtain ⟨o, ho, ho1, ho2⟩ := nas_encode nas
  obtain ⟨b, hb⟩ := sapi_encode (if sapi = 3 then 1 else 0) (by split <;> omega)
  have hcont : contents directTransferIEs (put directTransferIEs idNAS_PDU (.octets nas)
      (put directTransferIEs idSAPI (.enum (if sapi = 3 then 1 else 0))
        (setMask (present directTransferIEs idSAPI) directTransferIEs.zero))) =
      some [(directTransferIEs.ies[0], .octets nas), (directTransferIEs.ies[4], .enum (if sapi = 3 then 1 else 0))] := by
    with_unfolding_all rfl
  have hl : encodeAll [(directTransferIEs.ies[0], .octets nas),
      (directTransferIEs.ies[4], .enum (if sapi = 3 then 1 else 0))] = some [⟨16, 1, o⟩, ⟨59, 1, [b]⟩] := by
    simp only [BitVec.ofNat_eq_ofNat] at hb
    simp [encodeAll, directTransferIEs, ho, hb]
  have hlen : (([⟨16, 1, o⟩, ⟨59, 1, [b]⟩] : List Ie).flatMap ieOctets).length =
      (3 + (if o.length < 128 then 1 else 2) + o.length) + 5 := by
    simp only [List.flatMap_cons, List.flatMap_nil, List.append_nil, List.length_append, ieOctets_length]
    simp
  have hol : o.length = nas.length + (if nas.length < 128 then 1 else 2) := by
    rw [ho1 (by omega), List.length_append, lenOctets_length]
    omega
  obtain ⟨bs, e1, e2, e3⟩ := is_directTransferIEs.sizedLen hcont hl (by
    rw [hlen]; split at hol <;> split <;> omega)
  rw [hlen] at e3
  refine ⟨bs, congrArg _ e1, e2, ?_, fun h128 => ?_⟩
  · rw [e3]
    split at hol <;> split <;> split <;> omega
  · rw [e3]
    split at hol <;> split <;> split <;> omega

/-- Initial UE Message. -/
theorem ue_length (connId : BitVec 32) (isPs : Bool) {r : RncId} (hv : ValidRnc r) (nas : Bytes) (h : nas.length ≤ 966) :
    ∃ bs, initialUe connId isPs (some r) nas = .ok (some bs) ∧
      Says bs 1 19 [(3, .enum (psOrCs isPs)), (15, Props.fixedLai r.plmn), (58, Props.fixedSai r.plmn), (16, .octets nas),
        (79, .bits (low24 connId)), (86, rncVal r)] ∧
      bs.length ≤ nas.length + 58 ∧ (128 ≤ nas.length → bs.length = nas.length + 58) := by
  have he : initialUe connId isPs (some r) nas = .ok (generate 1 19 ignore initialUE_MessageIEs
      (Props.ueStruct (.enum (psOrCs isPs)) (Props.fixedLai r.plmn) (Props.fixedSai r.plmn) (.octets nas) (.bits (low24 connId)) (rncVal r))) := rfl
  have hcont := Props.ue_contents (.enum (psOrCs isPs)) (Props.fixedLai r.plmn) (Props.fixedSai r.plmn) (.octets nas) (.bits (low24 connId))
    (rncVal r)
  obtain ⟨o0, e0, l0⟩ := Props.dom_encode isPs
  obtain ⟨o1, e1, l1⟩ := Props.lai_encode hv.1
  obtain ⟨o2, e2, l2⟩ := Props.sai_encode hv.1
  obtain ⟨o3, e3, ho1, ho2⟩ := nas_encode nas
  obtain ⟨o4, e4, l4⟩ := Props.conId_encode connId
  obtain ⟨o5, e5, l5⟩ := Props.rnc_encode hv
  have hl : encodeAll [(initialUE_MessageIEs.ies[0], .enum (psOrCs isPs)), (initialUE_MessageIEs.ies[1], Props.fixedLai r.plmn),
    (initialUE_MessageIEs.ies[3], Props.fixedSai r.plmn), (initialUE_MessageIEs.ies[4], .octets nas),
    (initialUE_MessageIEs.ies[5], .bits (low24 connId)), (initialUE_MessageIEs.ies[6], rncVal r)] =
    some [⟨3, 1, o0⟩, ⟨15, 1, o1⟩, ⟨58, 1, o2⟩, ⟨16, 1, o3⟩, ⟨79, 1, o4⟩, ⟨86, 1, o5⟩] := by
    simp [encodeAll, initialUE_MessageIEs, e0, e1, e2, e3, e4, e5]
  have hlen : (([⟨3, 1, o0⟩, ⟨15, 1, o1⟩, ⟨58, 1, o2⟩, ⟨16, 1, o3⟩, ⟨79, 1, o4⟩, ⟨86, 1, o5⟩] : List Ie).flatMap
      Wire.ieOctets).length = 43 + (3 + (if o3.length < 128 then 1 else 2) + o3.length) := by
    simp only [List.flatMap_cons, List.flatMap_nil, List.append_nil, List.length_append, ieOctets_length, l0, l1, l2, l4, l5]
    simp
    omega
  have hol : o3.length = nas.length + (if nas.length < 128 then 1 else 2) := by
    rw [ho1 (by omega), List.length_append, lenOctets_length]
    omega
  obtain ⟨bs, f1, f2, f3⟩ := is_initialUE_MessageIEs.sizedLen hcont hl (by
    rw [hlen]; split at hol <;> split <;> omega)
  rw [hlen] at f3
  refine ⟨bs, he.trans (congrArg _ f1), f2, ?_, fun h128 => ?_⟩
  · rw [f3]
    split at hol <;> split <;> split <;> omega
  · rw [f3]
    split at hol <;> split <;> split <;> omega

/-- Security Mode Complete. -/
theorem secModCompl_length {ip enc : Int} (h : 0 ≤ ip ∧ ip ≤ 15 ∧ 0 ≤ enc ∧ enc ≤ 15) :
    ∃ bs, secModCompl ip enc = .ok (some bs) ∧ Says bs 2 6 [(6, .int ip), (5, .int enc)] ∧ bs.length ≤ 100 := by
  obtain ⟨bs, h1, h2⟩ := (Props.C65_sec_mod_compl ip enc).1 h
  refine ⟨bs, h1, h2, ?_⟩
  have hb := is_securityModeCompleteIEs.short (c := [(securityModeCompleteIEs.ies[0], .int ip),
    (securityModeCompleteIEs.ies[1], .int enc)]) (by with_unfolding_all rfl) (Res.ok.inj h1)
  have : bound [(securityModeCompleteIEs.ies[0], .int ip), (securityModeCompleteIEs.ies[1], .int enc)] ≤ 92 :=
    Nat.le_of_ble_eq_true (by with_unfolding_all rfl)
  omega

/-- Iu Release Complete. -/
theorem iuRelCompl_length : ∃ bs, iuRelCompl = .ok (some bs) ∧ Says bs 2 1 [] ∧ bs.length ≤ 100 := by
  obtain ⟨bs, h1, h2⟩ := Props.C65_iu_rel_compl
  refine ⟨bs, h1, h2, ?_⟩
  have hb := is_iu_ReleaseCompleteIEs.short (c := []) (by with_unfolding_all rfl) (Res.ok.inj h1)
  have : bound [] = 0 := rfl
  omega

/-- Iu Release Request. -/
theorem iuRelReq_length {c : Cause} (h : ValidCause c) : ∃ bs, iuRelReq (some c) = .ok (some bs) ∧
    Says bs 1 11 [(4, causeVal c)] ∧ bs.length ≤ 100 := by
  obtain ⟨bs, h1, h2⟩ := (Props.C65_iu_rel_req c).1 h
  refine ⟨bs, h1, h2, ?_⟩
  have hb := is_iu_ReleaseRequestIEs.short (c := [(iu_ReleaseRequestIEs.ies[0], c.toVal)]) (by with_unfolding_all rfl)
    (Res.ok.inj h1)
  have := openOcts_le (cause_bound h)
  simp only [bound, iu_ReleaseRequestIEs, List.getElem_cons_zero] at hb
  omega

/-- Reset. -/
theorem reset_length {d : Nat} {c : Cause} (hd : ValidDomain d) (hc : ValidCause c) : ∃ bs, reset d (some c) = .ok (some bs) ∧
    Says bs 1 9 [(4, causeVal c), (3, .enum d)] ∧ bs.length ≤ 100 := by
  obtain ⟨bs, h1, h2⟩ := (Props.C52_reset d c none).1 ⟨hd, hc, by simp⟩
  refine ⟨bs, h1, h2, ?_⟩
  have hb := is_resetIEs.short (c := [(resetIEs.ies[0], c.toVal), (resetIEs.ies[1], .enum d)]) (by with_unfolding_all rfl)
    (Res.ok.inj h1)
  have := openOcts_le (cause_bound hc)
  have := openOcts_le (domain_bound d)
  simp only [bound, resetIEs, List.getElem_cons_zero, List.getElem_cons_succ] at hb
  omega

end Verif.Factory
