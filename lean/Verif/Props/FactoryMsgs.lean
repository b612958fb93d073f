import Verif.Proofs.FactoryMsgs
import Verif.Props.Factory

/-!
# Generated messages: Error Indication, Reset Resource (C51, C52)
-/

namespace Verif.Props
open Verif.Aper Verif.Ie Verif.Ie.Spec Verif.Rx.Spec Verif.Wire Verif.Gen.Ranap Verif.Factory Verif.Factory.Spec
open Verif.Aper.Spec (fits fitsFields fitsAlt fitsOct fitsLen)
open Verif.Spec.Bcd (IsDigit)

/-! ## C51: Error Indication -/

/-- Arguments that can be expressed. -/
def ValidErrorInd (cause : Option Cause) (diag : Option Val) (domain : Option Nat) : Prop :=
  (∀ c ∈ cause, ValidCause c) ∧ (∀ v ∈ diag, fits RANAP_CriticalityDiagnostics v = true) ∧ ∀ d ∈ domain, ValidDomain d

/-- **C51, full statement**: the message carries exactly the elements given. -/
def C51_full : Prop := ∀ cause diag domain rnc, ValidErrorInd cause diag domain → (∀ r ∈ rnc, ValidRnc r) →
  ∃ bs, errorInd cause diag domain rnc = .ok (some bs) ∧
    SaysOrEmpty bs 1 22 (opt 4 causeVal cause ++ opt 9 id diag ++ opt 3 .enum domain ++ opt 86 rncVal rnc)

/-- **C51, proved part**: as long as no Global-RNC-ID is given.  Without diagnostics the message always fits
into the buffer. -/
theorem C51_error_ind_partial (cause : Option Cause) (diag : Option Val) (domain : Option Nat) :
    (ValidErrorInd cause diag domain → ∃ bs, errorInd cause diag domain none = .ok (some bs) ∧
      SaysOrEmpty bs 1 22 (opt 4 causeVal cause ++ opt 9 id diag ++ opt 3 .enum domain) ∧
      (diag = none → Says bs 1 22 (opt 4 causeVal cause ++ opt 3 .enum domain))) ∧
    (¬ ValidErrorInd cause diag domain → errorInd cause diag domain none = .ok none) := by
  obtain ⟨s, hs, hcont⟩ := errorInd_none cause diag domain
  have hfit : allFit (eiRows cause diag domain) = true ↔ ValidErrorInd cause diag domain := by
    unfold ValidErrorInd
    cases cause <;> cases diag <;> cases domain <;>
      simp [eiRows, allFit, errorIndicationIEs, cause_fits, domain_fits]
  have hw : ValidErrorInd cause diag domain → wanted (eiRows cause diag domain) =
      opt 4 causeVal cause ++ opt 9 id diag ++ opt 3 .enum domain := by
    intro h
    cases cause with
    | none => cases diag <;> cases domain <;> rfl
    | some c => rw [show causeVal = causeVal from rfl]; cases diag <;> cases domain <;>
        simp [wanted, eiRows, errorIndicationIEs, opt, causeVal_eq (h.1 c rfl)]
  obtain ⟨h1, h2⟩ := is_errorIndicationIEs.bothLong hcont hfit
  rw [hs]
  refine ⟨fun h => ?_, h2⟩
  obtain ⟨bs, e1, e2, e3⟩ := h1 h
  rw [hw h] at e2 e3
  refine ⟨bs, e1, e2, ?_⟩
  rintro rfl
  simp only [opt, List.append_nil] at e3 ⊢
  refine e3 ?_
  have hb := fun d => openOcts_le (domain_bound d)
  cases cause with
  | none => cases domain with
    | none => simp [eiRows, bound]
    | some d => have := hb d; simp [eiRows, bound, errorIndicationIEs]; omega
  | some c =>
    have := openOcts_le (cause_bound (h.1 c rfl))
    cases domain with
    | none => simp [eiRows, bound, errorIndicationIEs]; omega
    | some d => have := hb d; simp [eiRows, bound, errorIndicationIEs]; omega

example : ValidErrorInd (some cause46) none (some 0) := by
  refine ⟨?_, ?_, ?_⟩ <;> simp [cause46, ValidCause, ValidDomain]

/-- **C51**, what the code does with a Global-RNC-ID: whatever else is given, the message carries the
criticality diagnostics alone, and empty ones if none are given. -/
theorem C51_with_rnc_id (cause : Option Cause) (diag : Option Val) (domain : Option Nat) (r : RncId)
    (hd : ∀ v ∈ diag, fits RANAP_CriticalityDiagnostics v = true) :
    ∃ bs, errorInd cause diag domain (some r) = .ok (some bs) ∧
      (diag = none → Says bs 1 22 [(9, .seq [none, none, none, none, none])]) ∧
      ∀ v ∈ diag, SaysOrEmpty bs 1 22 [(9, v)] := by
  obtain ⟨s, hs, hcont⟩ := errorInd_some cause diag domain r
  obtain ⟨h1, -⟩ := is_errorIndicationIEs.bothLong (valid := True) hcont (by
    cases diag with
    | none => simp only [iff_true]; rfl
    | some v => simp [allFit, errorIndicationIEs, hd v rfl])
  obtain ⟨bs, e1, e2, e3⟩ := h1 trivial
  refine ⟨bs, hs.trans e1, ?_, ?_⟩
  · rintro rfl
    exact e3 (by decide)
  · rintro v ⟨⟩
    exact e2

/-- **C51 is violated.** -/
theorem C51_violated : ¬ C51_full := by
  intro h
  obtain ⟨bs, h1, h2⟩ := h (some cause46) none none (some rnc926)
    ⟨by simp [cause46, ValidCause], by simp, by simp⟩ (by decide)
  obtain ⟨bs', h1', h2', -⟩ := C51_with_rnc_id (some cause46) none none rnc926 (by simp)
  rw [h1] at h1'
  obtain rfl := Option.some.inj (Res.ok.inj h1')
  have h3 := h2' rfl
  have h4 := saysOrEmpty_says h2 (says_nonempty h3)
  have := says_unique h3 h4
  simp [opt] at this

/-! ## C52: Reset Resource -/

theorem oneItem_bound (id crit : Nat) {b : Bytes} (h : b.length ≤ 40) :
    openOcts (maxBits (.seq true (.cons false (.seqOf (some ⟨0, 65535, false⟩) RANAP_IE) .nil)) (oneItem id crit b)) ≤ 100 := by
  have : maxBits (.seq true (.cons false (.seqOf (some ⟨0, 65535, false⟩) RANAP_IE) .nil)) (oneItem id crit b) =
    1 + 1 + (sBits (some ⟨0, 65535, false⟩) + ((1 + 3 + (maxBits RANAP_ProtocolIE_ID (.int 0) +
      (maxBits RANAP_Criticality (.enum 0) + (octBits b.length + 0)))) + 0) + 0) := rfl
  have h1 : sBits (some ⟨0, 65535, false⟩) ≤ 100 := by decide
  have h2 : maxBits RANAP_ProtocolIE_ID (.int 0) ≤ 100 := by decide
  have h3 : maxBits RANAP_Criticality (.enum 0) ≤ 100 := by decide
  rw [this]
  unfold openOcts octBits
  omega

/-- **C52.** Reset Resource for one signalling connection: exactly the arguments, the connection as its
lower 24 bits, the Global-RNC-ID iff given. -/
theorem C52_reset_resource (d : Nat) (c : Cause) (id : BitVec 32) (rnc : Option RncId) :
    (ValidDomain d ∧ ValidCause c ∧ (∀ r ∈ rnc, ValidRnc r) →
      ∃ bs b, resetResource d (some c) (some [id]) rnc = .ok (some bs) ∧
        Says bs 1 27 ([(3, .enum d), (4, causeVal c), (77, oneItem 78 0 b)] ++ opt 86 rncVal rnc) ∧
        decode RANAP_ResetResourceItem b = some (.seq [some (.bits (low24 id)), none])) ∧
    (¬ (ValidDomain d ∧ ValidCause c ∧ ∀ r ∈ rnc, ValidRnc r) →
      resetResource d (some c) (some [id]) rnc = .ok none) := by
  have hd := domain_fits d
  have hc := cause_fits c
  have hb := openOcts_le (domain_bound d)
  obtain ⟨b, hb1, hb2⟩ := encode_exists (t := RANAP_ResetResourceItem) (by decide)
    (v := .seq [some (.bits (low24 id)), none]) rfl
  have hbl : b.length ≤ 20 := Nat.le_trans hb2 (Nat.le_of_ble_eq_true (by with_unfolding_all rfl))
  have hdec := decode_encode (t := RANAP_ResetResourceItem) (by decide) hb1
  have hitem : encodeIes resetResourceItemIEs (put resetResourceItemIEs idIuSigConIdItem
      (.seq [some (.bits (u24Bits id)), none]) resetResourceItemIEs.zero) = some [⟨78, 0, b⟩] := by
    show encodeRows _ 0 0 [some ⟨.seq [some (.bits (low24 id)), none], none⟩] = _
    simp [encodeRows, resetResourceItemIEs, newIe, hb1]
  have hfl : fits RANAP_ResetResourceList (oneItem 78 0 b) = true := rfl
  have hbl' := oneItem_bound 78 0 (b := b) (by omega)
  suffices h : (ValidDomain d ∧ ValidCause c ∧ (∀ r ∈ rnc, ValidRnc r) →
      ∃ bs, resetResource d (some c) (some [id]) rnc = .ok (some bs) ∧
        Says bs 1 27 ([(3, .enum d), (4, c.toVal), (77, oneItem 78 0 b)] ++ opt 86 rncVal rnc)) ∧
    (¬ (ValidDomain d ∧ ValidCause c ∧ ∀ r ∈ rnc, ValidRnc r) →
      resetResource d (some c) (some [id]) rnc = .ok none) by
    refine ⟨fun v => ?_, h.2⟩
    obtain ⟨bs, h1, h2⟩ := h.1 v
    exact ⟨bs, b, h1, causeVal_eq v.2.1 ▸ h2, hdec⟩
  unfold resetResource
  simp only [hitem]
  cases rnc with
  | none =>
    refine is_resetResourceIEs.both (c := [(resetResourceIEs.ies[0], .enum d), (resetResourceIEs.ies[1], c.toVal),
      (resetResourceIEs.ies[2], oneItem 78 0 b)]) (by with_unfolding_all rfl) ?_ ?_
    · simp [allFit, resetResourceIEs, hd, hc, hfl]
    · rintro ⟨_, h, _⟩
      have := openOcts_le (cause_bound h)
      simp only [bound, resetResourceIEs, List.getElem_cons_zero, List.getElem_cons_succ]
      have : openOcts (maxBits RANAP_ResetResourceList (oneItem 78 0 b)) ≤ 100 := hbl'
      omega
  | some r =>
    have hr := rnc_fits r
    refine is_resetResourceIEs.both (c := [(resetResourceIEs.ies[0], .enum d), (resetResourceIEs.ies[1], c.toVal),
      (resetResourceIEs.ies[2], oneItem 78 0 b), (resetResourceIEs.ies[3], r.toVal)]) (by with_unfolding_all rfl) ?_ ?_
    · simp [allFit, resetResourceIEs, hd, hc, hfl, hr]
    · rintro ⟨_, h, h'⟩
      have := openOcts_le (cause_bound h)
      have := openOcts_le (rnc_bound (h' r rfl))
      simp only [bound, resetResourceIEs, List.getElem_cons_zero, List.getElem_cons_succ]
      have : openOcts (maxBits RANAP_ResetResourceList (oneItem 78 0 b)) ≤ 100 := hbl'
      omega

example : ValidDomain 1 ∧ ValidCause cause46 ∧ ∀ r ∈ some rnc926, ValidRnc r := by decide

/-- **C52.** Any other number of connections gives NULL, missing arguments end the program. -/
theorem C52_reset_resource_refused (d : Nat) (c : Cause) (ids : List (BitVec 32)) (rnc : Option RncId) :
    (ids.length ≠ 1 → resetResource d (some c) (some ids) rnc = .ok none) ∧
    resetResource d none (some ids) rnc = .fault .abort ∧ resetResource d (some c) none rnc = .fault .abort := by
  refine ⟨fun h => ?_, ?_, rfl⟩
  · match ids with
    | [] => rfl
    | [_] => exact absurd rfl h
    | _ :: _ :: _ => rfl
  · match ids with
    | [] => rfl
    | [_] => rfl
    | _ :: _ :: _ => rfl

example : ([1, 2] : List (BitVec 32)).length ≠ 1 := by decide

/-! ## C50 -/

theorem takeWhile_ids {ds : List IeDef} {k : Nat} {d : IeDef} (hd : ds[k]? = some d)
    (hu : ∀ j e, ds[j]? = some e → e.id = d.id → j = k) : ds.takeWhile (fun e => !(e.id == d.id)) = ds.take k := by
  induction ds generalizing k with
  | nil => cases hd
  | cons a ds ih =>
    cases k with
    | zero =>
      simp only [List.getElem?_cons_zero, Option.some.injEq] at hd
      subst hd
      simp
    | succ k =>
      have ha : a.id ≠ d.id := fun h => by have := hu 0 a rfl h; omega
      have hb : (!(a.id == d.id)) = true := by simpa using ha
      rw [List.takeWhile_cons, if_pos hb, List.take_succ_cons, ih (by simpa using hd)]
      intro j e hj he
      have := hu (j + 1) e (by simpa using hj) he
      omega

/-- C50: the constant `..._PRESENT` of an element is its presence bit. -/
theorem C50_present_constant {m : MsgDef} (hm : m ∈ tables) {k : Nat} {d : IeDef} (hr : Row m k d) (ho : d.opt = true)
    (i : Nat) : (present m d.id).getLsbD i = decide (i = bitOf m k) := by
  have h16 := bitOf_lt (good hm) hr ho
  have : present m d.id = (1 : BitVec 16) <<< bitOf m k := by
    unfold present bitOf
    rw [takeWhile_ids hr]
    intro j e hj he
    exact (row_unique (good hm) hj hr he).1
  rw [this]
  generalize bitOf m k = b at h16 ⊢
  by_cases h : i = b
  · subst h; simp [h16]
  · simp [h]; omega

example : present directTransferIEs 59 = 8 := by decide

end Verif.Props
