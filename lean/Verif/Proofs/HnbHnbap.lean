import Verif.Proofs.HnbNas
import Verif.Props.Generate

/-! The HNB emulator: HNBAP. -/

namespace Verif.Hnb
open Verif.Aper Verif.Ie Verif.Ie.Spec Verif.Wire Verif.Gen.Hnbap Verif.Hnb.Spec
open Verif.Factory Verif.Factory.Spec

/-! ## Sending -/

theorem hnbap_mem {m : MsgDef} (h : m ∈ Gen.Hnbap.all) : m ∈ tables := by
  unfold tables
  simp only [List.mem_append]
  exact Or.inl (Or.inr h)

theorem hnbap_gen {m : MsgDef} (hm : m ∈ tables) (hsane : m.ty.sane = true) {s : Struct} {c : List (IeDef × Val)}
    (hcont : contents m s = some c) {l : List Ie} (hl : encodeAll c = some l) {code : Nat} (hc : code < 256)
    (hb : bound c ≤ 1000) (hn : ((wanted c).map (·.1)).Nodup) :
    encodeIes m s = some l ∧ ∃ bs, Generate.generate .hnbap 1 code 0 m.ty (container l) = some bs ∧
      HnbapUnderstood bs code m (wanted c) := by
  obtain ⟨hmem, hlen⟩ := contents_mem hcont
  have he : encodeIes m s = some l := by
    unfold encodeIes
    unfold contents at hcont
    rw [encodeRows_contents hcont, hl]
  obtain ⟨h1, h2, h3, h4⟩ := encodeAll_spec hmem (fun x hx => (row_facts hm (hmem x hx)).2.1)
    (fun x hx => (row_facts hm (hmem x hx)).1) hl
  have hshort := List.all_eq_true.1 tables_short m hm
  simp only [decide_eq_true_eq] at hshort
  obtain ⟨any, ha, ha1, -⟩ := encode_container_room hm (l := l) (by omega) (fun ie hie => by
    obtain ⟨x, hx, h5, h6⟩ := h2 ie hie
    rw [h5, h6]
    exact (row_facts hm (hmem x hx)).2.2)
  have hcl := containerOctets_length l
  have hany := ha1 (by omega)
  have hf : Aper.Spec.fits m.ty (container l) = true := by
    rw [← encode_isSome hsane, ha]; rfl
  obtain ⟨value, e1, e2⟩ := (Props.C80_generate .hnbap (d := 1) (by decide) code 0 hsane (container l)).2 hf
  rw [ha] at e1
  cases e1
  have hpl := pduOctets_length 1 code 0 any
  rw [if_pos ⟨hc, by decide, by rw [hpl, hany]; split <;> omega⟩] at e2
  refine ⟨he, _, e2, 0, any, ?_, fun μ => ?_⟩
  · obtain ⟨out, o1, o2, -⟩ := (Props.pdu_encode .hnbap (d := 1) (by decide) (crit := 0) (value := any)).1 ⟨hc, by decide⟩
    rw [← o2 (by rw [hany]; omega)]
    exact decode_encode (Props.pdu_ok .hnbap) o1
  · have hg := good hm
    have ds := decodeIes_spec hg (carries_encode hg ha) μ
    have h0 : (decodeIes m any μ).1.1 = 0 := ds.ok_iff.2 (elements_valid h1)
    rw [h0] at ds
    exact ⟨h0, holds_exactly hg h1 hn (Rx.holds_of_dec ds)⟩

/-- Queue what was generated. -/
theorem hnbapTx_queued {m : MsgDef} {s : State} {code : Nat} {l : List Ie} {want : List (Nat × Val)}
    (h : ∃ bs, Generate.generate .hnbap 1 code 0 m.ty (container l) = some bs ∧ HnbapUnderstood bs code m want) :
    ∃ s', hnbapTx s code m.ty l = .ok s' ∧ Queued s s' code m want := by
  obtain ⟨bs, h1, h2⟩ := h
  unfold hnbapTx Queued
  rw [h1]
  simp only [enqueue]
  by_cases hq : 16 ≤ s.queue.length
  · simp only [if_pos hq]
    exact ⟨_, rfl, rfl⟩
  · simp only [if_neg hq]
    exact ⟨_, rfl, bs, h2, rfl⟩

/-- The elements of an HNB Register Request (3 HNB identity, 8 location information, 9 PLMN identity, 11 cell identity,
6 LAC, 7 RAC, 10 SAC). -/
def registerElems : List (Nat × Val) :=
  [(3, .seq [some (.octets [0x41, 0x54, 0x65, 0x73, 0x74, 0x48, 0x4e, 0x42, 0x40]), none]), (8, .seq [none, none, none]),
   (9, .octets [0x09, 0xf1, 0x99]),
   (11, .bits ((octetsBits [0xad, 0xce, 0xaa, 0xb0]).take 28)), (6, .octets [0xc0, 0xfe]), (7, .octets [0x42]),
   (10, .octets [0xab, 0xab])]

theorem registerTx_queued (s : State) :
    ∃ s', registerTx s = .ok s' ∧ Queued s s' 1 hNBRegisterRequestIEs registerElems := by
  have hm : hNBRegisterRequestIEs ∈ tables := hnbap_mem (List.mem_iff_getElem?.2 ⟨0, rfl⟩)
  obtain ⟨c, hc, hw, hf, hb⟩ : ∃ c, contents hNBRegisterRequestIEs hnbRegisterReq = some c ∧ wanted c = registerElems ∧
      allFit c = true ∧ bound c ≤ 1000 := ⟨_, rfl, rfl, by decide +kernel, by decide +kernel⟩
  have he := encodeAll_isSome fun x hx => (row_facts hm ((contents_mem hc).1 x hx)).1
  rw [hf, Option.isSome_iff_exists] at he
  obtain ⟨l, hl⟩ := he
  have hn : ((wanted c).map (·.1)).Nodup := by rw [hw]; decide
  obtain ⟨h1, h2⟩ := hnbap_gen hm (by decide +kernel) hc hl (code := 1) (by decide) hb hn
  unfold registerTx
  rw [h1]
  rw [hw] at h2
  exact hnbapTx_queued (m := hNBRegisterRequestIEs) h2

theorem deregisterTx_queued (s : State) :
    ∃ s', deregisterTx s = .ok s' ∧ Queued s s' 2 hNBDe_RegisterIEs [(1, .choice 3 (.enum 2))] := by
  have hm : hNBDe_RegisterIEs ∈ tables := hnbap_mem (List.mem_iff_getElem?.2 ⟨3, rfl⟩)
  obtain ⟨c, hc, hw, hf, hb⟩ : ∃ c, contents hNBDe_RegisterIEs
      (put hNBDe_RegisterIEs 1 (.choice 3 (.enum 2)) hNBDe_RegisterIEs.zero) = some c ∧
      wanted c = [(1, .choice 3 (.enum 2))] ∧
      allFit c = true ∧ bound c ≤ 1000 := ⟨_, rfl, rfl, by decide +kernel, by decide +kernel⟩
  have he := encodeAll_isSome fun x hx => (row_facts hm ((contents_mem hc).1 x hx)).1
  rw [hf, Option.isSome_iff_exists] at he
  obtain ⟨l, hl⟩ := he
  have hn : ((wanted c).map (·.1)).Nodup := by rw [hw]; decide
  obtain ⟨h1, h2⟩ := hnbap_gen hm (by decide +kernel) hc hl (code := 2) (by decide) hb hn
  unfold deregisterTx
  dsimp only
  rw [h1]
  rw [hw] at h2
  exact hnbapTx_queued (m := hNBDe_RegisterIEs) h2

/-- The elements of a UE Register Request (5 identity, 12 cause: normal, 13 capabilities: release 6, CSG capable). -/
def ueRegisterElems (imsi : Bytes) : List (Nat × Val) :=
  [(5, .choice 0 (.octets imsi)), (12, .enum 1), (13, .seq [some (.enum 3), some (.enum 1), none])]

theorem ueRegisterTx_spec (s : State) (imsi : Bytes) :
    (5 ≤ imsi.length ∧ imsi.length ≤ 16 → ∃ s', ueRegisterTx s imsi = .ok s' ∧
      Queued s s' 3 uERegisterRequestIEs (ueRegisterElems (Bcd.tbcd imsi))) ∧
    (¬ (5 ≤ imsi.length ∧ imsi.length ≤ 16) → ∃ f, ueRegisterTx s imsi = .fault f) := by
  have hm : uERegisterRequestIEs ∈ tables := hnbap_mem (List.mem_iff_getElem?.2 ⟨4, rfl⟩)
  have htl := Bcd.tbcd_length imsi
  unfold ueRegisterTx
  rw [Bcd.imsiEncode_eq]
  simp only [List.length_replicate]
  rcases Nat.lt_or_ge 32 imsi.length with h32 | h32
  · rw [if_neg (by omega)]
    exact ⟨fun h => absurd h (by omega), fun _ => ⟨_, rfl⟩⟩
  rw [if_pos (by omega)]
  simp only [List.take_left]
  generalize Bcd.tbcd imsi = t at htl
  obtain ⟨c, hc, hw, hf, hb, hb'⟩ : ∃ c, contents uERegisterRequestIEs (ueRegisterReq t) = some c ∧
      wanted c = ueRegisterElems t ∧
      allFit c = Aper.Spec.fits HNBAP_UE_Identity (.choice 0 (.octets t)) ∧
      bound c = 5 + openOcts (maxBits HNBAP_UE_Identity (.choice 0 (.octets t))) + (bound c - (5 +
        openOcts (maxBits HNBAP_UE_Identity (.choice 0 (.octets t))))) ∧
      bound c - (5 + openOcts (maxBits HNBAP_UE_Identity (.choice 0 (.octets t)))) ≤ 100 := by
    refine ⟨[(⟨"id-UE-Identity", 5, 0, HNBAP_UE_Identity, false⟩, .choice 0 (.octets t)),
      (⟨"id-Registration-Cause", 12, 1, HNBAP_Registration_Cause, false⟩, .enum 1),
      (⟨"id-UE-Capabilities", 13, 0, HNBAP_UE_Capabilities, false⟩, .seq [some (.enum 3), some (.enum 1), none])], rfl, rfl,
      ?_, ?_, ?_⟩
    · have : Aper.Spec.fits HNBAP_Registration_Cause (.enum 1) = true := by decide +kernel
      have h2 : Aper.Spec.fits HNBAP_UE_Capabilities (.seq [some (.enum 3), some (.enum 1), none]) = true := by
        decide +kernel
      simp only [allFit, List.all_cons, List.all_nil, this, h2, Bool.and_true]
    · simp only [bound]; omega
    · have h2 : openOcts (maxBits HNBAP_Registration_Cause (.enum 1)) ≤ 10 := by decide +kernel
      have h3 : openOcts (maxBits HNBAP_UE_Capabilities (.seq [some (.enum 3), some (.enum 1), none])) ≤ 50 := by
        decide +kernel
      simp only [bound]; omega
  have hfit : Aper.Spec.fits HNBAP_UE_Identity (.choice 0 (.octets t)) = decide (5 ≤ imsi.length ∧ imsi.length ≤ 16) := by
    simp only [HNBAP_UE_Identity, HNBAP_IMSI, Aper.Spec.fits, Aper.Spec.fitsAlt, Aper.Spec.fitsOct, Fields.length, htl]
    by_cases h1 : 5 ≤ imsi.length ∧ imsi.length ≤ 16
    · rw [if_pos (by omega), if_pos (by omega)]; simp [h1]
    · rw [if_pos (by omega), if_neg (by omega)]; simp only [h1, decide_false]
  have he := encodeAll_isSome fun x hx => (row_facts hm ((contents_mem hc).1 x hx)).1
  rw [hf, hfit] at he
  constructor
  · intro h5
    simp only [h5, and_self, decide_true, Option.isSome_iff_exists] at he
    obtain ⟨l, hl⟩ := he
    have hn : ((wanted c).map (·.1)).Nodup := by rw [hw]; simp [ueRegisterElems]
    have hid : openOcts (maxBits HNBAP_UE_Identity (.choice 0 (.octets t))) ≤ 500 := by
      have hmb : maxBits HNBAP_UE_Identity (.choice 0 (.octets t)) =
          max (1 + consBits 8 + (sBits (some ⟨3, 8, false⟩) + 8 + octBits t.length)) (8 + octBits (openOcts 0)) := rfl
      have g1 : consBits 8 ≤ 10 := by decide
      have g2 : sBits (some ⟨3, 8, false⟩) ≤ 100 := by decide
      rw [hmb]
      unfold octBits openOcts
      omega
    obtain ⟨h1, h2⟩ := hnbap_gen hm (by decide +kernel) hc hl (code := 3) (by decide) (by omega) hn
    rw [h1]
    rw [hw] at h2
    exact hnbapTx_queued (m := uERegisterRequestIEs) h2
  · intro h5
    have hnone : encodeIes uERegisterRequestIEs (ueRegisterReq t) = none := by
      unfold encodeIes
      unfold contents at hc
      rw [encodeRows_contents hc]
      simpa [h5] using he
    rw [hnone]
    exact ⟨_, rfl⟩

end Verif.Hnb
