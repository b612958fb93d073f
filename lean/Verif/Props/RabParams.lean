import Verif.Spec.Rab
import Verif.Props.FactoryRab

/-!
# C105: what is asked for in a RAB assignment
-/

namespace Verif.Props
open Verif.Aper Verif.Ie Verif.Ie.Spec Verif.Rx.Spec Verif.Wire Verif.Gen.Ranap Verif.Factory Verif.Factory.Spec

theorem par_voice_is : IsRab (rabParVoice 6700 12200) amr122 := ⟨none, rfl, rfl⟩

theorem par_data_is : IsRab (rabParData 1600000 800000) background :=
  ⟨_, rfl, _, rfl, by with_unfolding_all rfl⟩

/-- **C105.** Speech: for every RAB id, address and port, in both encodings, one RAB with this id and transport address is asked
for, with the parameters of AMR at 12.2 kbit/s, NAS synchronisation indicator 6, and support mode version 1. -/
theorem C105_voice (rab : Byte) (ip : BitVec 32) (port : BitVec 16) (x213 : Bool) :
    ∃ bs, rabAssignVoice rab ip port x213 = .ok (some bs) ∧
      AsksFor bs rab (some 6) amr122 (userPlane true 1) (fun t => IsTransport t (.inet (msb ip) 0) x213 1
        [port.extractLsb' 8 8, port.extractLsb' 0 8, 0, 0]) noData := by
  obtain ⟨tla, h1, h2, h3, h4⟩ := transp_format (htonlAddr ip) port x213
  have ht : (Addr.newTranspInfoRtp (.inet (htonlAddr ip) port) x213).map transpVal =
      some (transport tla.buf 1 [port.extractLsb' 8 8, port.extractLsb' 0 8, 0, 0]) := by
    simp only [Addr.newTranspInfoRtp, Addr.SockAddr.port?, h1, Option.map_some, transpVal, bitsOf_whole tla h2]
    rfl
  unfold rabAssignVoice
  simp only [ht]
  obtain ⟨f1, f2⟩ := first_fits rab (nas := some (nasSyncInd 60)) (by rintro v ⟨⟩; exact nas_sync) par_voice upi_voice
    (transport_fits (alt := 1) (o := [port.extractLsb' 8 8, port.extractLsb' 0 8, 0, 0]) (format_len h3 h4) rfl (by decide))
  obtain ⟨bs, b1, b2, g1, g2, g3, g4⟩ := rabAssign_says (second := .seq [none, none, none, none, none, none, none]) f1
    (by rfl) f2 (by decide)
  exact ⟨bs, g1, b1, b2, _, _, g2, g3, g4, par_voice_is, tla.buf, h3, h4, rfl⟩

/-- **C105.** Data: ... with the parameters of a background RAB, no NAS synchronisation indicator, transparent mode, PDP type IPv4. -/
theorem C105_data (rab : Byte) (ip tei : BitVec 32) (x213 : Bool) :
    ∃ bs, rabAssignData rab ip tei x213 = .ok (some bs) ∧
      AsksFor bs rab none background (userPlane false 1) (fun t => IsTransport t (.inet (msb ip) 0) x213 0 (msb tei).toList)
        ipv4Data := by
  obtain ⟨tla, h1, h2, h3, h4⟩ := transp_format (htonlAddr ip) 0 x213
  have ht : (Addr.newTranspInfoGtp (.inet (htonlAddr ip) 0) tei x213).map transpVal =
      some (transport tla.buf 0 (msb tei).toList) := by
    simp only [Addr.newTranspInfoGtp, h1, Option.map_some, transpVal, bitsOf_whole tla h2]
    rfl
  unfold rabAssignData
  simp only [ht]
  obtain ⟨f1, f2⟩ := first_fits rab (nas := none) (by simp) par_data upi_data
    (transport_fits (alt := 0) (o := (msb tei).toList) (format_len h3 h4) rfl (by decide))
  obtain ⟨bs, b1, b2, g1, g2, g3, g4⟩ := rabAssign_says
    (second := .seq [some (.list [.enum 3]), some (.enum 1), some (.int 0), some (.int 0), none, none, none]) f1
    (by rfl) f2 (by decide +kernel)
  exact ⟨bs, g1, b1, b2, _, _, g2, g3, g4, par_data_is, tla.buf, h3, h4, rfl⟩

/-- **C105.** Both are proper: what shall be present under a condition is present, there is a bit rate for each direction. -/
theorem C105_proper : amr122.Proper ∧ background.Proper :=
  ⟨⟨by decide, by decide, by decide, by decide⟩, ⟨by decide, by decide, by decide, by decide⟩⟩

/-- **C105.** The sizes of the speech subflows agree with each other, the maximum SDU size and, at 50 frames a second, with the
maximum bit rate. -/
theorem C105_sizes : amr122.SizesAgree ∧ amr122.maxBitrate = [50 * amr122.maxSduSize] := by
  refine ⟨⟨by decide, ?_, by decide⟩, by decide⟩
  intro i
  match i with
  | 0 => decide
  | 1 => decide
  | i + 2 => simp [amr122]

/-! ## The message determines what is asked for -/

theorem ints_inj {l l' : List Nat} (h : ints l = ints l') : l = l' := by
  unfold ints at h
  have := Val.list.inj h
  induction l generalizing l' with
  | nil => cases l' with
    | nil => rfl
    | cons => cases this
  | cons a l ih => cases l' with
    | nil => cases this
    | cons b l' =>
      simp only [List.map_cons, List.cons.injEq, Val.int.injEq] at this
      rw [Int.ofNat_inj.1 this.1, ih (congrArg Val.list this.2) this.2]

theorem intsIfAny_inj {l l' : List Nat} (h : intsIfAny l = intsIfAny l') : l = l' := by
  cases l <;> cases l' <;> simp only [intsIfAny, reduceCtorEq, Option.some.injEq] at h
  · rfl
  · exact ints_inj h

theorem ratio_inj {r r' : Ratio} (h : r.val = r'.val) : r = r' := by
  obtain ⟨a, b⟩ := r
  obtain ⟨a', b'⟩ := r'
  simp [Ratio.val] at h
  obtain ⟨h1, h2⟩ := h
  congr <;> omega

theorem sizes_inj {l l' : List Nat} (h : l.map (fun (n : Nat) => Val.seq [some (.int n), none, none]) =
    l'.map (fun (n : Nat) => Val.seq [some (.int n), none, none])) : l = l' := by
  induction l generalizing l' with
  | nil => cases l' with
    | nil => rfl
    | cons => cases h
  | cons a l ih => cases l' with
    | nil => cases h
    | cons b l' =>
      simp only [List.map_cons, List.cons.injEq, Val.seq.injEq, Option.some.injEq, Val.int.injEq, and_true] at h
      rw [Int.ofNat_inj.1 h.1, ih h.2]

theorem subflow_inj {f f' : Subflow} (h : f.val = f'.val) : f = f' := by
  obtain ⟨a, b, c, d⟩ := f
  obtain ⟨a', b', c', d'⟩ := f'
  simp only [Subflow.val, Val.seq.injEq, List.cons.injEq, Option.some.injEq, and_true] at h
  obtain ⟨h1, h2, h3, h4⟩ := h
  have e1 : a = a' := by
    cases a <;> cases a' <;> simp only [Option.map_none, Option.map_some, reduceCtorEq, Option.some.injEq] at h1
    · rfl
    · rw [ratio_inj h1]
  have e2 := ratio_inj h2
  have e3 : c = c' := by cases c <;> cases c' <;> first | rfl | simp [Erroneous.val] at h3
  have e4 : d = d' := by
    cases d <;> cases d' <;> simp only [reduceCtorEq, Option.some.injEq, Val.list.injEq] at h4
    · rfl
    · exact sizes_inj h4
  rw [e1, e2, e3, e4]

theorem subflows_inj {l l' : List Subflow} (h : l.map Subflow.val = l'.map Subflow.val) : l = l' := by
  induction l generalizing l' with
  | nil => cases l' with
    | nil => rfl
    | cons => cases h
  | cons a l ih => cases l' with
    | nil => cases h
    | cons b l' =>
      simp only [List.map_cons, List.cons.injEq] at h
      rw [subflow_inj h.1, ih h.2]

theorem priority_inj {p p' : Priority} (h : p.val = p'.val) : p = p' := by
  obtain ⟨a, b, c, d⟩ := p
  obtain ⟨a', b', c', d'⟩ := p'
  simp only [Priority.val, Val.seq.injEq, List.cons.injEq, Option.some.injEq, and_true, Val.int.injEq, Val.enum.injEq] at h
  obtain ⟨h1, h2, h3, h4⟩ := h
  have e1 : a = a' := by omega
  have e2 : b = b' := by cases b <;> cases b' <;> first | rfl | simp at h2
  have e3 : c = c' := by cases c <;> cases c' <;> first | rfl | simp at h3
  have e4 : d = d' := by cases d <;> cases d' <;> first | rfl | simp at h4
  rw [e1, e2, e3, e4]

theorem isRab_inj {v : Val} {p p' : Rab} (h : IsRab v p) (h' : IsRab v p') : p = p' := by
  obtain ⟨p1, p2, p3, p4, p5, p6, p7, p8, p9, p10, p11⟩ := p
  obtain ⟨q1, q2, q3, q4, q5, q6, q7, q8, q9, q10, q11⟩ := p'
  obtain ⟨ext, hv, hx⟩ := h
  obtain ⟨ext', hv', hx'⟩ := h'
  rw [hv] at hv'
  simp only [Val.seq.injEq, List.cons.injEq, Option.some.injEq, and_true, Val.int.injEq, Val.enum.injEq, true_and,
    Val.list.injEq] at hv'
  obtain ⟨h1, h2, h3, h4, h5, h6, h7, h8, h9, h10, h11⟩ := hv'
  have e1 : p1 = q1 := by cases p1 <;> cases q1 <;> first | rfl | simp [TrafficClass.val] at h1
  have e2 : p2 = q2 := by cases p2 <;> cases q2 <;> first | rfl | simp [Asymmetry.val] at h2
  have e3 := ints_inj h3
  have e4 := intsIfAny_inj h4
  have e5 : p5 = q5 := by cases p5 <;> cases q5 <;> first | rfl | simp at h5
  have e6 : p6 = q6 := by omega
  have e7 := subflows_inj h7
  have e8 : p8 = q8 := by
    cases p8 <;> cases q8 <;> simp at h8
    · rfl
    · rw [Int.ofNat_inj.1 h8]
  have e9 := priority_inj h9
  have e10 : p10 = q10 := by cases p10 <;> cases q10 <;> first | rfl | simp at h10
  have e11 : p11 = q11 := by
    cases p11 with
    | nil => cases q11 with
      | nil => rfl
      | cons b l =>
        obtain ⟨o, ho, -⟩ := hx'
        have hx : ext = none := hx
        rw [← h11, hx] at ho
        cases ho
    | cons a l => cases q11 with
      | nil =>
        obtain ⟨o, ho, -⟩ := hx
        have hx' : ext' = none := hx'
        rw [h11, hx'] at ho
        cases ho
      | cons b l' =>
        obtain ⟨o, ho, hd⟩ := hx
        obtain ⟨o', ho', hd'⟩ := hx'
        rw [h11, ho'] at ho
        simp only [Option.some.injEq, Val.list.injEq, List.cons.injEq, Val.seq.injEq, Val.octets.injEq, and_true, true_and] at ho
        rw [ho, hd] at hd'
        exact ints_inj (Option.some.inj hd')
  rw [e1, e2, e3, e4, e5, e6, e7, e8, e9, e10, e11]

/-- **C105.** A message asks for one RAB only: id, parameters, user plane and second part are determined by its octets. -/
theorem C105_determined {bs : Bytes} {rab rab' : Byte} {nas nas' : Option (BitVec 4)} {p p' : Rab} {up up' second second' : Val}
    {t t' : Val → Prop} (h : AsksFor bs rab nas p up t second) (h' : AsksFor bs rab' nas' p' up' t' second') :
    rab = rab' ∧ p = p' ∧ up = up' ∧ second = second' ∧ ∃ v, t v ∧ t' v := by
  obtain ⟨b1, b2, par, v, h1, h2, h3, h4, h5⟩ := h
  obtain ⟨b1', b2', par', v', h1', h2', h3', h4', h5'⟩ := h'
  have := says_unique h1 h1'
  simp only [List.cons.injEq, Prod.mk.injEq, Val.list.injEq, Val.seq.injEq, Option.some.injEq, Val.octets.injEq,
    true_and, and_true] at this
  obtain ⟨rfl, rfl⟩ := this
  rw [h2] at h2'
  rw [h3] at h3'
  simp only [Option.some.injEq, Val.seq.injEq, List.cons.injEq, Val.bits.injEq] at h2'
  obtain ⟨hr, -, rfl, rfl, rfl, -⟩ := h2'
  refine ⟨?_, isRab_inj h4 h4', rfl, Option.some.inj h3', v, h5, h5'⟩
  have := congrArg toOctets hr
  rw [toOctets_octetsBits, toOctets_octetsBits] at this
  exact List.cons.inj this |>.1

/-- Speech and data are different. -/
example : amr122 ≠ background ∧ ∃ bs t, AsksFor bs 1 (some 6) amr122 (userPlane true 1) t noData :=
  ⟨by decide, let ⟨bs, _, h⟩ := C105_voice 1 0x0a000001 2342 true; ⟨bs, _, h⟩⟩

end Verif.Props
