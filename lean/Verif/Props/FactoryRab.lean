import Verif.Props.FactorySec
import Verif.Props.Addr

/-!
# Generated messages: RAB Assignment, Initial UE Message (C56, C57, C65)
-/

namespace Verif.Props
open Verif.Aper Verif.Ie Verif.Ie.Spec Verif.Rx.Spec Verif.Wire Verif.Gen.Ranap Verif.Factory Verif.Factory.Spec
open Verif.Aper.Spec (fits fitsFields fitsAlt fitsOct fitsLen)

/-! ## C56: RAB Assignment -/

theorem rabAssign_says {first second : Val} (h1 : fits RANAP_RAB_SetupOrModifyItemFirst first = true)
    (h2 : fits RANAP_RAB_SetupOrModifyItemSecond second = true)
    (l1 : maxBits RANAP_RAB_SetupOrModifyItemFirst first ≤ 1612)
    (l2 : maxBits RANAP_RAB_SetupOrModifyItemSecond second ≤ 800) :
    ∃ bs b1 b2, rabAssign first second = .ok (some bs) ∧
      Says bs 1 0 [(54, .list [.list [.seq [some (.int 53), some (.enum 0), some (.octets b1), some (.enum 1),
        some (.octets b2)]]])] ∧
      decode RANAP_RAB_SetupOrModifyItemFirst b1 = some first ∧
      decode RANAP_RAB_SetupOrModifyItemSecond b2 = some second := by
  obtain ⟨b1, e1, n1⟩ := encode_exists (t := RANAP_RAB_SetupOrModifyItemFirst) (by decide) h1
  obtain ⟨b2, e2, n2⟩ := encode_exists (t := RANAP_RAB_SetupOrModifyItemSecond) (by decide) h2
  have d1 := decode_encode (t := RANAP_RAB_SetupOrModifyItemFirst) (by decide) e1
  have d2 := decode_encode (t := RANAP_RAB_SetupOrModifyItemSecond) (by decide) e2
  have hpair : newIePair idRAB_SetupOrModifyItem reject RANAP_RAB_SetupOrModifyItemFirst first
    ignore RANAP_RAB_SetupOrModifyItemSecond second =
      some (.seq [some (.int 53), some (.enum 0), some (.octets b1), some (.enum 1), some (.octets b2)]) := by
    simp only [newIePair, e1, e2]; rfl
  unfold rabAssign
  simp only [hpair, Option.toList_some]
  have hm : maxBits RANAP_RAB_SetupOrModifyList (.list [.list [.seq [some (.int 53), some (.enum 0), some (.octets b1),
      some (.enum 1), some (.octets b2)]]]) =
      sBits (some ⟨1, 256, false⟩) + ((sBits (some ⟨0, 65535, false⟩) + ((1 + 5 + (maxBits RANAP_ProtocolIE_ID (.int 0) +
        (maxBits RANAP_Criticality (.enum 0) + (octBits b1.length + (maxBits RANAP_Criticality (.enum 0) +
          (octBits b2.length + 0)))))) + 0)) + 0) := rfl
  have c1 : sBits (some ⟨1, 256, false⟩) ≤ 100 := by decide
  have c2 : sBits (some ⟨0, 65535, false⟩) ≤ 100 := by decide
  have c3 : maxBits RANAP_ProtocolIE_ID (.int 0) ≤ 100 := by decide
  have c4 : maxBits RANAP_Criticality (.enum 0) ≤ 100 := by decide
  obtain ⟨bs, g1, g2⟩ := is_rAB_AssignmentRequestIEs.says
    (s := put rAB_AssignmentRequestIEs idRAB_SetupOrModifyList (.list [.list [.seq [some (.int 53), some (.enum 0),
      some (.octets b1), some (.enum 1), some (.octets b2)]]])
      (setMask (present rAB_AssignmentRequestIEs idRAB_SetupOrModifyList) rAB_AssignmentRequestIEs.zero))
    (c := [(rAB_AssignmentRequestIEs.ies[0], .list [.list [.seq [some (.int 53), some (.enum 0), some (.octets b1),
      some (.enum 1), some (.octets b2)]]])]) (by with_unfolding_all rfl) rfl (by
      simp only [bound, rAB_AssignmentRequestIEs, List.getElem_cons_zero]
      rw [hm]
      unfold openOcts at *
      unfold octBits
      omega)
  exact ⟨bs, b1, b2, congrArg _ g1, g2, d1, d2⟩

/-- The address octets written for an IPv4 address. -/
theorem transp_format (ip : Vector Byte 4) (port : BitVec 16) (x213 : Bool) :
    ∃ tla, Addr.newTranspLayerAddr (.inet ip port) x213 = some tla ∧ tla.unused = 0 ∧
      Verif.Spec.Addr.Format tla.buf (.inet ip 0) x213 ∧ (x213 = true → tla.buf.length = 20) := by
  cases x213 with
  | false => exact ⟨_, rfl, rfl, .raw4 ip, by simp⟩
  | true =>
    refine ⟨_, rfl, rfl, ?_, ?_⟩
    · have := Verif.Spec.Addr.Format.nsap4 ip (List.replicate 13 0) (Or.inr (by simp))
      simpa [store16be] using this
    · intro; simp [store16be]

theorem bitsOf_whole (b : Addr.BitStr) (h : b.unused = 0) : bitsOf b = octetsBits b.buf := by
  unfold bitsOf
  rw [h, Nat.sub_zero, ← octetsBits_length, List.take_length]

/-- Transport layer information with an address and an association. -/
def transport (a : Bytes) (alt : Nat) (o : Bytes) : Val :=
  .seq [some (.bits (octetsBits a)), some (.choice alt (.octets o)), none]

theorem transport_fits {a o : Bytes} {alt : Nat} (ha : a.length = 4 ∨ a.length = 20) (ho : o.length = 4) (halt : alt < 2) :
    fits RANAP_TransportLayerInformation (transport a alt o) = true ∧
    maxBits RANAP_TransportLayerInformation (transport a alt o) ≤ 700 := by
  have hl := octetsBits_length a
  have h2 : alt = 0 ∨ alt = 1 := by omega
  have c1 : sBits (some ⟨1, 160, true⟩) ≤ 100 := by decide
  have c2 : sBits (some ⟨4, 4, false⟩) ≤ 100 := by decide
  have c4 : consBits 2 ≤ 20 := by decide
  constructor
  · rcases h2 with rfl | rfl <;>
    · simp [transport, RANAP_TransportLayerInformation, RANAP_TransportLayerAddress, RANAP_IuTransportAssociation,
        RANAP_GTP_TEI, RANAP_BindingID, fits, fitsFields, fitsAlt, fitsLen, fitsOct, Fields.length, hl, ho]
      omega
  · have hm : maxBits RANAP_TransportLayerInformation (transport a alt o) =
        1 + 3 + ((sBits (some ⟨1, 160, true⟩) + 7 + (octetsBits a).length) +
          (maxBits RANAP_IuTransportAssociation (.choice alt (.octets o)) + 0)) := rfl
    have h0 : maxBits RANAP_IuTransportAssociation (.choice 0 (.octets o)) =
        max (1 + consBits 2 + (sBits (some ⟨4, 4, false⟩) + 8 + octBits o.length)) (8 + octBits (openOcts 0)) := rfl
    have h1 : maxBits RANAP_IuTransportAssociation (.choice 1 (.octets o)) =
        max (1 + consBits 2 + (sBits (some ⟨4, 4, false⟩) + 8 + octBits o.length)) (8 + octBits (openOcts 0)) := rfl
    rw [hm, hl]
    rcases h2 with rfl | rfl
    · rw [h0]; unfold octBits openOcts; omega
    · rw [h1]; unfold octBits openOcts; omega

theorem par_voice : fits RANAP_RAB_Parameters (rabParVoice 6700 12200) = true ∧
    maxBits RANAP_RAB_Parameters (rabParVoice 6700 12200) ≤ 800 := by decide +kernel

theorem par_data : fits RANAP_RAB_Parameters (rabParData 1600000 800000) = true ∧
    maxBits RANAP_RAB_Parameters (rabParData 1600000 800000) ≤ 800 := by decide +kernel

/-- The first item. -/
theorem first_fits (rab : Byte) {nas : Option Val} {par up t : Val}
    (hn : ∀ v ∈ nas, fits RANAP_NAS_SynchronisationIndicator v = true ∧ maxBits RANAP_NAS_SynchronisationIndicator v ≤ 20)
    (hp : fits RANAP_RAB_Parameters par = true ∧ maxBits RANAP_RAB_Parameters par ≤ 800)
    (hu : fits RANAP_UserPlaneInformation up = true ∧ maxBits RANAP_UserPlaneInformation up ≤ 60)
    (ht : fits RANAP_TransportLayerInformation t = true ∧ maxBits RANAP_TransportLayerInformation t ≤ 700) :
    fits RANAP_RAB_SetupOrModifyItemFirst (.seq [some (.bits (octetsBits [rab])), nas, some par, some up, some t, none, none])
      = true ∧
    maxBits RANAP_RAB_SetupOrModifyItemFirst
      (.seq [some (.bits (octetsBits [rab])), nas, some par, some up, some t, none, none]) ≤ 1612 := by
  have hr : fits RANAP_RAB_ID (.bits (octetsBits [rab])) = true := rfl
  have hr' : maxBits RANAP_RAB_ID (.bits (octetsBits [rab])) ≤ 24 := Nat.le_of_ble_eq_true (by with_unfolding_all rfl)
  cases nas with
  | none =>
    constructor
    · simp only [RANAP_RAB_SetupOrModifyItemFirst, fits, fitsFields, hr, hp.1, hu.1, ht.1, Bool.and_self]
    · simp only [RANAP_RAB_SetupOrModifyItemFirst, maxBits, maxFields, List.length_cons, List.length_nil]
      omega
  | some v =>
    have := hn v rfl
    constructor
    · simp only [RANAP_RAB_SetupOrModifyItemFirst, fits, fitsFields, hr, hp.1, hu.1, ht.1, this.1, Bool.and_self]
    · simp only [RANAP_RAB_SetupOrModifyItemFirst, maxBits, maxFields, List.length_cons, List.length_nil]
      omega

theorem nas_sync : fits RANAP_NAS_SynchronisationIndicator (nasSyncInd 60) = true ∧
    maxBits RANAP_NAS_SynchronisationIndicator (nasSyncInd 60) ≤ 20 := by decide +kernel

theorem upi_voice : fits RANAP_UserPlaneInformation (upi 1 1) = true ∧ maxBits RANAP_UserPlaneInformation (upi 1 1) ≤ 60 := by
  decide +kernel

theorem upi_data : fits RANAP_UserPlaneInformation (upi 0 1) = true ∧ maxBits RANAP_UserPlaneInformation (upi 0 1) ≤ 60 := by
  decide +kernel

theorem format_len {a : Bytes} {ip : Vector Byte 4} {x213 : Bool} (h : Verif.Spec.Addr.Format a (.inet ip 0) x213)
    (h' : x213 = true → a.length = 20) : a.length = 4 ∨ a.length = 20 := by
  cases x213 with
  | true => exact Or.inr (h' rfl)
  | false =>
    generalize hs : Addr.SockAddr.inet ip 0 = s at h
    generalize hx : false = x at h
    cases h with
    | raw4 => left; simp
    | raw6 => cases hs
    | nsap4 => cases hx
    | nsap6 => cases hx

/-- **C56.** The voice RAB assignment: one RAB with the id, the address given as a number, and the RTP port as
the first two of four octets of the binding identity. -/
theorem C56_voice (rab : Byte) (ip : BitVec 32) (port : BitVec 16) (x213 : Bool) :
    ∃ bs, rabAssignVoice rab ip port x213 = .ok (some bs) ∧
      AssignsRab bs rab (fun t => IsTransport t (.inet (msb ip) 0) x213 1
        [port.extractLsb' 8 8, port.extractLsb' 0 8, 0, 0]) := by
  obtain ⟨tla, h1, h2, h3, h4⟩ := transp_format (htonlAddr ip) port x213
  have ht : (Addr.newTranspInfoRtp (.inet (htonlAddr ip) port) x213).map transpVal =
      some (transport tla.buf 1 [port.extractLsb' 8 8, port.extractLsb' 0 8, 0, 0]) := by
    simp only [Addr.newTranspInfoRtp, Addr.SockAddr.port?, h1, Option.map_some, transpVal, bitsOf_whole tla h2]
    rfl
  unfold rabAssignVoice
  simp only [ht]
  obtain ⟨f1, f2⟩ := first_fits rab (nas := some (nasSyncInd 60)) (by rintro v ⟨⟩; exact nas_sync) par_voice upi_voice
    (transport_fits (alt := 1) (o := [port.extractLsb' 8 8, port.extractLsb' 0 8, 0, 0]) (format_len h3 h4) rfl (by decide))
  obtain ⟨bs, b1, b2, g1, g2, g3, g4⟩ := rabAssign_says (second := .seq [none, none, none, none, none, none, none]) f1
    (by rfl) f2 (by decide)
  exact ⟨bs, g1, b1, b2, _, _, _, _, _, g2, g3, g4, tla.buf, h3, h4, rfl⟩

/-- **C56.** The data RAB assignment: ... and the TEI as a GTP-TEI. -/
theorem C56_data (rab : Byte) (ip tei : BitVec 32) (x213 : Bool) :
    ∃ bs, rabAssignData rab ip tei x213 = .ok (some bs) ∧
      AssignsRab bs rab (fun t => IsTransport t (.inet (msb ip) 0) x213 0 (msb tei).toList) := by
  obtain ⟨tla, h1, h2, h3, h4⟩ := transp_format (htonlAddr ip) 0 x213
  have ht : (Addr.newTranspInfoGtp (.inet (htonlAddr ip) 0) tei x213).map transpVal =
      some (transport tla.buf 0 (msb tei).toList) := by
    simp only [Addr.newTranspInfoGtp, h1, Option.map_some, transpVal, bitsOf_whole tla h2]
    rfl
  unfold rabAssignData
  simp only [ht]
  obtain ⟨f1, f2⟩ := first_fits rab (nas := none) (by simp) par_data upi_data
    (transport_fits (alt := 0) (o := (msb tei).toList) (format_len h3 h4) rfl (by decide))
  obtain ⟨bs, b1, b2, g1, g2, g3, g4⟩ := rabAssign_says
    (second := .seq [some (.list [.enum 3]), some (.enum 1), some (.int 0), some (.int 0), none, none, none]) f1
    (by rfl) f2 (by decide +kernel)
  exact ⟨bs, g1, b1, b2, _, _, _, _, _, g2, g3, g4, tla.buf, h3, h4, rfl⟩

/-- **C56.** A receiver gets the address and the port or TEI back from the transport layer information. -/
theorem C56_decoded {t : Val} {ip : Vector Byte 4} {x213 : Bool} {alt : Nat} {o : Bytes}
    (h : IsTransport t (.inet ip 0) x213 alt o) :
    ∃ a, t = .seq [some (.bits (octetsBits a)), some (.choice alt (.octets o)), none] ∧
      Addr.transpLayerAddrDecode2 (some false) a = .ok ⟨0, .inet ip 0, some x213⟩ := by
  obtain ⟨a, h1, -, h3⟩ := h
  obtain ⟨d, e1, -, e3, -⟩ := C07_decode2_accepts_iff (some false) a
  exact ⟨a, h3, e1.trans (congrArg _ (e3 _ _ h1))⟩

/-- ... the port. -/
theorem C56_port (port p0 : BitVec 16) (h : port ≠ 0) :
    Addr.transpAssocDecode p0 (some (.bindingId [port.extractLsb' 8 8, port.extractLsb' 0 8, 0, 0])) = .ok (0, port) := by
  obtain ⟨ti, h1, -, h3⟩ := C08_rtp_port_round_trip (.inet #v[0, 0, 0, 0] port) port p0 false rfl
  rw [if_neg h] at h3
  have : ti.assoc = .bindingId [port.extractLsb' 8 8, port.extractLsb' 0 8, 0, 0] := by
    have : Addr.newTranspInfoRtp (.inet #v[0, 0, 0, 0] port) false = some ⟨_, .bindingId
      [port.extractLsb' 8 8, port.extractLsb' 0 8, 0, 0]⟩ := rfl
    rw [this] at h1
    rw [← Option.some.inj h1]
  rw [← this]
  exact h3

example : ∃ t, IsTransport t (.inet (msb 0x0a000001) 0) true 1 [0x09, 0x26, 0, 0] ∧ (0x926 : BitVec 16) ≠ 0 := by
  obtain ⟨bs, -, -, -, -, -, -, t, -, -, -, -, h⟩ := C56_voice 1 0x0a000001 0x926 true
  exact ⟨t, h, by decide⟩

/-! ## C57: documented byte order -/

/-- **C57, full statement**: the address arguments are taken in network byte order, i.e. the octets of the message
are those the argument has in memory. -/
def C57_full : Prop :=
  (∀ rab ip port x213 bs, rabAssignVoice rab ip port x213 = .ok (some bs) →
    AssignsRab bs rab (fun t => IsTransport t (.inet (inMemory ip) 0) x213 1
      [port.extractLsb' 8 8, port.extractLsb' 0 8, 0, 0])) ∧
  ∀ rab ip tei x213 bs, rabAssignData rab ip tei x213 = .ok (some bs) →
    AssignsRab bs rab (fun t => IsTransport t (.inet (inMemory ip) 0) x213 0 (msb tei).toList)

/-- A message assigns one address only. -/
theorem assigns_unique {bs : Bytes} {rab : Byte} {ip ip' : Vector Byte 4} {x213 : Bool} {alt : Nat} {o : Bytes}
    (h : AssignsRab bs rab (fun t => IsTransport t (.inet ip 0) x213 alt o))
    (h' : AssignsRab bs rab (fun t => IsTransport t (.inet ip' 0) x213 alt o)) : ip = ip' := by
  obtain ⟨b1, b2, nas, par, up, t, second, h1, h2, -, h3⟩ := h
  obtain ⟨b1', b2', nas', par', up', t', second', h1', h2', -, h3'⟩ := h'
  have := says_unique h1 h1'
  simp only [List.cons.injEq, Prod.mk.injEq, Val.list.injEq, Val.seq.injEq, Option.some.injEq, Val.octets.injEq,
    true_and, and_true] at this
  obtain ⟨rfl, -⟩ := this
  rw [h2] at h2'
  simp only [Option.some.injEq, Val.seq.injEq, List.cons.injEq] at h2'
  obtain ⟨-, -, -, -, rfl, -⟩ := h2'
  obtain ⟨a, e1, e2⟩ := C56_decoded h3
  obtain ⟨a', e1', e2'⟩ := C56_decoded h3'
  rw [e1] at e1'
  simp only [Val.seq.injEq, List.cons.injEq, Option.some.injEq, Val.bits.injEq] at e1'
  have ha : a = a' := by
    have := congrArg toOctets e1'.1
    rwa [toOctets_octetsBits, toOctets_octetsBits] at this
  subst ha
  rw [e2] at e2'
  simpa using e2'

/-- **C57**, what the code does: it expects the address as a number in host byte order; the octets are those in
memory only if they read the same in both directions. -/
theorem C57_iff (rab : Byte) (ip : BitVec 32) (port : BitVec 16) (x213 : Bool) (bs : Bytes)
    (h : rabAssignVoice rab ip port x213 = .ok (some bs)) :
    AssignsRab bs rab (fun t => IsTransport t (.inet (inMemory ip) 0) x213 1
      [port.extractLsb' 8 8, port.extractLsb' 0 8, 0, 0]) ↔ msb ip = inMemory ip := by
  obtain ⟨bs', h1, h2⟩ := C56_voice rab ip port x213
  rw [h] at h1
  obtain rfl := Option.some.inj (Res.ok.inj h1)
  refine ⟨fun h' => assigns_unique h2 h', fun he => ?_⟩
  rw [← he]
  exact h2

/-- **C57**: the same for the data RAB assignment. -/
theorem C57_data_iff (rab : Byte) (ip tei : BitVec 32) (x213 : Bool) (bs : Bytes)
    (h : rabAssignData rab ip tei x213 = .ok (some bs)) :
    AssignsRab bs rab (fun t => IsTransport t (.inet (inMemory ip) 0) x213 0 (msb tei).toList) ↔ msb ip = inMemory ip := by
  obtain ⟨bs', h1, h2⟩ := C56_data rab ip tei x213
  rw [h] at h1
  obtain rfl := Option.some.inj (Res.ok.inj h1)
  refine ⟨fun h' => assigns_unique h2 h', fun he => ?_⟩
  rw [← he]
  exact h2

/-- Both sides of the equivalence occur. -/
example : (∃ bs, rabAssignVoice 1 0x0a00000a 2342 true = .ok (some bs)) ∧ msb 0x0a00000a = inMemory 0x0a00000a ∧
    msb 0x0a000001 ≠ inMemory 0x0a000001 := by
  obtain ⟨bs, h, -⟩ := C56_voice 1 0x0a00000a 2342 true
  exact ⟨⟨bs, h⟩, by decide, by decide⟩

/-- **C57 is violated.** -/
theorem C57_violated : ¬ C57_full := by
  intro hf
  obtain ⟨bs, h, -⟩ := C56_voice 1 0x0a0b0c0d 2342 true
  have := (C57_iff _ _ _ _ _ h).1 (hf.1 _ _ _ _ _ h)
  revert this
  decide

/-! ## C65: Initial UE Message -/

/-- The location area and service area identity the function makes up. -/
def fixedLai (plmn : Bytes) : Val := .seq [some (.octets plmn), some (.octets [0x42, 0x23]), none]
def fixedSai (plmn : Bytes) : Val := .seq [some (.octets plmn), some (.octets [0x42, 0x23]), some (.octets [0x42, 0x23]), none]

theorem some_of_length {o : Option Bytes} {n : Nat} (h : o.map List.length = some n) : ∃ b, o = some b ∧ b.length = n := by
  cases o with
  | none => cases h
  | some b => exact ⟨b, rfl, Option.some.inj h⟩

theorem lai_encode {p : Bytes} (h : p.length = 3) : ∃ o, encode RANAP_LAI (fixedLai p) = some o ∧ o.length = 6 := by
  match p, h with
  | [_, _, _], _ => exact some_of_length (by with_unfolding_all rfl)

theorem sai_encode {p : Bytes} (h : p.length = 3) : ∃ o, encode RANAP_SAI (fixedSai p) = some o ∧ o.length = 8 := by
  match p, h with
  | [_, _, _], _ => exact some_of_length (by with_unfolding_all rfl)

theorem conId_encode (i : BitVec 32) :
    ∃ o, encode RANAP_IuSignallingConnectionIdentifier (.bits (low24 i)) = some o ∧ o.length = 3 :=
  some_of_length (by with_unfolding_all rfl)

theorem dom_encode (isPs : Bool) : ∃ o, encode RANAP_CN_DomainIndicator (.enum (psOrCs isPs)) = some o ∧ o.length = 1 := by
  cases isPs <;> exact some_of_length (by with_unfolding_all rfl)

theorem rnc_int (k : Nat) (hk : k < 4096) : eInt ⟨0, 4095, false⟩ (k : Int) = (eAlign +++ eRaw (natBits 16 k)) := by
  unfold eInt
  rw [if_neg (by simp; omega)]
  simp only [Bool.false_eq_true, if_false]
  show eCons 4096 k = _
  unfold eCons
  rw [if_neg (by omega), if_pos (by omega)]
  unfold eSmall
  rw [if_neg (by omega), if_neg (by omega), if_neg (by omega), if_neg (by omega)]
  have : eNat 16 k = eRaw (natBits 16 k) := by
    funext off
    unfold eNat eRaw
    rw [if_pos (by omega)]
  rw [this]

theorem rnc_encode {r : RncId} (h : ValidRnc r) : ∃ o, encode RANAP_GlobalRNC_ID (rncVal r) = some o ∧ o.length = 5 := by
  obtain ⟨p, n⟩ := r
  obtain ⟨h1, h2, h3⟩ := h
  match p, h1 with
  | [a, b, c], _ =>
    obtain ⟨k, rfl⟩ := Int.eq_ofNat_of_zero_le h2
    have hk : k < 4096 := by simp at h3; omega
    have e : enc RANAP_GlobalRNC_ID (rncVal ⟨[a, b, c], k⟩) = (eNil +++ eRaw [] +++
        (enc RANAP_PLMNidentity (.octets [a, b, c]) +++ ((eAlign +++ eRaw (natBits 16 k)) +++ eNil))) := by
      rw [← rnc_int k hk]
      rfl
    refine some_of_length ?_
    unfold encode
    rw [e]
    with_unfolding_all rfl

/-- The structure with all members set. -/
def ueStruct (d lai sai nas id rnc : Val) : Struct :=
  put initialUE_MessageIEs idGlobalRNC_ID rnc (put initialUE_MessageIEs idIuSigConId id
    (put initialUE_MessageIEs idNAS_PDU nas (put initialUE_MessageIEs idSAI sai (put initialUE_MessageIEs idLAI lai
      (put initialUE_MessageIEs idCN_DomainIndicator d initialUE_MessageIEs.zero)))))

theorem ue_contents (d lai sai nas id rnc : Val) : contents initialUE_MessageIEs (ueStruct d lai sai nas id rnc) =
    some [(initialUE_MessageIEs.ies[0], d), (initialUE_MessageIEs.ies[1], lai), (initialUE_MessageIEs.ies[3], sai),
      (initialUE_MessageIEs.ies[4], nas), (initialUE_MessageIEs.ies[5], id), (initialUE_MessageIEs.ies[6], rnc)] := by
  have hs : ueStruct d lai sai nas id rnc = ⟨0, [some ⟨d, none⟩, some ⟨lai, none⟩, none, some ⟨sai, none⟩, some ⟨nas, none⟩,
    some ⟨id, none⟩, some ⟨rnc, none⟩]⟩ := rfl
  rw [hs]
  simp [contents, contentsRows, isPresent, presentConst, initialUE_MessageIEs, slotVal]

/-- **C65.** Initial UE Message: domain, connection id (24 bits), NAS-PDU and Global-RNC-ID are the arguments, the
PLMN of LAI and SAI is that of the Global-RNC-ID; an invalid Global-RNC-ID gives NULL.  A NAS-PDU of more than 966
octets gives an empty message (C60). -/
theorem C65_initial_ue (connId : BitVec 32) (isPs : Bool) (r : RncId) (nas : Bytes) :
    (ValidRnc r → nas.length ≤ 966 → ∃ bs, initialUe connId isPs (some r) nas = .ok (some bs) ∧
      Says bs 1 19 [(3, .enum (psOrCs isPs)), (15, fixedLai r.plmn), (58, fixedSai r.plmn), (16, .octets nas),
        (79, .bits (low24 connId)), (86, rncVal r)]) ∧
    (ValidRnc r → 966 < nas.length → initialUe connId isPs (some r) nas = .ok (some [])) ∧
    (¬ ValidRnc r → initialUe connId isPs (some r) nas = .ok none) ∧
    initialUe connId isPs none nas = .fault .nullDeref := by
  have fd : fits RANAP_CN_DomainIndicator (.enum (psOrCs isPs)) = true := by cases isPs <;> rfl
  have fr := rnc_fits r
  have fl : ValidRnc r → fits RANAP_LAI (fixedLai r.plmn) = true := by
    intro h; simp [fixedLai, RANAP_LAI, RANAP_PLMNidentity, RANAP_LAC, fits, fitsFields, fitsOct, h.1]
  have fs : ValidRnc r → fits RANAP_SAI (fixedSai r.plmn) = true := by
    intro h; simp [fixedSai, RANAP_SAI, RANAP_PLMNidentity, RANAP_LAC, RANAP_SAC, fits, fitsFields, fitsOct, h.1]
  have fi : fits RANAP_IuSignallingConnectionIdentifier (.bits (low24 connId)) = true := rfl
  have he : initialUe connId isPs (some r) nas = .ok (generate 1 19 ignore initialUE_MessageIEs
      (ueStruct (.enum (psOrCs isPs)) (fixedLai r.plmn) (fixedSai r.plmn) (.octets nas) (.bits (low24 connId)) (rncVal r))) := rfl
  have hcont := ue_contents (.enum (psOrCs isPs)) (fixedLai r.plmn) (fixedSai r.plmn) (.octets nas) (.bits (low24 connId))
    (rncVal r)
  obtain ⟨-, h2⟩ := is_initialUE_MessageIEs.bothLong (valid := ValidRnc r) hcont (by
      have fr' : fits RANAP_GlobalRNC_ID (rncVal r) = _ := fr
      simp only [allFit, initialUE_MessageIEs, List.all_cons, List.all_nil, List.getElem_cons_zero, List.getElem_cons_succ,
        fd, fi, nas_fits, fr', Bool.true_and, Bool.and_true, Bool.and_eq_true, decide_eq_true_eq]
      exact ⟨fun h => h.2.2, fun h => ⟨fl h, fs h, h⟩⟩)
  rw [he]
  have hw : wanted [(initialUE_MessageIEs.ies[0], .enum (psOrCs isPs)), (initialUE_MessageIEs.ies[1], fixedLai r.plmn),
      (initialUE_MessageIEs.ies[3], fixedSai r.plmn), (initialUE_MessageIEs.ies[4], .octets nas),
      (initialUE_MessageIEs.ies[5], .bits (low24 connId)), (initialUE_MessageIEs.ies[6], rncVal r)] =
      [(3, .enum (psOrCs isPs)), (15, fixedLai r.plmn), (58, fixedSai r.plmn), (16, .octets nas),
        (79, .bits (low24 connId)), (86, rncVal r)] := rfl
  have key : ValidRnc r → (nas.length ≤ 966 → ∃ bs, generate 1 19 ignore initialUE_MessageIEs
      (ueStruct (.enum (psOrCs isPs)) (fixedLai r.plmn) (fixedSai r.plmn) (.octets nas) (.bits (low24 connId)) (rncVal r)) =
        some bs ∧ Says bs 1 19 [(3, .enum (psOrCs isPs)), (15, fixedLai r.plmn), (58, fixedSai r.plmn), (16, .octets nas),
        (79, .bits (low24 connId)), (86, rncVal r)]) ∧
      (966 < nas.length → generate 1 19 ignore initialUE_MessageIEs
      (ueStruct (.enum (psOrCs isPs)) (fixedLai r.plmn) (fixedSai r.plmn) (.octets nas) (.bits (low24 connId)) (rncVal r)) =
        some []) := by
    intro hv
    obtain ⟨o0, e0, l0⟩ := dom_encode isPs
    obtain ⟨o1, e1, l1⟩ := lai_encode hv.1
    obtain ⟨o2, e2, l2⟩ := sai_encode hv.1
    obtain ⟨o3, e3, ho1, ho2⟩ := nas_encode nas
    obtain ⟨o4, e4, l4⟩ := conId_encode connId
    obtain ⟨o5, e5, l5⟩ := rnc_encode hv
    have hl : encodeAll [(initialUE_MessageIEs.ies[0], .enum (psOrCs isPs)), (initialUE_MessageIEs.ies[1], fixedLai r.plmn),
      (initialUE_MessageIEs.ies[3], fixedSai r.plmn), (initialUE_MessageIEs.ies[4], .octets nas),
      (initialUE_MessageIEs.ies[5], .bits (low24 connId)), (initialUE_MessageIEs.ies[6], rncVal r)] =
      some [⟨3, 1, o0⟩, ⟨15, 1, o1⟩, ⟨58, 1, o2⟩, ⟨16, 1, o3⟩, ⟨79, 1, o4⟩, ⟨86, 1, o5⟩] := by
      simp [encodeAll, initialUE_MessageIEs, e0, e1, e2, e3, e4, e5]
    have hlen : (([⟨3, 1, o0⟩, ⟨15, 1, o1⟩, ⟨58, 1, o2⟩, ⟨16, 1, o3⟩, ⟨79, 1, o4⟩, ⟨86, 1, o5⟩] : List Ie).flatMap
        Wire.ieOctets).length = 43 + (3 + (if o3.length < 128 then 1 else 2) + o3.length) := by
      simp only [List.flatMap_cons, List.flatMap_nil, List.append_nil, List.length_append, ieOctets_length, l0, l1, l2, l4, l5]
      simp
      omega
    obtain ⟨h3, h4⟩ := is_initialUE_MessageIEs.sized hcont hl
    rw [hlen] at h3 h4
    rw [hw] at h3
    have hol : nas.length < 16384 → o3.length = nas.length + (if nas.length < 128 then 1 else 2) := by
      intro h
      rw [ho1 h, List.length_append, lenOctets_length]
      omega
    refine ⟨fun h => h3 ?_, fun h => h4 ?_⟩
    · have := hol (by omega)
      split at this <;> split <;> omega
    · by_cases hn : nas.length < 16384
      · have := hol hn
        split at this <;> split <;> omega
      · split <;> omega
  refine ⟨fun hv hn => ?_, fun hv hn => congrArg _ ((key hv).2 hn), h2, rfl⟩
  obtain ⟨bs, g1, g2⟩ := (key hv).1 hn
  exact ⟨bs, congrArg _ g1, g2⟩

example : ValidRnc rnc926 ∧ ([0xaa, 0xbb, 0xcc] : Bytes).length ≤ 966 ∧ 966 < (List.replicate 967 (0 : Byte)).length := by
  rw [List.length_replicate]
  decide

/-- validation against tests/test-ranap.ok (ranap_new_msg_initial_ue) -/
example : initialUe 23 false (some rnc926) [0xaa, 0xbb, 0xcc] = .ok (some [0x00, 0x13, 0x40, 0x36, 0x00, 0x00, 0x06, 0x00,
    0x03, 0x40, 0x01, 0x00, 0x00, 0x0f, 0x40, 0x06, 0x00, 0x09, 0x01, 0x99, 0x42, 0x23, 0x00, 0x3a, 0x40, 0x08, 0x00, 0x09,
    0x01, 0x99, 0x42, 0x23, 0x42, 0x23, 0x00, 0x10, 0x40, 0x04, 0x03, 0xaa, 0xbb, 0xcc, 0x00, 0x4f, 0x40, 0x03, 0x00, 0x00,
    0x17, 0x00, 0x56, 0x40, 0x05, 0x09, 0x01, 0x99, 0x09, 0x26]) := by decide +kernel

/-! ## Validation against tests/test-ranap.ok -/

/-- "901700123456789" -/
def testImsi : Bytes := [0x39, 0x30, 0x31, 0x37, 0x30, 0x30, 0x31, 0x32, 0x33, 0x34, 0x35, 0x36, 0x37, 0x38, 0x39]

/-- SECURITY MODE COMMAND -/
example : secModCmd (some (List.replicate 16 1)) (some (List.replicate 16 2)) 1 = .ok (some
    [0x00, 0x06, 0x00, 0x34, 0x00, 0x00, 0x03, 0x00, 0x0c, 0x00, 0x12, 0x08, 0x08, 0x01, 0x01, 0x01, 0x01, 0x01,
    0x01, 0x01, 0x01, 0x01, 0x01, 0x01, 0x01, 0x01, 0x01, 0x01, 0x01, 0x00, 0x0b, 0x40, 0x12, 0x08, 0x90, 0x02, 0x02,
    0x02, 0x02, 0x02, 0x02, 0x02, 0x02, 0x02, 0x02, 0x02, 0x02, 0x02, 0x02, 0x02, 0x02, 0x00, 0x4b, 0x00, 0x01, 0x40]) := by
  decide +kernel

/-- COMMON ID -/
example : commonId (some testImsi) = .ok (some
    [0x00, 0x0f, 0x40, 0x10, 0x00, 0x00, 0x01, 0x00, 0x17, 0x40, 0x09, 0x50, 0x09, 0x71, 0x00, 0x21, 0x43, 0x65,
    0x87, 0xf9]) := by
  decide +kernel

/-- PAGING CMD -/
example : pagingCmd (some testImsi) (some 0x01234567) false 0 = .ok (some
    [0x00, 0x0e, 0x40, 0x1e, 0x00, 0x00, 0x03, 0x00, 0x03, 0x40, 0x01, 0x00, 0x00, 0x17, 0x40, 0x09, 0x50, 0x09,
    0x71, 0x00, 0x21, 0x43, 0x65, 0x87, 0xf9, 0x00, 0x40, 0x40, 0x05, 0x00, 0x01, 0x23, 0x45, 0x67]) := by
  decide +kernel

/-- RAB ASSIGNMENT COMMAND (VOICE) -/
example : rabAssignVoice 1 0x0a0b0c0d 2342 true = .ok (some
    [0x00, 0x00, 0x00, 0x59, 0x00, 0x00, 0x01, 0x00, 0x36, 0x40, 0x52, 0x00, 0x00, 0x01, 0x00, 0x35, 0x00, 0x48,
    0x78, 0x02, 0xcd, 0x80, 0x10, 0x2f, 0xa7, 0x20, 0x1a, 0x2c, 0x00, 0x00, 0xf4, 0x4c, 0x08, 0x0a, 0x02, 0x80, 0x00,
    0x51, 0x40, 0x00, 0x27, 0x20, 0x28, 0x14, 0x00, 0x67, 0x40, 0x00, 0x00, 0x22, 0x28, 0x14, 0x00, 0x3c, 0x40, 0x00,
    0x00, 0x00, 0x50, 0x3d, 0x02, 0x00, 0x02, 0x27, 0xc0, 0x35, 0x00, 0x01, 0x0a, 0x0b, 0x0c, 0x0d, 0x00, 0x00, 0x00,
    0x00, 0x00, 0x00, 0x00, 0x00, 0x00, 0x00, 0x00, 0x00, 0x00, 0x40, 0x09, 0x26, 0x00, 0x00, 0x40, 0x01, 0x00]) := by
  decide +kernel

/-- RAB ASSIGNMENT COMMAND (DATA) -/
example : rabAssignData 2 0x1a1b1c1d 0x11223344 true = .ok (some
    [0x00, 0x00, 0x00, 0x51, 0x00, 0x00, 0x01, 0x00, 0x36, 0x40, 0x4a, 0x00, 0x00, 0x01, 0x00, 0x35, 0x00, 0x3b,
    0x38, 0x04, 0x12, 0xde, 0x18, 0x69, 0xff, 0x80, 0x0c, 0x34, 0xff, 0x00, 0x1f, 0x40, 0x08, 0x06, 0x08, 0x9e, 0x00,
    0x00, 0x00, 0x00, 0xb1, 0x40, 0x05, 0x60, 0x01, 0x8c, 0xba, 0x7f, 0x00, 0x00, 0x11, 0x3e, 0x35, 0x00, 0x01, 0x1a,
    0x1b, 0x1c, 0x1d, 0x00, 0x00, 0x00, 0x00, 0x00, 0x00, 0x00, 0x00, 0x00, 0x00, 0x00, 0x00, 0x00, 0x00, 0x11, 0x22,
    0x33, 0x44, 0x40, 0x06, 0x78, 0x1c, 0x00, 0x00, 0x00, 0x00]) := by
  decide +kernel

end Verif.Props
