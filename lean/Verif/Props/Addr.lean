import Verif.Proofs.Addr

/-!
# C06-C11: transport layer addresses and associations
-/

namespace Verif.Props
open Verif.Addr Verif.Spec.Addr

/-- an address of one of the two supported families, without its port -/
def supported : SockAddr → Option SockAddr
  | .inet ip _ => some (.inet ip 0)
  | .inet6 ip _ => some (.inet6 ip 0)
  | _ => none

/-- **C06.** For every IPv4/IPv6 address and both encodings: the address encodes, and
decoding the octets gives the same address and reports the encoding used. -/
theorem C06_addr_round_trip (a a' : SockAddr) (ha : supported a = some a') (x : Bool) (x0 : Option Bool) :
    ∃ bs, newTranspLayerAddr a x = some bs ∧ bs.unused = 0 ∧
      transpLayerAddrDecode2 x0 bs.buf = .ok ⟨0, a', x0.map fun _ => x⟩ := by
  cases a with
  | inet ip p =>
    simp only [supported, Option.some.injEq] at ha
    subst ha
    cases x with
    | false => exact ⟨_, rfl, rfl, decode2_of_format _ _ _ _ (.raw4 ip)⟩
    | true =>
      refine ⟨_, rfl, rfl, decode2_of_format _ _ _ _ ?_⟩
      have := Format.nsap4 ip (List.replicate (17 - ip.toList.length) 0) (by simp)
      simpa [store16be] using this
  | inet6 ip p =>
    simp only [supported, Option.some.injEq] at ha
    subst ha
    cases x with
    | false => exact ⟨_, rfl, rfl, decode2_of_format _ _ _ _ (.raw6 ip)⟩
    | true =>
      refine ⟨_, rfl, rfl, decode2_of_format _ _ _ _ ?_⟩
      have := Format.nsap6 ip 0
      simpa [store16be] using this
  | unspec => simp [supported] at ha
  | other f => simp [supported] at ha

/-- **C06.** Other address families are refused. -/
theorem C06_unsupported_refused (a : SockAddr) (ha : supported a = none) (x : Bool) :
    newTranspLayerAddr a x = none := by
  cases a <;> simp_all [supported, newTranspLayerAddr]

example : supported (.inet #v[1, 2, 3, 4] 0x1122) = some (.inet #v[1, 2, 3, 4] 0) ∧
    newTranspLayerAddr (.inet #v[1, 2, 3, 4] 0x1122) true =
      some ⟨[0x35, 0, 1, 1, 2, 3, 4, 0, 0, 0, 0, 0, 0, 0, 0, 0, 0, 0, 0, 0], 0⟩ := by decide

/-- **C07.** `ranap_transp_layer_addr_decode2` is total (no read out of bounds) and
accepts exactly the formats of the specification, with the specified address; on
rejection the address is zeroed and `*uses_x213_nsap` keeps its old value. -/
theorem C07_decode2_accepts_iff (x : Option Bool) (buf : Bytes) :
    ∃ d, transpLayerAddrDecode2 x buf = .ok d ∧
      (d.rc = 0 ↔ ∃ a f, Format buf a f) ∧
      (∀ a f, Format buf a f → d = ⟨0, a, x.map fun _ => f⟩) ∧
      (d.rc ≠ 0 → d = ⟨-22, .unspec, x⟩) := by
  rcases decode2_cases x buf with ⟨a, f, h⟩ | h
  · refine ⟨_, decode2_of_format x buf a f h, ⟨fun _ => ⟨a, f, h⟩, fun _ => rfl⟩, ?_, by simp⟩
    intro a' f' h'
    have h1 := decode2_of_format x buf a f h
    have h2 := decode2_of_format x buf a' f' h'
    rw [h1] at h2
    exact Res.ok.inj h2
  · refine ⟨_, h, ⟨by simp, ?_⟩, ?_, by simp⟩
    · rintro ⟨a, f, h'⟩
      have := decode2_of_format x buf a f h'
      rw [h] at this
      simp at this
    · intro a f h'
      have := decode2_of_format x buf a f h'
      rw [h] at this
      simp at this

/-- The specified formats, by length and prefix (a reader's check of `Format`). -/
theorem C07_format_iff (buf : Bytes) :
    (∃ a f, Format buf a f) ↔
      buf.length = 4 ∨ buf.length = 16 ∨
      (buf.take 3 = [0x35, 0x00, 0x01] ∧ (buf.length = 7 ∨ buf.length = 20)) ∨
      (buf.take 3 = [0x35, 0x00, 0x00] ∧ buf.length = 20) := by
  constructor
  · rintro ⟨a, f, h⟩
    cases h with
    | raw4 ip => left; simp
    | raw6 ip => right; left; simp
    | nsap4 ip pad hp => right; right; left; refine ⟨by simp, ?_⟩; simp; rcases hp with h | h <;> simp_all
    | nsap6 ip pad => right; right; right; simp
  · rintro (h | h | ⟨h, hl⟩ | ⟨h, hl⟩)
    · exact ⟨_, _, Format.raw4 ⟨buf.toArray, by simpa using h⟩⟩
    · exact ⟨_, _, Format.raw6 ⟨buf.toArray, by simpa using h⟩⟩
    · obtain ⟨v, -, hv⟩ := slice_ok buf 3 4 (by omega)
      refine ⟨.inet v 0, true, ?_⟩
      rw [hv, h]
      exact Format.nsap4 v _ (by simp; omega)
    · obtain ⟨v, -, hv⟩ := slice_ok buf 3 16 (by omega)
      obtain ⟨t, ht⟩ : ∃ t, buf.drop (3 + 16) = [t] := by
        apply List.length_eq_one_iff.1; simp; omega
      refine ⟨.inet6 v 0, true, ?_⟩
      rw [hv, h, ht]
      exact Format.nsap6 v t

/-- non-vacuity: accepted and rejected strings (the boundary: 7 octets with ICP 0000) -/
example : (∃ d, transpLayerAddrDecode2 none [0x35, 0, 1, 9, 8, 7, 6] = .ok d ∧ d.rc = 0) ∧
    (∃ d, transpLayerAddrDecode2 none [0x35, 0, 0, 9, 8, 7, 6] = .ok d ∧ d.rc = -22) := by
  exact ⟨⟨_, rfl, rfl⟩, ⟨_, rfl, rfl⟩⟩

/-- **C08.** The port in a generated RTP transport information is read back; only port
0 is refused (the caller then gets -EINVAL). -/
theorem C08_rtp_port_round_trip (a : SockAddr) (p p0 : BitVec 16) (x : Bool) (hp : a.port? = some p) :
    ∃ ti, newTranspInfoRtp a x = some ti ∧ newTranspLayerAddr a x = some ti.addr ∧
      transpAssocDecode p0 (some ti.assoc) = .ok (if p = 0 then (-22, 0) else (0, p)) := by
  have key : transpAssocDecode p0 (some (.bindingId (store16be p ++ [0, 0]))) =
      .ok (if p = 0 then (-22, 0) else (0, p)) := by
    have h := assoc_load p 0 0
    simp only at h
    simp only [transpAssocDecode, TranspAssoc.bindingOctets, store16be, List.cons_append,
      List.nil_append, asn1bitstrToU32, Res.ok_bind]
    have hz0 := h.1.2 ⟨trivial, trivial⟩
    rw [if_neg (fun hn => hn hz0), h.2]
    by_cases hz : p = 0
    · simp [hz, EINVAL]
    · rw [if_neg hz, if_neg hz]
  cases a with
  | inet ip q =>
    simp only [SockAddr.port?, Option.some.injEq] at hp; subst hp
    cases x <;> exact ⟨_, rfl, rfl, key⟩
  | inet6 ip q =>
    simp only [SockAddr.port?, Option.some.injEq] at hp; subst hp
    cases x <;> exact ⟨_, rfl, rfl, key⟩
  | unspec => simp [SockAddr.port?] at hp
  | other f => simp [SockAddr.port?] at hp

/-- **C08.** Acceptance: a 4-octet association is accepted iff its last two octets are
zero and its first two are not both zero; NULL is refused and leaves `*port`. -/
theorem C08_assoc_accepts_iff (b0 b1 b2 b3 : Byte) (p0 : BitVec 16) :
    transpAssocDecode p0 none = .ok (-22, p0) ∧
    ∃ rc p, transpAssocDecode p0 (some (.bindingId [b0, b1, b2, b3])) = .ok (rc, p) ∧
      (rc = 0 ↔ b2 = 0 ∧ b3 = 0 ∧ ¬(b0 = 0 ∧ b1 = 0)) ∧
      (rc = 0 → p.extractLsb' 8 8 = b0 ∧ p.extractLsb' 0 8 = b1) := by
  refine ⟨rfl, ?_⟩
  have h := assoc_load (load16be b0 b1) b2 b3
  rw [load16be_hi, load16be_lo] at h
  simp only at h
  simp only [transpAssocDecode, TranspAssoc.bindingOctets, asn1bitstrToU32, Res.ok_bind]
  by_cases hz : b2 = 0 ∧ b3 = 0
  · have hz0 := h.1.2 hz
    rw [if_neg (fun hn => hn hz0), h.2]
    by_cases hp : load16be b0 b1 = 0
    · rw [if_pos hp]
      refine ⟨_, _, rfl, ?_, ?_⟩
      · have := (load16be_eq_zero _ _).1 hp
        simp [EINVAL, hz, this]
      · simp [EINVAL]
    · rw [if_neg hp]
      refine ⟨_, _, rfl, ?_, fun _ => ⟨load16be_hi _ _, load16be_lo _ _⟩⟩
      have : ¬ (b0 = 0 ∧ b1 = 0) := fun hh => hp ((load16be_eq_zero _ _).2 hh)
      simp only [true_iff]
      exact ⟨hz.1, hz.2, this⟩
  · rw [if_pos (by intro hh; exact hz (h.1.1 hh))]
    refine ⟨_, _, rfl, ?_, ?_⟩
    · simp only [EINVAL]
      constructor
      · intro hh; omega
      · intro hh; exact absurd ⟨hh.1, hh.2.1⟩ hz
    · simp [EINVAL]

example : (SockAddr.inet #v[1, 2, 3, 4] 0x1122).port? = some 0x1122 := rfl

/-- **C09.** The TEI is carried as four octets whose big-endian value is the TEI, and
the address as generated for the same encoding. -/
theorem C09_gtp_tei_round_trip (a a' : SockAddr) (ha : supported a = some a') (tei : BitVec 32) (x : Bool) :
    ∃ ti b0 b1 b2 b3, newTranspInfoGtp a tei x = some ti ∧
      ti.assoc = .gtpTei [b0, b1, b2, b3] ∧ load32be b0 b1 b2 b3 = tei ∧
      newTranspLayerAddr a x = some ti.addr := by
  obtain ⟨bs, hbs, -, -⟩ := C06_addr_round_trip a a' ha x none
  refine ⟨⟨bs, .gtpTei (store32be tei)⟩, _, _, _, _, by simp [newTranspInfoGtp, hbs], rfl,
    load32_store32 tei, hbs⟩

example : newTranspInfoGtp (.inet #v[1, 2, 3, 4] 0) 0x11223344 false =
    some ⟨⟨[1, 2, 3, 4], 0⟩, .gtpTei [0x11, 0x22, 0x33, 0x44]⟩ := by decide

/-- **C10, full statement**: the old decoder gives the text of the address the new one
gives, and refuses what the new one refuses.  `ntop4`/`ntop6` are `inet_ntop`. -/
def C10_full : Prop :=
  ∀ (ntop4 : Vector Byte 4 → Option Bytes) (ntop6 : Vector Byte 16 → Option Bytes) (buf : Bytes),
    ∃ d, transpLayerAddrDecode2 none buf = .ok d ∧
      transpLayerAddrDecode ntop4 buf = .ok (match d.addr with
        | .inet ip _ => ntop4 ip
        | .inet6 ip _ => ntop6 ip
        | _ => none)

/-- **C10 is violated**: 16 octets of IPv6 are rendered as an IPv4 address by the old
decoder, and 5 octets are accepted by the old and refused by the new one. -/
theorem C10_violated : ¬ C10_full := by
  intro h
  have := h (fun v => some v.toList) (fun v => some v.toList) [1, 2, 3, 4, 5]
  obtain ⟨d, hd, he⟩ := this
  have h1 : transpLayerAddrDecode2 none [1, 2, 3, 4, 5] = .ok ⟨-22, .unspec, none⟩ := by decide
  rw [h1] at hd
  cases hd
  revert he
  decide

/-- the IPv6 case, for every raw IPv6 address whose first octet is not 0x35: the old
decoder prints its first four octets as IPv4 -/
theorem C10_violated_ipv6 (ntop : Vector Byte 4 → Option Bytes) (ip : Vector Byte 16)
    (h : ip[0] ≠ 0x35) :
    transpLayerAddrDecode ntop ip.toList = .ok (ntop #v[ip[0], ip[1], ip[2], ip[3]]) := by
  have hl : ip.toList.length = 16 := by simp
  have h0 : ¬ (ip.toList.length ≥ 7 ∧ ip.toList[0]? = some 0x35) := by
    rintro ⟨-, hh⟩
    apply h
    simpa using hh
  unfold transpLayerAddrDecode
  rw [if_neg h0, if_pos (by omega)]
  unfold slice
  rw [dif_pos (by omega)]
  simp only [Res.ok_bind]
  congr 2

/-- **C10, proved part**: they agree whenever the new decoder yields an IPv4 address, and
on strings of at most three octets (both refuse).  The old one refuses nothing
longer (unless `inet_ntop` fails).
Missing: IPv6 and malformed strings of more than three octets, where they differ. -/
theorem C10_decoders_agree_ipv4_partial (ntop : Vector Byte 4 → Option Bytes) (buf : Bytes) (d : Decode2)
    (hd : transpLayerAddrDecode2 none buf = .ok d) :
    (∀ ip p, d.addr = .inet ip p → transpLayerAddrDecode ntop buf = .ok (ntop ip)) ∧
    (buf.length ≤ 3 → d.rc = -22 ∧ transpLayerAddrDecode ntop buf = .ok none) ∧
    (buf.length > 3 → ∃ ip, transpLayerAddrDecode ntop buf = .ok (ntop ip)) := by
  refine ⟨?_, ?_, ?_⟩
  · intro ip p ha
    rcases decode2_cases none buf with ⟨a, f, h⟩ | h
    · rw [decode2_of_format none buf a f h] at hd
      cases hd
      simp only at ha
      cases h with
      | raw4 ip' =>
        simp only [SockAddr.inet.injEq] at ha
        obtain ⟨rfl, -⟩ := ha
        unfold transpLayerAddrDecode
        simp [slice_full]
      | nsap4 ip' pad hp =>
        simp only [SockAddr.inet.injEq] at ha
        obtain ⟨rfl, -⟩ := ha
        unfold transpLayerAddrDecode
        rw [if_pos ⟨by simp, by simp⟩, slice_append' [0x35, 0x00, 0x01] pad ip' 3 rfl]
        rfl
      | raw6 ip' => simp at ha
      | nsap6 ip' pad => simp at ha
    · rw [h] at hd
      cases hd
      simp at ha
  · intro hl
    constructor
    · obtain ⟨d', hd', hi, -, hz⟩ := C07_decode2_accepts_iff none buf
      rw [hd] at hd'
      cases hd'
      have : ¬ (d.rc = 0) := by
        rw [hi, C07_format_iff]
        omega
      rw [hz this]
    · unfold transpLayerAddrDecode
      rw [if_neg (by omega), if_neg (by omega)]
  · intro hl
    unfold transpLayerAddrDecode
    split
    · obtain ⟨v, hv, -⟩ := slice_ok buf 3 4 (by omega)
      exact ⟨v, by rw [hv]; rfl⟩
    · obtain ⟨v, hv, -⟩ := slice_ok buf 0 4 (by omega)
      exact ⟨v, by rw [hv]; rfl⟩

/-- A raw and an X.213 IPv4 address; hypothesis of `C10_violated_ipv6`. -/
example : transpLayerAddrDecode2 none [10, 0, 0, 1] = .ok ⟨0, .inet #v[10, 0, 0, 1] 0, none⟩ ∧
    transpLayerAddrDecode2 none ([0x35, 0, 1, 10, 0, 0, 1] ++ List.replicate 13 0) = .ok ⟨0, .inet #v[10, 0, 0, 1] 0, none⟩ ∧
    transpLayerAddrDecode2 none [1, 2, 3] = .ok ⟨-22, .unspec, none⟩ ∧ (Vector.replicate 16 (0xfe : Byte))[0] ≠ 0x35 := by decide

/-- **C11, full statement.** -/
def C11_full : Prop :=
  ∀ (ip : Vector Byte 4) (p : BitVec 16) (x : Bool),
    ∃ bs, newTranspLayerAddr (.inet ip p) x = some bs ∧ ipFromTranspLayerAddr bs.buf = .ok (some ip)

/-- **C11 is violated**: the extraction fails on *every* IPv4 address that the library
itself encodes with X.213. -/
theorem C11_violated_every_x213 (ip : Vector Byte 4) (p : BitVec 16) :
    ∃ bs, newTranspLayerAddr (.inet ip p) true = some bs ∧ ipFromTranspLayerAddr bs.buf = .ok none := by
  refine ⟨_, rfl, ?_⟩
  unfold ipFromTranspLayerAddr
  rw [if_neg (by simp [store16be]), if_neg (by simp [store16be])]

theorem C11_violated : ¬ C11_full := by
  intro h
  obtain ⟨bs, h1, h2⟩ := h #v[1, 2, 3, 4] 0 true
  obtain ⟨bs', h1', h2'⟩ := C11_violated_every_x213 #v[1, 2, 3, 4] 0
  rw [h1] at h1'
  cases h1'
  rw [h2] at h2'
  simp at h2'

/-- Further, on a little-endian host a 7-octet X.213 address comes back reversed with
respect to the same address in raw form. -/
theorem C11_violated_byte_order (ip : Vector Byte 4) :
    ipFromTranspLayerAddr ip.toList = .ok (some ip) ∧
    ipFromTranspLayerAddr ([0x35, 0, 1] ++ ip.toList) = .ok (some #v[ip[3], ip[2], ip[1], ip[0]]) := by
  constructor
  · unfold ipFromTranspLayerAddr
    rw [if_pos (by simp), slice_full]; rfl
  · have := slice_append' [0x35, 0, 1] [] ip 3 rfl
    rw [List.append_nil] at this
    unfold ipFromTranspLayerAddr
    rw [if_neg (by simp), if_pos ⟨by simp, by simp⟩, this]; rfl

/-- **C11, proved part**: raw encoding. Missing: X.213 encoding. -/
theorem C11_ip_extraction_raw_partial (ip : Vector Byte 4) (p : BitVec 16) :
    ∃ bs, newTranspLayerAddr (.inet ip p) false = some bs ∧
      ipFromTranspLayerAddr bs.buf = .ok (some ip) :=
  ⟨_, rfl, (C11_violated_byte_order ip).1⟩

end Verif.Props
