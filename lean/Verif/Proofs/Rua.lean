import Verif.Spec.Rua
import Verif.Proofs.FactoryVals
import Verif.Proofs.FactoryRx

/-! Wrapping in RUA. -/

namespace Verif.Rua
open Verif.Aper Verif.Ie Verif.Ie.Spec Verif.Wire Verif.Gen.Rua Verif.Rua.Spec
open Verif.Factory (contents encodeAll encodeAll_spec wanted contents_mem row_facts encodeRows_contents tables_short genPdu
  put present orMask u24Bits pduOctets_length containerOctets_length ieOctets_length elements_id
  elements_valid holds_exactly)
open Verif.Factory.Spec (Elements HoldsExactly low24)

def root : Fields := .cons false RUA_InitiatingMessage (.cons false RUA_SuccessfulOutcome (.cons false RUA_UnsuccessfulOutcome .nil))

theorem rua_pdu (code crit : Nat) (value : Bytes) (hc : code < 256) (hk : crit < 3) :
    ∃ bs, encode RUA_RUA_PDU (Factory.pduVal 1 code crit value) = some bs ∧
      (value.length < 16384 → bs = pduOctets 1 code crit value) ∧ value.length ≤ bs.length :=
  encode_pdu_room (root := root) (Or.inl rfl) (by decide) (fun _ => by rfl)
      (fun _ => by simp [root, Aper.Spec.fitsAlt]; rfl) (by decide) hc hk

theorem finish_eq {m : MsgDef} (hm : m ∈ tables) {s : Struct} {c : List (IeDef × Val)} (hcont : contents m s = some c)
    {code : Nat} (hc : code < 256) (tr : List (Ev Unit)) {l : List Ie} (hl : encodeAll c = some l) :
    finish code m s tr = .ok ⟨tr, some ⟨if (pduOctets 1 code 0 (containerOctets l)).length ≤ 1024 then
        pduOctets 1 code 0 (containerOctets l) else [], 19⟩⟩ := by
  obtain ⟨hmem, hlen⟩ := contents_mem hcont
  unfold finish encodeIes
  unfold contents at hcont
  rw [encodeRows_contents hcont, hl]
  obtain ⟨-, h2, h3, -⟩ := encodeAll_spec hmem (fun x hx => (row_facts hm (hmem x hx)).2.1)
    (fun x hx => (row_facts hm (hmem x hx)).1) hl
  have hshort := List.all_eq_true.1 tables_short m hm
  simp only [decide_eq_true_eq] at hshort
  obtain ⟨any, ha, ha1, ha2⟩ := encode_container_room hm (l := l) (by omega) (fun ie hie => by
    obtain ⟨x, hx, h4, h5⟩ := h2 ie hie
    rw [h4, h5]
    exact (row_facts hm (hmem x hx)).2.2)
  obtain ⟨bs, hb, hb1, hb2⟩ := rua_pdu code 0 any hc (by decide)
  simp only [ha, genPdu, hb]
  have hw := pduOctets_length 1 code 0 (containerOctets l)
  by_cases hlt : (containerOctets l).length < 16384
  · have h5 := ha1 hlt
    subst h5
    rw [hb1 hlt]
    rfl
  · have h5 := ha2 (by omega)
    rw [if_neg (by unfold tailroom; omega), if_neg (by split at hw <;> omega)]
    rfl

/-- The message and its size. -/
theorem finish_sized {m : MsgDef} (hm : m ∈ tables) {code : Nat} (hcode : message code = some m) {s : Struct}
    {c : List (IeDef × Val)} (hcont : contents m s = some c) (tr : List (Ev Unit)) {l : List Ie}
    (hl : encodeAll c = some l) :
    ((l.flatMap ieOctets).length ≤ 1016 → ∃ bs, finish code m s tr = .ok ⟨tr, some ⟨bs, 19⟩⟩ ∧
      IsMessage bs code 0 (wanted c) ∧ bs.length ≤ 1024) ∧
    (1016 < (l.flatMap ieOctets).length → finish code m s tr = .ok ⟨tr, some ⟨[], 19⟩⟩) := by
  obtain ⟨hmem, hlen⟩ := contents_mem hcont
  obtain ⟨e1, -⟩ := encodeAll_spec hmem (fun x hx => (row_facts hm (hmem x hx)).2.1)
    (fun x hx => (row_facts hm (hmem x hx)).1) hl
  have hw := pduOctets_length 1 code 0 (containerOctets l)
  rw [containerOctets_length] at hw
  have hc : code < 256 := by
    unfold message at hcode
    split at hcode <;> first | decide | cases hcode
  rw [finish_eq hm hcont hc tr hl]
  refine ⟨fun h => ?_, fun h => ?_⟩
  · have hle : (pduOctets 1 code 0 (containerOctets l)).length ≤ 1024 := by split at hw <;> omega
    rw [if_pos hle]
    exact ⟨_, rfl, ⟨m, l, hcode, rfl, e1⟩, hle⟩
  · rw [if_neg (by split at hw <;> omega)]

theorem message_mem {code : Nat} {m : MsgDef} (h : message code = some m) : m ∈ tables ∧ code < 256 := by
  have : ∀ m ∈ Gen.Rua.all, m ∈ tables := fun m hm => by
    unfold tables
    simp only [List.mem_append]
    exact Or.inl (Or.inl (Or.inr hm))
  unfold message at h
  split at h <;> cases h <;> refine ⟨this _ ?_, by decide⟩
  · exact List.mem_iff_getElem?.2 ⟨0, rfl⟩
  · exact List.mem_iff_getElem?.2 ⟨1, rfl⟩
  · exact List.mem_iff_getElem?.2 ⟨2, rfl⟩
  · exact List.mem_iff_getElem?.2 ⟨3, rfl⟩
  · exact List.mem_iff_getElem?.2 ⟨4, rfl⟩

/-- A complete message is understood. -/
theorem understood {bs : Bytes} {code crit : Nat} {want : List (Nat × Val)} (h : IsMessage bs code crit want)
    (hk : crit < 3) (hlen : bs.length ≤ 1024) (hn : (want.map (·.1)).Nodup) : Understood bs code want := by
  obtain ⟨m, l, hcode, hbs, he⟩ := h
  obtain ⟨hm, hc⟩ := message_mem hcode
  rw [hbs, pduOctets_length] at hlen
  refine ⟨m, crit, containerOctets l, hcode, ?_, fun μ => ?_⟩
  · obtain ⟨b, e1, e2, -⟩ := rua_pdu code crit (containerOctets l) hc hk
    rw [e2 (by omega)] at e1
    rw [hbs]
    exact decode_encode (t := RUA_RUA_PDU) (by decide +kernel) e1
  · have hcl := containerOctets_length l
    have hfl : 4 * l.length ≤ (l.flatMap ieOctets).length := by
      clear hcl hlen hbs he
      induction l with
      | nil => simp
      | cons x l ih =>
        simp only [List.flatMap_cons, List.length_append, List.length_cons, ieOctets_length]
        split <;> omega
    obtain ⟨any, ha, ha1, -⟩ := encode_container_room hm (l := l) (by split at hlen <;> omega) (fun ie hie => by
      obtain ⟨d, hd, e1, e2, -⟩ := elements_id he ie hie
      have := (row_facts hm hd).2.2
      rw [e1, e2]; exact this)
    rw [ha1 (by omega)] at ha
    have hg := good hm
    have ds := decodeIes_spec hg (carries_encode hg ha) μ
    have h0 : (decodeIes m (containerOctets l) μ).1.1 = 0 := ds.ok_iff.2 (elements_valid he)
    rw [h0] at ds
    exact ⟨h0, holds_exactly hg he hn (Rx.holds_of_dec ds)⟩

/-! ## Elements -/

theorem ranap_encode (b : Bytes) : ∃ o, encode RUA_RANAP_Message (.octets b) = some o ∧
    (b.length < 16384 → o = lenOctets b.length ++ b) ∧ b.length ≤ o.length := Factory.nas_encode b

theorem domain_encode (isPs : Bool) : ∃ b, encode RUA_CN_DomainIndicator (domain isPs) = some [b] := by
  cases isPs
  · exact ⟨0, by decide +kernel⟩
  · exact ⟨0x80, by decide +kernel⟩

theorem ctx_octs (a b c : Byte) : Octs (enc RUA_Context_ID (.bits (octetsBits [a, b, c]))) [a, b, c] := by
  intro off ho
  have h : (eAlign +++ eRaw (octetsBits [a, b, c])) off = some (octetsBits [a, b, c]) := align_seq (octs_raw _) off ho
  have h2 : (octetsBits [a, b, c]).length = 24 := octetsBits_length _
  rw [← h]
  simp [enc, RUA_Context_ID, eBitStr, eSize, eBody, h2]
  rfl

theorem ctx_encode (n : BitVec 32) : ∃ o, encode RUA_Context_ID (.bits (low24 n)) = some o ∧ o.length = 3 :=
  ⟨_, complete_octs (ctx_octs _ _ _) (by simp), rfl⟩

theorem ranap_size (p : Bytes) : ∃ o, encode RUA_RANAP_Message (.octets p) = some o ∧
    (p.length < 16384 → o.length = p.length + (if p.length < 128 then 1 else 2)) ∧ p.length ≤ o.length := by
  obtain ⟨o, ho, ho1, ho2⟩ := ranap_encode p
  refine ⟨o, ho, fun h => ?_, ho2⟩
  rw [ho1 h, List.length_append, Factory.lenOctets_length]
  omega

/-! ## Messages -/

/-- What a function returns for a payload, given the largest that fits. -/
def Wraps (r : Res Run) (tr : List (Ev Unit)) (code : Nat) (want : List (Nat × Val)) (len limit : Nat) : Prop :=
  (len ≤ limit → ∃ bs, r = .ok ⟨tr, some ⟨bs, 19⟩⟩ ∧ IsMessage bs code 0 want ∧ bs.length ≤ 1024) ∧
  (limit < len → r = .ok ⟨tr, some ⟨[], 19⟩⟩)

theorem wraps_of_sized {m : MsgDef} {code : Nat} (hcode : message code = some m) {s : Struct}
    {c : List (IeDef × Val)} (hcont : contents m s = some c) (tr : List (Ev Unit)) {l : List Ie}
    (hl : encodeAll c = some l) {len limit : Nat} (h1 : len ≤ limit → (l.flatMap ieOctets).length ≤ 1016)
    (h2 : limit < len → 1016 < (l.flatMap ieOctets).length) : Wraps (finish code m s tr) tr code (wanted c) len limit :=
  have h := finish_sized (message_mem hcode).1 hcode hcont tr hl
  ⟨fun h' => h.1 (h1 h'), fun h' => h.2 (h2 h')⟩

theorem udt_wraps (p : Bytes) : Wraps (newUdt (some p)) consume 4 [(4, .octets p)] p.length 1009 := by
  obtain ⟨o, ho, ho1, ho2⟩ := ranap_size p
  have hcont : contents connectionlessTransferIEs (put connectionlessTransferIEs idRANAP_Message (.octets p)
      connectionlessTransferIEs.zero) = some [(connectionlessTransferIEs.ies[0], .octets p)] := by
    with_unfolding_all rfl
  have hl : encodeAll [(connectionlessTransferIEs.ies[0], .octets p)] = some [⟨4, 0, o⟩] := by
    simp [encodeAll, connectionlessTransferIEs, ho]
  have hlen : (([⟨4, 0, o⟩] : List Ie).flatMap ieOctets).length = 3 + (if o.length < 128 then 1 else 2) + o.length := by
    simp only [List.flatMap_cons, List.flatMap_nil, List.append_nil, ieOctets_length]
  refine wraps_of_sized (c := [(connectionlessTransferIEs.ies[0], .octets p)]) (by rfl) hcont consume hl ?_ ?_ <;>
    intro h <;> rw [hlen]
  · have := ho1 (by omega)
    split at this <;> split <;> omega
  · by_cases hn : p.length < 16384
    · have := ho1 hn
      split at this <;> split <;> omega
    · split <;> omega

theorem dt_wraps (isPs : Bool) (ctx : BitVec 32) (p : Bytes) :
    Wraps (newDt isPs ctx (some p)) consume 2 [(7, domain isPs), (3, .bits (low24 ctx)), (4, .octets p)] p.length 997 := by
  obtain ⟨o, ho, ho1, ho2⟩ := ranap_size p
  obtain ⟨b, hb⟩ := domain_encode isPs
  obtain ⟨x, hx, hx1⟩ := ctx_encode ctx
  have hcont : contents directTransferIEs (put directTransferIEs idRANAP_Message (.octets p)
      (put directTransferIEs idContext_ID (.bits (u24Bits ctx))
        (put directTransferIEs idCN_DomainIndicator (domain isPs) directTransferIEs.zero))) =
      some [(directTransferIEs.ies[0], domain isPs), (directTransferIEs.ies[1], .bits (low24 ctx)),
        (directTransferIEs.ies[2], .octets p)] := by
    with_unfolding_all rfl
  have hl : encodeAll [(directTransferIEs.ies[0], domain isPs), (directTransferIEs.ies[1], .bits (low24 ctx)),
        (directTransferIEs.ies[2], .octets p)] = some [⟨7, 0, [b]⟩, ⟨3, 0, x⟩, ⟨4, 0, o⟩] := by
    simp [encodeAll, directTransferIEs, ho, hb, hx]
  have hlen : (([⟨7, 0, [b]⟩, ⟨3, 0, x⟩, ⟨4, 0, o⟩] : List Ie).flatMap ieOctets).length =
      12 + (3 + (if o.length < 128 then 1 else 2) + o.length) := by
    simp [ieOctets_length, hx1]
    omega
  refine wraps_of_sized (c := [(directTransferIEs.ies[0], domain isPs), (directTransferIEs.ies[1], .bits (low24 ctx)),
        (directTransferIEs.ies[2], .octets p)]) (by rfl) hcont consume hl ?_ ?_ <;>
    intro h <;> rw [hlen]
  · have := ho1 (by omega)
    split at this <;> split <;> omega
  · by_cases hn : p.length < 16384
    · have := ho1 hn
      split at this <;> split <;> omega
    · split <;> omega

theorem conn_wraps (isPs : Bool) (ctx : BitVec 32) (p : Bytes) :
    Wraps (newConn isPs ctx (some p)) consume 1
      [(7, domain isPs), (3, .bits (low24 ctx)), (6, .enum 1), (4, .octets p)] p.length 992 := by
  obtain ⟨o, ho, ho1, ho2⟩ := ranap_size p
  obtain ⟨b, hb⟩ := domain_encode isPs
  obtain ⟨x, hx, hx1⟩ := ctx_encode ctx
  have he : encode RUA_Establishment_Cause (.enum 1) = some [0x40] := by decide +kernel
  have hcont : contents connectIEs (put connectIEs idRANAP_Message (.octets p)
      (put connectIEs idEstablishment_Cause (.enum 1) (put connectIEs idContext_ID (.bits (u24Bits ctx))
        (put connectIEs idCN_DomainIndicator (domain isPs) connectIEs.zero)))) =
      some [(connectIEs.ies[0], domain isPs), (connectIEs.ies[1], .bits (low24 ctx)),
        (connectIEs.ies[3], .enum 1), (connectIEs.ies[4], .octets p)] := by
    with_unfolding_all rfl
  have hl : encodeAll [(connectIEs.ies[0], domain isPs), (connectIEs.ies[1], .bits (low24 ctx)),
        (connectIEs.ies[3], .enum 1), (connectIEs.ies[4], .octets p)] =
        some [⟨7, 0, [b]⟩, ⟨3, 0, x⟩, ⟨6, 0, [0x40]⟩, ⟨4, 0, o⟩] := by
    simp only [BitVec.ofNat_eq_ofNat] at he
    simp [encodeAll, connectIEs, ho, hb, hx, he]
  have hlen : (([⟨7, 0, [b]⟩, ⟨3, 0, x⟩, ⟨6, 0, [0x40]⟩, ⟨4, 0, o⟩] : List Ie).flatMap ieOctets).length =
      17 + (3 + (if o.length < 128 then 1 else 2) + o.length) := by
    simp [ieOctets_length, hx1]
    omega
  refine wraps_of_sized (c := [(connectIEs.ies[0], domain isPs), (connectIEs.ies[1], .bits (low24 ctx)),
        (connectIEs.ies[3], .enum 1), (connectIEs.ies[4], .octets p)]) (by rfl) hcont consume hl ?_ ?_ <;>
    intro h <;> rw [hlen]
  · have := ho1 (by omega)
    split at this <;> split <;> omega
  · by_cases hn : p.length < 16384
    · have := ho1 hn
      split at this <;> split <;> omega
    · split <;> omega

theorem cause_encode : encode RUA_Cause (.choice 0 (.enum 0)) = some [0] := by decide +kernel

theorem disc_empty (isPs : Bool) (ctx : BitVec 32) (tr : List (Ev Unit)) :
    ∃ bs, finish 3 disconnectIEs (discBase isPs ctx) tr = .ok ⟨tr, some ⟨bs, 19⟩⟩ ∧
      IsMessage bs 3 0 [(7, domain isPs), (3, .bits (low24 ctx)), (1, .choice 0 (.enum 0))] ∧ bs.length ≤ 1024 := by
  obtain ⟨b, hb⟩ := domain_encode isPs
  obtain ⟨x, hx, hx1⟩ := ctx_encode ctx
  have hz := cause_encode
  have hcont : contents disconnectIEs (discBase isPs ctx) =
      some [(disconnectIEs.ies[0], domain isPs), (disconnectIEs.ies[1], .bits (low24 ctx)),
        (disconnectIEs.ies[2], .choice 0 (.enum 0))] := by
    with_unfolding_all rfl
  have hl : encodeAll [(disconnectIEs.ies[0], domain isPs), (disconnectIEs.ies[1], .bits (low24 ctx)),
        (disconnectIEs.ies[2], .choice 0 (.enum 0))] =
        some [⟨7, 0, [b]⟩, ⟨3, 0, x⟩, ⟨1, 0, [0]⟩] := by
    simp only [BitVec.ofNat_eq_ofNat] at hz
    simp [encodeAll, disconnectIEs, hb, hx, hz]
  have hlen : (([⟨7, 0, [b]⟩, ⟨3, 0, x⟩, ⟨1, 0, [0]⟩] : List Ie).flatMap ieOctets).length = 17 := by
    simp [ieOctets_length, hx1]
  exact (wraps_of_sized (m := disconnectIEs) (by rfl) hcont tr hl (len := 0) (limit := 0) (fun _ => by omega) (fun h => by omega)).1 (Nat.le_refl 0)

theorem disc_wraps (isPs : Bool) (ctx : BitVec 32) (p : Bytes) (hp : p ≠ []) :
    Wraps (newDisc isPs ctx (some p)) consume 3
      [(7, domain isPs), (3, .bits (low24 ctx)), (1, .choice 0 (.enum 0)), (4, .octets p)] p.length 992 := by
  obtain ⟨o, ho, ho1, ho2⟩ := ranap_size p
  obtain ⟨b, hb⟩ := domain_encode isPs
  obtain ⟨x, hx, hx1⟩ := ctx_encode ctx
  have hz := cause_encode
  have hcont : contents disconnectIEs (put disconnectIEs idRANAP_Message (.octets p)
      (orMask (present disconnectIEs idRANAP_Message) (discBase isPs ctx))) =
      some [(disconnectIEs.ies[0], domain isPs), (disconnectIEs.ies[1], .bits (low24 ctx)),
        (disconnectIEs.ies[2], .choice 0 (.enum 0)), (disconnectIEs.ies[3], .octets p)] := by
    with_unfolding_all rfl
  have hl : encodeAll [(disconnectIEs.ies[0], domain isPs), (disconnectIEs.ies[1], .bits (low24 ctx)),
        (disconnectIEs.ies[2], .choice 0 (.enum 0)), (disconnectIEs.ies[3], .octets p)] =
        some [⟨7, 0, [b]⟩, ⟨3, 0, x⟩, ⟨1, 0, [0]⟩, ⟨4, 0, o⟩] := by
    simp only [BitVec.ofNat_eq_ofNat] at hz
    simp [encodeAll, disconnectIEs, hb, hx, hz, ho]
  have hlen : (([⟨7, 0, [b]⟩, ⟨3, 0, x⟩, ⟨1, 0, [0]⟩, ⟨4, 0, o⟩] : List Ie).flatMap ieOctets).length =
      17 + (3 + (if o.length < 128 then 1 else 2) + o.length) := by
    simp [ieOctets_length, hx1]
    omega
  have hne : ¬ p.length = 0 := fun h => hp (List.length_eq_zero_iff.1 h)
  unfold newDisc
  simp only [hne, if_false]
  refine wraps_of_sized (c := [(disconnectIEs.ies[0], domain isPs), (disconnectIEs.ies[1], .bits (low24 ctx)),
        (disconnectIEs.ies[2], .choice 0 (.enum 0)), (disconnectIEs.ies[3], .octets p)]) (by rfl) hcont consume hl ?_ ?_ <;>
    intro h <;> rw [hlen]
  · have := ho1 (by omega)
    split at this <;> split <;> omega
  · by_cases hn : p.length < 16384
    · have := ho1 hn
      split at this <;> split <;> omega
    · split <;> omega

/-! ## Context ids -/

theorem contextOf_octets (a b c : Byte) :
    contextOf (octetsBits [a, b, c]) = a.toNat * 65536 + b.toNat * 256 + c.toNat := by
  have h8 : ∀ (n : Nat) (x : Byte) (l : Bits), (natBits 8 x.toNat ++ l).foldl (fun n x => 2 * n + x.toNat) n =
      l.foldl (fun n x => 2 * n + x.toNat) (n * 256 + x.toNat) := by
    intro n x l
    have hx := x.isLt
    rw [List.foldl_append, foldl_natBits]
    congr 1
    rw [Nat.mod_eq_of_lt (by simpa using hx)]
  unfold contextOf
  rw [octetsBits, h8, octetsBits, h8, octetsBits, h8]
  simp [octetsBits]
  omega

theorem contextOf_low24 (n : BitVec 32) : contextOf (low24 n) = n.toNat % 2 ^ 24 := by
  unfold low24
  rw [contextOf_octets]
  simp only [BitVec.extractLsb'_toNat]
  have := n.isLt
  omega

theorem low24_iff (a b : BitVec 32) : low24 a = low24 b ↔ a.toNat % 2 ^ 24 = b.toNat % 2 ^ 24 := by
  constructor
  · intro h
    rw [← contextOf_low24, ← contextOf_low24, h]
  · intro h
    have e : ∀ k, k + 8 ≤ 24 → a.extractLsb' k 8 = b.extractLsb' k 8 := by
      intro k hk
      apply BitVec.eq_of_getLsbD_eq
      intro i hi
      simp only [BitVec.getLsbD_extractLsb', hi, decide_true, Bool.true_and]
      have := congrArg (Nat.testBit · (k + i)) h
      simpa only [Nat.testBit_mod_two_pow, show k + i < 24 by omega, BitVec.testBit_toNat, decide_true,
        Bool.true_and] using this
    unfold low24
    rw [e 16 (by omega), e 8 (by omega), e 0 (by omega)]

/-- What a message is understood as, is determined by it. -/
theorem understood_unique {bs : Bytes} {code : Nat} {want want' : List (Nat × Val)} (h : Understood bs code want)
    (h' : Understood bs code want') {m : MsgDef} (hm : message code = some m) {d : IeDef} (hd : d ∈ m.ies) :
    want.lookup d.id = want'.lookup d.id := by
  obtain ⟨m1, c1, v1, e1, f1, g1⟩ := h
  obtain ⟨m2, c2, v2, e2, f2, g2⟩ := h'
  rw [hm] at e1 e2
  cases e1
  cases e2
  rw [f1] at f2
  cases f2
  obtain ⟨k, hk⟩ := List.mem_iff_getElem?.1 hd
  have a := ((g1 Mem.init).2 k d hk).1
  have b := ((g2 Mem.init).2 k d hk).1
  rw [a] at b
  exact Option.some.inj b

end Verif.Rua
