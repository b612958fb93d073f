import Verif.Proofs.IeTables

/-!
# Information elements (C46 - C50)

`encodeMsg m s` is the generated encode function of message `m` followed by the encoding of the
container; `decodeIes m bs` is the generated decode function, whose first result is the return
value (0 or -1) and whose second is the structure it fills.
-/

namespace Verif.Props
open Verif.Aper Verif.Ie Verif.Ie.Spec Verif.Gen

/-- Concrete structures for the examples: Direct Transfer with NAS-PDU and SAPI. -/
def dtStruct (nas : Bytes) (sapi : Nat) : Struct :=
  ⟨8, [some ⟨.octets nas, none⟩, none, none, none, some ⟨.enum sapi, none⟩]⟩

/-- C46: what the encoder of a message produces, its decoder accepts; every mandatory element and
every optional element with its presence bit set comes back with its value, every other element
comes back absent, and the presence bits are the same.  For all messages of RANAP, RUA, HNBAP and
SABP, all masks and values. -/
theorem C46_round_trip {α : Type} {m : MsgDef} (hm : m ∈ tables) {s : Struct} {bs : Bytes}
    (h : encodeMsg m s = some bs) (μ : Mem α) :
    (decodeIes m bs μ).1.1 = 0 ∧
    (∀ k d, Row m k d → Included m s k d →
      ∃ v, valueOf s k d = some v ∧ (decodeIes m bs μ).1.2.vals[k]? = some (some v)) ∧
    (∀ k d, Row m k d → ¬ Included m s k d → (decodeIes m bs μ).1.2.vals[k]? = some none) ∧
    (∀ k d, Row m k d → d.opt = true → bit m (decodeIes m bs μ).1.2 k = bit m s k) := by
  obtain ⟨h0, h1⟩ := roundTrip (good hm) h μ
  exact ⟨h0, h1.included, h1.absent, h1.bits⟩

/-- C46, the mask as a whole: a structure whose presence mask has no other bits gets back exactly
its mask. -/
theorem C46_mask {α : Type} {m : MsgDef} (hm : m ∈ tables) {s : Struct} {bs : Bytes}
    (h : encodeMsg m s = some bs) (hs : NoOtherBits m s) (μ : Mem α) :
    (decodeIes m bs μ).1.2.mask = s.mask := by
  obtain ⟨h0, h1⟩ := roundTrip (good hm) h μ
  apply BitVec.eq_of_getLsbD_eq
  intro i hi
  rw [Bool.eq_iff_iff]
  constructor
  · intro hb
    obtain ⟨k, d, hr, ho, rfl⟩ := h1.rest i hb
    have := h1.bits k d hr ho
    unfold bit at this
    rw [← this]; exact hb
  · intro hb
    obtain ⟨k, d, hr, ho, rfl⟩ := hs i hb
    have := h1.bits k d hr ho
    unfold bit at this
    rw [this]; exact hb

/-- The octets of a Direct Transfer in `/repo/tests/test-ranap.ok`, from the fifth octet. -/
def dtBytes : Bytes :=
  [0x00, 0x00, 0x02, 0x00, 0x10, 0x40, 0x04, 0x03, 0xaa, 0xbb, 0xcc, 0x00, 0x3b, 0x40, 0x01, 0x00]

theorem dt_encodes : encodeMsg Ranap.directTransferIEs (dtStruct [0xaa, 0xbb, 0xcc] 0) = some dtBytes := by
  decide +kernel

theorem dt_mem : Ranap.directTransferIEs ∈ tables := by
  unfold tables
  simp only [List.mem_append]
  refine Or.inl (Or.inl (Or.inl ?_))
  unfold Ranap.all
  repeat (first | exact List.mem_cons_self | apply List.mem_cons_of_mem)

/-- C46 on this message: the NAS octets and the SAPI come back. -/
example (μ : Mem Unit) :
    (decodeIes Ranap.directTransferIEs dtBytes μ).1.2.vals[0]? = some (some (.octets [0xaa, 0xbb, 0xcc])) ∧
    (decodeIes Ranap.directTransferIEs dtBytes μ).1.2.vals[4]? = some (some (.enum 0)) := by
  have h := C46_round_trip dt_mem dt_encodes μ
  obtain ⟨v, hv, h1⟩ := h.2.1 0 _ rfl (Or.inl rfl)
  obtain ⟨w, hw, h2⟩ := h.2.1 4 _ rfl (Or.inr (by decide +kernel))
  have ev : v = .octets [0xaa, 0xbb, 0xcc] := by
    have : some v = some (Val.octets [0xaa, 0xbb, 0xcc]) := hv.symm
    simpa using this
  have ew : w = .enum 0 := by
    have : some w = some (Val.enum 0) := hw.symm
    simpa using this
  subst ev ew
  exact ⟨h1, h2⟩

/-- C47, repeated ids: of several elements with the same id the last one counts.  After a successful
decode, each member holds the value of the last element with its id and is absent if there is none,
and the presence bit of an optional member says whether there is one. -/
theorem C47_last_wins {α : Type} {m : MsgDef} (hm : m ∈ tables) {bs : Bytes} {l : List Ie}
    (hc : Carries m bs l) (μ : Mem α) (h : (decodeIes m bs μ).1.1 = 0) {k : Nat} {d : IeDef} (hr : Row m k d) :
    (decodeIes m bs μ).1.2.vals[k]? = some (match lastWith d.id l with
      | some ie => decode d.ty ie.value
      | none => none) ∧
    (d.opt = true → (bit m (decodeIes m bs μ).1.2 k = true ↔ ∃ ie ∈ l, ie.id = d.id)) := by
  have ds := decodeIes_spec (good hm) hc μ
  refine ⟨?_, ds.bit h k d hr⟩
  rw [ds.val h k d hr]
  unfold lastVal
  cases lastWith d.id l <;> rfl

theorem sameMsg_of_last {α : Type} {m : MsgDef} (hg : Good m) {b1 b2 : Bytes} {l1 l2 : List Ie}
    (h1 : Carries m b1 l1) (h2 : Carries m b2 l2) (μ1 μ2 : Mem α)
    (r1 : (decodeIes m b1 μ1).1.1 = 0) (r2 : (decodeIes m b2 μ2).1.1 = 0)
    (h : ∀ id, lastWith id l1 = lastWith id l2) :
    SameMsg (decodeIes m b1 μ1).1.2 (decodeIes m b2 μ2).1.2 := by
  have d1 := decodeIes_spec hg h1 μ1
  have d2 := decodeIes_spec hg h2 μ2
  have hex : ∀ id, (∃ ie ∈ l1, ie.id = id) ↔ ∃ ie ∈ l2, ie.id = id := by
    intro id
    have e1 := lastWith_none (id := id) (l := l1)
    have e2 := lastWith_none (id := id) (l := l2)
    rw [h id] at e1
    have := e1.symm.trans e2
    constructor
    · rintro ⟨ie, hi, he⟩
      apply Classical.byContradiction
      intro hn
      exact this.2 (fun x hx hxe => hn ⟨x, hx, hxe⟩) ie hi he
    · rintro ⟨ie, hi, he⟩
      apply Classical.byContradiction
      intro hn
      exact this.1 (fun x hx hxe => hn ⟨x, hx, hxe⟩) ie hi he
  constructor
  · apply BitVec.eq_of_getLsbD_eq
    intro i hi
    rw [Bool.eq_iff_iff]
    constructor
    · intro hb
      obtain ⟨k, d, hr, ho, rfl⟩ := d1.rest r1 i hb
      exact (d2.bit r2 k d hr ho).2 ((hex _).1 ((d1.bit r1 k d hr ho).1 hb))
    · intro hb
      obtain ⟨k, d, hr, ho, rfl⟩ := d2.rest r2 i hb
      exact (d1.bit r1 k d hr ho).2 ((hex _).2 ((d2.bit r2 k d hr ho).1 hb))
  · apply List.ext_getElem?
    intro k
    cases hk : m.ies[k]? with
    | some d =>
      rw [d1.val r1 k d hk, d2.val r2 k d hk]
      simp only [lastVal, h d.id]
    | none =>
      have hlt := List.getElem?_eq_none_iff.1 hk
      have e1 : (decodeIes m b1 μ1).1.2.vals.length = m.ies.length := by simp [Struct.vals, d1.len]
      have e2 : (decodeIes m b2 μ2).1.2.vals.length = m.ies.length := by simp [Struct.vals, d2.len]
      rw [List.getElem?_eq_none_iff.2 (by omega), List.getElem?_eq_none_iff.2 (by omega)]

/-- C47, relational form: two accepted messages in which every id has the same last element decode
to the same structure. -/
theorem C47_only_last_matters {α : Type} {m : MsgDef} (hm : m ∈ tables) {b1 b2 : Bytes} {l1 l2 : List Ie}
    (h1 : Carries m b1 l1) (h2 : Carries m b2 l2) (μ1 μ2 : Mem α)
    (r1 : (decodeIes m b1 μ1).1.1 = 0) (r2 : (decodeIes m b2 μ2).1.1 = 0)
    (h : ∀ id, lastWith id l1 = lastWith id l2) :
    SameMsg (decodeIes m b1 μ1).1.2 (decodeIes m b2 μ2).1.2 :=
  sameMsg_of_last (good hm) h1 h2 μ1 μ2 r1 r2 h

/-- C47, order: the same elements in another order, no id repeated, are accepted or rejected alike
and decode to the same structure. -/
theorem C47_order_independent {α : Type} {m : MsgDef} (hm : m ∈ tables) {b1 b2 : Bytes} {l1 l2 : List Ie}
    (h1 : Carries m b1 l1) (h2 : Carries m b2 l2) (hp : List.Perm l1 l2) (hn : (l1.map (·.id)).Nodup)
    (μ1 μ2 : Mem α) :
    (decodeIes m b1 μ1).1.1 = (decodeIes m b2 μ2).1.1 ∧
    ((decodeIes m b1 μ1).1.1 = 0 → SameMsg (decodeIes m b1 μ1).1.2 (decodeIes m b2 μ2).1.2) := by
  have d1 := decodeIes_spec (good hm) h1 μ1
  have d2 := decodeIes_spec (good hm) h2 μ2
  have hok : (decodeIes m b1 μ1).1.1 = 0 ↔ (decodeIes m b2 μ2).1.1 = 0 := by
    rw [d1.ok_iff, d2.ok_iff]
    exact ⟨fun h ie hi => h ie (hp.mem_iff.2 hi), fun h ie hi => h ie (hp.mem_iff.1 hi)⟩
  refine ⟨?_, fun r1 => ?_⟩
  · rcases d1.rc_cases with e1 | e1 <;> rcases d2.rc_cases with e2 | e2
    · rw [e1, e2]
    · rw [hok.1 e1] at e2; cases e2
    · rw [hok.2 e2] at e1; cases e1
    · rw [e1, e2]
  · refine sameMsg_of_last (good hm) h1 h2 μ1 μ2 r1 (hok.1 r1) ?_
    intro id
    have hn2 : (l2.map (·.id)).Nodup := (hp.map _).nodup_iff.1 hn
    have uniq : ∀ l : List Ie, (l.map (·.id)).Nodup → ∀ a ∈ l, ∀ b ∈ l, a.id = b.id → a = b := by
      intro l hl a ha b hb hab
      obtain ⟨i, hi, rfl⟩ := List.mem_iff_getElem.1 ha
      obtain ⟨j, hj, rfl⟩ := List.mem_iff_getElem.1 hb
      have : i = j := (List.getElem_inj (h₀ := by simpa using hi) (h₁ := by simpa using hj) hl).1
        (by simpa using hab)
      subst this; rfl
    cases e1 : lastWith id l1 with
    | none =>
      symm
      rw [lastWith_none] at e1 ⊢
      exact fun ie hi => e1 ie (hp.mem_iff.2 hi)
    | some a =>
      obtain ⟨ha, hia⟩ := lastWith_some e1
      cases e2 : lastWith id l2 with
      | none => exact absurd hia (lastWith_none.1 e2 a (hp.mem_iff.1 ha))
      | some b =>
        obtain ⟨hb, hib⟩ := lastWith_some e2
        rw [uniq l2 hn2 a (hp.mem_iff.1 ha) b hb (hia.trans hib.symm)]

/-- Elements of the examples: two NAS-PDUs, a SAPI, and one no Direct Transfer knows. -/
def ieNas1 : Ie := ⟨16, 1, [0x01, 0xaa]⟩
def ieNas2 : Ie := ⟨16, 1, [0x01, 0xbb]⟩
def ieSapi : Ie := ⟨59, 1, [0x00]⟩
def ieUnknown : Ie := ⟨9999, 1, [0x00]⟩

/-- Octets that carry given elements. -/
theorem carries {m : MsgDef} (hm : m ∈ tables) {l : List Ie} {bs : Bytes}
    (h : encode m.ty (container l) = some bs) : Carries m bs l := carries_encode (good hm) h

example : Carries Ranap.directTransferIEs
    [0x00, 0x00, 0x02, 0x00, 0x10, 0x40, 0x02, 0x01, 0xaa, 0x00, 0x10, 0x40, 0x02, 0x01, 0xbb] [ieNas1, ieNas2] :=
  carries dt_mem (by decide +kernel)

/-- Both orders of two elements, accepted: the hypotheses of the order theorem. -/
example : Carries Ranap.directTransferIEs
      [0x00, 0x00, 0x02, 0x00, 0x10, 0x40, 0x02, 0x01, 0xaa, 0x00, 0x3b, 0x40, 0x01, 0x00] [ieNas1, ieSapi] ∧
    Carries Ranap.directTransferIEs
      [0x00, 0x00, 0x02, 0x00, 0x3b, 0x40, 0x01, 0x00, 0x00, 0x10, 0x40, 0x02, 0x01, 0xaa] [ieSapi, ieNas1] ∧
    (decodeIes Ranap.directTransferIEs
      [0x00, 0x00, 0x02, 0x00, 0x3b, 0x40, 0x01, 0x00, 0x00, 0x10, 0x40, 0x02, 0x01, 0xaa] (Mem.init (α := Unit))).1.1 = 0 :=
  ⟨carries dt_mem (by decide +kernel), carries dt_mem (by decide +kernel), by decide +kernel⟩

/-- C48: which messages are accepted.  Exactly those all of whose elements are known and valid; the
criticality of an element plays no role. -/
theorem C48_accepts_iff {α : Type} {m : MsgDef} (hm : m ∈ tables) {bs : Bytes} {l : List Ie}
    (hc : Carries m bs l) (μ : Mem α) : (decodeIes m bs μ).1.1 = 0 ↔ ∀ ie ∈ l, Valid m ie :=
  (decodeIes_spec (good hm) hc μ).ok_iff

/-- C48 is false of the code, for every message: any element with an id the table does not have
makes the whole message rejected, whatever its criticality. -/
theorem C48_unknown_rejected {α : Type} {m : MsgDef} (hm : m ∈ tables) {bs : Bytes} {l : List Ie}
    (hc : Carries m bs l) (μ : Mem α) {ie : Ie} (hi : ie ∈ l) (hu : ∀ d ∈ m.ies, d.id ≠ ie.id) :
    (decodeIes m bs μ).1.1 = -1 := by
  have ds := decodeIes_spec (good hm) hc μ
  rcases ds.rc_cases with h | h
  · obtain ⟨d, hd, hid, -⟩ := ds.ok_iff.1 h ie hi
    exact absurd hid (hu d hd)
  · exact h

/-- C48, full statement: valid elements, and unknown ones of criticality ignore, are accepted. -/
def C48_full : Prop :=
  ∀ m ∈ tables, ∀ (bs : Bytes) (l : List Ie), Carries m bs l →
    (∀ ie ∈ l, Valid m ie ∨ ((∀ d ∈ m.ies, d.id ≠ ie.id) ∧ ie.crit = 1)) → (decodeIes m bs (Mem.init (α := Unit))).1.1 = 0

/-- C48 is violated: a Direct Transfer with a NAS-PDU is accepted, the same with an unknown element
of criticality ignore appended is not. -/
theorem C48_direct_transfer : ∃ bs bs' : Bytes,
    Carries Ranap.directTransferIEs bs [ieNas1] ∧
    (decodeIes Ranap.directTransferIEs bs (Mem.init (α := Unit))).1.1 = 0 ∧
    Carries Ranap.directTransferIEs bs' [ieNas1, ieUnknown] ∧ ieUnknown.crit = 1 ∧
    (decodeIes Ranap.directTransferIEs bs' (Mem.init (α := Unit))).1.1 = -1 :=
  ⟨[0x00, 0x00, 0x01, 0x00, 0x10, 0x40, 0x02, 0x01, 0xaa],
    [0x00, 0x00, 0x02, 0x00, 0x10, 0x40, 0x02, 0x01, 0xaa, 0x27, 0x0f, 0x40, 0x01, 0x00],
    carries dt_mem (by decide +kernel), by decide +kernel, carries dt_mem (by decide +kernel), rfl,
    by decide +kernel⟩

theorem C48_violated : ¬ C48_full := by
  intro h
  obtain ⟨bs, bs', h1, h2, h3, h4, h5⟩ := C48_direct_transfer
  have := h _ dt_mem bs' _ h3 (fun ie hi => ?_)
  · rw [h5] at this; cases this
  · rcases List.mem_cons.1 hi with rfl | hi
    · exact .inl ((C48_accepts_iff dt_mem h1 _).1 h2 _ List.mem_cons_self)
    · obtain rfl := List.mem_singleton.1 hi
      exact .inr ⟨by decide, h4⟩

/-- C49, full statement. -/
def C49_full : Prop :=
  ∀ m ∈ tables, ∀ (bs : Bytes) (l : List Ie), Carries m bs l → (∃ d ∈ m.ies, d.opt = false ∧ ∀ ie ∈ l, ie.id ≠ d.id) →
    (decodeIes m bs (Mem.init (α := Unit))).1.1 ≠ 0

/-- C49 is false of the code, for every message: the container without any element is accepted. -/
theorem C49_empty_accepted {α : Type} {m : MsgDef} (hm : m ∈ tables) (μ : Mem α) :
    Carries m [0, 0, 0] [] ∧ (decodeIes m [0, 0, 0] μ).1.1 = 0 := by
  have hc : Carries m [0, 0, 0] [] := carries hm (by
    have := List.all_eq_true.1 empty_container m hm
    simpa using this)
  exact ⟨hc, (C48_accepts_iff hm hc μ).2 (by simp)⟩

theorem C49_violated : ¬ C49_full := by
  intro h
  obtain ⟨h1, h2⟩ := C49_empty_accepted dt_mem (Mem.init (α := Unit))
  exact h _ dt_mem _ _ h1 ⟨_, List.mem_cons_self, rfl, fun ie hi => by cases hi⟩ h2

/-- Not vacuous: almost every message has a mandatory element. -/
example : (tables.filter fun m => m.ies.any fun d => !d.opt).length = 119 ∧ tables.length = 144 := by
  decide +kernel

/-- C49, what does hold: the member of a mandatory element that is missing from an accepted message
is left zeroed; it never has a value that was not received.  (Rejecting such a message is what is
missing.) -/
theorem C49_absent_is_zero_partial {α : Type} {m : MsgDef} (hm : m ∈ tables) {bs : Bytes} {l : List Ie}
    (hc : Carries m bs l) (μ : Mem α) (h : (decodeIes m bs μ).1.1 = 0) {k : Nat} {d : IeDef} (hr : Row m k d)
    (ha : ∀ ie ∈ l, ie.id ≠ d.id) : (decodeIes m bs μ).1.2.vals[k]? = some none := by
  rw [(C47_last_wins hm hc μ h hr).1, lastWith_none.2 ha]

/-- C50: in every message, the presence bits of different optional elements are different and below
16, no two elements have the same id, and the generated tests and assignments with the presence
constant of an element are tests and assignments of exactly its bit. -/
theorem C50_presence_bits {m : MsgDef} (hm : m ∈ tables) :
    (∀ j k d e, Row m j d → Row m k e → d.opt = true → e.opt = true → j ≠ k → bitOf m j ≠ bitOf m k) ∧
    (∀ k d, Row m k d → d.opt = true → bitOf m k < 16) ∧
    (∀ j k d e, Row m j d → Row m k e → j ≠ k → d.id ≠ e.id) ∧
    (∀ k d, Row m k d → d.opt = true → ∀ mask : BitVec 16,
      isPresent mask (bitOf m k) = mask.getLsbD (bitOf m k) ∧
      ∀ i, (setPresent mask (bitOf m k)).getLsbD i = (mask.getLsbD i || decide (i = bitOf m k))) :=
  ⟨fun _ _ _ _ hd he hdo heo hne h => hne (bitOf_inj hd he hdo heo h),
   fun _ _ hr ho => bitOf_lt (good hm) hr ho,
   fun _ _ _ _ hd he hne h => hne (row_unique (good hm) hd he h).1,
   fun _ _ hr ho _ => ⟨isPresent_eq (bitOf_lt (good hm) hr ho),
    setPresent_getLsbD (bitOf_lt (good hm) hr ho)⟩⟩

/-- The four optional elements of a Direct Transfer. -/
example : (List.range 5).map (bitOf Ranap.directTransferIEs) = [0, 0, 1, 2, 3] := by decide +kernel

/-- C50: the case label of the decode function for an element sets the presence bit of that element. -/
theorem C50_decoder_constant {m : MsgDef} (hm : m ∈ tables) {k : Nat} {d : IeDef} (hr : Row m k d) :
    lookup d.id m.ies 0 0 = some (k, bitOf m k, d) := lookup_row (good hm) hr

example : Row Ranap.directTransferIEs 3 Ranap.directTransferIEs.ies[3] := rfl

end Verif.Props
