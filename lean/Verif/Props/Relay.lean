import Verif.Props.Generate

/-!
# Passing a message on (C112)

An HNB gateway decodes a message, looks at it (or exchanges an address in it), and generates it again for the other
side.  `copyOf` is what comes out if nothing is exchanged: the decode function of the message, its encode function, the
generate function.
-/

namespace Verif.Props
open Verif.Aper Verif.Ie Verif.Ie.Spec Verif.Wire Verif.Generate
open Verif.Aper.Spec (fits)

/-- What a gateway sends on for a message that it has received with this kind, procedure code, criticality and value:
`*_decode_*ies`, `*_encode_*ies`, `*_generate_*`.  `none` is NULL. -/
def copyOf (p : Proto) (d code crit : Nat) (m : MsgDef) (value : Bytes) : Option Bytes :=
  match encodeIes m (decodeIes m value (Mem.init (α := Unit))).1.2 with
  | none => none
  | some l => generate p d code crit m.ty (container l)

/-- The structure that the decode function fills. -/
abbrev read (m : MsgDef) (value : Bytes) : Struct := (decodeIes m value (Mem.init (α := Unit))).1.2

/-- The value is accepted by the decode function of the message; its elements are `l`. -/
structure Accepted (m : MsgDef) (value : Bytes) (l : List Ie) : Prop where
  carries : Carries m value l
  valid : ∀ ie ∈ l, Valid m ie

/-- No mandatory element is missing. -/
def NothingMissing (m : MsgDef) (l : List Ie) : Prop := ∀ d ∈ m.ies, d.opt = false → ∃ ie ∈ l, ie.id = d.id

/-- The values of all elements are within the bounds of their types (aligned PER can carry others: a number of
0..3600 has 16 bits). -/
def WithinBounds (m : MsgDef) (l : List Ie) : Prop :=
  ∀ d ∈ m.ies, ∀ ie v, lastWith d.id l = some ie → decode d.ty ie.value = some v → fits d.ty v = true

/-- These octets are a message of this kind, procedure code and criticality, and its contents are accepted and read
as the structure `s`. -/
def ReadAs (p : Proto) (d code crit : Nat) (m : MsgDef) (bs : Bytes) (s : Struct) : Prop :=
  ∃ value l, decode p.pdu bs = some (.choice (d - 1) (.seq [some (.int code), some (.enum crit), some (.octets value)])) ∧
    Accepted m value l ∧ SameMsg (read m value) s

/-- **C112, full statement**: whatever is accepted can be passed on, and is read by the next receiver as it was read
here. -/
def C112_full : Prop :=
  ∀ (p : Proto) (d code crit : Nat) (m : MsgDef) (value : Bytes) (l : List Ie),
    HasDirection p d → code < 256 → crit < 3 → m ∈ tables → Accepted m value l →
    ∃ bs, copyOf p d code crit m value = some bs ∧ ReadAs p d code crit m bs (read m value)

/-! ## Encoding depends on the message only -/

theorem encodeRows_congr {ds : List IeDef} {sh : Nat} {mask mask' : BitVec 16} {fs fs' : List (Option Slot)}
    (hb : sh + (ds.filter (·.opt)).length ≤ 16) (hl : fs.length = ds.length) (hl' : fs'.length = ds.length)
    (h : ∀ k d f f', ds[k]? = some d → fs[k]? = some f → fs'[k]? = some f' →
      (d.opt = true → mask.getLsbD (sh + ((ds.take k).filter (·.opt)).length) =
        mask'.getLsbD (sh + ((ds.take k).filter (·.opt)).length)) ∧
      ((d.opt = false ∨ mask.getLsbD (sh + ((ds.take k).filter (·.opt)).length) = true) →
        Factory.slotVal d f = Factory.slotVal d f')) :
    encodeRows ds sh mask fs = encodeRows ds sh mask' fs' := by
  induction ds generalizing sh fs fs' with
  | nil => rfl
  | cons d ds ih =>
    cases fs with
    | nil => simp at hl
    | cons f fs =>
      cases fs' with
      | nil => simp at hl'
      | cons f' fs' =>
        have h0 := h 0 d f f' rfl rfl rfl
        simp only [List.take_zero, List.filter_nil, List.length_nil, Nat.add_zero] at h0
        have hbit : ∀ k : BitVec 16, d.opt = true → isPresent k sh = k.getLsbD sh := fun k ho => by
          apply isPresent_eq
          rw [List.filter_cons, if_pos ho, List.length_cons] at hb
          omega
        have hlen : ∀ j, sh + (((d :: ds).take (j + 1)).filter (·.opt)).length =
            (if d.opt then sh + 1 else sh) + ((ds.take j).filter (·.opt)).length := by
          intro j
          rw [List.take_succ_cons, List.filter_cons]
          cases d.opt <;> simp; omega
        have hb' : (if d.opt then sh + 1 else sh) + (ds.filter (·.opt)).length ≤ 16 := by
          rw [List.filter_cons] at hb
          cases ho : d.opt <;> rw [ho] at hb <;> simp at hb ⊢ <;> omega
        have ih' := ih (sh := if d.opt then sh + 1 else sh) (fs := fs) (fs' := fs') hb' (by simpa using hl)
          (by simpa using hl') fun k e g g' hk hg hg' => by
            have := h (k + 1) e g g' (by simpa using hk) (by simpa using hg) (by simpa using hg')
            rw [hlen] at this
            exact this
        rw [encodeRows, encodeRows]
        cases ho : d.opt with
        | false =>
          simp only [ho, Bool.false_eq_true, if_false] at ih'
          simp only [Bool.false_and, Bool.false_eq_true, if_false]
          rw [Factory.newIe_slotVal, Factory.newIe_slotVal, h0.2 (Or.inl ho), ih']
        | true =>
          simp only [ho, if_true] at ih'
          rw [hbit mask ho, hbit mask' ho, ← h0.1 ho]
          cases hm : mask.getLsbD sh with
          | false => simp only [Bool.not_false, Bool.and_self, if_true]; exact ih'
          | true =>
            simp only [Bool.not_true, Bool.and_false, Bool.false_eq_true, if_false, if_true]
            rw [Factory.newIe_slotVal, Factory.newIe_slotVal, h0.2 (Or.inr hm), ih']

theorem encodeIes_congr {m : MsgDef} (hm : m ∈ tables) {s s' : Struct} (hl : s.fields.length = m.ies.length)
    (hl' : s'.fields.length = m.ies.length) (hbit : ∀ k d, Row m k d → d.opt = true → bit m s k = bit m s' k)
    (hval : ∀ k d, Row m k d → Included m s k d → valueOf s k d = valueOf s' k d) : encodeIes m s = encodeIes m s' := by
  unfold encodeIes
  have hv : ∀ (s : Struct) k d f, s.fields[k]? = some f → valueOf s k d = Factory.slotVal d f := by
    intro s k d f hf
    unfold valueOf Struct.vals
    rw [List.getElem?_map, hf]
    cases f <;> rfl
  refine encodeRows_congr (by simpa using (good hm).bits) hl hl' fun k d f f' hd hf hf' => ⟨fun ho => ?_, fun hi => ?_⟩
  · simpa [bit, bitOf] using hbit k d hd ho
  · rw [← hv s k d f hf, ← hv s' k d f' hf']
    exact hval k d hd (by simpa [Included, bit, bitOf] using hi)

/-! ## Reading and encoding -/

theorem accepted_rc {m : MsgDef} (hm : m ∈ tables) {value : Bytes} {l : List Ie} (h : Accepted m value l) :
    (decodeIes m value (Mem.init (α := Unit))).1.1 = 0 := (decodeIes_spec (good hm) h.carries _).ok_iff.2 h.valid

theorem accepted_included {m : MsgDef} (hm : m ∈ tables) {value : Bytes} {l : List Ie} (h : Accepted m value l)
    {k : Nat} {d : IeDef} (hr : Row m k d) : Included m (read m value) k d ↔ d.opt = false ∨ ∃ ie ∈ l, ie.id = d.id := by
  have ds := decodeIes_spec (good hm) h.carries (Mem.init (α := Unit))
  unfold Included
  cases ho : d.opt with
  | false => simp
  | true => simp only [Bool.true_eq_false, false_or]; exact ds.bit (accepted_rc hm h) k d hr ho

theorem accepted_value {m : MsgDef} (hm : m ∈ tables) {value : Bytes} {l : List Ie} (h : Accepted m value l)
    {k : Nat} {d : IeDef} (hr : Row m k d) : valueOf (read m value) k d =
      match lastWith d.id l with
      | some ie => decode d.ty ie.value
      | none => zeroVal d.ty := by
  have e := (C47_last_wins hm h.carries (Mem.init (α := Unit)) (accepted_rc hm h) hr).1
  unfold valueOf
  rw [e]
  cases hl : lastWith d.id l with
  | none => rfl
  | some ie =>
    simp only
    obtain ⟨h1, h2⟩ := lastWith_some hl
    obtain ⟨d', hd', e1, e2⟩ := h.valid ie h1
    obtain ⟨j, hj⟩ := List.getElem?_of_mem hd'
    have := (row_unique (good hm) (show Row m j d' from hj) hr (e1.trans h2)).2
    subst this
    obtain ⟨v, hv⟩ := Option.isSome_iff_exists.1 e2
    rw [hv]

theorem container_exists {m : MsgDef} (hm : m ∈ tables) {s : Struct} {l : List Ie} (h : encodeIes m s = some l) :
    ∃ bs, encode m.ty (container l) = some bs ∧ encodeMsg m s = some bs := by
  obtain ⟨e1, -, e3⟩ := C79_elements hm h
  have hn : l.length < 65536 := by
    have := e3.length_le
    simp only [List.length_map] at this
    have h2 := of_decide_eq_true (List.all_eq_true.1 Factory.tables_short m hm)
    omega
  obtain ⟨bs, hb, -⟩ := encode_container_room hm hn fun ie hie => by
    obtain ⟨k, d, v, hr, -, h1, h2, -⟩ := e1 ie hie
    have := Factory.row_facts hm (List.mem_of_getElem? hr)
    rw [h1, h2]
    exact ⟨this.2.2.1, this.2.2.2⟩
  refine ⟨bs, hb, ?_⟩
  unfold encodeMsg
  rw [h]
  exact hb

theorem table_ty_sane {m : MsgDef} (hm : m ∈ tables) : m.ty.sane = true := by
  rw [isPlain_sound (List.all_eq_true.1 tables_plain m hm)]
  exact containerTy_sane

/-- The copy, given that the structure is encoded. -/
theorem copyOf_eq (p : Proto) {d : Nat} (hd : HasDirection p d) {code crit : Nat} (hc : code < 256) (hk : crit < 3)
    {m : MsgDef} (hm : m ∈ tables) {value : Bytes} {l : List Ie} (h : encodeIes m (read m value) = some l) :
    ∃ value', encodeMsg m (read m value) = some value' ∧
      copyOf p d code crit m value = some (if (pduOctets d code crit value').length ≤ 1024 then
        pduOctets d code crit value' else []) := by
  obtain ⟨bs, hb, he⟩ := container_exists hm h
  refine ⟨bs, he, ?_⟩
  have hi := encode_isSome (table_ty_sane hm) (container l)
  rw [hb] at hi
  obtain ⟨value', h1, h2⟩ := (C80_generate p hd code crit (table_ty_sane hm) (container l)).2 hi.symm
  rw [hb] at h1
  cases h1
  unfold copyOf
  rw [h]
  simp only
  rw [h2]
  simp [hc, hk]

/-- **C112.** When there is a copy: exactly if all values received are within their bounds and for every mandatory
element that is missing, zeroed memory is a value of its type. -/
theorem C112_copied_iff (p : Proto) {d : Nat} (hd : HasDirection p d) {code crit : Nat} (hc : code < 256) (hk : crit < 3)
    {m : MsgDef} (hm : m ∈ tables) {value : Bytes} {l : List Ie} (h : Accepted m value l) :
    copyOf p d code crit m value ≠ none ↔ WithinBounds m l ∧
      ∀ r ∈ m.ies, r.opt = false → (∀ ie ∈ l, ie.id ≠ r.id) → ∃ v, zeroVal r.ty = some v ∧ fits r.ty v = true := by
  have hlen := (decodeIes_spec (good hm) h.carries (Mem.init (α := Unit))).len
  have hiff := C79_encodes_iff hm hlen
  have hcopy : copyOf p d code crit m value ≠ none ↔ (encodeIes m (read m value)).isSome = true := by
    constructor
    · intro hne
      cases he : encodeIes m (read m value) with
      | some l' => rfl
      | none => refine absurd ?_ hne; unfold copyOf; rw [he]
    · intro hs
      obtain ⟨l', hl'⟩ := Option.isSome_iff_exists.1 hs
      obtain ⟨v', -, e⟩ := copyOf_eq p hd hc hk hm hl'
      rw [e]
      exact Option.some_ne_none _
  rw [hcopy, hiff]
  constructor
  · intro hall
    constructor
    · intro r hr ie v hl hv
      obtain ⟨k, hk'⟩ := List.getElem?_of_mem hr
      obtain ⟨h1, h2⟩ := lastWith_some hl
      obtain ⟨w, hw, hf⟩ := hall k r hk' ((accepted_included hm h hk').2 (Or.inr ⟨ie, h1, h2⟩))
      rw [accepted_value hm h hk', hl] at hw
      simp only at hw
      rw [hv] at hw
      cases hw
      exact hf
    · intro r hr ho hmiss
      obtain ⟨k, hk'⟩ := List.getElem?_of_mem hr
      obtain ⟨w, hw, hf⟩ := hall k r hk' (Or.inl ho)
      rw [accepted_value hm h hk', lastWith_none.2 hmiss] at hw
      exact ⟨w, hw, hf⟩
  · rintro ⟨hin, hmiss⟩ k r hr hi
    rw [accepted_value hm h hr]
    cases hl : lastWith r.id l with
    | some ie =>
      obtain ⟨h1, h2⟩ := lastWith_some hl
      obtain ⟨d', hd', e1, e2⟩ := h.valid ie h1
      obtain ⟨j, hj⟩ := List.getElem?_of_mem hd'
      have := (row_unique (good hm) (show Row m j d' from hj) hr (e1.trans h2)).2
      subst this
      obtain ⟨v, hv⟩ := Option.isSome_iff_exists.1 e2
      exact ⟨v, hv, hin d' hd' ie v hl hv⟩
    | none =>
      have hn := lastWith_none.1 hl
      rcases (accepted_included hm h hr).1 hi with ho | ⟨ie, hie, hid⟩
      · exact hmiss r (List.mem_of_getElem? hr) ho hn
      · exact absurd hid (hn ie hie)

theorem roundTrip_same {m : MsgDef} (hm : m ∈ tables) {s : Struct} {value : Bytes} (hl : s.fields.length = m.ies.length)
    (hrest : NoOtherBits m s) (h : encodeMsg m s = some value)
    (hfull : ∀ k d, Row m k d → (Included m s k d → ∃ v, s.vals[k]? = some (some v)) ∧
      (¬ Included m s k d → s.vals[k]? = some none)) : SameMsg (read m value) s := by
  obtain ⟨-, r1, r2, -⟩ := C46_round_trip hm h (Mem.init (α := Unit))
  refine ⟨C46_mask hm h hrest _, List.ext_getElem? fun k => ?_⟩
  cases hk : m.ies[k]? with
  | none =>
    have e : m.ies.length ≤ k := List.getElem?_eq_none_iff.1 hk
    have h1 : (read m value).vals.length = m.ies.length := by
      obtain ⟨l, hl'⟩ : ∃ l, Carries m value l := by
        unfold encodeMsg at h
        cases he : encodeIes m s with
        | none => rw [he] at h; cases h
        | some l => rw [he] at h; exact ⟨l, carries_encode (good hm) h⟩
      simpa [Struct.vals] using (decodeIes_spec (good hm) hl' (Mem.init (α := Unit))).len
    rw [List.getElem?_eq_none (by omega), List.getElem?_eq_none (by simp [Struct.vals, hl]; omega)]
  | some d =>
    by_cases hi : Included m s k d
    · obtain ⟨v, hv, e⟩ := r1 k d hk hi
      obtain ⟨w, hw⟩ := (hfull k d hk).1 hi
      unfold valueOf at hv
      rw [hw] at hv
      cases hv
      exact e.trans hw.symm
    · exact (r2 k d hk hi).trans ((hfull k d hk).2 hi).symm

/-- **C112, the part that holds**: a message that is accepted, with no mandatory element missing and all values within
their bounds, is passed on, and the next receiver reads the same message; what is missing is in `C112_violated`.  For all
messages of the four protocols.  (Generate functions return an empty message if there are more than 1024 octets.) -/
theorem C112_same_message_partial (p : Proto) {d : Nat} (hd : HasDirection p d) {code crit : Nat} (hc : code < 256)
    (hk : crit < 3) {m : MsgDef} (hm : m ∈ tables) {value : Bytes} {l : List Ie} (h : Accepted m value l)
    (hn : NothingMissing m l) (hb : WithinBounds m l) :
    ∃ value' l', copyOf p d code crit m value = some (if (pduOctets d code crit value').length ≤ 1024 then
        pduOctets d code crit value' else []) ∧
      Accepted m value' l' ∧ SameMsg (read m value') (read m value) ∧
      ((pduOctets d code crit value').length ≤ 1024 →
        ReadAs p d code crit m (pduOctets d code crit value') (read m value)) := by
  have hne := (C112_copied_iff p hd hc hk hm h).2 ⟨hb, fun r hr ho hmiss => by
    obtain ⟨ie, hie, hid⟩ := hn r hr ho
    exact absurd hid (hmiss ie hie)⟩
  cases he : encodeIes m (read m value) with
  | none => refine absurd ?_ hne; unfold copyOf; rw [he]
  | some le =>
    obtain ⟨value', hv', hcopy⟩ := copyOf_eq p hd hc hk hm he
    have hspec := decodeIes_spec (good hm) h.carries (Mem.init (α := Unit))
    have hsame : SameMsg (read m value') (read m value) := by
      refine roundTrip_same hm hspec.len (hspec.rest (accepted_rc hm h)) hv' fun k r hr => ?_
      have e := (C47_last_wins hm h.carries (Mem.init (α := Unit)) (accepted_rc hm h) hr).1
      constructor
      · intro hi
        have hmem : ∃ ie ∈ l, ie.id = r.id := by
          rcases (accepted_included hm h hr).1 hi with ho | hx
          · exact hn r (List.mem_of_getElem? hr) ho
          · exact hx
        cases hl : lastWith r.id l with
        | none =>
          obtain ⟨ie, hie, hid⟩ := hmem
          exact absurd hid (lastWith_none.1 hl ie hie)
        | some ie =>
          obtain ⟨h1, h2⟩ := lastWith_some hl
          obtain ⟨d', hd', e1, e2⟩ := h.valid ie h1
          obtain ⟨j, hj⟩ := List.getElem?_of_mem hd'
          have := (row_unique (good hm) (show Row m j d' from hj) hr (e1.trans h2)).2
          subst this
          obtain ⟨v, hv⟩ := Option.isSome_iff_exists.1 e2
          rw [hl] at e
          simp only [hv] at e
          exact ⟨v, e⟩
      · intro hi
        have hno : ∀ ie ∈ l, ie.id ≠ r.id := fun ie hie hid => hi ((accepted_included hm h hr).2 (Or.inr ⟨ie, hie, hid⟩))
        rw [lastWith_none.2 hno] at e
        exact e
    obtain ⟨bs, hb1, hb2⟩ := container_exists hm he
    rw [hv'] at hb2
    cases hb2
    have hcar : Carries m value' le := carries_encode (good hm) hb1
    have hacc : Accepted m value' le := by
      refine ⟨hcar, (decodeIes_spec (good hm) hcar (Mem.init (α := Unit))).ok_iff.1 ?_⟩
      exact (C46_round_trip hm hv' (Mem.init (α := Unit))).1
    refine ⟨value', le, hcopy, hacc, hsame, fun hlen => ⟨value', le, ?_, hacc, hsame⟩⟩
    have hl' : value'.length < 16384 := by
      have := Factory.pduOctets_length d code crit value'
      omega
    obtain ⟨out, ho, h1, -⟩ := (pdu_encode p hd (value := value')).1 ⟨hc, hk⟩
    rw [h1 hl'] at ho
    exact decode_encode (pdu_ok p) ho

/-- **C112.** A mandatory element that is missing is not missing in the copy: whoever gets the copy reads the value of
zeroed memory, which nobody has sent. -/
theorem C112_invented (p : Proto) {d : Nat} (hd : HasDirection p d) {code crit : Nat} (hc : code < 256)
    (hk : crit < 3) {m : MsgDef} (hm : m ∈ tables) {value : Bytes} {l : List Ie} (h : Accepted m value l)
    (hcopy : copyOf p d code crit m value ≠ none) {k : Nat} {r : IeDef} (hr : Row m k r) (ho : r.opt = false)
    (hmiss : ∀ ie ∈ l, ie.id ≠ r.id) :
    ∃ value' v, copyOf p d code crit m value = some (if (pduOctets d code crit value').length ≤ 1024 then
        pduOctets d code crit value' else []) ∧
      (read m value).vals[k]? = some none ∧ zeroVal r.ty = some v ∧ (read m value').vals[k]? = some (some v) := by
  cases he : encodeIes m (read m value) with
  | none => refine absurd ?_ hcopy; unfold copyOf; rw [he]
  | some le =>
    obtain ⟨value', hv', hcopy⟩ := copyOf_eq p hd hc hk hm he
    obtain ⟨-, r1, -, -⟩ := C46_round_trip hm hv' (Mem.init (α := Unit))
    obtain ⟨v, hv, e⟩ := r1 k r hr (Or.inl ho)
    rw [accepted_value hm h hr, lastWith_none.2 hmiss] at hv
    refine ⟨value', v, hcopy, ?_, hv, e⟩
    exact C49_absent_is_zero_partial hm h.carries _ (accepted_rc hm h) hr hmiss

/-- **C112.** Passing a message on a second time changes nothing any more: the copy of a copy has the same octets.
(`value'` are the contents of the copy.) -/
theorem C112_copy_of_copy (p : Proto) {d : Nat} {code crit : Nat} {m : MsgDef} (hm : m ∈ tables) {value : Bytes}
    {l : List Ie} (h : Accepted m value l) {bs : Bytes} (hcopy : copyOf p d code crit m value = some bs) (hbs : bs ≠ []) :
    ∃ value', decode p.pdu bs = some (.choice (d - 1) (.seq [some (.int code), some (.enum crit), some (.octets value')])) ∧
      copyOf p d code crit m value' = some bs := by
  cases he : encodeIes m (read m value) with
  | none => unfold copyOf at hcopy; rw [he] at hcopy; cases hcopy
  | some le =>
    have hg : generate p d code crit m.ty (container le) = some bs := by
      unfold copyOf at hcopy
      rw [he] at hcopy
      exact hcopy
    obtain ⟨value', h1, h2⟩ := C80_decodes_partial p (good_ok (good hm)) hg hbs
    obtain ⟨w, hw1, hw2⟩ := container_exists hm he
    have hlenS := (decodeIes_spec (good hm) h.carries (Mem.init (α := Unit))).len
    have hcar : Carries m value' le := h2
    have hspec' := decodeIes_spec (good hm) hcar (Mem.init (α := Unit))
    have hcar2 : Carries m w le := carries_encode (good hm) hw1
    have hrc : (decodeIes m value' (Mem.init (α := Unit))).1.1 = 0 := by
      refine hspec'.ok_iff.2 ((decodeIes_spec (good hm) hcar2 (Mem.init (α := Unit))).ok_iff.1 ?_)
      exact (C46_round_trip hm hw2 (Mem.init (α := Unit))).1
    have hsame : SameMsg (read m value') (read m w) :=
      sameMsg_of_last (good hm) hcar hcar2 _ _ hrc (C46_round_trip hm hw2 (Mem.init (α := Unit))).1 fun _ => rfl
    obtain ⟨-, r1, r2, r3⟩ := C46_round_trip hm hw2 (Mem.init (α := Unit))
    refine ⟨value', h1, ?_⟩
    have hcong : encodeIes m (read m value) = encodeIes m (read m value') := by
      refine encodeIes_congr hm hlenS hspec'.len (fun k r hr ho => ?_) fun k r hr hi => ?_
      · unfold bit
        rw [hsame.1]
        exact (r3 k r hr ho).symm
      · obtain ⟨v, hv, e⟩ := r1 k r hr hi
        rw [hv]
        unfold valueOf
        rw [hsame.2, e]
    unfold copyOf
    rw [← hcong, he]
    exact hg

/-! ## Examples -/

/-- A Direct Transfer of the test suite is passed on with the same octets. -/
example : copyOf .ranap 1 20 1 Gen.Ranap.directTransferIEs dtBytes = some ([0x00, 0x14, 0x40, 0x10] ++ dtBytes) := by
  decide +kernel

theorem dt_accepted : Accepted Gen.Ranap.directTransferIEs dtBytes [⟨16, 1, [0x03, 0xaa, 0xbb, 0xcc]⟩, ⟨59, 1, [0x00]⟩] := by
  have hc : Carries Gen.Ranap.directTransferIEs dtBytes [⟨16, 1, [0x03, 0xaa, 0xbb, 0xcc]⟩, ⟨59, 1, [0x00]⟩] :=
    carries_encode (good dt_mem) (by decide +kernel)
  refine ⟨hc, (decodeIes_spec (good dt_mem) hc (Mem.init (α := Unit))).ok_iff.1 ?_⟩
  decide +kernel

/-- It meets the hypotheses of `C112_same_message_partial`. -/
example : NothingMissing Gen.Ranap.directTransferIEs [⟨16, 1, [0x03, 0xaa, 0xbb, 0xcc]⟩, ⟨59, 1, [0x00]⟩] ∧
    WithinBounds Gen.Ranap.directTransferIEs [⟨16, 1, [0x03, 0xaa, 0xbb, 0xcc]⟩, ⟨59, 1, [0x00]⟩] := by
  refine ⟨?_, ((C112_copied_iff .ranap (d := 1) (code := 20) (crit := 1) (by decide) (by decide) (by decide) dt_mem
    dt_accepted).1 (by rw [show copyOf .ranap 1 20 1 Gen.Ranap.directTransferIEs dtBytes =
      some ([0x00, 0x14, 0x40, 0x10] ++ dtBytes) by decide +kernel]; exact Option.some_ne_none _)).1⟩
  intro d hd ho
  have h : Gen.Ranap.directTransferIEs.ies.all (fun d => d.opt || d.id == 16) = true := by decide +kernel
  have := List.all_eq_true.1 h d hd
  rw [ho] at this
  exact ⟨_, List.mem_cons_self, by simpa using (eq_of_beq (by simpa using this) : d.id = 16).symm⟩

/-- A Direct Transfer without its NAS-PDU becomes one with an empty NAS-PDU. -/
theorem dt_without_nas : copyOf .ranap 1 20 1 Gen.Ranap.directTransferIEs [0x00, 0x00, 0x00] =
    some [0x00, 0x14, 0x40, 0x08, 0x00, 0x00, 0x01, 0x00, 0x10, 0x40, 0x01, 0x00] := by decide +kernel

theorem reject_mem : Gen.Hnbap.hNBRegisterRejectIEs ∈ tables := by
  unfold tables
  simp only [List.mem_append]
  refine Or.inl (Or.inr ?_)
  unfold Gen.Hnbap.all
  repeat (first | exact List.mem_cons_self | apply List.mem_cons_of_mem)

/-- HNB Register Reject with a back-off timer of 4095 seconds, of at most 3600. -/
def rejectElements : List Ie := [⟨1, 1, [0x0a]⟩, ⟨16, 0, [0x0f, 0xff]⟩]

def rejectValue : Bytes := [0x00, 0x00, 0x02, 0x00, 0x01, 0x40, 0x01, 0x0a, 0x00, 0x10, 0x00, 0x02, 0x0f, 0xff]

theorem reject_accepted : Accepted Gen.Hnbap.hNBRegisterRejectIEs rejectValue rejectElements := by
  have hc : Carries Gen.Hnbap.hNBRegisterRejectIEs rejectValue rejectElements :=
    carries_encode (good reject_mem) (by decide +kernel)
  refine ⟨hc, (decodeIes_spec (good reject_mem) hc (Mem.init (α := Unit))).ok_iff.1 ?_⟩
  decide +kernel

theorem reject_not_copied : copyOf .hnbap 3 1 0 Gen.Hnbap.hNBRegisterRejectIEs rejectValue = none := by decide +kernel

/-- **C112 does not hold**: the back-off timer above its bound makes the encode function fail (another reason is
in `dt_without_nas`, a third is the limit of 1024 octets, as in `C80_empty`). -/
theorem C112_violated : ¬ C112_full := by
  intro h
  obtain ⟨bs, h1, -⟩ := h .hnbap 3 1 0 _ _ _ (by decide) (by decide) (by decide) reject_mem reject_accepted
  rw [reject_not_copied] at h1
  cases h1

end Verif.Props
