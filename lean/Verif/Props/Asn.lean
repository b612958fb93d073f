import Verif.Gen.AsnTable
import Verif.Gen.AsnNames
import Verif.Proofs.AsnEq
import Verif.Proofs.Asn
import Verif.Props.Ie

/-!
# C93, C94, C95: coding as in the ASN.1 specifications
-/

namespace Verif.Props
open Verif.Aper Verif.Ie Verif.Ie.Spec Verif.Asn Verif.Gen.AsnTable

/-! ## C93 -/

/-- **C93**, full statement: the C code codes every type of the specifications (messages and lists of items apart, which
have their own form in the code: C94 and C95) as the specification says. -/
def C93_full : Prop := ∀ t ∈ same ++ others, SameCoding t.asn t.c

theorem same_check : same.all (fun t => t.asn.eqb t.c) = true := by decide +kernel

/-- **C93**, the part that holds: all but five types.  Missing: `RedirectionIndication`, the item that contains a list, and
private messages. -/
theorem C93_same_coding_partial {t : NamedTy} (ht : t ∈ same) : SameCoding t.asn t.c := by
  have := Ty.eqb_sound _ _ (List.all_eq_true.1 same_check t ht)
  rw [this]
  exact ⟨fun _ => rfl, fun _ => rfl⟩

theorem elements_check : specElements.all (fun s => s.1.all fun m => s.2.any fun set => set.1 == m.name && m.ies.all fun d =>
    set.2.any fun e => e.1 == d.name && (d.ty.eqb e.2.c && (d.ty.eqb e.2.asn || e.2.asn.eqb (itemList 256) ||
      e.2.asn.eqb (itemList 250) || e.2.name == "RAB-SetupItem-EnhancedRelocCompleteRes"))) = true := by
  decide +kernel

/-- **C93** for the elements of messages: each has the type that the specification gives for it, coded as specified unless
it is a list of items or the one item that contains such a list. -/
theorem C93_elements {s : List MsgDef × List (String × List (String × NamedTy))} (hs : s ∈ specElements) {m : MsgDef}
    (hm : m ∈ s.1) {d : IeDef} (hd : d ∈ m.ies) : ∃ set ∈ s.2, set.1 = m.name ∧ ∃ e ∈ set.2, e.1 = d.name ∧ d.ty = e.2.c ∧
      (SameCoding e.2.asn d.ty ∨ e.2.asn = itemList 256 ∨ e.2.asn = itemList 250 ∨
        e.2.name = "RAB-SetupItem-EnhancedRelocCompleteRes") := by
  have := List.all_eq_true.1 (List.all_eq_true.1 elements_check s hs) m hm
  simp only [List.any_eq_true, Bool.and_eq_true, beq_iff_eq, List.all_eq_true, Bool.or_eq_true] at this
  obtain ⟨set, hset, hn, h⟩ := this
  obtain ⟨e, he, hen, h1, h2⟩ := h d hd
  refine ⟨set, hset, hn, e, he, hen, Ty.eqb_sound _ _ h1, ?_⟩
  rcases h2 with ((h | h) | h) | h
  · refine .inl ?_
    rw [Ty.eqb_sound _ _ h]
    exact ⟨fun _ => rfl, fun _ => rfl⟩
  · exact .inr (.inl (Ty.eqb_sound _ _ h))
  · exact .inr (.inr (.inl (Ty.eqb_sound _ _ h)))
  · exact .inr (.inr (.inr h))

/-- Those are the tables of all messages. -/
example : (specElements.map (·.1)).flatten = tables := by
  simp only [specElements, tables, List.map_cons, List.map_nil, List.flatten_cons, List.flatten_nil, List.append_nil,
    List.append_assoc]

set_option maxRecDepth 100000 in
/-- **C93**, names: what the program calls a component, an alternative or a value is the one with that name in the
specification: all names are the same, and they stand for the same position or number. -/
theorem C93_names : Gen.AsnNames.ranapC = Gen.AsnNames.ranapAsn ∧ Gen.AsnNames.ruaC = Gen.AsnNames.ruaAsn ∧
    Gen.AsnNames.hnbapC = Gen.AsnNames.hnbapAsn ∧ Gen.AsnNames.sabpC = Gen.AsnNames.sabpAsn :=
  ⟨rfl, rfl, rfl, rfl⟩

/-- **C93**, a redirection indication: what a peer sends is not understood (fewer than 256 elements, at most 800 octets),
and of what the library sends the peer sees nothing. -/
theorem C93_redirection {l : List Ie} (hl : l.length < 256) {bs : Bytes} :
    (encode Ranap.RedirectionIndication.asn (.list (l.map fieldVal)) = some bs → bs.length ≤ 800 →
      decode Ranap.RedirectionIndication.c bs = none) ∧
    (encode Ranap.RedirectionIndication.c (container l) = some bs →
      decode Ranap.RedirectionIndication.asn bs = some (.list [])) :=
  ⟨fun h hb => bare_rejected hl h hb, fun h => bare_sent hl h⟩

/-- **C93**, private messages with one element: seen as empty. -/
theorem C93_private {t : NamedTy} (ht : t ∈ [Ranap.PrivateMessage, Rua.PrivateMessage, Hnbap.PrivateMessage]) {v : Val}
    {bs : Bytes} (h : encode t.asn (.seq [some (.list [v])]) = some bs) : decode t.c bs = some (container []) := by
  simp only [List.mem_cons, List.not_mem_nil, or_false] at ht
  rcases ht with rfl | rfl | rfl <;> exact private_read h

/-- **C93.** The full statement is false. -/
theorem C93_violated : ¬ C93_full := by
  intro h
  have := (h Ranap.RedirectionIndication (by unfold others; simp)).2 [0, 0]
  have h1 : decode Ranap.RedirectionIndication.asn [0, 0] = some (.list []) := by with_unfolding_all rfl
  have h2 : decode Ranap.RedirectionIndication.c [0, 0] = none := by with_unfolding_all rfl
  rw [h1, h2] at this
  cases this

/-- How many types there are. -/
example : same.length = 641 ∧ messages.length = 122 ∧ lists.length = 28 ∧ others.length = 5 := by decide +kernel

/-- A redirection indication with a NAS-PDU and a reject cause, as specified. -/
example : encode Ranap.RedirectionIndication.asn (.list ([⟨16, 1, [1, 0xaa]⟩, ⟨131, 1, [0]⟩].map fieldVal)) =
    some [0, 2, 0, 16, 0x40, 2, 1, 0xaa, 0, 131, 0x40, 1, 0] := by with_unfolding_all rfl

/-- How many names there are. -/
example : [Gen.AsnNames.ranapAsn, Gen.AsnNames.ruaAsn, Gen.AsnNames.hnbapAsn, Gen.AsnNames.sabpAsn].map
    (fun t => (t.map (·.2.length)).sum) = [1306, 78, 227, 107] := by decide +kernel

/-- A private message with one element. -/
example : encode Ranap.PrivateMessage.asn (.seq [some (.list [.seq [some (.choice 0 (.int 7)), some (.enum 1), some (.octets [5])]])]) =
    some [0, 0, 0, 0, 0, 7, 0x40, 1, 5] := by with_unfolding_all rfl

/-! ## C94 -/

theorem messages_check : messages.all (fun t => t.asn.eqb message && t.c.eqb Wire.containerTy) = true := by decide +kernel

/-- **C94**: a message of the specification, with any elements and with or without any protocol extensions, is read as the
list of its elements. -/
theorem C94_read {t : NamedTy} (ht : t ∈ messages) {ies : List Ie} {ext : Option (List Ie)} {bs : Bytes}
    (h : encode t.asn (messageVal ies ext) = some bs) : decode t.c bs = some (container ies) := by
  have := List.all_eq_true.1 messages_check t ht
  rw [Bool.and_eq_true] at this
  rw [Ty.eqb_sound _ _ this.2]
  rw [Ty.eqb_sound _ _ this.1] at h
  exact message_read h

/-- **C94**: what the library sends for a list of elements is the message of the specification with these elements and
without extensions, and a peer that decodes as the specification says reads exactly that. -/
theorem C94_sent {t : NamedTy} (ht : t ∈ messages) (ies : List Ie) :
    encode t.c (container ies) = encode t.asn (messageVal ies none) ∧
    ∀ bs, encode t.c (container ies) = some bs → decode t.asn bs = some (messageVal ies none) := by
  have := List.all_eq_true.1 messages_check t ht
  rw [Bool.and_eq_true] at this
  rw [Ty.eqb_sound _ _ this.1, Ty.eqb_sound _ _ this.2]
  refine ⟨message_sent ies, fun bs hb => ?_⟩
  rw [message_sent] at hb
  exact decode_encode (by decide) hb

/-- **C94**: extensions, whatever they are, make no difference: the generated functions give the same result, the same
structure and the same memory operations as for the message without them. -/
theorem C94_ignored {α : Type} {m : MsgDef} (hm : m ∈ tables) {ies ext : List Ie} {bs bs' : Bytes}
    (h : encode message (messageVal ies (some ext)) = some bs) (h' : encode message (messageVal ies none) = some bs')
    (μ : Mem α) : decodeIes m bs μ = decodeIes m bs' μ := by
  have ht := Wire.isPlain_sound (List.all_eq_true.1 Wire.tables_plain m hm)
  unfold decodeIes
  rw [ht, message_read h, message_read h']

/-- A Direct Transfer with a NAS-PDU and, as an extension, a redirection indication (id 129): octets and what is read. -/
example : encode Ranap.DirectTransfer.asn (messageVal [ieNas1] (some [⟨129, 1, [0, 0]⟩])) =
      some [0x40, 0, 1, 0, 16, 0x40, 2, 1, 0xaa, 0, 0, 0, 129, 0x40, 2, 0, 0] ∧
    decode Ranap.DirectTransfer.c [0x40, 0, 1, 0, 16, 0x40, 2, 1, 0xaa, 0, 0, 0, 129, 0x40, 2, 0, 0] = some (container [ieNas1]) ∧
    encode Ranap.DirectTransfer.asn (messageVal [ieNas1] none) = some [0, 0, 1, 0, 16, 0x40, 2, 1, 0xaa] := by
  refine ⟨?_, ?_, ?_⟩ <;> with_unfolding_all rfl

/-! ## C95 -/

theorem lists_check : lists.all (fun t => (t.asn.eqb (itemList 256) || t.asn.eqb (itemList 250)) && t.c.eqb Wire.containerTy) = true := by
  decide +kernel

theorem lists_cases {t : NamedTy} (ht : t ∈ lists) :
    t.c = Wire.containerTy ∧ ∃ max, (max = 256 ∨ max = 250) ∧ t.asn = itemList max := by
  have := List.all_eq_true.1 lists_check t ht
  rw [Bool.and_eq_true, Bool.or_eq_true] at this
  refine ⟨Ty.eqb_sound _ _ this.2, ?_⟩
  rcases this.1 with h | h
  · exact ⟨256, .inl rfl, Ty.eqb_sound _ _ h⟩
  · exact ⟨250, .inr rfl, Ty.eqb_sound _ _ h⟩

/-- **C95**, full statement: of a list of items, all are seen. -/
def C95_full : Prop := ∀ t ∈ lists, ∀ (items : List (List Ie)) bs, encode t.asn (listVal items) = some bs →
  decode t.c bs = some (container items.flatten)

/-- **C95**, the part that holds: of a list of the specification (of up to 128 items) exactly the first item is seen,
and never anything but the first.  Missing: the others. -/
theorem C95_first_partial {t : NamedTy} (ht : t ∈ lists) {l : List Ie} {ls : List (List Ie)} {bs : Bytes}
    (h : encode t.asn (listVal (l :: ls)) = some bs) :
    (ls.length < 128 → decode t.c bs = some (container l)) ∧ ∀ w, decode t.c bs = some w → w = container l := by
  obtain ⟨hc, max, hm, ha⟩ := lists_cases ht
  rw [hc]
  rw [ha] at h
  exact list_read hm h

/-- **C95**, lists of one item: the library and the specification agree, both ways. -/
theorem C95_one {t : NamedTy} (ht : t ∈ lists) (l : List Ie) :
    encode t.c (container l) = encode t.asn (listVal [l]) ∧
    (∀ bs, encode t.asn (listVal [l]) = some bs → decode t.c bs = some (container l)) ∧
    ∀ bs, encode t.c (container l) = some bs → decode t.asn bs = some (listVal [l]) := by
  obtain ⟨hc, max, hm, ha⟩ := lists_cases ht
  rw [hc, ha]
  refine ⟨(list_one hm l).symm, fun bs h => (list_read hm h).1 (by simp), fun bs h => ?_⟩
  rw [← list_one hm] at h
  refine decode_encode ?_ h
  rcases hm with rfl | rfl <;> decide

/-- **C95** is violated by every list of two or more items: whatever is beyond the first is never seen. -/
theorem C95_lost {t : NamedTy} (ht : t ∈ lists) {l : List Ie} {ls : List (List Ie)} (hl : ls.flatten ≠ []) {bs : Bytes}
    (h : encode t.asn (listVal (l :: ls)) = some bs) : decode t.c bs ≠ some (container (l :: ls).flatten) := by
  intro hd
  have := (C95_first_partial ht h).2 _ hd
  unfold container at this
  simp only [List.flatten_cons, List.map_append, Val.seq.injEq, List.cons.injEq, Option.some.injEq, Val.list.injEq,
    and_true] at this
  have hlen := congrArg List.length this
  simp only [List.length_append, List.length_map] at hlen
  have : ls.flatten.length ≠ 0 := fun h0 => hl (List.length_eq_zero_iff.1 h0)
  omega

/-- **C95** in a message: the member for a list holds the first item of the list that was received last, and the generated
functions report success. -/
theorem C95_in_message {α : Type} {m : MsgDef} (hm : m ∈ tables) {bs : Bytes} {l : List Ie} (hc : Carries m bs l) (μ : Mem α)
    (h : (decodeIes m bs μ).1.1 = 0) {k : Nat} {d : IeDef} (hr : Row m k d) {t : NamedTy} (ht : t ∈ lists) (hd : d.ty = t.c)
    {ie : Ie} (hi : lastWith d.id l = some ie) {first : List Ie} {rest : List (List Ie)} (hl : rest.length < 128)
    (hv : encode t.asn (listVal (first :: rest)) = some ie.value) :
    (decodeIes m bs μ).1.2.vals[k]? = some (some (container first)) := by
  rw [(C47_last_wins hm hc μ h hr).1, hi]
  dsimp only
  rw [hd, (C95_first_partial ht hv).1 hl]

/-- A Reset Resource for two Iu signalling connections meets the hypotheses of `C95_in_message`. -/
example : ∃ bs l, Carries Gen.Ranap.resetResourceIEs bs l ∧
    (decodeIes Gen.Ranap.resetResourceIEs bs (Mem.init (α := Unit))).1.1 = 0 ∧
    Row Gen.Ranap.resetResourceIEs 2 Gen.Ranap.resetResourceIEs.ies[2] ∧ ∃ ie, lastWith 77 l = some ie ∧
    encode Ranap.ResetResourceList.asn (listVal [[⟨78, 0, [0, 0, 0, 1]⟩], [⟨78, 0, [0, 0, 0, 2]⟩]]) = some ie.value := by
  refine ⟨[0, 0, 3, 0, 3, 0, 1, 0, 0, 4, 0x40, 2, 0x10, 0x00,
    0, 77, 0x40, 21, 1, 0, 1, 0, 78, 0, 4, 0, 0, 0, 1, 0, 1, 0, 78, 0, 4, 0, 0, 0, 2],
    [⟨3, 0, [0]⟩, ⟨4, 1, [0x10, 0]⟩, ⟨77, 1, [1, 0, 1, 0, 78, 0, 4, 0, 0, 0, 1, 0, 1, 0, 78, 0, 4, 0, 0, 0, 2]⟩],
    carries (by unfold tables Gen.Ranap.all; simp) (by decide +kernel), by decide +kernel, rfl, _, rfl, ?_⟩
  with_unfolding_all rfl

/-- **C95.** The full statement is false: two Iu signalling connections in a Reset Resource. -/
theorem C95_violated : ¬ C95_full := by
  intro h
  have h1 : encode Ranap.ResetResourceList.asn (listVal [[⟨78, 0, [0, 0, 0, 1]⟩], [⟨78, 0, [0, 0, 0, 2]⟩]]) =
      some [1, 0, 1, 0, 78, 0, 4, 0, 0, 0, 1, 0, 1, 0, 78, 0, 4, 0, 0, 0, 2] := by with_unfolding_all rfl
  exact C95_lost (t := Ranap.ResetResourceList) (by unfold lists; simp) (by simp) h1
    (h Ranap.ResetResourceList (by unfold lists; simp) _ _ h1)

end Verif.Props
