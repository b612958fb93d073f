import Verif.Gen.AsnIes
import Verif.Props.Ie

/-!
# C64: the generated functions know the elements of the specification
-/

namespace Verif.Props
open Verif.Ie Verif.Ie.Spec Verif.Gen

/-- The four specifications and the tables the code is generated from. -/
def specs : List (List AsnSet × List MsgDef) :=
  [(Asn.ranap, Ranap.all), (Asn.rua, Rua.all), (Asn.hnbap, Hnbap.all), (Asn.sabp, Sabp.all)]

/-- The generated structure of the message has a member for the element, with the specified id, criticality and
presence. -/
def Known (tabs : List MsgDef) (set : AsnSet) (e : AsnIe) : Prop :=
  ∃ m ∈ tabs, m.name = set.name ∧ ∃ d ∈ m.ies, d.name = e.name ∧ d.id = e.id ∧ d.crit = e.crit ∧ d.opt = e.opt

/-- **C64**, full statement. -/
def C64_full : Prop := ∀ s ∈ specs, ∀ set ∈ s.1, ∀ e ∈ set.ies, Known s.2 set e

/-- The elements `asn1tostruct.py` loses: their definition extends over several lines or a comment follows, or
(`Load-Query-Complete-IEs`, `Failure-IEs`) a space follows the end of the object set. -/
def lost : List (String × String) := [
  ("RelocationRequiredIEs", "id-ClassmarkInformation2"),
  ("RelocationRequiredIEs", "id-ClassmarkInformation3"),
  ("RelocationRequiredIEs", "id-Source-ToTarget-TransparentContainer"),
  ("RelocationCommandIEs", "id-Target-ToSource-TransparentContainer"),
  ("RANAP-RelocationInformationIEs", "id-DirectTransferInformationList-RANAP-RelocInf"),
  ("DirectTransferInformationItemIEs-RANAP-RelocInf", "id-DirectTransferInformationItem-RANAP-RelocInf"),
  ("UplinkInformationExchangeRequestIEs", "id-InformationTransferType"),
  ("UplinkInformationExchangeRequestIEs", "id-InformationRequestType"),
  ("MBMSRegistrationRequestIEs", "id-IPMulticastAddress"),
  ("MBMSRegistrationRequestIEs", "id-APN"),
  ("Write-Replace-IEs", "id-Number-of-Broadcasts-Requested"),
  ("Write-Replace-IEs", "id-Broadcast-Message-Content"),
  ("Write-Replace-Complete-IEs", "id-Number-of-Broadcasts-Completed-List"),
  ("Write-Replace-Complete-IEs", "id-Criticality-Diagnostics"),
  ("Write-Replace-Failure-IEs", "id-Number-of-Broadcasts-Completed-List"),
  ("Write-Replace-Failure-IEs", "id-Criticality-Diagnostics"),
  ("Kill-Complete-IEs", "id-Number-of-Broadcasts-Completed-List"),
  ("Kill-Complete-IEs", "id-Criticality-Diagnostics"),
  ("Kill-Failure-IEs", "id-Number-of-Broadcasts-Completed-List"),
  ("Kill-Failure-IEs", "id-Criticality-Diagnostics"),
  ("Load-Query-Complete-IEs", "id-Radio-Resource-Loading-List"),
  ("Load-Query-Complete-IEs", "id-Criticality-Diagnostics"),
  ("Load-Query-Failure-IEs", "id-Radio-Resource-Loading-List"),
  ("Load-Query-Failure-IEs", "id-Criticality-Diagnostics"),
  ("Message-Status-Query-Complete-IEs", "id-Number-of-Broadcasts-Completed-List"),
  ("Message-Status-Query-Complete-IEs", "id-Criticality-Diagnostics"),
  ("Message-Status-Query-Failure-IEs", "id-Number-of-Broadcasts-Completed-List"),
  ("Message-Status-Query-Failure-IEs", "id-Criticality-Diagnostics"),
  ("Reset-Complete-IEs", "id-Criticality-Diagnostics"),
  ("Reset-Failure-IEs", "id-Criticality-Diagnostics"),
  ("Failure-IEs", "id-Service-Areas-List"),
  ("Error-Indication-IEs", "id-Criticality-Diagnostics")]

private def knownB (tabs : List MsgDef) (set : AsnSet) (e : AsnIe) : Bool :=
  tabs.any fun m => m.name == set.name && m.ies.any fun d => d.name == e.name && d.id == e.id && d.crit == e.crit && d.opt == e.opt

private theorem known_iff {tabs : List MsgDef} {set : AsnSet} {e : AsnIe} : Known tabs set e ↔ knownB tabs set e = true := by
  simp only [Known, knownB, List.any_eq_true, Bool.and_eq_true, beq_iff_eq, and_assoc]

private theorem table_check : (specs.all fun s => s.1.all fun set => set.ies.all fun e =>
    knownB s.2 set e == !lost.contains (set.name, e.name)) = true := by decide +kernel

/-- Elements of the specification that are not lost, exactly. -/
theorem C64_known_iff {s : List AsnSet × List MsgDef} (hs : s ∈ specs) {set : AsnSet} (hset : set ∈ s.1)
    {e : AsnIe} (he : e ∈ set.ies) : Known s.2 set e ↔ (set.name, e.name) ∉ lost := by
  have := List.all_eq_true.1 (List.all_eq_true.1 (List.all_eq_true.1 table_check s hs) set hset) e he
  rw [beq_iff_eq] at this
  rw [known_iff, this]
  simp

private theorem tabs_mem {s : List AsnSet × List MsgDef} (hs : s ∈ specs) {m : MsgDef} (hm : m ∈ s.2) : m ∈ tables := by
  simp only [specs, List.mem_cons, List.not_mem_nil, or_false] at hs
  unfold tables
  rcases hs with rfl | rfl | rfl | rfl <;> simp only [List.mem_append] <;> simp only at hm <;> simp [hm]

private theorem names_check : (specs.all fun s => s.2.all fun m => s.1.any fun set => set.name == m.name &&
    m.ies.all fun d => set.ies.any fun e => d.name == e.name && d.id == e.id && d.crit == e.crit && d.opt == e.opt) = true := by
  decide +kernel

/-- The structures have no members besides the elements of the specification. -/
theorem C64_nothing_more {s : List AsnSet × List MsgDef} (hs : s ∈ specs) {m : MsgDef} (hm : m ∈ s.2) :
    ∃ set ∈ s.1, set.name = m.name ∧ ∀ d ∈ m.ies, ∃ e ∈ set.ies,
      d.name = e.name ∧ d.id = e.id ∧ d.crit = e.crit ∧ d.opt = e.opt := by
  have := List.all_eq_true.1 (List.all_eq_true.1 names_check s hs) m hm
  simpa only [List.any_eq_true, List.all_eq_true, Bool.and_eq_true, beq_iff_eq, and_assoc] using this

private theorem unique_check : (specs.all fun s => s.2.all fun m => s.2.all fun m' => m.name != m'.name ||
    (m.ies.map (·.id) == m'.ies.map (·.id))) = true ∧
    (specs.all fun s => s.1.all fun set => set.ies.all fun e => s.2.all fun m => m.name != set.name ||
      !lost.contains (set.name, e.name) || m.ies.all fun d => d.id != e.id) = true := by
  constructor <;> decide +kernel

/-- **C64**, the part that holds: a message all of whose elements are in the specification, not lost and with valid
contents is accepted by the generated decoder.  Missing: the lost elements. -/
theorem C64_accepted_partial {α : Type} {s : List AsnSet × List MsgDef} (hs : s ∈ specs) {set : AsnSet} (hset : set ∈ s.1)
    {m : MsgDef} (hm : m ∈ s.2) (hn : m.name = set.name) {bs : Bytes} {l : List Ie} (hc : Carries m bs l)
    (hl : ∀ ie ∈ l, ∃ e ∈ set.ies, e.id = ie.id ∧ (set.name, e.name) ∉ lost ∧
      ∀ d ∈ m.ies, d.id = ie.id → (Aper.decode d.ty ie.value).isSome = true) (μ : Mem α) :
    (decodeIes m bs μ).1.1 = 0 := by
  refine (C48_accepts_iff (tabs_mem hs hm) hc μ).2 fun ie hie => ?_
  obtain ⟨e, he, hid, hlost, hv⟩ := hl ie hie
  obtain ⟨m', hm', hn', d, hd, -, hdid, -⟩ := (C64_known_iff hs hset he).2 hlost
  have := List.all_eq_true.1 (List.all_eq_true.1 (List.all_eq_true.1 unique_check.1 s hs) m hm) m' hm'
  simp only [Bool.or_eq_true, bne_iff_ne, beq_iff_eq, hn, hn', ne_eq, not_true, false_or] at this
  have hx : d.id ∈ m.ies.map (·.id) := this ▸ List.mem_map_of_mem hd
  obtain ⟨d', hd', e'⟩ := List.mem_map.1 hx
  exact ⟨d', hd', by rw [e', hdid, hid], hv d' hd' (by rw [e', hdid, hid])⟩

/-- **C64** is violated for every lost element: a message that carries it is rejected as a whole. -/
theorem C64_lost_rejected {α : Type} {s : List AsnSet × List MsgDef} (hs : s ∈ specs) {set : AsnSet} (hset : set ∈ s.1)
    {e : AsnIe} (he : e ∈ set.ies) (hlost : (set.name, e.name) ∈ lost) {m : MsgDef} (hm : m ∈ s.2) (hn : m.name = set.name)
    {bs : Bytes} {l : List Ie} (hc : Carries m bs l) {ie : Ie} (hi : ie ∈ l) (hid : ie.id = e.id) (μ : Mem α) :
    (decodeIes m bs μ).1.1 = -1 := by
  refine C48_unknown_rejected (tabs_mem hs hm) hc μ hi fun d hd => ?_
  have := List.all_eq_true.1 (List.all_eq_true.1 (List.all_eq_true.1 (List.all_eq_true.1 unique_check.2 s hs) set hset) e he) m hm
  simp only [Bool.or_eq_true, bne_iff_ne, ne_eq, hn, not_true, false_or, Bool.not_eq_true', List.all_eq_true,
    List.contains_iff_mem] at this
  rw [hid]
  rcases this with h | h
  · simp_all
  · exact h d hd

/-- **C64.** The full statement is false: a Relocation Required with a source to target container (id 61), which the
specification demands if the target is an RNC, is rejected. -/
theorem C64_violated : ¬ C64_full ∧ ∃ bs : Bytes, ∃ ie : Ie, Carries Ranap.relocationRequiredIEs bs [ie] ∧ ie.id = 61 ∧
    (decodeIes Ranap.relocationRequiredIEs bs (Mem.init (α := Unit))).1.1 = -1 := by
  refine ⟨fun h => ?_, [0x00, 0x00, 0x01, 0x00, 0x3d, 0x00, 0x02, 0x01, 0xaa], ⟨61, 0, [0x01, 0xaa]⟩, ?_, rfl, by decide +kernel⟩
  · have hs : (Asn.ranap, Ranap.all) ∈ specs := List.mem_cons_self
    have hex : ∃ set ∈ Asn.ranap, ∃ e ∈ set.ies, (set.name, e.name) ∈ lost := by
      have : (Asn.ranap.any fun set => set.ies.any fun e => lost.contains (set.name, e.name)) = true := by decide +kernel
      simpa [List.any_eq_true] using this
    obtain ⟨set, hset, e, he, hl⟩ := hex
    exact (C64_known_iff hs hset he).1 (h _ hs set hset e he) hl
  · exact carries (by unfold tables Ranap.all; simp) (by decide +kernel)

/-- How much is specified, and how much of it is lost. -/
example : (specs.map fun s => (s.1.map fun set => set.ies.length).sum) = [278, 15, 40, 61] ∧ lost.length = 32 := by
  decide +kernel

/-- A Direct Transfer with a NAS-PDU meets the hypotheses of `C64_accepted_partial`. -/
example : ∃ set ∈ Asn.ranap, set.name = Ranap.directTransferIEs.name ∧ ∃ e ∈ set.ies, e.id = ieNas1.id ∧
    (set.name, e.name) ∉ lost ∧ ∀ d ∈ Ranap.directTransferIEs.ies, d.id = ieNas1.id →
      (Aper.decode d.ty ieNas1.value).isSome = true := by
  have h : (Asn.ranap.any fun set => set.name == Ranap.directTransferIEs.name && set.ies.any fun e => e.id == ieNas1.id &&
      !lost.contains (set.name, e.name)) = true := by decide +kernel
  have h' : (Ranap.directTransferIEs.ies.all fun d => d.id != ieNas1.id || (Aper.decode d.ty ieNas1.value).isSome) = true := by
    decide +kernel
  simp only [List.any_eq_true, Bool.and_eq_true, beq_iff_eq] at h
  obtain ⟨set, hs, hn, e, he, hid, hl⟩ := h
  refine ⟨set, hs, hn, e, he, hid, by simpa using hl, fun d hd hi => ?_⟩
  have := List.all_eq_true.1 h' d hd
  simpa [hi] using this

end Verif.Props
