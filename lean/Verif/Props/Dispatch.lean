import Verif.Proofs.DispatchRx
import Verif.Props.Ie

/-!
# Receiving RANAP messages (C42 - C45)

`cnRxCo`, `cnRxCl` and `ranRxCo` are `ranap_cn_rx_co`, `ranap_cn_rx_cl` and `ranap_ran_rx_co`; they
yield the return code and the trace of allocations, frees and calls of the handler.
`Spec/Dispatch.lean` says which message belongs to which direction and procedure code.
-/

namespace Verif.Props
open Verif.Aper Verif.Ie Verif.Ie.Spec Verif.Rx Verif.Rx.Spec Verif.Gen

/-- The Direct Transfer of `/repo/tests/test-ranap.ok`. -/
def dtPdu : Bytes := [0x00, 0x14, 0x40, 0x10] ++ dtBytes

def ieNas3 : Ie := ⟨16, 1, [0x03, 0xaa, 0xbb, 0xcc]⟩

theorem dtPdu_decodes : decodePdu dtPdu = some (1, 20, 1, dtBytes) := by decide +kernel

theorem dt_carries : Carries Ranap.directTransferIEs dtBytes [ieNas3, ieSapi] :=
  carries dt_mem (by decide +kernel)

theorem dt_valid : ∀ ie ∈ [ieNas3, ieSapi], Valid Ranap.directTransferIEs ie :=
  (C48_accepts_iff dt_mem dt_carries (Mem.init (α := Unit))).1 (by decide +kernel)

/-- C42, core network side: `ranap_cn_rx_co` returns 0 iff the octets are a supported message with
nothing but known and valid elements; otherwise it does not call the handler; and if so, the handler
is called once with exactly these contents and what they own is freed afterwards, once. -/
theorem C42_cn_co (data : Bytes) :
    ((cnRxCo data Mem.init).1 = 0 ↔ Decodable cnCoMsg data) ∧
    (¬ Decodable cnCoMsg data → calls (cnRxCo data Mem.init).2.trace = []) ∧
    ∀ direction code crit m l, Pdu cnCoMsg data direction code crit m l → (∀ ie ∈ l, Valid m ie) →
      Delivered (cnRxCo data Mem.init).2.trace direction code crit m l := by
  have h := cnRxCo_fate data
  have h1 := fate_decodable cnCo_table (by decide) h
  exact ⟨h1.1, h1.2, fun p c crit m l hp hv => (fate_delivered cnCo_table h hp hv).2⟩

/-- C42, radio access network side. -/
theorem C42_ran_co (data : Bytes) :
    ((ranRxCo data Mem.init).1 = 0 ↔ Decodable ranCoMsg data) ∧
    (¬ Decodable ranCoMsg data → calls (ranRxCo data Mem.init).2.trace = []) ∧
    ∀ direction code crit m l, Pdu ranCoMsg data direction code crit m l → (∀ ie ∈ l, Valid m ie) →
      Delivered (ranRxCo data Mem.init).2.trace direction code crit m l := by
  have h := ranRxCo_fate data
  have h1 := fate_decodable ranCo_table (by decide) h
  exact ⟨h1.1, h1.2, fun p c crit m l hp hv => (fate_delivered ranCo_table h hp hv).2⟩

/-- A Direct Transfer meets the hypotheses, on both sides. -/
example : Pdu cnCoMsg dtPdu 1 20 1 Ranap.directTransferIEs [ieNas3, ieSapi] ∧
    Pdu ranCoMsg dtPdu 1 20 1 Ranap.directTransferIEs [ieNas3, ieSapi] ∧
    (∀ ie ∈ [ieNas3, ieSapi], Valid Ranap.directTransferIEs ie) ∧
    (calls (cnRxCo dtPdu Mem.init).2.trace).length = 1 :=
  ⟨⟨dtBytes, isPdu_iff.2 dtPdu_decodes, rfl, dt_carries⟩, ⟨dtBytes, isPdu_iff.2 dtPdu_decodes, rfl, dt_carries⟩, dt_valid, by decide +kernel⟩

/-- C43, full statement. -/
def C43_full : Prop := ∀ (data : Bytes) (msg : Message), msg ∈ calls (cnRxCl data Mem.init).2.trace → msg.msg ≠ none

/-- C43 is false of the code: a Direct Transfer (which is not a connectionless message) makes
`ranap_cn_rx_cl` return 0 and call the handler with a message whose contents are zeroed memory. -/
theorem C43_direct_transfer : (cnRxCl dtPdu Mem.init).1 = 0 ∧
    ∃ msg, calls (cnRxCl dtPdu Mem.init).2.trace = [msg] ∧ msg.direction = 1 ∧ msg.procedureCode = 20 ∧ msg.msg = none := by
  refine ⟨by decide +kernel, ?_⟩
  have h1 : ((calls (cnRxCl dtPdu Mem.init).2.trace).map fun m => (m.direction, m.procedureCode, m.msg.isNone)) =
      [(1, 20, true)] := by decide +kernel
  cases hc : calls (cnRxCl dtPdu Mem.init).2.trace with
  | nil => rw [hc] at h1; cases h1
  | cons msg rest =>
    rw [hc] at h1
    simp only [List.map_cons, List.cons.injEq, Prod.mk.injEq, List.map_eq_nil_iff] at h1
    obtain ⟨⟨h2, h3, h4⟩, rfl⟩ := h1
    exact ⟨msg, rfl, h2, h3, Option.isNone_iff_eq_none.1 h4⟩

theorem C43_violated : ¬ C43_full := by
  intro h
  obtain ⟨-, msg, h1, -, -, h2⟩ := C43_direct_transfer
  exact h dtPdu msg (by rw [h1]; exact List.mem_cons_self) h2

/-- C43 is false for every message `ranap_cn_rx_cl` does not know: it is handed to the handler without
contents.  (For all PDUs, not just the one above.) -/
theorem C43_unknown_called {data value : Bytes} {direction code crit : Nat}
    (hd : IsPdu data direction code crit value) (hu : cnClMsg direction code = none) :
    (cnRxCl data Mem.init).1 = 0 ∧
    ∃ msg, calls (cnRxCl data Mem.init).2.trace = [msg] ∧ msg.direction = direction ∧ msg.msg = none := by
  rw [isPdu_iff] at hd
  have h := cnRxCl_fate data
  generalize (cnRxCl data Mem.init).1 = rc at h ⊢
  generalize (cnRxCl data Mem.init).2.trace = tr at h ⊢
  cases h with
  | garbage h => rw [h] at hd; cases hd
  | unknown h hm h1 h2 =>
    rw [h] at hd; cases hd
    exact ⟨rfl, _, rfl, h1, h2⟩
  | broken h hm h1 => rw [h] at hd; cases hd; rw [cnCl_table, hu] at hm; cases hm
  | failed h hm hc hd' hh => rw [h] at hd; cases hd; rw [cnCl_table, hu] at hm; cases hm
  | called h hm hc hd' hh => rw [h] at hd; cases hd; rw [cnCl_table, hu] at hm; cases hm

example : IsPdu dtPdu 1 20 1 dtBytes ∧ cnClMsg 1 20 = none := ⟨isPdu_iff.2 dtPdu_decodes, rfl⟩

/-- C43, what does hold: for a message `ranap_cn_rx_cl` knows, the handler is called only if all
elements are known and valid, and then with exactly these contents.  (Missing: unknown messages.) -/
theorem C43_known_partial {data : Bytes} {direction code crit : Nat} {value : Bytes} {m : MsgDef}
    (hd : IsPdu data direction code crit value) (hk : cnClMsg direction code = some m) :
    ((cnRxCl data Mem.init).1 = 0 ↔ ∃ l, Carries m value l ∧ ∀ ie ∈ l, Valid m ie) ∧
    ((cnRxCl data Mem.init).1 ≠ 0 → calls (cnRxCl data Mem.init).2.trace = []) ∧
    ∀ l, Carries m value l → (∀ ie ∈ l, Valid m ie) →
      Delivered (cnRxCl data Mem.init).2.trace direction code crit m l := by
  rw [isPdu_iff] at hd
  have h := cnRxCl_fate data
  refine ⟨⟨fun h0 => ?_, ?_⟩, fun h0 => ?_, ?_⟩
  · generalize (cnRxCl data Mem.init).1 = rc at h h0
    generalize (cnRxCl data Mem.init).2.trace = tr at h
    subst h0
    cases h with
    | unknown h hm h1 h2 => rw [h] at hd; cases hd; rw [cnCl_table, hk] at hm; cases hm
    | called h hm hc hd' hh =>
      rw [h] at hd; cases hd; rw [cnCl_table, hk] at hm; cases hm
      exact ⟨_, hc, hd'.ok_iff.1 rfl⟩
  · rintro ⟨l, hc, hv⟩
    exact (fate_delivered cnCl_table h ⟨value, isPdu_iff.2 hd, hk, hc⟩ hv).1
  · generalize (cnRxCl data Mem.init).1 = rc at h h0
    generalize (cnRxCl data Mem.init).2.trace = tr at h ⊢
    cases h with
    | garbage h => rfl
    | unknown h hm h1 h2 => exact absurd rfl h0
    | broken h hm h1 => rfl
    | failed h hm hc hd' hh =>
      rw [calls_append, calls_pre]
      simp [calls_frees]
    | called h hm hc hd' hh => exact absurd rfl h0
  · intro l hc hv
    exact (fate_delivered cnCl_table h ⟨value, isPdu_iff.2 hd, hk, hc⟩ hv).2

/-- The Reset of `/repo/tests/test-ranap.ok` meets the hypotheses. -/
def resetPdu : Bytes := [0x00, 0x09, 0x00, 0x0e, 0x00, 0x00, 0x02, 0x00, 0x04, 0x40, 0x02, 0x0b, 0x40, 0x00, 0x03, 0x00, 0x01, 0x00]

example : (∃ value, decodePdu resetPdu = some (1, 9, 0, value)) ∧ (cnRxCl resetPdu Mem.init).1 = 0 ∧
    cnClMsg 1 9 = some Ranap.resetIEs :=
  ⟨⟨resetPdu.drop 4, by decide +kernel⟩, by decide +kernel, rfl⟩

/-- C44, what holds for all inputs: nothing is freed twice, and nothing that was not allocated, and no
free function is applied to the contents of another message. -/
theorem C44_no_bad_free_partial (data : Bytes) :
    NoBadFree (cnRxCo data Mem.init).2.trace ∧ NoBadFree (cnRxCl data Mem.init).2.trace ∧
    NoBadFree (ranRxCo data Mem.init).2.trace :=
  ⟨fate_noBadFree (cnRxCo_fate data), fate_noBadFree (cnRxCl_fate data), fate_noBadFree (ranRxCo_fate data)⟩

/-- A Direct Transfer with a NAS-PDU followed by an unknown element. -/
def dtUnknownPdu : Bytes := [0x00, 0x14, 0x40, 0x0e, 0x00, 0x00, 0x02, 0x00, 0x10, 0x40, 0x02, 0x01, 0xaa,
  0x27, 0x0f, 0x40, 0x01, 0x00]

/-- A Direct Transfer with two NAS-PDUs. -/
def dtTwicePdu : Bytes := [0x00, 0x14, 0x40, 0x0f, 0x00, 0x00, 0x02, 0x00, 0x10, 0x40, 0x02, 0x01, 0xaa,
  0x00, 0x10, 0x40, 0x02, 0x01, 0xbb]

/-- A Reset with two Global-RNC-IDs. -/
def resetTwicePdu : Bytes := [0x00, 0x09, 0x00, 0x15, 0x00, 0x00, 0x02, 0x00, 0x56, 0x40, 0x05, 0x09, 0x01, 0x99, 0x09, 0x26,
  0x00, 0x56, 0x40, 0x05, 0x09, 0x01, 0x99, 0x09, 0x27]

/-- C44, full statement. -/
def C44_full : Prop := ∀ data : Bytes, Clean (cnRxCo data Mem.init).2.trace ∧ Clean (cnRxCl data Mem.init).2.trace ∧
  Clean (ranRxCo data Mem.init).2.trace

/-- C44 is false of the code in two ways.  `ranap_cn_rx_co` returns without freeing what was decoded
before the element that could not be decoded; and in all three functions an element that is repeated
overwrites the first one without freeing it. -/
theorem C44_leaks :
    ((cnRxCo dtUnknownPdu Mem.init).1 = -1 ∧ replay [] (cnRxCo dtUnknownPdu Mem.init).2.trace = some [2]) ∧
    ((cnRxCo dtTwicePdu Mem.init).1 = 0 ∧ replay [] (cnRxCo dtTwicePdu Mem.init).2.trace = some [2]) ∧
    ((ranRxCo dtTwicePdu Mem.init).1 = 0 ∧ replay [] (ranRxCo dtTwicePdu Mem.init).2.trace = some [2]) ∧
    ((cnRxCl resetTwicePdu Mem.init).1 = 0 ∧ replay [] (cnRxCl resetTwicePdu Mem.init).2.trace = some [2]) := by
  decide +kernel

theorem C44_violated : ¬ C44_full := by
  intro h
  have h1 := (h dtUnknownPdu).1
  unfold Clean at h1
  rw [C44_leaks.1.2] at h1
  cases h1

/-- C44, the part that holds: if no element that owns memory is repeated, nothing is left, for
`ranap_cn_rx_cl` and `ranap_ran_rx_co` whether or not decoding succeeded, for `ranap_cn_rx_co` if it
succeeded. -/
theorem C44_clean_partial (data : Bytes) :
    ((cnRxCo data Mem.init).1 = 0 → (∀ p c crit m l, Pdu cnCoMsg data p c crit m l → NoRepeatedOwner m l) →
      Clean (cnRxCo data Mem.init).2.trace) ∧
    ((∀ p c crit m l, Pdu cnClMsg data p c crit m l → NoRepeatedOwner m l) → Clean (cnRxCl data Mem.init).2.trace) ∧
    ((∀ p c crit m l, Pdu ranCoMsg data p c crit m l → NoRepeatedOwner m l) → Clean (ranRxCo data Mem.init).2.trace) :=
  ⟨fun h0 hn => fate_clean cnCo_table (cnRxCo_fate data) (fun _ => h0) hn,
   fun hn => fate_clean cnCl_table (cnRxCl_fate data) (by simp) hn,
   fun hn => fate_clean ranCo_table (ranRxCo_fate data) (by simp) hn⟩

/-- The hypothesis holds in particular if no id is repeated at all. -/
theorem noRepeatedOwner_of_distinct {m : MsgDef} {l : List Ie} (h : (l.map (·.id)).Nodup) : NoRepeatedOwner m l := by
  unfold NoRepeatedOwner
  rw [List.Nodup, List.pairwise_map] at h
  exact h.imp fun hne he => absurd he hne

example : NoRepeatedOwner Ranap.directTransferIEs [ieNas3, ieSapi] ∧ (cnRxCo dtPdu Mem.init).1 = 0 ∧
    replay [] (cnRxCo dtPdu Mem.init).2.trace = some [] :=
  ⟨noRepeatedOwner_of_distinct (by decide), by decide +kernel, by decide +kernel⟩

/-- C44, exactly: a message that is delivered leaks iff an element that owns memory is repeated. -/
theorem C44_delivered_leak_iff {data : Bytes} {p c crit : Nat} {m : MsgDef} {l : List Ie} (hv : ∀ ie ∈ l, Valid m ie) :
    (Pdu cnCoMsg data p c crit m l → (Clean (cnRxCo data Mem.init).2.trace ↔ NoRepeatedOwner m l)) ∧
    (Pdu cnClMsg data p c crit m l → (Clean (cnRxCl data Mem.init).2.trace ↔ NoRepeatedOwner m l)) ∧
    (Pdu ranCoMsg data p c crit m l → (Clean (ranRxCo data Mem.init).2.trace ↔ NoRepeatedOwner m l)) :=
  ⟨fun hp => fate_clean_iff cnCo_table (cnRxCo_fate data) hp hv,
   fun hp => fate_clean_iff cnCl_table (cnRxCl_fate data) hp hv,
   fun hp => fate_clean_iff ranCo_table (ranRxCo_fate data) hp hv⟩

/-- C44, exactly: a message that `ranap_cn_rx_co` cannot decode leaks iff one of the elements in front
of the first bad one owns memory. -/
theorem C44_failed_leak_iff {data : Bytes} {p c crit : Nat} {m : MsgDef} {l : List Ie}
    (hp : Pdu cnCoMsg data p c crit m l) (hv : ¬ ∀ ie ∈ l, Valid m ie) :
    ∃ l1 x l2, l = l1 ++ x :: l2 ∧ (∀ ie ∈ l1, Valid m ie) ∧ ¬ Valid m x ∧
      (Clean (cnRxCo data Mem.init).2.trace ↔ ∀ ie ∈ l1, ¬ OwnsMemory m ie) :=
  fate_leak cnCo_table (cnRxCo_fate data) hp hv

/-- The message with the unknown element meets the hypotheses. -/
example : Pdu cnCoMsg dtUnknownPdu 1 20 1 Ranap.directTransferIEs [ieNas1, ieUnknown] ∧
    ¬ ∀ ie ∈ [ieNas1, ieUnknown], Valid Ranap.directTransferIEs ie := by
  have hc : Carries Ranap.directTransferIEs (dtUnknownPdu.drop 4) [ieNas1, ieUnknown] := carries dt_mem (by decide +kernel)
  refine ⟨⟨_, isPdu_iff.2 (by decide +kernel), rfl, hc⟩, fun h => ?_⟩
  have := (C48_accepts_iff dt_mem hc (Mem.init (α := Unit))).2 h
  revert this
  decide +kernel

/-- An Information Transfer Confirmation as TS 25.413 defines it, with its two mandatory elements. -/
def confirmationPdu : Bytes := [0x20, 0x1f, 0x00, 0x0e, 0x00, 0x00, 0x02, 0x00, 0x68, 0x40, 0x02, 0x00, 0x01,
  0x00, 0x03, 0x40, 0x01, 0x00]

/-- C45, full statement: as `C45_right_message_partial` without exceptions. -/
def C45_full : Prop :=
  ∀ (data value : Bytes) (direction code crit : Nat) (msg : Message) (n : String) (s : Struct),
    IsPdu data direction code crit value → msg.msg = some (n, s) →
    msg ∈ calls (cnRxCo data Mem.init).2.trace ∨ msg ∈ calls (ranRxCo data Mem.init).2.trace ∨
      msg ∈ calls (cnRxCl data Mem.init).2.trace →
    ∃ m, protocolMsg direction code = some m ∧ n = m.name

/-- C45 is false of the code: TS 25.413 assigns Information Transfer Confirmation to the successful
outcome of Information Transfer (31), and nothing to the one of Direct Information Transfer (34);
`ranap_cn_rx_cl` decodes the first as Reset Resource Acknowledge and the second as Information
Transfer Confirmation.  `ranap_cn_rx_co` accepts a RAB Assignment Response as successful outcome,
which is an outcome in TS 25.413. -/
theorem C45_exceptions :
    (protocolMsg 2 31 = some Ranap.informationTransferConfirmationIEs ∧
      cnClRx.at 2 31 = some Ranap.resetResourceAcknowledgeIEs) ∧
    (protocolMsg 2 34 = none ∧ cnClRx.at 2 34 = some Ranap.informationTransferConfirmationIEs) ∧
    (protocolMsg 2 0 = none ∧ protocolMsg 4 0 = some Ranap.rAB_AssignmentResponseIEs ∧
      cnCoRx.at 2 0 = some Ranap.rAB_AssignmentResponseIEs) :=
  ⟨⟨rfl, rfl⟩, ⟨rfl, rfl⟩, rfl, rfl, rfl⟩

/-- A RAB Assignment Response without elements, as successful outcome. -/
def rabOutcomePdu : Bytes := [0x20, 0x00, 0x00, 0x03, 0x00, 0x00, 0x00]

theorem C45_violated : ¬ C45_full := by
  intro h
  have h1 : ((calls (cnRxCo rabOutcomePdu Mem.init).2.trace).map fun m => m.msg.isSome) = [true] := by decide +kernel
  have h2 : IsPdu rabOutcomePdu 2 0 0 [0x00, 0x00, 0x00] := isPdu_iff.2 (by decide +kernel)
  cases hc : calls (cnRxCo rabOutcomePdu Mem.init).2.trace with
  | nil => rw [hc] at h1; cases h1
  | cons msg rest =>
    rw [hc] at h1
    cases hm : msg.msg with
    | none => rw [List.map_cons, hm] at h1; cases h1
    | some x =>
      obtain ⟨m, h3, -⟩ := h _ _ _ _ _ msg x.1 x.2 h2 hm (.inl (by rw [hc]; exact List.mem_cons_self))
      rw [C45_exceptions.2.2.1] at h3
      cases h3

/-- As a consequence, no Information Transfer Confirmation that has its mandatory transfer id
(element 104) is ever handed to the handler. -/
theorem C45_confirmation_lost {data value : Bytes} {crit : Nat} {l : List Ie}
    (hd : IsPdu data 2 31 crit value)
    (hc : Carries Ranap.informationTransferConfirmationIEs value l) (hi : ∃ ie ∈ l, ie.id = 104) :
    (cnRxCl data Mem.init).1 = -1 ∧ calls (cnRxCl data Mem.init).2.trace = [] := by
  rw [isPdu_iff] at hd
  have hc' : Carries Ranap.resetResourceAcknowledgeIEs value l := hc
  obtain ⟨ie, hil, hid⟩ := hi
  have hk := C43_known_partial (isPdu_iff.2 hd) (m := Ranap.resetResourceAcknowledgeIEs) rfl
  have hne : (cnRxCl data Mem.init).1 ≠ 0 := by
    intro h0
    obtain ⟨l', hc2, hv⟩ := hk.1.1 h0
    have := carries_inj hc' hc2
    subst this
    obtain ⟨d, hdm, hdi, -⟩ := hv ie hil
    rw [hid] at hdi
    have : Ranap.resetResourceAcknowledgeIEs.ies.all (fun d => decide (d.id ≠ 104)) = true := by decide +kernel
    have := List.all_eq_true.1 this d hdm
    simp [hdi] at this
  refine ⟨?_, hk.2.1 hne⟩
  have h := cnRxCl_fate data
  generalize (cnRxCl data Mem.init).1 = rc at h hne ⊢
  generalize (cnRxCl data Mem.init).2.trace = tr at h
  cases h with
  | garbage h => rfl
  | unknown h hm h1 h2 => exact absurd rfl hne
  | broken h hm h1 => rfl
  | failed h hm hc hd' hh => rfl
  | called h hm hc hd' hh => exact absurd rfl hne

/-- Its hypotheses are met by a well-formed confirmation. -/
example : (∃ value, decodePdu confirmationPdu = some (2, 31, 0, value) ∧
      (decodeIes Ranap.informationTransferConfirmationIEs value (Mem.init (α := Unit))).1.1 = 0) ∧
    (cnRxCl confirmationPdu Mem.init).1 = -1 :=
  ⟨⟨confirmationPdu.drop 4, by decide +kernel, by decide +kernel⟩, by decide +kernel⟩

/-- C45, the part that holds: with these three exceptions, whenever a handler is called with decoded
contents, they are those of the message TS 25.413 assigns to the direction and the procedure code of
the PDU. -/
theorem C45_right_message_partial {data value : Bytes} {direction code crit : Nat}
    (hd : IsPdu data direction code crit value) {msg : Message} {n : String} {s : Struct}
    (hs : msg.msg = some (n, s)) :
    (msg ∈ calls (cnRxCo data Mem.init).2.trace → ¬ (direction = 2 ∧ code = 0) →
      msg.direction = direction ∧ msg.procedureCode = code ∧ msg.criticality = crit ∧
      ∃ m, protocolMsg direction code = some m ∧ n = m.name) ∧
    (msg ∈ calls (ranRxCo data Mem.init).2.trace →
      msg.direction = direction ∧ msg.procedureCode = code ∧ msg.criticality = crit ∧
      ∃ m, protocolMsg direction code = some m ∧ n = m.name) ∧
    (msg ∈ calls (cnRxCl data Mem.init).2.trace → ¬ (direction = 2 ∧ (code = 31 ∨ code = 34)) →
      msg.direction = direction ∧ msg.procedureCode = code ∧ msg.criticality = crit ∧
      ∃ m, protocolMsg direction code = some m ∧ n = m.name) := by
  rw [isPdu_iff] at hd
  refine ⟨fun hm he => ?_, fun hm => ?_, fun hm he => ?_⟩
  · obtain ⟨p, c, cr, v, h1, -, ⟨-, h3⟩ | ⟨m, s', h4, h5⟩⟩ := fate_calls cnCo_table (cnRxCo_fate data) hm
    · rw [hs] at h3; cases h3
    · rw [hd] at h1; cases h1
      subst h5
      cases hs
      refine ⟨rfl, rfl, rfl, m, ?_, rfl⟩
      unfold cnCoMsg at h4
      rw [if_neg he] at h4
      split at h4
      · exact h4
      · cases h4
  · obtain ⟨p, c, cr, v, h1, -, ⟨-, h3⟩ | ⟨m, s', h4, h5⟩⟩ := fate_calls ranCo_table (ranRxCo_fate data) hm
    · rw [hs] at h3; cases h3
    · rw [hd] at h1; cases h1
      subst h5
      cases hs
      refine ⟨rfl, rfl, rfl, m, ?_, rfl⟩
      unfold ranCoMsg at h4
      split at h4
      · exact h4
      · cases h4
  · obtain ⟨p, c, cr, v, h1, -, ⟨-, h3⟩ | ⟨m, s', h4, h5⟩⟩ := fate_calls cnCl_table (cnRxCl_fate data) hm
    · rw [hs] at h3; cases h3
    · rw [hd] at h1; cases h1
      subst h5
      cases hs
      refine ⟨rfl, rfl, rfl, m, ?_, rfl⟩
      unfold cnClMsg at h4
      rw [if_neg (by omega), if_neg (by omega)] at h4
      split at h4
      · exact h4
      · cases h4

/-- The Direct Transfer is delivered as one, the Reset as one. -/
example : ((calls (cnRxCo dtPdu Mem.init).2.trace).map fun m => m.msg.map (·.1)) = [some "DirectTransferIEs"] ∧
    ((calls (cnRxCl resetPdu Mem.init).2.trace).map fun m => m.msg.map (·.1)) = [some "ResetIEs"] := by
  decide +kernel

end Verif.Props
