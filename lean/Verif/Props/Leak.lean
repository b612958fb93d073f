import Verif.Props.Size

/-!
# C97: what a received message leaves allocated
-/

namespace Verif.Props
open Verif.Aper Verif.Ie Verif.Ie.Spec Verif.Rx Verif.Rx.Spec Verif.Gen

theorem valid_iff {m : MsgDef} {ie : Ie} :
    Valid m ie ↔ m.ies.any (fun d => d.id == ie.id && (decode d.ty ie.value).isSome) = true := by
  simp only [Valid, List.any_eq_true, Bool.and_eq_true, beq_iff_eq]

/-- **C97** for `ranap_cn_rx_co`: of a message with a bad element, everything that the elements in front of it own is left;
of another one, what elements own that a later one with the same id replaces. -/
theorem C97_cn_connection_oriented {data : Bytes} {p c crit : Nat} {m : MsgDef} {l good rest : List Ie}
    (hp : Pdu cnCoMsg data p c crit m l) (hs : SplitAtBad m l good rest) :
    ∃ live, replay [] (cnRxCo data Mem.init).2.trace = some live ∧
      live.length = if rest = [] then replaced m good else owners m good := by
  obtain ⟨live, h1, h2, -⟩ := fate_left cnCo_table (cnRxCo_fate data)
  refine ⟨live, h1, ?_⟩
  rw [h2 _ _ _ _ _ _ _ hp hs]
  cases rest <;> simp

/-- **C97** for `ranap_cn_rx_cl`: what elements own that a later one with the same id replaces, bad element or not. -/
theorem C97_cn_connectionless {data : Bytes} {p c crit : Nat} {m : MsgDef} {l good rest : List Ie}
    (hp : Pdu cnClMsg data p c crit m l) (hs : SplitAtBad m l good rest) :
    ∃ live, replay [] (cnRxCl data Mem.init).2.trace = some live ∧ live.length = replaced m good := by
  obtain ⟨live, h1, h2, -⟩ := fate_left cnCl_table (cnRxCl_fate data)
  exact ⟨live, h1, by rw [h2 _ _ _ _ _ _ _ hp hs]; rfl⟩

/-- The Direct Transfer with two NAS PDUs, the first of which is replaced. -/
example : Pdu ranCoMsg dtTwicePdu 1 20 1 Ranap.directTransferIEs [ieNas1, ieNas2] ∧
    SplitAtBad Ranap.directTransferIEs [ieNas1, ieNas2] [ieNas1, ieNas2] [] ∧
    replaced Ranap.directTransferIEs [ieNas1, ieNas2] = 1 ∧ owners Ranap.directTransferIEs [ieNas1, ieNas2] = 2 := by
  have hc : Carries Ranap.directTransferIEs (dtTwicePdu.drop 4) [ieNas1, ieNas2] := carries dt_mem (by decide +kernel)
  refine ⟨⟨_, isPdu_iff.2 (by decide +kernel), rfl, hc⟩, ⟨rfl, ?_, by simp⟩, by decide +kernel, by decide +kernel⟩
  intro ie hie
  rcases List.mem_cons.1 hie with rfl | hie
  · exact valid_iff.2 (by decide +kernel)
  · cases List.mem_singleton.1 hie
    exact valid_iff.2 (by decide +kernel)

/-- **C97** for `ranap_ran_rx_co`, the same. -/
theorem C97_ran_connection_oriented {data : Bytes} {p c crit : Nat} {m : MsgDef} {l good rest : List Ie}
    (hp : Pdu ranCoMsg data p c crit m l) (hs : SplitAtBad m l good rest) :
    ∃ live, replay [] (ranRxCo data Mem.init).2.trace = some live ∧ live.length = replaced m good := by
  obtain ⟨live, h1, h2, -⟩ := fate_left ranCo_table (ranRxCo_fate data)
  exact ⟨live, h1, by rw [h2 _ _ _ _ _ _ _ hp hs]; rfl⟩

/-- The Direct Transfer with an unknown element behind the NAS PDU: one element, which owns memory, is in front of it. -/
example : Pdu cnCoMsg dtUnknownPdu 1 20 1 Ranap.directTransferIEs [ieNas1, ieUnknown] ∧
    SplitAtBad Ranap.directTransferIEs [ieNas1, ieUnknown] [ieNas1] [ieUnknown] ∧
    owners Ranap.directTransferIEs [ieNas1] = 1 := by
  have hc : Carries Ranap.directTransferIEs (dtUnknownPdu.drop 4) [ieNas1, ieUnknown] := carries dt_mem (by decide +kernel)
  refine ⟨⟨_, isPdu_iff.2 (by decide +kernel), rfl, hc⟩, ⟨rfl, ?_, ?_⟩, by decide +kernel⟩
  · intro ie hie
    cases List.mem_singleton.1 hie
    exact valid_iff.2 (by decide +kernel)
  · intro x hx
    cases hx
    exact fun h => absurd (valid_iff.1 h) (by decide +kernel)

/-- **C97**: of everything else (no PDU, no message of the table, no list of elements) nothing is left. -/
theorem C97_other (data : Bytes) :
    ((∀ p c crit m l, ¬ Pdu cnCoMsg data p c crit m l) → Clean (cnRxCo data Mem.init).2.trace) ∧
    ((∀ p c crit m l, ¬ Pdu cnClMsg data p c crit m l) → Clean (cnRxCl data Mem.init).2.trace) ∧
    ((∀ p c crit m l, ¬ Pdu ranCoMsg data p c crit m l) → Clean (ranRxCo data Mem.init).2.trace) := by
  refine ⟨fun h => ?_, fun h => ?_, fun h => ?_⟩
  · obtain ⟨live, h1, -, h2⟩ := fate_left cnCo_table (cnRxCo_fate data)
    rw [h2 h] at h1; exact h1
  · obtain ⟨live, h1, -, h2⟩ := fate_left cnCl_table (cnRxCl_fate data)
    rw [h2 h] at h1; exact h1
  · obtain ⟨live, h1, -, h2⟩ := fate_left ranCo_table (ranRxCo_fate data)
    rw [h2 h] at h1; exact h1

/-- `isOwner`, which counts, is the `OwnsMemory` of C44. -/
theorem C97_owner (m : MsgDef) (ie : Ie) : isOwner m ie = true ↔ OwnsMemory m ie := isOwner_iff

/-- Every list of elements can be split in that way, in only one way. -/
theorem C97_split (m : MsgDef) (l : List Ie) : ∃ good rest, SplitAtBad m l good rest ∧
    ∀ good' rest', SplitAtBad m l good' rest' → good' = good ∧ rest' = rest := by
  have ex : ∃ good rest, SplitAtBad m l good rest := by
    induction l with
    | nil => exact ⟨[], [], rfl, by simp, by simp⟩
    | cons ie l ih =>
      by_cases hv : Valid m ie
      · obtain ⟨good, rest, h1, h2, h3⟩ := ih
        refine ⟨ie :: good, rest, by rw [h1]; rfl, ?_, h3⟩
        intro x hx
        rcases List.mem_cons.1 hx with rfl | hx
        · exact hv
        · exact h2 x hx
      · exact ⟨[], ie :: l, rfl, by simp, by simpa using hv⟩
  obtain ⟨good, rest, h⟩ := ex
  exact ⟨good, rest, h, fun g r h' => split_unique h' h⟩

/-- Where in `Gen.Ranap.all` the messages of each procedure are. -/
def procIndex : List (List (Option Nat)) :=
  [[some 0, some 1, none, none], [some 4, some 5, some 8, none], [some 9, some 11, some 14, none],
   [some 15, some 16, none, none], [some 17, some 19, none, none], [some 22, some 23, some 24, none],
   [some 25, some 27, none, none], [some 29, some 30, none, none], [some 35, none, none, none],
   [some 37, none, none, none], [none, none, none, none], [none, none, none, none], [some 45, none, none, none],
   [some 46, none, none, none], [some 47, none, none, none], [some 48, none, none, none],
   [some 49, none, none, none], [some 50, none, none, none], [some 51, none, none, none],
   [some 52, none, none, none], [some 54, none, none, none], [some 55, none, none, none],
   [some 56, none, none, none], [some 57, none, none, none], [some 58, none, none, some 59],
   [none, none, none, none], [some 31, some 33, none, none], [some 64, none, none, none],
   [some 71, none, none, none], [some 73, some 74, some 75, none], [some 76, some 77, some 78, none],
   [some 79, none, none, none], [some 80, none, none, none], [some 81, some 82, some 83, none],
   [some 84, some 85, some 86, none], [some 87, some 88, some 89, none], [some 90, some 91, none, none],
   [some 92, none, none, some 93], [some 94, some 95, some 96, none], [some 97, some 98, none, none],
   [some 99, none, none, none], [some 100, some 101, some 102, none], [some 38, some 40, some 43, none],
   [some 44, none, none, none], [some 66, some 68, none, none], [none, none, none, some 103],
   [none, none, none, some 104]]

theorem procs_index : Gen.Ranap.procs.map (fun p => [p.initiating, p.successful, p.unsuccessful, p.outcome]) =
    procIndex.map (·.map (·.bind (Gen.Ranap.all[·]?))) := by rfl

theorem protocolMsg_mem {d c : Nat} {m : MsgDef} (h : protocolMsg d c = some m) : m ∈ tables := by
  unfold protocolMsg at h
  obtain ⟨p, hp, hk⟩ := Option.bind_eq_some_iff.1 h
  have hp := List.mem_of_find?_eq_some hp
  have h1 : [p.initiating, p.successful, p.unsuccessful, p.outcome] ∈ procIndex.map (·.map (·.bind (Gen.Ranap.all[·]?))) := by
    rw [← procs_index]
    exact List.mem_map.2 ⟨p, hp, rfl⟩
  obtain ⟨x, -, hx⟩ := List.mem_map.1 h1
  have h2 : some m ∈ [p.initiating, p.successful, p.unsuccessful, p.outcome] := by
    unfold ofKind at hk
    split at hk <;> simp_all
  rw [← hx] at h2
  obtain ⟨o, -, ho⟩ := List.mem_map.1 h2
  obtain ⟨k, -, hk⟩ := Option.bind_eq_some_iff.1 ho
  unfold tables
  simp only [List.mem_append]
  exact Or.inl (Or.inl (Or.inl (List.mem_of_getElem? hk)))

theorem mem_tables {k : Nat} {m : MsgDef} (h : Gen.Ranap.all[k]? = some m) : m ∈ tables := by
  unfold tables
  simp only [List.mem_append]
  exact Or.inl (Or.inl (Or.inl (List.mem_of_getElem? h)))

theorem cnCoMsg_mem {d c : Nat} {m : MsgDef} (h : cnCoMsg d c = some m) : m ∈ tables := by
  unfold cnCoMsg at h
  split at h
  · cases h; exact mem_tables (k := 59) (by rfl)
  · split at h
    · exact protocolMsg_mem h
    · cases h

theorem cnClMsg_mem {d c : Nat} {m : MsgDef} (h : cnClMsg d c = some m) : m ∈ tables := by
  unfold cnClMsg at h
  split at h
  · cases h; exact mem_tables (k := 33) (by rfl)
  · split at h
    · cases h; exact mem_tables (k := 77) (by rfl)
    · split at h
      · exact protocolMsg_mem h
      · cases h

theorem ranCoMsg_mem {d c : Nat} {m : MsgDef} (h : ranCoMsg d c = some m) : m ∈ tables := by
  unfold ranCoMsg at h
  split at h
  · exact protocolMsg_mem h
  · cases h

/-- **C97**: so one message costs at most one block for every two octets, whatever is in it. -/
theorem C97_bounded (data : Bytes) : ∃ a b c,
    replay [] (cnRxCo data Mem.init).2.trace = some a ∧ replay [] (cnRxCl data Mem.init).2.trace = some b ∧
    replay [] (ranRxCo data Mem.init).2.trace = some c ∧
    2 * a.length ≤ data.length ∧ 2 * b.length ≤ data.length ∧ 2 * c.length ≤ data.length := by
  have key : ∀ {keeps : Bool} {sw : Switch} {dflt : Int} {rc : Int} {tr : List (Ev Message)}
      {msgs : Nat → Nat → Option MsgDef}, (∀ p c, sw.at p c = msgs p c) → (∀ p c m, msgs p c = some m → m ∈ tables) →
      Fate keeps sw dflt data rc tr → ∃ live, replay [] tr = some live ∧ 2 * live.length ≤ data.length := by
    intro keeps sw dflt rc tr msgs hsw ht hf
    obtain ⟨live, h1, h2, h3⟩ := fate_left hsw hf
    refine ⟨live, h1, ?_⟩
    by_cases hx : ∀ p c crit m l, ¬ Pdu msgs data p c crit m l
    · rw [h3 hx]; simp
    · simp only [Classical.not_forall, Classical.not_not] at hx
      obtain ⟨p, c, crit, m, l, hp⟩ := hx
      obtain ⟨good, rest, hs, -⟩ := C97_split m l
      have h4 := h2 _ _ _ _ _ _ _ hp hs
      obtain ⟨value, g1, g2, g3⟩ := hp
      have h5 := (C96_message (ht _ _ _ g2) g3).2
      have h6 := C96_pdu g1
      have h7 : owners m good ≤ good.length := List.countP_le_length
      have h8 := replaced_le m good
      have h9 : l.length = good.length + rest.length := by rw [hs.1, List.length_append]
      split at h4 <;> omega
  obtain ⟨a, h1, h2⟩ := key cnCo_table (fun _ _ _ h => cnCoMsg_mem h) (cnRxCo_fate data)
  obtain ⟨b, h3, h4⟩ := key cnCl_table (fun _ _ _ h => cnClMsg_mem h) (cnRxCl_fate data)
  obtain ⟨c, h5, h6⟩ := key ranCo_table (fun _ _ _ h => ranCoMsg_mem h) (ranRxCo_fate data)
  exact ⟨a, b, c, h1, h3, h5, h2, h4, h6⟩

end Verif.Props
