import Verif.Proofs.HnbMem
import Verif.Props.Leak
import Verif.Props.HnbRecv

/-!
# C115: the memory of the HNB emulator
-/

namespace Verif.Props
open Verif.Aper Verif.Aper.Spec Verif.Ie Verif.Ie.Spec Verif.Rx Verif.Rx.Spec Verif.Gen Verif.Linked Verif.Linked.Spec Verif.Hnb Verif.Hnb.Spec

/-- **C115**, the full statement: when a message has been handled, nothing is left of what was allocated for decoding it. -/
def C115_full : Prop := ∀ (ppid : Nat) (data : Bytes), Leaves (recvMem ppid data) 0

theorem leaves_zero : Leaves (fun μ => μ) 0 := fun _ _ h => ⟨[], h, rfl⟩

theorem leaves_alloc : Leaves (fun μ => (μ.alloc true).2) 1 := fun μ _ h => ⟨[μ.next], inUse_alloc h, rfl⟩

theorem leaves_then {f g : Mem Message → Mem Message} {a b : Nat} (hf : Leaves f a) (hg : Leaves g b) :
    Leaves (fun μ => g (f μ)) (a + b) := by
  intro μ live h
  obtain ⟨n1, h1, rfl⟩ := hf μ live h
  obtain ⟨n2, h2, rfl⟩ := hg (f μ) _ h1
  exact ⟨n2 ++ n1, by rw [List.append_assoc]; exact h2, by rw [List.length_append]; omega⟩

theorem leaves_eq {f : Mem Message → Mem Message} {a b : Nat} (h : Leaves f a) (e : a = b) : Leaves f b := e ▸ h

/-- There is only one such number. -/
theorem leaves_unique {f : Mem Message → Mem Message} {a b : Nat} (ha : Leaves f a) (hb : Leaves f b) : a = b := by
  obtain ⟨x, ⟨⟨l, e, p⟩, -⟩, rfl⟩ := ha Mem.init [] inUse_init
  obtain ⟨y, ⟨⟨l', e', p'⟩, -⟩, rfl⟩ := hb Mem.init [] inUse_init
  rw [e] at e'; cases e'
  have h1 := p.length_eq
  have h2 := p'.length_eq
  rw [List.append_nil] at h1 h2
  omega

/-- Decoding without freeing. -/
theorem leaves_decode {m : MsgDef} (hm : m ∈ tables) {value : Bytes} {l good rest : List Ie} (hc : Carries m value l)
    (hs : SplitAtBad m l good rest) : Leaves (fun μ => (decodeIes m value μ).2) (owners m good) := by
  intro μ live h
  obtain ⟨new, h1, h2⟩ := decodeIes_inUse (Ie.good hm) value h
  exact ⟨new, h1, (h2.count l good rest hc hs).2.1⟩

/-- Decoding, something else that keeps what is in use, and freeing. -/
theorem leaves_around {m : MsgDef} (hm : m ∈ tables) {value : Bytes} {l good rest : List Ie} (hc : Carries m value l)
    (hs : SplitAtBad m l good rest) (g : Struct → Mem Message → Mem Message) {n : Nat}
    (hg : ∀ μ live s, (rest = [] → Holds m l s) → InUse μ live → ∃ new, InUse (g s μ) (new ++ live) ∧ new.length = n) :
    Leaves (fun μ => freeIes m (decodeIes m value μ).1.2 (g (decodeIes m value μ).1.2 (decodeIes m value μ).2)) (replaced m good + n) := by
  intro μ live h
  obtain ⟨new, h1, h2⟩ := decodeIes_inUse (Ie.good hm) value h
  have hcnt := h2.count l good rest hc hs
  obtain ⟨more, h3, h4⟩ := hg _ _ (decodeIes m value μ).1.2 (fun hr => h2.holds l hc (hcnt.1.2 hr)) h1
  obtain ⟨left, h5, h6⟩ := freeIes_inUse (Ie.good hm) h2 (live := more ++ live) (inUse_perm h3 (by
    rw [← List.append_assoc, ← List.append_assoc]
    exact List.perm_append_comm.append_right _))
  exact ⟨left ++ more, by rw [List.append_assoc]; exact h5, by rw [List.length_append]; omega⟩

theorem rc_neg {m : MsgDef} (hm : m ∈ tables) {value : Bytes} (μ : Mem Message) :
    ((decodeIes m value μ).1.1 < 0 ↔ ¬ ∃ l, Carries m value l ∧ ∀ ie ∈ l, Valid m ie) ∧
    ((∀ l, ¬ Carries m value l) → decodeIes m value μ = ((-1, m.zero), μ)) := by
  rcases carries_or_not (Ie.good hm) value with ⟨l, hc⟩ | hn
  · have hd := decodeIes_spec (Ie.good hm) hc μ
    refine ⟨?_, fun h => absurd hc (h l)⟩
    constructor
    · rintro h ⟨l', hc', hv⟩
      cases carries_inj hc hc'
      rw [hd.ok_iff.2 hv] at h
      exact absurd h (by decide)
    · intro h
      rcases hd.rc_cases with h0 | h0
      · exact absurd ⟨l, hc, hd.ok_iff.1 h0⟩ h
      · rw [h0]; decide
  · have e : decodeIes m value μ = ((-1, m.zero), μ) := by unfold decodeIes; rw [hn]
    refine ⟨?_, fun _ => e⟩
    rw [e]
    refine ⟨fun _ => ?_, fun _ => (by decide : (-1 : Int) < 0)⟩
    rintro ⟨l, hc, -⟩
    unfold Carries at hc; rw [hn] at hc; cases hc

theorem split_valid {m : MsgDef} {l good rest : List Ie} (hs : SplitAtBad m l good rest) :
    rest = [] ↔ ∀ ie ∈ l, Valid m ie := by
  obtain ⟨h1, h2, h3⟩ := hs
  subst h1
  constructor
  · rintro rfl
    simpa using h2
  · intro h
    cases rest with
    | nil => rfl
    | cons x r => exact absurd (h x (by simp)) (h3 x rfl)

theorem ruaTables : Rua.directTransferIEs ∈ tables ∧ Rua.connectionlessTransferIEs ∈ tables :=
  ⟨(Verif.Rua.message_mem (code := 2) rfl).1, (Verif.Rua.message_mem (code := 4) rfl).1⟩

/-! ## RUA -/

/-- After the PDU. -/
theorem leaves_rua {data value : Bytes} {code n : Nat} (hp : IsPduOf Rua.RUA_RUA_PDU data code value)
    (h : Leaves (fun μ => if code = 4 then ruaClMem value μ else if code = 2 then ruaDtMem value μ else μ) n) :
    Leaves (recvMem 19 data) (1 + n) := by
  have e : recvMem 19 data = fun μ => (fun μ => if code = 4 then ruaClMem value μ else if code = 2 then ruaDtMem value μ else μ)
      ((fun μ => (μ.alloc true).2) μ) := by
    funext μ
    unfold recvMem ruaRxMem
    rw [if_neg (by decide), if_pos rfl, pdu_iff.2 hp]
  rw [e]
  exact leaves_then leaves_alloc h

theorem leaves_hnbap {data value : Bytes} {code n : Nat} (hp : IsPduOf Hnbap.HNBAP_HNBAP_PDU data code value)
    (h : Leaves (fun μ => if code = 1 then registerAccMem value μ else if code = 3 then ueRegisterAccMem value μ else μ) n) :
    Leaves (recvMem 20 data) (1 + n) := by
  have e : recvMem 20 data = fun μ => (fun μ => if code = 1 then registerAccMem value μ else if code = 3 then ueRegisterAccMem value μ else μ)
      ((fun μ => (μ.alloc true).2) μ) := by
    funext μ
    unfold recvMem hnbapRxMem
    rw [if_pos rfl, pdu_iff.2 hp]
  rw [e]
  exact leaves_then leaves_alloc h

/-- **C115** for a RUA Direct Transfer: the PDU is left; the elements in front of a bad one are left; otherwise those that are
replaced, and what `ranap_cn_rx_co` leaves of the RANAP message inside. -/
theorem C115_direct_transfer {data value : Bytes} {l good rest : List Ie} {n : Nat}
    (hp : IsPduOf Rua.RUA_RUA_PDU data 2 value) (hc : Carries Rua.directTransferIEs value l)
    (hs : SplitAtBad Rua.directTransferIEs l good rest)
    (hn : CoLeft (octetsOf (elem Rua.directTransferIEs l 4)) n) :
    Leaves (recvMem 19 data) (1 + if rest = [] then replaced Rua.directTransferIEs good + n else owners Rua.directTransferIEs good) := by
  refine leaves_rua hp ?_
  by_cases hr : rest = []
  · rw [if_pos hr]
    have e : (fun μ => if (2 : Nat) = 4 then ruaClMem value μ else if (2 : Nat) = 2 then ruaDtMem value μ else μ) = fun μ =>
        freeIes Rua.directTransferIEs (decodeIes Rua.directTransferIEs value μ).1.2
          ((fun (s : Struct) μ => (cnRxCo (str (member Rua.directTransferIEs s 4)) μ).2) (decodeIes Rua.directTransferIEs value μ).1.2
            (decodeIes Rua.directTransferIEs value μ).2) := by
      funext μ
      rw [if_neg (by decide), if_pos rfl]
      unfold ruaDtMem
      dsimp only
      rw [if_neg]
      rw [(rc_neg ruaTables.1 μ).1]
      exact fun h => h ⟨l, hc, (split_valid hs).1 hr⟩
    rw [e]
    refine leaves_around ruaTables.1 hc hs (fun (s : Struct) μ => (cnRxCo (str (member Rua.directTransferIEs s 4)) μ).2) ?_
    intro μ live s hh hu
    have hmem := member_eq (id := 4) (hh hr) (by with_unfolding_all rfl) (by with_unfolding_all rfl)
    rw [hmem, str_eq]
    exact cnRxCo_leaves _ hn μ live hu
  · rw [if_neg hr]
    have e : (fun μ => if (2 : Nat) = 4 then ruaClMem value μ else if (2 : Nat) = 2 then ruaDtMem value μ else μ) = fun μ =>
        (decodeIes Rua.directTransferIEs value μ).2 := by
      funext μ
      rw [if_neg (by decide), if_pos rfl]
      unfold ruaDtMem
      dsimp only
      rw [if_pos]
      rw [(rc_neg ruaTables.1 μ).1]
      rintro ⟨l', hc', hv⟩
      cases carries_inj hc hc'
      exact hr ((split_valid hs).2 hv)
    rw [e]
    exact leaves_decode ruaTables.1 hc hs

/-- **C115** for a RUA Connectionless Transfer. -/
theorem C115_connectionless {data value : Bytes} {l good rest : List Ie} {n : Nat}
    (hp : IsPduOf Rua.RUA_RUA_PDU data 4 value) (hc : Carries Rua.connectionlessTransferIEs value l)
    (hs : SplitAtBad Rua.connectionlessTransferIEs l good rest)
    (hn : ClLeft (octetsOf (elem Rua.connectionlessTransferIEs l 4)) n) :
    Leaves (recvMem 19 data)
      (1 + if rest = [] then replaced Rua.connectionlessTransferIEs good + n else owners Rua.connectionlessTransferIEs good) := by
  refine leaves_rua hp ?_
  by_cases hr : rest = []
  · rw [if_pos hr]
    have e : (fun μ => if (4 : Nat) = 4 then ruaClMem value μ else if (4 : Nat) = 2 then ruaDtMem value μ else μ) = fun μ =>
        freeIes Rua.connectionlessTransferIEs (decodeIes Rua.connectionlessTransferIEs value μ).1.2
          ((fun (s : Struct) μ => (cnRxCl (str (member Rua.connectionlessTransferIEs s 4)) μ).2)
            (decodeIes Rua.connectionlessTransferIEs value μ).1.2 (decodeIes Rua.connectionlessTransferIEs value μ).2) := by
      funext μ
      rw [if_pos rfl]
      unfold ruaClMem
      dsimp only
      rw [if_neg]
      rw [(rc_neg ruaTables.2 μ).1]
      exact fun h => h ⟨l, hc, (split_valid hs).1 hr⟩
    rw [e]
    refine leaves_around ruaTables.2 hc hs (fun (s : Struct) μ => (cnRxCl (str (member Rua.connectionlessTransferIEs s 4)) μ).2) ?_
    intro μ live s hh hu
    have hmem := member_eq (id := 4) (hh hr) (by with_unfolding_all rfl) (by with_unfolding_all rfl)
    rw [hmem, str_eq]
    exact cnRxCl_leaves _ hn μ live hu
  · rw [if_neg hr]
    have e : (fun μ => if (4 : Nat) = 4 then ruaClMem value μ else if (4 : Nat) = 2 then ruaDtMem value μ else μ) = fun μ =>
        (decodeIes Rua.connectionlessTransferIEs value μ).2 := by
      funext μ
      rw [if_pos rfl]
      unfold ruaClMem
      dsimp only
      rw [if_pos]
      rw [(rc_neg ruaTables.2 μ).1]
      rintro ⟨l', hc', hv⟩
      cases carries_inj hc hc'
      exact hr ((split_valid hs).2 hv)
    rw [e]
    exact leaves_decode ruaTables.2 hc hs

/-! ## HNBAP -/

/-- **C115** for the registration of the HNB: the PDU is left, and what is replaced, whether there is a bad element or not. -/
theorem C115_register {data value : Bytes} {l good rest : List Ie}
    (hp : IsPduOf Hnbap.HNBAP_HNBAP_PDU data 1 value) (hc : Carries Hnbap.hNBRegisterAcceptIEs value l)
    (hs : SplitAtBad Hnbap.hNBRegisterAcceptIEs l good rest) :
    Leaves (recvMem 20 data) (1 + replaced Hnbap.hNBRegisterAcceptIEs good) := by
  refine leaves_hnbap hp ?_
  exact leaves_around acc_mem hc hs (fun _ μ => μ) (n := 0) (fun μ live s _ h => ⟨[], h, rfl⟩)

/-- The subscriber is identified by an IMSI. -/
def SaysImsi (l : List Ie) : Prop := ∃ v, elem Hnbap.uERegisterAcceptIEs l 5 = some (.choice 0 v)

/-- **C115** for the registration of a UE: the PDU is left; the elements in front of a bad one are left, or all of them if the
subscriber is not identified by an IMSI; otherwise those that are replaced. -/
theorem C115_ue_register {data value : Bytes} {l good rest : List Ie} {n : Nat}
    (hp : IsPduOf Hnbap.HNBAP_HNBAP_PDU data 3 value) (hc : Carries Hnbap.uERegisterAcceptIEs value l)
    (hs : SplitAtBad Hnbap.uERegisterAcceptIEs l good rest)
    (h1 : rest = [] ∧ SaysImsi l → n = replaced Hnbap.uERegisterAcceptIEs good)
    (h2 : ¬ (rest = [] ∧ SaysImsi l) → n = owners Hnbap.uERegisterAcceptIEs good) :
    Leaves (recvMem 20 data) (1 + n) := by
  refine leaves_hnbap hp ?_
  by_cases hx : rest = [] ∧ SaysImsi l
  · rw [h1 hx]
    have e : (fun μ => if (3 : Nat) = 1 then registerAccMem value μ else if (3 : Nat) = 3 then ueRegisterAccMem value μ else μ) =
        fun μ => freeIes Hnbap.uERegisterAcceptIEs (decodeIes Hnbap.uERegisterAcceptIEs value μ).1.2
          ((fun _ μ => μ) (decodeIes Hnbap.uERegisterAcceptIEs value μ).1.2 (decodeIes Hnbap.uERegisterAcceptIEs value μ).2) := by
      funext μ
      rw [if_neg (by decide), if_pos rfl]
      unfold ueRegisterAccMem
      dsimp only
      have hv := (split_valid hs).1 hx.1
      rw [if_neg (by rw [(rc_neg ueAcc_mem μ).1]; exact fun h => h ⟨l, hc, hv⟩)]
      have hd := decodeIes_spec (Ie.good ueAcc_mem) hc μ
      rw [hd.ok_iff.2 hv] at hd
      obtain ⟨v, e⟩ := hx.2
      rw [member_eq (id := 5) (holds_of_dec hd) (by with_unfolding_all rfl) (by with_unfolding_all rfl), e]
      rfl
    rw [e]
    exact leaves_around ueAcc_mem hc hs (fun _ μ => μ) (n := 0) (fun μ live s _ h => ⟨[], h, rfl⟩)
  · rw [h2 hx]
    have e : (fun μ => if (3 : Nat) = 1 then registerAccMem value μ else if (3 : Nat) = 3 then ueRegisterAccMem value μ else μ) =
        fun μ => (decodeIes Hnbap.uERegisterAcceptIEs value μ).2 := by
      funext μ
      rw [if_neg (by decide), if_pos rfl]
      unfold ueRegisterAccMem
      dsimp only
      by_cases hr : rest = []
      · have hv := (split_valid hs).1 hr
        rw [if_neg (by rw [(rc_neg ueAcc_mem μ).1]; exact fun h => h ⟨l, hc, hv⟩)]
        have hd := decodeIes_spec (Ie.good ueAcc_mem) hc μ
        rw [hd.ok_iff.2 hv] at hd
        rw [member_eq (id := 5) (holds_of_dec hd) (by with_unfolding_all rfl) (by with_unfolding_all rfl)]
        split
        · next v e => exact absurd ⟨hr, v, e⟩ hx
        · rfl
      · rw [if_pos]
        rw [(rc_neg ueAcc_mem μ).1]
        rintro ⟨l', hc', hv⟩
        cases carries_inj hc hc'
        exact hr ((split_valid hs).2 hv)
    rw [e]
    exact leaves_decode ueAcc_mem hc hs

/-! ## Everything else -/

/-- The message whose elements the emulator decodes: of RUA (19) Direct Transfer and Connectionless Transfer, of HNBAP (20) the
acceptance of a registration of an HNB or a UE. -/
def decodedBy (ppid code : Nat) : Option MsgDef :=
  if ppid = 19 then
    if code = 4 then some Rua.connectionlessTransferIEs else if code = 2 then some Rua.directTransferIEs else none
  else
    if code = 1 then some Hnbap.hNBRegisterAcceptIEs else if code = 3 then some Hnbap.uERegisterAcceptIEs else none

/-- The PDU type of the two protocols. -/
def pduType (ppid : Nat) : Ty := if ppid = 19 then Rua.RUA_RUA_PDU else Hnbap.HNBAP_HNBAP_PDU

/-- **C115** for the other PDUs, and those without a list of elements: the PDU is left. -/
theorem C115_other {ppid : Nat} {data value : Bytes} {code : Nat} (h19 : ppid = 19 ∨ ppid = 20)
    (hp : IsPduOf (pduType ppid) data code value)
    (hn : ∀ m l, decodedBy ppid code = some m → ¬ Carries m value l) : Leaves (recvMem ppid data) 1 := by
  rcases h19 with rfl | rfl
  · refine leaves_rua (n := 0) hp ?_
    have e : (fun μ => if code = 4 then ruaClMem value μ else if code = 2 then ruaDtMem value μ else μ) = fun μ => μ := by
      funext μ
      by_cases h4 : code = 4
      · rw [if_pos h4]
        unfold ruaClMem
        dsimp only
        rw [(rc_neg ruaTables.2 μ).2 fun l => hn _ l (by rw [h4]; rfl)]
        rfl
      · rw [if_neg h4]
        by_cases h2 : code = 2
        · rw [if_pos h2]
          unfold ruaDtMem
          dsimp only
          rw [(rc_neg ruaTables.1 μ).2 fun l => hn _ l (by rw [h2]; rfl)]
          rfl
        · rw [if_neg h2]
    rw [e]
    exact leaves_zero
  · refine leaves_hnbap (n := 0) hp ?_
    have e : (fun μ => if code = 1 then registerAccMem value μ else if code = 3 then ueRegisterAccMem value μ else μ) = fun μ => μ := by
      funext μ
      by_cases h4 : code = 1
      · rw [if_pos h4]
        unfold registerAccMem
        dsimp only
        rw [(rc_neg acc_mem μ).2 fun l => hn _ l (by rw [h4]; rfl)]
        dsimp only
        rw [freeIes_eq (Ie.good acc_mem) (by simp [MsgDef.zero]) (occ_zero _), blocks_zero]
        simp
      · rw [if_neg h4]
        by_cases h2 : code = 3
        · rw [if_pos h2]
          unfold ueRegisterAccMem
          dsimp only
          rw [(rc_neg ueAcc_mem μ).2 fun l => hn _ l (by rw [h2]; rfl)]
          rfl
        · rw [if_neg h2]
    rw [e]
    exact leaves_zero

/-- **C115_partial**: nothing is left of what is not a PDU of RUA or HNBAP. -/
theorem C115_partial {ppid : Nat} {data : Bytes}
    (h : (ppid = 19 ∨ ppid = 20) → ∀ code value, ¬ IsPduOf (pduType ppid) data code value) : Leaves (recvMem ppid data) 0 := by
  have e : recvMem ppid data = fun μ => μ := by
    funext μ
    unfold recvMem
    by_cases h1 : ppid = 20
    · rw [if_pos h1]
      unfold hnbapRxMem
      cases hd : Hnb.decodePdu Hnbap.HNBAP_HNBAP_PDU data with
      | none => rfl
      | some x =>
        refine absurd (pdu_iff.1 hd) ?_
        subst h1
        exact h (Or.inr rfl) x.1 x.2
    · rw [if_neg h1]
      by_cases h2 : ppid = 19
      · rw [if_pos h2]
        unfold ruaRxMem
        cases hd : Hnb.decodePdu Rua.RUA_RUA_PDU data with
        | none => rfl
        | some x =>
          refine absurd (pdu_iff.1 hd) ?_
          subst h2
          exact h (Or.inl rfl) x.1 x.2
      · rw [if_neg h2]
  rw [e]
  exact leaves_zero

theorem coLeft_exists (data : Bytes) : ∃ n, CoLeft data n ∧ 2 * n ≤ data.length := by
  by_cases hx : ∀ p c crit m l, ¬ Pdu cnCoMsg data p c crit m l
  · exact ⟨0, Or.inr ⟨hx, rfl⟩, by omega⟩
  · simp only [Classical.not_forall, Classical.not_not] at hx
    obtain ⟨p, c, crit, m, l, hp⟩ := hx
    obtain ⟨good, rest, hs, -⟩ := C97_split m l
    refine ⟨_, Or.inl ⟨p, c, crit, m, l, good, rest, hp, hs, rfl⟩, ?_⟩
    obtain ⟨value, g1, g2, g3⟩ := hp
    have h5 := (C96_message (cnCoMsg_mem g2) g3).2
    have h6 := C96_pdu g1
    have h7 : owners m good ≤ good.length := List.countP_le_length
    have h8 := replaced_le m good
    have h9 : l.length = good.length + rest.length := by rw [hs.1, List.length_append]
    split <;> omega

theorem clLeft_exists (data : Bytes) : ∃ n, ClLeft data n ∧ 2 * n ≤ data.length := by
  by_cases hx : ∀ p c crit m l, ¬ Pdu cnClMsg data p c crit m l
  · exact ⟨0, Or.inr ⟨hx, rfl⟩, by omega⟩
  · simp only [Classical.not_forall, Classical.not_not] at hx
    obtain ⟨p, c, crit, m, l, hp⟩ := hx
    obtain ⟨good, rest, hs, -⟩ := C97_split m l
    refine ⟨_, Or.inl ⟨p, c, crit, m, l, good, rest, hp, hs, rfl⟩, ?_⟩
    obtain ⟨value, g1, g2, g3⟩ := hp
    have h5 := (C96_message (cnClMsg_mem g2) g3).2
    have h6 := C96_pdu g1
    have h7 : owners m good ≤ good.length := List.countP_le_length
    have h8 := replaced_le m good
    have h9 : l.length = good.length + rest.length := by rw [hs.1, List.length_append]
    omega

theorem isPduOf_size {t : Ty} {data value : Bytes} {code : Nat} (h : IsPduOf t data code value) : value.length ≤ data.length := by
  obtain ⟨i, crit, pc, -, hd⟩ := h
  have := decode_octetsIn hd
  simp only [octetsIn, octetsInOpt] at this
  omega

theorem le_sum_mem {n : Nat} {l : List Nat} (h : n ∈ l) : n ≤ l.sum := by
  induction l with
  | nil => cases h
  | cons a l ih =>
    rw [List.sum_cons]
    rcases List.mem_cons.1 h with rfl | h
    · omega
    · have := ih h
      omega

/-- The payload and the number of elements. -/
theorem payload_size {m : MsgDef} (hm : m ∈ tables) {value : Bytes} {l : List Ie} (hc : Carries m value l) (id : Nat) :
    2 * l.length + (octetsOf (elem m l id)).length ≤ value.length := by
  have h1 := carries_size hm hc
  have h2 : (octetsOf (elem m l id)).length ≤ (l.map (·.value.length)).sum := by
    unfold elem
    split
    · next d ie hd hl =>
      have hmem : ie ∈ l := by
        unfold lastWith at hl
        exact (List.mem_filter.1 (List.mem_of_getLast? hl)).1
      have hle : ie.value.length ≤ (l.map (·.value.length)).sum :=
        le_sum_mem (List.mem_map.2 ⟨ie, hmem, rfl⟩)
      cases hv : decode d.ty ie.value with
      | none => simp [octetsOf]
      | some v =>
        have h3 := decode_octetsIn hv
        have h4 : (octetsOf (some v)).length ≤ octetsIn v := by
          cases v <;> simp [octetsOf, octetsIn]
        omega
    · simp [octetsOf]
  omega

theorem split_size {m : MsgDef} {l good rest : List Ie} (hs : SplitAtBad m l good rest) :
    owners m good ≤ l.length ∧ replaced m good ≤ l.length := by
  have h7 : owners m good ≤ good.length := List.countP_le_length
  have h8 := replaced_le m good
  have h9 : l.length = good.length + rest.length := by rw [hs.1, List.length_append]
  omega

/-- **C115**: every PDU leaves something; not more than one block, and one for every two octets.  Of any number of messages, the
sum is left. -/
theorem C115_every {ppid : Nat} {data value : Bytes} {code : Nat} (h19 : ppid = 19 ∨ ppid = 20)
    (hp : IsPduOf (pduType ppid) data code value) :
    ∃ n, Leaves (recvMem ppid data) n ∧ 1 ≤ n ∧ 2 * (n - 1) ≤ data.length := by
  have hsz := isPduOf_size hp
  by_cases hn : ∀ m l, decodedBy ppid code = some m → ¬ Carries m value l
  · exact ⟨1, C115_other h19 hp hn, by omega, by omega⟩
  · simp only [Classical.not_forall, Classical.not_not] at hn
    obtain ⟨m, l, hm, hc⟩ := hn
    obtain ⟨good, rest, hs, -⟩ := C97_split m l
    have h0 := split_size hs
    rcases h19 with rfl | rfl
    · unfold decodedBy at hm
      rw [if_pos rfl] at hm
      split at hm
      · next h4 =>
        cases hm; subst h4
        obtain ⟨n, hn, hle⟩ := clLeft_exists (octetsOf (elem Rua.connectionlessTransferIEs l 4))
        refine ⟨_, C115_connectionless hp hc hs hn, by omega, ?_⟩
        have := payload_size ruaTables.2 hc 4
        split <;> omega
      · split at hm
        · next h2 =>
          cases hm; subst h2
          obtain ⟨n, hn, hle⟩ := coLeft_exists (octetsOf (elem Rua.directTransferIEs l 4))
          refine ⟨_, C115_direct_transfer hp hc hs hn, by omega, ?_⟩
          have := payload_size ruaTables.1 hc 4
          split <;> omega
        · cases hm
    · unfold decodedBy at hm
      rw [if_neg (by decide)] at hm
      split at hm
      · next h1 =>
        cases hm; subst h1
        refine ⟨_, C115_register hp hc hs, by omega, ?_⟩
        have := payload_size acc_mem hc 4
        omega
      · split at hm
        · next h3 =>
          cases hm; subst h3
          have := payload_size ueAcc_mem hc 4
          by_cases hx : rest = [] ∧ SaysImsi l
          · exact ⟨_, C115_ue_register hp hc hs (fun _ => rfl) (fun h => absurd hx h), by omega, by omega⟩
          · exact ⟨_, C115_ue_register hp hc hs (fun h => absurd h hx) (fun _ => rfl), by omega, by omega⟩
        · cases hm

/-- **C115** for any number of messages: what they leave adds up. -/
theorem C115_sum (l : List (Nat × Bytes)) (n : Nat × Bytes → Nat) (h : ∀ x ∈ l, Leaves (recvMem x.1 x.2) (n x)) :
    Leaves (recvAllMem l) (l.map n).sum := by
  induction l with
  | nil => exact leaves_zero
  | cons x l ih =>
    rw [List.map_cons, List.sum_cons]
    have := leaves_then (f := recvMem x.1 x.2) (g := recvAllMem l) (h x (by simp)) (ih fun y hy => h y (by simp [hy]))
    exact this

/-- **C115** is false: an acceptance of the registration leaves its PDU. -/
theorem C115_violated : ¬ C115_full := by
  intro hf
  have hp : IsPduOf Hnbap.HNBAP_HNBAP_PDU registerAccept 1 (registerAccept.drop 4) := pdu_iff.1 (by decide +kernel)
  obtain ⟨n, h1, h2, -⟩ := C115_every (ppid := 20) (Or.inr rfl) hp
  have := leaves_unique h1 (hf 20 registerAccept)
  omega

theorem split_all {m : MsgDef} {l : List Ie}
    (h : l.all (fun ie => m.ies.any (fun d => d.id == ie.id && (decode d.ty ie.value).isSome)) = true) : SplitAtBad m l l [] :=
  ⟨(List.append_nil l).symm, fun ie hie => valid_iff.2 (List.all_eq_true.1 h ie hie), by simp⟩

/-- The acceptance of the registration of a UE: the PDU is left if it is identified by its IMSI ... -/
example : Leaves (recvMem 20 [0x20, 0x03, 0x00, 0x13, 0x00, 0x00, 0x02, 0x00, 0x05, 0x00, 0x05, 0x02, 0x62, 0xf2, 0x10, 0x43,
    0x00, 0x04, 0x40, 0x03, 0xff, 0xff, 0xff]) 1 := by
  refine C115_ue_register (value := [0x00, 0x00, 0x02, 0x00, 0x05, 0x00, 0x05, 0x02, 0x62, 0xf2, 0x10, 0x43, 0x00, 0x04, 0x40,
    0x03, 0xff, 0xff, 0xff]) (l := [⟨5, 0, [0x02, 0x62, 0xf2, 0x10, 0x43]⟩, ⟨4, 1, [0xff, 0xff, 0xff]⟩]) (n := 0)
    (pdu_iff.1 (by decide +kernel)) (carries ueAcc_mem (by decide +kernel)) (split_all (by decide +kernel)) ?_ ?_
  · intro _; decide +kernel
  · intro h
    exact absurd ⟨rfl, .octets [0x62, 0xf2, 0x10, 0x43], by rfl⟩ h

/-- ... and also the identity and the context id if by its IMEI. -/
example : Leaves (recvMem 20 [0x20, 0x03, 0x00, 0x17, 0x00, 0x00, 0x02, 0x00, 0x05, 0x00, 0x09, 0x30, 0xff, 0xff, 0xff, 0xff, 0xff,
    0xff, 0xff, 0xf0, 0x00, 0x04, 0x40, 0x03, 0xff, 0xff, 0xff]) 3 := by
  refine C115_ue_register (value := [0x00, 0x00, 0x02, 0x00, 0x05, 0x00, 0x09, 0x30, 0xff, 0xff, 0xff, 0xff, 0xff, 0xff, 0xff,
    0xf0, 0x00, 0x04, 0x40, 0x03, 0xff, 0xff, 0xff])
    (l := [⟨5, 0, [0x30, 0xff, 0xff, 0xff, 0xff, 0xff, 0xff, 0xff, 0xf0]⟩, ⟨4, 1, [0xff, 0xff, 0xff]⟩]) (n := 2)
    (pdu_iff.1 (by decide +kernel)) (carries ueAcc_mem (by decide +kernel)) (split_all (by decide +kernel)) ?_ ?_
  · rintro ⟨-, v, h⟩
    have : elem Hnbap.uERegisterAcceptIEs [⟨5, 0, [0x30, 0xff, 0xff, 0xff, 0xff, 0xff, 0xff, 0xff, 0xf0]⟩, ⟨4, 1, [0xff, 0xff, 0xff]⟩] 5 =
        some (.choice 3 (.bits (List.replicate 60 true))) := by rfl
    rw [this] at h
    simp at h
  · intro _; decide +kernel

/-- A RUA Direct Transfer around a RANAP Direct Transfer with an unknown element: the PDU of RUA and the NAS PDU are left. -/
example : Leaves (recvMem 19 ([0x00, 0x02, 0x40, 0x26, 0x00, 0x00, 0x03, 0x00, 0x07, 0x00, 0x01, 0x00, 0x00, 0x03, 0x00, 0x03, 0x00, 0x00,
    0x2a, 0x00, 0x04, 0x00, 0x13, 0x12] ++ dtUnknownPdu)) 2 := by
  have hc : Carries Ranap.directTransferIEs (dtUnknownPdu.drop 4) [ieNas1, ieUnknown] := carries dt_mem (by decide +kernel)
  have h := C115_direct_transfer (data := [0x00, 0x02, 0x40, 0x26, 0x00, 0x00, 0x03, 0x00, 0x07, 0x00, 0x01, 0x00, 0x00, 0x03, 0x00, 0x03,
      0x00, 0x00, 0x2a, 0x00, 0x04, 0x00, 0x13, 0x12] ++ dtUnknownPdu)
    (value := [0x00, 0x00, 0x03, 0x00, 0x07, 0x00, 0x01, 0x00, 0x00, 0x03, 0x00, 0x03, 0x00, 0x00, 0x2a, 0x00, 0x04, 0x00,
      0x13, 0x12] ++ dtUnknownPdu)
    (l := [⟨7, 0, [0x00]⟩, ⟨3, 0, [0x00, 0x00, 0x2a]⟩, ⟨4, 0, 0x12 :: dtUnknownPdu⟩]) (n := 1)
    (pdu_iff.1 (by decide +kernel)) (carries ruaTables.1 (by decide +kernel)) (split_all (by decide +kernel)) (Or.inl
      ⟨1, 20, 1, Ranap.directTransferIEs, [ieNas1, ieUnknown], [ieNas1], [ieUnknown], ⟨_, isPdu_iff.2 (by decide +kernel), rfl, hc⟩,
        ⟨rfl, ?_, ?_⟩, by decide +kernel⟩)
  · exact leaves_eq h (by decide +kernel)
  · intro ie hie
    cases List.mem_singleton.1 hie
    exact valid_iff.2 (by decide +kernel)
  · intro x hx
    cases hx
    exact fun h => absurd (valid_iff.1 h) (by decide +kernel)

end Verif.Props
