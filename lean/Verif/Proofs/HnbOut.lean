import Verif.Proofs.HnbLink

/-! The HNB emulator: what is reported to the user. -/

namespace Verif.Hnb
open Verif.Aper Verif.Ie Verif.Ie.Spec Verif.Rx Verif.Rx.Spec Verif.Linked Verif.Hnb.Spec Verif.Factory.Spec
open Verif.Linked.Spec (CoMsg ClMsg elem octetsOf Has)
open Verif.Spec.Bcd (IsDigit Tbcd)

theorem tbcd_unique {imsi t : Bytes} (hd : ∀ c ∈ imsi, IsDigit c) (h : Tbcd imsi t) : t = Bcd.tbcd imsi := by
  have hl := Bcd.tbcd_length imsi
  apply List.ext_getElem (by rw [h.1, hl])
  intro i h1 h2
  obtain ⟨a, b⟩ := h.2 i t[i] (List.getElem?_eq_getElem h1)
  obtain ⟨a', b'⟩ := Bcd.tbcd_layout imsi hd i h2
  apply BitVec.eq_of_toNat_eq
  omega

theorem shown_tbcd {imsi t : Bytes} (hd : ∀ c ∈ imsi, IsDigit c) (hl : imsi.length ≤ 15) (h : Tbcd imsi t) : shown t = imsi := by
  rw [tbcd_unique hd h]
  unfold shown
  rw [Bcd.digitChars_tbcd imsi hd, List.take_of_length_le hl]

theorem carries_unique {m : MsgDef} {value : Bytes} {l l' : List Ie} (h : Carries m value l) (h' : Carries m value l') : l = l' := by
  unfold Carries at h h'
  rw [h] at h'
  have := congrArg elements (Option.some.inj h')
  rw [elements_container, elements_container] at this
  exact Option.some.inj this

theorem hnbap_unique {data : Bytes} {code : Nat} {m : MsgDef} {l l' : List Ie} (h : Hnbap data code m l) (h' : Hnbap data code m l') :
    l = l' := by
  obtain ⟨d, v, h1, h2, -⟩ := h
  obtain ⟨d', v', h1', h2', -⟩ := h'
  obtain ⟨-, -, rfl⟩ := hnbapPdu_unique h1 h1'
  exact carries_unique h2 h2'

theorem registered_unique {data : Bytes} {n : BitVec 16} {rnc : Nat} (h : Registered data n) (ha : RegisterAccept data rnc) :
    n = BitVec.ofNat 16 rnc := by
  obtain ⟨value, l, h1, h2, h3, h4⟩ := ha
  have hl : Hnbap data 1 Gen.Hnbap.hNBRegisterAcceptIEs l := ⟨2, value, h1, h2, h3⟩
  cases h with
  | rncId h hn =>
    obtain rfl := hnbap_unique hl h
    rw [h4] at hn
    cases hn
    simp
  | noRncId h hn =>
    obtain rfl := hnbap_unique hl h
    exact absurd ((acc_rnc h3).1 ⟨_, h4⟩) hn
  | wrong h hn => exact absurd ⟨_, hl⟩ hn

theorem hnbap_code {data : Bytes} {c c' : Nat} {m m' : MsgDef} {l l' : List Ie} (h : Hnbap data c m l) (h' : Hnbap data c' m' l') :
    c = c' := by
  obtain ⟨d, v, h1, -⟩ := h
  obtain ⟨d', v', h1', -⟩ := h'
  exact (hnbapPdu_unique h1 h1').2.1

theorem registered_code {data : Bytes} {n : BitVec 16} (h : Registered data n) : ∃ d v, HnbapPdu data d 1 v := by
  cases h with
  | rncId h hn => obtain ⟨d, v, h, -⟩ := h; exact ⟨d, v, h⟩
  | noRncId h hn => obtain ⟨d, v, h, -⟩ := h; exact ⟨d, v, h⟩
  | wrong h hn => exact ⟨_, _, h⟩

theorem ueRegistered_code {data t : Bytes} {ctx : BitVec 32} (h : UeRegistered data t ctx) : ∃ d v, HnbapPdu data d 3 v := by
  obtain ⟨⟨d, v, h, -⟩, -⟩ := h
  exact ⟨d, v, h⟩

theorem ueRegistered_unique {data t imsi : Bytes} {ctx : BitVec 32} {n : Nat} (h : UeRegistered data t ctx)
    (ha : UeRegisterAccept data imsi n) (hd : ∀ c ∈ imsi, IsDigit c) (hl : imsi.length ≤ 15) : t = imsi ∧ ctx = BitVec.ofNat 32 n := by
  obtain ⟨value, l, t', b, h1, h2, h3, h4, h5, h6, rfl⟩ := ha
  obtain ⟨h, hi, hc⟩ := h
  obtain rfl := hnbap_unique ⟨2, value, h1, h2, h3⟩ h
  rw [h4] at hi
  cases hi
  rw [h6] at hc
  cases hc
  exact ⟨shown_tbcd hd hl h5, rfl⟩

theorem cl_unique {data x x' : Bytes} (h : Cl data x) (h' : Cl data x') : x = x' := by
  obtain ⟨r, h, rfl⟩ := h
  obtain ⟨r', h', rfl⟩ := h'
  obtain ⟨-, rfl⟩ := ruaMsg_unique h h'
  rfl

theorem clMsg_unique {data : Bytes} {p c p' c' : Nat} {l l' : List Ie} (h : ClMsg data p c l) (h' : ClMsg data p' c' l') :
    p = p' ∧ c = c' ∧ l = l' := by
  obtain ⟨crit, m, ⟨v, h1, h2, h3⟩, -⟩ := h
  obtain ⟨crit', m', ⟨v', h1', h2', h3'⟩, -⟩ := h'
  have := (isPdu_iff.1 h1).symm.trans (isPdu_iff.1 h1')
  simp only [Option.some.injEq, Prod.mk.injEq] at this
  obtain ⟨rfl, rfl, rfl, rfl⟩ := this
  obtain rfl := Option.some.inj (h2.symm.trans h2')
  exact ⟨rfl, rfl, carries_unique h3 h3'⟩

theorem paged_unique {data t imsi : Bytes} (h : Paged data t) (ha : Paging data imsi) (hd : ∀ c ∈ imsi, IsDigit c)
    (hl : imsi.length ≤ 15) : t = imsi := by
  obtain ⟨x, l, t', h1, h2, h3, h4⟩ := ha
  cases h with
  | imsi h hm hi =>
    obtain rfl := cl_unique h1 h
    obtain ⟨-, -, rfl⟩ := clMsg_unique h2 hm
    rw [h3] at hi
    cases hi
    exact shown_tbcd hd hl h4
  | noImsi h hm hi =>
    obtain rfl := cl_unique h1 h
    obtain ⟨-, -, rfl⟩ := clMsg_unique h2 hm
    exact absurd ⟨_, h3⟩ hi
  | outcome h hm =>
    obtain rfl := cl_unique h1 h
    obtain ⟨crit, m, ⟨v, g1, -⟩, -⟩ := h2
    have := (isPdu_iff.1 g1).symm.trans (isPdu_iff.1 hm)
    simp at this

theorem paging_paged {data imsi : Bytes} (ha : Paging data imsi) : ∃ t, Paged data t := by
  obtain ⟨x, l, t', h1, h2, h3, -⟩ := ha
  exact ⟨_, .imsi h1 h2 h3⟩

theorem asks_co {env : Env} {s : State} {data : Bytes} {a : Answer} (ha : Asks env s data a) : ∃ p c l, Co data p c l := by
  cases ha with
  | nas h => exact ⟨_, _, _, h⟩
  | security h => exact ⟨_, _, _, h⟩
  | release h => exact ⟨_, _, _, h⟩

/-- Connectionless and connection oriented messages are told apart. -/
theorem co_cl {data x : Bytes} {p c : Nat} {l : List Ie} (h : Co data p c l) (h' : Cl data x) : False := by
  obtain ⟨r, h, -⟩ := h
  obtain ⟨r', h', -⟩ := h'
  exact absurd (ruaMsg_unique h h').1 (by decide)

/-- The elements of a generated connectionless message. -/
theorem says_cl {bs : Bytes} {direction code : Nat} {want : List (Nat × Val)} {m : MsgDef}
    (h : Says bs direction code want) (hn : (want.map (·.1)).Nodup) (hm : cnClMsg direction code = some m)
    (hp : protocolMsg direction code = some m) :
    ∃ l, ClMsg bs direction code l ∧ ∀ d ∈ m.ies, elem m l d.id = want.lookup d.id := by
  obtain ⟨p, m', l, h1, h2, h3, h4, h5, h6⟩ := Factory.says_pdu h
  have : m' = m := by
    rw [protocolMsg, h1] at hp
    exact Option.some.inj (h2.symm.trans hp)
  subst this
  refine ⟨l, ⟨p.crit, m', ⟨_, isPdu_iff.2 h4, hm, h5⟩, Factory.elements_valid h6⟩, fun d hd => ?_⟩
  obtain ⟨a, -⟩ := Factory.elements_lookup h3 h6 hn hd
  rw [← a]
  unfold elem
  have hf : m'.ies.find? (·.id = d.id) = some d := by
    cases hf : m'.ies.find? (·.id = d.id) with
    | none => exact absurd (List.find?_eq_none.1 hf d hd) (by simp)
    | some x =>
      have h7 := List.find?_some hf
      rw [Factory.row_eq h3 (List.mem_of_find?_eq_some hf) hd (by simpa using h7)]
  rw [hf]
  cases lastWith d.id l <;> rfl

end Verif.Hnb
