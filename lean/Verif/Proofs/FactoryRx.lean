import Verif.Proofs.FactoryVals
import Verif.Props.Dispatch

/-!
# Generated messages are understood
-/

namespace Verif.Factory
open Verif.Aper Verif.Ie Verif.Ie.Spec Verif.Rx Verif.Rx.Spec Verif.Wire Verif.Gen.Ranap Verif.Factory.Spec

/-- The messages of a procedure. -/
def msgsOf (p : Proc) : List MsgDef :=
  p.initiating.toList ++ p.successful.toList ++ p.unsuccessful.toList ++ p.outcome.toList

def plainB (m : MsgDef) : Bool :=
  isPlain m.ty && goodB m && m.ies.all fun d => decide (d.id < 65536) && decide (d.crit < 3)

theorem procs_plain : procs.all (fun p => decide (p.code < 256) && decide (p.crit < 3) && (msgsOf p).all plainB) = true := by
  decide +kernel

theorem ofKind_msgs {k : Nat} {p : Proc} {m : MsgDef} (h : ofKind k p = some m) : m ∈ msgsOf p ∧ 1 ≤ k ∧ k ≤ 4 := by
  unfold ofKind at h
  split at h <;> first
    | (refine ⟨?_, by omega, by omega⟩; simp [msgsOf, h])
    | cases h

theorem proc_facts {k code : Nat} {p : Proc} {m : MsgDef} (hp : procs.find? (·.code == code) = some p)
    (hk : ofKind k p = some m) :
    code < 256 ∧ p.crit < 3 ∧ isPlain m.ty = true ∧ Good m ∧ (∀ d ∈ m.ies, d.id < 65536 ∧ d.crit < 3) ∧ 1 ≤ k ∧ k ≤ 4 := by
  obtain ⟨hmem, hcode⟩ := mem_of_find hp
  obtain ⟨hm, h1, h2⟩ := ofKind_msgs hk
  have h := List.all_eq_true.1 procs_plain p hmem
  simp only [Bool.and_eq_true, decide_eq_true_eq] at h
  have h3 := List.all_eq_true.1 h.2 m hm
  simp only [plainB, Bool.and_eq_true] at h3
  refine ⟨hcode ▸ h.1.1, h.1.2, h3.1.1, goodB_sound h3.1.2, fun d hd => ?_, h1, h2⟩
  have := List.all_eq_true.1 h3.2 d hd
  simpa using this

theorem elements_id {m : MsgDef} {l : List Ie} {want : List (Nat × Val)} (h : Elements m l want) :
    ∀ ie ∈ l, ∃ d ∈ m.ies, ie.id = d.id ∧ ie.crit = d.crit ∧ (decode d.ty ie.value).isSome = true := by
  induction l generalizing want with
  | nil => simp
  | cons x l ih =>
    cases want with
    | nil => exact h.elim
    | cons w want =>
      obtain ⟨⟨d, hd, h1, h2, h3, h4⟩, hr⟩ := h
      intro ie hie
      rcases List.mem_cons.1 hie with rfl | hie
      · exact ⟨d, hd, by rw [h2, h1], h3, by rw [h4]; rfl⟩
      · exact ih hr ie hie

/-- The message decodes to what it says. -/
theorem says_pdu {bs : Bytes} {direction code : Nat} {want : List (Nat × Val)} (h : Says bs direction code want) :
    ∃ p m l, procs.find? (·.code == code) = some p ∧ ofKind direction p = some m ∧ Good m ∧
      decodePdu bs = some (direction, code, p.crit, containerOctets l) ∧ Carries m (containerOctets l) l ∧
      Elements m l want := by
  obtain ⟨⟨p, m, l, hp, hk, hbs, he⟩, hlen⟩ := h
  obtain ⟨h1, h2, h3, h4, h5, h6, h7⟩ := proc_facts hp hk
  refine ⟨p, m, l, hp, hk, h4, ?_, ?_, he⟩
  all_goals
    rw [hbs, pduOctets_length] at hlen
  · obtain ⟨b, e1, e2, -⟩ := ranap_pdu direction code p.crit (containerOctets l) h6 h7 h1 h2
    rw [e2 (by omega)] at e1
    have := decode_encode (t := RANAP_RANAP_PDU) (by decide +kernel) e1
    unfold decodePdu
    rw [hbs, this]
    simp only [Factory.pduVal, Int.toNat_natCast]
    rw [Nat.sub_add_cancel h6]
  · have hcl := containerOctets_length l
    have hfl : 4 * l.length ≤ (l.flatMap ieOctets).length := by
      clear hcl hlen hbs he
      induction l with
      | nil => simp
      | cons x l ih =>
        simp only [List.flatMap_cons, List.length_append, List.length_cons, ieOctets_length]
        split <;> omega
    have henc : encode m.ty (container l) = some (containerOctets l) := by
      rw [isPlain_sound h3]
      refine encode_containerTy (by split at hlen <;> omega) fun ie hie => ?_
      obtain ⟨d, hd, e1, e2, -⟩ := elements_id he ie hie
      obtain ⟨h8, h9⟩ := h5 d hd
      have := mem_flatMap_length hie
      exact ⟨by omega, by omega, by split at hlen <;> omega⟩
    exact carries_encode h4 henc

theorem row_eq {m : MsgDef} (hm : Good m) {d e : IeDef} (hd : d ∈ m.ies) (he : e ∈ m.ies) (h : d.id = e.id) : d = e := by
  obtain ⟨j, hj⟩ := List.mem_iff_getElem?.1 hd
  obtain ⟨k, hk⟩ := List.mem_iff_getElem?.1 he
  exact (row_unique hm hj hk h).2

/-- The elements determine what they mean. -/
theorem elements_unique {m : MsgDef} (hm : Good m) {l : List Ie} {want want' : List (Nat × Val)} (h : Elements m l want)
    (h' : Elements m l want') : want = want' := by
  induction l generalizing want want' with
  | nil => cases want <;> cases want' <;> first | rfl | exact h.elim | exact h'.elim
  | cons x l ih =>
    cases want with
    | nil => exact h.elim
    | cons w want =>
      cases want' with
      | nil => exact h'.elim
      | cons w' want' =>
        obtain ⟨⟨d, hd, h1, h2, h3, h4⟩, hr⟩ := h
        obtain ⟨⟨d', hd', h1', h2', h3', h4'⟩, hr'⟩ := h'
        obtain rfl := row_eq hm hd hd' (by rw [h1, h1', ← h2, ← h2'])
        rw [ih hr hr']
        congr 1
        rw [h4] at h4'
        exact Prod.ext (by rw [← h2, ← h2']) (Option.some.inj h4')

/-- A message says one thing only. -/
theorem says_unique {bs : Bytes} {direction code : Nat} {want want' : List (Nat × Val)} (h : Says bs direction code want)
    (h' : Says bs direction code want') : want = want' := by
  obtain ⟨p, m, l, h1, h2, h3, h4, h5, h6⟩ := says_pdu h
  obtain ⟨p', m', l', h1', h2', h3', h4', h5', h6'⟩ := says_pdu h'
  obtain rfl := Option.some.inj (h1.symm.trans h1')
  obtain rfl := Option.some.inj (h2.symm.trans h2')
  have hc := h4.symm.trans h4'
  simp only [Option.some.injEq, Prod.mk.injEq, true_and] at hc
  unfold Carries at h5 h5'
  rw [hc, h5'] at h5
  have := congrArg elements (Option.some.inj h5)
  rw [elements_container, elements_container] at this
  obtain rfl := Option.some.inj this
  exact elements_unique h3 h6 h6'

theorem elements_map {m : MsgDef} {l : List Ie} {want : List (Nat × Val)} (h : Elements m l want) :
    l.map (·.id) = want.map (·.1) := by
  induction l generalizing want with
  | nil => cases want <;> first | rfl | exact h.elim
  | cons x l ih =>
    cases want with
    | nil => exact h.elim
    | cons w want =>
      obtain ⟨⟨d, hd, h1, h2, h3, h4⟩, hr⟩ := h
      simp only [List.map_cons, h2, ih hr]

/-- With distinct ids, the value of an id. -/
theorem elements_lookup {m : MsgDef} (hm : Good m) {l : List Ie} {want : List (Nat × Val)} (h : Elements m l want)
    (hn : (want.map (·.1)).Nodup) {d : IeDef} (hd : d ∈ m.ies) :
    (match lastWith d.id l with
      | some ie => decode d.ty ie.value
      | none => none) = want.lookup d.id ∧ ((∃ ie ∈ l, ie.id = d.id) ↔ (want.lookup d.id).isSome = true) := by
  induction l generalizing want with
  | nil =>
    cases want with
    | nil => simp [lastWith]
    | cons w want => exact h.elim
  | cons x l ih =>
    cases want with
    | nil => exact h.elim
    | cons w want =>
      have hmap := elements_map h.2
      obtain ⟨⟨e, he, h1, h2, h3, h4⟩, hr⟩ := h
      obtain ⟨wi, wv⟩ := w
      simp only [List.map_cons, List.nodup_cons] at hn
      obtain ⟨ih1, ih2⟩ := ih hr hn.2
      simp only at h1 h2 h4
      rw [lastWith_cons]
      by_cases hx : wi = d.id
      · have hnone : lastWith d.id l = none := by
          rw [lastWith_none]
          intro ie hie hid
          refine hn.1 ?_
          rw [← hmap]
          exact List.mem_map.2 ⟨ie, hie, by rw [hid, hx]⟩
        obtain rfl := row_eq hm he hd (by rw [h1, hx])
        have hxl : x.id = e.id := by rw [h2, hx]
        have hbeq : (e.id == wi) = true := by simp [hx]
        rw [hnone, if_pos hxl]
        simp [List.lookup, hbeq, h4, hxl]
      · have hxl : ¬ x.id = d.id := by rw [h2]; exact hx
        have hbeq : (d.id == wi) = false := by simp [Ne.symm hx]
        refine ⟨?_, ?_⟩
        · simp only [List.lookup, hbeq]
          rw [← ih1, if_neg hxl]
          cases lastWith d.id l <;> rfl
        · simp only [List.lookup, hbeq]
          rw [← ih2]
          simp [hxl]

theorem holds_exactly {m : MsgDef} (hm : Good m) {l : List Ie} {want : List (Nat × Val)} (h : Elements m l want)
    (hn : (want.map (·.1)).Nodup) {s : Struct} (hh : Holds m l s) : HoldsExactly m want s := by
  intro k d hd
  have hmem : d ∈ m.ies := List.mem_of_getElem? hd
  obtain ⟨h1, h2⟩ := elements_lookup hm h hn hmem
  refine ⟨?_, fun ho => by rw [hh.bits k d hd ho, h2]⟩
  rw [hh.vals k d hd, ← h1]
  cases lastWith d.id l <;> rfl

theorem elements_valid {m : MsgDef} {l : List Ie} {want : List (Nat × Val)} (h : Elements m l want) :
    ∀ ie ∈ l, Valid m ie := by
  intro ie hie
  obtain ⟨d, hd, h1, -, h2⟩ := elements_id h ie hie
  exact ⟨d, hd, h1.symm, h2⟩

end Verif.Factory
