import Verif.Model.Linked
import Verif.Spec.Linked
import Verif.Proofs.DispatchRx
import Verif.Proofs.AperShape

/-!
# The Iu client linked with the RANAP library: what received octets become
-/

namespace Verif.Linked
open Verif.Aper Verif.Aper.Spec Verif.Ie Verif.Ie.Spec Verif.Rx Verif.Rx.Spec Verif.Gen.Ranap Verif.Factory Verif.Linked.Spec

/-! ## Shapes -/

theorem octets_shape {s : Option Size} {v : Val} (h : shaped (.octets s) v = true) :
    ∃ b, v = .octets b ∧ shapedLen s b.length = true := by
  cases v <;> simp [shaped] at h
  exact ⟨_, rfl, h⟩

theorem fixed_len {n k : Nat} (h : shapedLen (some ⟨n, n, false⟩) k = true) : k = n := by
  simp [shapedLen] at h
  exact h.1

theorem cons_shape {t : Ty} {fs : Fields} {vs : List (Option Val)} (h : shapedFields (.cons false t fs) vs = true) :
    ∃ v rest, vs = some v :: rest ∧ shaped t v = true ∧ shapedFields fs rest = true := by
  match vs with
  | [] => simp [shapedFields] at h
  | none :: vs => simp [shapedFields] at h
  | some v :: vs => simp [shapedFields] at h; exact ⟨v, vs, rfl, h.1, h.2⟩

theorem opt_shape {t : Ty} {fs : Fields} {vs : List (Option Val)} (h : shapedFields (.cons true t fs) vs = true) :
    ∃ v rest, vs = v :: rest ∧ shapedFields fs rest = true := by
  match vs with
  | [] => simp [shapedFields] at h
  | none :: vs => simp [shapedFields] at h; exact ⟨none, vs, rfl, h⟩
  | some v :: vs => simp [shapedFields] at h; exact ⟨some v, vs, rfl, h.2⟩

theorem nil_shape {vs : List (Option Val)} (h : shapedFields .nil vs = true) : vs = [] := by
  cases vs with
  | nil => rfl
  | cons => simp [shapedFields] at h

theorem seq_shape {ext : Bool} {fs : Fields} {v : Val} (h : shaped (.seq ext fs) v = true) :
    ∃ vs, v = .seq vs ∧ shapedFields fs vs = true := by
  cases v <;> simp [shaped] at h
  exact ⟨_, rfl, h⟩

theorem int_shape {r : Range} {v : Val} (h : shaped (.int r) v = true) (he : r.ext = false) :
    ∃ n : Int, v = .int n ∧ r.lb ≤ n ∧ codes ((r.ub - r.lb).toNat + 1) (n - r.lb).toNat = true := by
  cases v <;> simp [shaped, he] at h
  exact ⟨_, rfl, h⟩

theorem enum_shape {root total : Nat} {ext : Bool} {v : Val} (h : shaped (.enum root total ext) v = true) :
    ∃ n, v = .enum n ∧ n < total := by
  cases v <;> simp [shaped] at h
  exact ⟨_, rfl, h⟩

theorem plmn_shape {v : Val} (h : shaped RANAP_PLMNidentity v = true) : ∃ b, v = .octets b ∧ b.length = 3 := by
  obtain ⟨b, rfl, h⟩ := octets_shape h
  exact ⟨b, rfl, fixed_len h⟩

theorem lac_shape {v : Val} (h : shaped RANAP_LAC v = true) : ∃ b, v = .octets b ∧ b.length = 2 := by
  obtain ⟨b, rfl, h⟩ := octets_shape h
  exact ⟨b, rfl, fixed_len h⟩

theorem rac_shape {v : Val} (h : shaped RANAP_RAC v = true) : ∃ b, v = .octets b ∧ b.length = 1 := by
  obtain ⟨b, rfl, h⟩ := octets_shape h
  exact ⟨b, rfl, fixed_len h⟩

theorem lai_shape {v : Val} (h : shaped RANAP_LAI v = true) :
    ∃ p q x, v = .seq [some (.octets p), some (.octets q), x] ∧ p.length = 3 ∧ q.length = 2 := by
  obtain ⟨vs, rfl, h⟩ := seq_shape h
  obtain ⟨v1, vs1, rfl, h1, h⟩ := cons_shape h
  obtain ⟨v2, vs2, rfl, h2, h⟩ := cons_shape h
  obtain ⟨x, vs3, rfl, h'⟩ := opt_shape h
  rw [nil_shape h']
  obtain ⟨p, rfl, hp⟩ := plmn_shape h1
  obtain ⟨q, rfl, hq⟩ := lac_shape h2
  exact ⟨p, q, x, rfl, hp, hq⟩

theorem sai_shape {v : Val} (h : shaped RANAP_SAI v = true) :
    ∃ p q c x, v = .seq [some (.octets p), some (.octets q), some (.octets c), x] ∧ c.length = 2 := by
  obtain ⟨vs, rfl, h⟩ := seq_shape h
  obtain ⟨v1, vs1, rfl, h1, h⟩ := cons_shape h
  obtain ⟨v2, vs2, rfl, h2, h⟩ := cons_shape h
  obtain ⟨v3, vs3, rfl, h3, h⟩ := cons_shape h
  obtain ⟨x, vs4, rfl, h'⟩ := opt_shape h
  rw [nil_shape h']
  obtain ⟨p, rfl, hp⟩ := plmn_shape h1
  obtain ⟨q, rfl, hq⟩ := lac_shape h2
  obtain ⟨c, rfl, hc⟩ := lac_shape h3
  exact ⟨p, q, c, x, rfl, hc⟩

theorem grnc_shape {v : Val} (h : shaped RANAP_GlobalRNC_ID v = true) :
    ∃ p n, v = .seq [some (.octets p), some (.int n)] ∧ p.length = 3 ∧ 0 ≤ n ∧ n < 65536 := by
  obtain ⟨vs, rfl, h⟩ := seq_shape h
  obtain ⟨v1, vs1, rfl, h1, h⟩ := cons_shape h
  obtain ⟨v2, vs2, rfl, h2, h⟩ := cons_shape h
  rw [nil_shape h]
  obtain ⟨p, rfl, hp⟩ := plmn_shape h1
  obtain ⟨n, rfl, hn, hc⟩ := int_shape h2 rfl
  refine ⟨p, n, rfl, hp, hn, ?_⟩
  have : codes 4096 n.toNat = true := by simpa using hc
  simp [codes] at this
  omega

theorem ie_shape {v : Val} (h : shaped RANAP_IE v = true) :
    ∃ a b c, v = .seq [some a, some b, some (.octets c)] := by
  obtain ⟨vs, rfl, h⟩ := seq_shape h
  obtain ⟨v1, vs1, rfl, h1, h⟩ := cons_shape h
  obtain ⟨v2, vs2, rfl, h2, h⟩ := cons_shape h
  obtain ⟨v3, vs3, rfl, h3, h⟩ := cons_shape h
  rw [nil_shape h]
  cases v3 <;> simp [shaped] at h3
  exact ⟨_, _, _, rfl⟩

theorem rabs_shape {v : Val} (h : shaped RANAP_RAB_SetupOrModifiedList v = true) :
    ∃ vs, v = .seq [some (.list vs)] ∧ ∀ x ∈ vs, shaped RANAP_IE x = true := by
  obtain ⟨vs, rfl, h⟩ := seq_shape h
  obtain ⟨v1, vs1, rfl, h1, h⟩ := cons_shape h
  rw [nil_shape h]
  cases v1 <;> simp [shaped, RANAP_RAB_SetupOrModifiedList__raB_SetupOrModifiedList_ies_2] at h1
  exact ⟨_, rfl, h1.2⟩

theorem bits64 : bitsFor 64 = 6 := by decide
theorem bits16 : bitsFor 16 = 4 := by decide
theorem bits128 : bitsFor 128 = 7 := by decide

/-- The seven groups of causes, with values that encode. -/
theorem cause_shape {v : Val} (h : shaped RANAP_Cause v = true) :
    (∃ n, v = .choice 0 (.int n) ∧ 1 ≤ n ∧ n ≤ 64) ∨ (∃ n, v = .choice 1 (.int n) ∧ 65 ≤ n ∧ n ≤ 80) ∨
    (∃ n, v = .choice 2 (.int n) ∧ 81 ≤ n ∧ n ≤ 96) ∨ (∃ n, v = .choice 3 (.int n) ∧ 97 ≤ n ∧ n ≤ 112) ∨
    (∃ n, v = .choice 4 (.int n) ∧ 113 ≤ n ∧ n ≤ 128) ∨ (∃ n, v = .choice 5 (.int n) ∧ 129 ≤ n ∧ n ≤ 256) ∨
    (∃ n, v = .choice 6 (.int n) ∧ 257 ≤ n ∧ n ≤ 512) := by
  cases v <;> simp [shaped, RANAP_Cause] at h
  rename_i i v
  have key : ∀ lb ub : Int, (hc : shaped (.int ⟨lb, ub, false⟩) v = true) →
      ∀ w, ((ub - lb).toNat + 1 ≤ 256) → (∀ k, codes ((ub - lb).toNat + 1) k = true → k < w) → lb + w ≤ ub + 1 →
        ∃ n : Int, v = .int n ∧ lb ≤ n ∧ n ≤ ub := by
    intro lb ub hc w _ hw hle
    obtain ⟨n, rfl, h1, h2⟩ := int_shape hc rfl
    have := hw _ h2
    refine ⟨n, rfl, h1, ?_⟩
    simp only at h1 this
    omega
  split at h
  · rename_i hi
    simp only [Fields.length] at hi
    have h6 : i < 6 := hi
    rcases (by omega : i = 0 ∨ i = 1 ∨ i = 2 ∨ i = 3 ∨ i = 4 ∨ i = 5) with rfl | rfl | rfl | rfl | rfl | rfl <;>
      simp only [shapedAlt] at h
    · obtain ⟨n, rfl, a, b⟩ := key 1 64 h 64 (by decide) (by intro k hk; simpa [codes, bits64, bits16, bits128] using hk) (by decide)
      exact .inl ⟨n, rfl, a, b⟩
    · obtain ⟨n, rfl, a, b⟩ := key 65 80 h 16 (by decide) (by intro k hk; simpa [codes, bits64, bits16, bits128] using hk) (by decide)
      exact .inr (.inl ⟨n, rfl, a, b⟩)
    · obtain ⟨n, rfl, a, b⟩ := key 81 96 h 16 (by decide) (by intro k hk; simpa [codes, bits64, bits16, bits128] using hk) (by decide)
      exact .inr (.inr (.inl ⟨n, rfl, a, b⟩))
    · obtain ⟨n, rfl, a, b⟩ := key 97 112 h 16 (by decide) (by intro k hk; simpa [codes, bits64, bits16, bits128] using hk) (by decide)
      exact .inr (.inr (.inr (.inl ⟨n, rfl, a, b⟩)))
    · obtain ⟨n, rfl, a, b⟩ := key 113 128 h 16 (by decide) (by intro k hk; simpa [codes, bits64, bits16, bits128] using hk) (by decide)
      exact .inr (.inr (.inr (.inr (.inl ⟨n, rfl, a, b⟩))))
    · obtain ⟨n, rfl, a, b⟩ := key 129 256 h 128 (by decide) (by intro k hk; simpa [codes, bits64, bits16, bits128] using hk) (by decide)
      exact .inr (.inr (.inr (.inr (.inr (.inl ⟨n, rfl, a, b⟩)))))
  · rename_i hi
    simp only [Fields.length] at hi h
    have h6 : ¬ i < 6 := hi
    obtain ⟨k, rfl⟩ : ∃ k, i = 6 + k := ⟨i - 6, by omega⟩
    rw [show 6 + k - (0 + 1 + 1 + 1 + 1 + 1 + 1) = k from by omega] at h
    match k with
    | 0 =>
      simp only [shapedAlt] at h
      obtain ⟨n, rfl, a, b⟩ := key 257 512 h 256 (by decide) (by intro k hk; simpa [codes] using hk) (by decide)
      exact .inr (.inr (.inr (.inr (.inr (.inr ⟨n, rfl, a, b⟩)))))
    | k + 1 => simp [shapedAlt] at h

/-! ## Members of the structures -/

theorem member_eq {m : MsgDef} {l : List Ie} {s : Struct} (h : Holds m l s) {id : Nat} {d : IeDef}
    (hr : Row m (m.ies.findIdx (·.id == id)) d) (hf : m.ies.find? (·.id = id) = some d) :
    member m s id = elem m l id := by
  have hid : d.id = id := by simpa using List.find?_some hf
  unfold member elem
  rw [h.vals _ _ hr, hf, hid]
  cases lastWith id l <;> rfl

theorem and_bit {x : BitVec 16} {b : Nat} (hb : b < 16) : (x &&& (1 : BitVec 16) <<< b != 0) = x.getLsbD b := by
  have key : (x &&& (1 : BitVec 16) <<< b) = if x.getLsbD b then (1 : BitVec 16) <<< b else 0 :=
    BitVec.and_twoPow x b
  rw [key]
  by_cases hx : x.getLsbD b = true
  · rw [if_pos hx, hx]
    have : (1 : BitVec 16) <<< b ≠ 0 := by
      intro h0
      have := congrArg (fun v : BitVec 16 => v.getLsbD b) h0
      simp [hb] at this
    simpa using this
  · rw [if_neg hx]
    simp at hx
    simp [hx]

theorem isThere_eq {m : MsgDef} {l : List Ie} {s : Struct} (h : Holds m l s) {id : Nat} {d : IeDef} {k : Nat}
    (hr : Row m k d) (hid : d.id = id) (ho : d.opt = true) (hp : present m id = (1 : BitVec 16) <<< bitOf m k)
    (hb : bitOf m k < 16) : isThere m s id = decide (Has l id) := by
  unfold isThere
  rw [hp, and_bit hb]
  have := h.bits k d hr ho
  rw [hid] at this
  unfold bit at this
  rw [Bool.eq_iff_iff, decide_eq_true_iff]
  exact this

theorem elem_shaped {m : MsgDef} {l : List Ie} {id : Nat} {d : IeDef} {v : Val} (hf : m.ies.find? (·.id = id) = some d)
    (h : elem m l id = some v) : shaped d.ty v = true := by
  unfold elem at h
  rw [hf] at h
  split at h
  · rename_i h1 h2
    cases h1
    exact decode_shaped h
  · cases h

theorem lastWith_some {l : List Ie} {id : Nat} : (∃ ie, lastWith id l = some ie) ↔ Has l id := by
  unfold lastWith Has
  constructor
  · rintro ⟨ie, h⟩
    have := List.mem_of_getLast? h
    simp at this
    exact ⟨ie, this⟩
  · rintro ⟨ie, h1, h2⟩
    have hn : l.filter (·.id = id) ≠ [] := by
      intro h0
      have : ie ∈ l.filter (·.id = id) := by simp [h1, h2]
      rw [h0] at this
      cases this
    exact ⟨_, List.getLast?_eq_some_getLast hn⟩

/-- If all elements are valid, an element has a value iff it is there. -/
theorem elem_some {m : MsgDef} {l : List Ie} {id : Nat} {d : IeDef} (hu : ∀ x ∈ m.ies, x.id = id → x.ty = d.ty)
    (hf : m.ies.find? (·.id = id) = some d) (hv : ∀ ie ∈ l, Valid m ie) :
    (∃ v, elem m l id = some v) ↔ Has l id := by
  rw [← lastWith_some]
  unfold elem
  rw [hf]
  cases h : lastWith id l with
  | none => simp
  | some ie =>
    simp only [Option.some.injEq, exists_eq', iff_true]
    have hm : ie ∈ l ∧ ie.id = id := by
      have := List.mem_of_getLast? h
      simpa using this
    obtain ⟨d', hd', hid, hs⟩ := hv ie hm.1
    rw [hu d' hd' (hid.trans hm.2)] at hs
    exact Option.isSome_iff_exists.1 hs

/-! ## Reading the members -/

theorem lai_eq {v : Option Val} (h : ∀ x, v = some x → shaped RANAP_LAI x = true) :
    (str (comp v 0), str (comp v 1)) = laiOf v := by
  cases v with
  | none => rfl
  | some x => obtain ⟨p, q, y, rfl, -, -⟩ := lai_shape (h x rfl); rfl

theorem sac_eq {v : Option Val} (h : ∀ x, v = some x → shaped RANAP_SAI x = true) : str (comp v 2) = sacOf v := by
  cases v with
  | none => rfl
  | some x => obtain ⟨p, q, c, y, rfl, -⟩ := sai_shape (h x rfl); rfl

theorem grnc_eq {v : Option Val} (h : ∀ x, v = some x → shaped RANAP_GlobalRNC_ID x = true) : grnc v = rncOf v := by
  cases v with
  | none => rfl
  | some x => obtain ⟨p, n, rfl, -⟩ := grnc_shape (h x rfl); rfl

theorem cause_eq (v : Option Val) : cause v = causeOf v := by
  rfl

theorem str_eq (v : Option Val) : str v = octetsOf v := by unfold str octetsOf; rfl

theorem num_eq {v : Option Val} (h : ∀ x, v = some x → shaped RANAP_CN_DomainIndicator x = true) : num v = domainOf v := by
  cases v with
  | none => rfl
  | some x => obtain ⟨n, rfl, -⟩ := enum_shape (h x rfl); rfl

theorem rabs_eq {v : Option Val} (h : ∀ x, v = some x → shaped RANAP_RAB_SetupOrModifiedList x = true) :
    (listOf v).map rabItem = rabsOf v := by
  cases v with
  | none => rfl
  | some x =>
    obtain ⟨vs, rfl, hs⟩ := rabs_shape (h x rfl)
    show vs.map rabItem = vs.map _
    refine List.map_congr_left fun x hx => ?_
    obtain ⟨a, b, c, rfl⟩ := ie_shape (hs x hx)
    show (if (fromList RANAP_RAB_SetupOrModifiedItem c).1 ≠ 0 then none else some c) = _
    unfold fromList
    dsimp only
    cases decode RANAP_RAB_SetupOrModifiedItem c <;> rfl

/-! ## The six messages the client looks into -/

section
variable {l : List Ie} {s : Struct}

theorem body_initialUe (h : Holds initialUE_MessageIEs l s) :
    body (initialUE_MessageIEs.name, s) = .initialUe (initialUeOf l) := by
  have h15 := member_eq (id := 15) h (by with_unfolding_all rfl) (by with_unfolding_all rfl)
  have h55 := member_eq (id := 55) h (by with_unfolding_all rfl) (by with_unfolding_all rfl)
  have h58 := member_eq (id := 58) h (by with_unfolding_all rfl) (by with_unfolding_all rfl)
  have h16 := member_eq (id := 16) h (by with_unfolding_all rfl) (by with_unfolding_all rfl)
  have h86 := member_eq (id := 86) h (by with_unfolding_all rfl) (by with_unfolding_all rfl)
  have p55 := isThere_eq (id := 55) (k := 2) h (by with_unfolding_all rfl) (by with_unfolding_all rfl)
    (by with_unfolding_all rfl) (by decide +kernel) (by decide +kernel)
  have s15 := lai_eq (v := elem initialUE_MessageIEs l 15) fun x hx => elem_shaped (by with_unfolding_all rfl) hx
  have s58 := sac_eq (v := elem initialUE_MessageIEs l 58) fun x hx => elem_shaped (by with_unfolding_all rfl) hx
  have s86 := grnc_eq (v := elem initialUE_MessageIEs l 86) fun x hx => elem_shaped (by with_unfolding_all rfl) hx
  unfold body
  dsimp only
  rw [if_pos rfl]
  simp only [idLAI, idSAI, idNAS_PDU, idGlobalRNC_ID, h15, h55, h58, h16, h86, p55, initialUeOf, ← s15, s58, s86, str_eq,
    decide_eq_true_eq]

theorem body_dt (h : Holds directTransferIEs l s) :
    body (directTransferIEs.name, s) = .directTransfer (dtOf l) := by
  have h15 := member_eq (id := 15) h (by with_unfolding_all rfl) (by with_unfolding_all rfl)
  have h55 := member_eq (id := 55) h (by with_unfolding_all rfl) (by with_unfolding_all rfl)
  have h58 := member_eq (id := 58) h (by with_unfolding_all rfl) (by with_unfolding_all rfl)
  have h16 := member_eq (id := 16) h (by with_unfolding_all rfl) (by with_unfolding_all rfl)
  have p15 := isThere_eq (id := 15) (k := 1) h (by with_unfolding_all rfl) (by with_unfolding_all rfl)
    (by with_unfolding_all rfl) (by decide +kernel) (by decide +kernel)
  have p55 := isThere_eq (id := 55) (k := 2) h (by with_unfolding_all rfl) (by with_unfolding_all rfl)
    (by with_unfolding_all rfl) (by decide +kernel) (by decide +kernel)
  have p58 := isThere_eq (id := 58) (k := 3) h (by with_unfolding_all rfl) (by with_unfolding_all rfl)
    (by with_unfolding_all rfl) (by decide +kernel) (by decide +kernel)
  have s15 := lai_eq (v := elem directTransferIEs l 15) fun x hx => elem_shaped (by with_unfolding_all rfl) hx
  have s58 := sac_eq (v := elem directTransferIEs l 58) fun x hx => elem_shaped (by with_unfolding_all rfl) hx
  unfold body
  dsimp only
  rw [if_neg (by decide), if_pos rfl]
  simp only [idLAI, idSAI, idNAS_PDU, h15, h55, h58, h16, p15, p55, p58, dtOf, ← s15, s58, str_eq, decide_eq_true_eq]

theorem body_errorInd (h : Holds errorIndicationIEs l s) :
    body (errorIndicationIEs.name, s) =
      .errorInd (if Has l 4 then some (causeOf (elem errorIndicationIEs l 4)) else none) := by
  have h4 := member_eq (id := 4) h (by with_unfolding_all rfl) (by with_unfolding_all rfl)
  have p4 := isThere_eq (id := 4) (k := 0) h (by with_unfolding_all rfl) (by with_unfolding_all rfl)
    (by with_unfolding_all rfl) (by decide +kernel) (by decide +kernel)
  unfold body
  dsimp only
  rw [if_neg (by decide), if_neg (by decide), if_pos rfl]
  simp only [idCause, h4, p4, cause_eq, decide_eq_true_eq]

theorem body_iuReleaseReq (h : Holds iu_ReleaseRequestIEs l s) :
    body (iu_ReleaseRequestIEs.name, s) = .iuReleaseReq (causeOf (elem iu_ReleaseRequestIEs l 4)) := by
  have h4 := member_eq (id := 4) h (by with_unfolding_all rfl) (by with_unfolding_all rfl)
  unfold body
  dsimp only
  rw [if_neg (by decide), if_neg (by decide), if_neg (by decide), if_pos rfl]
  simp only [idCause, h4, cause_eq]

theorem body_rabAssResp (h : Holds rAB_AssignmentResponseIEs l s) :
    body (rAB_AssignmentResponseIEs.name, s) =
      .rabAssResp (if Has l 52 then some (rabsOf (elem rAB_AssignmentResponseIEs l 52)) else none) := by
  have h52 := member_eq (id := 52) h (by with_unfolding_all rfl) (by with_unfolding_all rfl)
  have p52 := isThere_eq (id := 52) (k := 0) h (by with_unfolding_all rfl) (by with_unfolding_all rfl)
    (by with_unfolding_all rfl) (by decide +kernel) (by decide +kernel)
  have s52 := rabs_eq (v := elem rAB_AssignmentResponseIEs l 52) fun x hx => elem_shaped (by with_unfolding_all rfl) hx
  unfold body
  dsimp only
  rw [if_neg (by decide), if_neg (by decide), if_neg (by decide), if_neg (by decide), if_pos rfl]
  simp only [h52, p52, s52, decide_eq_true_eq]

theorem body_reset (h : Holds resetIEs l s) :
    body (resetIEs.name, s) = .reset (domainOf (elem resetIEs l 3))
      (if Has l 86 then some (rncOf (elem resetIEs l 86)) else none) := by
  have h3 := member_eq (id := 3) h (by with_unfolding_all rfl) (by with_unfolding_all rfl)
  have h86 := member_eq (id := 86) h (by with_unfolding_all rfl) (by with_unfolding_all rfl)
  have p86 := isThere_eq (id := 86) (k := 2) h (by with_unfolding_all rfl) (by with_unfolding_all rfl)
    (by with_unfolding_all rfl) (by decide +kernel) (by decide +kernel)
  have s3 := num_eq (v := elem resetIEs l 3) fun x hx => elem_shaped (by with_unfolding_all rfl) hx
  have s86 := grnc_eq (v := elem resetIEs l 86) fun x hx => elem_shaped (by with_unfolding_all rfl) hx
  unfold body
  dsimp only
  rw [if_neg (by decide), if_neg (by decide), if_neg (by decide), if_neg (by decide), if_neg (by decide), if_pos rfl]
  simp only [idCN_DomainIndicator, idGlobalRNC_ID, h3, h86, p86, s3, s86, decide_eq_true_eq]

end

/-! ## Received octets -/

theorem handed_eq (tr : List (Ev Message)) : handed tr = (calls tr).head? := by
  unfold handed calls
  rw [List.head?_filterMap]
  congr 1
  funext e
  cases e <;> rfl

/-- The messages the client looks into, by name. -/
def looked : List String := [initialUE_MessageIEs.name, directTransferIEs.name, errorIndicationIEs.name,
  iu_ReleaseRequestIEs.name, rAB_AssignmentResponseIEs.name, resetIEs.name]

theorem body_other {n : String} {s : Struct} (h : n ∉ looked) : body (n, s) = .other := by
  simp only [looked, List.mem_cons, not_or, List.not_mem_nil, not_false_eq_true, and_true] at h
  obtain ⟨h1, h2, h3, h4, h5, h6⟩ := h
  unfold body
  dsimp only
  rw [if_neg h1, if_neg h2, if_neg h3, if_neg h4, if_neg h5, if_neg h6]

theorem co_names : cnCoSupports.all (fun x => match protocolMsg x.1 x.2 with
    | some m => decide (m.name ∉ looked) || decide (x ∈ [(1, 19), (1, 20), (1, 22), (1, 11), (4, 0)])
    | none => true) = true := by decide +kernel

theorem cl_names : cnClSupports.all (fun x => match protocolMsg x.1 x.2 with
    | some m => decide (m.name ∉ looked) || decide (x ∈ [(1, 9), (1, 22)])
    | none => true) = true := by decide +kernel

theorem body_co {p c : Nat} {m : MsgDef} {l : List Ie} {s : Struct} (hm : cnCoMsg p c = some m) (h : Holds m l s) :
    body (m.name, s) = coBody p c l := by
  by_cases h19 : p = 1 ∧ c = 19
  · obtain ⟨rfl, rfl⟩ := h19
    cases (show some initialUE_MessageIEs = some m from hm)
    exact body_initialUe h
  by_cases h20 : p = 1 ∧ c = 20
  · obtain ⟨rfl, rfl⟩ := h20
    cases (show some directTransferIEs = some m from hm)
    exact body_dt h
  by_cases h22 : p = 1 ∧ c = 22
  · obtain ⟨rfl, rfl⟩ := h22
    cases (show some errorIndicationIEs = some m from hm)
    exact body_errorInd h
  by_cases h11 : p = 1 ∧ c = 11
  · obtain ⟨rfl, rfl⟩ := h11
    cases (show some iu_ReleaseRequestIEs = some m from hm)
    exact body_iuReleaseReq h
  by_cases h0 : (p = 2 ∨ p = 4) ∧ c = 0
  · obtain ⟨rfl | rfl, rfl⟩ := h0
    · cases (show some rAB_AssignmentResponseIEs = some m from hm)
      exact body_rabAssResp h
    · cases (show some rAB_AssignmentResponseIEs = some m from hm)
      exact body_rabAssResp h
  unfold coBody
  rw [if_neg h19, if_neg h20, if_neg h22, if_neg h11, if_neg h0]
  apply body_other
  unfold cnCoMsg at hm
  rw [if_neg (by omega)] at hm
  split at hm
  · rename_i hx
    have := List.all_eq_true.1 co_names _ hx
    dsimp only at this
    rw [hm] at this
    simp only [Bool.or_eq_true, decide_eq_true_eq, List.mem_cons, List.not_mem_nil, or_false, Prod.mk.injEq] at this
    rcases this with h | h
    · exact h
    · omega
  · cases hm

theorem body_cl {p c : Nat} {m : MsgDef} {l : List Ie} {s : Struct} (hm : cnClMsg p c = some m) (h : Holds m l s) :
    body (m.name, s) = clBody p c l := by
  by_cases h9 : p = 1 ∧ c = 9
  · obtain ⟨rfl, rfl⟩ := h9
    cases (show some resetIEs = some m from hm)
    exact body_reset h
  by_cases h22 : p = 1 ∧ c = 22
  · obtain ⟨rfl, rfl⟩ := h22
    cases (show some errorIndicationIEs = some m from hm)
    exact body_errorInd h
  unfold clBody
  rw [if_neg h9, if_neg h22]
  apply body_other
  unfold cnClMsg at hm
  split at hm
  · cases hm; decide +kernel
  split at hm
  · cases hm; decide +kernel
  split at hm
  · rename_i hx
    have := List.all_eq_true.1 cl_names _ hx
    dsimp only at this
    rw [hm] at this
    simp only [Bool.or_eq_true, decide_eq_true_eq, List.mem_cons, List.not_mem_nil, or_false, Prod.mk.injEq] at this
    rcases this with h | h
    · exact h
    · omega
  · cases hm

theorem calls_delivered (n : Nat) (msg : Message) (s : Struct) : calls (delivered n msg s) = [msg] := by
  unfold delivered
  rw [calls_append, calls_pre]
  show [] ++ msg :: calls ((blocks s).map (Ev.free (α := Message))) = _
  rw [calls_frees]
  rfl

/-- The client sees of a connection oriented message what its elements say. -/
theorem decodeCo_iff {env : Iu.Env} {data : Bytes} {msg : Iu.Msg} : (linked env).decodeCo data = some msg ↔
    ∃ p c l, CoMsg data p c l ∧ msg = ⟨p, c, coBody p c l⟩ := by
  show (handed (cnRxCo data Mem.init).2.trace).map toMsg = some msg ↔ _
  rw [handed_eq]
  constructor
  · have h := cnRxCo_fate data
    generalize (cnRxCo data Mem.init).1 = rc at h
    generalize (cnRxCo data Mem.init).2.trace = tr at h
    cases h with
    | garbage h => intro h; cases h
    | unknown h hm h1 h2 => intro h; cases h
    | broken h hm h1 => intro h; cases h
    | failed h hm hc hd hh =>
      intro h
      rw [calls_append, calls_pre] at h
      cases h
    | @called p c crit value m l n s h hm hc hd hh =>
      rw [calls_delivered]
      intro he
      rw [cnCo_table] at hm
      refine ⟨p, c, l, ⟨crit, m, ⟨value, isPdu_iff.2 h, hm, hc⟩, hd.ok_iff.1 rfl⟩, ?_⟩
      cases he
      show Iu.Msg.mk p c (body (m.name, s)) = _
      rw [body_co hm (holds_of_dec hd)]
  · rintro ⟨p, c, l, ⟨crit, m, hp, hv⟩, rfl⟩
    obtain ⟨-, s, before, live, -, hc, hh, -⟩ := fate_delivered cnCo_table (cnRxCo_fate data) hp hv
    rw [hc]
    obtain ⟨value, -, hm, -⟩ := hp
    show some (Iu.Msg.mk p c (body (m.name, s))) = _
    rw [body_co hm hh]

/-- A connectionless message the library does not know comes without contents; of one of the last two kinds of
PDU not even the procedure code is passed on. -/
theorem cnRxCl_unknown {data : Bytes} {p c crit : Nat} {value : Bytes} (hd : decodePdu data = some (p, c, crit, value))
    (hu : cnClMsg p c = none) : calls (cnRxCl data Mem.init).2.trace =
      [if p = 1 ∨ p = 2 then ⟨p, c, crit, none⟩ else ⟨p, 0, 0, none⟩] := by
  unfold cnRxCl decode2
  rw [hd]
  have hat := cnCl_table p c
  rw [hu] at hat
  by_cases h1 : p = 1
  · subst h1
    have hl : cnClRxInitiating.lookup c = none := hat
    rw [if_pos (Or.inl rfl)]
    simp only [Mem.alloc, if_true, cnClRx, hl]
    rw [freeMsg_none rfl]
    rfl
  by_cases h2 : p = 2
  · subst h2
    have hl : cnClRxSuccessful.lookup c = none := hat
    rw [if_pos (Or.inr rfl)]
    simp only [Mem.alloc, if_true, cnClRx, hl]
    rw [freeMsg_none rfl]
    rfl
  have hn : cnClRx p = none := by
    unfold cnClRx
    split
    · exact absurd rfl h1
    · exact absurd rfl h2
    · rfl
  rw [if_neg (by omega)]
  simp only [Mem.alloc, if_true, hn]
  rw [freeMsg_none rfl]
  rfl

/-- The client sees of a connectionless message what its elements say. -/
theorem decodeCl_iff {env : Iu.Env} {data : Bytes} {msg : Iu.Msg} : (linked env).decodeCl data = some msg ↔
    (∃ p c l, ClMsg data p c l ∧ msg = ⟨p, c, clBody p c l⟩) ∨
    (∃ p c crit value, IsPdu data p c crit value ∧ cnClMsg p c = none ∧
      msg = ⟨p, if p = 1 ∨ p = 2 then c else 0, .other⟩) := by
  show (handed (cnRxCl data Mem.init).2.trace).map toMsg = some msg ↔ _
  rw [handed_eq]
  constructor
  · have h := cnRxCl_fate data
    generalize hrc : (cnRxCl data Mem.init).1 = rc at h
    generalize htr : (cnRxCl data Mem.init).2.trace = tr at h
    cases h with
    | garbage h => intro h; cases h
    | @unknown p c crit value _ h hm h1 h2 =>
      rw [cnCl_table] at hm
      rw [← htr, cnRxCl_unknown h hm]
      intro he
      refine Or.inr ⟨p, c, crit, value, isPdu_iff.2 h, hm, ?_⟩
      by_cases hp : p = 1 ∨ p = 2
      · simp only [if_pos hp] at he ⊢; cases he; rfl
      · simp only [if_neg hp] at he ⊢; cases he; rfl
    | broken h hm h1 => intro h; cases h
    | failed h hm hc hd hh =>
      intro h
      rw [calls_append, calls_pre, if_neg (by decide), calls_frees] at h
      cases h
    | @called p c crit value m l n s h hm hc hd hh =>
      rw [calls_delivered]
      intro he
      rw [cnCl_table] at hm
      refine Or.inl ⟨p, c, l, ⟨crit, m, ⟨value, isPdu_iff.2 h, hm, hc⟩, hd.ok_iff.1 rfl⟩, ?_⟩
      cases he
      show Iu.Msg.mk p c (body (m.name, s)) = _
      rw [body_cl hm (holds_of_dec hd)]
  · rintro (⟨p, c, l, ⟨crit, m, hp, hv⟩, rfl⟩ | ⟨p, c, crit, value, hp, hu, rfl⟩)
    · obtain ⟨-, s, before, live, -, hc, hh, -⟩ := fate_delivered cnCl_table (cnRxCl_fate data) hp hv
      rw [hc]
      obtain ⟨value, -, hm, -⟩ := hp
      show some (Iu.Msg.mk p c (body (m.name, s))) = _
      rw [body_cl hm hh]
    · rw [isPdu_iff] at hp
      rw [cnRxCl_unknown hp hu]
      by_cases h : p = 1 ∨ p = 2
      · simp only [if_pos h]; rfl
      · simp only [if_neg h]; rfl

end Verif.Linked
