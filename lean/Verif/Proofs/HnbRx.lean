import Verif.Proofs.HnbHnbap
import Verif.Props.Linked

/-! The HNB emulator: received messages. -/

namespace Verif.Hnb
open Verif.Aper Verif.Aper.Spec Verif.Ie Verif.Ie.Spec Verif.Rx Verif.Rx.Spec Verif.Linked Verif.Linked.Spec Verif.Hnb.Spec

/-! ## Connection oriented messages -/

theorem co_unique {data : Bytes} {p c p' c' : Nat} {l l' : List Ie} (h : Co data p c l) (h' : Co data p' c' l') :
    p = p' ∧ c = c' ∧ l = l' := by
  obtain ⟨r, h1, h2⟩ := h
  obtain ⟨r', h1', h2'⟩ := h'
  obtain ⟨-, rfl⟩ := ruaMsg_unique h1 h1'
  exact Props.coMsg_unique h2 h2'

theorem co_dt {data : Bytes} {p : Nat} {l : List Ie} (h : Co data p 20 l) : p = 1 := by
  obtain ⟨crit, m, st, hm, -⟩ := co_rx h
  exact (dt_dir hm).1

/-- Connection oriented messages that kill the program. -/
def FatalCo (env : Env) (s : State) (data : Bytes) : Prop :=
  ∃ direction code l, Co data direction code l ∧
    ((code = 6 ∧ direction ≠ 1) ∨ (code = 20 ∧ s.chan ≠ none ∧ FatalNas env (nasOf l)))

theorem nasAsks_unique {env : Env} {s : State} {nas : Bytes} {a b : Answer} (ha : NasAsks env s nas a)
    (hb : NasAsks env s nas b) : a = b := by
  cases ha with
  | identity hm =>
    cases hb with
    | identity => rfl
    | authentication hm' => exact absurd (mm_unique hm hm').1 (by decide)
    | information hm' => exact absurd (mm_unique hm hm').1 (by decide)
    | lu hm' => exact absurd (mm_unique hm hm').1 (by decide)
    | chance hm' => exact absurd (mm_unique hm hm').1 (by decide)
  | authentication hm =>
    cases hb with
    | authentication hm' => rw [(mm_unique hm hm').2]
    | identity hm' => exact absurd (mm_unique hm hm').1 (by decide)
    | information hm' => exact absurd (mm_unique hm hm').1 (by decide)
    | lu hm' => exact absurd (mm_unique hm hm').1 (by decide)
    | chance hm' => exact absurd (mm_unique hm hm').1 (by decide)
  | information hm =>
    cases hb with
    | information => rfl
    | authentication hm' => exact absurd (mm_unique hm hm').1 (by decide)
    | identity hm' => exact absurd (mm_unique hm hm').1 (by decide)
    | lu hm' => exact absurd (mm_unique hm hm').1 (by decide)
    | chance hm' => exact absurd (mm_unique hm hm').1 (by decide)
  | lu hm | chance hm =>
    cases hb with
    | information hm' => exact absurd (mm_unique hm hm').1 (by decide)
    | authentication hm' => exact absurd (mm_unique hm hm').1 (by decide)
    | identity hm' => exact absurd (mm_unique hm hm').1 (by decide)
    | lu hm' => rfl
    | chance hm' => rfl

/-- There is at most one answer. -/
theorem asks_unique {env : Env} {s : State} {data : Bytes} {a b : Answer} (ha : Asks env s data a)
    (hb : Asks env s data b) : a = b := by
  cases ha with
  | nas h ha =>
    cases hb with
    | nas h' hb => obtain ⟨-, -, rfl⟩ := co_unique h h'; exact nasAsks_unique ha hb
    | security h' => exact absurd (co_unique h h').2.1 (by decide)
    | release h' => exact absurd (co_unique h h').2.1 (by decide)
  | security h ha =>
    cases hb with
    | nas h' => exact absurd (co_unique h h').2.1 (by decide)
    | security h' hb =>
      obtain ⟨-, -, rfl⟩ := co_unique h h'
      rw [ha] at hb
      cases hb
      rfl
    | release h' => exact absurd (co_unique h h').2.1 (by decide)
  | release h =>
    cases hb with
    | nas h' => exact absurd (co_unique h h').2.1 (by decide)
    | security h' => exact absurd (co_unique h h').2.1 (by decide)
    | release h' => rfl

theorem co_result {env : Env} {s : State} (hs : CsOnly s) {data : Bytes} {p c : Nat} {l : List Ie} (h : Co data p c l) :
    (FatalCo env s data ∧ ∃ f, ruaRx env s data = .fault f) ∨
    (¬ FatalCo env s data ∧ ((∃ a s', Asks env s data a ∧ ruaRx env s data = .ok s' ∧ Replied s s' a) ∨
      ((¬ ∃ a, Asks env s data a) ∧ ruaRx env s data = .ok s))) := by
  obtain ⟨crit, m, st, hm, hh, hr⟩ := co_rx h
  rw [hr, handleCo_eq hm hh]
  have hu : ∀ {p' c' l'}, Co data p' c' l' → p' = p ∧ c' = c ∧ l' = l := fun h' => co_unique h' h
  by_cases h20 : c = 20
  · subst h20
    obtain ⟨rfl, -⟩ := dt_dir hm
    rw [if_pos rfl]
    have hasks : ∀ a, Asks env s data a ↔ NasAsks env s (nasOf l) a := by
      intro a
      constructor
      · intro ha
        cases ha with
        | nas h' ha => obtain ⟨-, -, rfl⟩ := hu h'; exact ha
        | security h' => exact absurd (hu h').2.1 (by decide)
        | release h' => exact absurd (hu h').2.1 (by decide)
      · exact fun ha => .nas h ha
    have hfatal : FatalCo env s data ↔ s.chan ≠ none ∧ FatalNas env (nasOf l) := by
      constructor
      · rintro ⟨p', c', l', h', ⟨h6, -⟩ | ⟨-, h1, h2⟩⟩
        · obtain ⟨-, rfl, -⟩ := hu h'; cases h6
        · obtain ⟨-, -, rfl⟩ := hu h'; exact ⟨h1, h2⟩
      · exact fun ⟨h1, h2⟩ => ⟨_, _, _, h, .inr ⟨rfl, h1, h2⟩⟩
    simp only [hasks, hfatal]
    by_cases hc : s.chan = none
    · rw [nas_nochan hc]
      refine .inr ⟨fun h => h.1 hc, ?_⟩
      by_cases hx : ∃ a, NasAsks env s (nasOf l) a
      · obtain ⟨a, ha⟩ := hx
        exact .inl ⟨a, s, ha, rfl, by unfold Replied; rw [hc]⟩
      · exact .inr ⟨hx, rfl⟩
    · simp only [ne_eq, hc, not_false_eq_true, true_and]
      exact nas_result hs hc (nasOf l)
  rw [if_neg h20]
  by_cases h6 : c = 6
  · subst h6
    rw [if_pos rfl]
    by_cases hp : p = 1
    · subst hp
      rw [if_pos rfl]
      refine .inr ⟨?_, ?_⟩
      · rintro ⟨p', c', l', h', ⟨-, h6⟩ | ⟨h1, -⟩⟩
        · exact h6 (hu h').1
        · exact absurd ((hu h').2.1.symm.trans h1) (by decide)
      · cases hf : firstAlgorithm l with
        | none =>
          refine .inr ⟨?_, rfl⟩
          rintro ⟨a, ha⟩
          cases ha with
          | nas h' => exact absurd (hu h').2.1 (by decide)
          | security h' ha => obtain ⟨-, -, rfl⟩ := hu h'; rw [hf] at ha; cases ha
          | release h' => exact absurd (hu h').2.1 (by decide)
        | some a =>
          obtain ⟨s', e1, e2⟩ := tx_security hs (first_range hf)
          exact .inl ⟨_, s', .security h hf, e1, e2⟩
    · rw [if_neg hp]
      exact .inl ⟨⟨p, 6, l, h, .inl ⟨rfl, hp⟩⟩, _, rfl⟩
  rw [if_neg h6]
  have hnf : ¬ FatalCo env s data := by
    rintro ⟨p', c', l', h', ⟨h1, -⟩ | ⟨h1, -⟩⟩
    · exact h6 ((hu h').2.1.symm.trans h1)
    · exact h20 ((hu h').2.1.symm.trans h1)
  refine .inr ⟨hnf, ?_⟩
  by_cases h1 : c = 1
  · subst h1
    rw [if_pos rfl]
    obtain ⟨s', e1, e2⟩ := tx_release hs
    exact .inl ⟨_, s', .release h, e1, e2⟩
  · rw [if_neg h1]
    refine .inr ⟨?_, rfl⟩
    rintro ⟨a, ha⟩
    cases ha with
    | nas h' => exact h20 (hu h').2.1.symm
    | security h' => exact h6 (hu h').2.1.symm
    | release h' => exact h1 (hu h').2.1.symm

/-! ## Paging -/

theorem imsiText_eq (imsi : Bytes) : imsiText imsi = .ok (shown imsi) := by
  unfold imsiText
  have h := Bcd.decode_eq (List.replicate 16 0) imsi
  simp only [List.length_replicate] at h
  rw [h, if_neg (by omega)]
  dsimp only
  have hx : ∀ c ∈ shown imsi, c ≠ 0 := by
    intro c hc h0
    have := Bcd.digitChars_hex imsi c (List.mem_of_mem_take hc)
    subst h0
    rcases this with h | h <;> exact absurd h (by decide)
  rw [show (16 - 1 : Nat) = 15 from rfl]
  show Res.ok (List.takeWhile _ (shown imsi ++ _)) = _
  generalize shown imsi = t at hx
  congr 1
  induction t with
  | nil => simp
  | cons a t ih =>
    have := hx a List.mem_cons_self
    rw [List.cons_append, List.takeWhile_cons, if_pos (by simpa using this)]
    congr 1
    exact ih fun c hc => hx c (List.mem_cons_of_mem _ hc)

theorem paging_dir {p : Nat} {m : MsgDef} (h : cnClMsg p 14 = some m) : p = 1 ∧ m = Gen.Ranap.pagingIEs := by
  unfold cnClMsg at h
  rw [if_neg (by simp), if_neg (by simp)] at h
  split at h
  · rename_i hm
    have : p = 1 := by simpa [cnClSupports] using hm
    subst this
    refine ⟨rfl, ?_⟩
    have : protocolMsg 1 14 = some Gen.Ranap.pagingIEs := by with_unfolding_all rfl
    rw [this] at h
    exact (Option.some.inj h).symm
  · cases h

theorem cl_result {env : Env} {s : State} {data x : Bytes} (h : Cl data x) :
    (∃ t, Paged data t ∧ ruaRx env s data = .ok (print s (.paging t))) ∨
    ((¬ ∃ t, Paged data t) ∧ ruaRx env s data = .ok s) := by
  have hu : ∀ {x'}, Cl data x' → x' = x := by
    rintro x' ⟨r', h', rfl⟩
    obtain ⟨r, h, rfl⟩ := h
    obtain ⟨-, rfl⟩ := ruaMsg_unique h h'
    rfl
  have hrx : ruaRx env s data = match handed (cnRxCl x Mem.init).2.trace with
      | none => .ok s
      | some m => handleCl s m := by
    obtain ⟨r, hr, rfl⟩ := h
    exact rua_cl hr
  rw [hrx]
  by_cases hc : ∃ p c l, ClMsg x p c l
  · obtain ⟨p, c, l, hc⟩ := hc
    obtain ⟨crit, m, st, hm, hh, he⟩ := cl_some hc
    rw [he]
    dsimp only
    unfold handleCl
    dsimp only
    by_cases h14 : c = 14
    · subst h14
      obtain ⟨rfl, rfl⟩ := paging_dir hm
      have hmem := member_eq (id := 23) hh (by with_unfolding_all rfl) (by with_unfolding_all rfl)
      rw [if_pos rfl, if_pos rfl, hmem]
      left
      split
      · rename_i imsi hi
        rw [imsiText_eq]
        exact ⟨_, .imsi h hc hi, rfl⟩
      · rename_i hi
        exact ⟨_, .noImsi h hc (fun ⟨imsi, hi'⟩ => hi imsi hi'), rfl⟩
    · rw [if_neg h14]
      refine .inr ⟨?_, rfl⟩
      rintro ⟨t, ht⟩
      obtain ⟨crit', m', ⟨v', g1, g2, g3⟩, g4⟩ := hc
      have hcode : ∀ {p'' crit'' v''}, IsPdu x p'' 14 crit'' v'' → False := by
        intro p'' crit'' v'' h'
        have := (isPdu_iff.1 h').symm.trans (isPdu_iff.1 g1)
        simp only [Option.some.injEq, Prod.mk.injEq] at this
        exact h14 this.2.1.symm
      cases ht with
      | imsi h' hm' => rw [hu h'] at hm'; obtain ⟨_, _, ⟨_, k, -⟩, -⟩ := hm'; exact hcode k
      | noImsi h' hm' => rw [hu h'] at hm'; obtain ⟨_, _, ⟨_, k, -⟩, -⟩ := hm'; exact hcode k
      | outcome h' hm' => rw [hu h'] at hm'; exact hcode hm'
  · by_cases hk : ∃ p c crit value, IsPdu x p c crit value ∧ cnClMsg p c = none
    · obtain ⟨p, c, crit, value, hp, hn⟩ := hk
      obtain ⟨crit', he⟩ := cl_unknown hp hn
      rw [he]
      have hcode : ∀ {p'' c'' crit'' v''}, IsPdu x p'' c'' crit'' v'' → p'' = p ∧ c'' = c := by
        intro p'' c'' crit'' v'' h'
        have := (isPdu_iff.1 h').symm.trans (isPdu_iff.1 hp)
        simp only [Option.some.injEq, Prod.mk.injEq] at this
        exact ⟨this.1, this.2.1⟩
      have hp1 : ∀ {l}, ¬ ClMsg x 1 14 l := fun h' => hc ⟨_, _, _, h'⟩
      by_cases h2 : p = 2 ∧ c = 14
      · obtain ⟨rfl, rfl⟩ := h2
        exact .inl ⟨_, .outcome h hp, rfl⟩
      · right
        constructor
        · rintro ⟨t, ht⟩
          cases ht with
          | imsi h' hm' => rw [hu h'] at hm'; exact hp1 hm'
          | noImsi h' hm' => rw [hu h'] at hm'; exact hp1 hm'
          | outcome h' hm' => rw [hu h'] at hm'; obtain ⟨rfl, rfl⟩ := hcode hm'; exact h2 ⟨rfl, rfl⟩
        · by_cases hp12 : p = 1 ∨ p = 2
          · rw [if_pos hp12]
            dsimp only [handleCl]
            rw [if_neg]
            rintro rfl
            rcases hp12 with rfl | rfl
            · revert hn; decide
            · exact h2 ⟨rfl, rfl⟩
          · rw [if_neg hp12]
            rfl
    · rw [cl_none hc hk]
      refine .inr ⟨?_, rfl⟩
      rintro ⟨t, ht⟩
      cases ht with
      | imsi h' hm' => rw [hu h'] at hm'; exact hc ⟨_, _, _, hm'⟩
      | noImsi h' hm' => rw [hu h'] at hm'; exact hc ⟨_, _, _, hm'⟩
      | outcome h' hm' =>
        rw [hu h'] at hm'
        exact hk ⟨_, _, _, _, hm', by decide⟩

/-! ## HNBAP -/

theorem hnbapPdu_iff {data value : Bytes} {code : Nat} :
    decodePdu Gen.Hnbap.HNBAP_HNBAP_PDU data = some (code, value) ↔ ∃ direction, HnbapPdu data direction code value := by
  rw [pdu_iff]
  constructor
  · rintro ⟨i, crit, pc, h1, h2⟩
    exact ⟨i + 1, by omega, crit, pc, h1, h2⟩
  · rintro ⟨d, -, crit, pc, h1, h2⟩
    exact ⟨_, crit, pc, h1, h2⟩

theorem hnbapPdu_unique {data value value' : Bytes} {d d' code code' : Nat} (h : HnbapPdu data d code value)
    (h' : HnbapPdu data d' code' value') : d = d' ∧ code = code' ∧ value = value' := by
  obtain ⟨g, crit, pc, rfl, h⟩ := h
  obtain ⟨g', crit', pc', rfl, h'⟩ := h'
  rw [h] at h'
  simp only [Option.some.injEq, Val.choice.injEq, Val.seq.injEq, List.cons.injEq, Val.int.injEq, Val.octets.injEq] at h'
  obtain ⟨h1, rfl, -, rfl, -⟩ := h'
  exact ⟨by omega, rfl, rfl⟩

theorem bits_shape {s : Option Size} {v : Val} (h : shaped (.bits s) v = true) :
    ∃ b, v = .bits b ∧ shapedLen s b.length = true := by
  cases v <;> simp [shaped] at h
  exact ⟨_, rfl, h⟩

theorem acc_mem : Gen.Hnbap.hNBRegisterAcceptIEs ∈ tables := hnbap_mem (List.mem_iff_getElem?.2 ⟨1, rfl⟩)
theorem ueAcc_mem : Gen.Hnbap.uERegisterAcceptIEs ∈ tables := hnbap_mem (List.mem_iff_getElem?.2 ⟨5, rfl⟩)

theorem acc_rnc {l : List Ie} (hv : ∀ x ∈ l, Valid Gen.Hnbap.hNBRegisterAcceptIEs x) :
    (∃ v, elem Gen.Hnbap.hNBRegisterAcceptIEs l 14 = some v) ↔ Has l 14 :=
  elem_some (d := ⟨"id-RNC-ID", 14, 0, Gen.Hnbap.HNBAP_RNC_ID, false⟩)
    (by simp [Gen.Hnbap.hNBRegisterAcceptIEs]) (by with_unfolding_all rfl) hv

theorem ueAcc_ctx {l : List Ie} (hv : ∀ x ∈ l, Valid Gen.Hnbap.uERegisterAcceptIEs x) :
    (∃ v, elem Gen.Hnbap.uERegisterAcceptIEs l 4 = some v) ↔ Has l 4 :=
  elem_some (d := ⟨"id-Context-ID", 4, 0, Gen.Hnbap.HNBAP_Context_ID, false⟩)
    (by simp [Gen.Hnbap.uERegisterAcceptIEs]) (by with_unfolding_all rfl) hv

theorem hnbap_result (s : State) (data : Bytes) :
    ((∃ l imsi, Hnbap data 3 Gen.Hnbap.uERegisterAcceptIEs l ∧
      elem Gen.Hnbap.uERegisterAcceptIEs l 5 = some (.choice 0 (.octets imsi)) ∧ ¬ Has l 4) ∧
      ∃ f, hnbapRx s data = .fault f) ∨
    ((¬ ∃ l imsi, Hnbap data 3 Gen.Hnbap.uERegisterAcceptIEs l ∧
      elem Gen.Hnbap.uERegisterAcceptIEs l 5 = some (.choice 0 (.octets imsi)) ∧ ¬ Has l 4) ∧
      ((∃ n, Registered data n ∧ hnbapRx s data = .ok { s with rncId := n, prints := s.prints ++ [.registered n] }) ∨
       (∃ t ctx, UeRegistered data t ctx ∧
         hnbapRx s data = .ok { s with ctxId := ctx, prints := s.prints ++ [.ueRegistered t ctx] }) ∨
       ((¬ ∃ n, Registered data n) ∧ (¬ ∃ t ctx, UeRegistered data t ctx) ∧ hnbapRx s data = .ok s))) := by
  unfold hnbapRx
  cases hp : decodePdu Gen.Hnbap.HNBAP_HNBAP_PDU data with
  | none =>
    have hno : ∀ {d c v}, ¬ HnbapPdu data d c v := fun h => by rw [hnbapPdu_iff.2 ⟨_, h⟩] at hp; cases hp
    right
    refine ⟨fun ⟨l, imsi, ⟨d, v, h, _⟩, _⟩ => hno h, .inr (.inr ⟨?_, ?_, rfl⟩)⟩
    · rintro ⟨n, hn⟩
      cases hn with
      | rncId h => obtain ⟨d, v, h, -⟩ := h; exact hno h
      | noRncId h => obtain ⟨d, v, h, -⟩ := h; exact hno h
      | wrong h => exact hno h
    · rintro ⟨t, ctx, ⟨d, v, h, -⟩, -⟩; exact hno h
  | some cv =>
    obtain ⟨code, value⟩ := cv
    obtain ⟨dir, hpdu⟩ := hnbapPdu_iff.1 hp
    dsimp only
    by_cases h1 : code = 1
    · subst h1
      rw [if_pos rfl]
      right
      refine ⟨?_, .inl ?_⟩
      · rintro ⟨l, imsi, ⟨d, v, h, -⟩, -⟩
        exact absurd (hnbapPdu_unique hpdu h).2.1 (by decide)
      · unfold registerAcc
        by_cases hv : ∃ l, Carries Gen.Hnbap.hNBRegisterAcceptIEs value l ∧ ∀ x ∈ l, Valid Gen.Hnbap.hNBRegisterAcceptIEs x
        · obtain ⟨l, hc, hv⟩ := hv
          obtain ⟨st, e1, e2⟩ := struct_some acc_mem hc hv
          have hmem := member_eq (id := 14) e2 (by with_unfolding_all rfl) (by with_unfolding_all rfl)
          rw [e1]
          dsimp only
          rw [hmem]
          have hh : Hnbap data 1 Gen.Hnbap.hNBRegisterAcceptIEs l := ⟨dir, value, hpdu, hc, hv⟩
          cases he : elem Gen.Hnbap.hNBRegisterAcceptIEs l 14 with
          | none => exact ⟨0, .noRncId hh (fun h => by obtain ⟨v, h⟩ := (acc_rnc hv).2 h; rw [he] at h; cases h), rfl⟩
          | some v =>
            obtain ⟨n, rfl, -⟩ := int_shape (elem_shaped (by with_unfolding_all rfl) he) rfl
            exact ⟨_, .rncId hh he, rfl⟩
        · refine ⟨_, .wrong hpdu ?_, rfl⟩
          rintro ⟨l, d, v, h, h2⟩
          obtain ⟨-, -, rfl⟩ := hnbapPdu_unique hpdu h
          exact hv ⟨l, h2⟩
    rw [if_neg h1]
    have hnr : ¬ ∃ n, Registered data n := by
      rintro ⟨n, hn⟩
      cases hn with
      | rncId h => obtain ⟨d, v, h, -⟩ := h; exact h1 (hnbapPdu_unique hpdu h).2.1
      | noRncId h => obtain ⟨d, v, h, -⟩ := h; exact h1 (hnbapPdu_unique hpdu h).2.1
      | wrong h => exact h1 (hnbapPdu_unique hpdu h).2.1
    by_cases h3 : code = 3
    · subst h3
      rw [if_pos rfl]
      unfold ueRegisterAcc
      dsimp only
      by_cases hv : ∃ l, Carries Gen.Hnbap.uERegisterAcceptIEs value l ∧ ∀ x ∈ l, Valid Gen.Hnbap.uERegisterAcceptIEs x
      · obtain ⟨l, hc, hv⟩ := hv
        obtain ⟨st, e1, e2⟩ := struct_some ueAcc_mem hc hv
        have hmem5 := member_eq (id := 5) e2 (by with_unfolding_all rfl) (by with_unfolding_all rfl)
        have hmem4 := member_eq (id := 4) e2 (by with_unfolding_all rfl) (by with_unfolding_all rfl)
        have hh : Hnbap data 3 Gen.Hnbap.uERegisterAcceptIEs l := ⟨dir, value, hpdu, hc, hv⟩
        have hl : ∀ {l'}, Hnbap data 3 Gen.Hnbap.uERegisterAcceptIEs l' → l' = l := by
          rintro l' ⟨d, v, h, h2, -⟩
          obtain ⟨-, -, rfl⟩ := hnbapPdu_unique hpdu h
          exact carries_inj h2 hc
        rw [e1]
        dsimp only
        rw [if_neg (by decide), hmem5, hmem4]
        split
        · rename_i imsi hi
          cases he : elem Gen.Hnbap.uERegisterAcceptIEs l 4 with
          | none => exact .inl ⟨⟨l, imsi, hh, hi, fun h => by obtain ⟨v, h⟩ := (ueAcc_ctx hv).2 h; rw [he] at h; cases h⟩, _, rfl⟩
          | some v =>
            obtain ⟨b, rfl, hb⟩ := bits_shape (elem_shaped (by with_unfolding_all rfl) he)
            have hb := fixed_len hb
            right
            refine ⟨?_, .inr (.inl ⟨_, _, .mk hh hi he, ?_⟩)⟩
            · rintro ⟨l', imsi', h', -, hn⟩
              obtain rfl := hl h'
              exact hn ((ueAcc_ctx hv).1 ⟨_, he⟩)
            · simp only [u24, if_pos hb, imsiText_eq]
              rfl
        · rename_i hi
          refine .inr ⟨?_, .inr (.inr ⟨hnr, ?_, rfl⟩)⟩
          · rintro ⟨l', imsi', h', hi', -⟩
            obtain rfl := hl h'
            exact hi _ hi'
          · rintro ⟨t, ctx, h', hi', -⟩
            obtain rfl := hl h'
            exact hi _ hi'
      · have hn := struct_none ueAcc_mem hv
        have hno : ∀ {l'}, ¬ Hnbap data 3 Gen.Hnbap.uERegisterAcceptIEs l' := by
          rintro l' ⟨d, v, h, h2⟩
          obtain ⟨-, -, rfl⟩ := hnbapPdu_unique hpdu h
          exact hv ⟨_, h2⟩
        rw [if_pos (by rw [hn]; decide)]
        exact .inr ⟨fun ⟨l, imsi, h, _⟩ => hno h, .inr (.inr ⟨hnr, fun ⟨t, ctx, h⟩ => by cases h with | mk h => exact hno h, rfl⟩)⟩
    · rw [if_neg h3]
      refine .inr ⟨?_, .inr (.inr ⟨hnr, ?_, rfl⟩)⟩
      · rintro ⟨l', imsi', ⟨d, v, h, -⟩, -⟩
        exact h3 (hnbapPdu_unique hpdu h).2.1
      · rintro ⟨t, ctx, ⟨d, v, h, -⟩, -⟩
        exact h3 (hnbapPdu_unique hpdu h).2.1

end Verif.Hnb
