import Verif.Spec.Hnb
import Verif.Proofs.Linked
import Verif.Proofs.Rua
import Verif.Props.FactorySec
import Verif.Props.Factory
import Verif.Props.FactoryRab

/-! The HNB emulator: received RUA messages. -/

namespace Verif.Hnb
open Verif.Aper Verif.Aper.Spec Verif.Ie Verif.Ie.Spec Verif.Rx Verif.Rx.Spec Verif.Linked Verif.Linked.Spec Verif.Hnb.Spec
open Verif.Factory.Spec (Says low24)
open Verif.Factory (Kind contents bound)

/-! ## RANAP messages -/

/-- A connection oriented message is handed over, with its elements. -/
theorem co_some {data : Bytes} {p c : Nat} {l : List Ie} (h : CoMsg data p c l) :
    ∃ crit m s, cnCoMsg p c = some m ∧ Holds m l s ∧
      handed (cnRxCo data Mem.init).2.trace = some ⟨p, c, crit, some (m.name, s)⟩ := by
  obtain ⟨crit, m, hp, hv⟩ := h
  obtain ⟨-, s, before, live, -, hc, hh, -⟩ := fate_delivered cnCo_table (cnRxCo_fate data) hp hv
  obtain ⟨value, -, hm, -⟩ := hp
  exact ⟨crit, m, s, hm, hh, by rw [handed_eq, hc]; rfl⟩

/-- Nothing else is. -/
theorem co_none {data : Bytes} (h : ¬ ∃ p c l, CoMsg data p c l) : handed (cnRxCo data Mem.init).2.trace = none := by
  rw [handed_eq]
  have hf := cnRxCo_fate data
  generalize (cnRxCo data Mem.init).1 = rc at hf
  generalize (cnRxCo data Mem.init).2.trace = tr at hf
  cases hf with
  | garbage => rfl
  | unknown => rfl
  | broken => rfl
  | failed => rw [calls_append, calls_pre]; rfl
  | @called p c crit value m l n s h' hm hc hd hh =>
    rw [cnCo_table] at hm
    exact absurd ⟨p, c, l, crit, m, ⟨value, isPdu_iff.2 h', hm, hc⟩, hd.ok_iff.1 rfl⟩ h

/-- A connectionless message that is known. -/
theorem cl_some {data : Bytes} {p c : Nat} {l : List Ie} (h : ClMsg data p c l) :
    ∃ crit m s, cnClMsg p c = some m ∧ Holds m l s ∧
      handed (cnRxCl data Mem.init).2.trace = some ⟨p, c, crit, some (m.name, s)⟩ := by
  obtain ⟨crit, m, hp, hv⟩ := h
  obtain ⟨-, s, before, live, -, hc, hh, -⟩ := fate_delivered cnCl_table (cnRxCl_fate data) hp hv
  obtain ⟨value, -, hm, -⟩ := hp
  exact ⟨crit, m, s, hm, hh, by rw [handed_eq, hc]; rfl⟩

/-- One that is not. -/
theorem cl_unknown {data value : Bytes} {p c crit : Nat} (h : IsPdu data p c crit value) (hu : cnClMsg p c = none) :
    ∃ crit, handed (cnRxCl data Mem.init).2.trace = some (if p = 1 ∨ p = 2 then ⟨p, c, crit, none⟩ else ⟨p, 0, 0, none⟩) := by
  rw [handed_eq, cnRxCl_unknown (isPdu_iff.1 h) hu]
  exact ⟨crit, rfl⟩

/-- Nothing else is handed over. -/
theorem cl_none {data : Bytes} (h : ¬ ∃ p c l, ClMsg data p c l)
    (h2 : ¬ ∃ p c crit value, IsPdu data p c crit value ∧ cnClMsg p c = none) :
    handed (cnRxCl data Mem.init).2.trace = none := by
  rw [handed_eq]
  have hf := cnRxCl_fate data
  generalize (cnRxCl data Mem.init).1 = rc at hf
  generalize (cnRxCl data Mem.init).2.trace = tr at hf
  cases hf with
  | garbage => rfl
  | @unknown p c crit value msg h' hm =>
    rw [cnCl_table] at hm
    exact absurd ⟨p, c, crit, value, isPdu_iff.2 h', hm⟩ h2
  | broken => rfl
  | @failed p c crit value m l n s =>
    rw [calls_append, calls_pre]
    rw [if_neg (by decide), calls_frees]
    rfl
  | @called p c crit value m l n s h' hm hc hd hh =>
    rw [cnCl_table] at hm
    exact absurd ⟨p, c, l, crit, m, ⟨value, isPdu_iff.2 h', hm, hc⟩, hd.ok_iff.1 rfl⟩ h

/-! ## RUA messages -/

theorem pdu_iff {t : Ty} {data value : Bytes} {code : Nat} : decodePdu t data = some (code, value) ↔
    ∃ (i crit : Nat) (pc : Int), pc.toNat = code ∧
      decode t data = some (.choice i (.seq [some (.int pc), some (.enum crit), some (.octets value)])) := by
  unfold decodePdu
  constructor
  · intro h
    split at h
    · rename_i i pc crit v hd
      simp only [Option.some.injEq, Prod.mk.injEq] at h
      exact ⟨i, crit, pc, h.1, by rw [hd, h.2]⟩
    · cases h
  · rintro ⟨i, crit, pc, rfl, h⟩
    rw [h]

theorem struct_some {m : MsgDef} (hm : m ∈ tables) {value : Bytes} {l : List Ie} (h : Carries m value l)
    (hv : ∀ x ∈ l, Valid m x) : ∃ s, decodeStruct m value = (0, s) ∧ Holds m l s := by
  have hd := decodeIes_spec (good hm) h (Mem.init (α := Unit))
  have h0 := hd.ok_iff.2 hv
  rw [h0] at hd
  exact ⟨_, Prod.ext h0 rfl, holds_of_dec hd⟩

theorem struct_none {m : MsgDef} (hm : m ∈ tables) {value : Bytes}
    (h : ¬ ∃ l, Carries m value l ∧ ∀ x ∈ l, Valid m x) : (decodeStruct m value).1 = -1 := by
  unfold decodeStruct
  rcases carries_or_not (good hm) value with ⟨l, hl⟩ | h'
  · have hd := decodeIes_spec (good hm) hl (Mem.init (α := Unit))
    rcases hd.rc_cases with h0 | h0
    · exact absurd ⟨l, hl, hd.ok_iff.1 h0⟩ h
    · exact h0
  · unfold decodeIes
    rw [h']

theorem rua_dt {env : Env} {s : State} {data : Bytes} {r : List Ie} (h : RuaMsg data 2 r) :
    ruaRx env s data = match handed (cnRxCo (octetsOf (elem Gen.Rua.directTransferIEs r 4)) Mem.init).2.trace with
      | none => .ok s
      | some m => handleCo env s m := by
  obtain ⟨i, crit, pc, value, m, h1, h2, h3, h4, h5⟩ := h
  have hm := (Rua.message_mem h3).1
  cases h3
  obtain ⟨st, e1, e2⟩ := struct_some hm h4 h5
  have hmem := member_eq (id := 4) e2 (by with_unfolding_all rfl) (by with_unfolding_all rfl)
  unfold ruaRx
  rw [pdu_iff.2 ⟨i, crit, pc, h2, h1⟩]
  dsimp only
  rw [if_neg (by decide), if_pos rfl]
  unfold ruaDt
  rw [e1]
  dsimp only
  rw [if_neg (by decide), hmem, str_eq]
  rfl

theorem rua_cl {env : Env} {s : State} {data : Bytes} {r : List Ie} (h : RuaMsg data 4 r) :
    ruaRx env s data = match handed (cnRxCl (octetsOf (elem Gen.Rua.connectionlessTransferIEs r 4)) Mem.init).2.trace with
      | none => .ok s
      | some m => handleCl s m := by
  obtain ⟨i, crit, pc, value, m, h1, h2, h3, h4, h5⟩ := h
  have hm := (Rua.message_mem h3).1
  cases h3
  obtain ⟨st, e1, e2⟩ := struct_some hm h4 h5
  have hmem := member_eq (id := 4) e2 (by with_unfolding_all rfl) (by with_unfolding_all rfl)
  unfold ruaRx
  rw [pdu_iff.2 ⟨i, crit, pc, h2, h1⟩]
  dsimp only
  rw [if_pos rfl]
  unfold ruaCl
  rw [e1]
  dsimp only
  rw [if_neg (by decide), hmem, str_eq]
  rfl

theorem rua_other {env : Env} {s : State} {data : Bytes} (h2 : ¬ ∃ r, RuaMsg data 2 r) (h4 : ¬ ∃ r, RuaMsg data 4 r) :
    ruaRx env s data = .ok s := by
  unfold ruaRx
  cases hp : decodePdu Gen.Rua.RUA_RUA_PDU data with
  | none => rfl
  | some p =>
    obtain ⟨code, value⟩ := p
    obtain ⟨i, crit, pc, e1, e2⟩ := pdu_iff.1 hp
    dsimp only
    have key : ∀ m, Rua.Spec.message code = some m → (¬ ∃ r, RuaMsg data code r) → (decodeStruct m value).1 = -1 := by
      intro m hm hn
      refine struct_none (Rua.message_mem hm).1 ?_
      rintro ⟨l, hl, hv⟩
      exact hn ⟨l, i, crit, pc, value, m, e2, e1, hm, hl, hv⟩
    split
    · rename_i h; subst h
      unfold ruaCl
      have := key _ rfl h4
      generalize decodeStruct Gen.Rua.connectionlessTransferIEs value = x at *
      obtain ⟨rc, st⟩ := x
      dsimp only at this ⊢
      rw [if_pos (by rw [this]; decide)]
    · split
      · rename_i h; subst h
        unfold ruaDt
        have := key _ rfl h2
        generalize decodeStruct Gen.Rua.directTransferIEs value = x at *
        obtain ⟨rc, st⟩ := x
        dsimp only at this ⊢
        rw [if_pos (by rw [this]; decide)]
      · rfl

/-- The procedure code of a RUA message, and its elements. -/
theorem ruaMsg_unique {data : Bytes} {c c' : Nat} {r r' : List Ie} (h : RuaMsg data c r) (h' : RuaMsg data c' r') :
    c = c' ∧ r = r' := by
  obtain ⟨i, crit, pc, value, m, h1, h2, h3, h4, h5⟩ := h
  obtain ⟨i', crit', pc', value', m', h1', h2', h3', h4', h5'⟩ := h'
  rw [h1] at h1'
  cases h1'
  rw [h2] at h2'
  subst h2'
  rw [h3] at h3'
  cases h3'
  exact ⟨rfl, carries_inj h4 h4'⟩

/-- A RUA Direct Transfer with a RANAP message. -/
theorem co_rx {data : Bytes} {p c : Nat} {l : List Ie} (h : Co data p c l) :
    ∃ crit m st, cnCoMsg p c = some m ∧ Holds m l st ∧
      ∀ env s, ruaRx env s data = handleCo env s ⟨p, c, crit, some (m.name, st)⟩ := by
  obtain ⟨r, h1, h2⟩ := h
  obtain ⟨crit, m, st, e1, e2, e3⟩ := co_some h2
  exact ⟨crit, m, st, e1, e2, fun env s => by rw [rua_dt h1, e3]⟩

/-- Messages that are neither this nor a Connectionless Transfer have no effect. -/
theorem rx_other {env : Env} {s : State} {data : Bytes} (h : ¬ ∃ p c l, Co data p c l) (h' : ¬ ∃ x, Cl data x) :
    ruaRx env s data = .ok s := by
  by_cases h2 : ∃ r, RuaMsg data 2 r
  · obtain ⟨r, h2⟩ := h2
    rw [rua_dt h2, co_none]
    rintro ⟨p, c, l, hc⟩
    exact h ⟨p, c, l, r, h2, hc⟩
  · refine rua_other h2 ?_
    rintro ⟨r, hr⟩
    exact h' ⟨_, r, hr, rfl⟩

/-! ## What the handler of Direct Transfers does -/

theorem dt_dir {p : Nat} {m : MsgDef} (h : cnCoMsg p 20 = some m) : p = 1 ∧ m = Gen.Ranap.directTransferIEs := by
  unfold cnCoMsg at h
  rw [if_neg (by simp)] at h
  split at h
  · rename_i hm
    have : p = 1 := by simpa [cnCoSupports] using hm
    subst this
    refine ⟨rfl, ?_⟩
    have : protocolMsg 1 20 = some Gen.Ranap.directTransferIEs := by with_unfolding_all rfl
    rw [this] at h
    exact (Option.some.inj h).symm
  · cases h

theorem sec_dir {p : Nat} {m : MsgDef} (h : cnCoMsg p 6 = some m) :
    (p = 1 ∧ m = Gen.Ranap.securityModeCommandIEs) ∨ (p ≠ 1 ∧ m.name ≠ Gen.Ranap.securityModeCommandIEs.name) := by
  unfold cnCoMsg at h
  rw [if_neg (by simp)] at h
  split at h
  · rename_i hm
    have : p = 1 ∨ p = 2 ∨ p = 3 := by simpa [cnCoSupports] using hm
    rcases this with rfl | rfl | rfl
    · have : protocolMsg 1 6 = some Gen.Ranap.securityModeCommandIEs := by with_unfolding_all rfl
      rw [this] at h
      exact .inl ⟨rfl, (Option.some.inj h).symm⟩
    · have : protocolMsg 2 6 = some Gen.Ranap.securityModeCompleteIEs := by with_unfolding_all rfl
      rw [this] at h
      cases h
      exact .inr ⟨by decide, by decide⟩
    · have : protocolMsg 3 6 = some Gen.Ranap.securityModeRejectIEs := by with_unfolding_all rfl
      rw [this] at h
      cases h
      exact .inr ⟨by decide, by decide⟩
  · cases h

theorem algorithm_shape {l : List Ie} {v : Val} (h : elem Gen.Ranap.securityModeCommandIEs l 12 = some v) :
    ∃ (a : Int) (vs : List Val) (rest : List (Option Val)), v = .seq (some (.list (.int a :: vs)) :: rest) ∧ 0 ≤ a ∧ a ≤ 15 := by
  replace h := elem_shaped (by with_unfolding_all rfl) h
  obtain ⟨vs, rfl, h⟩ := seq_shape h
  obtain ⟨v1, vs1, rfl, h1, h⟩ := cons_shape h
  obtain ⟨xs, rfl, hl, hx⟩ : ∃ xs, v1 = .list xs ∧ shapedLen (some ⟨1, 16, false⟩) xs.length = true ∧
      ∀ x ∈ xs, shaped Gen.Ranap.RANAP_IntegrityProtectionAlgorithm x = true := by
    cases v1 <;> simp [shaped, Gen.Ranap.RANAP_PermittedIntegrityProtectionAlgorithms] at h1
    exact ⟨_, rfl, h1⟩
  cases xs with
  | nil => simp [shapedLen] at hl
  | cons x xs =>
    obtain ⟨n, rfl, hn, hc⟩ := int_shape (hx x List.mem_cons_self) rfl
    refine ⟨n, xs, _, rfl, hn, ?_⟩
    have : codes 16 n.toNat = true := by simpa using hc
    simp [codes, bits16] at this
    omega

theorem first_range {l : List Ie} {a : Int} (h : firstAlgorithm l = some a) : 0 ≤ a ∧ a ≤ 15 := by
  unfold firstAlgorithm at h
  split at h
  · rename_i b vs rest he
    obtain ⟨a', vs', rest', e, h1, h2⟩ := algorithm_shape he
    cases h
    cases e
    exact ⟨h1, h2⟩
  · cases h

theorem handleCo_eq {env : Env} {s : State} {p c crit : Nat} {m : MsgDef} {l : List Ie} {st : Struct}
    (hm : cnCoMsg p c = some m) (hh : Holds m l st) : handleCo env s ⟨p, c, crit, some (m.name, st)⟩ =
      if c = 20 then rxDtap env s (nasOf l)
      else if c = 6 then
        if p = 1 then match firstAlgorithm l with
          | some a => txDt s (Factory.secModCompl a 0)
          | none => .ok s
        else .fault .wrongUnion
      else if c = 1 then txDt s Factory.iuRelCompl
      else .ok s := by
  unfold handleCo
  dsimp only
  by_cases h20 : c = 20
  · subst h20
    rw [if_pos rfl, if_pos rfl]
    obtain ⟨rfl, rfl⟩ := dt_dir hm
    have hmem := member_eq (id := 16) hh (by with_unfolding_all rfl) (by with_unfolding_all rfl)
    rw [if_pos rfl, hmem, str_eq]
    rfl
  rw [if_neg h20, if_neg h20]
  by_cases h6 : c = 6
  · subst h6
    rw [if_pos rfl, if_pos rfl]
    rcases sec_dir hm with ⟨rfl, rfl⟩ | ⟨h1, h2⟩
    · rw [if_pos rfl, if_pos rfl]
      have hmem := member_eq (id := 12) hh (by with_unfolding_all rfl) (by with_unfolding_all rfl)
      unfold algorithms firstAlgorithm
      rw [hmem]
      cases he : elem Gen.Ranap.securityModeCommandIEs l 12 with
      | none => rfl
      | some v =>
        obtain ⟨a, vs, rest, rfl, -⟩ := algorithm_shape he
        rfl
    · rw [if_neg h2, if_neg h1]
  rw [if_neg h6, if_neg h6]

end Verif.Hnb
