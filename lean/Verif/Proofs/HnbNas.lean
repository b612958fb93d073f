import Verif.Proofs.Hnb
import Verif.Proofs.Compose

/-! The HNB emulator: replies. -/

namespace Verif.Hnb
open Verif.Aper Verif.Ie Verif.Ie.Spec Verif.Rx Verif.Rx.Spec Verif.Linked Verif.Linked.Spec Verif.Hnb.Spec
open Verif.Factory.Spec (Says low24)

/-- The channel is a CS one, if there is one. -/
def CsOnly (s : State) : Prop := ∀ c, s.chan = some c → c.isPs = false

/-! ## Sending -/

theorem txDt_replied {s : State} (hs : CsOnly s) {gen : Res (Option Bytes)} {bs : Bytes} (hg : gen = .ok (some bs))
    (hl : bs.length ≤ 997) {a : Answer} (ha : a.IsIn bs) : ∃ s', txDt s gen = .ok s' ∧ Replied s s' a := by
  subst hg
  unfold txDt Replied
  dsimp only
  cases hc : s.chan with
  | none => exact ⟨s, rfl, rfl⟩
  | some c =>
    dsimp only
    obtain ⟨tr, m, h1, -, h2⟩ := Props.C58_direct_transfer c.isPs c.connId bs hl
    rw [h1]
    unfold enqueueRua enqueue
    dsimp only
    by_cases hq : 16 ≤ s.queue.length
    · rw [if_pos hq]
      exact ⟨s, rfl, by rw [if_pos hq]⟩
    · rw [if_neg hq]
      refine ⟨_, rfl, ?_⟩
      rw [if_neg hq]
      refine ⟨⟨m, 19⟩, ⟨rfl, bs, ha, ?_⟩, by rw [hc]⟩
      rw [hs c hc] at h2
      exact h2

theorem tx_nas {s : State} (hs : CsOnly s) {nas : Bytes} (h : nas.length ≤ 977) :
    ∃ s', txDt s (Factory.dt 0 nas) = .ok s' ∧ Replied s s' (.nas nas) := by
  obtain ⟨bs, h1, h2, h3, -⟩ := Factory.dt_length 0 nas (by omega)
  exact txDt_replied hs h1 (by omega) (a := .nas nas) h2

theorem tx_security {s : State} (hs : CsOnly s) {a : Int} (h : 0 ≤ a ∧ a ≤ 15) :
    ∃ s', txDt s (Factory.secModCompl a 0) = .ok s' ∧ Replied s s' (.securityModeComplete a) := by
  obtain ⟨bs, h1, h2, h3⟩ := Factory.secModCompl_length (ip := a) (enc := 0) ⟨h.1, h.2, by decide, by decide⟩
  exact txDt_replied hs h1 (by omega) (a := .securityModeComplete a) h2

theorem tx_release {s : State} (hs : CsOnly s) : ∃ s', txDt s Factory.iuRelCompl = .ok s' ∧ Replied s s' .iuReleaseComplete := by
  obtain ⟨bs, h1, h2, h3⟩ := Factory.iuRelCompl_length
  exact txDt_replied hs h1 (by omega) (a := .iuReleaseComplete) h2

theorem tx_request {s : State} (hs : CsOnly s) :
    ∃ s', txDt s (Factory.iuRelReq (some releaseCause)) = .ok s' ∧ Replied s s' .iuReleaseRequest := by
  obtain ⟨bs, h1, h2, h3⟩ := Factory.iuRelReq_length (c := releaseCause) (by decide)
  exact txDt_replied hs h1 (by omega) (a := .iuReleaseRequest) h2

/-! ## NAS messages -/

theorem low4 (b : Byte) : (b &&& 0x0f).toNat = b.toNat % 16 := by
  rw [BitVec.toNat_and]; exact Nat.and_two_pow_sub_one_eq_mod b.toNat 4

theorem low6 (b : Byte) : (b &&& 0x3f).toNat = b.toNat % 64 := by
  rw [BitVec.toNat_and]; exact Nat.and_two_pow_sub_one_eq_mod b.toNat 6

theorem low4_eq (b k : Byte) : b &&& 0x0f = k ↔ b.toNat % 16 = k.toNat := by
  rw [← BitVec.toNat_inj, low4]

/-- Either it is a mobility management message, or nothing happens. -/
theorem rxDtap_eq (env : Env) (s : State) (nas : Bytes) :
    (∃ type rest t, Mm nas t.toNat rest ∧ t = type &&& 0x3f ∧ rxDtap env s nas = rxMm env s type rest) ∨
    ((¬ ∃ type rest, Mm nas type rest) ∧ rxDtap env s nas = .ok s) := by
  unfold rxDtap
  match nas with
  | pd :: type :: rest =>
    dsimp only
    by_cases h : pd &&& 0x0f = 5
    · left
      refine ⟨type, rest, _, ⟨pd, type, rfl, (low4_eq pd 5).1 h, (low6 type).symm⟩, rfl, ?_⟩
      rw [if_pos h]
    · right
      refine ⟨?_, by rw [if_neg h]⟩
      rintro ⟨t, r, pd', ty, e, h1, h2⟩
      cases e
      exact h ((low4_eq pd 5).2 h1)
  | [] => right; exact ⟨(by rintro ⟨t, r, pd', ty, e, -⟩; cases e), rfl⟩
  | [_] => right; exact ⟨(by rintro ⟨t, r, pd', ty, e, -⟩; cases e), rfl⟩

theorem mm_unique {nas rest rest' : Bytes} {t t' : Nat} (h : Mm nas t rest) (h' : Mm nas t' rest') : t = t' ∧ rest = rest' := by
  obtain ⟨pd, ty, rfl, -, h2⟩ := h
  obtain ⟨pd', ty', e, -, h2'⟩ := h'
  cases e
  exact ⟨h2.symm.trans h2', rfl⟩

/-- `luAccept`, in terms of the elements. -/
theorem luAccept_cases (env : Env) (rest : Bytes) :
    (∃ f, luAccept env rest = .fault f ∧ (rest.length < 5 ∨
      (ie env rest 0x17 ≠ none ∧ (ie env rest 0x45 = none ∨ ie env rest 0x45 = some [])))) ∨
    (¬ (rest.length < 5 ∨ (ie env rest 0x17 ≠ none ∧ (ie env rest 0x45 = none ∨ ie env rest 0x45 = some []))) ∧
      ((env.tlv rest = none ∧ luAccept env rest = .ok none) ∨
       (env.tlv rest ≠ none ∧ ie env rest 0x17 = none ∧ luAccept env rest = .ok (some none)) ∨
       (ie env rest 0x17 ≠ none ∧ ∃ b v, ie env rest 0x45 = some (b :: v) ∧
         luAccept env rest = .ok (some (some (b &&& 0x0f == 4)))))) := by
  unfold luAccept ie
  by_cases hl : rest.length < 5
  · left; exact ⟨_, by rw [if_pos hl], .inl hl⟩
  rw [if_neg hl]
  cases ht : env.tlv rest with
  | none => right; simp [hl]
  | some tp =>
    simp only [Option.bind_some, ieMobileId, ieNameShort]
    cases hm : tp.lookup 0x17 with
    | none => right; simp [hl]
    | some x =>
      cases hn : tp.lookup 0x45 with
      | none => left; exact ⟨_, rfl, .inr ⟨by simp, .inl rfl⟩⟩
      | some y =>
        match y with
        | [] => left; exact ⟨_, rfl, .inr ⟨by simp, .inr rfl⟩⟩
        | b :: v => right; simp [hl]

theorem mmInfo_cases (env : Env) (rest : Bytes) :
    (∃ f, mmInfo env rest = .fault f ∧ (ie env rest 0x45 = some [] ∨ ie env rest 0x43 = some [])) ∨
    (mmInfo env rest = .ok () ∧ ¬ (ie env rest 0x45 = some [] ∨ ie env rest 0x43 = some [])) := by
  unfold mmInfo ie
  cases ht : env.tlv rest with
  | none => right; simp
  | some tp =>
    simp only [Option.bind_some, ieNameLong, ieNameShort, mmName]
    cases hn : tp.lookup 0x45 with
    | none =>
      cases hm : tp.lookup 0x43 with
      | none => right; simp
      | some y =>
        match y with
        | [] => left; exact ⟨_, rfl, .inr rfl⟩
        | b :: v => right; simp
    | some x =>
      match x with
      | [] => left; exact ⟨_, rfl, .inl rfl⟩
      | b :: v =>
        cases hm : tp.lookup 0x43 with
        | none => right; simp
        | some y =>
          match y with
          | [] => left; exact ⟨_, rfl, .inr rfl⟩
          | c :: w => right; simp

/-- What a NAS PDU does when there is a channel. -/
theorem nas_result {env : Env} {s : State} (hs : CsOnly s) (hc : s.chan ≠ none) (nas : Bytes) :
    (FatalNas env nas ∧ ∃ f, rxDtap env s nas = .fault f) ∨
    (¬ FatalNas env nas ∧ ((∃ a s', NasAsks env s nas a ∧ rxDtap env s nas = .ok s' ∧ Replied s s' a) ∨
      ((¬ ∃ a, NasAsks env s nas a) ∧ rxDtap env s nas = .ok s))) := by
  rcases (rxDtap_eq env s nas).symm with ⟨hn, he⟩ | ⟨type, rest, t, hm, ht, he⟩
  · right
    refine ⟨?_, .inr ⟨?_, he⟩⟩
    · rintro ⟨rest, ⟨h, -⟩ | ⟨h, -⟩⟩ <;> exact hn ⟨_, _, h⟩
    · rintro ⟨a, h⟩
      cases h <;> exact hn ⟨_, _, by assumption⟩
  obtain ⟨c, hc⟩ := Option.ne_none_iff_exists'.1 hc
  have hps := hs c hc
  -- the message is of no other type, with no other contents
  have uniq : ∀ {n r}, Mm nas n r → n = t.toNat ∧ r = rest := fun h => mm_unique h hm
  have nofatal : t.toNat ≠ 0x02 → t.toNat ≠ 0x32 → ¬ FatalNas env nas := by
    rintro h1 h2 ⟨r, ⟨h, -⟩ | ⟨h, -⟩⟩
    · exact h1 (uniq h).1.symm
    · exact h2 (uniq h).1.symm
  rw [he]
  unfold rxMm
  rw [hc]
  dsimp only
  rw [hps, ← ht]
  simp only [Bool.false_eq_true, if_false]
  by_cases h18 : t.toNat = 0x18
  · rw [if_pos h18]
    obtain ⟨s', e1, e2⟩ := tx_nas hs (nas := idResp) (by decide)
    exact .inr ⟨nofatal (by omega) (by omega), .inl ⟨_, s', .identity (h18 ▸ hm), e1, e2⟩⟩
  rw [if_neg h18]
  by_cases h02 : t.toNat = 0x02
  · rw [if_pos h02]
    rw [h02] at hm uniq
    have hf : FatalNas env nas ↔ (rest.length < 5 ∨ (ie env rest 0x17 ≠ none ∧ (ie env rest 0x45 = none ∨ ie env rest 0x45 = some []))) := by
      constructor
      · rintro ⟨r, ⟨h, h'⟩ | ⟨h, -⟩⟩
        · obtain ⟨-, rfl⟩ := uniq h; exact h'
        · exact absurd (uniq h).1 (by decide)
      · intro h; exact ⟨rest, .inl ⟨hm, h⟩⟩
    rw [hf]
    -- no answer of another kind
    have only : ∀ {a}, NasAsks env s nas a → a = .nas tmsiReallocationComplete ∧
        ((ie env rest 0x17 ≠ none ∧ ∃ b v, ie env rest 0x45 = some (b :: v) ∧ b.toNat % 16 = 4) ∨
         (env.tlv rest ≠ none ∧ ie env rest 0x17 = none ∧ env.junk s rest = true)) := by
      intro a h
      cases h with
      | identity h => exact absurd (uniq h).1 (by decide)
      | authentication h => exact absurd (uniq h).1 (by decide)
      | information h => exact absurd (uniq h).1 (by decide)
      | lu h h1 h2 h3 => obtain ⟨-, rfl⟩ := uniq h; exact ⟨rfl, .inl ⟨h1, _, _, h2, h3⟩⟩
      | chance h h1 h2 h3 => obtain ⟨-, rfl⟩ := uniq h; exact ⟨rfl, .inr ⟨h1, h2, h3⟩⟩
    obtain ⟨s', e1, e2⟩ := tx_nas hs (nas := tmsiReallCompl) (by decide)
    rcases luAccept_cases env rest with ⟨f, h1, h2⟩ | ⟨h1, ⟨h2, h3⟩ | ⟨h2, h3, h4⟩ | ⟨h2, b, v, h3, h4⟩⟩
    · rw [h1]; exact .inl ⟨h2, f, rfl⟩
    · rw [h3]
      refine .inr ⟨h1, .inr ⟨?_, rfl⟩⟩
      rintro ⟨a, h⟩
      rcases (only h).2 with ⟨h4, -⟩ | ⟨h4, -⟩
      · exact h4 (by unfold ie; rw [h2]; rfl)
      · exact h4 h2
    · rw [h4]
      refine .inr ⟨h1, ?_⟩
      dsimp only
      by_cases hj : env.junk s rest = true
      · rw [if_pos hj]
        exact .inl ⟨_, s', .chance hm h2 h3 hj, e1, e2⟩
      · rw [if_neg hj]
        refine .inr ⟨?_, rfl⟩
        rintro ⟨a, h⟩
        rcases (only h).2 with ⟨h5, -⟩ | ⟨-, -, h5⟩
        · exact h5 h3
        · exact hj h5
    · rw [h4]
      refine .inr ⟨h1, ?_⟩
      dsimp only
      by_cases hb : (b &&& 0x0f == 4) = true
      · rw [if_pos hb]
        exact .inl ⟨_, s', .lu hm h2 h3 ((low4_eq b 4).1 (by simpa using hb)), e1, e2⟩
      · rw [if_neg hb]
        refine .inr ⟨?_, rfl⟩
        rintro ⟨a, h⟩
        rcases (only h).2 with ⟨-, b', v', h5, h6⟩ | ⟨-, h5, -⟩
        · rw [h3] at h5
          cases h5
          exact hb (by simpa using (low4_eq b 4).2 h6)
        · exact h2 h5
  rw [if_neg h02]
  by_cases h32 : t.toNat = 0x32
  · rw [if_pos h32]
    rw [h32] at hm uniq
    have hf : FatalNas env nas ↔ (ie env rest 0x45 = some [] ∨ ie env rest 0x43 = some []) := by
      constructor
      · rintro ⟨r, ⟨h, -⟩ | ⟨h, h'⟩⟩
        · exact absurd (uniq h).1 (by decide)
        · obtain ⟨-, rfl⟩ := uniq h; exact h'
      · intro h; exact ⟨rest, .inr ⟨hm, h⟩⟩
    rw [hf]
    rcases mmInfo_cases env rest with ⟨f, h1, h2⟩ | ⟨h1, h2⟩
    · rw [h1]; exact .inl ⟨h2, f, rfl⟩
    · rw [h1]
      obtain ⟨s', e1, e2⟩ := tx_request hs
      exact .inr ⟨h2, .inl ⟨_, s', .information hm, e1, e2⟩⟩
  rw [if_neg h32]
  have hf := nofatal h02 h32
  by_cases h12 : t.toNat = 0x12
  · rw [if_pos h12]
    rw [h12] at hm uniq
    unfold authReq
    by_cases hl : rest.length < 17
    · rw [if_pos hl]
      refine .inr ⟨hf, .inr ⟨?_, rfl⟩⟩
      rintro ⟨a, h⟩
      cases h with
      | identity h => exact absurd (uniq h).1 (by decide)
      | authentication h h' => obtain ⟨-, rfl⟩ := uniq h; omega
      | information h => exact absurd (uniq h).1 (by decide)
      | lu h h1 h2 h3 => exact absurd (uniq h).1 (by decide)
      | chance h h1 h2 h3 => exact absurd (uniq h).1 (by decide)
    · rw [if_neg hl]
      obtain ⟨s', e1, e2⟩ := tx_nas hs (nas := authResp (env.sres ((rest.drop 1).take 16))) (by
        unfold authResp
        simp)
      exact .inr ⟨hf, .inl ⟨_, s', .authentication hm (by omega), e1, e2⟩⟩
  rw [if_neg h12]
  refine .inr ⟨hf, .inr ⟨?_, rfl⟩⟩
  rintro ⟨a, h⟩
  cases h with
  | identity h => exact h18 (uniq h).1.symm
  | authentication h h' => exact h12 (uniq h).1.symm
  | information h => exact h32 (uniq h).1.symm
  | lu h h1 h2 h3 => exact h02 (uniq h).1.symm
  | chance h h1 h2 h3 => exact h02 (uniq h).1.symm

/-- ... when there is none. -/
theorem nas_nochan {env : Env} {s : State} (hc : s.chan = none) (nas : Bytes) : rxDtap env s nas = .ok s := by
  unfold rxDtap
  split
  · split
    · unfold rxMm; rw [hc]
    · rfl
  · rfl

end Verif.Hnb
