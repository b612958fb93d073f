import Verif.Proofs.HnbRun

/-! The HNB emulator: messages made by the libraries. -/

namespace Verif.Hnb
open Verif.Aper Verif.Ie Verif.Ie.Spec Verif.Rx Verif.Rx.Spec Verif.Linked Verif.Hnb.Spec Verif.Factory.Spec
open Verif.Linked.Spec (CoMsg ClMsg elem octetsOf Has)

theorem ruaMsg_of_understood {bs : Bytes} {code : Nat} {want : List (Nat × Val)} (h : Rua.Spec.Understood bs code want) :
    ∃ r m, Rua.Spec.message code = some m ∧ RuaMsg bs code r ∧
      ∀ id d, Row m (m.ies.findIdx (·.id == id)) d → m.ies.find? (·.id = id) = some d → elem m r id = want.lookup id := by
  obtain ⟨m, crit, value, hm, hd, hu⟩ := h
  have htab := (Rua.message_mem hm).1
  obtain ⟨h0, hx⟩ := hu Mem.init
  have hv : ∃ l, Carries m value l ∧ ∀ x ∈ l, Valid m x := by
    apply Classical.byContradiction
    intro hn
    have := struct_none htab hn
    unfold decodeStruct at this
    rw [h0] at this
    cases this
  obtain ⟨r, hc, hv⟩ := hv
  obtain ⟨st, e1, e2⟩ := struct_some htab hc hv
  have hst : (decodeIes m value (Mem.init (α := Unit))).1.2 = st := by
    unfold decodeStruct at e1
    rw [e1]
  rw [hst] at hx
  refine ⟨r, m, hm, ⟨0, crit, code, value, m, hd, rfl, hm, hc, hv⟩, fun id d h1 h2 => ?_⟩
  rw [← member_eq e2 h1 h2]
  have hid : d.id = id := by simpa using List.find?_some h2
  unfold member
  rw [(hx _ _ h1).1, hid]
  rfl

/-- A connection oriented RANAP message in a RUA Direct Transfer. -/
theorem co_of {bs ranap : Bytes} {header : List (Nat × Val)} {p c : Nat} {l : List Ie}
    (h : Rua.Spec.Understood bs 2 (header ++ [(4, .octets ranap)])) (h4 : header.lookup 4 = none) (hm : CoMsg ranap p c l) :
    Co bs p c l := by
  obtain ⟨r, m, e1, e2, e3⟩ := ruaMsg_of_understood h
  cases e1
  refine ⟨r, e2, ?_⟩
  rw [e3 4 _ (by with_unfolding_all rfl) (by with_unfolding_all rfl), List.lookup_append, h4]
  exact hm

/-- A RANAP message in a RUA Connectionless Transfer. -/
theorem cl_of {bs ranap : Bytes} (h : Rua.Spec.Understood bs 4 [(4, .octets ranap)]) : Cl bs ranap := by
  obtain ⟨r, m, e1, e2, e3⟩ := ruaMsg_of_understood h
  cases e1
  refine ⟨r, e2, ?_⟩
  rw [e3 4 _ (by with_unfolding_all rfl) (by with_unfolding_all rfl)]
  rfl

/-- A Direct Transfer. -/
theorem dt_nas {ranap nas : Bytes} {n : Nat} (h : Says ranap 1 20 [(16, .octets nas), (59, .enum n)]) :
    ∃ l, CoMsg ranap 1 20 l ∧ nasOf l = nas := by
  obtain ⟨l, h1, h2⟩ := Props.says_co h (by simp) (m := Gen.Ranap.directTransferIEs) (by with_unfolding_all rfl) (by simp)
  refine ⟨l, h1, ?_⟩
  have := (h2 ⟨"id-NAS-PDU", 16, 1, Gen.Ranap.RANAP_NAS_PDU, false⟩ (by simp [Gen.Ranap.directTransferIEs])).2
  unfold nasOf
  rw [this]
  rfl

/-- The same with domain and context id. -/
theorem on_of {bs : Bytes} {d : Nat} {ctx : Bits} {rest : List (Nat × Val)}
    (h : Rua.Spec.Understood bs 2 ([(7, .enum d), (3, .bits ctx)] ++ rest)) : On bs d ctx := by
  obtain ⟨r, m, e1, e2, e3⟩ := ruaMsg_of_understood h
  cases e1
  exact ⟨r, e2, e3 7 _ (by with_unfolding_all rfl) (by with_unfolding_all rfl),
    e3 3 _ (by with_unfolding_all rfl) (by with_unfolding_all rfl)⟩

theorem on_unique {data : Bytes} {d d' : Nat} {c c' : Bits} (h : On data d c) (h' : On data d' c') : d = d' ∧ c = c' := by
  obtain ⟨r, h1, h2, h3⟩ := h
  obtain ⟨r', h1', h2', h3'⟩ := h'
  obtain ⟨-, rfl⟩ := ruaMsg_unique h1 h1'
  rw [h2] at h2'
  rw [h3] at h3'
  cases h2'
  cases h3'
  exact ⟨rfl, rfl⟩

/-- What the gateway makes of a RANAP message for the emulator. -/
theorem gateway {ranap : Bytes} {p c : Nat} {l : List Ie} (h : CoMsg ranap p c l) (hl : ranap.length ≤ 997) (isPs : Bool)
    (ctx : BitVec 32) : ∃ tr data, Rua.newDt isPs ctx (some ranap) = .ok ⟨tr, some ⟨data, 19⟩⟩ ∧ Co data p c l ∧
      On data (psOrCs isPs) (low24 ctx) := by
  obtain ⟨tr, data, h1, -, h2⟩ := Props.C58_direct_transfer isPs ctx ranap hl
  exact ⟨tr, data, h1, co_of (header := [(7, .enum (psOrCs isPs)), (3, .bits (low24 ctx))]) h2 rfl h,
    on_of (rest := [(4, .octets ranap)]) h2⟩

/-- A NAS PDU from the gateway. -/
theorem gateway_nas (nas : Bytes) (hl : nas.length ≤ 900) (isPs : Bool) (ctx : BitVec 32) :
    ∃ data l, Co data 1 20 l ∧ nasOf l = nas ∧ On data (psOrCs isPs) (low24 ctx) := by
  obtain ⟨bs, -, h2, h3⟩ := Factory.dt_length 0 nas (by omega)
  obtain ⟨l, h4, h5⟩ := dt_nas h2
  obtain ⟨-, data, -, h6, h7⟩ := gateway h4 (by omega) isPs ctx
  exact ⟨data, l, h6, h5, h7⟩

/-- Octets are one RUA message at most. -/
theorem understood_code {bs : Bytes} {c c' : Nat} {w w' : List (Nat × Val)} (h : Rua.Spec.Understood bs c w)
    (h' : Rua.Spec.Understood bs c' w') : c = c' := by
  obtain ⟨m, crit, v, -, h, -⟩ := h
  obtain ⟨m', crit', v', -, h', -⟩ := h'
  rw [h] at h'
  simp only [Option.some.injEq, Val.choice.injEq, Val.seq.injEq, List.cons.injEq, Val.int.injEq] at h'
  omega

theorem opens_unique {p p' : Bool} {c c' : BitVec 32} {nas nas' : Bytes} {m : Rua.Msg} (h : Opens p c nas m)
    (h' : Opens p' c' nas' m) : psOrCs p = psOrCs p' ∧ low24 c = low24 c' ∧ nas = nas' := by
  obtain ⟨-, ranap, h1, h2⟩ := h
  obtain ⟨-, ranap', h1', h2'⟩ := h'
  have u := fun (k : Nat) (hk : k < Gen.Rua.connectIEs.ies.length) => Rua.understood_unique h2 h2' rfl (List.getElem_mem hk)
  have e7 : some (Val.enum (psOrCs p)) = some (.enum (psOrCs p')) := u 0 (by decide)
  have e3 : some (Val.bits (low24 c)) = some (.bits (low24 c')) := u 1 (by decide)
  have e4 : some (Val.octets ranap) = some (.octets ranap') := u 4 (by decide)
  simp only [Option.some.injEq, Val.enum.injEq, Val.bits.injEq, Val.octets.injEq] at e7 e3 e4
  subst e4
  refine ⟨e7, e3, ?_⟩
  obtain ⟨l, g1, g2⟩ := Props.says_co h1 (by simp) (m := Gen.Ranap.initialUE_MessageIEs) rfl (by decide)
  obtain ⟨l', g1', g2'⟩ := Props.says_co h1' (by simp) (m := Gen.Ranap.initialUE_MessageIEs) rfl (by decide)
  obtain ⟨-, -, rfl⟩ := Props.coMsg_unique g1 g1'
  have hk : 4 < Gen.Ranap.initialUE_MessageIEs.ies.length := by decide
  have a := (g2' _ (List.getElem_mem hk)).2
  rw [(g2 _ (List.getElem_mem hk)).2] at a
  have a' : some (Val.octets nas) = some (.octets nas') := a
  simpa using a'

/-! ## Effects of a step -/

theorem effect_chan {env : Env} {s s' : State} {op : Op} (h : Effect env s op s') :
    s'.nextConn = s.nextConn + BitVec.ofNat 16 (channels [op]) ∧
    s'.chan = match op with | .channel false _ => some ⟨false, s.nextConn.setWidth 32⟩ | _ => s.chan := by
  cases op with
  | recv ppid data =>
    unfold Effect at h
    dsimp only at h
    have hz : s.nextConn = s.nextConn + BitVec.ofNat 16 (channels [.recv ppid data]) := by simp [channels]
    split at h
    · rcases h with ⟨a, -, h⟩ | ⟨t, -, rfl⟩ | ⟨-, -, rfl⟩
      · rcases replied_state h with rfl | ⟨hl, c, m, -, -, rfl⟩ <;> exact ⟨hz, rfl⟩
      · exact ⟨hz, rfl⟩
      · exact ⟨hz, rfl⟩
    · split at h
      · rcases h with ⟨n, -, rfl⟩ | ⟨t, ctx, -, rfl⟩ | ⟨-, -, rfl⟩ <;> exact ⟨hz, rfl⟩
      · subst h; exact ⟨hz, rfl⟩
  | notification => cases h; exact ⟨by simp [channels], rfl⟩
  | closed => cases h; exact ⟨by simp [channels], rfl⟩
  | writable =>
    unfold Effect at h
    dsimp only at h
    split at h <;> subst h <;> exact ⟨by simp [channels], rfl⟩
  | register | deregister | ueRegister imsi =>
    rcases queued_state h with rfl | ⟨hl, bs, -, rfl⟩ <;> exact ⟨by simp [channels], rfl⟩
  | reset isPs => rcases sends_state h with rfl | ⟨hl, m, -, rfl⟩ <;> exact ⟨by simp [channels], rfl⟩
  | channel isPs imsi =>
    rcases sends_state h with rfl | ⟨hl, m, -, rfl⟩ <;> cases isPs <;> exact ⟨by simp [opened, channels], rfl⟩

/-- A message that opens no connection. -/
def NoOpen (m : Rua.Msg) : Prop := ∀ p c n, ¬ Opens p c n m

theorem noOpen_code {m : Rua.Msg} {code : Nat} {w : List (Nat × Val)} (h : Rua.Spec.Understood m.data code w) (hc : code ≠ 1) :
    NoOpen m := by
  rintro p c n ⟨-, r, -, h'⟩
  exact hc (understood_code h h')

theorem noOpen_hnbap (bs : Bytes) : NoOpen ⟨bs, 20⟩ := by
  rintro p c n ⟨h, -⟩
  exact absurd h (by simp)

/-- What a step adds to the messages. -/
theorem effect_out {env : Env} {s s' : State} {op : Op} (h : Effect env s op s') :
    out s' = out s ∨ (s.queue.length < 16 ∧ s'.sent = s.sent ∧ ∃ m, s'.queue = s.queue ++ [m] ∧ Complete m ∧
      (NoOpen m ∨ ∃ isPs imsi, op = .channel isPs imsi ∧ Opens isPs (s.nextConn.setWidth 32) locationUpdatingRequest m)) := by
  cases op with
  | recv ppid data =>
    unfold Effect at h
    dsimp only at h
    split at h
    · rcases h with ⟨a, -, h⟩ | ⟨t, -, rfl⟩ | ⟨-, -, rfl⟩
      · rcases replied_state h with rfl | ⟨hl, c, m, -, ⟨h1, ranap, -, h2⟩, rfl⟩
        · exact .inl rfl
        · exact .inr ⟨hl, rfl, m, rfl, .inl ⟨h1, _, _, h2⟩, .inl (noOpen_code h2 (by decide))⟩
      · exact .inl rfl
      · exact .inl rfl
    · split at h
      · rcases h with ⟨n, -, rfl⟩ | ⟨t, ctx, -, rfl⟩ | ⟨-, -, rfl⟩ <;> exact .inl rfl
      · subst h; exact .inl rfl
  | notification => cases h; exact .inl rfl
  | closed => cases h; exact .inl rfl
  | writable =>
    unfold Effect at h
    dsimp only at h
    split at h <;> subst h
    · left
      unfold out
      dsimp only
      rw [List.append_assoc, List.take_append_drop]
    · exact .inl rfl
  | register | deregister | ueRegister imsi =>
    rcases queued_state h with rfl | ⟨hl, bs, hb, rfl⟩
    · exact .inl rfl
    · exact .inr ⟨hl, rfl, _, rfl, .inr ⟨rfl, _, _, _, hb⟩, .inl (noOpen_hnbap bs)⟩
  | reset isPs =>
    rcases sends_state h with rfl | ⟨hl, m, ⟨h1, ranap, -, h2⟩, rfl⟩
    · exact .inl rfl
    · exact .inr ⟨hl, rfl, m, rfl, .inl ⟨h1, _, _, h2⟩, .inl (noOpen_code h2 (by decide))⟩
  | channel isPs imsi =>
    rcases sends_state h with rfl | ⟨hl, m, ho, rfl⟩
    · exact .inl rfl
    · obtain ⟨h1, ranap, -, h2⟩ := id ho
      exact .inr ⟨hl, rfl, m, rfl, .inl ⟨h1, _, _, h2⟩, .inr ⟨isPs, imsi, rfl, ho⟩⟩

theorem effect_sent {env : Env} {s s' : State} {op : Op} (h : Effect env s op s') :
    s'.sent = s.sent ∨ (op = .writable ∧ s.up = true ∧ ∃ m, s.queue = m :: s'.queue ∧ s'.sent = s.sent ++ [m]) := by
  rcases effect_out h with ho | ⟨-, ho, -⟩
  · by_cases hw : op = .writable
    · subst hw
      unfold Effect at h
      dsimp only at h
      split at h
      · rename_i hup
        subst h
        cases hq : s.queue with
        | nil => exact .inl (by simp)
        | cons m q => exact .inr ⟨rfl, hup, m, by simp, by simp⟩
      · subst h; exact .inl rfl
    · left
      cases op with
      | writable => exact absurd rfl hw
      | recv ppid data =>
        unfold Effect at h
        dsimp only at h
        split at h
        · rcases h with ⟨a, -, h⟩ | ⟨t, -, rfl⟩ | ⟨-, -, rfl⟩
          · rcases replied_state h with rfl | ⟨hl, c, m, -, -, rfl⟩ <;> rfl
          · rfl
          · rfl
        · split at h
          · rcases h with ⟨n, -, rfl⟩ | ⟨t, ctx, -, rfl⟩ | ⟨-, -, rfl⟩ <;> rfl
          · subst h; rfl
      | notification => cases h; rfl
      | closed => cases h; rfl
      | register | deregister | ueRegister imsi => rcases queued_state h with rfl | ⟨hl, bs, -, rfl⟩ <;> rfl
      | reset isPs => rcases sends_state h with rfl | ⟨hl, m, -, rfl⟩ <;> rfl
      | channel isPs imsi => rcases sends_state h with rfl | ⟨hl, m, -, rfl⟩ <;> rfl
  · exact .inl ho

/-- Induction over histories, with the history. -/
theorem run_induct {env : Env} {P : List Op → State → Prop} (h0 : P [] init)
    (hstep : ∀ ops s op s', run env init ops = .ok s → P ops s → Effect env s op s' → P (ops ++ [op]) s') :
    ∀ {ops s}, run env init ops = .ok s → P ops s := by
  intro ops
  induction hn : ops.length generalizing ops with
  | zero =>
    intro s h
    obtain rfl := List.length_eq_zero_iff.1 hn
    cases h
    exact h0
  | succ n ih =>
    intro s h
    obtain ⟨a, op, rfl⟩ : ∃ a op, ops = a ++ [op] :=
      ⟨ops.dropLast, ops.getLast (by rintro rfl; cases hn), (List.dropLast_concat_getLast _).symm⟩
    rw [run_append] at h
    cases hr : run env init a with
    | fault f => rw [hr] at h; cases h
    | ok s1 =>
      rw [hr] at h
      simp only [run] at h
      cases hs : step env s1 op with
      | fault f => rw [hs] at h; cases h
      | ok s2 =>
        rw [hs] at h
        cases h
        exact hstep a s1 op _ hr (ih (by simp at hn; exact hn) hr) (reach_effect ⟨a, hr⟩ hs)

theorem channels_append (a b : List Op) : channels (a ++ b) = channels a + channels b := by
  unfold channels; exact List.countP_append

theorem run_conn {env : Env} {ops : List Op} {s : State} (h : run env init ops = .ok s) :
    s.nextConn = BitVec.ofNat 16 (42 + channels ops) := by
  refine run_induct (P := fun ops s => s.nextConn = BitVec.ofNat 16 (42 + channels ops)) rfl ?_ h
  intro ops s op s' _ ih he
  rw [(effect_chan he).1, ih, channels_append, ← Nat.add_assoc, ← BitVec.ofNat_add]

theorem conn_ctx (n : Nat) : (BitVec.ofNat 16 (42 + n)).setWidth 32 = ctxAfter n := by
  apply BitVec.eq_of_toNat_eq
  simp only [ctxAfter, BitVec.toNat_setWidth, BitVec.toNat_ofNat]

theorem ctx_low (n : Nat) : (ctxAfter n).toNat % 2 ^ 24 = (42 + n) % 65536 := by
  simp only [ctxAfter, BitVec.toNat_ofNat]
  omega

end Verif.Hnb

namespace Verif.Factory
open Verif.Aper Verif.Ie Verif.Ie.Spec Verif.Rx.Spec Verif.Wire Verif.Gen.Ranap Verif.Factory.Spec

/-- Iu Release Command. -/
theorem iuRelCmd_length {c : Cause} {bs : Bytes} (h : ValidCause c) (h1 : iuRelCmd (some c) = .ok (some bs)) : bs.length ≤ 100 := by
  have hb := is_iu_ReleaseCommandIEs.short (c := [(iu_ReleaseCommandIEs.ies[0], c.toVal)]) (by with_unfolding_all rfl)
    (Res.ok.inj h1)
  have := openOcts_le (cause_bound h)
  simp only [bound, iu_ReleaseCommandIEs, List.getElem_cons_zero] at hb
  omega

/-- Security Mode Command. -/
theorem secModCmd_length {ik : Bytes} {ck : Option Bytes} {status : Nat} {bs : Bytes} (hik : ik.length = 16)
    (hck : ∀ k ∈ ck, k.length = 16) (h1 : secModCmd (some ik) ck status = .ok (some bs)) : bs.length ≤ 400 := by
  have hsb : openOcts (maxBits RANAP_KeyStatus (.enum status)) ≤ 100 := by
    unfold openOcts; simp only [RANAP_KeyStatus, maxBits]; decide
  obtain ⟨-, bi⟩ := Props.secInfo_fits 0x06 0 1 (by decide) (by decide) ik (by omega)
  have a1 : algorithms 0x06 0 1 8 = some (selected 0x06 0 1) := rfl
  have a2 : algorithms 0x06 1 2 8 = some (selected 0x06 1 2) := rfl
  unfold secModCmd secModCmd2 at h1
  simp only [a1, a2, keyBits, hik, Nat.lt_irrefl, if_false] at h1
  cases ck with
  | none =>
    have hb := is_securityModeCommandIEs.short (c := [(securityModeCommandIEs.ies[0], Props.securityInfo (selected 0x06 0 1) ik),
      (securityModeCommandIEs.ies[2], .enum status)]) (by with_unfolding_all rfl) (Res.ok.inj h1)
    simp only [bound, securityModeCommandIEs, List.getElem_cons_zero, List.getElem_cons_succ] at hb
    omega
  | some k =>
    have hk := hck k rfl
    obtain ⟨-, be⟩ := Props.secInfo_fits 0x06 1 2 (by decide) (by decide) k (by omega)
    simp only [hk, Nat.lt_irrefl, if_false] at h1
    have be' : openOcts (maxBits RANAP_EncryptionInformation (Props.securityInfo (selected 0x06 1 2) k)) ≤ 100 := be
    have hb := is_securityModeCommandIEs.short (c := [(securityModeCommandIEs.ies[0], Props.securityInfo (selected 0x06 0 1) ik),
      (securityModeCommandIEs.ies[1], Props.securityInfo (selected 0x06 1 2) k),
      (securityModeCommandIEs.ies[2], .enum status)]) (by with_unfolding_all rfl) (Res.ok.inj h1)
    simp only [bound, securityModeCommandIEs, List.getElem_cons_zero, List.getElem_cons_succ] at hb
    omega

end Verif.Factory
