import Verif.Proofs.HnbOut
import Verif.Props.Hnb

/-!
# C87 to C90: the HNB emulator, reports, queue and commands
-/

namespace Verif.Props
open Verif.Aper Verif.Ie Verif.Ie.Spec Verif.Hnb Verif.Hnb.Spec Verif.Factory.Spec
open Verif.Linked.Spec (CoMsg ClMsg elem octetsOf Has)
open Verif.Spec.Bcd (IsDigit Tbcd)

variable {env : Hnb.Env}

/-! ## C87: what the user is told -/

/-- **C87** as it should hold: success of the registration is reported, with its RNC-ID, only if the gateway has accepted it. -/
def C87_full : Prop := ∀ (env : Hnb.Env) (s s' : Hnb.State) (op : Hnb.Op) (n : BitVec 16), Reach env s →
  Hnb.step env s op = .ok s' → s'.prints = s.prints ++ [.registered n] →
    ∃ data rnc, op = .recv 20 data ∧ RegisterAccept data rnc ∧ n = BitVec.ofNat 16 rnc

/-- **C87.** An HNB Register Accept is reported, and its RNC-ID remembered. -/
theorem C87_registered {s : Hnb.State} {data : Bytes} {rnc : Nat} (hr : Reach env s) (hu : s.up = true)
    (h : RegisterAccept data rnc) : Hnb.step env s (.recv 20 data) =
      .ok { s with rncId := BitVec.ofNat 16 rnc, prints := s.prints ++ [.registered (BitVec.ofNat 16 rnc)] } := by
  have hc : ∃ v, HnbapPdu data 2 1 v := by obtain ⟨v, l, h, -⟩ := h; exact ⟨v, h⟩
  obtain ⟨v, hc⟩ := hc
  rcases step_result (env := env) (reach_frame hr).1 (.recv 20 data) with ⟨hk, -⟩ | ⟨-, s', hs, he⟩
  · rcases hk with ⟨-, ⟨hk, -⟩ | ⟨-, l, imsi, ⟨d, v', hk, -⟩, -⟩⟩
    · exact absurd hk (by decide)
    · exact absurd (hnbapPdu_unique hc hk).2.1 (by decide)
  · rw [hs]
    unfold Effect at he
    dsimp only at he
    rw [if_neg (by simp), if_pos ⟨hu, rfl⟩] at he
    rcases he with ⟨n, hn, rfl⟩ | ⟨t, ctx, hn, -⟩ | ⟨hn, -⟩
    · rw [registered_unique hn h]
    · obtain ⟨d, v', hk⟩ := ueRegistered_code hn
      exact absurd (hnbapPdu_unique hc hk).2.1 (by decide)
    · exfalso
      apply hn
      obtain ⟨v, l, h1, h2, h3, h4⟩ := h
      exact ⟨_, .rncId ⟨2, v, h1, h2, h3⟩ h4⟩

/-- **C87.** A UE Register Accept with an IMSI of up to 15 digits is reported, and its context id remembered. -/
theorem C87_ue_registered {s : Hnb.State} {data imsi : Bytes} {ctx : Nat} (hr : Reach env s) (hu : s.up = true)
    (h : UeRegisterAccept data imsi ctx) (hd : ∀ c ∈ imsi, IsDigit c) (hl : imsi.length ≤ 15) :
    Hnb.step env s (.recv 20 data) =
      .ok { s with ctxId := BitVec.ofNat 32 ctx, prints := s.prints ++ [.ueRegistered imsi (BitVec.ofNat 32 ctx)] } := by
  have hc : ∃ v, HnbapPdu data 2 3 v := by obtain ⟨v, l, t, b, h, -⟩ := h; exact ⟨v, h⟩
  obtain ⟨v, hc⟩ := hc
  rcases step_result (env := env) (reach_frame hr).1 (.recv 20 data) with ⟨hk, -⟩ | ⟨-, s', hs, he⟩
  · exfalso
    rcases hk with ⟨-, ⟨hk, -⟩ | ⟨-, l, imsi', hk, -, hn⟩⟩
    · exact absurd hk (by decide)
    · obtain ⟨v', l', t, b, h1, h2, h3, -, -, h6, -⟩ := h
      obtain rfl := hnbap_unique hk ⟨2, v', h1, h2, h3⟩
      exact hn ((ueAcc_ctx h3).1 ⟨_, h6⟩)
  · rw [hs]
    unfold Effect at he
    dsimp only at he
    rw [if_neg (by simp), if_pos ⟨hu, rfl⟩] at he
    rcases he with ⟨n, hn, -⟩ | ⟨t, ctx', hn, rfl⟩ | ⟨-, hn, -⟩
    · obtain ⟨d, v', hk⟩ := registered_code hn
      exact absurd (hnbapPdu_unique hc hk).2.1 (by decide)
    · obtain ⟨rfl, rfl⟩ := ueRegistered_unique hn h hd hl
      rfl
    · exfalso
      apply hn
      obtain ⟨v', l', t, b, h1, h2, h3, h4, -, h6, -⟩ := h
      exact ⟨_, _, .mk ⟨2, v', h1, h2, h3⟩ h4 h6⟩

/-- **C87.** A Paging for an IMSI of up to 15 digits is reported. -/
theorem C87_paging {s : Hnb.State} {data imsi : Bytes} (hr : Reach env s) (hu : s.up = true) (h : Paging data imsi)
    (hd : ∀ c ∈ imsi, IsDigit c) (hl : imsi.length ≤ 15) :
    Hnb.step env s (.recv 19 data) = .ok { s with prints := s.prints ++ [.paging imsi] } := by
  have hc : ∃ x, Cl data x := by obtain ⟨x, l, t, h, -⟩ := h; exact ⟨x, h⟩
  obtain ⟨x, hc⟩ := hc
  rcases step_result (env := env) (reach_frame hr).1 (.recv 19 data) with ⟨hk, -⟩ | ⟨-, s', hs, he⟩
  · exfalso
    rcases hk with ⟨-, ⟨-, p, c, l, hk, -⟩ | ⟨hk, -⟩⟩
    · exact co_cl hk hc
    · exact absurd hk (by decide)
  · rw [hs]
    unfold Effect at he
    dsimp only at he
    rw [if_pos ⟨hu, rfl⟩] at he
    rcases he with ⟨a, ha, -⟩ | ⟨t, ht, rfl⟩ | ⟨-, hn, -⟩
    · obtain ⟨p, c, l, hk⟩ := asks_co ha
      exact absurd hc (fun hc => co_cl hk hc)
    · rw [paged_unique ht h hd hl]
    · exact absurd (paging_paged h) hn

/-- **C87.** Nothing else is reported than these; among them messages which are no acceptance (see `Registered`). -/
theorem C87_nothing_else_partial {s s' : Hnb.State} {op : Hnb.Op} (hr : Reach env s) (hs : Hnb.step env s op = .ok s') :
    s'.prints = s.prints ∨ (s.up = true ∧ ∃ data,
      (op = .recv 20 data ∧ ∃ n, Registered data n ∧ s'.prints = s.prints ++ [.registered n]) ∨
      (op = .recv 20 data ∧ ∃ t ctx, UeRegistered data t ctx ∧ s'.prints = s.prints ++ [.ueRegistered t ctx]) ∨
      (op = .recv 19 data ∧ ∃ t, Paged data t ∧ s'.prints = s.prints ++ [.paging t])) := by
  have he := reach_effect hr hs
  cases op with
  | recv ppid data =>
    unfold Effect at he
    dsimp only at he
    split at he
    · rename_i hu
      obtain ⟨hu, rfl⟩ := hu
      rcases he with ⟨a, -, h⟩ | ⟨t, ht, rfl⟩ | ⟨-, -, rfl⟩
      · rcases replied_state h with rfl | ⟨-, c, m, -, -, rfl⟩ <;> exact .inl rfl
      · exact .inr ⟨hu, data, .inr (.inr ⟨rfl, t, ht, rfl⟩)⟩
      · exact .inl rfl
    · split at he
      · rename_i hu
        obtain ⟨hu, rfl⟩ := hu
        rcases he with ⟨n, hn, rfl⟩ | ⟨t, ctx, hn, rfl⟩ | ⟨-, -, rfl⟩
        · exact .inr ⟨hu, data, .inl ⟨rfl, n, hn, rfl⟩⟩
        · exact .inr ⟨hu, data, .inr (.inl ⟨rfl, t, ctx, hn, rfl⟩)⟩
        · exact .inl rfl
      · subst he; exact .inl rfl
  | notification => cases he; exact .inl rfl
  | closed => cases he; exact .inl rfl
  | writable =>
    unfold Effect at he
    dsimp only at he
    split at he <;> subst he <;> exact .inl rfl
  | register | deregister | ueRegister imsi => rcases queued_state he with rfl | ⟨hl, bs, -, rfl⟩ <;> exact .inl rfl
  | reset isPs => rcases sends_state he with rfl | ⟨hl, m, -, rfl⟩ <;> exact .inl rfl
  | channel isPs imsi => rcases sends_state he with rfl | ⟨hl, m, -, rfl⟩ <;> exact .inl rfl

/-- An HNB Register Accept with RNC-ID 23. -/
def registerAccept : Bytes := [0x20, 0x01, 0x00, 0x09, 0x00, 0x00, 0x01, 0x00, 0x0e, 0x40, 0x02, 0x00, 0x17]

/-- An HNB Register Reject with cause "misc: hardware failure". -/
def registerReject : Bytes := [0x40, 0x01, 0x00, 0x08, 0x00, 0x00, 0x01, 0x00, 0x01, 0x40, 0x01, 0x68]

/-- The hypotheses of C87: an acceptance, ... -/
example : RegisterAccept registerAccept 23 :=
  ⟨[0x00, 0x00, 0x01, 0x00, 0x0e, 0x40, 0x02, 0x00, 0x17], [⟨14, 1, [0x00, 0x17]⟩],
    ⟨by decide, 0, 1, rfl, by with_unfolding_all rfl⟩, by with_unfolding_all rfl, validB_sound (by decide +kernel),
    by with_unfolding_all rfl⟩

set_option maxRecDepth 8000 in
/-- ... of a UE, too, ... -/
example : UeRegisterAccept [0x20, 0x03, 0x00, 0x17, 0x00, 0x00, 0x02, 0x00, 0x05, 0x00, 0x09, 0x0a, 0x02, 0x04, 0x08, 0x00, 0x00,
    0x00, 0x00, 0xf0, 0x00, 0x04, 0x00, 0x03, 0x00, 0x00, 0x07] imsi15 7 :=
  ⟨[0x00, 0x00, 0x02, 0x00, 0x05, 0x00, 0x09, 0x0a, 0x02, 0x04, 0x08, 0x00, 0x00,
    0x00, 0x00, 0xf0, 0x00, 0x04, 0x00, 0x03, 0x00, 0x00, 0x07],
    [⟨5, 0, [0x0a, 0x02, 0x04, 0x08, 0x00, 0x00, 0x00, 0x00, 0xf0]⟩, ⟨4, 0, [0x00, 0x00, 0x07]⟩], Bcd.tbcd imsi15, low24 7,
    ⟨by decide, 0, 3, rfl, by with_unfolding_all rfl⟩, by with_unfolding_all rfl, validB_sound (by decide +kernel),
    by with_unfolding_all rfl, ⟨Bcd.tbcd_length imsi15, fun i b hb => by
      obtain ⟨hi, rfl⟩ := List.getElem?_eq_some_iff.1 hb
      exact Bcd.tbcd_layout imsi15 (by decide) i hi⟩, by with_unfolding_all rfl, by decide⟩

/-- ... a paging sent by the library. -/
example : ∃ data, Paging data imsi15 := by
  obtain ⟨bs, v, h1, ⟨t, h2, rfl⟩, h3⟩ := (C55_paging imsi15 none false 0 (by decide) (by decide)).1
    ⟨⟨by decide, by decide, by decide⟩, by decide⟩
  obtain ⟨l, h4, h5⟩ := says_cl h3 (by simp [opt]) (m := Gen.Ranap.pagingIEs) (by with_unfolding_all rfl) (by with_unfolding_all rfl)
  have hl : (match Factory.pagingCmd (some imsi15) none false 0 with
    | .ok (some b) => decide (b.length ≤ 1009)
    | _ => false) = true := by decide +kernel
  rw [h1] at hl
  obtain ⟨-, data, -, -, h6⟩ := C58_udt bs (of_decide_eq_true hl)
  have hk : 1 < Gen.Ranap.pagingIEs.ies.length := by decide
  exact ⟨data, bs, l, t, cl_of h6, h4, (h5 _ (List.getElem_mem hk)).trans (by with_unfolding_all rfl), h2⟩

/-- **C87.** A rejection is reported as acceptance. -/
theorem C87_violated : ¬ C87_full := by
  intro h
  have hs : Hnb.step demoHnb Hnb.init (.recv 20 registerReject) =
      .ok { Hnb.init with prints := [.registered 0] } := by decide +kernel
  obtain ⟨data, rnc, h1, ⟨v, l, h2, -⟩, -⟩ := h demoHnb _ _ _ 0 reach_init hs rfl
  cases h1
  have h3 : HnbapPdu registerReject 3 1 [0x00, 0x00, 0x01, 0x00, 0x01, 0x40, 0x01, 0x68] :=
    ⟨by decide, 0, 1, rfl, by with_unfolding_all rfl⟩
  exact absurd (hnbapPdu_unique h2 h3).1 (by decide)

/-! ## C88: the queue -/

/-- **C88** as it should hold: what a command has to send is sent. -/
def C88_full : Prop := ∀ (env : Hnb.Env) (s s' : Hnb.State), Reach env s → Hnb.step env s .register = .ok s' →
  ∃ m, out s' = out s ++ [m]

/-- **C88.** No more than 16 messages are waiting. -/
theorem C88_bounded {s : Hnb.State} (hr : Reach env s) : s.queue.length ≤ 16 := (reach_frame hr).2

/-- **C88.** Everything sent or waiting is a complete message. -/
theorem C88_complete {s : Hnb.State} (hr : Reach env s) : ∀ m ∈ out s, Complete m := by
  refine reach_induct (P := fun s => ∀ m ∈ out s, Complete m) (fun m hm => by cases hm) ?_ hr
  intro s op s' hr ih hs m hm
  rcases effect_out (reach_effect hr hs) with ho | ⟨-, h1, m', h2, h3, -⟩
  · rw [ho] at hm
    exact ih m hm
  · unfold out at hm
    rw [h1, h2, ← List.append_assoc] at hm
    rcases List.mem_append.1 hm with hm | hm
    · exact ih m hm
    · rw [List.mem_singleton] at hm
      exact hm ▸ h3

/-- **C88.** Messages are sent in the order in which they were queued, each once: a step adds at most one at the end, and
none unless fewer than 16 are waiting; only room in the socket moves one, the oldest. -/
theorem C88_order {s s' : Hnb.State} {op : Hnb.Op} (hr : Reach env s) (hs : Hnb.step env s op = .ok s') :
    (out s' = out s ∨ (s.queue.length < 16 ∧ ∃ m, out s' = out s ++ [m])) ∧
    (s'.sent = s.sent ∨ (op = .writable ∧ s.up = true ∧ ∃ m, s.queue = m :: s'.queue ∧ s'.sent = s.sent ++ [m])) := by
  have he := reach_effect hr hs
  refine ⟨?_, effect_sent he⟩
  rcases effect_out he with ho | ⟨hl, h1, m', h2, -⟩
  · exact .inl ho
  · refine .inr ⟨hl, m', ?_⟩
    unfold out
    rw [h1, h2, List.append_assoc]

/-- **C88.** So what has been sent stays the beginning of what will be sent. -/
theorem C88_prefix {s s' : Hnb.State} {ops : List Hnb.Op} (hr : Reach env s) (hs : Hnb.run env s ops = .ok s') : out s <+: out s' := by
  induction ops generalizing s with
  | nil => cases hs; exact List.prefix_refl _
  | cons op ops ih =>
    simp only [Hnb.run] at hs
    cases h1 : Hnb.step env s op with
    | fault f => rw [h1] at hs; cases hs
    | ok s1 =>
      rw [h1] at hs
      have h2 := ih (reach_step hr h1) hs
      rcases (C88_order hr h1).1 with h3 | ⟨-, m, h3⟩
      · rwa [h3] at h2
      · rw [h3] at h2
        exact (List.prefix_append ..).trans h2

/-- **C88.** While the socket is up, as many times of room in it as there are messages waiting are enough to send them all. -/
theorem C88_drains (s : Hnb.State) (hu : s.up = true) :
    Hnb.run env s (List.replicate s.queue.length .writable) = .ok { s with queue := [], sent := s.sent ++ s.queue } := by
  obtain ⟨up, queue, sent, chan, nc, rnc, ctx, pr⟩ := s
  cases hu
  induction queue generalizing sent with
  | nil => simp [Hnb.run]
  | cons m q ih =>
    rw [List.length_cons, List.replicate_succ]
    simp only [Hnb.run, Hnb.step, if_true]
    rw [ih]
    simp

/-- Registering again and again. -/
theorem register_run (n : Nat) (hn : n ≤ 16) : ∃ s, Hnb.run env Hnb.init (List.replicate n .register) = .ok s ∧ s.up = true ∧
    s.queue.length = n := by
  induction n with
  | zero => exact ⟨_, rfl, rfl, rfl⟩
  | succ n ih =>
    obtain ⟨s, h1, h2, h3⟩ := ih (by omega)
    obtain ⟨s', h4, h5⟩ := registerTx_queued s
    unfold Queued at h5
    rw [if_neg (by omega)] at h5
    obtain ⟨bs, -, rfl⟩ := h5
    refine ⟨{ s with queue := s.queue ++ [⟨bs, 20⟩] }, ?_, h2, by simp [h3]⟩
    rw [List.replicate_succ', run_append, h1]
    simp only [Hnb.run, Hnb.step, h4]

/-- The hypotheses of C88: three messages are waiting. -/
example : ∃ s s', Reach env s ∧ s.up = true ∧ s.queue.length = 3 ∧ Hnb.step env s .register = .ok s' := by
  obtain ⟨s, h1, h2, h3⟩ := register_run (env := env) 3 (by decide)
  obtain ⟨s', h4, -⟩ := registerTx_queued s
  exact ⟨s, s', ⟨_, h1⟩, h2, h3, h4⟩

/-- **C88.** When 16 messages are waiting, the next is lost. -/
theorem C88_violated : ¬ C88_full := by
  intro h
  obtain ⟨s, h1, -, h3⟩ := register_run (env := demoHnb) 16 (by decide)
  obtain ⟨s', h4, h5⟩ := registerTx_queued s
  unfold Queued at h5
  rw [if_pos (by omega)] at h5
  obtain ⟨m, hm⟩ := h demoHnb s s' ⟨_, h1⟩ h4
  rw [h5] at hm
  simp at hm

/-! ## C89: HNBAP commands -/

/-- **C89.** The command to register sends an HNB Register Request with the identity, location and cell of the HNB. -/
theorem C89_register (s : Hnb.State) : ∃ s', Hnb.step env s .register = .ok s' ∧
    Queued s s' 1 Gen.Hnbap.hNBRegisterRequestIEs registerRequest := registerTx_queued s

/-- **C89.** The command to deregister sends an HNB De-Register with the cause "misc: o&m intervention". -/
theorem C89_deregister (s : Hnb.State) : ∃ s', Hnb.step env s .deregister = .ok s' ∧
    Queued s s' 2 Gen.Hnbap.hNBDe_RegisterIEs [(1, .choice 3 (.enum 2))] := deregisterTx_queued s

/-- **C89.** The command to register a UE whose IMSI has 5 to 16 digits sends a UE Register Request with this IMSI,
registration cause "normal" and the capabilities. -/
theorem C89_ue_register (s : Hnb.State) (imsi : Bytes) (hv : ValidImsi imsi) : ∃ s' v, Hnb.step env s (.ueRegister imsi) = .ok s' ∧
    IsImsi imsi v ∧ Queued s s' 3 Gen.Hnbap.uERegisterRequestIEs
      [(5, v), (12, .enum 1), (13, .seq [some (.enum 3), some (.enum 1), none])] := by
  obtain ⟨s', h1, h2⟩ := (ueRegisterTx_spec s imsi).1 hv.2
  refine ⟨s', .choice 0 (.octets (Bcd.tbcd imsi)), h1, ⟨Bcd.tbcd imsi, ⟨Bcd.tbcd_length imsi, ?_⟩, rfl⟩, h2⟩
  intro i b hb
  obtain ⟨hi, rfl⟩ := List.getElem?_eq_some_iff.1 hb
  exact Bcd.tbcd_layout imsi hv.1 i hi

example : ValidImsi imsi15 := ⟨by decide, by decide, by decide⟩

/-! ## C90: the channel and reset commands -/

/-- **C90** as it should hold: the command "channel (cs|ps) lu imsi IMSI" sends a Location Updating Request with this IMSI. -/
def C90_full : Prop := ∀ (env : Hnb.Env) (s s' : Hnb.State) (isPs : Bool) (imsi : Bytes), Reach env s → s.queue.length < 16 →
  imsi.length = 15 → (∀ c ∈ imsi, IsDigit c) → Hnb.step env s (.channel isPs imsi) = .ok s' →
    ∃ m c nas, s'.queue = s.queue ++ [m] ∧ Opens isPs c nas m ∧ mobileIdentity imsi <:+: nas

/-- **C90.** It is a Location Updating Request always with the same IMSI. -/
theorem C90_fixed_imsi_partial {s s' : Hnb.State} {isPs : Bool} {imsi : Bytes} (hr : Reach env s) (hq : s.queue.length < 16)
    (hs : Hnb.step env s (.channel isPs imsi) = .ok s') :
    ∃ m c nas, s'.queue = s.queue ++ [m] ∧ Opens isPs c nas m ∧ mobileIdentity fixedImsi <:+: nas ∧ nas.take 2 = [0x05, 0x08] := by
  obtain ⟨ops, h⟩ := hr
  obtain ⟨m, h1, h2, -⟩ := C86_numbers h hs hq
  exact ⟨m, _, _, h2, h1, ⟨locationUpdatingRequest.take 9, locationUpdatingRequest.drop 18, by decide⟩, by decide⟩

/-- **C90.** So it does not hold. -/
theorem C90_violated : ¬ C90_full := by
  intro h
  obtain ⟨s', h1, h2, -⟩ := reach_channel (env := demoHnb) reach_init false imsi15
  obtain ⟨m, c, nas, e1, e2, e3⟩ := h demoHnb _ s' false imsi15 reach_init (by decide) (by decide) (by decide) h1
  obtain ⟨m', g1, g2, -⟩ := C86_numbers (ops := []) rfl h1 (by decide)
  have : m = m' := by
    rw [e1] at g2
    simpa using g2
  subst this
  obtain ⟨-, -, rfl⟩ := opens_unique e2 g1
  revert e3
  decide

/-- **C90.** The command "ranap reset (cs|ps)" sends a Reset for this domain. -/
theorem C90_reset (s : Hnb.State) (isPs : Bool) : ∃ s', Hnb.step env s (.reset isPs) = .ok s' ∧ Sends s s' (Resets isPs) :=
  reset_sends s isPs

end Verif.Props
