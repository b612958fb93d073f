import Verif.Proofs.HnbLink

/-!
# C83 to C90: the HNB emulator

`env` stands for libosmocore's TLV parser and authentication and for indeterminate memory; nothing is assumed about it.
-/

namespace Verif.Props
open Verif.Aper Verif.Ie Verif.Ie.Spec Verif.Hnb Verif.Hnb.Spec Verif.Factory.Spec
open Verif.Linked.Spec (CoMsg elem octetsOf Has)

variable {env : Hnb.Env}

/-- Nothing is known to the TLV parser here, and indeterminate memory is zero. -/
def demoHnb : Hnb.Env := ⟨fun _ => none, fun _ => #v[1, 2, 3, 4], fun _ _ => false⟩

theorem reach_init : Reach env Hnb.init := ⟨[], rfl⟩

theorem reach_channel {s : Hnb.State} (hr : Reach env s) (isPs : Bool) (imsi : Bytes) :
    ∃ s', Hnb.step env s (.channel isPs imsi) = .ok s' ∧ Reach env s' ∧
      Sends (opened s isPs) s' (Opens isPs (s.nextConn.setWidth 32) locationUpdatingRequest) := by
  obtain ⟨s', h1, h2⟩ := channel_sends s isPs imsi
  exact ⟨s', h1, reach_step hr (op := .channel isPs imsi) h1, h2⟩

/-- A state with a CS channel and room in the queue. -/
theorem reach_cs : ∃ s, Reach env s ∧ s.up = true ∧ s.chan = some ⟨false, 42⟩ ∧ s.queue.length = 1 := by
  obtain ⟨s', h1, h2, h3⟩ := reach_channel (env := env) reach_init false []
  unfold Sends at h3
  rw [if_neg (by decide)] at h3
  obtain ⟨m, -, rfl⟩ := h3
  exact ⟨_, h2, rfl, rfl, rfl⟩

/-! ## C83: what kills the program -/

/-- **C83** as it should hold: no message from the gateway makes the program read outside of its memory or abort. -/
def C83_full : Prop := ∀ (env : Hnb.Env) (s : Hnb.State) (ppid : Nat) (data : Bytes), Reach env s →
  ∃ s', Hnb.step env s (.recv ppid data) = .ok s'

/-- **C83.** Exactly these messages and commands do. -/
theorem C83_exactly_these_kill {s : Hnb.State} (hr : Reach env s) (op : Hnb.Op) :
    (∃ f, Hnb.step env s op = .fault f) ↔ Hnb.Spec.Kills env s op := by
  rcases step_result (env := env) (reach_frame hr).1 op with ⟨h, f, hf⟩ | ⟨h, s', hs, -⟩
  · exact ⟨fun _ => h, fun _ => ⟨f, hf⟩⟩
  · refine ⟨fun ⟨f, hf⟩ => ?_, fun hk => absurd hk h⟩
    rw [hs] at hf
    cases hf

/-- **C83.** So a history goes well iff none of its messages and commands does. -/
theorem C83_history (ops : List Hnb.Op) :
    (∃ s, Hnb.run env Hnb.init ops = .ok s) ↔
      ∀ pre op post s, ops = pre ++ op :: post → Hnb.run env Hnb.init pre = .ok s → ¬ Hnb.Spec.Kills env s op := by
  constructor
  · rintro ⟨s, h⟩ pre op post s1 rfl h1 hk
    obtain ⟨f, hf⟩ := (C83_exactly_these_kill ⟨pre, h1⟩ op).2 hk
    rw [run_append, h1] at h
    simp only [Hnb.run, hf] at h
    cases h
  · intro h
    have key : ∀ post pre s, ops = pre ++ post → Hnb.run env Hnb.init pre = .ok s → ∃ s', Hnb.run env Hnb.init ops = .ok s' := by
      intro post
      induction post with
      | nil =>
        intro pre s e h1
        rw [e, List.append_nil]
        exact ⟨s, h1⟩
      | cons op post ih =>
        intro pre s e h1
        cases hs : Hnb.step env s op with
        | fault f => exact absurd ((C83_exactly_these_kill ⟨pre, h1⟩ op).1 ⟨f, hs⟩) (h pre op post s e h1)
        | ok s2 =>
          refine ih (pre ++ [op]) s2 (by simp [e]) ?_
          rw [run_append, h1]
          simp only [Hnb.run, hs]
    exact key ops [] _ rfl rfl

/-- A Security Mode Complete from the gateway, at any time. -/
theorem kills_security (s : Hnb.State) (hu : s.up = true) : ∃ data, Hnb.Spec.Kills env s (.recv 19 data) := by
  obtain ⟨bs, -, h2, h3⟩ := Factory.secModCompl_length (ip := 0) (enc := 0) (by decide)
  obtain ⟨l, h4, -⟩ := says_co h2 (by simp) (m := Gen.Ranap.securityModeCompleteIEs) rfl (by decide)
  obtain ⟨-, data, -, h6, -⟩ := gateway h4 (by omega) false 0
  exact ⟨data, hu, .inl ⟨rfl, 2, 6, l, h6, .inl ⟨rfl, by decide⟩⟩⟩

/-- **C83.** So it does not hold, whatever the environment. -/
theorem C83_violated : ¬ C83_full := by
  intro h
  obtain ⟨data, hk⟩ := kills_security (env := demoHnb) Hnb.init rfl
  obtain ⟨f, hf⟩ := (C83_exactly_these_kill reach_init _).2 hk
  obtain ⟨s', hs⟩ := h demoHnb _ 19 data reach_init
  rw [hf] at hs
  cases hs

/-- The other ways: a Location Updating Accept that ends before its location area, once there is a CS channel; ... -/
example : ∃ s data, Reach env s ∧ Hnb.Spec.Kills env s (.recv 19 data) := by
  obtain ⟨s, h1, h2, h3, -⟩ := reach_cs (env := env)
  obtain ⟨data, l, h4, h5, -⟩ := gateway_nas [0x05, 0x02] (by decide) false 42
  exact ⟨s, data, h1, h2, .inl ⟨rfl, 1, 20, l, h4, .inr ⟨rfl, by rw [h3]; simp, [],
    .inl ⟨⟨0x05, 0x02, h5, by decide, by decide⟩, .inl (by decide)⟩⟩⟩⟩

/-- ... a proper one that assigns a TMSI, if there is no network name in it (which other messages convey); ... -/
example : ∃ (env : Hnb.Env) (s : Hnb.State) (data : Bytes), Reach env s ∧ Hnb.Spec.Kills env s (.recv 19 data) := by
  obtain ⟨s, h1, h2, h3, -⟩ := reach_cs (env := ⟨fun _ => some [(0x17, [0xf4, 1, 2, 3, 4])], fun _ => #v[1, 2, 3, 4], fun _ _ => false⟩)
  obtain ⟨data, l, h4, h5, -⟩ := gateway_nas [0x05, 0x02, 0x62, 0xf2, 0x24, 0, 1, 0x17, 5, 0xf4, 1, 2, 3, 4] (by decide) false 42
  exact ⟨_, s, data, h1, h2, .inl ⟨rfl, 1, 20, l, h4, .inr ⟨rfl, by rw [h3]; simp, _,
    .inl ⟨⟨0x05, 0x02, h5, by decide, by decide⟩, .inr ⟨by simp [Hnb.Spec.ie], .inl rfl⟩⟩⟩⟩⟩

/-- ... a UE to be registered whose IMSI has four digits. -/
example : Hnb.Spec.Kills env Hnb.init (.ueRegister [0x31, 0x32, 0x33, 0x34]) := .inl (by decide)

/-- Others do not. -/
example : ¬ Hnb.Spec.Kills env Hnb.init (.ueRegister [0x31, 0x32, 0x33, 0x34, 0x35]) ∧ ¬ Hnb.Spec.Kills env Hnb.init .register :=
  ⟨fun h => (by rcases h with h | h <;> simp at h), id⟩

/-! ## C84: answers -/

/-- **C84** as it should hold: whatever has an answer gets it. -/
def C84_full : Prop := ∀ (env : Hnb.Env) (s : Hnb.State) (data : Bytes) (a : Answer), Reach env s → s.up = true →
  Asks env s data a → ∃ s' m c, Hnb.step env s (.recv 19 data) = .ok s' ∧ s'.queue = s.queue ++ [m] ∧ IsReply m c a

/-- **C84.** Unless the message kills the program, its answer is queued, for the latest CS channel; it gets lost if there is
none or if 16 messages are waiting. -/
theorem C84_answers_partial {s : Hnb.State} {data : Bytes} {a : Answer} (hr : Reach env s) (hu : s.up = true)
    (ha : Asks env s data a) (hk : ¬ Hnb.Spec.Kills env s (.recv 19 data)) :
    ∃ s', Hnb.step env s (.recv 19 data) = .ok s' ∧ Replied s s' a := by
  rcases step_result (env := env) (reach_frame hr).1 (.recv 19 data) with ⟨h, -⟩ | ⟨-, s', hs, he⟩
  · exact absurd h hk
  · refine ⟨s', hs, ?_⟩
    unfold Effect at he
    dsimp only at he
    rw [if_pos ⟨hu, rfl⟩] at he
    rcases he with ⟨a', ha', h⟩ | ⟨t, ht, -⟩ | ⟨hn, -⟩
    · rwa [asks_unique ha ha']
    · exfalso
      have hc : ∃ p c l, Co data p c l := by
        cases ha with
        | nas h => exact ⟨_, _, _, h⟩
        | security h => exact ⟨_, _, _, h⟩
        | release h => exact ⟨_, _, _, h⟩
      have hx : ∃ x, Cl data x := by
        cases ht with
        | imsi h => exact ⟨_, h⟩
        | noImsi h => exact ⟨_, h⟩
        | outcome h => exact ⟨_, h⟩
      obtain ⟨p, c, l, r, h1, -⟩ := hc
      obtain ⟨x, r', h2, -⟩ := hx
      exact absurd (ruaMsg_unique h1 h2).1 (by decide)
    · exact absurd ⟨a, ha⟩ hn

/-- **C84.** What has no answer gets none. -/
theorem C84_silent {s s' : Hnb.State} {ppid : Nat} {data : Bytes} (hr : Reach env s)
    (hs : Hnb.step env s (.recv ppid data) = .ok s') (hn : ppid = 19 → ¬ ∃ a, Asks env s data a) :
    s'.queue = s.queue ∧ s'.sent = s.sent := by
  have he := reach_effect hr hs
  unfold Effect at he
  dsimp only at he
  split at he
  · rename_i h
    rcases he with ⟨a, ha, -⟩ | ⟨t, -, rfl⟩ | ⟨-, -, rfl⟩
    · exact absurd ⟨a, ha⟩ (hn h.2)
    · exact ⟨rfl, rfl⟩
    · exact ⟨rfl, rfl⟩
  · split at he
    · rcases he with ⟨n, -, rfl⟩ | ⟨t, ctx, -, rfl⟩ | ⟨-, -, rfl⟩ <;> exact ⟨rfl, rfl⟩
    · subst he; exact ⟨rfl, rfl⟩

/-- The answer is queued. -/
def Gets (env : Hnb.Env) (s : Hnb.State) (data : Bytes) (a : Answer) : Prop :=
  ∃ m c, s.chan = some c ∧ IsReply m c.connId a ∧
    Hnb.step env s (.recv 19 data) = .ok { s with queue := s.queue ++ [m] }

theorem gets {s : Hnb.State} {data : Bytes} {a : Answer} (hr : Reach env s) (hu : s.up = true)
    (hc : s.chan ≠ none) (hq : s.queue.length < 16) (ha : Asks env s data a) (hk : ¬ Hnb.Spec.Kills env s (.recv 19 data)) :
    Gets env s data a := by
  obtain ⟨s', h1, h2⟩ := C84_answers_partial hr hu ha hk
  unfold Replied at h2
  split at h2
  · rename_i hch
    exact absurd hch hc
  · rename_i c hch
    rw [if_neg (by omega)] at h2
    obtain ⟨m, h2, rfl⟩ := h2
    exact ⟨m, c, hch, h2, h1⟩

theorem not_kills {s : Hnb.State} {data : Bytes} {p c : Nat} {l : List Ie} (h : Co data p c l) (h6 : c = 6 → p = 1)
    (h20 : c = 20 → ¬ FatalNas env (nasOf l)) : ¬ Hnb.Spec.Kills env s (.recv 19 data) := by
  rintro ⟨-, ⟨-, p', c', l', h', hf⟩ | ⟨h, -⟩⟩
  · obtain ⟨rfl, rfl, rfl⟩ := co_unique h h'
    rcases hf with ⟨h1, h2⟩ | ⟨h1, -, h2⟩
    · exact h2 (h6 h1)
    · exact h20 h1 h2
  · exact absurd h (by decide)

theorem not_fatal {nas rest : Bytes} {t : Nat} (h : Mm nas t rest) (h2 : t ≠ 0x02) (h32 : t ≠ 0x32) : ¬ FatalNas env nas := by
  rintro ⟨r, ⟨h', -⟩ | ⟨h', -⟩⟩
  · exact h2 (mm_unique h h').1
  · exact h32 (mm_unique h h').1

/-- **C84.** An Identity Request, whatever is asked for, gets the IMEISV. -/
theorem C84_identity {s : Hnb.State} {data rest : Bytes} {l : List Ie} (hr : Reach env s) (hu : s.up = true)
    (hc : s.chan ≠ none) (hq : s.queue.length < 16) (h : Co data 1 20 l) (hm : Mm (nasOf l) 0x18 rest) :
    Gets env s data (.nas identityResponse) :=
  gets hr hu hc hq (.nas h (.identity hm)) (not_kills h (by decide) fun _ => not_fatal hm (by decide) (by decide))

/-- **C84.** An Authentication Request gets the response computed from the challenge in it. -/
theorem C84_authentication {s : Hnb.State} {data ext : Bytes} {cksn : Byte} {l : List Ie} (rand : Vector Byte 16) (hr : Reach env s)
    (hu : s.up = true) (hc : s.chan ≠ none) (hq : s.queue.length < 16) (h : Co data 1 20 l)
    (hm : Mm (nasOf l) 0x12 (cksn :: (rand.toList ++ ext))) :
    Gets env s data (.nas ([0x05, 0x94] ++ (env.sres rand.toList).toList)) := by
  have hlen : rand.toList.length = 16 := by simp
  have := gets hr hu hc hq (.nas h (.authentication hm (by simp)))
    (not_kills h (by decide) fun _ => not_fatal hm (by decide) (by decide))
  have e : ((cksn :: (rand.toList ++ ext)).drop 1).take 16 = rand.toList := by
    rw [List.drop_succ_cons, List.drop_zero, List.take_left' hlen]
  rw [e] at this
  exact this

/-- **C84.** A Security Mode Command gets a Security Mode Complete with the first algorithm permitted, and without
encryption. -/
theorem C84_security_mode {s : Hnb.State} {data : Bytes} {a : Int} {l : List Ie} (hr : Reach env s) (hu : s.up = true)
    (hc : s.chan ≠ none) (hq : s.queue.length < 16) (h : Co data 1 6 l) (ha : firstAlgorithm l = some a) :
    Gets env s data (.securityModeComplete a) :=
  gets hr hu hc hq (.security h ha) (not_kills h (fun _ => rfl) (fun h => by cases h))

/-- **C84.** An Iu Release Command gets an Iu Release Complete. -/
theorem C84_release {s : Hnb.State} {data : Bytes} {l : List Ie} (hr : Reach env s) (hu : s.up = true)
    (hc : s.chan ≠ none) (hq : s.queue.length < 16) (h : Co data 1 1 l) : Gets env s data .iuReleaseComplete :=
  gets hr hu hc hq (.release h) (not_kills h (by decide) (fun h => by cases h))

/-- The hypotheses of these: a channel, and the messages of a gateway that uses the library. -/
example : ∃ s data l rest, Reach env s ∧ s.up = true ∧ s.chan ≠ none ∧ s.queue.length < 16 ∧ Co data 1 20 l ∧
    Mm (nasOf l) 0x18 rest := by
  obtain ⟨s, h1, h2, h3, h4⟩ := reach_cs (env := env)
  obtain ⟨data, l, h5, h6, -⟩ := gateway_nas [0x05, 0x18, 0x01] (by decide) false 42
  exact ⟨s, data, l, [0x01], h1, h2, by rw [h3]; simp, by omega, h5, 0x05, 0x18, h6, by decide, by decide⟩

example (rand : Vector Byte 16) : ∃ data l, Co data 1 20 l ∧ Mm (nasOf l) 0x12 (3 :: (rand.toList ++ [])) := by
  obtain ⟨data, l, h5, h6, -⟩ := gateway_nas (0x05 :: 0x12 :: 3 :: rand.toList) (by simp) false 42
  exact ⟨data, l, h5, 0x05, 0x12, by rw [h6]; simp, by decide, by decide⟩

theorem gateway_security {ik : Bytes} {ck : Option Bytes} {status : Nat} (hik : ik.length = 16) (hck : ∀ k ∈ ck, k.length = 16)
    (hs : status < 2) {bs : Bytes} (h1 : Factory.secModCmd (some ik) ck status = .ok (some bs)) :
    bs.length ≤ 400 ∧ ∃ l, CoMsg bs 1 6 l ∧ firstAlgorithm l = some 0 := by
  obtain ⟨bs', h1', h2⟩ := (C54_sec_mod_cmd ik ck status 0x06 0x06 (by omega) (fun k hk => by have := hck k hk; omega)).1
    ⟨selects_both, fun _ => selects_both, hs⟩
  have e := h1.symm.trans h1'
  cases e
  obtain ⟨l, h3, h4⟩ := says_co h2 (by cases ck <;> simp [Factory.Spec.opt]) (m := Gen.Ranap.securityModeCommandIEs) rfl (by decide)
  have hk : 0 < Gen.Ranap.securityModeCommandIEs.ies.length := by decide
  have h5 : elem Gen.Ranap.securityModeCommandIEs l 12 = some (securityInfo (selected 0x06 0 1) ik) :=
    (h4 _ (List.getElem_mem hk)).2
  refine ⟨Factory.secModCmd_length hik hck h1, l, h3, ?_⟩
  unfold firstAlgorithm
  rw [h5]
  rfl

example : ∃ data l, Co data 1 6 l ∧ firstAlgorithm l = some 0 := by
  have hl : (List.replicate 16 (0 : Byte)).length = 16 := List.length_replicate
  obtain ⟨bs, h1, -⟩ := (C54_sec_mod_cmd (List.replicate 16 0) none 0 0x06 0x06 (by omega) (by simp)).1
    ⟨selects_both, fun _ => selects_both, by decide⟩
  obtain ⟨h2, l, h3, h4⟩ := gateway_security hl (ck := none) (by simp) (by decide) h1
  obtain ⟨-, data, -, h6, -⟩ := gateway h3 (by omega) false 42
  exact ⟨data, l, h6, h4⟩

theorem gateway_release {c : Factory.Cause} (hv : ValidCause c) {bs : Bytes} (h1 : Factory.iuRelCmd (some c) = .ok (some bs)) :
    bs.length ≤ 100 ∧ ∃ l, CoMsg bs 1 1 l := by
  obtain ⟨bs', h1', h2⟩ := (C65_iu_rel_cmd c).1 hv
  have e := h1.symm.trans h1'
  cases e
  obtain ⟨l, h4, -⟩ := says_co h2 (by simp) (m := Gen.Ranap.iu_ReleaseCommandIEs) rfl (by decide)
  exact ⟨Factory.iuRelCmd_length hv h1, l, h4⟩

example : ∃ data l, Co data 1 1 l := by
  obtain ⟨bs, h1, -⟩ := (C65_iu_rel_cmd ⟨3, 83⟩).1 (by decide)
  obtain ⟨h2, l, h3⟩ := gateway_release (by decide) h1
  obtain ⟨-, data, -, h6, -⟩ := gateway h3 (by omega) false 42
  exact ⟨data, l, h6⟩

/-- **C84.** Without a channel there is no answer. -/
theorem C84_violated : ¬ C84_full := by
  intro h
  obtain ⟨data, l, h5, h6, -⟩ := gateway_nas [0x05, 0x18, 0x01] (by decide) false 42
  have hm : Mm (nasOf l) 0x18 [0x01] := ⟨0x05, 0x18, h6, by decide, by decide⟩
  have ha : Asks demoHnb Hnb.init data (.nas identityResponse) := .nas h5 (.identity hm)
  obtain ⟨s', m, c, h1, h2, -⟩ := h demoHnb _ data _ reach_init rfl ha
  obtain ⟨s1, h3, h4⟩ := C84_answers_partial reach_init rfl ha
    (not_kills h5 (by decide) fun _ => not_fatal hm (by decide) (by decide))
  rw [h1] at h3
  cases h3
  cases (show s' = Hnb.init from h4)
  cases h2

/-! ## C85: on which connection -/

/-- **C85** as it should hold: what a message is answered with goes to the connection the message came from. -/
def C85_full : Prop := ∀ (env : Hnb.Env) (s s' : Hnb.State) (data : Bytes) (m : Rua.Msg) (domain : Nat) (ctx : Bits), Reach env s →
  Hnb.step env s (.recv 19 data) = .ok s' → s'.queue = s.queue ++ [m] → On data domain ctx → On m.data domain ctx

theorem reply_on {m : Rua.Msg} {c : BitVec 32} {a : Answer} (h : IsReply m c a) : On m.data 0 (low24 c) := by
  obtain ⟨-, ranap, -, h⟩ := h
  exact on_of (rest := [(4, .octets ranap)]) h

theorem reply_chan {s s' : Hnb.State} {ppid : Nat} {data : Bytes} {m : Rua.Msg} (hr : Reach env s)
    (hs : Hnb.step env s (.recv ppid data) = .ok s') (hq : s'.queue = s.queue ++ [m]) :
    ∃ c, s.chan = some c ∧ On m.data 0 (low24 c.connId) := by
  have he := reach_effect hr hs
  have hne : s'.queue ≠ s.queue := by rw [hq]; simp
  unfold Effect at he
  dsimp only at he
  split at he
  · rcases he with ⟨a, -, h⟩ | ⟨t, -, rfl⟩ | ⟨-, -, rfl⟩
    · rcases replied_state h with rfl | ⟨-, c, m', hc, hm, rfl⟩
      · exact absurd rfl hne
      · have : m' = m := by simpa using hq
        subst this
        exact ⟨c, hc, reply_on hm⟩
    · exact absurd rfl hne
    · exact absurd rfl hne
  · split at he
    · rcases he with ⟨n, -, rfl⟩ | ⟨t, ctx, -, rfl⟩ | ⟨-, -, rfl⟩ <;> exact absurd rfl hne
    · subst he; exact absurd rfl hne

theorem run_keeps {post : List Hnb.Op} {s s' : Hnb.State} (hs : CsOnly s) (h : Hnb.run env s post = .ok s')
    (hn : ∀ imsi, .channel false imsi ∉ post) : s'.chan = s.chan := by
  induction post generalizing s with
  | nil => cases h; rfl
  | cons op post ih =>
    simp only [Hnb.run] at h
    rcases step_result (env := env) hs op with ⟨-, f, hf⟩ | ⟨-, s1, h1, h2⟩
    · rw [hf] at h; cases h
    · rw [h1] at h
      rw [ih ((effect_frame h2).cs hs) h (fun imsi hm => hn imsi (List.mem_cons_of_mem _ hm)), (effect_chan h2).2]
      split
      · exact absurd (List.mem_cons_self ..) (hn _)
      · rfl

/-- **C85.** All answers go to the CS connection opened last, whatever connection and domain the message is for. -/
theorem C85_latest_channel {pre post : List Hnb.Op} {imsi : Bytes} {s s' : Hnb.State} {ppid : Nat} {data : Bytes} {m : Rua.Msg}
    (h : Hnb.run env Hnb.init (pre ++ .channel false imsi :: post) = .ok s) (hn : ∀ imsi, .channel false imsi ∉ post)
    (hs : Hnb.step env s (.recv ppid data) = .ok s') (hq : s'.queue = s.queue ++ [m]) :
    On m.data 0 (low24 (ctxAfter (channels pre))) := by
  obtain ⟨c, hc, hm⟩ := reply_chan ⟨_, h⟩ hs hq
  rw [run_append] at h
  cases h1 : Hnb.run env Hnb.init pre with
  | fault f => rw [h1] at h; cases h
  | ok s1 =>
    rw [h1] at h
    simp only [Hnb.run] at h
    cases h2 : Hnb.step env s1 (.channel false imsi) with
    | fault f => rw [h2] at h; cases h
    | ok s2 =>
      rw [h2] at h
      have he := reach_effect ⟨pre, h1⟩ h2
      have hk := run_keeps (reach_frame (reach_step ⟨pre, h1⟩ h2)).1 h hn
      rw [(effect_chan he).2, hc] at hk
      cases hk
      rwa [run_conn h1, conn_ctx] at hm

/-- **C85.** Before there is one, nothing is answered. -/
theorem C85_no_channel {ops : List Hnb.Op} {s s' : Hnb.State} {ppid : Nat} {data : Bytes}
    (h : Hnb.run env Hnb.init ops = .ok s) (hn : ∀ imsi, .channel false imsi ∉ ops)
    (hs : Hnb.step env s (.recv ppid data) = .ok s') : s'.queue = s.queue := by
  have he := reach_effect ⟨ops, h⟩ hs
  rcases effect_out he with ho | ⟨-, -, m, hq, -⟩
  · rcases effect_sent he with h1 | ⟨h1, -⟩
    · unfold out at ho
      rw [h1] at ho
      exact List.append_cancel_left ho
    · cases h1
  · obtain ⟨c, hc, -⟩ := reply_chan ⟨ops, h⟩ hs hq
    have := run_keeps (fun c hc => by cases hc) h hn
    rw [hc] at this
    cases this

/-- Two CS channels, and an Identity Request for the first: the answer goes to the second. -/
theorem two_channels : ∃ s s' data m, Hnb.run env Hnb.init [.channel false [], .channel false []] = .ok s ∧
    Hnb.step env s (.recv 19 data) = .ok s' ∧ s'.queue = s.queue ++ [m] ∧ On data 0 (low24 42) ∧ On m.data 0 (low24 43) := by
  obtain ⟨s1, h1, r1, e1⟩ := reach_channel (env := env) reach_init false []
  obtain ⟨s2, h2, r2, e2⟩ := reach_channel r1 false []
  unfold Sends at e1 e2
  rw [if_neg (by decide)] at e1
  obtain ⟨m1, -, rfl⟩ := e1
  rw [if_neg (by simp [opened, Hnb.init])] at e2
  obtain ⟨m2, -, rfl⟩ := e2
  obtain ⟨data, l, h5, h6, h7⟩ := gateway_nas [0x05, 0x18, 0x01] (by decide) false 42
  have hm : Mm (nasOf l) 0x18 [0x01] := ⟨0x05, 0x18, h6, by decide, by decide⟩
  obtain ⟨m, c, hc, h8, h9⟩ := C84_identity r2 rfl (fun h => by cases h) (by simp [opened, Hnb.init]) h5 hm
  cases hc
  refine ⟨_, _, data, m, ?_, h9, rfl, h7, reply_on h8⟩
  simp only [Hnb.run, h1, h2]

theorem C85_violated : ¬ C85_full := by
  intro h
  obtain ⟨s, s', data, m, h1, h2, h3, h4, h5⟩ := two_channels (env := demoHnb)
  have := (on_unique (h demoHnb s s' data m 0 _ ⟨_, h1⟩ h2 h3 h4) h5).2
  rw [Rua.low24_iff] at this
  exact absurd this (by decide)

/-- The hypotheses of the two theorems. -/
example : ∃ s s' data m, Hnb.run env Hnb.init ([.channel false []] ++ .channel false [] :: []) = .ok s ∧
    (∀ imsi, .channel false imsi ∉ ([] : List Hnb.Op)) ∧ Hnb.step env s (.recv 19 data) = .ok s' ∧ s'.queue = s.queue ++ [m] := by
  obtain ⟨s, s', data, m, h1, h2, h3, -⟩ := two_channels (env := env)
  exact ⟨s, s', data, m, h1, by simp, h2, h3⟩

/-! ## C86: context ids -/

/-- **C86** as it should hold: no two Connect messages have the same context id. -/
def C86_full : Prop := ∀ (env : Hnb.Env) (s : Hnb.State), Reach env s →
  (out s).Pairwise fun a b => ∀ p c n p' c' n', Opens p c n a → Opens p' c' n' b → low24 c ≠ low24 c'

/-- **C86.** Every channel command asks for a connection in its domain, with the next number (modulo 65536) as context id;
nothing else changes (but for the channel answers go to, if it is in the CS domain). -/
theorem C86_numbers {ops : List Hnb.Op} {s s' : Hnb.State} {isPs : Bool} {imsi : Bytes} (h : Hnb.run env Hnb.init ops = .ok s)
    (hs : Hnb.step env s (.channel isPs imsi) = .ok s') (hq : s.queue.length < 16) :
    ∃ m, Opens isPs (ctxAfter (channels ops)) locationUpdatingRequest m ∧ s'.queue = s.queue ++ [m] ∧ s'.sent = s.sent ∧
      s'.prints = s.prints ∧ s'.rncId = s.rncId ∧ s'.ctxId = s.ctxId ∧ s'.up = s.up := by
  have he := reach_effect ⟨ops, h⟩ hs
  rcases sends_state he with rfl | ⟨-, m, ho, rfl⟩
  · unfold Effect Sends at he
    dsimp only at he
    rw [if_neg (by simp [opened]; omega)] at he
    obtain ⟨m, -, hm⟩ := he
    have := congrArg (fun s => s.queue.length) hm
    simp at this
  · rw [run_conn h, conn_ctx] at ho
    exact ⟨m, ho, rfl, rfl, rfl, rfl, rfl, rfl⟩

example : ∃ s s', Hnb.run env Hnb.init [.register] = .ok s ∧ Hnb.step env s (.channel true []) = .ok s' ∧ s.queue.length < 16 := by
  obtain ⟨s, h1, h2⟩ := registerTx_queued Hnb.init
  obtain ⟨s', h3, -⟩ := channel_sends s true []
  refine ⟨s, s', by simp only [Hnb.run, Hnb.step, h1], h3, ?_⟩
  rcases queued_state h2 with rfl | ⟨-, bs, -, rfl⟩ <;> simp [Hnb.init]

/-- **C86.** As long as there were no more than 65536 channel commands, no two connections have the same context id. -/
theorem C86_distinct_partial {ops : List Hnb.Op} {s : Hnb.State} (h : Hnb.run env Hnb.init ops = .ok s)
    (hn : channels ops ≤ 65536) :
    (out s).Pairwise fun a b => ∀ p c n p' c' n', Opens p c n a → Opens p' c' n' b → low24 c ≠ low24 c' := by
  have key : channels ops ≤ 65536 → (out s).Pairwise (fun a b => ∀ p c n p' c' n', Opens p c n a → Opens p' c' n' b →
      low24 c ≠ low24 c') ∧ ∀ a ∈ out s, ∀ p c n, Opens p c n a → ∃ k < channels ops, low24 c = low24 (ctxAfter k) := by
    refine run_induct (P := fun ops s => channels ops ≤ 65536 → (out s).Pairwise (fun a b => ∀ p c n p' c' n', Opens p c n a →
      Opens p' c' n' b → low24 c ≠ low24 c') ∧ ∀ a ∈ out s, ∀ p c n, Opens p c n a →
        ∃ k < channels ops, low24 c = low24 (ctxAfter k)) ?_ ?_ h
    · exact fun _ => ⟨List.Pairwise.nil, fun a ha => by cases ha⟩
    · intro ops s op s' hr ih he hc
      rw [channels_append] at hc
      obtain ⟨i1, i2⟩ := ih (by omega)
      rw [channels_append]
      have i2' : ∀ a ∈ out s, ∀ p c n, Opens p c n a → ∃ k < channels ops + channels [op], low24 c = low24 (ctxAfter k) := by
        intro a ha p c n ho
        obtain ⟨k, h1, h2⟩ := i2 a ha p c n ho
        exact ⟨k, by omega, h2⟩
      rcases effect_out he with ho | ⟨-, hsent, m, hq, -, hm⟩
      · rw [ho]
        exact ⟨i1, i2'⟩
      · have ho : out s' = out s ++ [m] := by unfold out; rw [hsent, hq, List.append_assoc]
        rw [ho]
        rw [List.pairwise_append]
        rcases hm with hm | ⟨isPs, imsi, rfl, hm⟩
        · refine ⟨⟨i1, List.pairwise_singleton .., fun a _ b hb p c n p' c' n' _ hb' => ?_⟩, fun a ha p c n hop => ?_⟩
          · rw [List.mem_singleton] at hb
            exact absurd (hb ▸ hb') (hm _ _ _)
          · rcases List.mem_append.1 ha with ha | ha
            · exact i2' a ha p c n hop
            · rw [List.mem_singleton] at ha
              exact absurd (ha ▸ hop) (hm _ _ _)
        · have h1 : channels [.channel isPs imsi] = 1 := rfl
          rw [run_conn hr, conn_ctx] at hm
          refine ⟨⟨i1, List.pairwise_singleton .., fun a ha b hb p c n p' c' n' h1' h2' e => ?_⟩, fun a ha p c n hop => ?_⟩
          · rw [List.mem_singleton] at hb
            obtain ⟨-, e2, -⟩ := opens_unique (hb ▸ h2') hm
            obtain ⟨k, hk, e3⟩ := i2 a ha p c n h1'
            rw [e3, e2, Rua.low24_iff, ctx_low, ctx_low] at e
            omega
          · rcases List.mem_append.1 ha with ha | ha
            · exact i2' a ha p c n hop
            · rw [List.mem_singleton] at ha
              obtain ⟨-, e2, -⟩ := opens_unique (ha ▸ hop) hm
              exact ⟨channels ops, by omega, e2⟩
  exact (key hn).1

/-- Channels opened one after the other. -/
def many : Nat → List Hnb.Op
  | 0 => []
  | n + 1 => many n ++ [.channel false [], .writable]

theorem many_channels (n : Nat) : channels (many n) = n := by
  induction n with
  | zero => rfl
  | succ n ih => rw [many, channels_append, ih]; rfl

theorem many_run (n : Nat) : ∃ s, Hnb.run env Hnb.init (many n) = .ok s ∧ s.up = true ∧ s.queue = [] ∧ s.sent.length = n ∧
    ∀ k a, s.sent[k]? = some a → Opens false (ctxAfter k) locationUpdatingRequest a := by
  induction n with
  | zero => exact ⟨_, rfl, rfl, rfl, rfl, fun k a h => by cases k <;> cases h⟩
  | succ n ih =>
    obtain ⟨s, h1, h2, h3, h4, h5⟩ := ih
    obtain ⟨s1, e1, e2, e3⟩ := reach_channel ⟨_, h1⟩ false []
    unfold Sends at e3
    rw [if_neg (by simp [opened, h3])] at e3
    obtain ⟨m, e3, rfl⟩ := e3
    refine ⟨{ opened s false with queue := [], sent := s.sent ++ [m] }, ?_, h2, rfl, ?_, ?_⟩
    · rw [many, run_append, h1]
      simp only [Hnb.run, e1]
      simp only [Hnb.step, opened, h2, h3, if_true, List.nil_append]
    · simp [h4]
    · intro k a ha
      simp only at ha
      rw [run_conn h1, many_channels, conn_ctx] at e3
      rcases Nat.lt_trichotomy k n with hk | rfl | hk
      · rw [List.getElem?_append_left (by omega)] at ha
        exact h5 k a ha
      · rw [List.getElem?_append_right (by omega), h4, Nat.sub_self] at ha
        cases ha
        exact e3
      · rw [List.getElem?_append_right (by omega), List.getElem?_eq_none (by simp; omega)] at ha
        cases ha

example : ∃ s, Hnb.run env Hnb.init (many 3) = .ok s ∧ channels (many 3) ≤ 65536 ∧ s.sent.length = 3 := by
  obtain ⟨s, h1, -, -, h2, -⟩ := many_run (env := env) 3
  exact ⟨s, h1, by rw [many_channels]; decide, h2⟩

/-- **C86.** The numbers wrap around. -/
theorem C86_violated : ¬ C86_full := by
  intro h
  obtain ⟨s, h1, -, h2, h3, h4⟩ := many_run (env := demoHnb) 65537
  have hp := h demoHnb s ⟨_, h1⟩
  have ho : out s = s.sent := by unfold out; rw [h2, List.append_nil]
  rw [ho, List.pairwise_iff_getElem] at hp
  have h0 : 0 < s.sent.length := by omega
  have h6 : 65536 < s.sent.length := by omega
  refine hp 0 65536 h0 h6 (by decide) _ _ _ _ _ _ (h4 0 _ (List.getElem?_eq_getElem h0)) (h4 65536 _ (List.getElem?_eq_getElem h6)) ?_
  rw [Rua.low24_iff, ctx_low, ctx_low]

end Verif.Props
