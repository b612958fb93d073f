import Verif.Proofs.IuSays
import Verif.Props.IuAmount

/-!
# C132: what the client sends of its own accord
-/

namespace Verif.Props
open Verif.Iu Verif.Iu.Spec Verif.IuAmount Verif.IuSays

variable {env : Env} {P : Prim → Prop}

/-- What `handleCo` sends at a context. -/
theorem says_handleCo (h : UserSends env P) {s s' : State} {u : Ue} {d : Bytes} {rc : Int} (hu : s.ues.find? (·.ptr = u.ptr) = some u)
    (hs : rxCo env (handleCo env u.ptr) d s = .ok (rc, s')) :
    AllSent (fun p => P p ∨ ∃ m cause, env.decodeCo d = some m ∧ m.dir = PR_initiatingMessage ∧ m.proc = id_Iu_ReleaseRequest ∧
      m.body = .iuReleaseReq cause ∧ p = .dataReq u.conn (.iuRelCmd cause)) s s' := by
  by_cases hq : ReleaseRequest env d
  · obtain ⟨m, hm, h1, h2⟩ := hq
    unfold rxCo at hs
    rw [hm] at hs
    dsimp only at hs
    obtain ⟨_, s1, h3, h4⟩ := bind_ok.1 hs
    cases h4
    unfold handleCo at h3
    rw [if_pos h1, if_neg (by rw [h2]; decide), if_neg (by rw [h2]; decide), if_neg (by rw [h2]; decide), if_pos h2] at h3
    cases hb : m.body
    case iuReleaseReq cause =>
      rw [hb] at h3
      obtain ⟨rc', s2, h5, h6⟩ := bind_ok.1 h3
      cases h6
      unfold iuTxRelease at h5
      obtain ⟨_, s3, h7, h8⟩ := bind_ok.1 h5
      have := wp_ok (eff_genMsg _ s) h7
      subst this
      obtain ⟨v, s4, h9, h10⟩ := bind_ok.1 h8
      obtain ⟨rfl, hv⟩ := wp_ok (eff_deref _ _) h9
      rw [hu] at hv
      cases hv
      exact AllSent.one (sapDown_ok h10) fun _ => .inr ⟨m, cause, hm, h1, h2, hb, rfl⟩
    all_goals (rw [hb] at h3; cases h3)
  · exact (says_rxCo_quiet h u.ptr hq s rc s' hs).mono fun p hp => .inl hp

/-- C132 where contexts are pairwise different. -/
theorem says_step {s s' : State} {rc : Int} (hi : Iu.Inv s) (h : UserSends env P) {op : Op}
    (ho : FromOutside op) (hs : step env op s = .ok (rc, s')) : AllSent (fun p => P p ∨ OwnAnswer env op p) s s' := by
  have hu : UserSends env (fun p => P p ∨ OwnAnswer env op p) := fun s o s' hr => (h s o s' hr).mono fun p hp => .inl hp
  have at_conn : ∀ {t : State} {c : ConnId} {u : Ue}, t.ues = s.ues → ctxFind t c = some u →
      u.conn = c ∧ t.ues.find? (·.ptr = u.ptr) = some u := by
    intro t c u ht hf
    unfold ctxFind at hf
    rw [ht] at hf ⊢
    refine ⟨by simpa using List.find?_some hf, ?_⟩
    have hm := List.mem_of_find?_eq_some hf
    cases hx : s.ues.find? (·.ptr = u.ptr) with
    | none => exact by simpa using List.find?_eq_none.1 hx u hm
    | some v => rw [ue_inj hi.ueNodup (List.mem_of_find?_eq_some hx) hm (by simpa using List.find?_some hx)]
  cases op with
  | connectConf => cases hs; exact AllSent.same rfl
  | otherInd => cases hs; exact AllSent.same rfl
  | connectInd c a d =>
    refine (?_ : Says _ (step env (.connectInd c a d))) s rc s' hs
    unfold step
    refine (says_sapDown fun _ h => by cases h).bind fun _ => ?_
    exact .cond (.after (still_cacheAdd _ _) fun _ => (still_pure _).says) (says_rxCo (says_handleCoInitial hu _) _)
  | disconnectInd c d =>
    unfold step at hs
    dsimp only at hs
    obtain ⟨_, s1, h1, h2⟩ := bind_ok.1 hs
    have e1 : s1.trace = s.trace := still_cacheDel c s _ s1 h1
    have e2 : s1.ues = s.ues := by cases h1; rfl
    obtain ⟨t, s2, h3, h4⟩ := bind_ok.1 h2
    cases h3
    refine (AllSent.same e1).trans ?_
    cases hf : ctxFind s1 c with
    | none =>
      rw [hf] at h4
      cases h4
      exact AllSent.same rfl
    | some u =>
      rw [hf] at h4
      have tail : ∀ rc : Int, Says (fun p => P p ∨ OwnAnswer env (.disconnectInd c d) p) (do
          let s ← M.get
          match ctxFind s c with
          | none => pure rc
          | some u => do linkInvalidatedFree env u.ptr; pure rc) := by
        intro rc
        refine .after still_get fun s => ?_
        split
        · exact (still_pure _).says
        · exact .before (says_linkInvalidatedFree hu _) fun _ => still_pure _
      obtain ⟨hc, hfind⟩ := at_conn e2 hf
      by_cases hd : d.length > 0
      · simp only [if_pos hd] at h4
        obtain ⟨rc1, s3, h5, h6⟩ := bind_ok.1 h4
        refine AllSent.trans ?_ (tail rc1 s3 rc s' h6)
        refine (says_handleCo h hfind h5).mono ?_
        rintro p (hp | ⟨m, cause, a, b, e, f, rfl⟩)
        · exact .inl hp
        · exact .inr (hc ▸ .disconnect a b e f)
      · simp only [if_neg hd] at h4
        obtain ⟨rc1, s3, h5, h6⟩ := bind_ok.1 h4
        cases h5
        exact tail 0 _ rc s' h6
  | dataInd c d =>
    unfold step at hs
    dsimp only at hs
    obtain ⟨t, s2, h3, h4⟩ := bind_ok.1 hs
    cases h3
    cases hf : ctxFind s c with
    | none =>
      rw [hf] at h4
      refine (?_ : Says _ _) s rc s' h4
      dsimp only
      split
      · exact (still_pure _).says
      · exact .after (still_cacheDel _) fun _ => says_rxCo (says_handleCoInitial hu _) _
    | some u =>
      rw [hf] at h4
      obtain ⟨hc, hfind⟩ := at_conn rfl hf
      refine (says_handleCo h hfind h4).mono ?_
      rintro p (hp | ⟨m, cause, a, b, e, f, rfl⟩)
      · exact .inl hp
      · exact .inr (hc ▸ .data a b e f)
  | unitdataInd a d =>
    refine (?_ : Says _ (step env (.unitdataInd a d))) s rc s' hs
    unfold step
    dsimp only
    split
    · exact (still_pure _).says
    next m hm =>
      refine .before ?_ fun _ => still_pure _
      by_cases h1 : m.dir = PR_initiatingMessage
      · by_cases h2 : m.proc = id_Reset
        · unfold handleCl
          rw [if_pos h1, if_pos h2]
          split
          next domain rnc hb =>
            refine .before ?_ fun _ => still_pure _
            unfold handleClReset
            refine .after (still_lift _) fun r => ?_
            split
            · exact (still_pure _).says
            · exact says_sapDown fun _ _ => .inr (.reset hm h1 h2 hb)
          · exact (still_fault _).says
        · exact (still_handleCl_quiet a fun _ => h2).says
      · exact (still_handleCl_quiet a fun hd => absurd hd h1).says
  | noticeInd a cause =>
    refine (?_ : Says _ (step env (.noticeInd a cause))) s rc s' hs
    unfold step handleNotice
    refine .before ?_ fun _ => still_pure _
    split
    · exact (still_pure _).says
    · exact .after still_get fun s => says_rncLoop hu _ _
  | pcstateInd pc sp rem =>
    refine (?_ : Says _ (step env (.pcstateInd pc sp rem))) s rc s' hs
    unfold step handlePcstate
    refine .before ?_ fun _ => still_pure _
    dsimp only
    split
    · exact .after still_get fun s => says_rncLoop hu _ _
    · exact (still_pure _).says
  | timer p =>
    refine (?_ : Says _ (step env (.timer p))) s rc s' hs
    unfold step
    refine .after still_get fun s => .cond (.after (still_modify fun _ => rfl) fun _ => ?_) (still_pure _).says
    exact .before (says_iuEvent hu _ _) fun _ => still_pure _
  | api a => exact absurd rfl (ho a)

/-- **C132.** Whatever is received or expires: every message that the client sends is one that the user sends when called, or the
answer to an Iu Release Request on that connection with its cause, or to a RESET, to its sender, with its domain and RNC. -/
theorem C132_own {ops : List Op} {s s' : State} {rc : Int} (h0 : run env ops init = .ok ((), s)) (h : UserSends env P) {op : Op}
    (ho : FromOutside op) (hs : step env op s = .ok (rc, s')) : AllSent (fun p => P p ∨ OwnAnswer env op p) s s' :=
  says_step (reach_inv h0) h ho hs

/-- C132 for the messages of a history, from any state with pairwise different contexts. -/
theorem says_run (h : UserSends env P) : ∀ (ops : List Op), (∀ op ∈ ops, FromOutside op) → ∀ {s s' : State}, Iu.Inv s →
    run env ops s = .ok ((), s') → AllSent (fun p => P p ∨ ∃ op ∈ ops, OwnAnswer env op p) s s'
  | [], _, s, s', _, hr => by
    cases hr
    exact AllSent.same rfl
  | op :: ops, ho, s, s', hi, hr => by
    unfold run at hr
    obtain ⟨rc, s1, h1, h2⟩ := bind_ok.1 hr
    have a1 := says_step hi h (ho op (List.mem_cons_self ..)) h1
    have a2 := says_run h ops (fun o hm => ho o (List.mem_cons_of_mem _ hm)) (wp_ok (inv_step op s hi) h1) h2
    refine (a1.mono ?_).trans (a2.mono ?_)
    · exact fun p hp => hp.imp id fun hp => ⟨op, List.mem_cons_self .., hp⟩
    · exact fun p hp => hp.imp id fun ⟨o, hm, hp⟩ => ⟨o, List.mem_cons_of_mem _ hm, hp⟩

/-- **C132.** After any history of what is received and expires, every message ever sent is one that the user sent when called, or the
answer to a message that was received. -/
theorem C132_history {ops : List Op} {s : State} (h0 : run env ops init = .ok ((), s)) (ho : ∀ op ∈ ops, FromOutside op)
    (h : UserSends env P) {p : Prim} {rc : Int} (hp : Out.sap p rc ∈ s.trace) (hm : isMessage (.sap p rc) = true) :
    P p ∨ ∃ op ∈ ops, OwnAnswer env op p := by
  obtain ⟨d, h1, h2⟩ := says_run h ops ho (reach_inv (env := env) (ops := []) rfl) h0
  rw [h1] at hp
  exact h2 p rc (by simpa [init] using hp) hm

/-- One message on the connection of a context. -/
theorem says_data {s s' : State} {p : Ptr} {m : TxMsg} {rc : Int} (hs : (do let u ← deref p; txData env u.conn m : M Int) s = .ok (rc, s')) :
    AllSent (fun q => ∃ u ∈ s.ues, u.ptr = p ∧ q = .dataReq u.conn m) s s' := by
  obtain ⟨u, s1, h1, h2⟩ := bind_ok.1 hs
  obtain ⟨rfl, hu⟩ := wp_ok (eff_deref _ _) h1
  exact AllSent.one (sapDown_ok h2) fun _ => ⟨u, List.mem_of_find?_eq_some hu, by simpa using List.find?_some hu, rfl⟩

/-- An Iu Release Command on the connection of a context. -/
theorem says_release {s s' : State} {p : Ptr} {cause : Option Cause} {rc : Int} (hs : iuTxRelease env p cause s = .ok (rc, s')) :
    AllSent (fun q => ∃ u ∈ s.ues, u.ptr = p ∧ q = .dataReq u.conn (.iuRelCmd (cause.getD (.nAS CauseNAS_normal_release)))) s s' := by
  unfold iuTxRelease at hs
  obtain ⟨_, s1, h1, h2⟩ := bind_ok.1 hs
  have := wp_ok (eff_genMsg _ s) h1
  subst this
  exact says_data h2

/-- Paging an RNC. -/
theorem says_paging {addr : SccpAddr} {imsi : Bytes} {tmsi : Option (BitVec 32)} {ps : Bool} (h : P (.unitdataReq addr (.paging imsi tmsi ps 0))) :
    Says P (txPagingCmd env addr imsi tmsi ps 0) :=
  .after (still_genMsg _) fun _ => says_sapDown fun _ _ => h

theorem says_pageLoop {imsi : Bytes} {tmsi : Option (BitVec 32)} {ps : Bool} {hit : Rai → Bool} : ∀ (l : List Rnc) (n : Int),
    (∀ r ∈ l, r.areas.any hit = true → P (.unitdataReq r.addr (.paging imsi tmsi ps 0))) → Says P (pageLoop env imsi tmsi ps hit l n)
  | [], n, _ => (still_pure _).says
  | r :: l, n, h => by
    unfold pageLoop
    have ih := fun k => says_pageLoop l k fun r hr => h r (List.mem_cons_of_mem _ hr)
    split
    next hh => exact (says_paging (h r (List.mem_cons_self ..) hh)).bind fun _ => ih _
    · exact ih _

theorem says_page {s s' : State} {imsi : Bytes} {tmsi : Option (BitVec 32)} {lac : BitVec 16} {rac : BitVec 8} {ps : Bool} {rc : Int}
    (hs : iuPage env imsi tmsi lac rac ps s = .ok (rc, s')) :
    AllSent (fun q => ∃ r ∈ s.rncs, ∃ e ∈ r.areas, e.lai.lac = lac ∧ e.rac = rac ∧ q = .unitdataReq r.addr (.paging imsi tmsi ps 0)) s s' := by
  unfold iuPage at hs
  obtain ⟨t, s1, h1, h2⟩ := bind_ok.1 hs
  cases h1
  cases hf : lacRacFindLegacy s lac rac with
  | none =>
    rw [hf] at h2
    cases h2
    exact AllSent.same rfl
  | some r =>
    rw [hf] at h2
    have hm := List.mem_of_find?_eq_some hf
    have hp := List.find?_some hf
    obtain ⟨e, he, h3⟩ := List.any_eq_true.1 hp
    simp only [Bool.and_eq_true, decide_eq_true_eq] at h3
    exact Says.before (says_paging ⟨r, hm, e, he, h3.1, h3.2, rfl⟩) (fun _ => still_pure _) s rc s' h2

/-- **C132.** A call of the API sends what it asks for only: its message on the connection of its context, or paging to RNCs that
serve the area. -/
theorem C132_api {a : Api} {s s' : State} {rc : Int} (hs : step env (.api a) s = .ok (rc, s')) : AllSent (CallSays s a) s s' := by
  replace hs : runApi env a s = .ok (rc, s') := hs
  cases a with
  | freeUe ue => exact Says.before (says_freeUe ue) (fun _ => still_pure _) s rc s' hs
  | rabDeact ue r => exact (still_pure _).says s rc s' hs
  | tx ue nas sapi =>
    cases ue with
    | none => exact Says.after (still_txBuf _) (fun _ => (still_pure _).says) s rc s' hs
    | some p =>
      obtain ⟨_, s1, h1, h2⟩ := bind_ok.1 hs
      obtain ⟨u, s2, h3, h4⟩ := bind_ok.1 h2
      cases h1
      obtain ⟨rfl, hu⟩ := wp_ok (eff_deref _ _) h3
      have hm : u ∈ s.ues := List.mem_of_find?_eq_some hu
      obtain rfl : u.ptr = p := by simpa using List.find?_some hu
      refine AllSent.trans (s1 := { s with txBufs := s.txBufs + 1 }) (AllSent.same rfl)
        (Says.after (still_genMsg _) (fun _ => Says.after (still_txBuf _) fun _ => ?_) _ rc s' h4)
      exact says_sapDown fun _ _ => .tx hm
  | txRelease p cause =>
    refine (says_release hs).mono ?_
    rintro q ⟨u, hu, rfl, rfl⟩
    cases cause with
    | none => exact .releaseNormal hu
    | some c => exact .release hu
  | txReleaseFree p cause t =>
    obtain ⟨_, s1, h1, h2⟩ := bind_ok.1 hs
    obtain ⟨_, s2, h3, h4⟩ := bind_ok.1 h1
    obtain ⟨rfl, -⟩ := wp_ok (eff_deref _ _) h3
    obtain ⟨_, s3, h5, h6⟩ := bind_ok.1 h4
    cases h5
    obtain ⟨_, s4, h7, h8⟩ := bind_ok.1 h6
    cases h8
    cases h2
    obtain ⟨d, e, hd⟩ := says_release h7
    refine ⟨d, e, fun q rc hm hi => ?_⟩
    obtain ⟨u, hu, h9, rfl⟩ := hd q rc hm hi
    obtain ⟨v, hv, h10⟩ := List.mem_map.1 hu
    have e1 : u.ptr = v.ptr ∧ u.conn = v.conn := by rw [← h10]; split <;> exact ⟨rfl, rfl⟩
    rw [← h9, e1.1, e1.2]
    cases cause with
    | none => exact .releaseFreeNormal hv
    | some c => exact .releaseFree hv
  | txSecModeCmd p ik ck sendCk newKey =>
    obtain ⟨_, s1, h1, h2⟩ := bind_ok.1 hs
    have := wp_ok (eff_genMsg _ s) h1
    subst this
    refine (says_data h2).mono ?_
    rintro q ⟨u, hu, rfl, rfl⟩
    cases sendCk with
    | true => exact .secModeBoth hu
    | false => exact .secModeIntegrity hu
  | txCommonId p imsi =>
    obtain ⟨u, s2, h3, h4⟩ := bind_ok.1 hs
    obtain ⟨rfl, hu⟩ := wp_ok (eff_deref _ _) h3
    have hm := List.mem_of_find?_eq_some hu
    obtain rfl : u.ptr = p := by simpa using List.find?_some hu
    exact Says.after (still_genMsg _) (fun _ => says_sapDown fun _ _ => .commonId hm) _ rc s' h4
  | rabAct p msg =>
    refine (says_data hs).mono ?_
    rintro q ⟨u, hu, rfl, rfl⟩
    exact .rabAct hu
  | pageCs imsi tmsi lac =>
    refine (says_page hs).mono ?_
    rintro q ⟨r, hr, e, he, rfl, h0, rfl⟩
    exact .pageCs hr he h0
  | pagePs imsi tmsi lac rac =>
    refine (says_page hs).mono ?_
    rintro q ⟨r, hr, e, he, rfl, rfl, rfl⟩
    exact .pagePs hr he
  | pageCs2 imsi tmsi lai =>
    obtain ⟨t, s1, h1, h2⟩ := bind_ok.1 hs
    cases h1
    refine says_pageLoop _ _ (fun r hr hh => ?_) s rc s' h2
    obtain ⟨e, he, hh⟩ := List.any_eq_true.1 hh
    exact .pageCs2 hr ⟨e, he, laiEq_iff.1 hh⟩
  | pagePs2 imsi tmsi rai =>
    obtain ⟨t, s1, h1, h2⟩ := bind_ok.1 hs
    cases h1
    refine says_pageLoop _ _ (fun r hr hh => ?_) s rc s' h2
    obtain ⟨e, he, hh⟩ := List.any_eq_true.1 hh
    exact .pagePs2 hr ⟨e, he, raiEq_iff.1 hh⟩

/-- **C132.** What a user sends when called is what the calls that they make there ask for. -/
theorem C132_users : UserSends env fun p => ∃ t o a u, Makes (env.cb t o) a ∧ CallSays u a p := by
  have key : ∀ (sc : Script) (s s' : State), runScript env sc s = .ok ((), s') → AllSent (fun p => ∃ a u, Makes sc a ∧ CallSays u a p) s s' := by
    intro sc
    induction sc with
    | done => rintro s s' ⟨⟩; exact AllSent.same rfl
    | call a k ih =>
      intro s s' hs
      unfold runScript at hs
      obtain ⟨rc, s1, h1, h2⟩ := bind_ok.1 hs
      refine ((C132_api (h1 : step env (.api a) s = _)).mono ?_).trans ((ih rc s1 s' h2).mono ?_)
      · exact fun p hp => ⟨a, s, .now, hp⟩
      · exact fun p ⟨b, u, hb, hp⟩ => ⟨b, u, .later hb, hp⟩
  exact fun s o s' hs => (key _ s s' hs).mono fun p ⟨a, u, ha, hp⟩ => ⟨s, o, a, u, ha, hp⟩

/-- C132 for whole histories, from any state with pairwise different contexts. -/
theorem says_all : ∀ (ops : List Op) {s s' : State}, Iu.Inv s → run env ops s = .ok ((), s') →
    AllSent (fun p => (∃ a u, (.api a ∈ ops ∨ ∃ t o, Makes (env.cb t o) a) ∧ CallSays u a p) ∨ ∃ op ∈ ops, OwnAnswer env op p) s s'
  | [], s, s', _, hr => by
    cases hr
    exact AllSent.same rfl
  | op :: ops, s, s', hi, hr => by
    unfold run at hr
    obtain ⟨rc, s1, h1, h2⟩ := bind_ok.1 hr
    have a2 := says_all ops (wp_ok (inv_step op s hi) h1) h2
    refine AllSent.trans ?_ (a2.mono ?_)
    · by_cases ho : ∃ a, op = .api a
      · obtain ⟨a, rfl⟩ := ho
        exact (C132_api h1).mono fun p hp => .inl ⟨a, s, .inl (List.mem_cons_self ..), hp⟩
      · refine (says_step hi C132_users (fun a h => ho ⟨a, h⟩) h1).mono ?_
        rintro p (⟨t, o, a, u, ha, hp⟩ | hp)
        · exact .inl ⟨a, u, .inr ⟨t, o, ha⟩, hp⟩
        · exact .inr ⟨op, List.mem_cons_self .., hp⟩
    · rintro p (⟨a, u, ha, hp⟩ | ⟨o, hm, hp⟩)
      · exact .inl ⟨a, u, ha.imp (List.mem_cons_of_mem _) id, hp⟩
      · exact .inr ⟨o, List.mem_cons_of_mem _ hm, hp⟩

/-- **C132.** After any history, every message ever sent is one that a call of the user asked for, made in the history or in a
callback, or the answer to a message that was received. -/
theorem C132_complete {ops : List Op} {s : State} (h0 : run env ops init = .ok ((), s)) {p : Prim} {rc : Int}
    (hp : Out.sap p rc ∈ s.trace) (hm : isMessage (.sap p rc) = true) :
    (∃ a u, (.api a ∈ ops ∨ ∃ t o, Makes (env.cb t o) a) ∧ CallSays u a p) ∨ ∃ op ∈ ops, OwnAnswer env op p := by
  obtain ⟨d, h1, h2⟩ := says_all ops (reach_inv (env := env) (ops := []) rfl) h0
  rw [h1] at hp
  exact h2 p rc (by simpa [init] using hp) hm

/-- **C132.** A user who sends nothing when called: then all that the client sends is the answer that was asked for. -/
theorem C132_silent_user {ops : List Op} {s s' : State} {rc : Int} (h0 : run env ops init = .ok ((), s))
    (h : ∀ s o, env.cb s o = .done) {op : Op} (ho : FromOutside op) (hs : step env op s = .ok (rc, s')) :
    AllSent (OwnAnswer env op) s s' :=
  (C132_own (P := fun _ => False) h0 (fun s o s' hr => by rw [h] at hr; cases hr; exact AllSent.same rfl) ho hs).mono
    fun _ hp => hp.resolve_left id

/-- A context is reached, and the user calls: NAS and paging are sent to where they belong. -/
example : ∃ s, run Demo.env [.connectInd 10 (Demo.addr 1) [1], .api (.tx (some 1) [0xaa] 0), .api (.txRelease 1 none),
      .api (.pagePs [0x31] none 5 7)] init = .ok ((), s) ∧
    decide (s.trace.filter isMessage = [.sap (.dataReq 10 (.dt 0 [0xaa])) 0,
      .sap (.dataReq 10 (.iuRelCmd (.nAS CauseNAS_normal_release))) 0,
      .sap (.unitdataReq (Demo.addr 1) (.paging [0x31] none true 0)) 0]) = true :=
  Demo.after_iff.1 (by decide +kernel)

/-- A RESET and an Iu Release Request, and what is sent. -/
example : (∀ s o, Demo.env.cb s o = .done) ∧
    ∃ s, run Demo.env [.unitdataInd (Demo.addr 1) [1], .connectInd 10 (Demo.addr 1) [1], .dataInd 10 [4], .dataInd 10 [6]] init = .ok ((), s) ∧
      decide (s.trace.filter isMessage = [.sap (.unitdataReq (Demo.addr 1) (.resetAck 0 (some ⟨[0x62, 0xf2, 0x24], 1⟩))) 0,
        .sap (.dataReq 10 (.iuRelCmd (.misc 115))) 0]) = true :=
  ⟨fun _ _ => rfl, Demo.after_iff.1 (by decide +kernel)⟩

end Verif.Props
