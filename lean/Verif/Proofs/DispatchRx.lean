import Verif.Proofs.Dispatch

/-!
# The receive functions, case by case
-/

namespace Verif.Rx
open Verif.Aper Verif.Ie Verif.Ie.Spec Verif.Rx.Spec Verif.Gen.Ranap

theorem holds_of_dec {m : MsgDef} {l : List Ie} {s : Struct} (h : DecSpec m l 0 s) : Holds m l s := by
  refine ⟨?_, h.bit rfl, fun i hi => h.rest rfl i hi⟩
  intro k d hr
  rw [h.val rfl k d hr]
  unfold lastVal
  cases lastWith d.id l <;> rfl

theorem carries_inj {m : MsgDef} {value : Bytes} {l l' : List Ie} (h : Carries m value l) (h' : Carries m value l') :
    l = l' := by
  unfold Carries at h h'
  have := h.symm.trans h'
  simp only [Option.some.injEq] at this
  have := congrArg elements this
  rw [elements_container, elements_container] at this
  simpa using this

/-- The trace of a message whose handler was called. -/
def delivered (n : Nat) (msg : Message) (s : Struct) : List (Ev Message) :=
  pre n ++ .call msg :: (blocks s).map .free

theorem delivered_of {m : MsgDef} {l : List Ie} {n : Nat} {s : Struct} {p c crit : Nat} (hd : DecSpec m l 0 s)
    (hh : Held m l n true s) : Delivered (delivered n ⟨p, c, crit, some (m.name, s)⟩ s) p c crit m l := by
  obtain ⟨live, e, hp⟩ := replay_pre n
  refine ⟨s, pre n, live, rfl, ?_, holds_of_dec hd, hh.occ.own, e, hh.nodup, ?_⟩
  · unfold delivered
    rw [calls_append, calls_pre]
    have : calls (Ev.call ⟨p, c, crit, some (m.name, s)⟩ :: (blocks s).map Ev.free) =
        [⟨p, c, crit, some (m.name, s)⟩] ++ calls ((blocks s).map (Ev.free (α := Message))) := rfl
    rw [this, calls_frees]
    rfl
  · intro b hb
    rw [hp.mem_iff, List.mem_range'_1]
    have := hh.sub b hb
    omega

/-- What is left after a delivered message. -/
theorem replay_delivered {m : MsgDef} {l : List Ie} {n : Nat} {s : Struct} {ok : Bool} {msg : Message}
    (hh : Held m l n ok s) : ∃ rest, replay [] (delivered n msg s) = some rest ∧
      rest.length = n - (blocks s).length ∧ (blocks s).length ≤ n := by
  obtain ⟨live, e, hp⟩ := replay_pre n
  obtain ⟨rest, e', hl, hle⟩ := replay_rest hh hp
  refine ⟨rest, ?_, hl, hle⟩
  unfold delivered
  rw [replay_append, e]
  exact e'

/-- The trace of a message that was decoded in part and freed. -/
theorem replay_freed {m : MsgDef} {l : List Ie} {n : Nat} {s : Struct} {ok : Bool}
    (hh : Held m l n ok s) : ∃ rest, replay [] (pre n ++ (blocks s).map .free) = some rest ∧
      rest.length = n - (blocks s).length ∧ (blocks s).length ≤ n := by
  obtain ⟨live, e, hp⟩ := replay_pre n
  obtain ⟨rest, e', hl, hle⟩ := replay_rest hh hp
  refine ⟨rest, ?_, hl, hle⟩
  rw [replay_append, e]
  exact e'

theorem clean_iff {n : Nat} {tr : List (Ev Message)} {k : Nat} {rest : List Nat} (e : replay [] tr = some rest)
    (hl : rest.length = n - k) (hle : k ≤ n) : Clean tr ↔ k = n := by
  unfold Clean
  rw [e]
  constructor
  · intro h
    cases h
    simp only [List.length_nil] at hl
    omega
  · intro h
    have : rest.length = 0 := by omega
    rw [List.length_eq_zero_iff.1 this]

/-- All outcomes of a receive function: return code and trace.  `keeps` is the function that frees
nothing if decoding fails. -/
inductive Fate (keeps : Bool) (sw : Switch) (dflt : Int) (data : Bytes) : Int → List (Ev Message) → Prop
  | garbage (h : decodePdu data = none) : Fate keeps sw dflt data (-1) []
  | unknown {p c crit : Nat} {value : Bytes} {msg : Message} (h : decodePdu data = some (p, c, crit, value))
      (hm : sw.at p c = none) (h1 : msg.direction = p) (h2 : msg.msg = none) :
      Fate keeps sw dflt data dflt ([.alloc 0, .free 0] ++ if dflt = 0 then [.call msg] else [])
  | broken {p c crit : Nat} {value : Bytes} {m : MsgDef} (h : decodePdu data = some (p, c, crit, value))
      (hm : sw.at p c = some m) (h1 : decode m.ty value = none) :
      Fate keeps sw dflt data (-1) [.alloc 0, .free 0]
  | failed {p c crit : Nat} {value : Bytes} {m : MsgDef} {l : List Ie} {n : Nat} {s : Struct}
      (h : decodePdu data = some (p, c, crit, value)) (hm : sw.at p c = some m) (hc : Carries m value l)
      (hd : DecSpec m l (-1) s) (hh : Held m l n false s) :
      Fate keeps sw dflt data (-1) (pre n ++ if keeps then [] else (blocks s).map .free)
  | called {p c crit : Nat} {value : Bytes} {m : MsgDef} {l : List Ie} {n : Nat} {s : Struct}
      (h : decodePdu data = some (p, c, crit, value)) (hm : sw.at p c = some m) (hc : Carries m value l)
      (hd : DecSpec m l 0 s) (hh : Held m l n true s) :
      Fate keeps sw dflt data 0 (delivered n ⟨p, c, crit, some (m.name, s)⟩ s)

theorem cnRxCo_fate (data : Bytes) :
    Fate true cnCoRx (-1) data (cnRxCo data Mem.init).1 (cnRxCo data Mem.init).2.trace := by
  unfold cnRxCo
  have h := decode2_out (sw := cnCoRx) (fun p c m => cnCo_good) (-1) data
  revert h
  generalize decode2 cnCoRx (-1) data Mem.init = r
  intro h
  cases h with
  | garbage h => exact .garbage h
  | unknown h hm h1 h2 h3 h4 => exact .unknown h hm h1 h2
  | broken h hm h1 => exact .broken h hm h1
  | elements h hm hc hd hh =>
    rename_i rc s
    rcases hd.rc_cases with rfl | rfl
    · simp only [ne_eq, not_true_eq_false, if_false]
      rw [freeMsg_some cnCo_free hm (cnCo_good hm) hh.len hh.occ]
      simp only [Mem.emit, List.append_assoc, List.cons_append, List.nil_append]
      exact .called h hm hc hd (by simpa using hh)
    · simp only [ne_eq, Int.reduceNeg, Int.reduceEq, not_false_eq_true, if_true]
      have := Fate.failed (keeps := true) (dflt := -1) h hm hc hd (by simpa using hh)
      simpa using this

theorem rxAlways_fate {sw fsw : Switch} (hf : ∀ p, fsw p = sw p) (hg : ∀ p c m, sw.at p c = some m → Good m)
    (dflt : Int) (data : Bytes) {r : (Int × Message) × Mem Message} (h : Out sw dflt data r) :
    Fate false sw dflt data r.1.1
      (freeMsg fsw r.1.2 (if r.1.1 = 0 then r.2.emit (.call r.1.2) else r.2)).trace := by
  cases h with
  | garbage h =>
    rw [freeMsg_none (by rfl)]
    exact .garbage h
  | unknown h hm h1 h2 h3 h4 =>
    rw [freeMsg_none h2]
    have := Fate.unknown (keeps := false) (dflt := dflt) h hm h1 h2
    simp only
    by_cases hd : dflt = 0
    · rw [if_pos hd] at this ⊢; exact this
    · rw [if_neg hd] at this ⊢; simpa using this
  | broken h hm h1 =>
    rename_i p c crit value m
    simp only [Int.reduceNeg, Int.reduceEq, if_false]
    rw [freeMsg_some hf hm (hg _ _ _ hm) (by simp [MsgDef.zero]) (occ_zero m), blocks_zero]
    exact .broken h hm h1
  | elements h hm hc hd hh =>
    rename_i rc s
    simp only
    rcases hd.rc_cases with rfl | rfl
    · rw [if_pos rfl, freeMsg_some hf hm (hg _ _ _ hm) hh.len hh.occ]
      simp only [Mem.emit, List.append_assoc, List.cons_append, List.nil_append]
      exact .called h hm hc hd (by simpa using hh)
    · simp only [Int.reduceNeg, Int.reduceEq, if_false]
      rw [freeMsg_some hf hm (hg _ _ _ hm) hh.len hh.occ]
      have := Fate.failed (keeps := false) (dflt := dflt) h hm hc hd (by simpa using hh)
      simpa using this

theorem cnRxCl_fate (data : Bytes) :
    Fate false cnClRx 0 data (cnRxCl data Mem.init).1 (cnRxCl data Mem.init).2.trace :=
  rxAlways_fate cnCl_free (fun _ _ _ => cnCl_good) 0 data (decode2_out (fun _ _ _ => cnCl_good) 0 data)

theorem ranRxCo_fate (data : Bytes) :
    Fate false ranCoRx (-1) data (ranRxCo data Mem.init).1 (ranRxCo data Mem.init).2.trace :=
  rxAlways_fate ranCo_free (fun _ _ _ => ranCo_good) (-1) data (decode2_out (fun _ _ _ => ranCo_good) (-1) data)

/-! ## Consequences -/

theorem fate_decodable {keeps : Bool} {sw : Switch} {dflt : Int} {data : Bytes} {rc : Int} {tr : List (Ev Message)}
    {msgs : Nat → Nat → Option MsgDef} (hsw : ∀ p c, sw.at p c = msgs p c) (hdf : dflt ≠ 0)
    (h : Fate keeps sw dflt data rc tr) : (rc = 0 ↔ Decodable msgs data) ∧ (¬ Decodable msgs data → calls tr = []) := by
  cases h with
  | garbage h =>
    refine ⟨⟨by simp, ?_⟩, fun _ => rfl⟩
    rintro ⟨p, c, crit, m, l, ⟨value, h1, -⟩, -⟩
    rw [isPdu_iff] at h1
    rw [h] at h1; cases h1
  | unknown h hm h1 h2 =>
    refine ⟨⟨fun h0 => absurd h0 hdf, ?_⟩, fun _ => by rw [if_neg hdf]; rfl⟩
    rintro ⟨p, c, crit, m, l, ⟨value, h1, h2, -⟩, -⟩
    rw [isPdu_iff] at h1
    rw [h] at h1; cases h1
    rw [hsw, h2] at hm; cases hm
  | broken h hm h1 =>
    refine ⟨⟨by simp, ?_⟩, fun _ => rfl⟩
    rintro ⟨p, c, crit, m, l, ⟨value, h3, h4, h5⟩, -⟩
    rw [isPdu_iff] at h3
    rw [h] at h3; cases h3
    rw [hsw, h4] at hm; cases hm
    unfold Carries at h5
    rw [h1] at h5; cases h5
  | failed h hm hc hd hh =>
    refine ⟨⟨by simp, ?_⟩, fun _ => ?_⟩
    · rintro ⟨p, c, crit, m, l, ⟨value, h3, h4, h5⟩, h6⟩
      rw [isPdu_iff] at h3
      rw [h] at h3; cases h3
      rw [hsw, h4] at hm; cases hm
      have := carries_inj hc h5
      subst this
      have := hd.ok_iff.2 h6
      cases this
    · rw [calls_append, calls_pre]
      cases keeps
      · simp [calls_frees]
      · rfl
  | called h hm hc hd hh =>
    refine ⟨⟨fun _ => ⟨_, _, _, _, _, ⟨_, isPdu_iff.2 h, by rw [← hsw]; exact hm, hc⟩, hd.ok_iff.1 rfl⟩, fun _ => rfl⟩, fun hn => ?_⟩
    exact absurd ⟨_, _, _, _, _, ⟨_, isPdu_iff.2 h, by rw [← hsw]; exact hm, hc⟩, hd.ok_iff.1 rfl⟩ hn

theorem fate_delivered {keeps : Bool} {sw : Switch} {dflt : Int} {data : Bytes} {rc : Int} {tr : List (Ev Message)}
    {msgs : Nat → Nat → Option MsgDef} (hsw : ∀ p c, sw.at p c = msgs p c)
    (h : Fate keeps sw dflt data rc tr) {p c crit : Nat} {m : MsgDef} {l : List Ie} (hp : Pdu msgs data p c crit m l)
    (hv : ∀ ie ∈ l, Valid m ie) : rc = 0 ∧ Delivered tr p c crit m l := by
  obtain ⟨value, g1, g2, g3⟩ := hp
  rw [isPdu_iff] at g1
  cases h with
  | garbage h => rw [h] at g1; cases g1
  | unknown h hm h1 h2 => rw [h] at g1; cases g1; rw [hsw, g2] at hm; cases hm
  | broken h hm h1 =>
    rw [h] at g1; cases g1; rw [hsw, g2] at hm; cases hm
    unfold Carries at g3; rw [h1] at g3; cases g3
  | failed h hm hc hd hh =>
    rw [h] at g1; cases g1; rw [hsw, g2] at hm; cases hm
    have := carries_inj hc g3
    subst this
    have := hd.ok_iff.2 hv
    cases this
  | called h hm hc hd hh =>
    rw [h] at g1; cases g1; rw [hsw, g2] at hm; cases hm
    have := carries_inj hc g3
    subst this
    exact ⟨rfl, delivered_of hd hh⟩

theorem fate_noBadFree {keeps : Bool} {sw : Switch} {dflt : Int} {data : Bytes} {rc : Int} {tr : List (Ev Message)}
    (h : Fate keeps sw dflt data rc tr) : NoBadFree tr := by
  unfold NoBadFree
  cases h with
  | garbage h => simp [replay]
  | unknown h hm h1 h2 =>
    by_cases hd : dflt = 0
    · rw [if_pos hd]; simp [replay]
    · rw [if_neg hd]; simp [replay]
  | broken h hm h1 => simp [replay]
  | failed h hm hc hd hh =>
    cases keeps with
    | true =>
      obtain ⟨live, e, -⟩ := replay_pre ‹Nat›
      rename_i n s
      obtain ⟨live, e, -⟩ := replay_pre n
      simp only [if_true, List.append_nil]
      rw [e]; simp
    | false =>
      obtain ⟨rest, e, -⟩ := replay_freed hh
      simp only [Bool.false_eq_true, if_false]
      rw [e]; simp
  | called h hm hc hd hh =>
    obtain ⟨rest, e, -⟩ := replay_delivered (msg := _) hh
    rw [e]; simp

theorem fate_clean {sw : Switch} {dflt : Int} {data : Bytes} {rc : Int} {tr : List (Ev Message)} {keeps : Bool}
    {msgs : Nat → Nat → Option MsgDef} (hsw : ∀ p c, sw.at p c = msgs p c)
    (h : Fate keeps sw dflt data rc tr) (hk : keeps = true → rc = 0)
    (hn : ∀ p c crit m l, Pdu msgs data p c crit m l → NoRepeatedOwner m l) : Clean tr := by
  cases h with
  | garbage h => rfl
  | unknown h hm h1 h2 =>
    unfold Clean
    by_cases hd : dflt = 0
    · rw [if_pos hd]; simp [replay]
    · rw [if_neg hd]; simp [replay]
  | broken h hm h1 => simp [Clean, replay]
  | failed h hm hc hd hh =>
    cases keeps with
    | true => have := hk rfl; cases this
    | false =>
      obtain ⟨rest, e, hl, hle⟩ := replay_freed hh
      simp only [Bool.false_eq_true, if_false]
      rw [clean_iff e hl hle]
      exact hh.kept (hn _ _ _ _ _ ⟨_, isPdu_iff.2 h, by rw [← hsw]; exact hm, hc⟩)
  | called h hm hc hd hh =>
    obtain ⟨rest, e, hl, hle⟩ := replay_delivered (msg := _) hh
    rw [clean_iff e hl hle]
    exact hh.kept (hn _ _ _ _ _ ⟨_, isPdu_iff.2 h, by rw [← hsw]; exact hm, hc⟩)

theorem fate_clean_iff {sw : Switch} {dflt : Int} {data : Bytes} {rc : Int} {tr : List (Ev Message)} {keeps : Bool}
    {msgs : Nat → Nat → Option MsgDef} (hsw : ∀ p c, sw.at p c = msgs p c)
    (h : Fate keeps sw dflt data rc tr) {p c crit : Nat} {m : MsgDef} {l : List Ie} (hp : Pdu msgs data p c crit m l)
    (hv : ∀ ie ∈ l, Valid m ie) : Clean tr ↔ NoRepeatedOwner m l := by
  obtain ⟨value, g1, g2, g3⟩ := hp
  rw [isPdu_iff] at g1
  cases h with
  | garbage h => rw [h] at g1; cases g1
  | unknown h hm h1 h2 => rw [h] at g1; cases g1; rw [hsw, g2] at hm; cases hm
  | broken h hm h1 =>
    rw [h] at g1; cases g1; rw [hsw, g2] at hm; cases hm
    unfold Carries at g3; rw [h1] at g3; cases g3
  | failed h hm hc hd hh =>
    rw [h] at g1; cases g1; rw [hsw, g2] at hm; cases hm
    have := carries_inj hc g3
    subst this
    have := hd.ok_iff.2 hv
    cases this
  | called h hm hc hd hh =>
    rw [h] at g1; cases g1; rw [hsw, g2] at hm; cases hm
    have := carries_inj hc g3
    subst this
    obtain ⟨rest, e, hl, hle⟩ := replay_delivered (msg := ⟨p, c, crit, some (m.name, _)⟩) hh
    rw [clean_iff e hl hle]
    exact ⟨hh.lost rfl, hh.kept⟩

theorem range'_nil {n : Nat} : List.Perm [] (List.range' 2 n) ↔ n = 0 := by
  constructor
  · intro h; have := h.length_eq; simpa using this.symm
  · rintro rfl; exact List.Perm.refl _

theorem fate_leak {sw : Switch} {dflt : Int} {data : Bytes} {rc : Int} {tr : List (Ev Message)}
    {msgs : Nat → Nat → Option MsgDef} (hsw : ∀ p c, sw.at p c = msgs p c)
    (h : Fate true sw dflt data rc tr) {p c crit : Nat} {m : MsgDef} {l : List Ie} (hp : Pdu msgs data p c crit m l)
    (hv : ¬ ∀ ie ∈ l, Valid m ie) : ∃ l1 x l2, l = l1 ++ x :: l2 ∧ (∀ ie ∈ l1, Valid m ie) ∧ ¬ Valid m x ∧
      (Clean tr ↔ ∀ ie ∈ l1, ¬ OwnsMemory m ie) := by
  obtain ⟨value, g1, g2, g3⟩ := hp
  rw [isPdu_iff] at g1
  cases h with
  | garbage h => rw [h] at g1; cases g1
  | unknown h hm h1 h2 => rw [h] at g1; cases g1; rw [hsw, g2] at hm; cases hm
  | broken h hm h1 =>
    rw [h] at g1; cases g1; rw [hsw, g2] at hm; cases hm
    unfold Carries at g3; rw [h1] at g3; cases g3
  | failed h hm hc hd hh =>
    rename_i n s
    rw [h] at g1; cases g1; rw [hsw, g2] at hm; cases hm
    have := carries_inj hc g3
    subst this
    obtain ⟨l1, x, l2, e1, e2, e3, e4⟩ := hh.fails rfl
    refine ⟨l1, x, l2, e1, e2, e3, ?_⟩
    rw [← e4]
    obtain ⟨live, e, hp⟩ := replay_pre n
    simp only [if_true, List.append_nil]
    unfold Clean
    rw [e]
    constructor
    · intro h0; cases h0; exact range'_nil.1 hp
    · rintro rfl
      rw [show live = [] from List.Perm.eq_nil hp]
  | called h hm hc hd hh =>
    rw [h] at g1; cases g1; rw [hsw, g2] at hm; cases hm
    have := carries_inj hc g3
    subst this
    exact absurd (hd.ok_iff.1 rfl) hv

theorem fate_left {keeps : Bool} {sw : Switch} {dflt : Int} {data : Bytes} {rc : Int} {tr : List (Ev Message)}
    {msgs : Nat → Nat → Option MsgDef} (hsw : ∀ p c, sw.at p c = msgs p c) (h : Fate keeps sw dflt data rc tr) :
    ∃ live, replay [] tr = some live ∧
      (∀ p c crit m l good rest, Pdu msgs data p c crit m l → SplitAtBad m l good rest →
        live.length = if keeps && !rest.isEmpty then owners m good else replaced m good) ∧
      ((∀ p c crit m l, ¬ Pdu msgs data p c crit m l) → live = []) := by
  cases h with
  | garbage h =>
    refine ⟨[], rfl, ?_, fun _ => rfl⟩
    rintro p c crit m l good rest ⟨value, g1, -⟩
    rw [isPdu_iff] at g1
    rw [h] at g1; cases g1
  | unknown h hm h1 h2 =>
    refine ⟨[], ?_, ?_, fun _ => rfl⟩
    · by_cases hd : dflt = 0
      · rw [if_pos hd]; simp [replay]
      · rw [if_neg hd]; simp [replay]
    · rintro p c crit m l good rest ⟨value, g1, g2, -⟩
      rw [isPdu_iff] at g1
      rw [h] at g1; cases g1; rw [hsw, g2] at hm; cases hm
  | broken h hm h1 =>
    refine ⟨[], by simp [replay], ?_, fun _ => rfl⟩
    rintro p c crit m l good rest ⟨value, g1, g2, g3⟩
    rw [isPdu_iff] at g1
    rw [h] at g1; cases g1; rw [hsw, g2] at hm; cases hm
    unfold Carries at g3; rw [h1] at g3; cases g3
  | failed h hm hc hd hh =>
    rename_i p₀ c₀ crit₀ value₀ m₀ l₀ n s
    obtain ⟨good, rest, hs, h1, h2, h3⟩ := hh.count
    have key : ∀ live : List Nat, live.length = (if keeps && !rest.isEmpty then owners m₀ good else replaced m₀ good) →
        replay [] (pre n ++ if keeps then [] else (blocks s).map .free) = some live →
        ∃ live, replay [] (pre n ++ if keeps then [] else (blocks s).map .free) = some live ∧
        (∀ p c crit m l good rest, Pdu msgs data p c crit m l → SplitAtBad m l good rest →
          live.length = if keeps && !rest.isEmpty then owners m good else replaced m good) ∧
        ((∀ p c crit m l, ¬ Pdu msgs data p c crit m l) → live = []) := by
      intro live hl hr
      refine ⟨live, hr, ?_, fun hn => absurd ⟨_, isPdu_iff.2 h, by rw [← hsw]; exact hm, hc⟩ (hn _ _ _ _ _)⟩
      rintro p c crit m l good' rest' ⟨value, g1, g2, g3⟩ hs'
      rw [isPdu_iff] at g1
      rw [h] at g1; cases g1; rw [hsw, g2] at hm; cases hm
      have := carries_inj hc g3
      subst this
      obtain ⟨rfl, rfl⟩ := split_unique hs hs'
      exact hl
    cases keeps with
    | true =>
      obtain ⟨live, e, hp⟩ := replay_pre n
      refine key live ?_ (by simpa using e)
      have := hp.length_eq
      rw [List.length_range'] at this
      rw [← h1]
      simp only [Bool.not_false, Bool.and_self, if_true]
      omega
    | false =>
      obtain ⟨live, e, hl, hle⟩ := replay_freed hh
      refine key live ?_ (by simpa using e)
      simp only [Bool.false_and, Bool.false_eq_true, if_false]
      omega
  | called h hm hc hd hh =>
    rename_i n s
    obtain ⟨good, rest, hs, h1, h2, h3⟩ := hh.count
    obtain ⟨live, e, hl, hle⟩ := replay_delivered (msg := _) hh
    refine ⟨live, e, ?_, fun hn => absurd ⟨_, isPdu_iff.2 h, by rw [← hsw]; exact hm, hc⟩ (hn _ _ _ _ _)⟩
    rintro p c crit m l good' rest' ⟨value, g1, g2, g3⟩ hs'
    rw [isPdu_iff] at g1
    rw [h] at g1; cases g1; rw [hsw, g2] at hm; cases hm
    have := carries_inj hc g3
    subst this
    obtain ⟨rfl, rfl⟩ := split_unique hs hs'
    rw [← h1]
    simp only [Bool.not_true, Bool.and_false, Bool.false_eq_true, if_false]
    omega

theorem fate_calls {keeps : Bool} {sw : Switch} {dflt : Int} {data : Bytes} {rc : Int} {tr : List (Ev Message)}
    {msgs : Nat → Nat → Option MsgDef} (hsw : ∀ p c, sw.at p c = msgs p c)
    (h : Fate keeps sw dflt data rc tr) {msg : Message} (hm : msg ∈ calls tr) :
    ∃ p c crit value, decodePdu data = some (p, c, crit, value) ∧ msg.direction = p ∧
      ((msgs p c = none ∧ msg.msg = none) ∨
       ∃ m s, msgs p c = some m ∧ msg = ⟨p, c, crit, some (m.name, s)⟩) := by
  cases h with
  | garbage h => cases hm
  | unknown h hu h1 h2 =>
    by_cases hd : dflt = 0
    · rw [if_pos hd] at hm
      simp [calls] at hm
      subst hm
      exact ⟨_, _, _, _, h, h1, Or.inl ⟨by rw [← hsw]; exact hu, h2⟩⟩
    · rw [if_neg hd] at hm; simp [calls] at hm
  | broken h hu h1 => simp [calls] at hm
  | failed h hu hc hd hh =>
    rw [calls_append, calls_pre] at hm
    cases keeps
    · simp [calls_frees] at hm
    · simp [calls] at hm
  | called h hu hc hd hh =>
    rename_i p c crit value m l n s
    unfold delivered at hm
    rw [calls_append, calls_pre] at hm
    have : calls (Ev.call ⟨p, c, crit, some (m.name, s)⟩ :: (blocks s).map Ev.free) =
        [⟨p, c, crit, some (m.name, s)⟩] ++ calls ((blocks s).map (Ev.free (α := Message))) := rfl
    rw [this, calls_frees] at hm
    simp only [List.append_nil, List.nil_append, List.mem_singleton] at hm
    subst hm
    exact ⟨p, c, crit, value, h, rfl, Or.inr ⟨m, s, by rw [← hsw]; exact hu, rfl⟩⟩

end Verif.Rx
