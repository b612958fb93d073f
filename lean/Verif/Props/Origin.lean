import Verif.Props.IuFlow
import Verif.Proofs.IuMem
import Verif.Spec.IuOrigin

/-!
# C113: a context says where its connection comes from
-/

namespace Verif.Props
open Verif.Iu Verif.Iu.Spec

variable {env : Env}

/-- Records of RNCs stay and keep their identity. -/
def RncsStay (s s' : State) : Prop := ∀ r ∈ s.rncs, ∃ r' ∈ s'.rncs, r'.ptr = r.ptr ∧ r'.rncId = r.rncId

theorem atom_rncsStay {l : Lbl} {s s' : State} (ha : Atom env l s s') (hi : MInv s) : RncsStay s s' := by
  intro r hr
  cases ha
  case register id rai addr => exact (regState_effect hi.reg id rai addr).2.2.2.1 r hr
  all_goals exact ⟨r, hr, rfl, rfl⟩

theorem path_rncsStay {ls : List Lbl} {s s' : State} (hp : Path env ls s s') (hi : MInv s) : RncsStay s s' := by
  induction hp with
  | nil => exact fun r hr => ⟨r, hr, rfl, rfl⟩
  | cons ha _ ih =>
    intro r hr
    obtain ⟨r1, h1, p1, i1⟩ := atom_rncsStay ha hi r hr
    obtain ⟨r2, h2, p2, i2⟩ := ih (ha.minv hi) r1 h1
    exact ⟨r2, h2, p2.trans p1, i2.trans i1⟩

/-- The two are one context, and say the same about its origin. -/
structure SameOrigin (u u' : Ue) : Prop where
  ptr : u'.ptr = u.ptr
  conn : u'.conn = u.conn
  raId : u'.raId = u.raId
  rnc : u'.rnc = u.rnc

/-- Where the contexts after a path come from: from a context before it, or from an `alloc` in it. -/
theorem path_contexts {ls : List Lbl} {s s' : State} (hp : Path env ls s s') (hi : MInv s) :
    ∀ u' ∈ s'.ues, (∃ u ∈ s.ues, SameOrigin u u') ∨
      (s.next ≤ u'.ptr ∧ Lbl.alloc u'.ptr u'.rnc u'.conn u'.raId ∈ ls) := by
  induction hp with
  | nil => exact fun u hu => .inl ⟨u, hu, rfl, rfl, rfl, rfl⟩
  | @cons l ls a b e ha _ ih =>
    intro u' hu'
    have hnext : a.next ≤ b.next := by
      cases ha
      case register => exact (reg1_inv _ _ hi.reg).2.2.1
      case alloc => exact Nat.le_succ _
      all_goals exact Nat.le_refl _
    rcases ih (ha.minv hi) u' hu' with ⟨v, hv, hs⟩ | ⟨h1, h2⟩
    · have hb : (∃ u ∈ a.ues, SameOrigin u v) ∨ (a.next ≤ v.ptr ∧ l = Lbl.alloc v.ptr v.rnc v.conn v.raId) := by
        cases hg : l.grows with
        | false =>
          obtain ⟨w, hw, hs⟩ := (ha.shrinks hg).ues.mem hv
          exact .inl ⟨w, hw, hs.ptr, hs.conn, hs.raId, hs.rnc⟩
        | true =>
          cases ha
          case cacheAdd => exact .inl ⟨v, hv, rfl, rfl, rfl, rfl⟩
          case alloc =>
            rw [allocSt_ues hi.ues] at hv
            rcases List.mem_cons.1 hv with rfl | hv
            · exact .inr ⟨Nat.le_refl _, rfl⟩
            · exact .inl ⟨v, hv, rfl, rfl, rfl, rfl⟩
          all_goals simp [Lbl.grows] at hg
      rcases hb with ⟨u, hu, h⟩ | ⟨h1, h2⟩
      · exact .inl ⟨u, hu, hs.ptr.trans h.ptr, hs.conn.trans h.conn, hs.raId.trans h.raId, hs.rnc.trans h.rnc⟩
      · refine .inr ⟨hs.ptr ▸ h1, ?_⟩
        rw [hs.ptr, hs.rnc, hs.conn, hs.raId, ← h2]
        exact List.mem_cons_self
    · exact .inr ⟨Nat.le_trans hnext h1, List.mem_cons_of_mem _ h2⟩

/-- One step: every context after it was there before, or was opened by it. -/
theorem step_contexts {op : Op} {s s' : State} {rc : Int} (h : step env op s = .ok (rc, s')) (hi : MInv s) :
    RncsStay s s' ∧ ∀ u' ∈ s'.ues, (∃ u ∈ s.ues, SameOrigin u u') ∨
      ∃ o, opening env s op = some o ∧ u'.conn = o.conn ∧ u'.raId = o.ra ∧
        ∃ r ∈ s'.rncs, r.ptr = u'.rnc ∧ SameRnc r.rncId o.rnc := by
  obtain ⟨ls, hp, hsh⟩ := step_shape h
  refine ⟨path_rncsStay hp hi, fun u' hu' => ?_⟩
  rcases path_contexts hp hi u' hu' with hold | ⟨_, hal⟩
  · exact .inl hold
  · have hno : ∀ l : List Lbl, NoReg l → Lbl.alloc u'.ptr u'.rnc u'.conn u'.raId ∉ l := fun l hl hm => by
      have := hl _ hm; simp [Lbl.isReg] at this
    rcases hsh with ⟨c, a, ies, id, ra, sai, h1, h2, _, pre, es, p, as, hpre, rfl, has, hpp, hes⟩ | ⟨_, hn⟩
    · have hes' : Lbl.alloc u'.ptr u'.rnc u'.conn u'.raId ∉ es := by
        rcases hes with ⟨_, rfl⟩ | ⟨_, as', rfl, has'⟩
        · simp
        · intro hm
          rcases List.mem_cons.1 hm with h | hm
          · cases h
          · exact hno _ has'.noReg hm
      simp only [List.append_assoc, List.mem_append, List.cons_append, List.mem_cons, reduceCtorEq, false_or,
        hno _ hpre.noReg, hes', hno _ has.noReg, List.not_mem_nil, or_false, Lbl.alloc.injEq] at hal
      obtain ⟨_, e2, e3, e4⟩ := hal
      refine .inr ⟨⟨c, id, ra⟩, ?_, e3, e4, ?_⟩
      · unfold opening; rw [h1]; simp only [h2, Option.map_some]
      · rw [List.append_assoc, List.append_assoc] at hp
        obtain ⟨s1, hp1, hp2⟩ := hp.append_inv
        obtain ⟨s2, ha2, hp3⟩ := hp2.cons_inv
        obtain ⟨s3, ha3, hp4⟩ := hp3.cons_inv
        have hk : s1.rncs = s.rncs ∧ s1.next = s.next := hp1.keepRncs hpre.noReg
        have hi1 : MInv s1 := hp1.minv hi
        have hi2 : MInv s2 := ha2.minv hi1
        cases ha2
        have hi3 := ha3.minv hi2
        cases ha3
        obtain ⟨r, hr, hrp, hrs⟩ := (regState_effect (env := env) hi2.reg id (areaOfRa ra) a).2.2.2.2
        obtain ⟨r', hr', hp', hid'⟩ := path_rncsStay hp4 hi3 r hr
        refine ⟨r', hr', ?_, hid' ▸ hrs⟩
        rw [hp', hrp, e2]
        unfold regPtr reg1 rncIdFind
        simp only [hk.1, hk.2]
    · exact absurd hal (hno _ hn)

theorem lastOpening_append {os : List Opening} {o : Opening} {c : ConnId} :
    lastOpening (os ++ [o]) c = if o.conn = c then some o else lastOpening os c := by
  unfold lastOpening
  rw [List.reverse_append]
  simp only [List.reverse_cons, List.reverse_nil, List.nil_append, List.singleton_append, List.find?_cons]
  by_cases h : o.conn = c
  · simp [h]
  · simp [h]

/-- What C113 says of a state, given the messages that opened contexts so far. -/
def FromOpenings (os : List Opening) (s : State) : Prop :=
  ∀ u ∈ s.ues, ∃ o, lastOpening os u.conn = some o ∧ u.raId = o.ra ∧ ∃ r ∈ s.rncs, r.ptr = u.rnc ∧ SameRnc r.rncId o.rnc

/-- An operation opens a context only on a connection that has none. -/
theorem opening_new {s : State} {op : Op} {o : Opening} (h : opening env s op = some o)
    (hf : ∀ c a d, op = .connectInd c a d → ¬ InUse s c) : ∀ u ∈ s.ues, u.conn ≠ o.conn := by
  unfold opening at h
  cases hi : initialUe env s op with
  | none => rw [hi] at h; cases h
  | some x =>
    obtain ⟨c, a, ies⟩ := x
    rw [hi] at h
    simp only at h
    obtain ⟨y, _, rfl⟩ := Option.map_eq_some_iff.1 h
    obtain ⟨d, m, hfp, _⟩ := initialUe_some hi
    intro u hu hc
    simp only at hc
    cases op with
    | connectInd c' a' d' =>
      unfold firstPayload at hfp
      simp only at hfp
      split at hfp
      · cases hfp
      · injection hfp with hfp
        injection hfp with hfp _
        subst hfp
        exact hf c' a' d' rfl (.inl ⟨u, hu, hc⟩)
    | dataInd c' d' =>
      unfold firstPayload at hfp
      simp only at hfp
      split at hfp
      · cases hfp
      · rename_i hn
        obtain ⟨e, _, he⟩ := Option.map_eq_some_iff.1 hfp
        injection he with he _
        subst he
        exact hn ⟨u, hu, hc⟩
    | _ => cases hfp

theorem run_fromOpenings {ops : List Op} {s s' : State} {os : List Opening} (h : run env ops s = .ok ((), s'))
    (hi : MInv s) (hf : FreshConns env s ops) (ho : FromOpenings os s) :
    FromOpenings (os ++ openings env s ops) s' := by
  induction ops generalizing s os with
  | nil => cases h; simpa [openings] using ho
  | cons op ops ih =>
    obtain ⟨rc, s1, h1, h2⟩ := run_cons h
    obtain ⟨ls, hp, _⟩ := step_shape h1
    obtain ⟨hst, hctx⟩ := step_contexts h1 hi
    unfold openings
    rw [h1]
    simp only
    rw [← List.append_assoc]
    refine ih h2 (hp.minv hi) (hf.2 rc s1 h1) fun u' hu' => ?_
    cases hop : opening env s op with
    | none =>
      simp only [Option.toList_none, List.append_nil]
      rcases hctx u' hu' with ⟨u, hu, hs⟩ | ⟨o, h, _⟩
      · obtain ⟨o, h3, h4, r, hr, h5, h6⟩ := ho u hu
        obtain ⟨r', hr', p', i'⟩ := hst r hr
        exact ⟨o, hs.conn ▸ h3, hs.raId.trans h4, r', hr', p'.trans (h5.trans hs.rnc.symm), i' ▸ h6⟩
      · rw [hop] at h; cases h
    | some o =>
      simp only [Option.toList_some, lastOpening_append]
      rcases hctx u' hu' with ⟨u, hu, hs⟩ | ⟨o', h, h3, h4, h5⟩
      · obtain ⟨o', h3, h4, r, hr, h5, h6⟩ := ho u hu
        obtain ⟨r', hr', p', i'⟩ := hst r hr
        refine ⟨o', ?_, hs.raId.trans h4, r', hr', p'.trans (h5.trans hs.rnc.symm), i' ▸ h6⟩
        rw [if_neg, hs.conn]
        · exact h3
        · rw [hs.conn]; exact fun e => opening_new hop hf.1 u hu e.symm
      · rw [hop] at h
        cases h
        exact ⟨o, if_pos h3.symm, h4, h5⟩

/-- **C113.** At any time, whatever has happened and whatever the callbacks of the user do: the location in a context is that
of the latest Initial UE Message on its connection, and its RNC is the one named there. -/
theorem C113_origin {ops : List Op} {s : State} (h : run env ops init = .ok ((), s)) (hf : FreshConns env init ops) :
    ∀ u ∈ s.ues, ∃ o, lastOpening (openings env init ops) u.conn = some o ∧ u.raId = o.ra ∧
      ∃ r ∈ s.rncs, r.ptr = u.rnc ∧ SameRnc r.rncId o.rnc := by
  have := run_fromOpenings (os := []) h MInv.init hf (fun u hu => by cases hu)
  simpa [FromOpenings] using this

theorem run_contexts {ops : List Op} {s s' : State} (h : run env ops s = .ok ((), s')) (hi : MInv s) :
    RncsStay s s' ∧ ∀ u ∈ s.ues, ∀ u' ∈ s'.ues, u'.ptr = u.ptr → SameOrigin u u' := by
  obtain ⟨ls, hp⟩ := run_path h
  refine ⟨path_rncsStay hp hi, fun u hu u' hu' he => ?_⟩
  rcases path_contexts hp hi u' hu' with ⟨v, hv, hs⟩ | ⟨hge, _⟩
  · obtain rfl := ue_inj hi.ues.nodup hv hu (hs.ptr.symm.trans he)
    exact hs
  · have := hi.ues.lt u hu
    rw [← he] at this
    exact absurd this (Nat.not_lt.2 hge)

/-- **C113.** Nothing that happens later changes it: as long as a context is there, its connection, location and RNC stay the
same, and so does the identity of that RNC, whatever messages come on whichever connection. -/
theorem C113_unchanged {ops later : List Op} {s s' : State} {u u' : Ue} (h : run env ops init = .ok ((), s))
    (h' : run env later s = .ok ((), s')) (hu : u ∈ s.ues) (hu' : u' ∈ s'.ues) (he : u'.ptr = u.ptr) :
    u'.conn = u.conn ∧ u'.raId = u.raId ∧ u'.rnc = u.rnc ∧
    ∃ r ∈ s.rncs, ∃ r' ∈ s'.rncs, r.ptr = u.rnc ∧ r'.ptr = u'.rnc ∧ r'.rncId = r.rncId := by
  obtain ⟨h1, h2⟩ := run_contexts h' (run_minv h)
  have hs := h2 u hu u' hu' he
  obtain ⟨r, hr, hrp⟩ := (reach_inv h).ueRnc u hu
  obtain ⟨r', hr', p', i'⟩ := h1 r hr
  exact ⟨hs.conn, hs.raId, hs.rnc, r, hr, r', hr', hrp, (p'.trans hrp).trans hs.rnc.symm, i'⟩

/-- Two connections; a Direct Transfer on the first one reports another location, of which the user of the client is told while
the context keeps the one it was opened with; the second context is freed, and its connection id used again by another RNC. -/
def originDemo : List Op :=
  [.connectInd 10 (Demo.addr 1) [1], .connectInd 11 (Demo.addr 2) [2], .dataInd 10 [4], .api (.freeUe (some 3)),
    .connectInd 11 (Demo.addr 1) [3]]

example : FreshConns Demo.env init originDemo ∧
    openings Demo.env init originDemo =
      [⟨10, ⟨⟨262, 42, false⟩, 1⟩, ⟨262, 42, false, 5, 7⟩⟩, ⟨11, ⟨⟨262, 42, false⟩, 2⟩, ⟨262, 42, false, 5, 7⟩⟩,
        ⟨11, ⟨⟨262, 42, false⟩, 1⟩, ⟨262, 42, false, 5, 0xff⟩⟩] ∧
    ∃ s, run Demo.env originDemo init = .ok ((), s) ∧
      decide (s.ues.map (fun u => (u.conn, u.raId)) = [(11, ⟨262, 42, false, 5, 0xff⟩), (10, ⟨262, 42, false, 5, 7⟩)] ∧
        (recvs s.trace).map (fun x => (x.2.1, x.2.2.2.1)) =
          [(10, some ⟨262, 42, false, 5, 7⟩), (11, some ⟨262, 42, false, 5, 7⟩), (10, some ⟨262, 42, false, 5, 9⟩),
            (11, some ⟨262, 42, false, 5, 0xff⟩)]) = true :=
  ⟨Demo.runOk_fresh (Demo.runOk_sound (by decide +kernel)), by decide +kernel, Demo.after_iff.1 (by decide +kernel)⟩

end Verif.Props
