import Verif.Proofs.IuFrame

/-!
# What cannot happen any more: freed contexts, released contexts, unused connections
-/

namespace Verif.Iu
open Spec

variable {env : Env}

/-- Handle `p` was used and is gone, with its timer. -/
structure Gone (p : Ptr) (s : State) : Prop where
  lt : p < s.next
  ues : ∀ u ∈ s.ues, u.ptr ≠ p
  timers : ∀ t ∈ s.timers, t.1 ≠ p

theorem reg1_next (s : State) (id : RncId) (addr : SccpAddr) : s.next ≤ (reg1 env s id addr).2.2 := by
  unfold reg1
  split
  · exact Nat.le_refl _
  · exact Nat.le_succ _

theorem Atom.gone {l : Lbl} {s s' : State} {p : Ptr} (h : Atom env l s s') (hg : Gone p s) :
    Gone p s' ∧ ∃ d, s'.trace = s.trace ++ d ∧ ∀ o ∈ d, target o ≠ some p := by
  cases h
  case sap => exact ⟨⟨hg.lt, hg.ues, hg.timers⟩, [_], rfl, by simp [target]⟩
  case free u hu =>
    refine ⟨⟨hg.lt, fun v hv => hg.ues v (List.mem_filter.1 hv).1, fun t ht => hg.timers t (List.mem_filter.1 ht).1⟩,
      [_], rfl, by simp [target]⟩
  case release u c t hu =>
    have hne := hg.ues u (List.mem_of_find?_eq_some hu)
    refine ⟨⟨hg.lt, ?_, ?_⟩, [_], rfl, by simp [target]⟩
    · intro v hv
      obtain ⟨w, hw, rfl⟩ := List.mem_map.1 (show v ∈ s.ues.map _ from hv)
      split <;> exact hg.ues w hw
    · intro x hx
      rcases List.mem_cons.1 (show x ∈ (u.ptr, _) :: s.timers.filter _ from hx) with rfl | hx
      · exact hne
      · exact hg.timers x (List.mem_filter.1 hx).1
  case cbRecv q c nas ra sai hq =>
    refine ⟨⟨hg.lt, hg.ues, hg.timers⟩, [_], rfl, ?_⟩
    obtain ⟨u, hu, rfl, _⟩ := hq
    intro o ho
    rw [List.mem_singleton.1 ho]
    intro h; injection h with h
    exact hg.ues u hu h
  case cbEvent u e _ hn hu =>
    refine ⟨⟨hg.lt, hg.ues, hg.timers⟩, [_], rfl, ?_⟩
    intro o ho
    rw [List.mem_singleton.1 ho]
    intro h; injection h with h
    exact hg.ues u (List.mem_of_find?_eq_some hu) h
  case cbArea => exact ⟨⟨hg.lt, hg.ues, hg.timers⟩, [_], rfl, by simp [target]⟩
  case register id rai addr =>
    exact ⟨⟨Nat.lt_of_lt_of_le hg.lt (reg1_next s id addr), hg.ues, hg.timers⟩, [], by simp [regState], by simp⟩
  case alloc r c ra =>
    refine ⟨⟨Nat.lt_succ_of_lt hg.lt, ?_, hg.timers⟩, [], by simp [allocSt], by simp⟩
    intro u hu
    rcases List.mem_cons.1 (show u ∈ _ :: s.ues.map _ from hu) with rfl | hu
    · exact fun h => Nat.lt_irrefl _ (h ▸ hg.lt)
    · obtain ⟨w, hw, rfl⟩ := List.mem_map.1 hu
      split <;> exact hg.ues w hw
  case timerDel => exact ⟨⟨hg.lt, hg.ues, fun t ht => hg.timers t (List.mem_filter.1 ht).1⟩, [], by simp, by simp⟩
  all_goals exact ⟨⟨hg.lt, hg.ues, hg.timers⟩, [], by simp, by simp⟩

theorem Path.gone {ls : List Lbl} {s s' : State} {p : Ptr} (h : Path env ls s s') (hg : Gone p s) :
    Gone p s' ∧ ∃ d, s'.trace = s.trace ++ d ∧ ∀ o ∈ d, target o ≠ some p := by
  induction h with
  | nil => exact ⟨hg, [], by simp, by simp⟩
  | cons ha _ ih =>
    obtain ⟨h1, d1, t1, o1⟩ := ha.gone hg
    obtain ⟨h2, d2, t2, o2⟩ := ih h1
    refine ⟨h2, d1 ++ d2, by rw [t2, t1, List.append_assoc], ?_⟩
    intro o ho
    rcases List.mem_append.1 ho with ho | ho
    · exact o1 o ho
    · exact o2 o ho

/-- Context `p` gets no events any more. -/
structure Muted (p : Ptr) (s : State) : Prop where
  lt : p < s.next
  ues : ∀ u ∈ s.ues, u.ptr = p → u.notification = false

theorem Atom.muted {l : Lbl} {s s' : State} {p : Ptr} (h : Atom env l s s') (hg : Muted p s) :
    Muted p s' ∧ ∃ d, s'.trace = s.trace ++ d ∧ ∀ o ∈ d, ∀ c e, o ≠ .event (some (p, c)) e := by
  cases h
  case sap => exact ⟨⟨hg.lt, hg.ues⟩, [_], rfl, by simp⟩
  case free u hu => exact ⟨⟨hg.lt, fun v hv => hg.ues v (List.mem_filter.1 hv).1⟩, [_], rfl, by simp⟩
  case release u c t hu =>
    refine ⟨⟨hg.lt, ?_⟩, [_], rfl, by simp⟩
    intro v hv
    obtain ⟨w, hw, rfl⟩ := List.mem_map.1 (show v ∈ s.ues.map _ from hv)
    split
    · exact fun _ => rfl
    · exact hg.ues w hw
  case cbRecv => exact ⟨⟨hg.lt, hg.ues⟩, [_], rfl, by simp⟩
  case cbEvent u e _ hn hu =>
    refine ⟨⟨hg.lt, hg.ues⟩, [_], rfl, ?_⟩
    intro o ho c e'
    rw [List.mem_singleton.1 ho]
    intro h; cases h
    rw [hg.ues u (List.mem_of_find?_eq_some hu) rfl] at hn
    cases hn
  case cbArea => exact ⟨⟨hg.lt, hg.ues⟩, [_], rfl, by simp⟩
  case register id rai addr =>
    exact ⟨⟨Nat.lt_of_lt_of_le hg.lt (reg1_next s id addr), hg.ues⟩, [], by simp [regState], by simp⟩
  case alloc r c ra =>
    refine ⟨⟨Nat.lt_succ_of_lt hg.lt, ?_⟩, [], by simp [allocSt], by simp⟩
    intro u hu
    rcases List.mem_cons.1 (show u ∈ _ :: s.ues.map _ from hu) with rfl | hu
    · exact fun h => absurd hg.lt (h ▸ Nat.lt_irrefl _)
    · obtain ⟨w, hw, rfl⟩ := List.mem_map.1 hu
      split <;> exact hg.ues w hw
  all_goals exact ⟨⟨hg.lt, hg.ues⟩, [], by simp, by simp⟩

theorem Path.muted {ls : List Lbl} {s s' : State} {p : Ptr} (h : Path env ls s s') (hg : Muted p s) :
    Muted p s' ∧ ∃ d, s'.trace = s.trace ++ d ∧ ∀ o ∈ d, ∀ c e, o ≠ .event (some (p, c)) e := by
  induction h with
  | nil => exact ⟨hg, [], by simp, by simp⟩
  | cons ha _ ih =>
    obtain ⟨h1, d1, t1, o1⟩ := ha.muted hg
    obtain ⟨h2, d2, t2, o2⟩ := ih h1
    refine ⟨h2, d1 ++ d2, by rw [t2, t1, List.append_assoc], ?_⟩
    intro o ho
    rcases List.mem_append.1 ho with ho | ho
    · exact o1 o ho
    · exact o2 o ho

/-- No output about a connection that has no context and is not touched. -/
theorem Path.silent {ls : List Lbl} {s s' : State} {c : ConnId} (h : Path env ls s s') (hn : NoTouch c ls)
    (hx : ¬ HasCtx s c) : ∃ d, s'.trace = s.trace ++ d ∧ ∀ o ∈ d, outConn o ≠ some c := by
  induction h with
  | nil => exact ⟨[], by simp, by simp⟩
  | @cons l ls a b e ha hp ih =>
    have hl := hn l List.mem_cons_self
    have hx' : ¬ HasCtx b c := fun hh => hx ((Path.one ha).keepConn (fun x hx => by rw [List.mem_singleton.1 hx]; exact hl) |>.2 hh)
    obtain ⟨d2, t2, o2⟩ := ih (fun x hx => hn x (List.mem_cons_of_mem _ hx)) hx'
    have h1 : ∃ d, b.trace = a.trace ++ d ∧ ∀ o ∈ d, outConn o ≠ some c := by
      cases ha
      case sap p _ hd =>
        refine ⟨[_], rfl, ?_⟩
        intro o ho
        rw [List.mem_singleton.1 ho]
        cases p with
        | connectResp c' =>
          intro h; cases h
          simp [Lbl.touches] at hl
        | dataReq c' m =>
          intro h; cases h
          exact hx (hd _ _ rfl)
        | disconnectReq c' => rename_i h'; cases h'
        | unitdataReq => intro h; cases h
      case free u hu =>
        refine ⟨[_], rfl, ?_⟩
        intro o ho
        rw [List.mem_singleton.1 ho]
        intro h; cases h
        exact hx ⟨u, List.mem_of_find?_eq_some hu, rfl⟩
      case release u _ _ hu =>
        refine ⟨[_], rfl, ?_⟩
        intro o ho
        rw [List.mem_singleton.1 ho]
        intro h; cases h
        exact hx ⟨u, List.mem_of_find?_eq_some hu, rfl⟩
      case cbRecv q c' _ _ _ hq =>
        refine ⟨[_], rfl, ?_⟩
        intro o ho
        rw [List.mem_singleton.1 ho]
        intro h; cases h
        obtain ⟨u, hu, _, h⟩ := hq
        exact hx ⟨u, hu, h⟩
      case cbEvent u e _ hn hu =>
        refine ⟨[_], rfl, ?_⟩
        intro o ho
        rw [List.mem_singleton.1 ho]
        intro h; cases h
        exact hx ⟨u, List.mem_of_find?_eq_some hu, rfl⟩
      case cbArea => exact ⟨[_], rfl, by simp [outConn]⟩
      case register => exact ⟨[], by simp [regState], by simp⟩
      case alloc => exact ⟨[], by simp [allocSt], by simp⟩
      all_goals exact ⟨[], by simp, by simp⟩
    obtain ⟨d1, t1, o1⟩ := h1
    refine ⟨d1 ++ d2, by rw [t2, t1, List.append_assoc], ?_⟩
    intro o ho
    rcases List.mem_append.1 ho with ho | ho
    · exact o1 o ho
    · exact o2 o ho

theorem unknown_step {s : State} {c : ConnId} {data : Bytes} (hn : ¬ InUse s c) :
    step env (.dataInd c data) s = .ok (-1, s) ∧ step env (.disconnectInd c data) s = .ok (-1, s) := by
  have hc : ctxFind s c = none := ctxFind_none.2 fun h => hn (.inl h)
  have hnc : ∀ e ∈ s.cache, ¬ e.1 = c := fun e he h => hn (.inr ⟨e, he, h⟩)
  refine ⟨?_, ?_⟩
  · unfold step
    have : cacheFind s c = none := by
      unfold cacheFind
      rw [Option.map_eq_none_iff, List.find?_eq_none]
      intro e he; simpa using hnc e he
    simp only [bind_eq, get_run, hc, this, pure_run]
  · unfold step
    have : s.cache.eraseP (·.1 = c) = s.cache := by
      rw [List.eraseP_of_forall_not]
      intro e he; simpa using hnc e he
    have hany : (s.cache.any (·.1 = c)) = false := by
      rw [List.any_eq_false]
      intro e he; simpa using hnc e he
    simp only [bind_eq, cacheDel, modify_run, get_run, this, hany, Bool.false_eq_true, if_false, Int.sub_zero, hc, pure_run]

/-- Nothing happens on an unused connection before the next connection request. -/
theorem run_silent {ops : List Op} {s s' : State} {c : ConnId} (h : run env ops s = .ok ((), s'))
    (hn : ¬ InUse s c) (hc : ∀ op ∈ ops, ∀ a d, op ≠ .connectInd c a d) :
    ¬ InUse s' c ∧ ∃ d, s'.trace = s.trace ++ d ∧ ∀ o ∈ d, outConn o ≠ some c := by
  induction ops generalizing s with
  | nil => cases h; exact ⟨hn, [], by simp, by simp⟩
  | cons op ops ih =>
    obtain ⟨rc, s1, h1, h2⟩ := bind_ok.1 h
    have key : ¬ InUse s1 c ∧ ∃ d, s1.trace = s.trace ++ d ∧ ∀ o ∈ d, outConn o ≠ some c := by
      by_cases ho : opConn op = some c
      · have : s1 = s := by
          cases op with
          | connectInd c' a d => cases ho; exact absurd rfl (hc _ List.mem_cons_self a d)
          | dataInd c' d => cases ho; rw [(unknown_step hn).1] at h1; cases h1; rfl
          | disconnectInd c' d => cases ho; rw [(unknown_step hn).2] at h1; cases h1; rfl
          | connectConf => cases ho
          | unitdataInd => cases ho
          | noticeInd => cases ho
          | pcstateInd => cases ho
          | otherInd => cases ho
          | timer => cases ho
          | api => cases ho
        subst this
        exact ⟨hn, [], by simp, by simp⟩
      · obtain ⟨ls, hp, hl⟩ := step_noTouch h1 ho
        refine ⟨?_, hp.silent hl fun h => hn (.inl h)⟩
        obtain ⟨k1, k2⟩ := hp.keepConn hl
        rintro (hh | ⟨e, he, hec⟩)
        · exact hn (.inl (k2 hh))
        · have : s1.cache.find? (·.1 = c) = none := by
            rw [k1, List.find?_eq_none]
            intro x hx hxc
            exact hn (.inr ⟨x, hx, by simpa using hxc⟩)
          rw [List.find?_eq_none] at this
          exact this e he (by simpa using hec)
    obtain ⟨k1, d1, t1, o1⟩ := key
    obtain ⟨k2, d2, t2, o2⟩ := ih h2 k1 fun x hx => hc x (List.mem_cons_of_mem _ hx)
    refine ⟨k2, d1 ++ d2, by rw [t2, t1, List.append_assoc], ?_⟩
    intro o ho
    rcases List.mem_append.1 ho with ho | ho
    · exact o1 o ho
    · exact o2 o ho

end Verif.Iu
