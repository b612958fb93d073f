import Verif.Proofs.IuClosed
import Verif.Spec.Dialogue

/-!
# The phases of a connection follow the contexts and cached requests
-/

namespace Verif.Iu
open Spec Lai

variable {env : Env}

/-- Context handles are distinct, and all have been given out. -/
structure PInv (s : State) : Prop where
  nodup : (s.ues.map (·.ptr)).Nodup
  lt : ∀ u ∈ s.ues, u.ptr < s.next

theorem Inv.pinv {s : State} (h : Inv s) : PInv s := ⟨h.ueNodup, h.ueLt⟩

theorem allocSt_ues {s : State} (h : PInv s) (rnc : Ptr) (c : ConnId) (ra : GprsRaId) :
    (allocSt s rnc c ra).ues = ⟨s.next, rnc, c, ra, true, false⟩ :: s.ues := by
  show _ :: s.ues.map _ = _
  congr 1
  conv => rhs; rw [← List.map_id s.ues]
  refine List.map_congr_left fun u hu => ?_
  rw [if_neg (Nat.ne_of_lt (h.lt u hu))]; rfl

theorem Atom.pinv {l : Lbl} {s s' : State} (ha : Atom env l s s') (h : PInv s) : PInv s' := by
  cases ha
  case free u hf =>
    exact ⟨(List.Sublist.map _ List.filter_sublist).nodup h.nodup, fun v hv => h.lt v (List.mem_filter.1 hv).1⟩
  case release u c t hf =>
    have h1 := markSt_rel s u.ptr
    refine ⟨h1.ptrs.nodup h.nodup, ?_⟩
    intro v hv
    obtain ⟨w, hw, hsame⟩ := h1.mem hv
    rw [hsame.ptr]; exact h.lt w hw
  case register id rai addr =>
    refine ⟨h.nodup, fun u hu => Nat.lt_of_lt_of_le (h.lt u hu) (reg1_next s id addr)⟩
  case alloc rnc c ra =>
    refine ⟨?_, ?_⟩
    · rw [allocSt_ues h, List.map_cons, List.nodup_cons]
      refine ⟨?_, h.nodup⟩
      intro hm
      obtain ⟨u, hu, he⟩ := List.mem_map.1 hm
      exact absurd he (Nat.ne_of_lt (h.lt u hu))
    · rw [allocSt_ues h]
      intro u hu
      rcases List.mem_cons.1 hu with rfl | hu
      · exact Nat.lt_succ_self _
      · exact Nat.lt_succ_of_lt (h.lt u hu)
  all_goals exact ⟨h.nodup, h.lt⟩

/-- A phase fits the contexts and cached requests of a connection. -/
structure Fit (c : ConnId) (ph : Phase) (s : State) : Prop where
  ctx : HasCtx s c → ph = .active ∨ ph = .cleared
  cached : (∃ e ∈ s.cache, e.1 = c) → ph = .active
  uniq : ∀ u ∈ s.ues, ∀ v ∈ s.ues, u.conn = c → v.conn = c → u.ptr = v.ptr
  disj : HasCtx s c → ∀ e ∈ s.cache, e.1 ≠ c

/-- A request is allowed, or the connection was ended by SCCP. -/
def Phase.tolerates (ph : Phase) (x : Say) : Prop := ph.allows x ∨ (ph = .cleared ∧ (x = .dataReq ∨ x = .disconnectReq))

def Phase.Tolerates : Phase → List Say → Prop
  | _, [] => True
  | ph, x :: l => Phase.tolerates ph x ∧ Phase.Tolerates (ph.next x) l

theorem after_append (ph : Phase) (a b : List Say) : ph.after (a ++ b) = (ph.after a).after b := List.foldl_append

theorem tolerates_append {ph : Phase} {a b : List Say} :
    Phase.Tolerates ph (a ++ b) ↔ Phase.Tolerates ph a ∧ Phase.Tolerates (ph.after a) b := by
  induction a generalizing ph with
  | nil => simp [Phase.Tolerates, Phase.after]
  | cons x a ih =>
    simp only [List.cons_append, Phase.Tolerates, ih, and_assoc]
    rfl

theorem asked_append (c : ConnId) (a b : List Out) : asked c (a ++ b) = asked c a ++ asked c b := List.filterMap_append ..

/-- What a piece of an operation does to a connection. -/
structure Talk (c : ConnId) (ph : Phase) (s s' : State) (d : List Out) : Prop where
  trace : s'.trace = s.trace ++ d
  ok : Phase.Tolerates ph (asked c d)
  fit : Fit c (ph.after (asked c d)) s'
  orphan : Orphan c (ph.after (asked c d)) s' ↔ Orphan c ph s

theorem Talk.refl {c : ConnId} {ph : Phase} {s : State} (h : Fit c ph s) : Talk c ph s s [] :=
  ⟨by simp, trivial, h, Iff.rfl⟩

theorem Talk.trans {c : ConnId} {ph : Phase} {s s1 s2 : State} {d d' : List Out} (h : Talk c ph s s1 d)
    (h' : Talk c (ph.after (asked c d)) s1 s2 d') : Talk c ph s s2 (d ++ d') := by
  refine ⟨by rw [h'.trace, h.trace, List.append_assoc], ?_, ?_, ?_⟩
  · rw [asked_append, tolerates_append]; exact ⟨h.ok, h'.ok⟩
  · rw [asked_append, after_append]; exact h'.fit
  · rw [asked_append, after_append]; exact h'.orphan.trans h.orphan

/-- Contexts and cached requests of a connection stay. -/
theorem Fit.same {c : ConnId} {ph : Phase} {s s' : State} (h : Fit c ph s)
    (h1 : ∀ u ∈ s'.ues, u.conn = c → ∃ v ∈ s.ues, v.conn = c ∧ v.ptr = u.ptr) (h2 : HasCtx s c → HasCtx s' c)
    (h3 : ∀ e : ConnId × SccpAddr, e.1 = c → (e ∈ s'.cache ↔ e ∈ s.cache)) :
    Fit c ph s' ∧ (Orphan c ph s' ↔ Orphan c ph s) := by
  have hctx : HasCtx s' c → HasCtx s c := by
    rintro ⟨u, hu, hc⟩
    obtain ⟨v, hv, hvc, _⟩ := h1 u hu hc
    exact ⟨v, hv, hvc⟩
  have hca : (∃ e ∈ s'.cache, e.1 = c) ↔ ∃ e ∈ s.cache, e.1 = c :=
    ⟨fun ⟨e, he, hc⟩ => ⟨e, (h3 e hc).1 he, hc⟩, fun ⟨e, he, hc⟩ => ⟨e, (h3 e hc).2 he, hc⟩⟩
  refine ⟨⟨fun x => h.ctx (hctx x), fun x => h.cached (hca.1 x), ?_, ?_⟩, ?_⟩
  · intro u hu v hv huc hvc
    obtain ⟨u', hu', hu'c, e1⟩ := h1 u hu huc
    obtain ⟨v', hv', hv'c, e2⟩ := h1 v hv hvc
    rw [← e1, ← e2]
    exact h.uniq u' hu' v' hv' hu'c hv'c
  · intro x e he hec
    exact h.disj (hctx x) e ((h3 e hec).1 he) hec
  · unfold Orphan InUse
    rw [hca, show HasCtx s' c ↔ HasCtx s c from ⟨hctx, h2⟩]

theorem mem_eraseP_ne {l : List (ConnId × SccpAddr)} {c c' : ConnId} (h : c' ≠ c) (e : ConnId × SccpAddr) (he : e.1 = c) :
    e ∈ l.eraseP (·.1 = c') ↔ e ∈ l := by
  refine ⟨fun x => List.mem_of_mem_eraseP x, fun x => ?_⟩
  refine (List.mem_eraseP_of_neg ?_).2 x
  simp only [decide_eq_true_eq]
  intro hh
  exact h (hh.symm.trans he)

/-- An atomic step that says nothing about the connection. -/
theorem Talk.quiet {c : ConnId} {ph : Phase} {s s' : State} {d : List Out} (ht : s'.trace = s.trace ++ d) (hd : asked c d = [])
    (h : Fit c ph s' ∧ (Orphan c ph s' ↔ Orphan c ph s)) : Talk c ph s s' d := by
  refine ⟨ht, ?_, ?_, ?_⟩
  · rw [hd]; trivial
  · rw [hd]; exact h.1
  · rw [hd]; exact h.2

theorem Talk.data {c : ConnId} {ph : Phase} {s s' : State} {o : Out} (ht : s'.trace = s.trace ++ [o]) (ho : ask c o = some .dataReq)
    (hx : HasCtx s c) (hf : Fit c ph s)
    (h : Fit c ph s' ∧ (Orphan c ph s' ↔ Orphan c ph s)) : Talk c ph s s' [o] := by
  have ha : asked c [o] = [.dataReq] := by simp [asked, ho]
  refine ⟨ht, ?_, ?_, ?_⟩
  · rw [ha]
    refine ⟨?_, trivial⟩
    rcases hf.ctx hx with rfl | rfl
    · exact .inl rfl
    · exact .inr ⟨rfl, .inl rfl⟩
  · rw [ha]; exact h.1
  · rw [ha]; exact h.2

theorem Atom.talk {c : ConnId} {ph : Phase} {l : Lbl} {s s' : State} (ha : Atom env l s s') (hl : l.touches c = false)
    (hp : PInv s) (h : Fit c ph s) : ∃ d, Talk c ph s s' d := by
  have keep : ∀ {s' : State}, s'.ues = s.ues → s'.cache = s.cache → Fit c ph s' ∧ (Orphan c ph s' ↔ Orphan c ph s) := by
    intro s' hu hc
    refine h.same ?_ ?_ ?_
    · intro u hu' huc; exact ⟨u, hu ▸ hu', huc, rfl⟩
    · rintro ⟨u, hu', huc⟩; exact ⟨u, hu ▸ hu', huc⟩
    · intro e _; rw [hc]
  cases ha
  case sap p hd hx =>
    refine ⟨[.sap p (env.sapRc s p)], ?_⟩
    cases p with
    | connectResp c' => exact Talk.quiet rfl (by simp [Lbl.touches] at hl; simp [asked, ask, hl]) (keep rfl rfl)
    | dataReq c' m =>
      by_cases hc : c' = c
      · subst hc
        exact Talk.data rfl (by simp [ask]) (hx _ _ rfl) h (keep rfl rfl)
      · exact Talk.quiet rfl (by simp [asked, ask, hc]) (keep rfl rfl)
    | disconnectReq c' => cases hd
    | unitdataReq a m => exact Talk.quiet rfl rfl (keep rfl rfl)
  case free u hf =>
    have hm := List.mem_of_find?_eq_some hf
    by_cases hc : u.conn = c
    · subst hc
      have hx : HasCtx s u.conn := ⟨u, hm, rfl⟩
      have hn : ¬ HasCtx (freeSt env s u) u.conn := by
        rintro ⟨v, hv, hvc⟩
        obtain ⟨hv1, hv2⟩ := List.mem_filter.1 hv
        exact (by simpa using hv2 : ¬ v.ptr = u.ptr) (h.uniq v hv1 u hm hvc rfl)
      have hnc : ¬ ∃ e ∈ (freeSt env s u).cache, e.1 = u.conn := by
        rintro ⟨e, he, hec⟩; exact h.disj hx e he hec
      have ha : ∀ r, asked u.conn [.sap (.disconnectReq u.conn) r] = [.disconnectReq] := by intro r; simp [asked, ask]
      refine ⟨[_], rfl, ?_, ?_, ?_⟩
      · rw [ha]
        refine ⟨?_, trivial⟩
        rcases h.ctx hx with rfl | rfl
        · exact .inl rfl
        · exact .inr ⟨rfl, .inr rfl⟩
      · rw [ha]
        exact ⟨fun x => absurd x hn, fun x => absurd x hnc, fun v hv w hw hvc => absurd ⟨v, hv, hvc⟩ hn,
          fun x => absurd x hn⟩
      · rw [ha]
        refine ⟨fun x => ?_, fun x => absurd (.inl hx) x.2⟩
        exact absurd x.1 (by cases ph <;> decide)
    · refine ⟨[_], Talk.quiet rfl (by simp [asked, ask, hc]) (h.same ?_ ?_ fun _ _ => Iff.rfl)⟩
      · intro v hv hvc; exact ⟨v, (List.mem_filter.1 hv).1, hvc, rfl⟩
      · rintro ⟨v, hv, hvc⟩
        refine ⟨v, List.mem_filter.2 ⟨hv, ?_⟩, hvc⟩
        simp only [ne_eq, decide_not, Bool.not_eq_eq_eq_not, Bool.not_true, decide_eq_false_iff_not]
        intro he
        exact hc (ue_inj hp.nodup hv hm he ▸ hvc)
  case release u cause t hf =>
    have hm := List.mem_of_find?_eq_some hf
    have hk : Fit c ph (releaseSt env s u cause t) ∧ (Orphan c ph (releaseSt env s u cause t) ↔ Orphan c ph s) := by
      refine h.same ?_ ?_ fun _ _ => Iff.rfl
      · intro v hv hvc
        obtain ⟨w, hw, rfl⟩ := List.mem_map.1 hv
        refine ⟨w, hw, ?_, ?_⟩
        · rw [← hvc]; split <;> rfl
        · split <;> rfl
      · rintro ⟨v, hv, hvc⟩
        refine ⟨_, List.mem_map.2 ⟨v, hv, rfl⟩, ?_⟩
        rw [← hvc]; split <;> rfl
    by_cases hc : u.conn = c
    · subst hc
      exact ⟨[_], Talk.data rfl (by simp [ask]) ⟨u, hm, rfl⟩ h hk⟩
    · exact ⟨[_], Talk.quiet rfl (by simp [asked, ask, hc]) hk⟩
  case cbRecv => exact ⟨[_], Talk.quiet rfl rfl (keep rfl rfl)⟩
  case cbEvent => exact ⟨[_], Talk.quiet rfl rfl (keep rfl rfl)⟩
  case cbArea => exact ⟨[_], Talk.quiet rfl rfl (keep rfl rfl)⟩
  case cacheAdd c' a =>
    have hc : c' ≠ c := by simpa [Lbl.touches] using hl
    refine ⟨[], Talk.quiet (by simp) rfl (h.same (fun u hu huc => ⟨u, hu, huc, rfl⟩) id ?_)⟩
    intro e he
    refine ⟨fun x => ?_, fun x => List.mem_cons_of_mem _ x⟩
    rcases List.mem_cons.1 x with rfl | x
    · exact absurd he hc
    · exact x
  case cacheDel c' =>
    have hc : c' ≠ c := by simpa [Lbl.touches] using hl
    exact ⟨[], Talk.quiet (by simp) rfl (h.same (fun u hu huc => ⟨u, hu, huc, rfl⟩) id fun e he => mem_eraseP_ne hc e he)⟩
  case alloc rnc c' ra =>
    have hc : c' ≠ c := by simpa [Lbl.touches] using hl
    refine ⟨[], Talk.quiet (by simp [allocSt]) rfl (h.same ?_ ?_ fun _ _ => Iff.rfl)⟩
    · intro u hu huc
      rw [allocSt_ues hp] at hu
      rcases List.mem_cons.1 hu with rfl | hu
      · exact absurd huc hc
      · exact ⟨u, hu, huc, rfl⟩
    · rintro ⟨u, hu, huc⟩
      exact ⟨u, by rw [allocSt_ues hp]; exact List.mem_cons_of_mem _ hu, huc⟩
  case register => exact ⟨[], Talk.quiet (by simp [regState]) rfl (keep rfl rfl)⟩
  all_goals exact ⟨[], Talk.quiet (by simp) rfl (keep rfl rfl)⟩

theorem Path.talk {c : ConnId} {ls : List Lbl} {s s' : State} (hp : Path env ls s s') : ∀ {ph : Phase}, NoTouch c ls → PInv s →
    Fit c ph s → ∃ d, Talk c ph s s' d := by
  induction hp with
  | nil => intro ph _ _ h; exact ⟨[], .refl h⟩
  | cons ha _ ih =>
    intro ph hl hi h
    obtain ⟨d, hd⟩ := ha.talk (hl _ List.mem_cons_self) hi h
    obtain ⟨d', hd'⟩ := ih (fun x hx => hl x (List.mem_cons_of_mem _ hx)) (ha.pinv hi) hd.fit
    exact ⟨d ++ d', hd.trans hd'⟩

theorem Path.pinv {ls : List Lbl} {s s' : State} (hp : Path env ls s s') (h : PInv s) : PInv s' :=
  hp.induct (fun _ _ _ ha h => ha.pinv h) h

theorem Fit.ofUnused {c : ConnId} {ph : Phase} {s : State} (h : ¬ InUse s c) : Fit c ph s :=
  ⟨fun x => absurd (.inl x) h, fun x => absurd (.inr x) h, fun u hu _ _ huc => absurd (.inl ⟨u, hu, huc⟩) h,
    fun x => absurd (.inl x) h⟩

/-- Handling the first message: the connection is left without context iff nothing is registered. -/
theorem RxInitShape.talk {s s' : State} {c : ConnId} {a : SccpAddr} {data : Bytes} {rc : Int} {ls : List Lbl}
    (h : RxInitShape env s ⟨a, c⟩ data rc ls s') (hp : Path env ls s s') (hi : PInv s) (hc : ¬ InUse s c) :
    ∃ d, s'.trace = s.trace ++ d ∧ Phase.Tolerates .active (asked c d) ∧ Fit c (Phase.after .active (asked c d)) s' ∧
      (Orphan c (Phase.after .active (asked c d)) s' ↔ NoReg ls) := by
  have hor : Orphan c .active s := ⟨rfl, hc⟩
  have easy : NoTouch c ls → NoReg ls → ∃ d, s'.trace = s.trace ++ d ∧ Phase.Tolerates .active (asked c d) ∧
      Fit c (Phase.after .active (asked c d)) s' ∧ (Orphan c (Phase.after .active (asked c d)) s' ↔ NoReg ls) := by
    intro h1 h2
    obtain ⟨d, hd⟩ := hp.talk h1 hi (Fit.ofUnused (ph := .active) hc)
    exact ⟨d, hd.trace, hd.ok, hd.fit, fun _ => h2, fun _ => hd.orphan.2 hor⟩
  rcases h with ⟨_, _, rfl, rfl⟩ | ⟨m, _, _, ⟨_, rfl, rfl⟩ | ⟨_, _, ies, _, ⟨_, rfl⟩ |
    ⟨id, ra, sai, es, p, as, _, rfl, has, _, hes⟩⟩⟩
  · exact easy .nil .nil
  · exact easy .nil .nil
  · exact easy (.cons rfl .nil) (.one rfl)
  · have hest : NoTouch c es := by
      rcases hes with ⟨_, rfl⟩ | ⟨_, as', rfl, has'⟩
      · exact .nil
      · exact .cons rfl has'.noTouch
    obtain ⟨s1, hp1, hp2⟩ := Path.append_inv (a := .nasAlloc :: .register id (gprsRaiToOsmo ra) a :: es)
      (b := .alloc p (regPtr env s id a) c ra ::
          .cb (.recv p c ies.nas (some ra) (some sai)) :: (as ++ [.nasFree])) (by simpa using hp)
    obtain ⟨d1, t1⟩ := hp1.talk (.cons rfl (.cons rfl hest)) hi (Fit.ofUnused (ph := .active) hc)
    have hi1 := hp1.pinv hi
    obtain ⟨ha1, hc1⟩ := t1.orphan.2 hor
    obtain ⟨s2, ha, hp3⟩ := hp2.cons_inv
    have hi2 := ha.pinv hi1
    have hfit : Fit c .active s2 ∧ HasCtx s2 c ∧ s2.trace = s1.trace := by
      cases ha
      have hues := allocSt_ues hi1 (regPtr env s id a) c ra
      refine ⟨⟨fun _ => .inl rfl, fun _ => rfl, ?_, ?_⟩, ⟨_, by rw [hues]; exact List.mem_cons_self, rfl⟩, rfl⟩
      · intro u hu v hv huc hvc
        rw [hues] at hu hv
        rcases List.mem_cons.1 hu with rfl | hu <;> rcases List.mem_cons.1 hv with rfl | hv
        · rfl
        · exact absurd (.inl ⟨v, hv, hvc⟩) hc1
        · exact absurd (.inl ⟨u, hu, huc⟩) hc1
        · exact absurd (.inl ⟨u, hu, huc⟩) hc1
      · intro _ e he hec
        exact hc1 (.inr ⟨e, he, hec⟩)
    obtain ⟨d2, t2⟩ := hp3.talk (c := c) (.cons rfl (has.noTouch.append (.cons rfl .nil))) hi2 hfit.1
    refine ⟨d1 ++ d2, ?_, ?_, ?_, ?_⟩
    · rw [t2.trace, hfit.2.2, t1.trace, List.append_assoc]
    · rw [asked_append, tolerates_append, ha1]; exact ⟨t1.ok, t2.ok⟩
    · rw [asked_append, after_append, ha1]; exact t2.fit
    · rw [asked_append, after_append, ha1, t2.orphan]
      refine ⟨fun x => absurd (.inl hfit.2.1) x.2, fun x => ?_⟩
      have := x (.register id (gprsRaiToOsmo ra) a) (by simp)
      cases this

theorem OpShape.reg_iff {s : State} {op : Op} {ls : List Lbl} (h : OpShape env s op ls) : NoReg ls ↔ registration env s op = none := by
  rcases h with ⟨c, a, ies, id, ra, sai, h1, h2, _, pre, es, p, as, _, rfl, _⟩ | ⟨h1, h2⟩
  · refine ⟨fun x => ?_, fun x => ?_⟩
    · have := x (.register id (areaOfRa ra) a) (by simp)
      cases this
    · unfold registration at x
      rw [h1] at x
      simp [h2] at x
  · exact ⟨fun _ => h1, fun _ => h2⟩

theorem firstPayload_conn {s : State} {op : Op} {c : ConnId} {a : SccpAddr} {d : Bytes} (h : firstPayload s op = some (c, a, d)) :
    opConn op = some c := by
  cases op with
  | connectInd c' a' d' =>
    rw [firstPayload_connect] at h
    split at h
    · cases h
    · cases h; rfl
  | dataInd c' d' =>
    rw [firstPayload_data] at h
    split at h
    · cases h
    · rw [Option.map_eq_some_iff] at h
      obtain ⟨e, _, he⟩ := h
      cases he; rfl
  | _ => cases h

theorem firstOn {s : State} {op : Op} {c : ConnId} :
    (firstPayload s op).map (·.1) = some c ↔ ∃ a d, firstPayload s op = some (c, a, d) := by
  rw [Option.map_eq_some_iff]
  exact ⟨fun ⟨⟨c', a, d⟩, h, e⟩ => ⟨a, d, by cases e; exact h⟩, fun ⟨a, d, h⟩ => ⟨_, h, rfl⟩⟩

theorem heard_other {c : ConnId} {op : Op} (h : opConn op ≠ some c) : heard c op = [] := by
  cases op with
  | connectInd c' a d => exact if_neg fun x => h (by rw [x]; rfl)
  | disconnectInd c' d => exact if_neg fun x => h (by rw [x]; rfl)
  | _ => rfl

theorem after_ne_pending {ph : Phase} {l : List Say} (h : ph ≠ .pending) (hl : ∀ x ∈ l, x ≠ .connectInd) : ph.after l ≠ .pending := by
  induction l generalizing ph with
  | nil => exact h
  | cons x l ih =>
    refine ih ?_ fun y hy => hl y (List.mem_cons_of_mem _ hy)
    have := hl x List.mem_cons_self
    cases ph <;> cases x <;> first | contradiction | (intro h; cases h)

theorem asked_ne {c : ConnId} {d : List Out} : ∀ x ∈ asked c d, x ≠ .connectInd := by
  intro x hx
  obtain ⟨o, _, ho⟩ := List.mem_filterMap.1 hx
  rintro rfl
  unfold ask at ho
  split at ho <;> first | (split at ho <;> cases ho) | cases ho

theorem step_talk {op : Op} {s s' : State} {rc : Int} {c : ConnId} {ph : Phase} (h : step env op s = .ok (rc, s')) (hi : PInv s)
    (hca : (s.cache.map (·.1)).Nodup) (hf : ∀ a d, op = .connectInd c a d → ¬ InUse s c) (hfit : Fit c ph s) :
    ∃ d, s'.trace = s.trace ++ d ∧ Phase.Tolerates ph (heard c op ++ asked c d) ∧
      Fit c (ph.after (heard c op ++ asked c d)) s' ∧
      (Orphan c (ph.after (heard c op ++ asked c d)) s' ↔ (Orphan c ph s ∧ heard c op = []) ∨ Refused env c s op) ∧
      (ph ≠ .pending → ph.after (heard c op ++ asked c d) ≠ .pending) := by
  have quiet : heard c op = [] → (∀ a d, firstPayload s op ≠ some (c, a, d)) → (∃ d, Talk c ph s s' d) →
      ∃ d, s'.trace = s.trace ++ d ∧ Phase.Tolerates ph (heard c op ++ asked c d) ∧
      Fit c (ph.after (heard c op ++ asked c d)) s' ∧
      (Orphan c (ph.after (heard c op ++ asked c d)) s' ↔ (Orphan c ph s ∧ heard c op = []) ∨ Refused env c s op) ∧
      (ph ≠ .pending → ph.after (heard c op ++ asked c d) ≠ .pending) := by
    rintro h1 h2 ⟨d, hd⟩
    rw [h1]
    refine ⟨d, hd.trace, hd.ok, hd.fit, ?_, fun hn => after_ne_pending hn asked_ne⟩
    rw [List.nil_append, hd.orphan]
    refine ⟨fun x => .inl ⟨x, rfl⟩, ?_⟩
    rintro (x | ⟨hx, _⟩)
    · exact x.1
    · obtain ⟨a, y, hx⟩ := firstOn.1 hx
      exact absurd hx (h2 a y)
  by_cases ho : opConn op = some c
  · cases op with
    | connectInd c' a x =>
      cases ho
      have hc := hf a x rfl
      obtain ⟨ls, hp, ls', rfl, h'⟩ := wp_ok (pl_connectInd c a x s) h
      obtain ⟨s1, ha, hp1⟩ := hp.cons_inv
      have e1 := ha.sap_inv
      subst e1
      have hh : heard c (.connectInd c a x) = [.connectInd] := if_pos rfl
      have haskr : ∀ r, asked c [.sap (.connectResp c) r] = [.connectResp] := by intro r; simp [asked, ask]
      rw [hh]
      rcases h' with ⟨rfl, _, rfl⟩ | ⟨hx, h'⟩
      · obtain ⟨s2, ha2, hp2⟩ := hp1.cons_inv
        cases hp2
        cases ha2
        refine ⟨[_], rfl, ?_, ?_, ?_, fun _ => by rw [haskr]; exact fun y => by cases y⟩
        · rw [haskr]; exact ⟨.inl trivial, .inl rfl, trivial⟩
        · rw [haskr]
          refine ⟨fun _ => .inl rfl, fun _ => rfl, ?_, ?_⟩
          · intro u hu _ _ huc; exact absurd (.inl ⟨u, hu, huc⟩) hc
          · rintro ⟨u, hu, huc⟩; exact absurd (.inl ⟨u, hu, huc⟩) hc
        · refine ⟨fun y => ?_, ?_⟩
          · exact absurd (.inr ⟨(c, a), List.mem_cons_self, rfl⟩) y.2
          · rintro (⟨_, y⟩ | ⟨y, _⟩)
            · cases y
            · rw [firstPayload_connect, if_pos rfl] at y; cases y
      · have hc1 : ¬ InUse (confirmed env s c) c := hc
        obtain ⟨d, t1, t2, t3, t4⟩ := h'.talk hp1 (⟨hi.nodup, hi.lt⟩ : PInv (confirmed env s c)) hc1
        have hfp : firstPayload s (.connectInd c a x) = some (c, a, x) := by rw [firstPayload_connect, if_neg hx]
        have hreg := (RxInitShape.shape (s0 := s) (s := confirmed env s c) (op := .connectInd c a x) (pre := [.sap (.connectResp c) (env.sapRc s (.connectResp c))])
          hfp (.inl ⟨_, rfl⟩) rfl rfl h').reg_iff
        have hnr : NoReg ls' ↔ registration env s (.connectInd c a x) = none := by
          rw [← hreg]
          exact ⟨fun y => .append (.one rfl) y, fun y l hl => y l (List.mem_append_right _ hl)⟩
        refine ⟨.sap (.connectResp c) (env.sapRc s (.connectResp c)) :: d, ?_, ?_, ?_, ?_, ?_⟩
        · rw [t1]; simp [confirmed]
        · rw [← List.singleton_append (l := d), asked_append, haskr]
          exact ⟨.inl trivial, .inl rfl, t2⟩
        · rw [← List.singleton_append (l := d), asked_append, haskr]
          exact t3
        · rw [← List.singleton_append (l := d), asked_append, haskr]
          refine (show Orphan c (Phase.after .active (asked c d)) s' ↔ _ from ?_)
          rw [t4, hnr]
          exact ⟨fun y => .inr ⟨firstOn.2 ⟨a, x, hfp⟩, y⟩, by rintro (⟨_, y⟩ | y); cases y; exact y.2⟩
        · rw [← List.singleton_append (l := d), asked_append, haskr]
          exact fun _ => after_ne_pending (ph := .active) (fun y => by cases y) asked_ne
    | disconnectInd c' x =>
      cases ho
      have hh : heard c (.disconnectInd c x) = [.disconnectInd] := if_pos rfl
      obtain ⟨ls, hp, ls1, rfl, h'⟩ := wp_ok (pl_disconnectInd c x s) h
      obtain ⟨s1, ha, hp1⟩ := hp.cons_inv
      cases ha
      have hfit1 : Fit c (ph.next .disconnectInd) (uncached s c) := by
        refine ⟨fun y => ?_, ?_, hfit.uniq, ?_⟩
        · rcases hfit.ctx y with rfl | rfl
          · exact .inr rfl
          · exact .inr rfl
        · rintro ⟨e, he, hec⟩; exact absurd hec (eraseP_none hca c e he)
        · intro _ e he; exact eraseP_none hca c e he
      have hno : NoTouch c ls1 := by
        rcases h' with ⟨_, _, rfl, _⟩ | ⟨u, ms, s2, fs, _, rfl, _, hms, hfs⟩
        · exact .nil
        · refine .append ?_ ?_
          · rcases hms with ⟨_, _, rfl, _⟩ | ⟨_, h⟩
            · exact .nil
            · exact h.noTouch
          · rcases hfs with ⟨_, rfl, _⟩ | ⟨v, _, h⟩
            · exact .nil
            · exact h.lbls.noTouch
      obtain ⟨d, hd⟩ := hp1.talk hno (⟨hi.nodup, hi.lt⟩ : PInv (uncached s c)) hfit1
      rw [hh]
      refine ⟨d, hd.trace, ⟨.inl trivial, hd.ok⟩, hd.fit, ?_, fun _ =>
        after_ne_pending (ph := ph.next .disconnectInd) (by cases ph <;> exact fun y => by cases y) asked_ne⟩
      refine (show Orphan c ((ph.next .disconnectInd).after (asked c d)) s' ↔ _ from ?_)
      rw [hd.orphan]
      refine ⟨fun y => ?_, ?_⟩
      · exact absurd y.1 (by cases ph <;> decide)
      · rintro (⟨_, y⟩ | ⟨y, _⟩)
        · cases y
        · cases y
    | dataInd c' x =>
      cases ho
      obtain ⟨ls, hp, h'⟩ := wp_ok (pl_dataInd c x s) h
      rcases h' with ⟨u, hu, h'⟩ | ⟨hn, hcf, _, rfl, rfl⟩ | ⟨addr, ls', hn, hcf, rfl, h'⟩
      · refine quiet rfl ?_ (hp.talk h'.noTouch hi hfit)
        intro a d hh
        rw [firstPayload_data, if_pos ⟨u, ctxFind_some hu⟩] at hh
        cases hh
      · refine quiet rfl ?_ ⟨[], .refl hfit⟩
        intro a d hh
        rw [firstPayload_data, if_neg (ctxFind_none.1 hn)] at hh
        unfold cacheFind at hcf
        rw [Option.map_eq_none_iff] at hcf
        rw [hcf] at hh
        cases hh
      · obtain ⟨s1, ha, hp1⟩ := hp.cons_inv
        cases ha
        unfold cacheFind at hcf
        rw [Option.map_eq_some_iff] at hcf
        obtain ⟨e, he, rfl⟩ := hcf
        have hfp : firstPayload s (.dataInd c x) = some (c, e.2, x) := by
          rw [firstPayload_data, if_neg (ctxFind_none.1 hn), he]; rfl
        have hact : ph = .active := hfit.cached ⟨e, List.mem_of_find?_eq_some he, by simpa using List.find?_some he⟩
        subst hact
        have hc1 : ¬ InUse (uncached s c) c := by
          rintro (hh | ⟨e', he', hec⟩)
          · exact ctxFind_none.1 hn hh
          · exact eraseP_none hca c e' he' hec
        obtain ⟨d, t1, t2, t3, t4⟩ := h'.talk hp1 (⟨hi.nodup, hi.lt⟩ : PInv (uncached s c)) hc1
        have hreg := (RxInitShape.shape (s0 := s) (s := uncached s c) (op := .dataInd c x) (pre := [.cacheDel c])
          hfp (.inr rfl) rfl rfl h').reg_iff
        have hnr : NoReg ls' ↔ registration env s (.dataInd c x) = none := by
          rw [← hreg]
          exact ⟨fun y => .append (.one rfl) y, fun y l hl => y l (List.mem_append_right _ hl)⟩
        refine ⟨d, t1, t2, t3, ?_, fun hn => after_ne_pending hn asked_ne⟩
        refine (show Orphan c (Phase.after .active (asked c d)) s' ↔ _ from ?_)
        rw [t4, hnr]
        refine ⟨fun y => .inr ⟨firstOn.2 ⟨e.2, x, hfp⟩, y⟩, ?_⟩
        rintro (⟨y, _⟩ | y)
        · exact absurd (.inr ⟨e, List.mem_of_find?_eq_some he, by simpa using List.find?_some he⟩) y.2
        · exact y.2
    | _ => cases ho
  · refine quiet (heard_other ho) ?_ ?_
    · intro a d hh; exact ho (firstPayload_conn hh)
    · obtain ⟨ls, hp, hl⟩ := step_noTouch h ho
      exact hp.talk hl hi hfit

theorem dialogue_cons {c : ConnId} {op : Op} {ops : List Op} {s s1 : State} {rc : Int} {d : List Out} (h : step env op s = .ok (rc, s1))
    (hd : s1.trace = s.trace ++ d) : dialogue env c s (op :: ops) = (heard c op ++ asked c d) ++ dialogue env c s1 ops := by
  rw [dialogue, h]
  simp only [hd, List.drop_left, List.append_assoc]

theorem dialogue_append {c : ConnId} {ops ops' : List Op} {s s' : State} (h : run env ops s = .ok ((), s')) :
    dialogue env c s (ops ++ ops') = dialogue env c s ops ++ dialogue env c s' ops' := by
  induction ops generalizing s with
  | nil => cases h; rfl
  | cons op ops ih =>
    obtain ⟨rc, s1, h1, h2⟩ := run_cons h
    rw [List.cons_append, dialogue, dialogue, h1]
    simp only [ih h2, List.append_assoc]

theorem run_talk {ops : List Op} {s s' : State} {c : ConnId} {ph : Phase} (h : run env ops s = .ok ((), s')) (hi : Inv s) (hci : CInv s)
    (hf : FreshConns env s ops) (hfit : Fit c ph s) (hn : ph ≠ .pending) :
    Phase.Tolerates ph (dialogue env c s ops) ∧ Fit c (ph.after (dialogue env c s ops)) s' ∧
    ph.after (dialogue env c s ops) ≠ .pending := by
  induction ops generalizing s ph with
  | nil => cases h; exact ⟨trivial, hfit, hn⟩
  | cons op ops ih =>
    obtain ⟨rc, s1, h1, h2⟩ := run_cons h
    obtain ⟨d, t1, t2, t3, _, t5⟩ := step_talk h1 hi.pinv hci.cached (hf.1 c) hfit
    have := ih h2 (step_inv h1 hi) (step_cinv h1 hci hf.1) (hf.2 rc s1 h1) t3 (t5 hn)
    rw [dialogue_cons h1 t1]
    refine ⟨(tolerates_append ..).2 ⟨t2, this.1⟩, ?_⟩
    rw [after_append ph (heard c op ++ asked c d)]
    exact this.2

theorem Fit.init {c : ConnId} {ph : Phase} : Fit c ph init :=
  Fit.ofUnused (by rintro (⟨u, hu, _⟩ | ⟨e, he, _⟩) <;> contradiction)

/-- Without a disconnect indication the connection is never cleared, so that everything tolerated is proper. -/
theorem proper_of_tolerates {ph : Phase} {l : List Say} (hp : ph ≠ .cleared) (hl : .disconnectInd ∉ l) (h : Phase.Tolerates ph l) :
    ph.Proper l := by
  induction l generalizing ph with
  | nil => trivial
  | cons x l ih =>
    have hx : x ≠ .disconnectInd := fun e => hl (by rw [e]; exact List.mem_cons_self)
    refine ⟨?_, ih ?_ (fun hm => hl (List.mem_cons_of_mem _ hm)) h.2⟩
    · rcases h.1 with h | ⟨h, _⟩
      · exact h
      · exact absurd h hp
    · cases ph <;> cases x <;> first | contradiction | (intro h; cases h)

theorem tolerates_split {ph : Phase} {a b : List Say} {x : Say} (h : Phase.Tolerates ph (a ++ x :: b)) (hx : ¬ (ph.after a).allows x) :
    ph.after a = .cleared ∧ (x = .dataReq ∨ x = .disconnectReq) := by
  rw [tolerates_append] at h
  rcases h.2.1 with h | h
  · exact absurd h hx
  · exact h

theorem dialogue_ind {c : ConnId} {ops : List Op} {s : State} (h : .disconnectInd ∈ dialogue env c s ops) :
    ∃ d, .disconnectInd c d ∈ ops := by
  induction ops generalizing s with
  | nil => cases h
  | cons op ops ih =>
    rw [dialogue, List.mem_append] at h
    rcases h with h | h
    · cases op with
      | disconnectInd c' d =>
        simp only [heard] at h
        split at h
        · rename_i e; subst e; exact ⟨d, List.mem_cons_self⟩
        · cases h
      | connectInd c' a d =>
        simp only [heard] at h
        split at h
        · simp at h
        · cases h
      | _ => cases h
    · split at h
      · rw [List.mem_append] at h
        rcases h with h | h
        · obtain ⟨o, _, ho⟩ := List.mem_filterMap.1 h
          unfold ask at ho
          split at ho <;> first | (split at ho <;> cases ho) | cases ho
        · obtain ⟨d, hd⟩ := ih h
          exact ⟨d, List.mem_cons_of_mem _ hd⟩
      · cases h

theorem freshConns_append {ops ops' : List Op} {s s' : State} (h : run env ops s = .ok ((), s')) (hf : FreshConns env s (ops ++ ops')) :
    FreshConns env s ops ∧ FreshConns env s' ops' := by
  induction ops generalizing s with
  | nil => cases h; exact ⟨trivial, hf⟩
  | cons op ops ih =>
    obtain ⟨rc, s1, h1, h2⟩ := run_cons h
    refine ⟨⟨hf.1, fun rc' s1' h1' => ?_⟩, (ih h2 (hf.2 rc s1 h1)).2⟩
    rw [h1] at h1'
    cases h1'
    exact (ih h2 (hf.2 rc s1 h1)).1

theorem heard_nil {c : ConnId} {op : Op} : heard c op = [] ↔ (∀ a d, op ≠ .connectInd c a d) ∧ ∀ d, op ≠ .disconnectInd c d := by
  cases op with
  | connectInd c' a d =>
    simp only [heard]
    split
    · rename_i e; subst e; simp
    · rename_i e
      exact iff_of_true rfl ⟨fun _ _ h => by cases h; exact e rfl, fun _ h => by cases h⟩
  | disconnectInd c' d =>
    simp only [heard]
    split
    · rename_i e; subst e; simp
    · rename_i e
      exact iff_of_true rfl ⟨fun _ _ h => (by cases h), fun _ h => by cases h; exact e rfl⟩
  | _ => exact iff_of_true rfl ⟨fun _ _ h => (by cases h), fun _ h => (by cases h)⟩

/-- Without refused messages no connection is left alone. -/
theorem run_notOrphan {ops : List Op} {s s' : State} {c : ConnId} {ph : Phase} (h : run env ops s = .ok ((), s')) (hi : Inv s)
    (hci : CInv s) (hf : FreshConns env s ops) (hfit : Fit c ph s) (ho : ¬ Orphan c ph s)
    (hr : NoneRefused env c s ops) :
    ¬ Orphan c (ph.after (dialogue env c s ops)) s' := by
  induction ops generalizing s ph with
  | nil => cases h; exact ho
  | cons op ops ih =>
    obtain ⟨rc, s1, h1, h2⟩ := run_cons h
    obtain ⟨d, t1, _, t3, t4, _⟩ := step_talk h1 hi.pinv hci.cached (hf.1 c) hfit
    rw [dialogue_cons h1 t1, after_append]
    refine ih h2 (step_inv h1 hi) (step_cinv h1 hci hf.1) (hf.2 rc s1 h1) t3 ?_ ?_
    · rw [t4]
      rintro (⟨x, _⟩ | x)
      · exact ho x
      · exact hr.1 x
    · have := hr.2
      rw [h1] at this
      exact this

theorem asked_silent {c : ConnId} {d : List Out} (h : ∀ o ∈ d, outConn o ≠ some c) : asked c d = [] := by
  refine List.filterMap_eq_nil_iff.2 fun o ho => ?_
  have := h o ho
  unfold ask
  split <;> first | rfl | exact if_neg fun e => this (by rw [e]; rfl)

theorem run_quiet {ops : List Op} {s s' : State} {c : ConnId} (h : run env ops s = .ok ((), s')) (hn : ¬ InUse s c)
    (hc : ∀ a d, .connectInd c a d ∉ ops) (hd : ∀ d, .disconnectInd c d ∉ ops) : dialogue env c s ops = [] ∧ ¬ InUse s' c := by
  induction ops generalizing s with
  | nil => cases h; exact ⟨rfl, hn⟩
  | cons op ops ih =>
    obtain ⟨rc, s1, h1, h2⟩ := run_cons h
    obtain ⟨hn1, d, t, hs⟩ := run_silent (ops := [op]) (s' := s1) (bind_ok.2 ⟨rc, s1, h1, rfl⟩) hn (by
      intro o ho a x e
      exact hc a x (by rw [← e]; cases ho with | head => exact List.mem_cons_self | tail _ h => cases h))
    obtain ⟨k1, k2⟩ := ih h2 hn1 (fun a x hm => hc a x (List.mem_cons_of_mem _ hm)) fun x hm => hd x (List.mem_cons_of_mem _ hm)
    refine ⟨?_, k2⟩
    rw [dialogue_cons h1 t, asked_silent hs, k1, heard_nil.2]
    · rfl
    · exact ⟨fun a x e => hc a x (by rw [e]; exact List.mem_cons_self), fun x e => hd x (by rw [e]; exact List.mem_cons_self)⟩

end Verif.Iu
