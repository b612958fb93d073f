import Verif.Proofs.IuSafe

/-!
# One context per connection
-/

namespace Verif.Iu
open Spec Lai

variable {env : Env}

/-- Connection ids of contexts and cached requests are distinct. -/
structure CInv (s : State) : Prop where
  conns : (s.ues.map (·.conn)).Nodup
  cached : (s.cache.map (·.1)).Nodup
  disj : ∀ u ∈ s.ues, ∀ e ∈ s.cache, u.conn ≠ e.1

theorem CInv.init : CInv init := ⟨List.nodup_nil, List.nodup_nil, by simp [Iu.init]⟩

/-- Labels that add a connection id. -/
def Lbl.grows : Lbl → Bool
  | .cacheAdd _ _ => true
  | .alloc _ _ _ _ => true
  | _ => false

def NoGrow (ls : List Lbl) : Prop := ∀ l ∈ ls, l.grows = false

theorem NoGrow.nil : NoGrow [] := by intro l h; cases h
theorem NoGrow.append {a b : List Lbl} (h : NoGrow a) (h' : NoGrow b) : NoGrow (a ++ b) := by
  intro l hl
  rcases List.mem_append.1 hl with hl | hl
  · exact h l hl
  · exact h' l hl
theorem NoGrow.cons {l : Lbl} {a : List Lbl} (h : l.grows = false) (h' : NoGrow a) : NoGrow (l :: a) := by
  intro x hx
  rcases List.mem_cons.1 hx with rfl | hx
  · exact h
  · exact h' x hx
theorem NoGrow.one {l : Lbl} (h : l.grows = false) : NoGrow [l] := .cons h .nil
theorem ApiLbls.noGrow {ls : List Lbl} (h : ApiLbls ls) : NoGrow ls := by
  intro l hl
  have := h l hl
  cases l <;> simp_all [Lbl.isApi, Lbl.grows]
theorem LinkLbls.noGrow {ls : List Lbl} (h : LinkLbls ls) : NoGrow ls := by
  intro l hl
  rcases h l hl with h | ⟨p, c, rfl⟩
  · cases l <;> simp_all [Lbl.isApi, Lbl.grows]
  · rfl
theorem EvShape.noGrow {s s' : State} {p : Ptr} {e : Event} {ls : List Lbl} (h : EvShape env s p e ls s') :
    NoGrow ls := by
  rcases h with ⟨_, rfl, _⟩ | ⟨u, _, ⟨_, _, as, rfl, has⟩ | ⟨_, _, rfl, _⟩⟩
  · exact .nil
  · exact .cons rfl has.noGrow
  · exact .nil
theorem DtShape.noGrow {s : State} {p : Ptr} {ies : DtIes} {ls : List Lbl} (h : DtShape s p ies ls) : NoGrow ls := by
  rcases h with ⟨_, rfl⟩ | ⟨ra, sai, u, as, _, _, _, rfl, has⟩
  · exact .one rfl
  · exact .append (.cons rfl (.cons rfl has.noGrow)) (.one rfl)
theorem CoShape.noGrow {s s' : State} {p : Ptr} {m : Msg} {ls : List Lbl} (h : CoShape env s p m ls s') :
    NoGrow ls := by
  rcases h with ⟨_, _, ies, _, h⟩ | ⟨_, _, c, u, rc, _, _, rfl, _⟩ | ⟨_, _, h⟩ | ⟨_, _, h⟩ |
    ⟨_, _, it, l, _, h⟩ | ⟨rfl, _⟩
  · exact h.noGrow
  · exact .one rfl
  · exact h.noGrow
  · exact h.noGrow
  · exact h.noGrow
  · exact .nil
theorem RxCoShape.noGrow {s s' : State} {p : Ptr} {data : Bytes} {rc : Int} {ls : List Lbl}
    (h : RxCoShape env s p data rc ls s') : NoGrow ls := by
  rcases h with ⟨_, _, rfl, _⟩ | ⟨m, _, _, h⟩
  · exact .nil
  · exact h.noGrow
theorem ClShape.noGrow {a : SccpAddr} {m : Msg} {ls : List Lbl} (h : ClShape env a m ls) : NoGrow ls := by
  rcases h with ⟨_, _, d, rnc, _, ⟨_, rfl⟩ | ⟨b, rc, _, rfl⟩⟩ | ⟨_, rfl⟩
  · exact .nil
  · exact .one rfl
  · exact .nil

/-- No new context, no new cached request. -/
structure Shrinks (s s' : State) : Prop where
  ues : UeRel s.ues s'.ues
  cache : s'.cache.Sublist s.cache

theorem Shrinks.refl (s : State) : Shrinks s s := ⟨UeRel.refl _, List.Sublist.refl _⟩
theorem Shrinks.trans {a b c : State} (h : Shrinks a b) (h' : Shrinks b c) : Shrinks a c :=
  ⟨h.ues.trans h'.ues, h'.cache.trans h.cache⟩

theorem regState_ues (id : RncId) (rai : Rai) (addr : SccpAddr) (s : State) :
    (regState env s id rai addr).ues = s.ues ∧ (regState env s id rai addr).cache = s.cache ∧
    (regState env s id rai addr).timers = s.timers ∧ (regState env s id rai addr).trace = s.trace :=
  ⟨rfl, rfl, rfl, rfl⟩

theorem markSt_rel (s : State) (p : Ptr) : UeRel s.ues (markSt s p).ues := by
  refine UeRel.map _ _ ?_
  intro v
  by_cases hv : v.ptr = p
  · right; simp [hv]
  · left; simp [hv]

theorem Atom.shrinks {l : Lbl} {s s' : State} (h : Atom env l s s') (hl : l.grows = false) : Shrinks s s' := by
  cases h
  case cacheAdd => simp [Lbl.grows] at hl
  case alloc => simp [Lbl.grows] at hl
  case free => exact ⟨UeRel.filter _ _, List.Sublist.refl _⟩
  case release u c t _ => exact ⟨markSt_rel s u.ptr, List.Sublist.refl _⟩
  case cacheDel => exact ⟨UeRel.refl _, List.eraseP_sublist⟩
  all_goals exact ⟨UeRel.refl _, List.Sublist.refl _⟩

theorem Path.shrinks {ls : List Lbl} {s s' : State} (h : Path env ls s s') (hl : NoGrow ls) : Shrinks s s' := by
  induction h with
  | nil => exact Shrinks.refl _
  | cons ha _ ih =>
    exact (ha.shrinks (hl _ List.mem_cons_self)).trans (ih fun x hx => hl x (List.mem_cons_of_mem _ hx))

theorem CInv.shrinks {s s' : State} (h : CInv s) (hs : Shrinks s s') : CInv s' := by
  refine ⟨hs.ues.conns.nodup h.conns, (hs.cache.map _).nodup h.cached, ?_⟩
  intro u hu e he
  obtain ⟨v, hv, hsame⟩ := hs.ues.mem hu
  rw [hsame.conn]
  exact h.disj v hv e (hs.cache.subset he)

theorem notInUse_shrinks {s s' : State} {c : ConnId} (h : ¬ InUse s c) (hs : Shrinks s s') : ¬ InUse s' c := by
  rintro (⟨u, hu, rfl⟩ | ⟨e, he, rfl⟩)
  · obtain ⟨v, hv, hsame⟩ := hs.ues.mem hu
    exact h (.inl ⟨v, hv, hsame.conn.symm⟩)
  · exact h (.inr ⟨e, hs.cache.subset he, rfl⟩)

theorem CInv.allocSt {s : State} (h : CInv s) {rnc : Ptr} {c : ConnId} {ra : GprsRaId} (hc : ¬ InUse s c) :
    CInv (allocSt s rnc c ra) := by
  have hm : (s.ues.map fun u => if u.ptr = s.next then { u with raId := ra } else u).map (·.conn)
      = s.ues.map (·.conn) := by
    rw [List.map_map]; congr 1; funext u; simp only [Function.comp]; split <;> rfl
  have hn : c ∉ s.ues.map (·.conn) := by
    intro hh
    obtain ⟨u, hu, rfl⟩ := List.mem_map.1 hh
    exact hc (.inl ⟨u, hu, rfl⟩)
  refine ⟨?_, h.cached, ?_⟩
  · show (c :: (s.ues.map fun u => if u.ptr = s.next then { u with raId := ra } else u).map (·.conn)).Nodup
    rw [hm]; exact List.nodup_cons.2 ⟨hn, h.conns⟩
  · intro u hu e he
    rcases List.mem_cons.1 hu with rfl | hu
    · intro heq; exact hc (.inr ⟨e, he, heq.symm⟩)
    · obtain ⟨v, hv, rfl⟩ := List.mem_map.1 hu
      have : (if v.ptr = s.next then { v with raId := ra } else v : Ue).conn = v.conn := by split <;> rfl
      rw [this]; exact h.disj v hv e he

/-- Handling a first message keeps connection ids distinct. -/
theorem RxInitShape.cinv {s s' : State} {ctx : NewCtx} {data : Bytes} {rc : Int} {ls : List Lbl}
    (h : RxInitShape env s ctx data rc ls s') (hp : Path env ls s s') (hi : CInv s) (hc : ¬ InUse s ctx.conn) :
    CInv s' := by
  rcases h with ⟨_, _, rfl, rfl⟩ | ⟨m, _, _, ⟨_, rfl, rfl⟩ | ⟨_, _, ies, _, ⟨_, rfl⟩ |
    ⟨id, ra, sai, es, p, as, _, rfl, has, _, hes⟩⟩⟩
  · exact hi
  · exact hi
  · exact hi.shrinks (hp.shrinks (.one rfl))
  · have hes' : NoGrow es := by
      rcases hes with ⟨_, rfl⟩ | ⟨_, as', rfl, has'⟩
      · exact .nil
      · exact .cons rfl has'.noGrow
    obtain ⟨s1, hp1, hp2⟩ := Path.append_inv (a := .nasAlloc :: .register id (gprsRaiToOsmo ra) ctx.addr :: es)
      (b := .alloc p (regPtr env s id ctx.addr) ctx.conn ra ::
          .cb (.recv p ctx.conn ies.nas (some ra) (some sai)) :: (as ++ [.nasFree])) (by simpa using hp)
    have sh1 := hp1.shrinks (.cons rfl (.cons rfl hes'))
    obtain ⟨s2, ha, hp3⟩ := hp2.cons_inv
    have sh3 := hp3.shrinks (.cons rfl (has.noGrow.append (.one rfl)))
    cases ha
    exact ((hi.shrinks sh1).allocSt (notInUse_shrinks hc sh1)).shrinks sh3

theorem Atom.sap_inv {p : Prim} {rc : Int} {s s' : State} (h : Atom env (.sap p rc) s s') :
    s' = { s with trace := s.trace ++ [.sap p rc] } := by
  generalize hl : Lbl.sap p rc = l at h
  cases h <;> first | (cases hl; rfl) | cases hl

theorem uncached_shrinks (s : State) (c : ConnId) : Shrinks s (uncached s c) :=
  ⟨UeRel.refl _, List.eraseP_sublist⟩

theorem eraseP_none {l : List (ConnId × SccpAddr)} (h : (l.map (·.1)).Nodup) (c : ConnId) :
    ∀ e ∈ l.eraseP (·.1 = c), e.1 ≠ c := by
  induction l with
  | nil => simp
  | cons x l ih =>
    intro e he
    rw [List.map_cons, List.nodup_cons] at h
    rw [List.eraseP_cons] at he
    by_cases hx : x.1 = c
    · simp only [hx, decide_true, if_pos] at he
      intro hec
      exact h.1 (List.mem_map.2 ⟨e, he, by rw [hec, hx]⟩)
    · simp only [hx, decide_false] at he
      rcases List.mem_cons.1 (by simpa using he) with rfl | he
      · exact hx
      · exact ih h.2 e he

theorem step_cinv {op : Op} {s s' : State} {rc : Int} (h : step env op s = .ok (rc, s')) (hi : CInv s)
    (hf : ∀ c a d, op = .connectInd c a d → ¬ InUse s c) : CInv s' := by
  cases op with
  | connectInd c a d =>
    have hc := hf c a d rfl
    obtain ⟨ls, hp, ls', rfl, h'⟩ := wp_ok (pl_connectInd c a d s) h
    obtain ⟨s1, ha, hp1⟩ := hp.cons_inv
    obtain rfl := ha.sap_inv
    have hc1 : ¬ InUse (confirmed env s c) c := hc
    have hi1 : CInv (confirmed env s c) := ⟨hi.1, hi.2, hi.3⟩
    rcases h' with ⟨_, _, rfl⟩ | ⟨_, h'⟩
    · obtain ⟨s2, ha2, hp2⟩ := hp1.cons_inv
      cases hp2
      cases ha2
      refine ⟨hi.conns, List.nodup_cons.2 ⟨?_, hi.cached⟩, ?_⟩
      · intro hh
        obtain ⟨e, he, hec⟩ := List.mem_map.1 hh
        exact hc (.inr ⟨e, he, hec⟩)
      · intro u hu e he
        rcases List.mem_cons.1 he with rfl | he
        · intro heq; exact hc (.inl ⟨u, hu, heq⟩)
        · exact hi.disj u hu e he
    · exact h'.cinv hp1 hi1 hc1
  | connectConf => cases h; exact hi
  | disconnectInd c d =>
    obtain ⟨ls, hp, ls1, rfl, h'⟩ := wp_ok (pl_disconnectInd c d s) h
    refine hi.shrinks (hp.shrinks (.cons rfl ?_))
    rcases h' with ⟨_, _, rfl, _⟩ | ⟨u, ms, s1, fs, _, rfl, _, hms, hfs⟩
    · exact .nil
    · refine .append ?_ ?_
      · rcases hms with ⟨_, _, rfl, _⟩ | ⟨_, h⟩
        · exact .nil
        · exact h.noGrow
      · rcases hfs with ⟨_, rfl, _⟩ | ⟨v, _, h⟩
        · exact .nil
        · exact h.lbls.noGrow
  | dataInd c d =>
    obtain ⟨ls, hp, h'⟩ := wp_ok (pl_dataInd c d s) h
    rcases h' with ⟨u, _, h'⟩ | ⟨_, _, _, rfl, rfl⟩ | ⟨addr, ls', hn, _, rfl, h'⟩
    · exact hi.shrinks (hp.shrinks h'.noGrow)
    · exact hi
    · obtain ⟨s1, ha, hp1⟩ := hp.cons_inv
      cases ha
      refine h'.cinv hp1 (hi.shrinks (uncached_shrinks s c)) ?_
      rintro (hh | ⟨e, he, hec⟩)
      · exact ctxFind_none.1 hn hh
      · exact eraseP_none hi.cached c e he hec
  | unitdataInd a d =>
    obtain ⟨ls, hp, h'⟩ := wp_ok (pl_unitdataInd a d s) h
    rcases h' with ⟨_, _, rfl⟩ | ⟨m, _, _, h'⟩
    · exact hi.shrinks (hp.shrinks .nil)
    · exact hi.shrinks (hp.shrinks h'.noGrow)
  | noticeInd a c =>
    obtain ⟨ls, hp, _, h'⟩ := wp_ok (pl_notice a c s) h
    exact hi.shrinks (hp.shrinks h'.noGrow)
  | pcstateInd a b c =>
    obtain ⟨ls, hp, _, h'⟩ := wp_ok (pl_pcstate a b c s) h
    exact hi.shrinks (hp.shrinks h'.noGrow)
  | otherInd => cases h; exact hi
  | timer p =>
    obtain ⟨ls, hp, _, h'⟩ := wp_ok (pl_timer p s) h
    rcases h' with ⟨_, rfl, rfl⟩ | ⟨_, ls', rfl, h'⟩
    · exact hi
    · exact hi.shrinks (hp.shrinks (.cons rfl h'.noGrow))
  | api a =>
    obtain ⟨ls, hp, h'⟩ := wp_ok (pl_runApi a s) h
    exact hi.shrinks (hp.shrinks h'.noGrow)

theorem run_cinv {ops : List Op} {s s' : State} (h : run env ops s = .ok ((), s')) (hi : CInv s)
    (hf : FreshConns env s ops) : CInv s' := by
  induction ops generalizing s with
  | nil => cases h; exact hi
  | cons op ops ih =>
    obtain ⟨rc, s1, h1, h2⟩ := run_cons h
    exact ih h2 (step_cinv h1 hi hf.1) (hf.2 rc s1 h1)

end Verif.Iu
