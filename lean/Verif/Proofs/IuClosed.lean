import Verif.Proofs.IuAfter

/-!
# After N-DISCONNECT.req a connection is silent until it is confirmed again
-/

namespace Verif.Iu
open Spec

variable {env : Env}

theorem Spec.Closed.snoc {c : ConnId} {t : List Out} {o : Out} (h : Closed c (t ++ [o])) :
    (∃ r, o = .sap (.disconnectReq c) r) ∨ (Closed c t ∧ outConn o ≠ some c) := by
  obtain ⟨a, r, b, hb, hn⟩ := h
  rcases List.eq_nil_or_concat b with rfl | ⟨b', x, rfl⟩
  · obtain ⟨_, h2⟩ := List.append_inj' hb rfl
    cases h2
    exact .inl ⟨r, rfl⟩
  · have : t ++ [o] = (a ++ .sap (.disconnectReq c) r :: b') ++ [x] := by rw [hb]; simp
    obtain ⟨h1, h2⟩ := List.append_inj' this rfl
    cases h2
    exact .inr ⟨⟨a, r, b', h1, fun y hy => hn y (by simp [hy])⟩, hn _ (by simp)⟩

theorem Spec.Closed.back {c : ConnId} {t d : List Out} (h : Closed c (t ++ d)) (hd : ∀ o ∈ d, outConn o ≠ some c) :
    Closed c t := by
  induction d generalizing t with
  | nil => simpa using h
  | cons o d ih =>
    have : Closed c (t ++ [o]) := ih (t := t ++ [o]) (by simpa using h) fun x hx => hd x (by simp [hx])
    rcases this.snoc with ⟨r, rfl⟩ | ⟨h, _⟩
    · exact absurd rfl (hd (.sap (.disconnectReq c) r) (by simp))
    · exact h

/-- Closed connections are not in use, and stay silent. -/
structure Shut (s : State) : Prop where
  unused : ∀ c, Closed c s.trace → ¬ InUse s c
  silent : ∀ c a o b, s.trace = a ++ o :: b → outConn o = some c → Closed c a → ∃ r, o = .sap (.connectResp c) r

theorem Shut.init : Shut init := by
  refine ⟨?_, ?_⟩
  · rintro c ⟨a, r, b, h, _⟩
    exact absurd h (by simp [Iu.init])
  · intro c a o b h
    exact absurd h (by simp [Iu.init])

theorem Shut.congr {s s' : State} (h : Shut s) (ht : s'.trace = s.trace) (hu : ∀ c, InUse s' c → InUse s c) : Shut s' :=
  ⟨fun c hc hi => h.unused c (ht ▸ hc) (hu c hi), fun c a o b he => h.silent c a o b (ht ▸ he)⟩

theorem Shut.emit {s s' : State} {o : Out} (h : Shut s) (ht : s'.trace = s.trace ++ [o])
    (hu : ∀ c, InUse s' c → InUse s c) (ho : ∀ c, outConn o = some c → (∃ r, o = .sap (.connectResp c) r) ∨ HasCtx s c)
    (hd : ∀ c r, o = .sap (.disconnectReq c) r → ¬ InUse s' c) : Shut s' := by
  refine ⟨?_, ?_⟩
  · intro c hc
    rw [ht] at hc
    rcases hc.snoc with ⟨r, hr⟩ | ⟨hc, _⟩
    · exact hd c r hr
    · exact fun hi => h.unused c hc (hu c hi)
  · intro c a x b he hx hc
    rw [ht] at he
    rcases List.eq_nil_or_concat b with rfl | ⟨b', y, rfl⟩
    · obtain ⟨h1, h2⟩ := List.append_inj' he rfl
      cases h2
      rcases ho c hx with hr | hr
      · exact hr
      · exact absurd (Or.inl hr) (h.unused c (h1 ▸ hc))
    · have : s.trace ++ [o] = (a ++ x :: b') ++ [y] := by rw [he]; simp
      obtain ⟨h1, _⟩ := List.append_inj' this rfl
      exact h.silent c a x b' h1 hx hc

theorem InUse.shrinks {s s' : State} (hs : Shrinks s s') (c : ConnId) (h : InUse s' c) : InUse s c := by
  exact Classical.byContradiction fun hn => notInUse_shrinks hn hs h

theorem Atom.shut {l : Lbl} {s s' : State} (ha : Atom env l s s') (hg : l.grows = false) (hc : CInv s) (h : Shut s) :
    Shut s' := by
  have hu := InUse.shrinks (ha.shrinks hg)
  cases ha
  case sap p hp hx =>
    refine h.emit rfl hu ?_ ?_
    · intro c ho
      cases p with
      | connectResp c' => cases ho; exact .inl ⟨_, rfl⟩
      | dataReq c' m => cases ho; exact .inr (hx _ _ rfl)
      | disconnectReq c' => cases hp
      | unitdataReq => cases ho
    · intro c r ho
      cases ho
      cases hp
  case free u hf =>
    have hm := List.mem_of_find?_eq_some hf
    refine h.emit rfl hu ?_ ?_
    · intro c ho; cases ho; exact .inr ⟨u, hm, rfl⟩
    · intro c r ho
      cases ho
      rintro (⟨v, hv, hvc⟩ | ⟨e, he, hec⟩)
      · obtain ⟨hv1, hv2⟩ := List.mem_filter.1 hv
        have hn := hc.conns
        have : ∀ (l : List Ue), (l.map (·.conn)).Nodup → ∀ a ∈ l, ∀ b ∈ l, a.conn = b.conn → a = b := by
          intro l hl
          induction l with
          | nil => simp
          | cons x l ih =>
            rw [List.map_cons, List.nodup_cons] at hl
            intro a ha b hb hab
            rcases List.mem_cons.1 ha with ha | ha <;> rcases List.mem_cons.1 hb with hb | hb
            · rw [ha, hb]
            · exact absurd (List.mem_map.2 ⟨b, hb, by rw [← hab, ha]⟩) hl.1
            · exact absurd (List.mem_map.2 ⟨a, ha, by rw [hab, hb]⟩) hl.1
            · exact ih hl.2 a ha b hb hab
        rw [this _ hn v hv1 u hm hvc] at hv2
        simp at hv2
      · exact hc.disj u hm e he hec.symm
  case release u c t hf =>
    have hm := List.mem_of_find?_eq_some hf
    refine h.emit rfl hu ?_ ?_
    · intro c ho; cases ho; exact .inr ⟨u, hm, rfl⟩
    · intro c r ho; cases ho
  case cbRecv q c nas ra sai hq =>
    refine h.emit rfl hu ?_ ?_
    · intro c ho; cases ho
      obtain ⟨u, hu, _, h⟩ := hq
      exact .inr ⟨u, hu, h⟩
    · intro c r ho; cases ho
  case cbEvent u e _ _ hf =>
    refine h.emit rfl hu ?_ ?_
    · intro c ho; cases ho
      exact .inr ⟨u, List.mem_of_find?_eq_some hf, rfl⟩
    · intro c r ho; cases ho
  case cbArea =>
    refine h.emit rfl hu ?_ ?_
    · intro c ho; cases ho
    · intro c r ho; cases ho
  case cacheAdd => simp [Lbl.grows] at hg
  case alloc => simp [Lbl.grows] at hg
  all_goals exact h.congr rfl hu

theorem Path.shut {ls : List Lbl} {s s' : State} (hp : Path env ls s s') (hg : NoGrow ls) (hc : CInv s) (h : Shut s) :
    CInv s' ∧ Shut s' := by
  induction hp with
  | nil => exact ⟨hc, h⟩
  | cons ha _ ih =>
    have hl := hg _ List.mem_cons_self
    exact ih (fun x hx => hg x (List.mem_cons_of_mem _ hx)) (hc.shrinks (ha.shrinks hl)) (ha.shut hl hc h)

theorem RxInitShape.shut {s s' : State} {ctx : NewCtx} {data : Bytes} {rc : Int} {ls : List Lbl}
    (h : RxInitShape env s ctx data rc ls s') (hp : Path env ls s s') (hi : CInv s) (hs : Shut s)
    (hc : ¬ InUse s ctx.conn) (ho : ¬ Closed ctx.conn s.trace) : CInv s' ∧ Shut s' := by
  rcases h with ⟨_, _, rfl, rfl⟩ | ⟨m, _, _, ⟨_, rfl, rfl⟩ | ⟨_, _, ies, _, ⟨_, rfl⟩ |
    ⟨id, ra, sai, es, p, as, _, rfl, has, _, hes⟩⟩⟩
  · exact ⟨hi, hs⟩
  · exact ⟨hi, hs⟩
  · exact hp.shut (.one rfl) hi hs
  · have hes' : NoGrow es := by
      rcases hes with ⟨_, rfl⟩ | ⟨_, as', rfl, has'⟩
      · exact .nil
      · exact .cons rfl has'.noGrow
    have hest : NoTouch ctx.conn es := by
      rcases hes with ⟨_, rfl⟩ | ⟨_, as', rfl, has'⟩
      · exact .nil
      · exact .cons rfl has'.noTouch
    obtain ⟨s1, hp1, hp2⟩ := Path.append_inv (a := .nasAlloc :: .register id (gprsRaiToOsmo ra) ctx.addr :: es)
      (b := .alloc p (regPtr env s id ctx.addr) ctx.conn ra ::
          .cb (.recv p ctx.conn ies.nas (some ra) (some sai)) :: (as ++ [.nasFree])) (by simpa using hp)
    have hg1 : NoGrow (.nasAlloc :: .register id (gprsRaiToOsmo ra) ctx.addr :: es) := .cons rfl (.cons rfl hes')
    have sh1 := hp1.shrinks hg1
    obtain ⟨i1, k1⟩ := hp1.shut hg1 hi hs
    have hc1 := notInUse_shrinks hc sh1
    have ho1 : ¬ Closed ctx.conn s1.trace := by
      obtain ⟨d, hd, hn⟩ := hp1.silent (.cons rfl (.cons rfl hest)) fun h => hc (.inl h)
      rw [hd]
      exact fun h => ho (h.back hn)
    obtain ⟨s2, ha, hp3⟩ := hp2.cons_inv
    cases ha
    refine hp3.shut (.cons rfl (has.noGrow.append (.one rfl))) (i1.allocSt hc1) ⟨?_, k1.silent⟩
    intro c hcl
    have hcl' : Closed c s1.trace := hcl
    rintro (⟨u, hu, huc⟩ | hh)
    · rcases List.mem_cons.1 (show u ∈ _ :: s1.ues.map _ from hu) with rfl | hu
      · subst huc; exact ho1 hcl'
      · obtain ⟨v, hv, rfl⟩ := List.mem_map.1 hu
        refine k1.unused c hcl' (.inl ⟨v, hv, ?_⟩)
        rw [← huc]; split <;> rfl
    · exact k1.unused c hcl' (.inr hh)

theorem step_shut {op : Op} {s s' : State} {rc : Int} (h : step env op s = .ok (rc, s')) (hi : CInv s) (hs : Shut s)
    (hf : ∀ c a d, op = .connectInd c a d → ¬ InUse s c) : Shut s' := by
  cases op with
  | connectInd c a d =>
    have hc := hf c a d rfl
    obtain ⟨ls, hp, ls', rfl, h'⟩ := wp_ok (pl_connectInd c a d s) h
    obtain ⟨s1, ha, hp1⟩ := hp.cons_inv
    have hs1 := ha.shut rfl hi hs
    obtain rfl := ha.sap_inv
    have hc1 : ¬ InUse (confirmed env s c) c := hc
    have hi1 : CInv (confirmed env s c) := ⟨hi.1, hi.2, hi.3⟩
    have hs1 : Shut (confirmed env s c) := hs1
    have ho1 : ¬ Closed c (confirmed env s c).trace := by
      intro hh
      rcases Spec.Closed.snoc hh with ⟨r, hr⟩ | ⟨_, hr⟩
      · cases hr
      · exact hr rfl
    rcases h' with ⟨_, _, rfl⟩ | ⟨_, h'⟩
    · obtain ⟨s2, ha2, hp2⟩ := hp1.cons_inv
      cases hp2
      cases ha2
      refine ⟨?_, hs1.silent⟩
      intro c' hcl
      have hcl' : Closed c' (confirmed env s c).trace := hcl
      rintro (hh | ⟨e, he, hec⟩)
      · exact hs1.unused c' hcl' (.inl hh)
      · rcases List.mem_cons.1 he with rfl | he
        · subst hec; exact ho1 hcl'
        · exact hs1.unused c' hcl' (.inr ⟨e, he, hec⟩)
    · exact (h'.shut hp1 hi1 hs1 hc1 ho1).2
  | connectConf => cases h; exact hs
  | disconnectInd c d =>
    obtain ⟨ls, hp, ls1, rfl, h'⟩ := wp_ok (pl_disconnectInd c d s) h
    refine (hp.shut (.cons rfl ?_) hi hs).2
    rcases h' with ⟨_, _, rfl, _⟩ | ⟨u, ms, s1, fs, _, rfl, _, hms, hfs⟩
    · exact .nil
    · refine .append ?_ ?_
      · rcases hms with ⟨_, _, rfl, _⟩ | ⟨_, h⟩
        · exact .nil
        · exact h.noGrow
      · rcases hfs with ⟨_, rfl, _⟩ | ⟨v, _, h⟩
        · exact .nil
        · exact h.lbls.noGrow
  | dataInd c d =>
    obtain ⟨ls, hp, h'⟩ := wp_ok (pl_dataInd c d s) h
    rcases h' with ⟨u, _, h'⟩ | ⟨_, _, _, rfl, rfl⟩ | ⟨addr, ls', hn, hcf, rfl, h'⟩
    · exact (hp.shut h'.noGrow hi hs).2
    · exact hs
    · obtain ⟨s1, ha, hp1⟩ := hp.cons_inv
      have hs1 := ha.shut rfl hi hs
      cases ha
      refine (h'.shut hp1 (hi.shrinks (uncached_shrinks s c)) hs1 ?_ ?_).2
      · rintro (hh | ⟨e, he, hec⟩)
        · exact ctxFind_none.1 hn hh
        · exact eraseP_none hi.cached c e he hec
      · intro hcl
        have hcl' : Closed c s.trace := hcl
        refine hs.unused c hcl' (.inr ?_)
        unfold cacheFind at hcf
        rw [Option.map_eq_some_iff] at hcf
        obtain ⟨e, he, _⟩ := hcf
        exact ⟨e, List.mem_of_find?_eq_some he, by simpa using List.find?_some he⟩
  | unitdataInd a d =>
    obtain ⟨ls, hp, h'⟩ := wp_ok (pl_unitdataInd a d s) h
    rcases h' with ⟨_, _, rfl⟩ | ⟨m, _, _, h'⟩
    · exact (hp.shut .nil hi hs).2
    · exact (hp.shut h'.noGrow hi hs).2
  | noticeInd a c =>
    obtain ⟨ls, hp, _, h'⟩ := wp_ok (pl_notice a c s) h
    exact (hp.shut h'.noGrow hi hs).2
  | pcstateInd a b c =>
    obtain ⟨ls, hp, _, h'⟩ := wp_ok (pl_pcstate a b c s) h
    exact (hp.shut h'.noGrow hi hs).2
  | otherInd => cases h; exact hs
  | timer p =>
    obtain ⟨ls, hp, _, h'⟩ := wp_ok (pl_timer p s) h
    rcases h' with ⟨_, rfl, rfl⟩ | ⟨_, ls', rfl, h'⟩
    · exact hs
    · exact (hp.shut (.cons rfl h'.noGrow) hi hs).2
  | api a =>
    obtain ⟨ls, hp, h'⟩ := wp_ok (pl_runApi a s) h
    exact (hp.shut h'.noGrow hi hs).2

theorem run_shut {ops : List Op} {s s' : State} (h : run env ops s = .ok ((), s')) (hi : CInv s) (hs : Shut s)
    (hf : FreshConns env s ops) : Shut s' := by
  induction ops generalizing s with
  | nil => cases h; exact hs
  | cons op ops ih =>
    obtain ⟨rc, s1, h1, h2⟩ := bind_ok.1 h
    exact ih h2 (step_cinv h1 hi hf.1) (step_shut h1 hi hs hf.1) (hf.2 rc s1 h1)

end Verif.Iu
