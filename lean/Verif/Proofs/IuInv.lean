import Verif.Proofs.IuReg

/-!
# The invariant of the Iu client, for arbitrary environments
-/

namespace Verif.Iu
open Spec

structure Inv (s : State) : Prop where
  reg : RInv s.rncs s.next
  ueNodup : (s.ues.map (·.ptr)).Nodup
  ueLt : ∀ u ∈ s.ues, u.ptr < s.next
  ueRnc : ∀ u ∈ s.ues, ∃ r ∈ s.rncs, r.ptr = u.rnc
  tNodup : (s.timers.map (·.1)).Nodup
  tLive : ∀ t ∈ s.timers, ∃ u ∈ s.ues, u.ptr = t.1 ∧ u.notification = false ∧ u.freeOnRelease = true

theorem Inv.init : Inv init :=
  ⟨RInv.nil, List.nodup_nil, by simp [Iu.init], by simp [Iu.init], List.nodup_nil, by simp [Iu.init]⟩

theorem ue_inj {l : List Ue} (h : (l.map (·.ptr)).Nodup) {a b : Ue} (ha : a ∈ l) (hb : b ∈ l)
    (he : a.ptr = b.ptr) : a = b := by
  induction l with
  | nil => cases ha
  | cons x l ih =>
    simp only [List.map_cons, List.nodup_cons, List.mem_map, not_exists, not_and] at h
    rcases List.mem_cons.1 ha with rfl | ha' <;> rcases List.mem_cons.1 hb with rfl | hb'
    · rfl
    · exact absurd he.symm (h.1 b hb')
    · exact absurd he (h.1 a ha')
    · exact ih h.2 ha' hb'

/-- Parts of the invariant that follow from `Eff`. -/
theorem Inv.ofEff {s s' : State} (h : Inv s) (e : Eff s s')
    (ht : (s'.timers.map (·.1)).Nodup)
    (hl : ∀ t ∈ s'.timers, ∃ u ∈ s'.ues, u.ptr = t.1 ∧ u.notification = false ∧ u.freeOnRelease = true) :
    Inv s' := by
  refine ⟨by rw [e.rncs, e.next]; exact h.reg, (e.ues.ptrs).nodup h.ueNodup, ?_, ?_, ht, hl⟩
  · intro u' hu'
    obtain ⟨u, hu, hs⟩ := e.ues.mem hu'
    rw [hs.ptr, e.next]; exact h.ueLt u hu
  · intro u' hu'
    obtain ⟨u, hu, hs⟩ := e.ues.mem hu'
    rw [hs.rnc, e.rncs]; exact h.ueRnc u hu

/-- Nothing but the trace and the buffer count changes. -/
theorem Inv.congr {s s' : State} (h : Inv s) (h1 : s'.ues = s.ues) (h2 : s'.rncs = s.rncs)
    (h3 : s'.timers = s.timers) (h4 : s'.next = s.next) : Inv s' := by
  refine ⟨?_, ?_, ?_, ?_, ?_, ?_⟩
  · rw [h2, h4]; exact h.reg
  · rw [h1]; exact h.ueNodup
  · rw [h1, h4]; exact h.ueLt
  · rw [h1, h2]; exact h.ueRnc
  · rw [h3]; exact h.tNodup
  · rw [h3, h1]; exact h.tLive

theorem Inv.ofTr {s s' : State} (h : Inv s) (e : TrOnly s s') : Inv s' := by
  obtain ⟨d, b, rfl, _⟩ := e
  exact h.congr rfl rfl rfl rfl

theorem Inv.emit {s : State} (h : Inv s) (o : Out) : Inv { s with trace := s.trace ++ [o] } :=
  h.congr rfl rfl rfl rfl

variable {env : Env}

/-- `m` keeps the property `I` of the state. -/
def Pres {α : Type} (I : State → Prop) (m : M α) : Prop := ∀ s, I s → wp anyF m (fun _ s' => I s') s

theorem Pres.pure {α : Type} {I : State → Prop} (a : α) : Pres I (pure a : M α) := fun _ h => h
theorem Pres.fault {α : Type} {I : State → Prop} (e : Fault) : Pres I (M.fault e : M α) := fun _ _ => trivial
theorem Pres.bind {α β : Type} {I : State → Prop} {m : M α} {f : α → M β} (hm : Pres I m)
    (hf : ∀ a, Pres I (f a)) : Pres I (m >>= f) := by
  intro s hs
  rw [wp_bind]
  exact wp_mono (hm s hs) (fun a s' h => hf a s' h)
theorem Pres.get {I : State → Prop} : Pres I M.get := fun _ h => h
theorem Pres.lift {α : Type} {I : State → Prop} (r : Res α) : Pres I (M.lift r) := by
  intro s hs; rw [wp_lift]; cases r <;> simp [hs, anyF]
theorem Pres.deref {I : State → Prop} (p : Ptr) : Pres I (deref p) := by
  intro s hs; exact wp_mono (eff_deref p s) (by rintro u s' ⟨rfl, _⟩; exact hs)
theorem Pres.genMsg {I : State → Prop} (m : TxMsg) : Pres I (genMsg env m) := by
  intro s hs; exact wp_mono (eff_genMsg m s) (by rintro _ s' rfl; exact hs)
theorem Pres.modify {I : State → Prop} {f : State → State} (h : ∀ s, I s → I (f s)) :
    Pres I (M.modify f) := fun s hs => h s hs
theorem Pres.ite {α : Type} {I : State → Prop} {c : Prop} [Decidable c] {m m' : M α} (h : Pres I m)
    (h' : Pres I m') : Pres I (if c then m else m') := by split <;> assumption

theorem inv_freeUe (ue : Option Ptr) : Pres Inv (freeUe env ue) := by
  intro s hs
  unfold freeUe
  cases ue with
  | none => exact hs
  | some p =>
    simp only [wp_bind]
    refine wp_mono (eff_deref p s) ?_
    rintro u s' ⟨rfl, _⟩
    simp only [wp_modify, wp_sapDown]
    refine hs.ofEff ((Eff.timers s' _).trans ((Eff.sap _ _ _).trans (Eff.ofFree _ _ (UeRel.filter _ _)))) ?_ ?_
    · exact (List.Sublist.map _ List.filter_sublist).nodup hs.tNodup
    · intro t ht
      simp only [List.mem_filter, decide_eq_true_eq] at ht
      obtain ⟨v, hv, h1, h2⟩ := hs.tLive t ht.1
      refine ⟨v, ?_, h1, h2⟩
      simp only [List.mem_filter, decide_eq_true_eq]
      exact ⟨hv, h1 ▸ ht.2⟩

theorem inv_iuTxReleaseFree (p : Ptr) (c : Option Cause) (t : Int) : Pres Inv (iuTxReleaseFree env p c t) := by
  intro s hs
  unfold iuTxReleaseFree
  simp only [wp_bind]
  refine wp_mono (eff_deref p s) ?_
  rintro u s' ⟨rfl, hu⟩
  simp only [wp_modify]
  refine wp_mono (tr_iuTxRelease p c _) ?_
  intro rc s'' he
  have hmem := List.mem_of_find?_eq_some hu
  have hptr : u.ptr = p := by simpa using List.find?_some hu
  obtain ⟨d, b, rfl, hd⟩ := he
  refine hs.ofEff ⟨rfl, rfl, rfl, rfl, UeRel.map _ _ ?_, d, rfl, hd⟩ ?_ ?_
  · intro v
    by_cases hv : v.ptr = p
    · right; simp [hv]
    · left; simp [hv]
  · simp only [List.map_cons, List.nodup_cons, List.mem_map, List.mem_filter, decide_eq_true_eq]
    refine ⟨?_, (List.Sublist.map _ List.filter_sublist).nodup hs.tNodup⟩
    rintro ⟨x, ⟨_, h1⟩, h2⟩; exact h1 h2
  · intro x hx
    rcases List.mem_cons.1 hx with rfl | hx
    · refine ⟨_, List.mem_map.2 ⟨u, hmem, rfl⟩, ?_⟩
      simp [hptr]
    · simp only [List.mem_filter] at hx
      obtain ⟨v, hv, h1, h2, h3⟩ := hs.tLive x hx.1
      refine ⟨_, List.mem_map.2 ⟨v, hv, rfl⟩, ?_⟩
      split
      · exact ⟨h1, rfl, rfl⟩
      · exact ⟨h1, h2, h3⟩

theorem inv_runApi (a : Api) : Pres Inv (runApi env a) := by
  cases hm : a.mutates with
  | false => intro s hs; exact wp_mono (tr_runApi a hm s) (fun _ _ h => hs.ofTr h)
  | true =>
    unfold runApi
    cases a <;> first | (cases hm; done) | skip
    · exact Pres.bind (inv_freeUe _) (fun _ => Pres.pure _)
    · exact Pres.bind (inv_iuTxReleaseFree _ _ _) (fun _ => Pres.pure _)

theorem inv_runScript (sc : Script) : Pres Inv (runScript env sc) := by
  induction sc with
  | done => exact Pres.pure _
  | call a k ih => exact Pres.bind (inv_runApi a) ih

theorem inv_emit (o : Out) : Pres Inv (emit o) := fun _ h => h.emit o

theorem inv_sapDown (p : Prim) : Pres Inv (sapDown env p) := by
  intro s h; rw [wp_sapDown]; exact h.emit _

theorem inv_callback (o : Out) : Pres Inv (callback env o) :=
  Pres.bind (inv_emit o) (fun _ => Pres.bind Pres.get (fun _ => inv_runScript _))

theorem inv_iuEvent (ue : Option Ptr) (e : Event) : Pres Inv (iuEvent env ue e) := by
  unfold iuEvent
  refine Pres.ite ?_ (Pres.pure _)
  cases ue with
  | none => exact inv_callback _
  | some p => exact Pres.bind (Pres.deref p) (fun u => Pres.ite (inv_callback _) (Pres.pure _))

theorem inv_iuEventNewArea (id : RncId) (rai : Rai) : Pres Inv (iuEventNewArea env id rai) :=
  Pres.ite (inv_iuEvent _ _) (inv_iuEvent _ _)

/-- Effect of NEW_AREA notification: at most one event, then API effects. -/
theorem eff_iuEventNewArea (id : RncId) (rai : Rai) (s : State) :
    wp anyF (iuEventNewArea env id rai) (fun _ s' =>
      s'.rncs = s.rncs ∧ s'.next = s.next ∧ s'.cache = s.cache) s := by
  have key : ∀ e, wp anyF (iuEvent env none e) (fun _ s' =>
      s'.rncs = s.rncs ∧ s'.next = s.next ∧ s'.cache = s.cache) s := by
    intro e
    unfold iuEvent
    split
    · exact wp_mono (eff_callback _ s) (fun _ _ h => ⟨h.rncs, h.next, h.cache⟩)
    · exact ⟨rfl, rfl, rfl⟩
  unfold iuEventNewArea
  split
  · exact key _
  · exact key _

theorem regState_inv (id : RncId) (rai : Rai) (addr : SccpAddr) (s : State) (hs : Inv s) :
    Inv (regState env s id rai addr) ∧ ∃ r ∈ (regState env s id rai addr).rncs, r.ptr = regPtr env s id addr := by
  obtain ⟨h1, ⟨r, hr, hrp, _⟩, h3, h4, _⟩ := reg1_inv (env := env) id addr hs.reg
  have hptr : ∃ r ∈ (reg1 env s id addr).1, r.ptr = (reg1 env s id addr).2.1 := ⟨r, hr, hrp⟩
  exact ⟨⟨reg2_inv h1 hptr, hs.ueNodup, fun u hu => Nat.lt_of_lt_of_le (hs.ueLt u hu) h3,
      fun u hu => reg2_ptr (h4 _ (hs.ueRnc u hu)), hs.tNodup, hs.tLive⟩, reg2_ptr hptr⟩

theorem inv_rncRegister (id : RncId) (rai : Rai) (addr : SccpAddr) (s : State) (hs : Inv s) :
    wp anyF (rncRegister env id rai addr) (fun p s' => Inv s' ∧ ∃ r ∈ s'.rncs, r.ptr = p) s := by
  unfold wp
  rw [rncRegister_eq]
  obtain ⟨h1, h2⟩ := regState_inv (env := env) id rai addr s hs
  have key : wp anyF (regEvent env s id rai addr >>= fun _ => pure (regPtr env s id addr))
        (fun p s' => Inv s' ∧ ∃ r ∈ s'.rncs, r.ptr = p) (regState env s id rai addr) := by
    simp only [wp_bind, wp_pure]
    unfold regEvent
    split
    · refine wp_mono (wp_and (inv_iuEventNewArea (env := env) id rai _ h1)
        (eff_iuEventNewArea (env := env) id rai _)) ?_
      rintro _ s'' ⟨h, h', _⟩
      refine ⟨h, ?_⟩
      rw [h']; exact h2
    · exact ⟨h1, h2⟩
  unfold wp at key
  exact key

theorem inv_ctxAlloc (rnc : Ptr) (conn : ConnId) (s : State) (hs : Inv s) (hr : ∃ r ∈ s.rncs, r.ptr = rnc) :
    wp anyF (ctxAlloc rnc conn) (fun _ s' => Inv s') s := by
  unfold ctxAlloc
  simp only [wp_bind, wp_get, wp_modify, wp_pure]
  refine ⟨hs.reg.mono (Nat.le_succ _), ?_, ?_, ?_, hs.tNodup, ?_⟩
  · simp only [List.map_cons, List.nodup_cons, List.mem_map, not_exists, not_and]
    refine ⟨fun u hu he => ?_, hs.ueNodup⟩
    exact absurd he (Nat.ne_of_lt (hs.ueLt u hu))
  · intro u hu
    rcases List.mem_cons.1 hu with rfl | hu
    · exact Nat.lt_succ_self _
    · exact Nat.lt_succ_of_lt (hs.ueLt u hu)
  · intro u hu
    rcases List.mem_cons.1 hu with rfl | hu
    · exact hr
    · exact hs.ueRnc u hu
  · intro t ht
    obtain ⟨u, hu, h⟩ := hs.tLive t ht
    exact ⟨u, List.mem_cons_of_mem _ hu, h⟩

theorem inv_setRa (p : Ptr) (ra : GprsRaId) (s : State) (hs : Inv s) :
    Inv { s with ues := s.ues.map fun u => if u.ptr = p then { u with raId := ra } else u } := by
  refine ⟨hs.reg, ?_, ?_, ?_, hs.tNodup, ?_⟩
  · rw [List.map_map, show ((fun u : Ue => u.ptr) ∘ fun u : Ue => if u.ptr = p then { u with raId := ra } else u)
      = fun u => u.ptr from funext (by intro u; simp only [Function.comp]; split <;> rfl)]
    exact hs.ueNodup
  · intro u hu
    obtain ⟨v, hv, rfl⟩ := List.mem_map.1 hu
    split <;> exact hs.ueLt v hv
  · intro u hu
    obtain ⟨v, hv, rfl⟩ := List.mem_map.1 hu
    split <;> exact hs.ueRnc v hv
  · intro t ht
    obtain ⟨v, hv, h⟩ := hs.tLive t ht
    refine ⟨_, List.mem_map.2 ⟨v, hv, rfl⟩, ?_⟩
    split <;> exact h

theorem inv_nasAlloc : Pres Inv nasAlloc := Pres.modify fun _ h => h.congr rfl rfl rfl rfl
theorem inv_nasFree : Pres Inv nasFree := Pres.modify fun _ h => h.congr rfl rfl rfl rfl
theorem inv_nasPut (b : Bytes) : Pres Inv (nasPut b) := Pres.ite (Pres.pure _) (Pres.fault _)

/-- From registration to delivery. -/
theorem inv_initialTail (ctx : NewCtx) (id : RncId) (ra : GprsRaId) (nas : Bytes) (sai : BitVec 16) :
    Pres Inv (do
        let rnc ← rncRegister env id (gprsRaiToOsmo ra) ctx.addr
        let ue ← ctxAlloc rnc ctx.conn
        M.modify fun s => { s with ues := s.ues.map fun u =>
          if u.ptr = ue then { u with raId := ra } else u }
        callback env (.recv ue ctx.conn nas (some ra) (some sai))
        nasFree
        pure (0 : Int)) := by
  intro s hs
  simp only [wp_bind]
  refine wp_mono (inv_rncRegister id _ ctx.addr s hs) ?_
  rintro rnc s1 ⟨h1, hr⟩
  refine wp_mono (inv_ctxAlloc rnc ctx.conn s1 h1 hr) ?_
  intro ue s2 h2
  rw [wp_modify]
  refine wp_mono (inv_callback _ _ (inv_setRa ue ra s2 h2)) fun _ s3 h3 => ?_
  exact wp_mono (inv_nasFree s3 h3) fun _ _ h4 => h4

theorem inv_handleInitialUe (ctx : NewCtx) (ies : InitialUeIes) : Pres Inv (handleInitialUe env ctx ies) := by
  unfold handleInitialUe
  refine Pres.bind inv_nasAlloc fun _ => Pres.bind (Pres.lift _) fun x => ?_
  refine Pres.ite (Pres.pure _) ?_
  cases ies.rac with
  | none =>
    refine Pres.bind (Pres.pure _) fun rac => Pres.ite (Pres.pure _) ?_
    cases Lai.grncIdParse ies.grnc.plmn ies.grnc.rncId with
    | none => exact Pres.pure _
    | some id => exact Pres.bind (Pres.lift _) fun sai => Pres.bind (inv_nasPut _) fun _ => inv_initialTail ctx id _ _ _
  | some b =>
    refine Pres.bind (Pres.lift _) fun rac => Pres.ite (Pres.pure _) ?_
    cases Lai.grncIdParse ies.grnc.plmn ies.grnc.rncId with
    | none => exact Pres.pure _
    | some id => exact Pres.bind (Pres.lift _) fun sai => Pres.bind (inv_nasPut _) fun _ => inv_initialTail ctx id _ _ _

theorem inv_handleDt (ue : Ptr) (ies : DtIes) : Pres Inv (handleDt env ue ies) := by
  unfold handleDt
  refine Pres.bind inv_nasAlloc fun _ => Pres.bind ?_ fun loc => ?_
  · cases ies.lai with
    | none => exact Pres.pure _
    | some pl =>
      obtain ⟨plmn, lac⟩ := pl
      refine Pres.bind (Pres.lift _) fun x => Pres.ite (Pres.pure _) ?_
      cases ies.rac with
      | none =>
        refine Pres.bind (Pres.pure _) fun ra => ?_
        cases ies.saiSac with
        | none => exact Pres.pure _
        | some b => exact Pres.bind (Pres.lift _) fun _ => Pres.pure _
      | some b =>
        refine Pres.bind (Pres.lift _) fun _ => Pres.bind (Pres.pure _) fun ra => ?_
        cases ies.saiSac with
        | none => exact Pres.pure _
        | some b => exact Pres.bind (Pres.lift _) fun _ => Pres.pure _
  · rcases loc with _ | ⟨ra, sai⟩
    · exact Pres.pure _
    · exact Pres.bind (inv_nasPut _) fun _ => Pres.bind (Pres.deref _) fun _ =>
        Pres.bind (inv_callback _) fun _ => Pres.bind inv_nasFree fun _ => Pres.pure _

theorem inv_iuTxRelease (p : Ptr) (c : Option Cause) : Pres Inv (iuTxRelease env p c) := by
  intro s hs; exact wp_mono (tr_iuTxRelease p c s) (fun _ _ h => hs.ofTr h)

theorem inv_handleRabAssResp (ue : Ptr) (items : Option (List (Option Bytes))) :
    Pres Inv (handleRabAssResp env ue items) := by
  unfold handleRabAssResp
  refine Pres.bind (Pres.deref _) fun _ => ?_
  rcases items with _ | ⟨_ | ⟨_ | it, l⟩⟩
  · exact Pres.pure _
  · exact Pres.fault _
  · exact Pres.pure _
  · exact Pres.bind (inv_iuEvent _ _) fun _ => Pres.pure _

theorem inv_handleCoInitial (ctx : NewCtx) (m : Msg) : Pres Inv (handleCoInitial env ctx m) := by
  unfold handleCoInitial
  refine Pres.ite (Pres.pure _) ?_
  cases m.body <;> first | exact Pres.fault _ | exact Pres.bind (inv_handleInitialUe _ _) fun _ => Pres.pure _

theorem inv_handleCo (ue : Ptr) (m : Msg) : Pres Inv (handleCo env ue m) := by
  unfold handleCo
  refine Pres.ite (Pres.ite (Pres.pure _) (Pres.ite ?_ (Pres.ite ?_ (Pres.ite ?_ (Pres.pure _)))))
    (Pres.ite (Pres.ite (inv_iuEvent _ _) (Pres.ite (inv_iuEvent _ _) (Pres.pure _)))
      (Pres.ite (Pres.ite ?_ (Pres.pure _)) (Pres.pure _)))
  · cases m.body <;> first | exact Pres.fault _ | exact Pres.bind (inv_handleDt _ _) fun _ => Pres.pure _
  · cases m.body <;> first | exact Pres.fault _ | exact Pres.pure _
  · cases m.body <;> first | exact Pres.fault _ | exact Pres.bind (inv_iuTxRelease _ _) fun _ => Pres.pure _
  · cases m.body <;> first | exact Pres.fault _ | exact Pres.bind (inv_handleRabAssResp _ _) fun _ => Pres.pure _

theorem inv_rxCo (h : Msg → M Unit) (hh : ∀ m, Pres Inv (h m)) (data : Bytes) : Pres Inv (rxCo env h data) := by
  unfold rxCo
  cases env.decodeCo data with
  | none => exact Pres.pure _
  | some m => exact Pres.bind (hh m) fun _ => Pres.pure _

theorem inv_handleCl (a : SccpAddr) (m : Msg) : Pres Inv (handleCl env a m) := by
  unfold handleCl
  refine Pres.ite (Pres.ite ?_ (Pres.ite ?_ (Pres.pure _))) (Pres.pure _)
  · cases m.body <;> first | exact Pres.fault _ | skip
    refine Pres.bind ?_ fun _ => Pres.pure _
    unfold handleClReset
    refine Pres.bind (Pres.lift _) fun r => ?_
    cases r with
    | none => exact Pres.pure _
    | some _ => exact inv_sapDown _
  · cases m.body <;> first | exact Pres.fault _ | exact Pres.pure _

theorem inv_linkInvalidatedFree (p : Ptr) : Pres Inv (linkInvalidatedFree env p) := by
  unfold linkInvalidatedFree
  refine Pres.bind (Pres.deref _) fun u => Pres.bind (inv_iuEvent _ _) fun _ => Pres.bind Pres.get fun s => ?_
  cases ctxFind s u.conn with
  | none => exact Pres.pure _
  | some u' => exact Pres.ite (inv_freeUe _) (Pres.pure _)

theorem inv_ueLoop (rnc : Ptr) (n : Nat) (p : Ptr) : Pres Inv (ueLoop env rnc n p) := by
  induction n generalizing p with
  | zero => exact Pres.fault _
  | succ n ih =>
    unfold ueLoop
    refine Pres.bind (Pres.deref _) fun u => Pres.bind Pres.get fun s => ?_
    have hn : Pres Inv (match ueNext s p with
      | none => (pure () : M Unit)
      | some q => ueLoop env rnc n q) := by
      cases ueNext s p with
      | none => exact Pres.pure _
      | some q => exact ih q
    simp only
    split
    · exact Pres.bind (inv_linkInvalidatedFree _) fun _ => hn
    · exact hn

theorem inv_ueForEachSafe (rnc : Ptr) : Pres Inv (ueForEachSafe env rnc) := by
  unfold ueForEachSafe
  refine Pres.bind Pres.get fun s => ?_
  cases s.ues with
  | nil => exact Pres.pure _
  | cons u l => exact inv_ueLoop _ _ _

theorem inv_rncLoop (hit : SccpAddr → Bool) (l : List Rnc) : Pres Inv (rncLoop env hit l) := by
  induction l with
  | nil => exact Pres.pure _
  | cons r l ih =>
    unfold rncLoop
    split
    · exact Pres.bind (inv_ueForEachSafe _) fun _ => ih
    · exact ih

theorem inv_cacheAdd (c : ConnId) (a : SccpAddr) : Pres Inv (cacheAdd c a) :=
  Pres.modify fun _ h => h.congr rfl rfl rfl rfl
theorem inv_cacheDel (c : ConnId) : Pres Inv (cacheDel c) :=
  Pres.modify fun _ h => h.congr rfl rfl rfl rfl

theorem inv_step (op : Op) : Pres Inv (step env op) := by
  unfold step
  cases op with
  | connectConf => exact Pres.pure _
  | connectInd conn calling data =>
    exact Pres.bind (inv_sapDown _) fun _ => Pres.ite (Pres.bind (inv_cacheAdd _ _) fun _ => Pres.pure _)
      (inv_rxCo _ (inv_handleCoInitial _) _)
  | disconnectInd conn data =>
    refine Pres.bind (inv_cacheDel _) fun _ => Pres.bind Pres.get fun s => ?_
    cases ctxFind s conn with
    | none => exact Pres.pure _
    | some u =>
      have tail : ∀ rc : Int, Pres Inv (do
          let s ← M.get
          match ctxFind s conn with
          | none => pure rc
          | some u => do linkInvalidatedFree env u.ptr; pure rc : M Int) := by
        intro rc
        refine Pres.bind Pres.get fun s => ?_
        cases ctxFind s conn with
        | none => exact Pres.pure _
        | some u => exact Pres.bind (inv_linkInvalidatedFree _) fun _ => Pres.pure _
      simp only
      split
      · exact Pres.bind (inv_rxCo _ (inv_handleCo _) _) tail
      · exact Pres.bind (Pres.pure _) tail
  | dataInd conn data =>
    refine Pres.bind Pres.get fun s => ?_
    cases ctxFind s conn with
    | none =>
      cases cacheFind s conn with
      | none => exact Pres.pure _
      | some a => exact Pres.bind (inv_cacheDel _) fun _ => inv_rxCo _ (inv_handleCoInitial _) _
    | some u => exact inv_rxCo _ (inv_handleCo _) _
  | unitdataInd calling data =>
    simp only
    cases env.decodeCl data with
    | none => exact Pres.pure _
    | some m => exact Pres.bind (inv_handleCl _ _) fun _ => Pres.pure _
  | noticeInd calling cause =>
    refine Pres.bind ?_ fun _ => Pres.pure _
    unfold handleNotice
    exact Pres.ite (Pres.pure _) (Pres.bind Pres.get fun _ => inv_rncLoop _ _)
  | pcstateInd pc sp rem =>
    refine Pres.bind ?_ fun _ => Pres.pure _
    unfold handlePcstate
    exact Pres.ite (Pres.bind Pres.get fun _ => inv_rncLoop _ _) (Pres.pure _)
  | otherInd => exact Pres.pure _
  | timer p =>
    refine Pres.bind Pres.get fun s => Pres.ite (Pres.bind (Pres.modify ?_) fun _ =>
      Pres.bind (inv_iuEvent _ _) fun _ => Pres.pure _) (Pres.pure _)
    intro s h
    exact ⟨h.reg, h.ueNodup, h.ueLt, h.ueRnc, (List.Sublist.map _ List.filter_sublist).nodup h.tNodup,
      fun t ht => h.tLive t (List.mem_filter.1 ht).1⟩
  | api a => exact inv_runApi a

theorem inv_run (ops : List Op) : Pres Inv (run env ops) := by
  induction ops with
  | nil => exact Pres.pure _
  | cons op ops ih => exact Pres.bind (inv_step op) fun _ => ih

/-- States reachable from start-up, whatever the environment does. -/
def Reach (env : Env) (s : State) : Prop := ∃ ops, run env ops init = .ok ((), s)

theorem Reach.inv {s : State} (h : Reach env s) : Inv s := by
  obtain ⟨ops, h⟩ := h
  exact wp_ok (inv_run ops init Inv.init) h

end Verif.Iu
