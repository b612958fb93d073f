import Verif.Proofs.IuHist
import Verif.Props.Demo

/-!
# C14-C21: RNC registry and paging

`run env ops init = .ok ((), s)` says: the operations `ops` (SCCP indications, timer
expiries, API calls) happened, in this order, in environment `env` (decoder, SCCP layer and
user callbacks, all arbitrary), and the client is now in state `s`.
-/

namespace Verif.Props
open Verif.Iu Verif.Iu.Spec

variable {env : Env}

theorem reach_inv {ops : List Op} {s : State} (h : run env ops init = .ok ((), s)) : Inv s := Reach.inv ⟨ops, h⟩

/-- **C14.** After any history: RNC ids are pairwise different, all areas recorded at all
RNCs are pairwise different, and the RNC of a context is a live record. -/
theorem C14_registry_integrity {ops : List Op} {s : State} (h : run env ops init = .ok ((), s)) :
    s.rncs.Pairwise (fun a b => ¬ SameRnc a.rncId b.rncId ∧ a.ptr ≠ b.ptr) ∧
    (s.rncs.flatMap (·.areas)).Pairwise (fun a b => ¬ SameArea a b) ∧
    ∀ u ∈ s.ues, ∃ r ∈ s.rncs, r.ptr = u.rnc := by
  have hi := reach_inv h
  refine ⟨?_, hi.reg.areas, hi.ueRnc⟩
  have h2 : s.rncs.Pairwise fun a b => a.ptr ≠ b.ptr := by
    have := hi.reg.nodup
    unfold List.Nodup at this
    rw [List.pairwise_map] at this
    exact this
  exact hi.reg.ids.and h2

/-- Two connections in the same area from two RNCs, one area moving. -/
def demoOps : List Op :=
  [.connectInd 10 (Demo.addr 1) [1], .connectInd 11 (Demo.addr 1) [], .dataInd 11 [3],
   .connectInd 12 (Demo.addr 2) [2]]

def demoState : State := match run Demo.env demoOps init with | .ok (_, s) => s | .fault _ => init

example : run Demo.env demoOps init = .ok ((), demoState) ∧ demoState.ues.length = 3 ∧
    demoState.rncs.map (fun r => (r.rncId.rncId, r.areas.length)) = [(2, 1), (1, 1)] := by decide +kernel

/-- **C15.** The RNC an area is mapped to is the one of the last registration. -/
theorem C15_last_writer_wins {ops : List Op} {s : State} (h : run env ops init = .ok ((), s))
    (area : Rai) (id : RncId) :
    (∃ r ∈ s.rncs, SameRnc r.rncId id ∧ Serves r area) ↔
      ∃ id', lastRnc (registrations env init ops) area = some id' ∧ SameRnc id' id := by
  have := run_map h Inv.init MapInv.init
  rw [List.nil_append] at this
  exact this.areas area id

/-- **C15.** The SCCP address of an RNC is the one of its last registration, up to what
`osmo_sccp_addr_dump` shows of it in 255 characters. -/
theorem C15_address {ops : List Op} {s : State} (h : run env ops init = .ok ((), s)) :
    ∀ r ∈ s.rncs, ∃ a, lastAddr (registrations env init ops) r.rncId = some a ∧
      (r.addr = a ∨ (env.dump r.addr).take 255 = env.dump a) := by
  have := run_map h Inv.init MapInv.init
  rw [List.nil_append] at this
  exact this.addrs

/-- **C15.** The SCCP address of an RNC is always one this RNC registered with. -/
theorem C15_address_known {ops : List Op} {s : State} (h : run env ops init = .ok ((), s)) :
    ∀ r ∈ s.rncs, ∃ g ∈ registrations env init ops, SameRnc g.rnc r.rncId ∧ g.addr = r.addr := by
  have := run_map h Inv.init MapInv.init
  rw [List.nil_append] at this
  exact this.known

/-- **C15.** If the texts of the addresses an RNC registered with have at most 255 characters, and are different for different
addresses, its address is the one of its last registration. -/
theorem C15_address_exact {ops : List Op} {s : State} (h : run env ops init = .ok ((), s)) {r : Rnc} (hr : r ∈ s.rncs)
    (hl : ∀ g ∈ registrations env init ops, SameRnc g.rnc r.rncId → (env.dump g.addr).length ≤ 255)
    (hd : ∀ g ∈ registrations env init ops, ∀ g' ∈ registrations env init ops, SameRnc g.rnc r.rncId → SameRnc g'.rnc r.rncId →
      env.dump g.addr = env.dump g'.addr → g.addr = g'.addr) :
    lastAddr (registrations env init ops) r.rncId = some r.addr := by
  obtain ⟨a, h1, h2⟩ := C15_address h r hr
  rcases h2 with h2 | h2
  · rw [h1, h2]
  · obtain ⟨g, hg, hgr, hga⟩ := C15_address_known h r hr
    obtain ⟨g', hf, hga'⟩ := Option.map_eq_some_iff.1 h1
    have hg' := List.mem_reverse.1 (List.mem_of_find?_eq_some hf)
    have hs' := List.find?_some hf
    have hs' := of_decide_eq_true hs'
    rw [← hga, List.take_of_length_le (hl g hg hgr), ← hga'] at h2
    rw [h1, ← hga, ← hga', hd g hg g' hg' hgr hs' h2]

/-- An RNC moves to another address, and back. -/
def movingOps : List Op :=
  [.connectInd 10 (Demo.addr 1) [1], .connectInd 11 (Demo.addr 2) [1], .connectInd 12 (Demo.addr 3) [2], .connectInd 13 (Demo.addr 1) [1]]

def movingState : State := match run Demo.env movingOps init with | .ok (_, s) => s | .fault _ => init

example : run Demo.env movingOps init = .ok ((), movingState) ∧ ∃ r ∈ movingState.rncs, r.addr = Demo.addr 1 ∧
    (∀ g ∈ registrations Demo.env init movingOps, SameRnc g.rnc r.rncId → (Demo.env.dump g.addr).length ≤ 255) ∧
    (∀ g ∈ registrations Demo.env init movingOps, ∀ g' ∈ registrations Demo.env init movingOps, SameRnc g.rnc r.rncId →
      SameRnc g'.rnc r.rncId → Demo.env.dump g.addr = Demo.env.dump g'.addr → g.addr = g'.addr) ∧
    ((registrations Demo.env init movingOps).filter fun g => decide (SameRnc g.rnc r.rncId)).map (·.addr) =
      [Demo.addr 1, Demo.addr 2, Demo.addr 1] := by
  decide +kernel

/-- **C15.** Every registered RNC has a record. -/
theorem C15_registered {ops : List Op} {s : State} (h : run env ops init = .ok ((), s)) :
    ∀ g ∈ registrations env init ops, ∃ r ∈ s.rncs, SameRnc r.rncId g.rnc := by
  have := run_map h Inv.init MapInv.init
  rw [List.nil_append] at this
  exact this.recs

/-- **C15.** Records and areas are never forgotten. -/
theorem C15_never_forgotten {ops ops' : List Op} {s s' : State} (h : run env ops init = .ok ((), s))
    (h' : run env ops' s = .ok ((), s')) :
    (∀ r0 ∈ s.rncs, ∃ r ∈ s'.rncs, r.ptr = r0.ptr ∧ r.rncId = r0.rncId) ∧
    (∀ area, (∃ r ∈ s.rncs, Serves r area) → ∃ r ∈ s'.rncs, Serves r area) :=
  run_rncs_mono h' (reach_inv h)

example : (registrations Demo.env init demoOps).map (fun g => (g.rnc.rncId, g.area.rac)) = [(1, 7), (1, 0xff), (2, 7)] ∧
    (lastRnc (registrations Demo.env init demoOps) ⟨⟨⟨262, 42, false⟩, 5⟩, 7⟩).map (·.rncId) = some 2 ∧
    (lastRnc (registrations Demo.env init demoOps) ⟨⟨⟨262, 42, false⟩, 5⟩, 0xff⟩).map (·.rncId) = some 1 := by
  decide +kernel

/-- **C16.** An accepted Initial UE Message: the callbacks are one NEW_AREA event if an event
callback is registered and the area was not mapped to this RNC before, none otherwise,
and then the delivery of the NAS PDU. -/
theorem C16_new_area {ops : List Op} {s s' : State} (h : run env ops init = .ok ((), s)) {op : Op} {rc : Int}
    (hs : step env op s = .ok (rc, s')) {c : ConnId} {a : SccpAddr} {ies : InitialUeIes}
    (hu : initialUe env s op = some (c, a, ies)) {id : RncId} {ra : GprsRaId} {sac : BitVec 16}
    (hr : readInitialUe ies = some (id, ra, sac)) :
    ∃ d ev p, Happened s s' d ∧
      callbacks d = ev ++ [.recv p c ies.nas (some ra) (some sac)] ∧
      ((env.hasEventCb = true ∧ ¬ ∃ r ∈ s.rncs, SameRnc r.rncId id ∧ Serves r (areaOfRa ra)) →
        ev = [.event none (.newArea id (eventArea ra ies.rac.isSome))]) ∧
      (¬ (env.hasEventCb = true ∧ ¬ ∃ r ∈ s.rncs, SameRnc r.rncId id ∧ Serves r (areaOfRa ra)) → ev = []) :=
  step_accept hs (reach_inv h) hu hr

/-- **C16.** In terms of the history: an event iff the last registration of the area, if any,
named another RNC. -/
theorem C16_new_area_history {ops : List Op} {s s' : State} (h : run env ops init = .ok ((), s)) {op : Op} {rc : Int}
    (hs : step env op s = .ok (rc, s')) {c : ConnId} {a : SccpAddr} {ies : InitialUeIes}
    (hu : initialUe env s op = some (c, a, ies)) {id : RncId} {ra : GprsRaId} {sac : BitVec 16}
    (hr : readInitialUe ies = some (id, ra, sac)) (hcb : env.hasEventCb = true) :
    ∃ d p, Happened s s' d ∧ callbacks d =
      (if ∃ id' ∈ lastRnc (registrations env init ops) (areaOfRa ra), SameRnc id' id then []
       else [.event none (.newArea id (eventArea ra ies.rac.isSome))]) ++
      [.recv p c ies.nas (some ra) (some sac)] := by
  obtain ⟨d, ev, p, h1, h2, h3, h4⟩ := C16_new_area h hs hu hr
  refine ⟨d, p, h1, ?_⟩
  rw [h2]
  congr 1
  have hm := C15_last_writer_wins h (areaOfRa ra) id
  by_cases hx : ∃ id' ∈ lastRnc (registrations env init ops) (areaOfRa ra), SameRnc id' id
  · rw [if_pos hx]
    exact h4 (fun hn => hn.2 (hm.2 hx))
  · rw [if_neg hx]
    exact h3 ⟨hcb, fun hh => hx (hm.1 hh)⟩

/-- **C16.** No other operation signals a NEW_AREA event. -/
theorem C16_no_other_event {s s' : State} {op : Op} {rc : Int} (hs : step env op s = .ok (rc, s'))
    (hn : registration env s op = none) :
    ∃ d, Happened s s' d ∧ ∀ e, .event none e ∉ d := by
  obtain ⟨ls, hp, h' | ⟨_, h2⟩⟩ := step_shape hs
  · obtain ⟨c, a, ies, id, ra, sai, hi, hr, _⟩ := h'
    unfold registration at hn
    rw [hi] at hn
    simp only [hr, Option.map_some] at hn
    cases hn
  · obtain ⟨d, h1, _, h3⟩ := hp.delta
    refine ⟨d, h1, fun e he => NoReg.area h2 e ?_⟩
    rw [← h3]
    unfold callbacks
    rw [List.mem_filter]
    exact ⟨he, rfl⟩

example : initialUe Demo.env init (.connectInd 10 (Demo.addr 1) [1]) = some (10, Demo.addr 1, Demo.ies 5 (some [7]) 1) ∧
    readInitialUe (Demo.ies 5 (some [7]) 1) = some (⟨⟨262, 42, false⟩, 1⟩, ⟨262, 42, false, 5, 7⟩, 0x1234) ∧
    callbacks demoState.trace =
      [.event none (.newArea ⟨⟨262, 42, false⟩, 1⟩ (.rac ⟨⟨⟨262, 42, false⟩, 5⟩, 7⟩)),
       .recv 1 10 [0xaa, 0xbb] (some ⟨262, 42, false, 5, 7⟩) (some 0x1234),
       .event none (.newArea ⟨⟨262, 42, false⟩, 1⟩ (.lac ⟨⟨262, 42, false⟩, 5⟩)),
       .recv 2 11 [0xaa, 0xbb] (some ⟨262, 42, false, 5, 0xff⟩) (some 0x1234),
       .event none (.newArea ⟨⟨262, 42, false⟩, 2⟩ (.rac ⟨⟨⟨262, 42, false⟩, 5⟩, 7⟩)),
       .recv 4 12 [0xaa, 0xbb] (some ⟨262, 42, false, 5, 7⟩) (some 0x1234)] := by decide +kernel

/-! ## Paging -/

/-- **C17.** `ranap_iu_page_cs2` in any state: one command to each RNC serving the LAI, in
list order, nothing else, and the number of these RNCs is returned. -/
theorem C17_page_cs2 {s : State} {imsi : Bytes} {t : Option (BitVec 32)} {lai : Verif.Lai} {b : Bytes}
    (hg : env.gen (.paging imsi t false 0) = .ok (some b)) :
    ∃ d, step env (.api (.pageCs2 imsi t lai)) s =
        .ok (((s.rncs.filter fun r => decide (ServesLai r lai)).length : Int), { s with trace := s.trace ++ d }) ∧
      prims d = (s.rncs.filter fun r => decide (ServesLai r lai)).map
        (fun r => .unitdataReq r.addr (.paging imsi t false 0)) ∧
      callbacks d = [] := by
  obtain ⟨d, h1, h2, h3⟩ := pageLoop_ok (hit := fun e => laiEq e.lai lai) hg s.rncs 0 s
  rw [filter_servesLai] at h1 h2
  exact ⟨d, by rw [← Int.zero_add ((List.length _ : Nat) : Int)]; exact h1, h2, h3⟩

example : Demo.env.gen (.paging [0x31] none false 0) = .ok (some []) ∧
    (demoState.rncs.filter fun r => decide (ServesLai r ⟨⟨262, 42, false⟩, 5⟩)).length = 2 := by decide +kernel

/-- **C18.** `ranap_iu_page_ps2` after any history: one command to the RNC the routing area was
last registered with. -/
theorem C18_page_ps2 {ops : List Op} {s : State} (h : run env ops init = .ok ((), s))
    {imsi : Bytes} {t : Option (BitVec 32)} {rai : Rai} {b : Bytes}
    (hg : env.gen (.paging imsi t true 0) = .ok (some b)) :
    ∃ d n, step env (.api (.pagePs2 imsi t rai)) s = .ok (n, { s with trace := s.trace ++ d }) ∧
      callbacks d = [] ∧
      match lastRnc (registrations env init ops) rai with
      | none => n = 0 ∧ prims d = []
      | some id => n = 1 ∧ ∃ r ∈ s.rncs, SameRnc r.rncId id ∧ Serves r rai ∧
          prims d = [.unitdataReq r.addr (.paging imsi t true 0)] := by
  obtain ⟨d, h1, h2, h3⟩ := pageLoop_ok (hit := fun e => raiEq e rai) hg s.rncs 0 s
  rw [filter_serves] at h1 h2
  refine ⟨d, _, h1, h3, ?_⟩
  have hm := fun id => C15_last_writer_wins h rai id
  cases hl : lastRnc (registrations env init ops) rai with
  | none =>
    have hnone : (s.rncs.filter fun r => decide (Serves r rai)) = [] := by
      rw [List.filter_eq_nil_iff]
      intro r hr hs
      obtain ⟨id', h', _⟩ := (hm r.rncId).1 ⟨r, hr, SameRnc.refl _, by simpa using hs⟩
      rw [hl] at h'; cases h'
    rw [hnone] at h2
    simp only [hnone]
    exact ⟨rfl, h2⟩
  | some id =>
    obtain ⟨r, hr, hid, hs⟩ := (hm id).2 ⟨id, hl, SameRnc.refl _⟩
    have hone : (s.rncs.filter fun r => decide (Serves r rai)) = [r] := by
      have hi := (reach_inv h).reg
      have hnd : s.rncs.Nodup := (List.pairwise_map.1 hi.nodup).imp (fun hab he => hab (by rw [he]))
      have hnd' := hnd.filter (fun r => decide (Serves r rai))
      have hall : ∀ x ∈ s.rncs.filter (fun r => decide (Serves r rai)), x = r := by
        intro x hx
        rw [List.mem_filter] at hx
        exact serves_unique hi hx.1 hr (by simpa using hx.2) hs
      have hmem : r ∈ s.rncs.filter (fun r => decide (Serves r rai)) :=
        List.mem_filter.2 ⟨hr, by simpa using hs⟩
      generalize s.rncs.filter (fun r => decide (Serves r rai)) = l at hnd' hall hmem
      match l, hnd', hall, hmem with
      | [x], _, ha, _ => rw [ha x List.mem_cons_self]
      | x :: y :: l, hn, ha, _ =>
        have h1 := ha x List.mem_cons_self
        have h2 := ha y (List.mem_cons_of_mem _ List.mem_cons_self)
        subst h1
        rw [h2] at hn
        simp at hn
    rw [hone] at h2
    simp only [hone]
    exact ⟨rfl, r, hr, hid, hs, h2⟩

example : (lastRnc (registrations Demo.env init demoOps) ⟨⟨⟨262, 42, false⟩, 5⟩, 7⟩).isSome = true ∧
    (step Demo.env (.api (.pagePs2 [0x31] none ⟨⟨⟨262, 42, false⟩, 5⟩, 7⟩)) demoState).isOk = true := by decide +kernel

/-- Number of primitives the SCCP layer accepted (return code 0). -/
def accepted (d : List Out) : Nat := (d.filter fun o => match o with | .sap _ rc => decide (rc = 0) | _ => false).length

/-- The SCCP layer refuses everything. -/
def refusingEnv : Env := { Demo.env with sapRc := fun _ _ => -1 }

theorem step_happened {op : Op} {s s' : State} {rc : Int} (h : step env op s = .ok (rc, s')) : ∃ d, Happened s s' d := by
  obtain ⟨ls, hp⟩ := step_path h
  obtain ⟨d, hd, -⟩ := hp.emits
  exact ⟨d, hd⟩

/-- **C19, full statement.** -/
def C19_full : Prop :=
  ∀ (env : Env) (ops : List Op) (s s' : State) (imsi : Bytes) (t : Option (BitVec 32)) (n : Int) (a : Api) (d : List Out),
    run env ops init = .ok ((), s) → (∃ lai, a = .pageCs2 imsi t lai) ∨ (∃ rai, a = .pagePs2 imsi t rai) →
    step env (.api a) s = .ok (n, s') → Happened s s' d → n = accepted d

/-- **C19 is false**: with an SCCP layer that refuses the command, both functions return 1. -/
theorem C19_refused : ∃ (env : Env) (ops : List Op) (s s1 s2 : State) (imsi : Bytes) (lai : Verif.Lai) (rai : Rai),
    run env ops init = .ok ((), s) ∧
    step env (.api (.pageCs2 imsi none lai)) s = .ok (1, s1) ∧ accepted (s1.trace.drop s.trace.length) = 0 ∧
    step env (.api (.pagePs2 imsi none rai)) s = .ok (1, s2) ∧ accepted (s2.trace.drop s.trace.length) = 0 := by
  refine ⟨refusingEnv, [.connectInd 10 (Demo.addr 1) [1]], ?_⟩
  refine ⟨match run refusingEnv [.connectInd 10 (Demo.addr 1) [1]] init with | .ok (_, s) => s | .fault _ => init, ?_⟩
  refine ⟨match run refusingEnv [.connectInd 10 (Demo.addr 1) [1], .api (.pageCs2 [0x31] none ⟨⟨262, 42, false⟩, 5⟩)] init with
    | .ok (_, s) => s | .fault _ => init, ?_⟩
  refine ⟨match run refusingEnv [.connectInd 10 (Demo.addr 1) [1], .api (.pagePs2 [0x31] none ⟨⟨⟨262, 42, false⟩, 5⟩, 7⟩)] init with
    | .ok (_, s) => s | .fault _ => init, ?_⟩
  exact ⟨[0x31], ⟨⟨262, 42, false⟩, 5⟩, ⟨⟨⟨262, 42, false⟩, 5⟩, 7⟩, by decide +kernel⟩

theorem C19_violated : ¬ C19_full := by
  intro h
  obtain ⟨env, ops, s, s1, s2, imsi, lai, rai, h0, h1, h2, -⟩ := C19_refused
  obtain ⟨d, hd⟩ := step_happened h1
  have := h env ops s s1 imsi none 1 _ d h0 (.inl ⟨lai, rfl⟩) h1 hd
  unfold Happened at hd
  rw [hd, List.drop_left] at h2
  rw [h2] at this
  cases this

theorem pageLoop_rc {imsi : Bytes} {t : Option (BitVec 32)} {ps : Bool} {hit : Rai → Bool}
    (hrc : ∀ s p, env.sapRc s p = 0) (l : List Rnc) (n : Int) (s s' : State) (k : Int)
    (h : pageLoop env imsi t ps hit l n s = .ok (k, s')) :
    ∃ d, s'.trace = s.trace ++ d ∧ k = n + accepted d := by
  induction l generalizing n s with
  | nil => cases h; exact ⟨[], by simp, by simp [accepted]⟩
  | cons r l ih =>
    unfold pageLoop at h
    split at h
    · obtain ⟨rc, s1, h1, h2⟩ := bind_ok.1 h
      obtain ⟨_, sx, h3, h4⟩ := bind_ok.1 h1
      have he : sx = s := by
        unfold genMsg at h3
        obtain ⟨o, s2, h5, h6⟩ := bind_ok.1 h3
        cases hg : env.gen (.paging imsi t ps 0) with
        | fault e => rw [hg] at h5; cases h5
        | ok o' =>
          rw [hg] at h5; cases h5
          cases o with
          | none => cases h6
          | some b => cases h6; rfl
      subst he
      cases h4
      obtain ⟨d, h7, h8⟩ := ih _ _ h2
      refine ⟨.sap (.unitdataReq r.addr (.paging imsi t ps 0)) 0 :: d, ?_, ?_⟩
      · rw [h7]; simp [hrc]
      · rw [h8]; simp [accepted]; omega
    · exact ih _ _ h

/-- **C19, partial**: if the SCCP layer accepts every primitive, the return value counts the
accepted commands.  Missing: any layer that may refuse (see `C19_violated`). -/
theorem C19_return_value_partial (hrc : ∀ s p, env.sapRc s p = 0) {s s' : State} {imsi : Bytes}
    {t : Option (BitVec 32)} {n : Int} {a : Api}
    (ha : (∃ lai, a = .pageCs2 imsi t lai) ∨ ∃ rai, a = .pagePs2 imsi t rai)
    (h : step env (.api a) s = .ok (n, s')) : ∃ d, Happened s s' d ∧ n = accepted d := by
  rcases ha with ⟨lai, rfl⟩ | ⟨rai, rfl⟩
  · obtain ⟨d, h1, h2⟩ := pageLoop_rc hrc s.rncs 0 s s' n h
    exact ⟨d, h1, by omega⟩
  · obtain ⟨d, h1, h2⟩ := pageLoop_rc hrc s.rncs 0 s s' n h
    exact ⟨d, h1, by omega⟩

example : (∀ s p, Demo.env.sapRc s p = 0) ∧
    (step Demo.env (.api (.pageCs2 [0x31] none ⟨⟨262, 42, false⟩, 5⟩)) demoState).isOk = true :=
  ⟨fun _ _ => rfl, by decide +kernel⟩

/-- First RNC, in list order, with an area of this LAC and RAC. -/
def legacyTarget (s : State) (lac : BitVec 16) (rac : BitVec 8) : Option Rnc :=
  s.rncs.find? fun r => r.areas.any fun e => decide (e.lai.lac = lac ∧ e.rac = rac)

theorem lacRacFindLegacy_eq (s : State) (lac : BitVec 16) (rac : BitVec 8) :
    lacRacFindLegacy s lac rac = legacyTarget s lac rac := by
  unfold lacRacFindLegacy legacyTarget
  congr 1
  funext r
  congr 1
  funext e
  rw [Bool.decide_and]

theorem legacyTarget_some {s : State} {lac : BitVec 16} {rac : BitVec 8} {r : Rnc}
    (h : legacyTarget s lac rac = some r) : r ∈ s.rncs ∧ ∃ e ∈ r.areas, e.lai.lac = lac ∧ e.rac = rac := by
  refine ⟨List.mem_of_find?_eq_some h, ?_⟩
  have := List.find?_some h
  simpa using this

theorem legacyTarget_none {s : State} {lac : BitVec 16} {rac : BitVec 8}
    (h : legacyTarget s lac rac = none) : ¬ ∃ r ∈ s.rncs, ∃ e ∈ r.areas, e.lai.lac = lac ∧ e.rac = rac := by
  rintro ⟨r, hr, e, he, h1, h2⟩
  have := List.find?_eq_none.1 h r hr
  simp only [List.any_eq_true, decide_eq_true_eq, not_exists, not_and] at this
  exact this e he h1 h2

theorem iuPage_eq {s : State} {imsi : Bytes} {t : Option (BitVec 32)} {lac : BitVec 16} {rac : BitVec 8} {ps : Bool}
    {b : Bytes} (hg : env.gen (.paging imsi t ps 0) = .ok (some b)) :
    iuPage env imsi t lac rac ps s =
      match legacyTarget s lac rac with
      | none => .ok (0, s)
      | some r => .ok (if env.sapRc s (.unitdataReq r.addr (.paging imsi t ps 0)) = 0 then 1 else 0,
          { s with trace := s.trace ++ [.sap (.unitdataReq r.addr (.paging imsi t ps 0))
            (env.sapRc s (.unitdataReq r.addr (.paging imsi t ps 0)))] }) := by
  unfold iuPage
  rw [bind_eq, get_run]
  simp only [lacRacFindLegacy_eq]
  cases legacyTarget s lac rac with
  | none => rfl
  | some r =>
    simp only
    rw [bind_eq]
    unfold txPagingCmd genMsg
    rw [bind_eq, bind_eq, hg]; rfl

/-- **C21.** `ranap_iu_page_ps`: either no RNC has a matching area, 0 is returned and nothing
happens, or exactly one command goes to an RNC with a matching area, and the result is 1
iff it was accepted. -/
theorem C21_page_ps {s : State} {imsi : Bytes} {t : Option (BitVec 32)} {lac : BitVec 16} {rac : BitVec 8} {b : Bytes}
    (hg : env.gen (.paging imsi t true 0) = .ok (some b)) :
    ((¬ ∃ r ∈ s.rncs, ∃ e ∈ r.areas, e.lai.lac = lac ∧ e.rac = rac) ∧
      step env (.api (.pagePs imsi t lac rac)) s = .ok (0, s)) ∨
    ∃ r ∈ s.rncs, (∃ e ∈ r.areas, e.lai.lac = lac ∧ e.rac = rac) ∧ ∃ rc,
      step env (.api (.pagePs imsi t lac rac)) s = .ok (if rc = 0 then 1 else 0,
        { s with trace := s.trace ++ [.sap (.unitdataReq r.addr (.paging imsi t true 0)) rc] }) := by
  have h := iuPage_eq (s := s) (lac := lac) (rac := rac) hg
  cases hl : legacyTarget s lac rac with
  | none =>
    rw [hl] at h
    exact .inl ⟨legacyTarget_none hl, h⟩
  | some r =>
    rw [hl] at h
    obtain ⟨h1, h2⟩ := legacyTarget_some hl
    exact .inr ⟨r, h1, h2, _, h⟩

example : step Demo.env (.api (.pagePs [0x31] none 5 7)) demoState =
    .ok (1, { demoState with trace := demoState.trace ++ [.sap (.unitdataReq (Demo.addr 2) (.paging [0x31] none true 0)) 0] }) := by
  decide +kernel

/-- **C20, full statement.** -/
def C20_full : Prop :=
  ∀ (env : Env) (ops : List Op) (s s' : State) (imsi : Bytes) (t : Option (BitVec 32)) (lac : BitVec 16) (n : Int) (d : List Out),
    run env ops init = .ok ((), s) → (∃ r ∈ s.rncs, ∃ e ∈ r.areas, e.lai.lac = lac) →
    step env (.api (.pageCs imsi t lac)) s = .ok (n, s') → Happened s s' d →
    ∃ r ∈ s.rncs, (∃ e ∈ r.areas, e.lai.lac = lac) ∧ .unitdataReq r.addr (.paging imsi t false 0) ∈ prims d

/-- **C20 is false**: an RNC serving LAC 5 (registered without a RAC) is not paged. -/
theorem C20_not_paged : ∃ (ops : List Op) (s : State), run Demo.env ops init = .ok ((), s) ∧
    (∃ r ∈ s.rncs, ∃ e ∈ r.areas, e.lai.lac = 5) ∧ step Demo.env (.api (.pageCs [0x31] none 5)) s = .ok (0, s) := by
  refine ⟨[.connectInd 10 (Demo.addr 1) [3]],
    match run Demo.env [.connectInd 10 (Demo.addr 1) [3]] init with | .ok (_, s) => s | .fault _ => init, ?_⟩
  decide +kernel

theorem C20_violated : ¬ C20_full := by
  intro h
  obtain ⟨ops, s, h0, h1, h2⟩ := C20_not_paged
  obtain ⟨r, -, -, h3⟩ := h Demo.env ops s s [0x31] none 5 0 [] h0 h1 h2 (List.append_nil _).symm
  cases h3

/-- **C20**, the extent of the violation: whenever no area of the LAC has RAC 0, nothing is
paged.  An area registered without RAC is stored with RAC 0xff. -/
theorem C20_violated_always {s : State} {imsi : Bytes} {t : Option (BitVec 32)} {lac : BitVec 16}
    (hn : ∀ r ∈ s.rncs, ∀ e ∈ r.areas, e.lai.lac = lac → e.rac ≠ 0) :
    step env (.api (.pageCs imsi t lac)) s = .ok (0, s) := by
  have hl : legacyTarget s lac 0 = none := by
    cases hl : legacyTarget s lac 0 with
    | none => rfl
    | some r =>
      obtain ⟨h1, e, he, h2, h3⟩ := legacyTarget_some hl
      exact absurd h3 (hn r h1 e he h2)
  show iuPage env imsi t lac 0 false s = _
  unfold iuPage
  rw [bind_eq, get_run]
  simp only [lacRacFindLegacy_eq, hl]
  rfl

/-- **C20, partial**: an RNC with an area of that LAC and RAC 0 is paged (once, and 1 is
returned iff SCCP accepts).  Missing: areas with another RAC or none. -/
theorem C20_page_cs_partial {s : State} {imsi : Bytes} {t : Option (BitVec 32)} {lac : BitVec 16} {b : Bytes}
    (hg : env.gen (.paging imsi t false 0) = .ok (some b))
    (hex : ∃ r ∈ s.rncs, ∃ e ∈ r.areas, e.lai.lac = lac ∧ e.rac = 0) :
    ∃ r ∈ s.rncs, (∃ e ∈ r.areas, e.lai.lac = lac ∧ e.rac = 0) ∧ ∃ rc,
      step env (.api (.pageCs imsi t lac)) s = .ok (if rc = 0 then 1 else 0,
        { s with trace := s.trace ++ [.sap (.unitdataReq r.addr (.paging imsi t false 0)) rc] }) := by
  have h := iuPage_eq (s := s) (lac := lac) (rac := 0) hg
  cases hl : legacyTarget s lac 0 with
  | none => exact absurd hex (legacyTarget_none hl)
  | some r =>
    rw [hl] at h
    obtain ⟨h1, h2⟩ := legacyTarget_some hl
    exact ⟨r, h1, h2, _, h⟩

/-- The hypothesis of the partial theorem is met after an Initial UE Message with RAC 0. -/
example : ∃ s, run { Demo.env with decodeCo := fun _ => some (Demo.initial (Demo.ies 5 (some [0]) 1)) }
      [.connectInd 10 (Demo.addr 1) [1]] init = .ok ((), s) ∧
    ∃ r ∈ s.rncs, ∃ e ∈ r.areas, e.lai.lac = 5 ∧ e.rac = 0 := by
  refine ⟨match run { Demo.env with decodeCo := fun _ => some (Demo.initial (Demo.ies 5 (some [0]) 1)) }
      [.connectInd 10 (Demo.addr 1) [1]] init with | .ok (_, s) => s | .fault _ => init, ?_⟩
  decide +kernel

end Verif.Props
