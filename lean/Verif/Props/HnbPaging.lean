import Verif.Props.HnbClient

/-!
# C98: who has registered from an HNB is paged there

The HNB emulator, the Iu client and a gateway between them as in C92; the page goes from the client through a RUA
Connectionless Transfer to the emulator.
-/

namespace Verif.Props
open Verif.Aper Verif.Ie Verif.Ie.Spec Verif.Hnb Verif.Hnb.Spec Verif.Factory.Spec Verif.Linked Verif.Spec.Bcd
open Verif.Iu.Spec (RunOk InUse SameArea SameRnc SameLai Serves ServesLai Registration registration registrations lastRnc lastAddr prims callbacks
  readInitialUe)

/-- The area of the emulator: its LAI, and no RAC. -/
def emulatorArea : Verif.Rai := ⟨⟨⟨901, 99, false⟩, 0x4223⟩, 0xff⟩

/-- The RNC it says it is. -/
def emulatorRnc : Verif.RncId := ⟨⟨901, 990, true⟩, 23⟩

/-- The octets, handed to RUA, make a Connectionless Transfer; whatever RUA Connectionless Transfer they arrive in, an
emulator with a connection to its gateway reports a page for this IMSI, and does nothing else. -/
def PageArrives (bs imsi : Bytes) : Prop :=
  (∃ tr data, Rua.newUdt (some bs) = .ok ⟨tr, some ⟨data, 19⟩⟩ ∧ Cl data bs) ∧
  ∀ data, Cl data bs → ∀ hnb e, Reach hnb e → e.up = true →
    Hnb.step hnb e (.recv 19 data) = .ok { e with prints := e.prints ++ [.paging imsi] }

/-- Nobody else registers the area of the emulator, nor the RNC from another address. -/
def Undisturbed (env : Iu.Env) (s : Iu.State) (ops : List Iu.Op) (a : Iu.SccpAddr) : Prop :=
  ∀ g ∈ registrations (linked env) s ops,
    (SameArea g.area emulatorArea → SameRnc g.rnc emulatorRnc) ∧ (SameRnc g.rnc emulatorRnc → g.addr = a)

/-- The text of an SCCP address is that of no other address, in the first 255 characters. -/
def TextOfItsOwn (env : Iu.Env) (a : Iu.SccpAddr) : Prop := ∀ x, (env.dump x).take 255 = env.dump a → x = a

/-! ## The page -/

theorem pagingCmd_length {imsi : Bytes} {tmsi : Option (BitVec 32)} {isPs : Bool} {bs : Bytes} (hv : ValidImsi imsi)
    (h : Factory.pagingCmd (some imsi) tmsi isPs 0 = .ok (some bs)) : bs.length ≤ 400 := by
  obtain ⟨v, h1, h2, h3, h4⟩ := (permanentId_spec imsi hv.1).1 (by have := hv.2.2; omega)
  have bv := h4 hv.2.2
  have bd := Factory.openOcts_le (Factory.domain_bound (psOrCs isPs))
  have bt : ∀ t, openOcts (maxBits Gen.Ranap.RANAP_TemporaryUE_ID (tmsiVal isPs t)) ≤ 100 := by
    intro t; cases isPs <;> exact Nat.le_of_ble_eq_true (by with_unfolding_all rfl)
  unfold Factory.pagingCmd at h
  simp only [h1, ne_eq, not_true, if_false] at h
  cases tmsi with
  | none =>
    have hb := Factory.is_pagingIEs.short (c := [(Gen.Ranap.pagingIEs.ies[0], .enum (psOrCs isPs)), (Gen.Ranap.pagingIEs.ies[1], v)])
      (by with_unfolding_all rfl) (Res.ok.inj h)
    simp only [Factory.bound, Gen.Ranap.pagingIEs, List.getElem_cons_zero, List.getElem_cons_succ] at hb
    omega
  | some t =>
    have := bt t
    have hb := Factory.is_pagingIEs.short (c := [(Gen.Ranap.pagingIEs.ies[0], .enum (psOrCs isPs)), (Gen.Ranap.pagingIEs.ies[1], v),
      (Gen.Ranap.pagingIEs.ies[2], tmsiVal isPs t)]) (by with_unfolding_all rfl) (Res.ok.inj h)
    simp only [Factory.bound, Gen.Ranap.pagingIEs, List.getElem_cons_zero, List.getElem_cons_succ] at hb
    omega

/-- **C98.** A page for a valid IMSI of up to 15 digits arrives at the emulator. -/
theorem C98_page_arrives {imsi : Bytes} {tmsi : Option (BitVec 32)} {isPs : Bool} {bs : Bytes} (hv : ValidImsi imsi)
    (hl : imsi.length ≤ 15) (h : Factory.pagingCmd (some imsi) tmsi isPs 0 = .ok (some bs)) : PageArrives bs imsi := by
  have hlen := pagingCmd_length hv h
  obtain ⟨bs', v, h1, ⟨t, h2, rfl⟩, h3⟩ := (C55_paging imsi tmsi isPs 0 hv.1 (by omega)).1 ⟨hv, by decide⟩
  obtain rfl : bs' = bs := by rw [h1] at h; cases h; rfl
  obtain ⟨l, h4, h5⟩ := says_cl h3 (by cases tmsi <;> simp [opt]) (m := Gen.Ranap.pagingIEs) (by with_unfolding_all rfl)
    (by with_unfolding_all rfl)
  refine ⟨?_, fun data hd hnb e hr hu => ?_⟩
  · obtain ⟨tr, data, h6, -, h7⟩ := C58_udt bs' (by omega)
    exact ⟨tr, data, h6, cl_of h7⟩
  · have hk : 1 < Gen.Ranap.pagingIEs.ies.length := by decide
    exact C87_paging hr hu ⟨bs', l, t, hd, h4, (h5 _ (List.getElem_mem hk)).trans (by with_unfolding_all rfl), h2⟩ hv.1 hl

/-! ## The registration -/

theorem registrations_append {env : Iu.Env} {ops ops' : List Iu.Op} {s s' : Iu.State} (h : Iu.run env ops s = .ok ((), s')) :
    registrations env s (ops ++ ops') = registrations env s ops ++ registrations env s' ops' := by
  induction ops generalizing s with
  | nil => cases h; rfl
  | cons op ops ih =>
    obtain ⟨rc, s1, h1, h2⟩ := Iu.run_cons h
    simp only [List.cons_append, registrations, h1, ih h2, List.append_assoc]

theorem run_step {env : Iu.Env} {op : Iu.Op} {ops : List Iu.Op} {s s' : Iu.State} {rc : Int}
    (h : Iu.step env op s = .ok (rc, s')) : Iu.run env (op :: ops) s = Iu.run env ops s' := by
  simp only [Iu.run, bind, Iu.M.bind, h]

theorem iu_run_append {env : Iu.Env} {ops ops' : List Iu.Op} {s s' : Iu.State} (h : Iu.run env ops s = .ok ((), s')) :
    Iu.run env (ops ++ ops') s = Iu.run env ops' s' := by
  induction ops generalizing s with
  | nil => cases h; rfl
  | cons op ops ih =>
    obtain ⟨rc, s1, h1, h2⟩ := Iu.run_cons h
    rw [← ih h2]
    exact run_step h1

theorem lastRnc_mid {A B : List Registration} {g : Registration} {area : Verif.Rai} (hg : SameArea g.area area)
    (hB : ∀ x ∈ B, SameArea x.area area → SameRnc x.rnc g.rnc) :
    ∃ id, lastRnc (A ++ g :: B) area = some id ∧ SameRnc id g.rnc := by
  unfold lastRnc
  rw [List.reverse_append, List.reverse_cons, List.append_assoc, List.find?_append]
  cases hf : B.reverse.find? fun g => decide (SameArea g.area area) with
  | none => exact ⟨g.rnc, by simp [hg], SameRnc.refl _⟩
  | some x =>
    have h1 := List.find?_some hf
    have h2 := List.mem_of_find?_eq_some hf
    exact ⟨x.rnc, rfl, hB x (List.mem_reverse.1 h2) (of_decide_eq_true h1)⟩

theorem lastAddr_mid {A B : List Registration} {g : Registration} {rnc : Verif.RncId} (hg : SameRnc g.rnc rnc)
    (hB : ∀ x ∈ B, SameRnc x.rnc rnc → x.addr = g.addr) : lastAddr (A ++ g :: B) rnc = some g.addr := by
  unfold lastAddr
  rw [List.reverse_append, List.reverse_cons, List.append_assoc, List.find?_append]
  cases hf : B.reverse.find? fun g => decide (SameRnc g.rnc rnc) with
  | none => simp [hg]
  | some x =>
    have h1 := List.find?_some hf
    have h2 := List.mem_of_find?_eq_some hf
    simp [hB x (List.mem_reverse.1 h2) (of_decide_eq_true h1)]

theorem initial_registers {env : Iu.Env} {s : Iu.State} {c : Iu.ConnId} {a : Iu.SccpAddr} {nas bs : Bytes} {id : BitVec 32}
    {isPs : Bool}
    (h : Says bs 1 19 [(3, .enum (psOrCs isPs)), (15, fixedLai [0x09, 0x01, 0x99]),
      (58, fixedSai [0x09, 0x01, 0x99]), (16, .octets nas), (79, .bits (low24 id)),
      (86, rncVal ⟨[0x09, 0x01, 0x99], 23⟩)]) :
    registration (linked env) s (.connectInd c a bs) = some ⟨emulatorRnc, emulatorArea, a⟩ := by
  obtain ⟨l, h1, h2, h3, h4, h5, b1, b2, b3, b4⟩ := initial_elems h
  obtain ⟨u1, -⟩ := uplink_initial (env := env) (s := s) (c := c) (a := a) h1
  have hrd : readInitialUe (Linked.Spec.initialUeOf l) = some (emulatorRnc, ⟨901, 99, false, 0x4223, 0xff⟩, 0x4223) := by
    unfold readInitialUe Linked.Spec.initialUeOf
    simp only [h3, h4, h5, if_neg b4]
    rfl
  unfold registration
  rw [u1]
  simp only [hrd]
  rfl

/-- **C98.** The emulator asks for a connection, with its Location Updating Request, and the request reaches the client.  From
then on, as long as nobody else registers its area or its RNC-ID, whatever else happens: a page by `ranap_iu_page_cs2` in this
location area, or by `ranap_iu_page_ps2`, for a valid IMSI of up to 15 digits, is sent to the address the request came from,
and the octets make the emulator report a page for this IMSI. -/
theorem C98_paged_where_registered {hnb : Hnb.Env} {e e' : Hnb.State} {isPs : Bool} {imsi0 : Bytes} (hr : Reach hnb e)
    (hq : e.queue.length < 16) (hs : Hnb.step hnb e (.channel isPs imsi0) = .ok e') :
    ∃ m, e'.queue = e.queue ++ [m] ∧ (∃ ranap, InConnect m.data ranap) ∧ ∀ ranap, InConnect m.data ranap →
      ∀ (env : Iu.Env) (s : Iu.State) (c : Iu.ConnId) (a : Iu.SccpAddr), Client env s → TextOfItsOwn env a → ¬ InUse s c →
        ∃ rc s', Iu.step (linked env) (.connectInd c a ranap) s = .ok (rc, s') ∧
          ∀ ops s'', Iu.run (linked env) ops s' = .ok ((), s'') → Undisturbed env s' ops a →
            ∀ (imsi : Bytes) (tmsi : Option (BitVec 32)), ValidImsi imsi → imsi.length ≤ 15 →
              (∃ bs d n msg, (linked env).gen msg = .ok (some bs) ∧ PageArrives bs imsi ∧
                Iu.step (linked env) (.api (.pageCs2 imsi tmsi emulatorArea.lai)) s'' =
                  .ok (n, { s'' with trace := s''.trace ++ d }) ∧
                .unitdataReq a msg ∈ prims d) ∧
              (∃ bs d msg, (linked env).gen msg = .ok (some bs) ∧ PageArrives bs imsi ∧
                Iu.step (linked env) (.api (.pagePs2 imsi tmsi emulatorArea)) s'' =
                  .ok (1, { s'' with trace := s''.trace ++ d }) ∧
                prims d = [.unitdataReq a msg]) := by
  obtain ⟨hops0, hops⟩ := hr
  obtain ⟨m, ⟨-, ranap, h1, h2⟩, h3, -⟩ := C86_numbers hops hs hq
  have h4 : InConnect m.data ranap := inConnect_of (header := [(7, .enum (psOrCs isPs)), (3, .bits (low24 _)), (6, .enum 1)]) h2 rfl
  refine ⟨m, h3, ⟨ranap, h4⟩, fun ranap' h5 env s c a ⟨hc, hl, ops', hr, h0⟩ ht hx => ?_⟩
  obtain rfl := inConnect_unique h4 h5
  obtain ⟨rc, s', d, p, h6, -⟩ := initial_delivered (p0 := 0x09) (p1 := 0x01) (p2 := 0x99) (n := 23) (a := a) hc hl hr h0 hx h1 (by decide)
  refine ⟨rc, s', h6, fun ops s'' h7 hu imsi tmsi hv hl15 => ?_⟩
  have hrun : Iu.run (linked env) (ops' ++ .connectInd c a ranap :: ops) Iu.init = .ok ((), s'') := by
    rw [iu_run_append h0]
    exact (run_step h6).trans h7
  have hreg : registrations (linked env) Iu.init (ops' ++ .connectInd c a ranap :: ops) =
      registrations (linked env) Iu.init ops' ++ ⟨emulatorRnc, emulatorArea, a⟩ :: registrations (linked env) s' ops := by
    rw [registrations_append h0, registrations, initial_registers h1]
    simp only [h6]
    rfl
  obtain ⟨id, hid, hsame⟩ := lastRnc_mid (A := registrations (linked env) Iu.init ops') (g := ⟨emulatorRnc, emulatorArea, a⟩)
    (B := registrations (linked env) s' ops) (area := emulatorArea) (SameArea.refl _) (fun x hx => (hu x hx).1)
  rw [← hreg] at hid
  have haddr : ∀ r ∈ s''.rncs, SameRnc r.rncId emulatorRnc → r.addr = a := by
    intro r hr hsr
    obtain ⟨a', h8, h9⟩ := C15_address (env := linked env) hrun r hr
    rw [hreg, lastAddr_mid (g := ⟨emulatorRnc, emulatorArea, a⟩) hsr.symm
      (fun x hx hxs => (hu x hx).2 (hxs.trans hsr))] at h8
    obtain rfl := Option.some.inj h8
    exact h9.elim (fun h => h) (ht _)
  constructor
  · obtain ⟨r, hr1, hr2, hr3⟩ := (C15_last_writer_wins hrun emulatorArea emulatorRnc).2 ⟨id, hid, hsame⟩
    obtain ⟨bs, v, g1, -⟩ := (C55_paging imsi tmsi false 0 hv.1 (by omega)).1 ⟨hv, by decide⟩
    obtain ⟨d, e1, e2, -⟩ := C17_page_cs2 (env := linked env) (s := s'') (lai := emulatorArea.lai) (t := tmsi) (b := bs) (imsi := imsi) g1
    refine ⟨bs, d, _, .paging imsi tmsi false 0, g1, C98_page_arrives hv hl15 g1, e1, ?_⟩
    rw [e2]
    refine List.mem_map.2 ⟨r, List.mem_filter.2 ⟨hr1, ?_⟩, by rw [haddr r hr1 hr2]⟩
    obtain ⟨x, hx1, hx2⟩ := hr3
    exact decide_eq_true ⟨x, hx1, hx2.1⟩
  · obtain ⟨bs, v, g1, -⟩ := (C55_paging imsi tmsi true 0 hv.1 (by omega)).1 ⟨hv, by decide⟩
    obtain ⟨d, n, e1, e2, e3⟩ := C18_page_ps2 (env := linked env) hrun (rai := emulatorArea) (t := tmsi) (b := bs) (imsi := imsi) g1
    rw [hid] at e3
    obtain ⟨rfl, r, hr1, hr2, hr3, hr4⟩ := e3
    rw [haddr r hr1 (hr2.trans hsame)] at hr4
    exact ⟨bs, d, .paging imsi tmsi true 0, g1, C98_page_arrives hv hl15 g1, e1, hr4⟩

/-- An environment that shows every address as four octets of its point code, or nothing. -/
def pcEnv : Iu.Env := { Demo.env with dump := fun a => match a with
  | ⟨2, some pc, some 142, none⟩ => (List.range 4).map fun i => BitVec.ofNat 8 (pc.toNat / 2 ^ (8 * i))
  | _ => [] }

example : TextOfItsOwn pcEnv ⟨2, some 1234, some 142, none⟩ := by
  have hR : ∀ p : BitVec 32, ((List.range 4).map fun i => BitVec.ofNat 8 (p.toNat / 2 ^ (8 * i))) =
      [BitVec.ofNat 8 (p.toNat / 2 ^ 0), BitVec.ofNat 8 (p.toNat / 2 ^ 8), BitVec.ofNat 8 (p.toNat / 2 ^ 16),
       BitVec.ofNat 8 (p.toNat / 2 ^ 24)] := fun _ => rfl
  have h1234 : pcEnv.dump ⟨2, some 1234, some 142, none⟩ = [0xd2, 0x04, 0x00, 0x00] := by with_unfolding_all rfl
  intro x hx
  rw [h1234] at hx
  simp only [pcEnv] at hx
  split at hx
  · rename_i pc
    rw [hR] at hx
    simp only [List.take_succ_cons, List.take_nil, List.cons.injEq, and_true] at hx
    obtain ⟨h0, h1, h2, h3⟩ := hx
    have hp : pc = 1234 := by
      apply BitVec.eq_of_toNat_eq
      have e0 := congrArg BitVec.toNat h0
      have e1 := congrArg BitVec.toNat h1
      have e2 := congrArg BitVec.toNat h2
      have e3 := congrArg BitVec.toNat h3
      have := pc.isLt
      simp only [BitVec.toNat_ofNat] at e0 e1 e2 e3
      change _ = 210 at e0
      change _ = 4 at e1
      change _ = 0 at e2
      change _ = 0 at e3
      change _ = 1234
      omega
    rw [hp]
    rfl
  · cases hx

example : ∃ s, Client pcEnv s ∧ ¬ InUse s 11 := ⟨Iu.init, ⟨fun _ _ _ => trivial, fun _ _ _ => trivial, [], trivial, rfl⟩, by decide⟩

example (s : Iu.State) (a : Iu.SccpAddr) :
    Undisturbed pcEnv s [.connectInd 12 (Demo.addr 2) [], .api (.pagePs2 imsi15 none emulatorArea)] a := by
  intro g hg
  have h1 : ∀ s, registration (linked pcEnv) s (.connectInd 12 (Demo.addr 2) []) = none := fun _ => rfl
  have h2 : ∀ s, registration (linked pcEnv) s (.api (.pagePs2 imsi15 none emulatorArea)) = none := fun _ => rfl
  simp only [registrations, h1, h2] at hg
  split at hg
  · split at hg <;> cases hg
  · cases hg

example (hnb : Hnb.Env) : ∃ e e', Reach hnb e ∧ e.queue.length < 16 ∧ Hnb.step hnb e (.channel true imsi15) = .ok e' := by
  obtain ⟨e, h1, h2, h3, h4⟩ := reach_cs (env := hnb)
  obtain ⟨e', h5, -⟩ := reach_channel h1 true imsi15
  exact ⟨e, e', h1, by omega, h5⟩

example : ValidImsi imsi15 ∧ imsi15.length ≤ 15 := ⟨⟨by decide, by decide, by decide⟩, by decide⟩

end Verif.Props
