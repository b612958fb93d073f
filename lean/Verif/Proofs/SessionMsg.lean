import Verif.Proofs.SessionCn

/-!
# A location update: the messages, and what either side does about each
-/

namespace Verif.Session
open Verif.Aper Verif.Ie Verif.Hnb.Spec Verif.Linked Verif.Factory.Spec Verif.Props
open Verif.Linked.Spec (CoMsg elem octetsOf Has coBody dtOf causeOf initialUeOf)
open Verif.Iu.Spec (OwnCallbacks InUse HasCtx OpOk)

/-- Messages of the emulator. -/
inductive K where
  | opening | identity | authentication | security | reallocation | request | released
  deriving DecidableEq

/-- Messages of the client. -/
inductive T where
  | identity | authentication | security | accept | information | release
  deriving DecidableEq

/-- What is seen of the connection. -/
inductive A where
  | accept | got (k : K) | send (t : T) | told (e : Bool) | close
  deriving DecidableEq

/-- What the client does about a message. -/
def cnR : K → List A
  | .opening => [.accept, .got .opening, .send .identity]
  | .identity => [.got .identity, .send .authentication]
  | .authentication => [.got .authentication, .send .security]
  | .security => [.told true, .send .accept, .send .information]
  | .reallocation => [.got .reallocation]
  | .request => [.send .release]
  | .released => [.told false, .close]

/-- What the emulator does about a message. -/
def hnbR (b : Bool) : T → List K
  | .identity => [.identity]
  | .authentication => [.authentication]
  | .security => [.security]
  | .accept => if b then [.reallocation] else []
  | .information => [.request]
  | .release => [.released]

section
variable (hnb : Hnb.Env) (d : Dialogue)

def nasK : K → Bytes
  | .opening => locationUpdatingRequest
  | .identity => identityResponse
  | .authentication => authenticationResponse (hnb.sres d.rand.toList)
  | .reallocation => tmsiReallocationComplete
  | _ => []

def msgT : T → Iu.TxMsg
  | .identity => .dt d.sapi d.identityRequest
  | .authentication => .dt d.sapi d.authenticationRequest
  | .security => .secModCmd d.ik (if d.sendCk then some d.ck else none) d.newKey
  | .accept => .dt d.sapi d.locationUpdatingAccept
  | .information => .dt d.sapi d.mmInformation
  | .release => .iuRelCmd (.radioNetwork 40)

def actA : A → Act
  | .accept => .accept
  | .got k => .got (nasK hnb d k)
  | .send t => .send (msgT d t)
  | .told e => .told (if e then .securityModeComplete else .iuRelease)
  | .close => .close

/-- The answer a message of the emulator is. -/
def ansK : K → Answer
  | .security => .securityModeComplete 0
  | .request => .iuReleaseRequest
  | .released => .iuReleaseComplete
  | k => .nas (nasK hnb d k)

def IsK (k : K) (m : Rua.Msg) : Prop :=
  if k = .opening then ∃ n, Opens false n locationUpdatingRequest m else ∃ n, IsReply m n (ansK hnb d k)
end

/-! ## The emulator -/

variable {env : Iu.Env} {hnb : Hnb.Env} {c : Iu.ConnId} {d : Dialogue}

/-- A message of the client on the wire: its length, and what it is. -/
theorem gen_msgT (hv : d.Valid hnb) (t : T) : ∃ bs, Linked.gen (msgT d t) = .ok (some bs) ∧ bs.length ≤ 997 := by
  have nas : ∀ n : Bytes, n.length ≤ 977 → ∃ bs, Factory.dt d.sapi n = .ok (some bs) ∧ bs.length ≤ 997 := by
    intro n hn
    obtain ⟨bs, h1, -, h2, -⟩ := Factory.dt_length d.sapi n (by omega)
    exact ⟨bs, h1, by omega⟩
  cases t with
  | identity => exact nas _ hv.short.1
  | authentication => exact nas _ hv.short.2.1
  | accept => exact nas _ hv.short.2.2.1
  | information => exact nas _ hv.short.2.2.2
  | security =>
    have hck : ∀ k ∈ (if d.sendCk then some d.ck else none), k.length = 16 := by
      have := hv.ck
      intro k hk'; cases h : d.sendCk <;> simp [h] at hk'; subst hk'; omega
    have hst : (if d.newKey then 1 else 0) < 2 := by split <;> omega
    have := hv.ik
    obtain ⟨bs, h1, -⟩ := (C54_sec_mod_cmd d.ik (if d.sendCk then some d.ck else none) (if d.newKey then 1 else 0) 0x06 0x06
      (by omega) (fun k hk' => by have := hck k hk'; omega)).1 ⟨selects_both, fun _ => selects_both, hst⟩
    have := (gateway_security hv.ik hck hst h1).1
    exact ⟨bs, h1, by omega⟩
  | release =>
    have hc : Linked.toCause (.radioNetwork 40) = ⟨1, 40⟩ := rfl
    obtain ⟨bs, h1, -⟩ := (C65_iu_rel_cmd ⟨1, 40⟩).1 (by decide)
    have := (gateway_release (by decide) h1).1
    exact ⟨bs, h1, by omega⟩

theorem nas_co {t : T} {n bs data : Bytes} (ht : msgT d t = .dt d.sapi n) (hn : n.length ≤ 977)
    (hg : Linked.gen (msgT d t) = .ok (some bs)) (hd : InTransfer data bs) : ∃ l, Co data 1 20 l ∧ nasOf l = n := by
  rw [ht] at hg
  obtain ⟨bs', h1, h2, -⟩ := Factory.dt_length d.sapi n (by omega)
  have e : some bs = some bs' := Res.ok.inj (hg.symm.trans h1)
  cases e
  obtain ⟨l, h4, h5⟩ := Hnb.dt_nas h2
  exact ⟨l, co_inTransfer hd h4, h5⟩

/-- The messages of the emulator are of these kinds. -/
def Match (hnb : Hnb.Env) (d : Dialogue) : List Rua.Msg → List K → Prop
  | [], [] => True
  | m :: ms, k :: ks => IsK hnb d k m ∧ Match hnb d ms ks
  | _, _ => False

theorem Match.append {a b : List Rua.Msg} {x y : List K} (h : Match hnb d a x) (h' : Match hnb d b y) :
    Match hnb d (a ++ b) (x ++ y) := by
  induction a generalizing x with
  | nil => cases x with
    | nil => exact h'
    | cons => exact h.elim
  | cons m a ih => cases x with
    | nil => exact h.elim
    | cons k x => exact ⟨h.1, ih h.2⟩

theorem Match.length {a : List Rua.Msg} {x : List K} (h : Match hnb d a x) : a.length = x.length := by
  induction a generalizing x with
  | nil => cases x with
    | nil => rfl
    | cons => exact h.elim
  | cons m a ih => cases x with
    | nil => exact h.elim
    | cons k x => simp [ih h.2]

theorem Match.cons {m : Rua.Msg} {a : List Rua.Msg} {x : List K} (h : Match hnb d (m :: a) x) :
    ∃ k y, x = k :: y ∧ IsK hnb d k m ∧ Match hnb d a y := by
  cases x with
  | nil => exact h.elim
  | cons k y => exact ⟨k, y, rfl, h.1, h.2⟩

/-- What the emulator does about a message of the client. -/
theorem hnb_step (hv : d.Valid hnb) {e : Hnb.State} (he : Ready hnb e) {t : T} {bs data : Bytes}
    (hg : Linked.gen (msgT d t) = .ok (some bs)) (hd : InTransfer data bs) :
    ∃ e' b ms, Hnb.step hnb e (.recv 19 data) = .ok e' ∧ e'.queue = e.queue ++ ms ∧ e'.sent = e.sent ∧ e'.up = e.up ∧
      e'.chan = e.chan ∧ Match hnb d ms (hnbR b t) := by
  obtain ⟨r1, r2, r3, r4⟩ := he
  have one : ∀ {k : K}, hnbR true t = [k] → k ≠ .opening → Gets hnb e data (ansK hnb d k) →
      ∃ e' b ms, Hnb.step hnb e (.recv 19 data) = .ok e' ∧ e'.queue = e.queue ++ ms ∧ e'.sent = e.sent ∧ e'.up = e.up ∧
      e'.chan = e.chan ∧ Match hnb d ms (hnbR b t) := by
    rintro k h1 h2 ⟨m, ch, -, h3, h4⟩
    refine ⟨_, true, [m], h4, rfl, rfl, rfl, rfl, ?_⟩
    rw [h1]
    refine ⟨?_, trivial⟩
    unfold IsK
    rw [if_neg h2]
    exact ⟨_, h3⟩
  cases t with
  | identity =>
    obtain ⟨l, h1, h2⟩ := nas_co rfl hv.short.1 hg hd
    obtain ⟨rest, hm⟩ := hv.identity
    exact one rfl (by decide) (C84_identity r1 r2 r3 r4 h1 (h2 ▸ hm))
  | authentication =>
    obtain ⟨l, h1, h2⟩ := nas_co rfl hv.short.2.1 hg hd
    obtain ⟨cksn, ext, hm⟩ := hv.authentication
    exact one rfl (by decide) (C84_authentication d.rand r1 r2 r3 r4 h1 (h2 ▸ hm))
  | information =>
    obtain ⟨l, h1, h2⟩ := nas_co rfl hv.short.2.2.2 hg hd
    obtain ⟨rest, hm⟩ := hv.information
    exact one rfl (by decide) (gets r1 r2 r3 r4 (.nas h1 (.information (h2 ▸ hm))) (not_kills h1 (by decide) fun _ => by
      rw [h2]; exact hv.informationOk))
  | security =>
    have hck : ∀ k ∈ (if d.sendCk then some d.ck else none), k.length = 16 := by
      have := hv.ck
      intro k hk'; cases h : d.sendCk <;> simp [h] at hk'; subst hk'; omega
    obtain ⟨-, l, h3, h4⟩ := gateway_security hv.ik hck (status := if d.newKey then 1 else 0) (by split <;> omega) hg
    exact one rfl (by decide) (C84_security_mode r1 r2 r3 r4 (co_inTransfer hd h3) h4)
  | release =>
    obtain ⟨-, l, h3⟩ := gateway_release (c := ⟨1, 40⟩) (by decide) hg
    exact one rfl (by decide) (C84_release r1 r2 r3 r4 (co_inTransfer hd h3))
  | accept =>
    obtain ⟨l, h1, h2⟩ := nas_co rfl hv.short.2.2.1 hg hd
    obtain ⟨rest, hm⟩ := hv.accept
    rw [← h2] at hm
    have hk : ¬ Hnb.Spec.Kills hnb e (.recv 19 data) := not_kills h1 (by decide) fun _ => by rw [h2]; exact hv.acceptOk
    by_cases ha : ∃ a, Asks hnb e data a
    · obtain ⟨a, ha⟩ := ha
      have : a = .nas tmsiReallocationComplete := by
        cases ha with
        | nas h ha =>
          obtain ⟨-, -, rfl⟩ := Hnb.co_unique h1 h
          cases ha with
          | identity h => exact absurd (Hnb.mm_unique hm h).1 (by decide)
          | authentication h => exact absurd (Hnb.mm_unique hm h).1 (by decide)
          | information h => exact absurd (Hnb.mm_unique hm h).1 (by decide)
          | lu => rfl
          | chance => rfl
        | security h => exact absurd (Hnb.co_unique h1 h).2.1 (by decide)
        | release h => exact absurd (Hnb.co_unique h1 h).2.1 (by decide)
      subst this
      exact one (k := .reallocation) rfl (by decide) (gets r1 r2 r3 r4 ha hk)
    · rcases Hnb.step_result (env := hnb) (Hnb.reach_frame r1).1 (.recv 19 data) with ⟨h, -⟩ | ⟨-, s', hs, he⟩
      · exact absurd h hk
      · unfold Hnb.Effect at he
        dsimp only at he
        rw [if_pos ⟨r2, rfl⟩] at he
        rcases he with ⟨a, ha', -⟩ | ⟨t, -, rfl⟩ | ⟨-, -, rfl⟩
        · exact absurd ⟨a, ha'⟩ ha
        · exact ⟨_, false, [], hs, by simp, rfl, rfl, rfl, trivial⟩
        · exact ⟨_, false, [], hs, by simp, rfl, rfl, rfl, trivial⟩

/-! ## The client -/

theorem held_ctx {s : Iu.State} {u : Iu.Ue} (h : Held c s u) : HasCtx s c := ⟨u, h.mem.1, h.mem.2⟩

theorem cn_opening (hc : OwnCallbacks (linked env)) (hs : Serves env hnb c d) (hv : d.Valid hnb) {s : Iu.State} (hcl : Client env s)
    (hx : ¬ InUse s c) {m : Rua.Msg} (hm : IsK hnb d .opening m) {ranap : Bytes} (hr : InConnect m.data ranap) (a : Iu.SccpAddr) :
    ∃ rc s' u, Iu.step (linked env) (.connectInd c a ranap) s = .ok (rc, s') ∧ Held c s' u ∧
      acts c s'.trace = acts c s.trace ++ (cnR .opening).map (actA hnb d) := by
  obtain ⟨n, -, ranap', h1, h2⟩ := hm
  have h4 : InConnect m.data ranap' := inConnect_of (header := [(7, .enum (psOrCs false)), (3, .bits (low24 _)), (6, .enum 1)]) h2 rfl
  obtain rfl := inConnect_unique h4 hr
  have hi := client_inv hcl
  obtain ⟨hcb, hl, ops', hr', h0⟩ := hcl
  obtain ⟨rc, s', dd, p, e1, e2, -, e4⟩ := initial_delivered (a := a) (p0 := 0x09) (p1 := 0x01) (p2 := 0x99) (n := 23) hcb hl hr' h0 hx h1 (by decide)
  obtain ⟨l, g1, g2, -⟩ := initial_elems (p0 := 0x09) (p1 := 0x01) (p2 := 0x99) (n := 23) h1
  have hd : (linked env).decodeCo ranap' = some ⟨1, 19, .initialUe (initialUeOf l)⟩ := decodeCo_iff.2 ⟨1, 19, l, g1, rfl⟩
  have hnas : (initialUeOf l).nas = locationUpdatingRequest := by
    show octetsOf (elem _ l 16) = _
    rw [g2]
    rfl
  obtain ⟨bs, hg, -⟩ := gen_msgT hv .identity
  obtain ⟨u, f1, f2⟩ := accept_acts (c := c) hc hi (List.filter_eq_nil_iff.2 fun u hu hcu => hx (.inl ⟨u, hu, by simpa using hcu⟩))
    (req := d.identityRequest) (sapi := d.sapi) (fun s p ra sai => by rw [hnas]; exact hs.request s p ra sai) hg
    (fun hn => coMsg_nil (List.eq_nil_of_length_eq_zero hn ▸ g1)) hd e1 e2 (by rw [e4]; simp)
  refine ⟨rc, s', u, e1, f1, ?_⟩
  rw [f2, hnas]
  rfl

/-- What the client does about a message on the connection. -/
theorem cn_step (hs : Serves env hnb c d) (hv : d.Valid hnb) {s : Iu.State} (hcl : Client env s)
    {u : Iu.Ue} (hu : Held c s u) {k : K} (hk : k ≠ .opening) {m : Rua.Msg} (hm : IsK hnb d k m) {ranap : Bytes}
    (hr : InTransfer m.data ranap) :
    ∃ rc s', Iu.step (linked env) (.dataInd c ranap) s = .ok (rc, s') ∧ s'.cache = s.cache ∧
      acts c s'.trace = acts c s.trace ++ (cnR k).map (actA hnb d) ∧
      if k = .released then s'.ues.filter (·.conn = c) = [] else s'.ues = s.ues := by
  unfold IsK at hm
  rw [if_neg hk] at hm
  obtain ⟨n, hm⟩ := hm
  obtain ⟨ranap', h1, h2⟩ := reply_inTransfer hm
  obtain rfl := inTransfer_unique h1 hr
  have hi := client_inv hcl
  have hlive := hu.live hi
  have nas : ∀ {sc : Iu.Script} {lt : List A}, ansK hnb d k = .nas (nasK hnb d k) → (nasK hnb d k).length ≤ 256 →
      (∀ s, env.cb s (.recv u.ptr c (nasK hnb d k) none none) = sc) → cnR k = .got k :: lt →
      Runs (linked env) u sc (lt.map (actA hnb d)) → k ≠ .released →
      ∃ rc s', Iu.step (linked env) (.dataInd c ranap') s = .ok (rc, s') ∧ s'.cache = s.cache ∧
        acts c s'.trace = acts c s.trace ++ (cnR k).map (actA hnb d) ∧
        if k = .released then s'.ues.filter (·.conn = c) = [] else s'.ues = s.ues := by
    intro sc lt g1 g2 g3 g4 g5 g6
    rw [g1] at h2
    obtain ⟨l, h3, h4⟩ := says_co h2 (by simp) (m := Gen.Ranap.directTransferIEs) rfl (by decide)
    have g := fun k (hk : k < Gen.Ranap.directTransferIEs.ies.length) => h4 _ (List.getElem_mem hk)
    have e16 : elem Gen.Ranap.directTransferIEs l 16 = some (.octets (nasK hnb d k)) := (g 0 (by decide)).2
    have e15 : ¬ Has l 15 := fun hh => by have := (g 1 (by decide)).1.1 hh; cases this
    have hd : (linked env).decodeCo ranap' = some ⟨1, 20, .directTransfer (dtOf l)⟩ := decodeCo_iff.2 ⟨1, 20, l, h3, rfl⟩
    have hnas : (dtOf l).nas = nasK hnb d k := by
      show octetsOf (elem _ l 16) = _
      rw [e16]; rfl
    obtain ⟨s', f1, f2, f3, f4⟩ := dt_acts (env := linked env) hi hu hd (by unfold dtOf; dsimp only; rw [if_neg e15])
      (by rw [hnas]; exact g2) (by intro s; rw [hnas]; exact g3 s) g5
    refine ⟨0, s', f1, f3, ?_, ?_⟩
    · rw [f4, g4, hnas]; rfl
    · rw [if_neg g6]; exact f2
  cases k with
  | opening => exact absurd rfl hk
  | identity =>
    obtain ⟨bs, hg, -⟩ := gen_msgT hv .authentication
    exact nas (lt := [.send .authentication]) rfl (by simp [nasK, identityResponse]) (fun s => hs.identity s _ _ _) rfl (Runs.tx hg (Runs.done u)) (by decide)
  | authentication =>
    obtain ⟨bs, hg, -⟩ := gen_msgT hv .security
    exact nas (lt := [.send .security]) rfl (by simp [nasK, authenticationResponse]) (fun s => hs.authentication s _ _ _) rfl
      (Runs.security hg (Runs.done u)) (by decide)
  | reallocation =>
    exact nas (lt := []) rfl (by simp [nasK, tmsiReallocationComplete]) (fun s => hs.reallocation s _ _ _) rfl (Runs.done u) (by decide)
  | security =>
    obtain ⟨l, h3, -⟩ := says_co h2 (by simp) (m := Gen.Ranap.securityModeCompleteIEs) rfl (by decide)
    have hd : (linked env).decodeCo ranap' = some ⟨2, 6, .other⟩ := decodeCo_iff.2 ⟨2, 6, l, h3, rfl⟩
    obtain ⟨bs, hg, -⟩ := gen_msgT hv .accept
    obtain ⟨bs', hg', -⟩ := gen_msgT hv .information
    have hrun : Runs (linked env) u _ _ := Runs.tx hg (Runs.tx hg' (Runs.done u))
    obtain ⟨s', g1, g2, g3, g4⟩ := hrun { s with trace := s.trace ++ [.event (some (u.ptr, c)) .securityModeComplete] } hlive
    obtain rfl := hu.mem.2
    obtain ⟨f1, f2⟩ := event_acts (env := linked env) hi hu hs.events hd (.inl ⟨rfl, rfl⟩) (fun s => hs.security s u.ptr) g1 g4
    exact ⟨0, s', f1, g3, f2, by rw [if_neg (by decide)]; exact g2⟩
  | released =>
    obtain ⟨l, h3, -⟩ := says_co h2 (by simp) (m := Gen.Ranap.iu_ReleaseCompleteIEs) rfl (by decide)
    have hd : (linked env).decodeCo ranap' = some ⟨2, 1, .other⟩ := decodeCo_iff.2 ⟨2, 1, l, h3, rfl⟩
    obtain ⟨s', g1, g2, g3, g4⟩ := free_run (env := linked env) (u := u)
      (s := { s with trace := s.trace ++ [.event (some (u.ptr, c)) .iuRelease] }) hlive
    obtain rfl := hu.mem.2
    obtain ⟨f1, f2⟩ := event_acts (env := linked env) hi hu hs.events hd (.inr ⟨rfl, rfl⟩) (fun s => hs.release s u.ptr) g1 g4
    refine ⟨0, s', f1, g3, f2, ?_⟩
    rw [if_pos rfl, g2, List.filter_eq_nil_iff]
    intro v hv
    obtain ⟨hv1, hv2⟩ := List.mem_filter.1 hv
    intro hvc
    have : v ∈ s.ues.filter (·.conn = u.conn) := List.mem_filter.2 ⟨hv1, hvc⟩
    rw [hu.1] at this
    obtain rfl := List.mem_singleton.1 this
    simp at hv2
  | request =>
    obtain ⟨l, h3, h4⟩ := says_co h2 (by simp) (m := Gen.Ranap.iu_ReleaseRequestIEs) rfl (by decide)
    have e4 : elem Gen.Ranap.iu_ReleaseRequestIEs l 4 = some (.choice 0 (.int 40)) := (h4 _ (List.getElem_mem (n := 0) (by decide))).2
    have hd : (linked env).decodeCo ranap' = some ⟨1, 11, .iuReleaseReq (.radioNetwork 40)⟩ := decodeCo_iff.2 ⟨1, 11, l, h3, by
      unfold coBody; rw [e4]; rfl⟩
    obtain ⟨bs, hg, -⟩ := gen_msgT hv .release
    obtain ⟨-, -, ops, -, h0⟩ := hcl
    refine ⟨0, _, C34_release_request h0 (held_ctx hu) hd ⟨bs, hg⟩, rfl, ?_, by rw [if_neg (by decide)]⟩
    rw [acts_append, act_self]
    rfl

end Verif.Session
