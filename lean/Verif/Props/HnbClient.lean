import Verif.Props.HnbOut
import Verif.Props.Events

/-!
# C92: the HNB emulator and the Iu client

The gateway between them is anything that passes RANAP messages on unchanged: it takes them out of the RUA messages of the
emulator, hands them to the client over SCCP, and back.
-/

namespace Verif.Props
open Verif.Aper Verif.Ie Verif.Ie.Spec Verif.Hnb Verif.Hnb.Spec Verif.Factory.Spec Verif.Linked
open Verif.Linked.Spec (CoMsg elem octetsOf Has eventOf causeElem)
open Verif.Iu.Spec (CallbacksOk LinkOk RunOk HasCtx InUse Live LiveConn Happened recvs callbacks releaseCause)

/-! ## Definitions -/

/-- A client in a state it can be in, with well-behaved callbacks. -/
def Client (env : Iu.Env) (s : Iu.State) : Prop :=
  CallbacksOk (linked env) ∧ LinkOk (linked env) ∧
    ∃ ops, RunOk (linked env) Iu.init ops ∧ Iu.run (linked env) ops Iu.init = .ok ((), s)

/-- These octets, received on a connection, make the client deliver this NAS PDU, once, for a context of this connection. -/
def Delivers (env : Iu.Env) (s : Iu.State) (c : Iu.ConnId) (ranap nas : Bytes) : Prop :=
  ∃ rc s' d p, Iu.step (linked env) (.dataInd c ranap) s = .ok (rc, s') ∧ Happened s s' d ∧ LiveConn s p c ∧
    recvs d = [(p, c, nas, none, none)]

/-- ... make it tell its user this event for this context, if events are on, and nothing else. -/
def Tells (env : Iu.Env) (s : Iu.State) (u : Iu.Ue) (ranap : Bytes) (e : Iu.Event) : Prop :=
  ∃ s' d, Iu.step (linked env) (.dataInd u.conn ranap) s = .ok (0, s') ∧ Happened s s' d ∧
    callbacks d = if env.hasEventCb = true ∧ u.notification = true then [.event (some (u.ptr, u.conn)) e] else []

/-- An emulator with a CS channel and room in its queue. -/
def Ready (hnb : Hnb.Env) (e : Hnb.State) : Prop := Reach hnb e ∧ e.up = true ∧ e.chan ≠ none ∧ e.queue.length < 16

/-- This call of the client transmits octets on this connection which can be put into a RUA Direct Transfer; whatever RUA
Direct Transfer they arrive in, a ready emulator answers with one message, and the octets in it are as wanted. -/
def Exchange (env : Iu.Env) (s : Iu.State) (a : Iu.Api) (c : Iu.ConnId) (P : Hnb.Env → Bytes → Prop) : Prop :=
  ∃ bs, Transmits env s a c bs ∧
    (∀ isPs ctx, ∃ tr data, Rua.newDt isPs ctx (some bs) = .ok ⟨tr, some ⟨data, 19⟩⟩ ∧ InTransfer data bs) ∧
    ∀ data, InTransfer data bs → ∀ hnb e, Ready hnb e → ∃ m,
      Hnb.step hnb e (.recv 19 data) = .ok { e with queue := e.queue ++ [m] } ∧
      (∃ ranap, InTransfer m.data ranap) ∧ ∀ ranap, InTransfer m.data ranap → P hnb ranap

/-! ## Taking RUA messages apart -/

theorem inTransfer_of {bs ranap : Bytes} {header : List (Nat × Val)}
    (h : Rua.Spec.Understood bs 2 (header ++ [(4, .octets ranap)])) (h4 : header.lookup 4 = none) : InTransfer bs ranap := by
  obtain ⟨r, m, e1, e2, e3⟩ := ruaMsg_of_understood h
  cases e1
  refine ⟨r, e2, ?_⟩
  rw [e3 4 _ (by with_unfolding_all rfl) (by with_unfolding_all rfl), List.lookup_append, h4]
  rfl

theorem inConnect_of {bs ranap : Bytes} {header : List (Nat × Val)}
    (h : Rua.Spec.Understood bs 1 (header ++ [(4, .octets ranap)])) (h4 : header.lookup 4 = none) : InConnect bs ranap := by
  obtain ⟨r, m, e1, e2, e3⟩ := ruaMsg_of_understood h
  cases e1
  refine ⟨r, e2, ?_⟩
  rw [e3 4 _ (by with_unfolding_all rfl) (by with_unfolding_all rfl), List.lookup_append, h4]
  rfl

theorem inTransfer_unique {bs x y : Bytes} (h : InTransfer bs x) (h' : InTransfer bs y) : x = y := by
  obtain ⟨r, h1, h2⟩ := h
  obtain ⟨r', h1', h2'⟩ := h'
  obtain rfl := (ruaMsg_unique h1 h1').2
  rw [h2] at h2'
  cases h2'
  rfl

theorem inConnect_unique {bs x y : Bytes} (h : InConnect bs x) (h' : InConnect bs y) : x = y := by
  obtain ⟨r, h1, h2⟩ := h
  obtain ⟨r', h1', h2'⟩ := h'
  obtain rfl := (ruaMsg_unique h1 h1').2
  rw [h2] at h2'
  cases h2'
  rfl

theorem co_inTransfer {data ranap : Bytes} {p k : Nat} {l : List Ie} (h : InTransfer data ranap) (hm : CoMsg ranap p k l) :
    Co data p k l := by
  obtain ⟨r, h1, h2⟩ := h
  refine ⟨r, h1, ?_⟩
  rw [h2]
  exact hm

theorem reply_inTransfer {m : Rua.Msg} {c : BitVec 32} {a : Answer} (h : IsReply m c a) :
    ∃ ranap, InTransfer m.data ranap ∧ a.IsIn ranap := by
  obtain ⟨-, ranap, h1, h2⟩ := h
  exact ⟨ranap, inTransfer_of (header := [(7, .enum 0), (3, .bits (low24 c))]) h2 rfl, h1⟩

/-- The frame of all exchanges. -/
theorem exchange {env : Iu.Env} {s : Iu.State} {a : Iu.Api} {c : Iu.ConnId} {P : Hnb.Env → Bytes → Prop} {bs : Bytes} {p k : Nat}
    {l : List Ie} (ht : Transmits env s a c bs) (hl : bs.length ≤ 997) (hm : CoMsg bs p k l)
    (h : ∀ data, Co data p k l → ∀ hnb e, Ready hnb e → ∃ ans, Gets hnb e data ans ∧ ∀ ranap, ans.IsIn ranap → P hnb ranap) :
    Exchange env s a c P := by
  refine ⟨bs, ht, fun isPs ctx => ?_, fun data hd hnb e hr => ?_⟩
  · obtain ⟨tr, data, h1, -, h2⟩ := C58_direct_transfer isPs ctx bs hl
    exact ⟨tr, data, h1, inTransfer_of (header := [(7, .enum (psOrCs isPs)), (3, .bits (low24 ctx))]) h2 rfl⟩
  · obtain ⟨ans, ⟨m, ch, -, h2, h3⟩, h4⟩ := h data (co_inTransfer hd hm) hnb e hr
    obtain ⟨ranap, h5, h6⟩ := reply_inTransfer h2
    exact ⟨m, h3, ⟨ranap, h5⟩, fun ranap' h7 => by rw [inTransfer_unique h7 h5]; exact h4 _ h6⟩

/-! ## What the client makes of the answers -/

theorem nas_delivers {env : Iu.Env} {ranap nas : Bytes} {n : Nat} (h : Says ranap 1 20 [(16, .octets nas), (59, .enum n)])
    (hn : nas.length ≤ 256) {s : Iu.State} {c : Iu.ConnId} (hs : Client env s) (hx : HasCtx s c) : Delivers env s c ranap nas := by
  obtain ⟨hc, hl, ops, hr, h0⟩ := hs
  obtain ⟨l, h3, h4⟩ := says_co h (by simp) (m := Gen.Ranap.directTransferIEs) rfl (by decide)
  have g := fun k (hk : k < Gen.Ranap.directTransferIEs.ies.length) => h4 _ (List.getElem_mem hk)
  have h2 : elem Gen.Ranap.directTransferIEs l 16 = some (.octets nas) := (g 0 (by decide)).2
  have h15 : ¬ Has l 15 := fun hh => by have := (g 1 (by decide)).1.1 hh; cases this
  obtain ⟨rc, s', d, e1, e2, e3⟩ := C74_uplink_octets hc hl hr h0 hx h3 (by rw [h2]; exact hn)
  have hrd : Iu.Spec.readDt (Linked.Spec.dtOf l) = some (none, none) := by
    unfold Iu.Spec.readDt Linked.Spec.dtOf
    dsimp only
    rw [if_neg h15]
  rw [hrd] at e3
  obtain ⟨p, e3, e4⟩ := e3
  rw [h2] at e4
  exact ⟨rc, s', d, p, e1, e2, e3, e4⟩

theorem outcome_tells {env : Iu.Env} {ranap : Bytes} {k : Nat} {l : List Ie} {e : Iu.Event} (h : CoMsg ranap 2 k l)
    (he : eventOf 2 k l = some e) {s : Iu.State} {u : Iu.Ue} (hs : Client env s) (hu : u ∈ s.ues) : Tells env s u ranap e := by
  obtain ⟨hc, hl, ops, hr, h0⟩ := hs
  obtain ⟨s', d, h1, h2, h3⟩ := C91_events hc hl hr h0 hu h (fun hk => by
    obtain ⟨p, k', l', h', ⟨-, hf⟩ | ⟨hf, -⟩⟩ := hk
    · obtain ⟨rfl, rfl, rfl⟩ := coMsg_unique h h'
      rcases hf with ⟨hf, -⟩ | ⟨hf, -⟩ | ⟨hf, -⟩ <;> cases hf
    · exact hf ⟨u, hu, rfl⟩) (fun hk => by cases hk.1)
  rw [he] at h3
  exact ⟨s', d, h1, h2, h3⟩

/-! ## C92 -/

variable {env : Iu.Env} {s : Iu.State} {u : Iu.Ue}

/-- **C92.** Location updating: the connection the emulator asks for brings its Location Updating Request to the user of the
client, for a new context, with the location of the emulator. -/
theorem C92_location_update {hnb : Hnb.Env} {e e' : Hnb.State} {isPs : Bool} {imsi : Bytes} (hr : Reach hnb e)
    (hq : e.queue.length < 16) (hs : Hnb.step hnb e (.channel isPs imsi) = .ok e') :
    ∃ m, e'.queue = e.queue ++ [m] ∧ (∃ ranap, InConnect m.data ranap) ∧ ∀ ranap, InConnect m.data ranap →
      ∀ (env : Iu.Env) (s : Iu.State) (c : Iu.ConnId) (a : Iu.SccpAddr), Client env s → ¬ InUse s c →
        ∃ rc s' d p, Iu.step (linked env) (.connectInd c a ranap) s = .ok (rc, s') ∧ Happened s s' d ∧ ¬ Live s p ∧
          recvs d = [(p, c, locationUpdatingRequest, some ⟨901, 99, false, 0x4223, 0xff⟩, some 0x4223)] := by
  obtain ⟨ops, hops⟩ := hr
  obtain ⟨m, ⟨-, ranap, h1, h2⟩, h3, -⟩ := C86_numbers hops hs hq
  have h4 : InConnect m.data ranap := inConnect_of (header := [(7, .enum (psOrCs isPs)), (3, .bits (low24 _)), (6, .enum 1)]) h2 rfl
  refine ⟨m, h3, ⟨ranap, h4⟩, fun ranap' h5 env s c a ⟨hc, hl, ops', hr, h0⟩ hx => ?_⟩
  obtain rfl := inConnect_unique h4 h5
  exact initial_delivered (p0 := 0x09) (p1 := 0x01) (p2 := 0x99) (n := 23) hc hl hr h0 hx h1 (by decide)

/-- A NAS PDU from the client of up to 977 octets, which the emulator answers. -/
theorem nas_exchange {P : Hnb.Env → Bytes → Prop} (hs : Client env s) (hu : u ∈ s.ues) {nas : Bytes} (hn : nas.length ≤ 977)
    (sapi : Byte) (h : ∀ data l, Co data 1 20 l → nasOf l = nas → ∀ hnb e, Ready hnb e →
      ∃ ans, Gets hnb e data ans ∧ ∀ ranap, ans.IsIn ranap → P hnb ranap) :
    Exchange env s (.tx (some u.ptr) nas sapi) u.conn P := by
  obtain ⟨-, -, ops, -, h0⟩ := hs
  obtain ⟨bs, h1, h2, h3, -⟩ := Factory.dt_length sapi nas (by omega)
  obtain ⟨l, h4, h5⟩ := dt_nas h2
  exact exchange (transmits_nas h0 hu h1) (by omega) h4 fun data hd hnb e hr => h data l hd h5 hnb e hr

/-- **C92.** Identity Request of up to 977 octets: the user of the client gets the Identity Response. -/
theorem C92_identity (hs : Client env s) (hu : u ∈ s.ues) {nas rest : Bytes} (hm : Mm nas 0x18 rest) (hn : nas.length ≤ 977)
    (sapi : Byte) : Exchange env s (.tx (some u.ptr) nas sapi) u.conn fun _ ranap =>
      ∀ s' c, Client env s' → HasCtx s' c → Delivers env s' c ranap identityResponse :=
  nas_exchange hs hu hn sapi fun _ _ hd hl _ _ ⟨h1, h2, h3, h4⟩ =>
    ⟨_, C84_identity h1 h2 h3 h4 hd (hl ▸ hm), fun _ hi _ _ hs' hx => nas_delivers hi (by decide) hs' hx⟩

/-- **C92.** Authentication Request: the user of the client gets the Authentication Response for its challenge. -/
theorem C92_authentication (hs : Client env s) (hu : u ∈ s.ues) {nas ext : Bytes} {cksn : Byte} (rand : Vector Byte 16)
    (hm : Mm nas 0x12 (cksn :: (rand.toList ++ ext))) (hn : nas.length ≤ 977) (sapi : Byte) :
    Exchange env s (.tx (some u.ptr) nas sapi) u.conn fun hnb ranap => ∀ s' c, Client env s' → HasCtx s' c →
      Delivers env s' c ranap ([0x05, 0x94] ++ (hnb.sres rand.toList).toList) :=
  nas_exchange hs hu hn sapi fun _ _ hd hl _ _ ⟨h1, h2, h3, h4⟩ =>
    ⟨_, C84_authentication rand h1 h2 h3 h4 hd (hl ▸ hm), fun _ hi _ _ hs' hx => nas_delivers hi (by simp) hs' hx⟩

/-- **C92.** Security mode: the user of the client is told that it is complete; the algorithm is UIA1, without encryption. -/
theorem C92_security_mode (hs : Client env s) (hu : u ∈ s.ues) (ik ck : Bytes) (sendCk newKey : Bool) (hi : ik.length = 16)
    (hk : ck.length = 16) : Exchange env s (.txSecModeCmd u.ptr ik ck sendCk newKey) u.conn fun _ ranap =>
      Says ranap 2 6 [(6, .int 0), (5, .int 0)] ∧
      ∀ s' u', Client env s' → u' ∈ s'.ues → Tells env s' u' ranap .securityModeComplete := by
  obtain ⟨-, -, ops, -, h0⟩ := hs
  have hck : ∀ k ∈ (if sendCk then some ck else none), k.length = 16 := by
    intro k hk'; cases sendCk <;> simp at hk'; subst hk'; omega
  have hst : (if newKey then 1 else 0) < 2 := by split <;> omega
  obtain ⟨bs, h1, -⟩ := (C54_sec_mod_cmd ik (if sendCk then some ck else none) (if newKey then 1 else 0) 0x06 0x06
    (by omega) (fun k hk' => by have := hck k hk'; omega)).1 ⟨selects_both, fun _ => selects_both, hst⟩
  obtain ⟨h2, l, h3, h4⟩ := gateway_security hi hck hst h1
  refine exchange (transmits_security h0 hu h1) (by omega) h3 fun data hd hnb e ⟨r1, r2, r3, r4⟩ =>
    ⟨_, C84_security_mode r1 r2 r3 r4 hd h4, fun ranap hi => ⟨hi, fun s' u' hs' hu' => ?_⟩⟩
  obtain ⟨l', h5, -⟩ := says_co hi (by simp) (m := Gen.Ranap.securityModeCompleteIEs) rfl (by decide)
  exact outcome_tells h5 rfl hs' hu'

/-- **C92.** Release, with any cause there is: the user of the client is told that it is complete. -/
theorem C92_release (hs : Client env s) (hu : u ∈ s.ues) (cause : Option Iu.Cause) {v : Val}
    (hv : causeElem (releaseCause cause) = some v) : Exchange env s (.txRelease u.ptr cause) u.conn fun _ ranap =>
      ∀ s' u', Client env s' → u' ∈ s'.ues → Tells env s' u' ranap .iuRelease := by
  obtain ⟨-, -, ops, -, h0⟩ := hs
  rw [causeElem_eq] at hv
  split at hv
  case isFalse => cases hv
  rename_i hv'
  obtain ⟨bs, h1, -⟩ := (C65_iu_rel_cmd _).1 hv'
  obtain ⟨h2, l, h3⟩ := gateway_release hv' h1
  refine exchange (transmits_release h0 hu h1) (by omega) h3 fun data hd hnb e ⟨r1, r2, r3, r4⟩ =>
    ⟨_, C84_release r1 r2 r3 r4 hd, fun ranap hi s' u' hs' hu' => ?_⟩
  obtain ⟨l', h5, -⟩ := says_co hi (by simp) (m := Gen.Ranap.iu_ReleaseCompleteIEs) rfl (by decide)
  exact outcome_tells h5 rfl hs' hu'

/-- The hypotheses of C92: a client with a context, a ready emulator, and requests. -/
example : ∃ s u, Client Demo.env s ∧ u ∈ s.ues ∧ HasCtx s u.conn ∧ ¬ InUse s 11 := by
  obtain ⟨s, h0, ⟨u, hu, -⟩, h11⟩ := demo_ctx
  exact ⟨s, u, ⟨fun _ _ _ => trivial, fun _ _ _ => trivial, _, demo_run, h0⟩, hu, ⟨u, hu, rfl⟩, h11⟩

example (hnb : Hnb.Env) : ∃ e, Ready hnb e := by
  obtain ⟨e, h1, h2, h3, h4⟩ := reach_cs (env := hnb)
  exact ⟨e, h1, h2, by rw [h3]; simp, by omega⟩

example : Mm [0x05, 0x18, 0x01] 0x18 [0x01] := ⟨0x05, 0x18, rfl, by decide, by decide⟩
example (rand : Vector Byte 16) : Mm (0x05 :: 0x12 :: 0x00 :: (rand.toList ++ [])) 0x12 (0x00 :: (rand.toList ++ [])) :=
  ⟨0x05, 0x12, rfl, by decide, by decide⟩
example : causeElem (releaseCause none) = some (.choice 2 (.int 83)) := rfl

end Verif.Props
