import Verif.Proofs.SessionRun
import Verif.Props.Demo

/-!
# C101: a location update, on all schedules

The HNB emulator asks for a connection; a gateway passes messages on; a core network node that uses the Iu client answers.
Between any two moves of this session the client may serve others.
-/

namespace Verif.Props
open Verif.Session Verif.Hnb.Spec Verif.Linked
open Verif.Iu.Spec (OwnCallbacks CallbacksOk LinkOk InUse HasCtx RunOk)

/-- The start of a location update: an emulator, up and with nothing queued, has asked for a CS channel; the connection id is
not in use at the client.  Nothing sent before is of interest. -/
structure Begins (env : Iu.Env) (hnb : Hnb.Env) (c : Iu.ConnId) (d : Dialogue) (σ : Sys) : Prop where
  user : Serves env hnb c d
  dialogue : d.Valid hnb
  own : OwnCallbacks (linked env)
  client : Client env σ.cn
  unused : ¬ InUse σ.cn c
  emulator : ∃ e imsi, Reach hnb e ∧ e.up = true ∧ e.queue = [] ∧ Hnb.step hnb e (.channel false imsi) = .ok σ.hnb
  upAll : σ.up = σ.hnb.sent.length
  downAll : σ.down = (sends (acts c σ.cn.trace)).length

variable {env : Iu.Env} {hnb : Hnb.Env} {c : Iu.ConnId} {d : Dialogue} {σ τ : Sys} {n : Nat}

theorem begins_at (h : Begins env hnb c d σ) (hs : Steps env hnb c n σ τ) : ∃ q, At env hnb c d (acts c σ.cn.trace) n τ q := by
  obtain ⟨e, imsi, h1, h2, h3, h4⟩ := h.emulator
  have := at_start (env := env) (c := c) (d := d) h1 h2 h3 h4 h.client h.unused
  rw [← h.upAll, ← h.downAll] at this
  exact at_steps h.own h.user h.dialogue this hs

/-- **C101.** Whatever is done next in the session, nothing breaks. -/
theorem C101_nothing_breaks (h : Begins env hnb c d σ) (hs : Steps env hnb c n σ τ) {b : Bool} {r : Res Sys}
    (hr : Step env hnb c b τ r) : ∃ τ', r = .ok τ' := by
  obtain ⟨q, hq⟩ := begins_at h hs
  obtain ⟨τ', -, e, -⟩ := at_step h.own h.user h.dialogue hq hr
  exact ⟨τ', e⟩

/-- **C101.** As long as a message of the session is waiting somewhere, something can be done; and twenty moves are all there
can be. -/
theorem C101_goes_on (h : Begins env hnb c d σ) (hs : Steps env hnb c n σ τ) :
    n ≤ 20 ∧ (¬ Quiet c τ → ∃ τ', Step env hnb c true τ (.ok τ')) := by
  obtain ⟨q, hq⟩ := begins_at h hs
  refine ⟨?_, at_progress h.own h.user h.dialogue hq⟩
  have h1 := hq.moves
  have h2 := (cfgs_moves q hq.cfg).1
  omega

/-- **C101.** At all times, what has been seen of the connection at the client is a beginning of the transcript. -/
theorem C101_in_order (h : Begins env hnb c d σ) (hs : Steps env hnb c n σ τ) :
    ∃ l b, acts c τ.cn.trace = acts c σ.cn.trace ++ l ∧ l <+: transcript hnb d b := by
  obtain ⟨q, hq⟩ := begins_at h hs
  obtain ⟨b, hb⟩ := cfgs_prefix q hq.cfg
  refine ⟨_, b, hq.seen, ?_⟩
  rw [transcript_eq]
  exact hb.map _

/-- **C101.** When nothing is waiting any more, all of it has been seen, the context is gone, and it took eighteen or twenty
moves. -/
theorem C101_completes (h : Begins env hnb c d σ) (hs : Steps env hnb c n σ τ) (hq : Quiet c τ) :
    ∃ b, acts c τ.cn.trace = acts c σ.cn.trace ++ transcript hnb d b ∧ n = (if b then 20 else 18) ∧ ¬ HasCtx τ.cn c := by
  obtain ⟨q, ha⟩ := begins_at h hs
  obtain ⟨h1, h2, h3⟩ := hq
  have hw : q.wait = [] := by
    have := ha.wait.length
    rw [h1, List.drop_eq_nil_of_le h2] at this
    exact List.eq_nil_of_length_eq_zero this.symm
  have hd : (sendsA q.seen).length ≤ q.down := by
    rw [ha.seen, sends_append, sends_map, ha.down, List.length_append, List.length_map] at h3
    omega
  obtain ⟨b, g1, g2, g3⟩ := cfgs_end q ha.cfg hw hd
  refine ⟨b, ?_, ?_, ?_⟩
  · rw [ha.seen, transcript_eq, g1]
  · have := ha.moves
    rw [h1, g2] at this
    simpa using this
  · have := ha.ctx
    rw [g3, if_neg (by decide)] at this
    rintro ⟨u, hu, huc⟩
    exact List.filter_eq_nil_iff.1 this u hu (by simp [huc])

/-- **C101.** So it can always be completed. -/
theorem C101_can_complete (h : Begins env hnb c d σ) (hs : Steps env hnb c n σ τ) : ∃ m τ', Steps env hnb c m σ τ' ∧ Quiet c τ' ∧ n ≤ m := by
  have key : ∀ k n τ, 20 ≤ n + k → Steps env hnb c n σ τ → ∃ m τ', Steps env hnb c m σ τ' ∧ Quiet c τ' ∧ n ≤ m := by
    intro k
    induction k with
    | zero =>
      intro n τ hn hs
      by_cases hq : Quiet c τ
      · exact ⟨n, τ, hs, hq, Nat.le_refl _⟩
      · obtain ⟨τ', h'⟩ := (C101_goes_on h hs).2 hq
        have := (C101_goes_on h (.move hs h')).1
        omega
    | succ k ih =>
      intro n τ hn hs
      by_cases hq : Quiet c τ
      · exact ⟨n, τ, hs, hq, Nat.le_refl _⟩
      · obtain ⟨τ', h'⟩ := (C101_goes_on h hs).2 hq
        obtain ⟨m, τ'', g1, g2, g3⟩ := ih (n + 1) τ' (by omega) (.move hs h')
        exact ⟨m, τ'', g1, g2, by omega⟩
  exact key 20 n τ (by omega) hs

/-! ## There are such systems -/

/-- A user who serves whoever does a location update, with any dialogue. -/
def msc (hnb : Hnb.Env) (d : Dialogue) : Iu.Env :=
  { Demo.env with
    cb := fun _ o => match o with
      | .recv p _ nas _ _ =>
        if nas = locationUpdatingRequest then .call (.tx (some p) d.identityRequest d.sapi) fun _ => .done
        else if nas = identityResponse then .call (.tx (some p) d.authenticationRequest d.sapi) fun _ => .done
        else if nas = authenticationResponse (hnb.sres d.rand.toList) then
          .call (.txSecModeCmd p d.ik d.ck d.sendCk d.newKey) fun _ => .done
        else .done
      | .event (some (p, _)) .securityModeComplete =>
        .call (.tx (some p) d.locationUpdatingAccept d.sapi) fun _ => .call (.tx (some p) d.mmInformation d.sapi) fun _ => .done
      | .event (some (p, _)) .iuRelease => .call (.freeUe (some p)) fun _ => .done
      | _ => .done }

theorem msc_serves (hnb : Hnb.Env) (d : Dialogue) (c : Iu.ConnId) : Serves (msc hnb d) hnb c d where
  events := rfl
  request := fun _ _ _ _ => rfl
  identity := fun _ _ _ _ => rfl
  authentication := fun _ p _ _ => by
    have h1 : authenticationResponse (hnb.sres d.rand.toList) ≠ locationUpdatingRequest := by
      simp [authenticationResponse, locationUpdatingRequest]
    have h2 : authenticationResponse (hnb.sres d.rand.toList) ≠ identityResponse := by
      simp [authenticationResponse, identityResponse]
    simp [msc, h1, h2]
  security := fun _ _ => rfl
  reallocation := fun _ p _ _ => by
    have h1 : tmsiReallocationComplete ≠ locationUpdatingRequest := by decide
    have h2 : tmsiReallocationComplete ≠ identityResponse := by decide
    have h3 : tmsiReallocationComplete ≠ authenticationResponse (hnb.sres d.rand.toList) := by
      simp [authenticationResponse, tmsiReallocationComplete]
    simp [msc, h1, h2, h3]
  release := fun _ _ => rfl

theorem msc_own (hnb : Hnb.Env) (d : Dialogue) : OwnCallbacks (linked (msc hnb d)) := by
  intro s o
  show Iu.Spec.OwnOnly _ ((msc hnb d).cb s o)
  unfold msc
  dsimp only
  split
  · split
    · exact ⟨by simp [Iu.Spec.args, Iu.Spec.target], fun _ => trivial⟩
    · split
      · exact ⟨by simp [Iu.Spec.args, Iu.Spec.target], fun _ => trivial⟩
      · split
        · exact ⟨by simp [Iu.Spec.args, Iu.Spec.target], fun _ => trivial⟩
        · trivial
  · exact ⟨by simp [Iu.Spec.args, Iu.Spec.target], fun _ => ⟨by simp [Iu.Spec.args, Iu.Spec.target], fun _ => trivial⟩⟩
  · exact ⟨by simp [Iu.Spec.args, Iu.Spec.target], fun _ => trivial⟩
  · trivial

theorem msc_ok {hnb : Hnb.Env} {d : Dialogue} (hv : d.Valid hnb) : CallbacksOk (linked (msc hnb d)) := by
  have gen : ∀ t, Iu.Spec.Generable (linked (msc hnb d)) (msgT d t) := fun t => by
    obtain ⟨bs, h, -⟩ := gen_msgT hv t
    exact ⟨bs, h⟩
  have one : ∀ {s : Iu.State} {a : Iu.Api} {p : Iu.Ptr} (t : T), Iu.Spec.args a = [p] → Iu.Spec.builds a = some (msgT d t) →
      (∃ u ∈ s.ues, u.ptr = p) → Iu.Spec.ApiOk (linked (msc hnb d)) s a := by
    intro s a p t h1 h2 h3
    refine ⟨?_, ?_⟩
    · rw [h1]
      intro q hq
      obtain rfl := List.mem_singleton.1 hq
      exact h3
    · intro m hm
      rw [h2] at hm
      cases hm
      exact gen t
  intro s o hg
  show Iu.Spec.ScriptOk _ ((msc hnb d).cb s o) s
  unfold msc
  dsimp only
  split
  · obtain ⟨u, hu, hp, -⟩ := hg
    split
    · exact ⟨one .identity rfl rfl ⟨u, hu, hp⟩, fun _ _ _ => trivial⟩
    · split
      · exact ⟨one .authentication rfl rfl ⟨u, hu, hp⟩, fun _ _ _ => trivial⟩
      · split
        · exact ⟨one .security rfl rfl ⟨u, hu, hp⟩, fun _ _ _ => trivial⟩
        · trivial
  · obtain ⟨u, hu, rfl, -⟩ := hg
    refine ⟨one .accept rfl rfl ⟨u, hu, rfl⟩, fun rc s' h => ⟨one .information rfl rfl ?_, fun _ _ _ => trivial⟩⟩
    obtain ⟨bs, hb, -⟩ := gen_msgT hv .accept
    obtain ⟨v, hf⟩ := Iu.live_find (s := s) (p := u.ptr) ⟨u, hu, rfl⟩
    obtain ⟨hv1, hv2⟩ := Iu.find_live hf
    obtain ⟨s2, g1, g2, -⟩ := Runs.tx (env := linked (msc hnb d)) (u := v) (sapi := d.sapi) (nas := d.locationUpdatingAccept) hb
      (Runs.done v) s (by rw [hv2]; exact hf)
    rw [hv2] at g1
    have h' : Iu.runApi (linked (msc hnb d)) (.tx (some u.ptr) d.locationUpdatingAccept d.sapi) s = .ok (rc, s') := h
    simp only [Iu.runScript, Iu.bind_eq, h', Iu.pure_run] at g1
    cases g1
    rw [g2]
    exact ⟨u, hu, rfl⟩
  · obtain ⟨u, hu, hp, -⟩ := hg
    exact ⟨⟨by simp only [Iu.Spec.args, Option.toList, List.mem_singleton]; rintro q rfl; exact ⟨u, hu, hp⟩, fun m hm => by cases hm⟩, fun _ _ _ => trivial⟩
  · trivial

/-- For every dialogue, emulator that has just asked for a channel, and unused connection id. -/
theorem msc_begins {hnb : Hnb.Env} {d : Dialogue} (hv : d.Valid hnb) (c : Iu.ConnId) {e : Hnb.State} (hr : Reach hnb e)
    (hu : e.up = true) (hq : e.queue = []) (imsi : Bytes) {s : Iu.State} {ops : List Iu.Op} (ho : RunOk (linked (msc hnb d)) Iu.init ops)
    (hs : Iu.run (linked (msc hnb d)) ops Iu.init = .ok ((), s)) (hx : ¬ InUse s c) :
    ∃ e', Begins (msc hnb d) hnb c d ⟨e', s, e'.sent.length, (sends (acts c s.trace)).length⟩ := by
  rcases Hnb.step_result (env := hnb) (Hnb.reach_frame hr).1 (.channel false imsi) with ⟨hk, -⟩ | ⟨-, e', h1, -⟩
  · exact hk.elim
  · refine ⟨e', msc_serves hnb d c, hv, msc_own hnb d, ⟨msc_ok hv, ?_, ops, ho, hs⟩, hx, ⟨e, imsi, hr, hu, hq, h1⟩, rfl, rfl⟩
    intro s p c
    trivial

/-- A dialogue, with the TLV parser and chance as they may be. -/
def demoDialogue : Dialogue where
  sapi := 0
  identityRequest := [0x05, 0x18, 0x02]
  authenticationRequest := [0x05, 0x12, 0x00] ++ (Vector.replicate 16 0xaa).toList
  rand := Vector.replicate 16 0xaa
  ik := List.replicate 16 0x01
  ck := List.replicate 16 0x02
  sendCk := true
  newKey := true
  locationUpdatingAccept := [0x05, 0x02, 0x09, 0xf1, 0x99, 0x42, 0x23]
  mmInformation := [0x05, 0x32]

theorem demoDialogue_valid : demoDialogue.Valid demoHnb where
  identity := ⟨[0x02], 0x05, 0x18, rfl, by decide, by decide⟩
  authentication := ⟨0x00, [], 0x05, 0x12, by simp [demoDialogue], by decide, by decide⟩
  accept := ⟨[0x09, 0xf1, 0x99, 0x42, 0x23], 0x05, 0x02, rfl, by decide, by decide⟩
  acceptOk := by
    have hm : Mm demoDialogue.locationUpdatingAccept 0x02 [0x09, 0xf1, 0x99, 0x42, 0x23] := ⟨0x05, 0x02, rfl, by decide, by decide⟩
    rintro ⟨rest, ⟨h, h'⟩ | ⟨h, -⟩⟩
    · obtain ⟨-, rfl⟩ := Hnb.mm_unique hm h
      rcases h' with h' | ⟨h', -⟩
      · exact absurd h' (by decide)
      · exact h' rfl
    · exact absurd (Hnb.mm_unique hm h).1 (by decide)
  information := ⟨[], 0x05, 0x32, rfl, by decide, by decide⟩
  informationOk := by
    have hm : Mm demoDialogue.mmInformation 0x32 [] := ⟨0x05, 0x32, rfl, by decide, by decide⟩
    rintro ⟨rest, ⟨h, -⟩ | ⟨h, h'⟩⟩
    · exact absurd (Hnb.mm_unique hm h).1 (by decide)
    · rcases h' with h' | h' <;> cases h'
  ik := rfl
  ck := rfl
  short := by decide

/-- The hypotheses of C101 are met while another connection is served. -/
example : ∃ σ, Begins (msc demoHnb demoDialogue) demoHnb 11 demoDialogue σ ∧ HasCtx σ.cn 10 := by
  have : ∃ s, Iu.run (linked (msc demoHnb demoDialogue)) [.connectInd 10 (Demo.addr 1) initialOctets] Iu.init = .ok ((), s) ∧
      decide (HasCtx s 10 ∧ ¬ InUse s 11) = true := Demo.after_iff.1 (by decide +kernel)
  obtain ⟨s, h, hd⟩ := this
  obtain ⟨hd1, hd2⟩ := of_decide_eq_true hd
  obtain ⟨e', hb⟩ := msc_begins demoDialogue_valid 11 reach_init rfl rfl [] (Demo.runOk_sound (by decide +kernel)) h hd2
  exact ⟨_, hb, hd1⟩

end Verif.Props
