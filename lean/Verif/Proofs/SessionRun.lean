import Verif.Proofs.SessionMsg

/-!
# A location update: all schedules
-/

namespace Verif.Session
open Verif.Hnb.Spec Verif.Linked Verif.Props
open Verif.Iu.Spec (OwnCallbacks InUse HasCtx OpOk)

/-- Where the session is: messages of the emulator on their way, messages the client has got, how many of its own have
arrived. -/
structure Cfg where
  wait : List K
  done : List K
  down : Nat
  deriving DecidableEq

def Cfg.seen (q : Cfg) : List A := q.done.flatMap cnR
def sendsA (l : List A) : List T := l.filterMap fun a => match a with | .send t => some t | _ => none
def Cfg.held (q : Cfg) : Bool := q.done.contains .opening && !q.done.contains .released

/-- A message of the emulator arrives. -/
def Cfg.arrive (q : Cfg) : List Cfg :=
  match q.wait with
  | [] => []
  | k :: w => [⟨w, q.done ++ [k], q.down⟩]

/-- A message of the client arrives. -/
def Cfg.reply (q : Cfg) : List Cfg :=
  match (sendsA q.seen)[q.down]? with
  | none => []
  | some t => [⟨q.wait ++ hnbR true t, q.done, q.down + 1⟩, ⟨q.wait ++ hnbR false t, q.done, q.down + 1⟩]

/-- All of them. -/
def cfgs : List Cfg :=
  let a : List K := [.opening, .identity, .authentication, .security]
  [⟨[.opening], [], 0⟩, ⟨[], [.opening], 0⟩, ⟨[.identity], [.opening], 1⟩, ⟨[], [.opening, .identity], 1⟩,
   ⟨[.authentication], [.opening, .identity], 2⟩, ⟨[], [.opening, .identity, .authentication], 2⟩,
   ⟨[.security], [.opening, .identity, .authentication], 3⟩, ⟨[], a, 3⟩,
   ⟨[.reallocation], a, 4⟩, ⟨[], a, 4⟩, ⟨[], a ++ [.reallocation], 4⟩,
   ⟨[.reallocation, .request], a, 5⟩, ⟨[.request], a, 5⟩, ⟨[.request], a ++ [.reallocation], 5⟩,
   ⟨[], a ++ [.request], 5⟩, ⟨[], a ++ [.reallocation, .request], 5⟩,
   ⟨[.released], a ++ [.request], 6⟩, ⟨[.released], a ++ [.reallocation, .request], 6⟩,
   ⟨[], a ++ [.request, .released], 6⟩, ⟨[], a ++ [.reallocation, .request, .released], 6⟩]

/-- Moves made, if all that is on its way has been written. -/
def Cfg.moves (q : Cfg) : Nat := 2 * q.done.length + q.wait.length + q.down

theorem cfgs_arrive : ∀ q ∈ cfgs, ∀ q' ∈ q.arrive, q' ∈ cfgs := by decide
theorem cfgs_reply : ∀ q ∈ cfgs, ∀ q' ∈ q.reply, q' ∈ cfgs := by decide
theorem cfgs_moves : ∀ q ∈ cfgs, q.moves ≤ 20 ∧ q.wait.length ≤ 2 ∧ q.down ≤ (sendsA q.seen).length := by decide
theorem cfgs_opening : ∀ q ∈ cfgs, q.wait.head? = some .opening → q.done = [] := by decide
theorem cfgs_held : ∀ q ∈ cfgs, ∀ k ∈ q.wait.head?, k ≠ .opening → q.held = true ∧ k ∉ q.done ∧ .opening ∈ q.done ∧ .released ∉ q.done := by
  decide
def final (b : Bool) : List A := cnR .opening ++ cnR .identity ++ cnR .authentication ++ cnR .security ++
  (if b then cnR .reallocation else []) ++ cnR .request ++ cnR .released
theorem cfgs_prefix : ∀ q ∈ cfgs, ∃ b, q.seen <+: final b := by decide
theorem cfgs_end : ∀ q ∈ cfgs, q.wait = [] → (sendsA q.seen).length ≤ q.down →
    ∃ b, q.seen = final b ∧ q.moves = (if b then 20 else 18) ∧ q.held = false := by decide

theorem transcript_eq (hnb : Hnb.Env) (d : Dialogue) (b : Bool) : transcript hnb d b = (final b).map (actA hnb d) := by
  cases b <;> rfl

theorem sends_map (hnb : Hnb.Env) (d : Dialogue) (l : List A) : sends (l.map (actA hnb d)) = (sendsA l).map (msgT d) := by
  induction l with
  | nil => rfl
  | cons a l ih =>
    cases a <;> simp only [sends, sendsA, List.map_cons, List.filterMap_cons, actA] <;> first | exact ih | exact congrArg _ ih

variable {env : Iu.Env} {hnb : Hnb.Env} {c : Iu.ConnId} {d : Dialogue}

/-- The system after `n` moves. -/
structure At (env : Iu.Env) (hnb : Hnb.Env) (c : Iu.ConnId) (d : Dialogue) (h0 : List Act) (n : Nat) (σ : Sys) (q : Cfg) : Prop where
  cfg : q ∈ cfgs
  client : Client env σ.cn
  reach : Reach hnb σ.hnb
  link : σ.hnb.up = true
  chan : σ.hnb.chan ≠ none
  le : σ.up ≤ σ.hnb.sent.length
  wait : Match hnb d (σ.hnb.sent.drop σ.up ++ σ.hnb.queue) q.wait
  seen : acts c σ.cn.trace = h0 ++ q.seen.map (actA hnb d)
  down : σ.down = (sends h0).length + q.down
  ctx : if q.held then ∃ u, Held c σ.cn u else σ.cn.ues.filter (·.conn = c) = []
  fresh : q.done = [] → ¬ InUse σ.cn c
  moves : n + σ.hnb.queue.length = q.moves

theorem hnb_reach {e e' : Hnb.State} {op : Hnb.Op} (h : Reach hnb e) (hs : Hnb.step hnb e op = .ok e') : Reach hnb e' := by
  obtain ⟨ops, h⟩ := h
  refine ⟨ops ++ [op], ?_⟩
  rw [Hnb.run_append, h]
  simp only [Hnb.run, hs]

theorem inUse_iff {s : Iu.State} : InUse s c ↔ s.ues.filter (·.conn = c) ≠ [] ∨ s.cache.filter (·.1 = c) ≠ [] := by
  unfold InUse HasCtx
  simp [List.filter_eq_nil_iff]

theorem At.queue_le {h0 : List Act} {n : Nat} {σ : Sys} {q : Cfg} (h : At env hnb c d h0 n σ q) : σ.hnb.queue.length ≤ 2 := by
  have h1 := h.wait.length
  have h2 := (cfgs_moves q h.cfg).2.1
  rw [List.length_append] at h1
  omega

theorem isK_connect {k : K} {m : Rua.Msg} {ranap : Bytes} (h : IsK hnb d k m) (hr : InConnect m.data ranap) : k = .opening := by
  unfold IsK at h
  split at h
  · assumption
  · obtain ⟨n, h⟩ := h
    obtain ⟨x, ⟨r, h1, -⟩, -⟩ := reply_inTransfer h
    obtain ⟨r', h1', -⟩ := hr
    exact absurd (Hnb.ruaMsg_unique h1 h1').1 (by decide)

theorem opening_connect {m : Rua.Msg} (h : IsK hnb d .opening m) : ∃ ranap, InConnect m.data ranap := by
  obtain ⟨n, -, ranap, h1, h2⟩ := h
  exact ⟨ranap, inConnect_of (header := [(7, .enum (Factory.Spec.psOrCs false)), (3, .bits (Factory.Spec.low24 _)), (6, .enum 1)]) h2 rfl⟩

theorem isK_transfer {k : K} {m : Rua.Msg} {ranap : Bytes} (h : IsK hnb d k m) (hr : InTransfer m.data ranap) : k ≠ .opening := by
  rintro rfl
  obtain ⟨x, r, h1, -⟩ := opening_connect h
  obtain ⟨r', h1', -⟩ := hr
  exact absurd (Hnb.ruaMsg_unique h1 h1').1 (by decide)

/-- The next message of the emulator. -/
theorem At.next {h0 : List Act} {n : Nat} {σ : Sys} {q : Cfg} (h : At env hnb c d h0 n σ q) {m : Rua.Msg}
    (hm : σ.hnb.sent[σ.up]? = some m) : σ.up < σ.hnb.sent.length ∧ ∃ k w, q.wait = k :: w ∧ IsK hnb d k m ∧
      Match hnb d (σ.hnb.sent.drop (σ.up + 1) ++ σ.hnb.queue) w ∧ ⟨w, q.done ++ [k], q.down⟩ ∈ cfgs := by
  obtain ⟨hlt, hm⟩ := List.getElem?_eq_some_iff.1 hm
  have hw := h.wait
  rw [List.drop_eq_getElem_cons hlt, hm, List.cons_append] at hw
  obtain ⟨k, w, h1, h2, h3⟩ := hw.cons
  refine ⟨hlt, k, w, h1, h2, h3, cfgs_arrive q h.cfg _ ?_⟩
  unfold Cfg.arrive
  rw [h1]
  simp

/-- The next message of the client. -/
theorem At.nextDown {h0 : List Act} {n : Nat} {σ : Sys} {q : Cfg} (h : At env hnb c d h0 n σ q) {m : Iu.TxMsg}
    (hm : (sends (acts c σ.cn.trace))[σ.down]? = some m) : ∃ t, m = msgT d t ∧
      ∀ b, ⟨q.wait ++ hnbR b t, q.done, q.down + 1⟩ ∈ cfgs := by
  rw [h.seen, sends_append, sends_map, h.down, List.getElem?_append_right (by omega), Nat.add_sub_cancel_left,
    List.getElem?_map] at hm
  obtain ⟨t, ht, rfl⟩ := Option.map_eq_some_iff.1 hm
  refine ⟨t, rfl, fun b => cfgs_reply q h.cfg _ ?_⟩
  unfold Cfg.reply
  rw [ht]
  cases b <;> simp

theorem held_iff (w : List K) (l : List K) (k : K) (j : Nat) (h1 : K.opening ∈ l) (h2 : K.released ∉ l) :
    Cfg.held ⟨w, l ++ [k], j⟩ = decide (k ≠ .released) := by
  unfold Cfg.held
  simp only [List.contains_eq_mem, List.mem_append, h1, h2, true_or, decide_true, false_or, List.mem_singleton, Bool.true_and, ne_eq]
  by_cases h : k = .released
  · simp [h]
  · simp [h, Ne.symm h]

theorem at_step (ho : OwnCallbacks (linked env)) (hs : Serves env hnb c d) (hv : d.Valid hnb) {h0 : List Act} {n : Nat} {σ : Sys}
    {q : Cfg} (h : At env hnb c d h0 n σ q) {b : Bool} {r : Res Sys} (hr : Step env hnb c b σ r) :
    ∃ τ q', r = .ok τ ∧ At env hnb c d h0 (if b then n + 1 else n) τ q' := by
  cases hr with
  | write hq =>
    rcases Hnb.step_result (env := hnb) (Hnb.reach_frame h.reach).1 .writable with ⟨hk, -⟩ | ⟨-, e', h1, h2⟩
    · exact hk.elim
    · unfold Hnb.Effect at h2
      dsimp only at h2
      rw [if_pos h.link] at h2
      refine ⟨_, q, by unfold Sys.hnbMove; rw [h1], ?_⟩
      have hr := hnb_reach h.reach h1
      subst h2
      obtain ⟨m, rest, hq'⟩ := List.exists_cons_of_ne_nil hq
      have hmv := h.moves
      refine ⟨h.cfg, h.client, hr, h.link, h.chan, ?_, ?_, h.seen, h.down, h.ctx, h.fresh, ?_⟩
      · have := h.le
        simp only [List.length_append]
        omega
      · have := h.wait
        rw [hq'] at this
        dsimp only
        rw [hq', List.drop_append_of_le_length h.le]
        simpa using this
      · rw [hq'] at hmv ⊢
        simp at hmv ⊢
        omega
  | @connect _ m ranap calling hm hr =>
    obtain ⟨hlt, k, w, h1, h2, h3, h4⟩ := h.next hm
    obtain rfl := isK_connect h2 hr
    have hd := cfgs_opening q h.cfg (by rw [h1]; rfl)
    have hx := h.fresh hd
    obtain ⟨rc, s', u, f1, f2, f3⟩ := cn_opening ho hs hv h.client hx h2 hr calling
    have hcl : Client env s' := client_step h.client (op := .connectInd c calling ranap) hx f1
    refine ⟨{ σ with cn := s', up := σ.up + 1 }, _, by unfold Sys.cnMove; rw [f1], ⟨h4, hcl, h.reach, h.link, h.chan, hlt, h3, ?_, h.down,
      ?_, fun he => by simp at he, ?_⟩⟩
    · show acts c s'.trace = _
      rw [f3, h.seen]
      simp [Cfg.seen]
    · rw [hd]
      exact ⟨u, f2⟩
    · have := h.moves
      rw [if_pos rfl]
      unfold Cfg.moves at this ⊢
      rw [h1] at this
      simp at this ⊢
      omega
  | @data _ m ranap hm hr =>
    obtain ⟨hlt, k, w, h1, h2, h3, h4⟩ := h.next hm
    have hk := isK_transfer h2 hr
    obtain ⟨g1, g2, g3, g4⟩ := cfgs_held q h.cfg k (by rw [h1]; rfl) hk
    have hctx := h.ctx
    rw [if_pos g1] at hctx
    obtain ⟨u, hu⟩ := hctx
    obtain ⟨rc, s', f1, f2, f3, f4⟩ := cn_step hs hv h.client hu hk h2 hr
    have hcl : Client env s' := client_step h.client (op := .dataInd c ranap) trivial f1
    refine ⟨{ σ with cn := s', up := σ.up + 1 }, _, by unfold Sys.cnMove; rw [f1], ⟨h4, hcl, h.reach, h.link, h.chan, hlt, h3, ?_, h.down,
      ?_, fun he => by simp at he, ?_⟩⟩
    · show acts c s'.trace = _
      rw [f3, h.seen]
      simp [Cfg.seen]
    · rw [held_iff _ _ _ _ g3 g4]
      by_cases hkr : k = .released
      · rw [if_pos hkr] at f4
        rw [if_neg (by simp [hkr])]
        exact f4
      · rw [if_neg hkr] at f4
        rw [if_pos (by simp [hkr])]
        refine ⟨u, ?_, hu.2⟩
        show s'.ues.filter _ = _
        rw [f4]
        exact hu.1
    · have := h.moves
      rw [if_pos rfl]
      unfold Cfg.moves at this ⊢
      rw [h1] at this
      simp at this ⊢
      omega
  | @down _ m bs data hm hg hd =>
    obtain ⟨t, rfl, h4⟩ := h.nextDown hm
    obtain ⟨e', b, ms, f1, f2, f3, f4, f5, f6⟩ := hnb_step hv ⟨h.reach, h.link, h.chan, by have := h.queue_le; omega⟩ hg hd
    refine ⟨{ σ with hnb := e', down := σ.down + 1 }, _, by unfold Sys.hnbMove; rw [f1], ⟨h4 b, h.client, hnb_reach h.reach f1, ?_, ?_, ?_, ?_, h.seen, ?_, h.ctx, h.fresh, ?_⟩⟩
    · exact f4.trans h.link
    · show e'.chan ≠ none
      rw [f5]
      exact h.chan
    · show σ.up ≤ e'.sent.length
      rw [f3]
      exact h.le
    · show Match hnb d (e'.sent.drop σ.up ++ e'.queue) _
      rw [f3, f2, ← List.append_assoc]
      exact h.wait.append f6
    · show σ.down + 1 = _
      have := h.down
      dsimp only
      omega
    · have h1 := h.moves
      have h2 := f6.length
      show _ + e'.queue.length = _
      rw [f2, if_pos rfl]
      unfold Cfg.moves at h1 ⊢
      simp only [List.length_append] at h1 h2 ⊢
      omega
  | @other _ op rc s hc hok hst =>
    have hsame := same_other ho (client_inv h.client) hc hst
    refine ⟨_, q, rfl, ⟨h.cfg, client_step h.client hok hst, h.reach, h.link, h.chan, h.le, h.wait, ?_, h.down, ?_, ?_, h.moves⟩⟩
    · show acts c s.trace = _
      rw [hsame.acts]
      exact h.seen
    · have := h.ctx
      unfold Held at this ⊢
      rw [← hsame.ues] at this
      exact this
    · intro hd
      have := h.fresh hd
      rw [inUse_iff] at this ⊢
      rw [← hsame.ues, ← hsame.cache] at this
      exact this

theorem at_steps (ho : OwnCallbacks (linked env)) (hs : Serves env hnb c d) (hv : d.Valid hnb) {h0 : List Act} {σ : Sys}
    {q : Cfg} (h : At env hnb c d h0 0 σ q) {n : Nat} {τ : Sys} (hr : Steps env hnb c n σ τ) : ∃ q', At env hnb c d h0 n τ q' := by
  induction hr with
  | refl => exact ⟨q, h⟩
  | move _ hst ih =>
    obtain ⟨q', h'⟩ := ih h
    obtain ⟨τ', q'', e, h''⟩ := at_step ho hs hv h' hst
    cases e
    exact ⟨q'', h''⟩
  | beside _ hst ih =>
    obtain ⟨q', h'⟩ := ih h
    obtain ⟨τ', q'', e, h''⟩ := at_step ho hs hv h' hst
    cases e
    exact ⟨q'', h''⟩

/-- As long as something is on its way, there is a move. -/
theorem at_progress (ho : OwnCallbacks (linked env)) (hs : Serves env hnb c d) (hv : d.Valid hnb) {h0 : List Act} {n : Nat} {σ : Sys}
    {q : Cfg} (h : At env hnb c d h0 n σ q) (hq : ¬ Quiet c σ) : ∃ τ, Step env hnb c true σ (.ok τ) := by
  have ok : ∀ {r}, Step env hnb c true σ r → ∃ τ, Step env hnb c true σ (.ok τ) := by
    intro r hr
    obtain ⟨τ, -, rfl, -⟩ := at_step ho hs hv h hr
    exact ⟨τ, hr⟩
  by_cases h1 : σ.hnb.queue = []
  · by_cases h2 : σ.hnb.sent.length ≤ σ.up
    · have h3 : σ.down < (sends (acts c σ.cn.trace)).length := Nat.lt_of_not_le fun h3 => hq ⟨h1, h2, h3⟩
      have hm := List.getElem?_eq_getElem h3
      obtain ⟨t, ht, -⟩ := h.nextDown hm
      obtain ⟨bs, hg, hl⟩ := gen_msgT hv t
      obtain ⟨tr, data, -, -, h4⟩ := C58_direct_transfer false 0 bs hl
      exact ok (.down hm (by rw [ht]; exact hg)
        (inTransfer_of (header := [(7, .enum (Factory.Spec.psOrCs false)), (3, .bits (Factory.Spec.low24 0))]) h4 rfl))
    · have hm := List.getElem?_eq_getElem (Nat.lt_of_not_le h2)
      obtain ⟨-, k, w, -, h3, -⟩ := h.next hm
      by_cases hk : k = .opening
      · subst hk
        obtain ⟨ranap, h4⟩ := opening_connect h3
        exact ok (.connect (calling := ⟨0, none, none, none⟩) hm h4)
      · unfold IsK at h3
        rw [if_neg hk] at h3
        obtain ⟨n, h3⟩ := h3
        obtain ⟨ranap, h4, -⟩ := reply_inTransfer h3
        exact ok (.data hm h4)
  · exact ok (.write h1)

/-- The start. -/
theorem at_start {e e' : Hnb.State} {imsi : Bytes} {s : Iu.State} (hr : Reach hnb e) (hu : e.up = true) (hq : e.queue = [])
    (hch : Hnb.step hnb e (.channel false imsi) = .ok e') (hcl : Client env s) (hx : ¬ InUse s c) :
    At env hnb c d (acts c s.trace) 0 ⟨e', s, e'.sent.length, (sends (acts c s.trace)).length⟩ ⟨[.opening], [], 0⟩ := by
  have he := Hnb.reach_effect hr hch
  have hc : e'.chan ≠ none := by
    rcases Hnb.sends_state he with rfl | ⟨-, m, -, rfl⟩ <;> simp [Hnb.opened]
  have hr' := hnb_reach hr hch
  obtain ⟨ops, hops⟩ := hr
  obtain ⟨m, g1, g2, -, -, -, -, g3⟩ := C86_numbers hops hch (by rw [hq]; decide)
  rw [hq] at g2
  refine ⟨by decide, hcl, hr', g3.trans hu, hc, Nat.le_refl _, ?_, by simp [Cfg.seen], rfl, ?_, fun _ => hx, ?_⟩
  · dsimp only
    rw [List.drop_length, g2]
    exact ⟨⟨_, g1⟩, trivial⟩
  · rw [inUse_iff] at hx
    simp only [ne_eq, not_or, Classical.not_not] at hx
    exact hx.1
  · dsimp only
    rw [g2]
    rfl

end Verif.Session
