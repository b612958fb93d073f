import Verif.Proofs.IuMem
import Verif.Props.IuRegistry

/-!
# C109: the memory of the client

`s.blocks` counts the blocks the client has allocated and not freed: contexts
(`iu_client.c:156`, freed at `l.189`), cached connection requests (`l.194`, `l.218`), RNC records
(`l.226`) and area entries (`l.348`).
-/

namespace Verif.Props
open Verif.Iu Verif.Iu.Spec

variable {env : Env}

/-- **C109.** After any history, with any callbacks: the blocks allocated and not freed are one
for each context, each cached connection request, each RNC record and each area entry that the
client still has in its lists.  So nothing is allocated that cannot be reached any more, and
nothing is in the lists that was freed. -/
theorem C109_exact {ops : List Op} {s : State} (h : run env ops init = .ok ((), s)) :
    s.blocks = s.ues.length + s.cache.length + s.rncs.length + (s.rncs.flatMap (·.areas)).length :=
  (run_minv h).bal

/-- The records of RNCs and areas are as many as RNCs and areas have been seen. -/
theorem C109_registry {ops : List Op} {s : State} (h : run env ops init = .ok ((), s)) :
    s.rncs.length = rncsSeen (registrations env init ops) ∧
    (s.rncs.flatMap (·.areas)).length = areasSeen (registrations env init ops) := by
  have hi := (reach_inv h).reg
  constructor
  · rw [← List.length_map (f := fun r : Rnc => r.rncId)]
    refine kinds_length (fun _ _ h => h.symm) (fun _ _ _ h h' => h.trans h') _ _ (List.pairwise_map.2 hi.ids) ?_ ?_
    · intro b hb
      obtain ⟨g, hg, rfl⟩ := List.mem_map.1 hb
      obtain ⟨r, hr, hs⟩ := C15_registered h g hg
      exact ⟨_, List.mem_map_of_mem hr, hs⟩
    · intro a ha
      obtain ⟨r, hr, rfl⟩ := List.mem_map.1 ha
      obtain ⟨g, hg, hs, _⟩ := C15_address_known h r hr
      exact ⟨_, List.mem_map_of_mem hg, hs.symm⟩
  · refine kinds_length (fun _ _ h => h.symm) (fun _ _ _ h h' => h.trans h') _ _ hi.areas ?_ ?_
    · intro b hb
      obtain ⟨g, hg, rfl⟩ := List.mem_map.1 hb
      have : ∃ id, lastRnc (registrations env init ops) g.area = some id := by
        unfold lastRnc
        cases hf : (registrations env init ops).reverse.find? fun g' => decide (SameArea g'.area g.area) with
        | some g' => exact ⟨g'.rnc, rfl⟩
        | none =>
          exact absurd (SameArea.refl g.area) (by simpa using List.find?_eq_none.1 hf g (List.mem_reverse.2 hg))
      obtain ⟨id, hid⟩ := this
      obtain ⟨r, hr, _, e, he, hs⟩ := (C15_last_writer_wins h g.area id).2 ⟨id, hid, SameRnc.refl _⟩
      exact ⟨e, List.mem_flatMap.2 ⟨r, hr, he⟩, hs⟩
    · intro a ha
      obtain ⟨r, hr, he⟩ := List.mem_flatMap.1 ha
      obtain ⟨id', hl, _⟩ := (C15_last_writer_wins h a r.rncId).1 ⟨r, hr, SameRnc.refl _, a, he, SameArea.refl _⟩
      unfold lastRnc at hl
      obtain ⟨g, hf, _⟩ := Option.map_eq_some_iff.1 hl
      have hg := List.mem_reverse.1 (List.mem_of_find?_eq_some hf)
      exact ⟨g.area, List.mem_map_of_mem hg, SameArea.symm (by simpa using List.find?_some hf)⟩

/-- **C109.** The memory in use follows from what happened outside: it is one block for each
connection in use, one for each RNC and one for each area ever seen.  (As long as SCCP gives new
connections ids that are not in use.) -/
theorem C109_history {ops : List Op} {s : State} {conns : List ConnId} (h : run env ops init = .ok ((), s))
    (hf : FreshConns env init ops) (hc : InUseAre s conns) :
    s.blocks = conns.length + rncsSeen (registrations env init ops) + areasSeen (registrations env init ops) := by
  have hci := run_cinv h CInv.init hf
  obtain ⟨h1, h2⟩ := C109_registry h
  have hl : conns.length = s.ues.length + s.cache.length := by
    have hn : (s.ues.map (·.conn) ++ s.cache.map (·.1)).Nodup := by
      rw [List.nodup_append]
      refine ⟨hci.conns, hci.cached, ?_⟩
      intro a ha b hb hab
      obtain ⟨u, hu, rfl⟩ := List.mem_map.1 ha
      obtain ⟨e, he, rfl⟩ := List.mem_map.1 hb
      exact hci.disj u hu e he hab
    have hp : conns.Perm (s.ues.map (·.conn) ++ s.cache.map (·.1)) := by
      refine (List.perm_ext_iff_of_nodup hc.1 hn).2 fun c => ?_
      rw [hc.2 c, List.mem_append, List.mem_map, List.mem_map]
      rfl
    rw [hp.length_eq]; simp
  rw [C109_exact h, h1, h2, hl]
  omega

/-- **C109.** No connection leaves memory behind: when as many connections are in use as at an
earlier time, and the RNCs and areas seen since then were known, the memory in use is the same,
however many connections came and went, and however they ended. -/
theorem C109_nothing_left {ops later : List Op} {s s' : State} {conns conns' : List ConnId}
    (h : run env ops init = .ok ((), s)) (h' : run env later s = .ok ((), s'))
    (hf : FreshConns env init (ops ++ later)) (hc : InUseAre s conns) (hc' : InUseAre s' conns')
    (hl : conns'.length = conns.length)
    (hr : rncsSeen (registrations env init (ops ++ later)) = rncsSeen (registrations env init ops))
    (ha : areasSeen (registrations env init (ops ++ later)) = areasSeen (registrations env init ops)) :
    s'.blocks = s.blocks := by
  have h2 : run env (ops ++ later) init = .ok ((), s') := run_join h h'
  rw [C109_history h2 hf hc', C109_history h (freshConns_append h hf).1 hc, hl, hr, ha]

/-- **C109.** When no connection is in use, only RNCs and areas are remembered. -/
theorem C109_idle {ops : List Op} {s : State} (h : run env ops init = .ok ((), s)) (hn : ∀ c, ¬ InUse s c) :
    s.blocks = rncsSeen (registrations env init ops) + areasSeen (registrations env init ops) := by
  obtain ⟨h1, h2⟩ := C109_registry h
  have hu : s.ues = [] := List.eq_nil_iff_forall_not_mem.2 fun u hu => hn u.conn (.inl ⟨u, hu, rfl⟩)
  have hc : s.cache = [] := List.eq_nil_iff_forall_not_mem.2 fun e he => hn e.1 (.inr ⟨e, he, rfl⟩)
  rw [C109_exact h, h1, h2, hu, hc]
  simp

/-- Four connections, one of them ended before its first message, from two RNCs in two areas:
three contexts, two RNCs, two areas. -/
def memOps : List Op := [.connectInd 10 (Demo.addr 1) [1], .connectInd 11 (Demo.addr 1) [], .connectInd 12 (Demo.addr 2) [2],
  .disconnectInd 11 [], .connectInd 13 (Demo.addr 1) [3]]

/-- One more connection from a known area and one more request; the context is freed and SCCP
ends the other connection. -/
def memLater : List Op := [.connectInd 14 (Demo.addr 1) [1], .connectInd 15 (Demo.addr 2) [], .api (.freeUe (some 5)),
  .disconnectInd 15 []]

/-- The hypotheses of `C109_nothing_left` are met: three connections before and after, seven blocks,
nine in between. -/
example : ∃ s s', run Demo.env memOps init = .ok ((), s) ∧ run Demo.env memLater s = .ok ((), s') ∧
    FreshConns Demo.env init (memOps ++ memLater) ∧ InUseAre s [13, 12, 10] ∧ InUseAre s' [13, 12, 10] ∧
    rncsSeen (registrations Demo.env init (memOps ++ memLater)) = 2 ∧ rncsSeen (registrations Demo.env init memOps) = 2 ∧
    areasSeen (registrations Demo.env init (memOps ++ memLater)) = 2 ∧ areasSeen (registrations Demo.env init memOps) = 2 ∧
    s.blocks = 7 ∧ (Demo.stateAfter Demo.env (memOps ++ memLater.take 2)).blocks = 9 ∧ s'.blocks = 7 := by
  have key : ∀ {s : State} {l : List ConnId}, l.Nodup → s.ues.map (·.conn) ++ s.cache.map (·.1) = l → InUseAre s l := by
    intro s l hn hl
    refine ⟨hn, fun c => ?_⟩
    rw [← hl, List.mem_append, List.mem_map, List.mem_map]
    rfl
  refine ⟨Demo.stateAfter Demo.env memOps, Demo.stateAfter Demo.env (memOps ++ memLater), by decide +kernel, by decide +kernel,
    Demo.runOk_fresh (Demo.runOk_sound (by decide +kernel)), key (by decide) (by decide +kernel),
    key (by decide) (by decide +kernel), by decide +kernel, by decide +kernel, by decide +kernel, by decide +kernel,
    by decide +kernel, by decide +kernel, by decide +kernel⟩

/-- All connections ended: nothing but RNCs and areas is left. -/
example : ∃ s, run Demo.env (memOps ++ memLater ++ [.api (.freeUe (some 1)), .api (.freeUe (some 3)), .api (.freeUe (some 4))]) init
      = .ok ((), s) ∧ (∀ c, ¬ InUse s c) ∧ s.blocks = 4 := by
  refine ⟨Demo.stateAfter Demo.env (memOps ++ memLater ++
    [.api (.freeUe (some 1)), .api (.freeUe (some 3)), .api (.freeUe (some 4))]), by decide +kernel, ?_, by decide +kernel⟩
  have hu : (Demo.stateAfter Demo.env (memOps ++ memLater ++
    [.api (.freeUe (some 1)), .api (.freeUe (some 3)), .api (.freeUe (some 4))])).ues = [] := by decide +kernel
  have hc : (Demo.stateAfter Demo.env (memOps ++ memLater ++
    [.api (.freeUe (some 1)), .api (.freeUe (some 3)), .api (.freeUe (some 4))])).cache = [] := by decide +kernel
  rintro c (⟨u, h, _⟩ | ⟨e, h, _⟩)
  · rw [hu] at h; cases h
  · rw [hc] at h; cases h

end Verif.Props
