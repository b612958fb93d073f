import Verif.Model.IuL2
import Verif.Props.IuFlow

/-!
# C110: indications without user data
-/

namespace Verif.Props
open Verif.Iu Verif.Iu.Spec

variable {env : Env}

/-- The indication with empty user data if it has none. -/
def withData : Ind → Op
  | .connect c a d => .connectInd c a (d.elim [] id)
  | .disconnect c d => .disconnectInd c (d.elim [] id)
  | .data c d => .dataInd c (d.elim [] id)
  | .unitdata a d => .unitdataInd a (d.elim [] id)

/-- The indication has no user data. -/
def noData : Ind → Prop
  | .connect _ _ d | .disconnect _ d | .data _ d | .unitdata _ d => d = none

/-- **C110 in full.** Whether an indication has no user data or user data of no octets makes no
difference. -/
def C110_full : Prop := ∀ (env : Env) (s : State) (i : Ind), sapUp env i s = step env (withData i) s

/-- The indication is for something the client reads messages from. -/
def Reads (s : State) : Ind → Prop
  | .connect _ _ _ => False
  | .disconnect c _ => HasCtx s c
  | .data c _ => InUse s c
  | .unitdata _ _ => True

/-- **C110.** Exactly when it makes a difference: an N-DISCONNECT.ind without user data for a
connection with a context, an N-DATA.ind without user data for a connection in use and an
N-UNITDATA.ind without user data are read from a null pointer.  All other indications, with or
without user data, are handled like those of the model of the client. -/
theorem C110_exact (s : State) (i : Ind) :
    (noData i ∧ Reads s i → sapUp env i s = .fault .nullDeref) ∧
    (¬ (noData i ∧ Reads s i) → sapUp env i s = step env (withData i) s) := by
  cases i with
  | connect c a d =>
    refine ⟨fun h => h.2.elim, fun _ => ?_⟩
    cases d with
    | none => rfl
    | some d => rfl
  | disconnect c d =>
    cases d with
    | some d =>
      refine ⟨fun h => (nomatch h.1), fun _ => ?_⟩
      simp only [sapUp, withData, Option.elim, id, l2lenPos, rxL2, decide_eq_true_eq]
      rfl
    | none =>
      refine ⟨fun h => ?_, fun h => ?_⟩
      · obtain ⟨u, hu⟩ : ∃ u, ctxFind s c = some u := by
          cases hf : ctxFind s c with
          | none => exact absurd h.2 (ctxFind_none.1 hf)
          | some u => exact ⟨u, rfl⟩
        have hu' : ∀ e b, ctxFind { s with cache := e, blocks := b } c = some u := fun _ _ => hu
        simp only [sapUp, bind_eq, cacheDel, modify_run, get_run, hu']
        rfl
      · have hf : ctxFind s c = none := ctxFind_none.2 fun hh => h ⟨rfl, hh⟩
        have hf' : ∀ e b, ctxFind { s with cache := e, blocks := b } c = none := fun _ _ => hf
        simp only [sapUp, withData, step, bind_eq, cacheDel, modify_run, get_run, hf']
  | data c d =>
    cases d with
    | some d => exact ⟨fun h => (nomatch h.1), fun _ => rfl⟩
    | none =>
      refine ⟨fun h => ?_, fun h => ?_⟩
      · simp only [sapUp, bind_eq, get_run]
        cases hf : ctxFind s c with
        | some u => rfl
        | none =>
          rcases h.2 with hx | ⟨e, he, hec⟩
          · exact absurd hx (ctxFind_none.1 hf)
          · cases hc : cacheFind s c with
            | some a => rfl
            | none =>
              unfold cacheFind at hc
              rw [Option.map_eq_none_iff, List.find?_eq_none] at hc
              exact absurd hec (by simpa using hc e he)
      · have hf : ctxFind s c = none := ctxFind_none.2 fun hh => h ⟨rfl, .inl hh⟩
        have hc : cacheFind s c = none := by
          unfold cacheFind
          rw [Option.map_eq_none_iff, List.find?_eq_none]
          intro e he hh
          exact h ⟨rfl, .inr ⟨e, he, by simpa using hh⟩⟩
        simp only [sapUp, withData, step, bind_eq, get_run, hf, hc]
  | unitdata a d =>
    cases d with
    | some d => exact ⟨fun h => (nomatch h.1), fun _ => rfl⟩
    | none => exact ⟨fun _ => rfl, fun h => absurd ⟨rfl, trivial⟩ h⟩

/-- **C110.** Connection requests without user data are handled like those with empty user data,
and so are all indications that have user data. -/
theorem C110_partial (s : State) (i : Ind) (h : noData i → ∃ c a d, i = .connect c a d) :
    sapUp env i s = step env (withData i) s := by
  refine (C110_exact s i).2 ?_
  rintro ⟨h1, h2⟩
  obtain ⟨c, a, d, rfl⟩ := h h1
  exact h2

/-- A connection with a context that SCCP ends without user data: with empty user data the user is
told, without any the client reads from a null pointer. -/
theorem C110_violated : ¬ C110_full ∧
    ∃ ops s, run Demo.env ops init = .ok ((), s) ∧
      sapUp Demo.env (.disconnect 10 none) s = .fault .nullDeref ∧
      (step Demo.env (.disconnectInd 10 []) s).isOk = true := by
  have key : ∃ ops s, run Demo.env ops init = .ok ((), s) ∧
      sapUp Demo.env (.disconnect 10 none) s = .fault .nullDeref ∧
      (step Demo.env (.disconnectInd 10 []) s).isOk = true :=
    ⟨[.connectInd 10 (Demo.addr 1) [1]], Demo.stateAfter Demo.env [.connectInd 10 (Demo.addr 1) [1]], by decide +kernel,
      (C110_exact _ _).1 ⟨rfl, by show HasCtx _ _; decide +kernel⟩, by decide +kernel⟩
  refine ⟨fun hf => ?_, key⟩
  obtain ⟨ops, s, _, h1, h2⟩ := key
  have := hf Demo.env s (.disconnect 10 none)
  rw [h1] at this
  simp only [withData, Option.elim] at this
  rw [← this] at h2
  cases h2

/-- Indications without user data that do no harm: for a connection that is not known, and a
connection request. -/
example : ¬ (noData (.disconnect 11 none) ∧ Reads (Demo.stateAfter Demo.env [.connectInd 10 (Demo.addr 1) [1]]) (.disconnect 11 none)) ∧
    sapUp Demo.env (.connect 12 (Demo.addr 1) none) init = step Demo.env (.connectInd 12 (Demo.addr 1) []) init := by
  refine ⟨fun h => ?_, (C110_exact _ _).2 fun h => h.2⟩
  have : ¬ HasCtx (Demo.stateAfter Demo.env [.connectInd 10 (Demo.addr 1) [1]]) 11 := by decide +kernel
  exact this h.2

end Verif.Props
