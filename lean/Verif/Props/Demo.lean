import Verif.Model.IuClient
import Verif.Spec.IuHist
import Verif.Spec.IuDisc

/-!
# A concrete environment, used to show that the hypotheses of the theorems can be met

Payload `[1]`, `[2]`, ... stands for one decoded message each.
-/

namespace Verif.Demo
open Verif.Iu

/-- Initial UE Message of a UE in MCC 262 MNC 42, the given LAC octet and RAC, from the given RNC. -/
def ies (lac : Byte) (rac : Option Bytes) (rnc : Nat) : InitialUeIes :=
  ⟨[0x62, 0xf2, 0x24], [0x00, lac], rac, [0x12, 0x34], [0xaa, 0xbb], ⟨[0x62, 0xf2, 0x24], rnc⟩⟩

def initial (i : InitialUeIes) : Msg := ⟨PR_initiatingMessage, id_InitialUE_Message, .initialUe i⟩

/-- Messages on connections. -/
def decodeCo (d : Bytes) : Option Msg :=
  if d = [1] then some (initial (ies 5 (some [7]) 1))
  else if d = [2] then some (initial (ies 5 (some [7]) 2))
  else if d = [3] then some (initial (ies 5 none 1))
  else if d = [4] then some ⟨PR_initiatingMessage, id_DirectTransfer,
    .directTransfer ⟨[0xcc], some ([0x62, 0xf2, 0x24], [0x00, 0x05]), some [9], some [0x00, 0x01]⟩⟩
  else if d = [5] then some ⟨PR_successfulOutcome, id_Iu_Release, .other⟩
  else if d = [6] then some ⟨PR_initiatingMessage, id_Iu_ReleaseRequest, .iuReleaseReq (.misc 115)⟩
  else if d = [7] then some ⟨PR_outcome, id_RAB_Assignment, .rabAssResp (some [])⟩
  else if d = [8] then some (initial { ies 5 none 1 with nas := List.replicate 257 0 })
  else if d = [9] then some (initial { ies 5 none 1 with saiSac := [] })
  else if d = [10] then some ⟨PR_initiatingMessage, id_Iu_ReleaseRequest, .iuReleaseReq .nothing⟩
  else if d = [11] then some (initial (ies 0 none 1))
  else if d = [12] then some ⟨PR_outcome, id_RAB_Assignment, .rabAssResp (some [some [0x11]])⟩
  else if d = [13] then some ⟨PR_successfulOutcome, id_SecurityModeControl, .other⟩
  else if d = [14] then some (initial (ies 6 none 2))
  else if d = [15] then some ⟨PR_initiatingMessage, id_DirectTransfer,
    .directTransfer ⟨[0xcc], some ([0x62, 0xf2, 0x24], [0x00, 0x00]), none, none⟩⟩
  else none

def decodeCl (d : Bytes) : Option Msg :=
  if d = [1] then some ⟨PR_initiatingMessage, id_Reset, .reset 0 (some ⟨[0x62, 0xf2, 0x24], 1⟩)⟩
  else none

/-- An SCCP address with a point code. -/
def addr (pc : BitVec 32) : SccpAddr := makeAddrPcSsn pc SSN_RANAP

/-- The user does nothing in callbacks; SCCP accepts everything; an Iu Release Command
without a cause cannot be generated. -/
def env : Env where
  decodeCo := decodeCo
  decodeCl := decodeCl
  gen := fun m => match m with | .iuRelCmd .nothing => .ok none | _ => .ok (some [])
  sapRc := fun _ _ => 0
  hasEventCb := true
  cb := fun _ _ => .done
  dump := fun a => match a.pc with | some pc => [pc.extractLsb' 0 8] | none => []
  riEq := fun a b => a = b

/-! ## Checking hypotheses by computation -/

open Verif.Iu.Spec

/-- A history succeeds and its last state passes a test. -/
def after (env : Env) (ops : List Op) (P : State → Bool) : Bool :=
  match run env ops init with
  | .ok (_, s) => P s
  | .fault _ => false

theorem after_iff {env : Env} {ops : List Op} {P : State → Bool} :
    after env ops P = true ↔ ∃ s, run env ops init = .ok ((), s) ∧ P s = true := by
  unfold after
  cases run env ops init with
  | ok x => obtain ⟨_, s⟩ := x; simp
  | fault e => simp

/-- The state after a history (the initial state if it fails). -/
def stateAfter (env : Env) (ops : List Op) : State :=
  match run env ops init with
  | .ok (_, s) => s
  | .fault _ => init

theorem run_stateAfter {env : Env} {ops : List Op} (h : after env ops (fun _ => true) = true) :
    run env ops init = .ok ((), stateAfter env ops) := by
  obtain ⟨s, hs, _⟩ := after_iff.1 h
  unfold stateAfter
  rw [hs]

/-- Test for a proper operation. -/
def opOk (env : Env) (s : State) : Op → Bool
  | .api a => (args a).all (fun p => s.ues.any (·.ptr = p)) &&
      match builds a with
      | none => true
      | some m => match env.gen m with | .ok (some _) => true | _ => false
  | .connectInd c _ _ => !decide (InUse s c)
  | _ => true

theorem opOk_sound {env : Env} {s : State} {op : Op} (h : opOk env s op = true) : OpOk env s op := by
  cases op with
  | api a =>
    simp only [opOk, Bool.and_eq_true, List.all_eq_true, List.any_eq_true] at h
    refine ⟨?_, ?_⟩
    · intro p hp
      obtain ⟨u, hu, h⟩ := h.1 p hp
      exact ⟨u, hu, by simpa using h⟩
    · intro m hm
      rw [hm] at h
      simp only at h
      cases hg : env.gen m with
      | fault e => rw [hg] at h; simp at h
      | ok o =>
        cases o with
        | none => rw [hg] at h; simp at h
        | some b => exact ⟨b, hg⟩
  | connectInd c a d => simpa [opOk, OpOk] using h
  | _ => trivial

/-- Test for a proper history. -/
def runOk (env : Env) : State → List Op → Bool
  | _, [] => true
  | s, op :: ops => opOk env s op && match step env op s with
    | .ok (_, s') => runOk env s' ops
    | .fault _ => true

theorem runOk_sound {env : Env} {ops : List Op} {s : State} (h : runOk env s ops = true) : RunOk env s ops := by
  induction ops generalizing s with
  | nil => trivial
  | cons op ops ih =>
    simp only [runOk, Bool.and_eq_true] at h
    refine ⟨opOk_sound h.1, ?_⟩
    intro rc s' hs
    rw [hs] at h
    exact ih h.2

theorem runOk_fresh {env : Env} {ops : List Op} {s : State} (h : RunOk env s ops) : FreshConns env s ops := by
  induction ops generalizing s with
  | nil => trivial
  | cons op ops ih =>
    refine ⟨?_, fun rc s' hs => ih (h.2 rc s' hs)⟩
    rintro c a d rfl
    exact h.1

end Verif.Demo
