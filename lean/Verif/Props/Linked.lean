import Verif.Proofs.LinkedSafe
import Verif.Proofs.IuFlow
import Verif.Props.IuFlow
import Verif.Props.FactoryRx
import Verif.Props.FactoryRab

/-!
# C70 to C78: the client together with the library, from octets to octets
-/

namespace Verif.Props
open Verif.Aper Verif.Aper.Spec Verif.Ie Verif.Ie.Spec Verif.Rx Verif.Rx.Spec Verif.Gen.Ranap
open Verif.Iu Verif.Iu.Spec Verif.Linked Verif.Linked.Spec

variable {env : Env}

/-! ## C70 -/

/-- **C70.** Whatever the octets are, a decoded value has the form of its type: strings of fixed size have that size,
mandatory components are there, numbers of enumerated values and alternatives exist. -/
theorem C70_decoded_form (t : Ty) (bs : Bytes) (v : Val) (h : decode t bs = some v) : shaped t v = true :=
  decode_shaped h

/-- An RNC-ID above 4095 passes; nothing else about the value is wrong. -/
example : decode RANAP_GlobalRNC_ID [0x62, 0xf2, 0x24, 0xff, 0xff] =
    some (.seq [some (.octets [0x62, 0xf2, 0x24]), some (.int 65535)]) := by with_unfolding_all rfl

/-! ## C71 -/

/-- **C71.** The octets of a connection oriented message are handed to the client iff they are a message of the core
network side with known and valid elements, and then as what its elements say. -/
theorem C71_connection_oriented (data : Bytes) (msg : Msg) :
    (linked env).decodeCo data = some msg ↔ ∃ p c l, CoMsg data p c l ∧ msg = ⟨p, c, coBody p c l⟩ := decodeCo_iff

/-- **C71.** ... of a connectionless message; one the library does not know is handed over without contents. -/
theorem C71_connectionless (data : Bytes) (msg : Msg) :
    (linked env).decodeCl data = some msg ↔ (∃ p c l, ClMsg data p c l ∧ msg = ⟨p, c, clBody p c l⟩) ∨
      (∃ p c crit value, IsPdu data p c crit value ∧ cnClMsg p c = none ∧
        msg = ⟨p, if p = 1 ∨ p = 2 then c else 0, .other⟩) := decodeCl_iff

/-! ## C72 -/

/-- **C72.** In any state reached by proper use, an operation fails iff it brings one of the fatal messages: nothing
else that a peer sends, on a connection or without, does any harm. -/
theorem C72_exactly_these_kill {ops : List Op} {op : Op} {s : State} (hc : CallbacksOk (linked env))
    (hl : LinkOk (linked env)) (hr : RunOk (linked env) init ops) (h0 : run (linked env) ops init = .ok ((), s))
    (ho : OpOk (linked env) s op) : (∃ e, step (linked env) op s = .fault e) ↔ Kills s op :=
  step_faults hc hl (reach_inv h0) (run_cinv h0 CInv.init (Demo.runOk_fresh hr)) ho

/-- **C72.** A history fails iff at some point one of them arrives. -/
theorem C72_history {ops : List Op} (hc : CallbacksOk (linked env)) (hl : LinkOk (linked env))
    (hr : RunOk (linked env) init ops) : (∃ e, run (linked env) ops init = .fault e) ↔
      ∃ before op after s, ops = before ++ op :: after ∧ run (linked env) before init = .ok ((), s) ∧ Kills s op :=
  run_faults hc hl Inv.init CInv.init hr

/-- Initial UE Message with a NAS PDU of three octets (from tests/test-ranap.ok). -/
def initialOctets : Bytes := [0x00, 0x13, 0x40, 0x36, 0x00, 0x00, 0x06, 0x00,
    0x03, 0x40, 0x01, 0x00, 0x00, 0x0f, 0x40, 0x06, 0x00, 0x09, 0x01, 0x99, 0x42, 0x23, 0x00, 0x3a, 0x40, 0x08, 0x00, 0x09,
    0x01, 0x99, 0x42, 0x23, 0x42, 0x23, 0x00, 0x10, 0x40, 0x04, 0x03, 0xaa, 0xbb, 0xcc, 0x00, 0x4f, 0x40, 0x03, 0x00, 0x00,
    0x17, 0x00, 0x56, 0x40, 0x05, 0x09, 0x01, 0x99, 0x09, 0x26]
/-- Iu Release Request without any element. -/
def bareReleaseRequest : Bytes := [0x00, 0x0b, 0x40, 0x03, 0x00, 0x00, 0x00]

/-- Hypotheses met by a history with a context and a RESET; the bare release request kills, garbage does not. -/
example : CallbacksOk (linked Demo.env) ∧ LinkOk (linked Demo.env) ∧
    RunOk (linked Demo.env) init [.connectInd 10 (Demo.addr 1) initialOctets, .unitdataInd (Demo.addr 1) [1, 2, 3]] ∧
    (∃ s, run (linked Demo.env) [.connectInd 10 (Demo.addr 1) initialOctets, .unitdataInd (Demo.addr 1) [1, 2, 3]] init =
      .ok ((), s) ∧ (s.ues.length = 1 && (step (linked Demo.env) (.dataInd 10 [0xff, 0xff]) s).isOk &&
        !(step (linked Demo.env) (.dataInd 10 bareReleaseRequest) s).isOk &&
        (step (linked Demo.env) (.dataInd 11 bareReleaseRequest) s).isOk) = true) :=
  ⟨fun _ _ _ => trivial, fun _ _ _ => trivial, Demo.runOk_sound (by decide +kernel), Demo.after_iff.1 (by decide +kernel)⟩

/-! ## C73: downlink -/

/-- The call hands one N-DATA request to the SCCP layer, on this connection and with these octets, returns what the
SCCP layer returned, and does nothing else. -/
def Transmits (env : Env) (s : State) (a : Api) (c : ConnId) (bs : Bytes) : Prop :=
  ∃ m rc, (linked env).gen m = .ok (some bs) ∧
    step (linked env) (.api a) s = .ok (rc, { s with trace := s.trace ++ [.sap (.dataReq c m) rc] })

theorem deref_live {ops : List Op} {s : State} {u : Ue} (h0 : run env ops init = .ok ((), s)) (hu : u ∈ s.ues) :
    s.ues.find? (·.ptr = u.ptr) = some u := by
  obtain ⟨v, hv⟩ := live_find (s := s) (p := u.ptr) ⟨u, hu, rfl⟩
  obtain ⟨hv1, hv2⟩ := find_live hv
  rw [hv, ue_inj (reach_inv h0).ueNodup hv1 hu hv2]

theorem transmits_nas {ops : List Op} {s : State} {u : Ue} (h0 : run (linked env) ops init = .ok ((), s)) (hu : u ∈ s.ues)
    {nas bs : Bytes} {sapi : Byte} (h1 : Factory.dt sapi nas = .ok (some bs)) :
    Transmits env s (.tx (some u.ptr) nas sapi) u.conn bs := by
  refine ⟨.dt sapi nas, (linked env).sapRc s (.dataReq u.conn (.dt sapi nas)), h1, ?_⟩
  have h1' : (linked env).gen (.dt sapi nas) = .ok (some bs) := h1
  have hf := deref_live h0 hu
  have hb : s.txBufs + 1 + -1 = s.txBufs := by omega
  simp [step, runApi, iuTx, txBuf, deref, genMsg, txData, sapDown, emit, bind_eq, modify_run, get_run, lift_ok_run, pure_run,
    hf, h1', hb]

/-- **C73.** NAS PDUs of up to 1004 octets: the RAN side decodes a Direct Transfer with exactly these octets and the
SAPI. -/
theorem C73_nas {ops : List Op} {s : State} {u : Ue} (h0 : run (linked env) ops init = .ok ((), s)) (hu : u ∈ s.ues)
    (nas : Bytes) (sapi : Byte) (hn : nas.length ≤ 1004) :
    ∃ bs, Transmits env s (.tx (some u.ptr) nas sapi) u.conn bs ∧
      Understood (ranRxCo bs Mem.init) 1 20 directTransferIEs
        [(16, .octets nas), (59, .enum (if sapi = 3 then 1 else 0))] := by
  obtain ⟨bs, h1, h2, -⟩ := C66_direct_transfer sapi nas hn
  exact ⟨bs, transmits_nas h0 hu h1, h2⟩

/-- **C73.** Longer ones: a message without any octets is handed over, which the RAN side does not accept; the caller
sees success if the SCCP layer reports it. -/
theorem C73_nas_too_long {ops : List Op} {s : State} {u : Ue} (h0 : run (linked env) ops init = .ok ((), s))
    (hu : u ∈ s.ues) (nas : Bytes) (sapi : Byte) (hn : 1004 < nas.length) :
    Transmits env s (.tx (some u.ptr) nas sapi) u.conn [] ∧
      (ranRxCo [] Mem.init).1 ≠ 0 ∧ calls (ranRxCo [] Mem.init).2.trace = [] := by
  exact ⟨transmits_nas h0 hu (C53_too_long sapi nas hn), by decide +kernel, by decide +kernel⟩

theorem causeElem_eq (c : Cause) : causeElem c =
    if Factory.Spec.ValidCause (toCause c) then some (Factory.Spec.causeVal (toCause c)) else none := by
  cases c <;> simp [causeElem, toCause, Factory.Spec.ValidCause, Factory.Spec.causeVal]

theorem transmits_release {ops : List Op} {s : State} {u : Ue} (h0 : run (linked env) ops init = .ok ((), s))
    (hu : u ∈ s.ues) {cause : Option Cause} {bs : Bytes}
    (h1 : Factory.iuRelCmd (some (toCause (releaseCause cause))) = .ok (some bs)) :
    Transmits env s (.txRelease u.ptr cause) u.conn bs := by
  refine ⟨.iuRelCmd (releaseCause cause), (linked env).sapRc s (.dataReq u.conn (.iuRelCmd (releaseCause cause))), h1, ?_⟩
  have h1' : (linked env).gen (.iuRelCmd (releaseCause cause)) = .ok (some bs) := h1
  have hf := deref_live h0 hu
  have hcause : cause.getD (.nAS CauseNAS_normal_release) = releaseCause cause := by cases cause <;> rfl
  simp only [step, runApi, iuTxRelease, deref, genMsg, txData, sapDown, emit, bind_eq, modify_run, get_run, lift_ok_run,
    pure_run, hf, h1', hcause]

/-- **C73.** Iu Release Command with a valid cause (NAS "normal release" unless given). -/
theorem C73_release {ops : List Op} {s : State} {u : Ue} (h0 : run (linked env) ops init = .ok ((), s))
    (hu : u ∈ s.ues) (cause : Option Cause) {v : Val} (hv : causeElem (releaseCause cause) = some v) :
    ∃ bs, Transmits env s (.txRelease u.ptr cause) u.conn bs ∧
      Understood (ranRxCo bs Mem.init) 1 1 iu_ReleaseCommandIEs [(4, v)] := by
  rw [causeElem_eq] at hv
  split at hv
  case isFalse => cases hv
  rename_i hv'
  cases hv
  replace hv := hv'
  obtain ⟨bs, h1, h2⟩ := (C65_iu_rel_cmd _).1 hv
  exact ⟨bs, transmits_release h0 hu h1, C66_ran_understands h2 (by simp) rfl⟩

theorem selects_both : Factory.Spec.SelectsAlgorithms 0x06 := by
  refine ⟨Or.inl rfl, fun i hi => ?_⟩
  have h8 : i < 8 := BitVec.lt_of_getLsbD hi
  have : ∀ i < 8, BitVec.getLsbD (0x06 : Byte) i = true → i = 1 ∨ i = 2 := by decide
  exact this i h8 hi

theorem transmits_security {ops : List Op} {s : State} {u : Ue} (h0 : run (linked env) ops init = .ok ((), s))
    (hu : u ∈ s.ues) {ik ck bs : Bytes} {sendCk newKey : Bool}
    (h1 : Factory.secModCmd (some ik) (if sendCk then some ck else none) (if newKey then 1 else 0) = .ok (some bs)) :
    Transmits env s (.txSecModeCmd u.ptr ik ck sendCk newKey) u.conn bs := by
  refine ⟨.secModCmd ik (if sendCk then some ck else none) newKey,
    (linked env).sapRc s (.dataReq u.conn (.secModCmd ik (if sendCk then some ck else none) newKey)), h1, ?_⟩
  have h1' : (linked env).gen (.secModCmd ik (if sendCk then some ck else none) newKey) = .ok (some bs) := h1
  have hf := deref_live h0 hu
  simp only [step, runApi, iuTxSecModeCmd, deref, genMsg, txData, sapDown, emit, bind_eq, modify_run, get_run, lift_ok_run,
    pure_run, hf, h1']

/-- **C73.** Security Mode Command: integrity key with UIA1 and UIA2, ciphering key (if it is to be sent) with UEA1 and
UEA2, key status. -/
theorem C73_security_mode {ops : List Op} {s : State} {u : Ue} (h0 : run (linked env) ops init = .ok ((), s))
    (hu : u ∈ s.ues) (ik ck : Bytes) (sendCk newKey : Bool) (hi : ik.length = 16) (hk : ck.length = 16) :
    ∃ bs, Transmits env s (.txSecModeCmd u.ptr ik ck sendCk newKey) u.conn bs ∧
      Understood (ranRxCo bs Mem.init) 1 6 securityModeCommandIEs
        ([(12, securityInfo [.int 0, .int 1] ik)] ++
          Factory.Spec.opt 11 (fun k => securityInfo [.int 1, .int 2] k) (if sendCk then some ck else none) ++
          [(75, .enum (if newKey then 1 else 0))]) := by
  obtain ⟨bs, h1, h2⟩ := (C54_sec_mod_cmd ik (if sendCk then some ck else none) (if newKey then 1 else 0) 0x06 0x06
    (by omega) (by intro k hk'; cases sendCk <;> simp at hk'; subst hk'; omega)).1
    ⟨selects_both, fun _ => selects_both, by cases newKey <;> decide⟩
  exact ⟨bs, transmits_security h0 hu h1, C66_ran_understands h2 (by cases sendCk <;> simp [Factory.Spec.opt]) rfl⟩

/-- **C73.** Common Id with a valid IMSI. -/
theorem C73_common_id {ops : List Op} {s : State} {u : Ue} (h0 : run (linked env) ops init = .ok ((), s))
    (hu : u ∈ s.ues) (imsi : Bytes) (hv : ValidImsi imsi) :
    ∃ bs v, Transmits env s (.txCommonId u.ptr (some imsi)) u.conn bs ∧ Factory.Spec.IsImsi imsi v ∧
      Understood (ranRxCo bs Mem.init) 1 15 commonID_IEs [(23, v)] := by
  obtain ⟨bs, v, h1, h2, h3⟩ := (C65_common_id imsi hv.1 (by have := hv.2.2; omega)).1 hv
  refine ⟨bs, v, ⟨.commonId (some imsi), (linked env).sapRc s (.dataReq u.conn (.commonId (some imsi))), h1, ?_⟩, h2,
    C66_ran_understands h3 (by simp) rfl⟩
  have h1' : (linked env).gen (.commonId (some imsi)) = .ok (some bs) := h1
  have hf := deref_live h0 hu
  simp only [step, runApi, iuTxCommonId, deref, genMsg, txData, sapDown, emit, bind_eq, modify_run, get_run, lift_ok_run,
    pure_run, hf, h1']

/-- **C73.** `ranap_iu_rab_act` hands over the octets it is given. -/
theorem C73_rab_act {ops : List Op} {s : State} {u : Ue} (h0 : run (linked env) ops init = .ok ((), s))
    (hu : u ∈ s.ues) (bs : Bytes) : Transmits env s (.rabAct u.ptr bs) u.conn bs := by
  refine ⟨.raw bs, (linked env).sapRc s (.dataReq u.conn (.raw bs)), rfl, ?_⟩
  have hf := deref_live h0 hu
  simp only [step, runApi, iuRabAct, deref, txData, sapDown, emit, bind_eq, modify_run, get_run, pure_run, hf]

/-- **C73.** A message that cannot be generated is used nevertheless: an invalid cause, a missing IMSI or one which is
too short or long, kill the process. -/
theorem C73_invalid_arguments {ops : List Op} {s : State} {u : Ue} (h0 : run (linked env) ops init = .ok ((), s))
    (hu : u ∈ s.ues) :
    (∀ cause, causeElem (releaseCause cause) = none →
      step (linked env) (.api (.txRelease u.ptr cause)) s = .fault .nullDeref) ∧
    step (linked env) (.api (.txCommonId u.ptr none)) s = .fault .nullDeref ∧
    ∀ imsi : Bytes, (∀ c ∈ imsi, Spec.Bcd.IsDigit c) → imsi.length ≤ 32 → ¬ ValidImsi imsi →
      step (linked env) (.api (.txCommonId u.ptr (some imsi))) s = .fault .nullDeref := by
  have hf := deref_live h0 hu
  refine ⟨fun cause hv => ?_, ?_, fun imsi hd hl hv => ?_⟩
  · have hv : ¬ Factory.Spec.ValidCause (toCause (releaseCause cause)) := by
      intro h
      rw [causeElem_eq, if_pos h] at hv
      cases hv
    have h1 : (linked env).gen (.iuRelCmd (releaseCause cause)) = .ok none := (C65_iu_rel_cmd _).2 hv
    have hcause : cause.getD (.nAS CauseNAS_normal_release) = releaseCause cause := by cases cause <;> rfl
    simp only [step, runApi, iuTxRelease, genMsg, bind_eq, lift_ok_run, hcause, h1]
    rfl
  · have h1 : (linked env).gen (.commonId none) = .ok none := rfl
    simp only [step, runApi, iuTxCommonId, deref, genMsg, bind_eq, lift_ok_run, hf, h1]
    rfl
  · have h1 : (linked env).gen (.commonId (some imsi)) = .ok none := (C65_common_id imsi hd hl).2.1 hv
    simp only [step, runApi, iuTxCommonId, deref, genMsg, bind_eq, lift_ok_run, hf, h1]
    rfl

/-- The hypotheses of the C73 theorems: a context, its arguments. -/
example : (∃ s, run (linked Demo.env) [.connectInd 10 (Demo.addr 1) initialOctets] init = .ok ((), s) ∧
      decide (s.ues.map (fun u => (u.ptr, u.conn)) = [(1, 10)]) = true) ∧
    causeElem (releaseCause none) = some (.choice 2 (.int 83)) ∧ causeElem (.misc 115) = some (.choice 4 (.int 115)) ∧
    causeElem (.misc 1) = none ∧ ValidImsi imsi15 ∧ ¬ ValidImsi [0x31] :=
  ⟨Demo.after_iff.1 (by decide +kernel), rfl, rfl, rfl, ⟨by decide, by decide, by decide⟩,
    fun h => absurd h.2.1 (by decide)⟩

/-- **C73** for NAS PDUs as it should hold: whatever the user sends arrives. -/
def C73_full : Prop := ∀ (env : Env) (ops : List Op) (s : State) (u : Ue) (nas : Bytes) (sapi : Byte),
  run (linked env) ops init = .ok ((), s) → u ∈ s.ues → ∃ bs, Transmits env s (.tx (some u.ptr) nas sapi) u.conn bs ∧
    Understood (ranRxCo bs Mem.init) 1 20 directTransferIEs [(16, .octets nas), (59, .enum (if sapi = 3 then 1 else 0))]

theorem demo_ctx : ∃ s, run (linked Demo.env) [.connectInd 10 (Demo.addr 1) initialOctets] init = .ok ((), s) ∧
    HasCtx s 10 ∧ ¬ InUse s 11 := by
  have : ∃ s, run (linked Demo.env) [.connectInd 10 (Demo.addr 1) initialOctets] init = .ok ((), s) ∧
      decide (HasCtx s 10 ∧ ¬ InUse s 11) = true := Demo.after_iff.1 (by decide +kernel)
  obtain ⟨s, h, hd⟩ := this
  exact ⟨s, h, of_decide_eq_true hd⟩

theorem C73_violated : ¬ C73_full := by
  intro hf
  obtain ⟨s, h0, ⟨u, hu, -⟩, -⟩ := demo_ctx
  obtain ⟨nas, hl⟩ : ∃ nas : Bytes, nas.length = 1005 := ⟨List.replicate 1005 0, List.length_replicate⟩
  obtain ⟨bs, ⟨m, rc, h1, h2⟩, h3, -⟩ := hf _ _ s u nas 0 h0 hu
  obtain ⟨⟨m', rc', h1', h2'⟩, h3', -⟩ := C73_nas_too_long h0 hu nas 0 (by omega)
  rw [h2] at h2'
  have ht := congrArg State.trace (Prod.mk.inj (Res.ok.inj h2')).2
  simp only [List.append_cancel_left_eq, List.cons.injEq, Out.sap.injEq, Prim.dataReq.injEq, true_and, and_true] at ht
  rw [ht.1, h1'] at h1
  cases h1
  exact h3' h3

/-! ## C76: Iu Release Request -/

/-- A received primitive is answered with one primitive that carries these octets; nothing else happens. -/
def Answers (env : Env) (s : State) (op : Op) (prim : TxMsg → Prim) (bs : Bytes) : Prop :=
  ∃ m rc, (linked env).gen m = .ok (some bs) ∧
    step (linked env) op s = .ok (0, { s with trace := s.trace ++ [.sap (prim m) rc] })

theorem cause_back {v : Val} (h : shaped RANAP_Cause v = true) :
    Factory.Spec.causeVal (toCause (causeOf (some v))) = v := by
  rcases cause_shape h with ⟨n, rfl, a, b⟩ | ⟨n, rfl, a, b⟩ | ⟨n, rfl, a, b⟩ | ⟨n, rfl, a, b⟩ | ⟨n, rfl, a, b⟩ |
    ⟨n, rfl, a, b⟩ | ⟨n, rfl, a, b⟩ <;> rfl

/-- **C76.** The octets of an Iu Release Request with a cause, on a connection that has a context, are answered with
the octets of an Iu Release Command with the same cause on the same connection. -/
theorem C76_release_request {ops : List Op} {s : State} {c : ConnId} {data : Bytes} {l : List Ie} {v : Val}
    (h0 : run (linked env) ops init = .ok ((), s)) (hc : HasCtx s c) (h : CoMsg data 1 11 l)
    (hv : elem iu_ReleaseRequestIEs l 4 = some v) :
    ∃ bs, Answers env s (.dataInd c data) (.dataReq c) bs ∧ Factory.Spec.Says bs 1 1 [(4, v)] := by
  have hs := elem_shaped (d := iu_ReleaseRequestIEs.ies[0]) (by with_unfolding_all rfl) hv
  have h4 : Has l 4 := Classical.byContradiction fun hn => by rw [elem_none hn] at hv; cases hv
  have e4 := elem_has (id := 4) (d := iu_ReleaseRequestIEs.ies[0]) (by decide +kernel) (by with_unfolding_all rfl)
    (co_def (m := iu_ReleaseRequestIEs) h rfl)
  have hvc := cause_there (fun d hd => by cases (show some iu_ReleaseRequestIEs.ies[0] = some d from hd); rfl) e4 h4
  obtain ⟨bs, hb, hs'⟩ := (C65_iu_rel_cmd _).1 hvc
  refine ⟨bs, ⟨.iuRelCmd (causeOf (elem iu_ReleaseRequestIEs l 4)), _, hb, C34_release_request h0 hc ?_ ⟨bs, hb⟩⟩, ?_⟩
  · rw [decodeCo_iff]
    exact ⟨1, 11, l, h, rfl⟩
  · rw [hv, cause_back hs] at hs'
    exact hs'

/-- Checking elements by computation. -/
def validB (m : MsgDef) (ie : Ie) : Bool := m.ies.any fun d => d.id = ie.id && (decode d.ty ie.value).isSome

theorem validB_sound {m : MsgDef} {l : List Ie} (h : l.all (validB m) = true) : ∀ ie ∈ l, Valid m ie := by
  intro ie hie
  have := List.all_eq_true.1 h ie hie
  simp only [validB, List.any_eq_true, Bool.and_eq_true, decide_eq_true_eq] at this
  obtain ⟨d, h1, h2, h3⟩ := this
  exact ⟨d, h1, h2, h3⟩

/-- The octets of an element list, as a PDU. -/
theorem coMsg_octets {direction code crit : Nat} {m : MsgDef} {l : List Ie} (hd : 1 ≤ direction ∧ direction ≤ 4)
    (hc : code < 256) (hk : crit < 3) (hm : m ∈ tables) (hl : ∀ ie ∈ l, ie.id < 65536 ∧ ie.crit < 3)
    (hlen : (Wire.containerOctets l).length < 16384) (ht : cnCoMsg direction code = some m) (hv : ∀ ie ∈ l, Valid m ie) :
    CoMsg (Wire.pduOctets direction code crit (Wire.containerOctets l)) direction code l := by
  obtain ⟨h1, h2⟩ := C42_wire hd hc hk hm hl hlen
  exact ⟨crit, m, ⟨_, h1, ht, h2⟩, hv⟩

theorem releaseRequest_mem : iu_ReleaseRequestIEs ∈ tables := by
  unfold tables
  simp only [List.mem_append]
  refine Or.inl (Or.inl (Or.inl ?_))
  unfold Gen.Ranap.all
  repeat (first | exact List.mem_cons_self | apply List.mem_cons_of_mem)

/-- An Iu Release Request on a connection with context. -/
example : (∃ l v, CoMsg [0x00, 0x0b, 0x40, 0x09, 0x00, 0x00, 0x01, 0x00, 0x04, 0x40, 0x02, 0x0b, 0x40] 1 11 l ∧
    elem iu_ReleaseRequestIEs l 4 = some v) ∧
    ∃ s, run (linked Demo.env) [.connectInd 10 (Demo.addr 1) initialOctets] init = .ok ((), s) ∧
      decide (HasCtx s 10) = true :=
  ⟨⟨[⟨4, 1, [0x0b, 0x40]⟩], .choice 0 (.int 46),
    (show Wire.pduOctets 1 11 1 (Wire.containerOctets [⟨4, 1, [0x0b, 0x40]⟩]) =
      [0x00, 0x0b, 0x40, 0x09, 0x00, 0x00, 0x01, 0x00, 0x04, 0x40, 0x02, 0x0b, 0x40] by decide +kernel) ▸
      coMsg_octets (by decide) (by decide) (by decide) (m := iu_ReleaseRequestIEs) releaseRequest_mem
        (by decide) (by decide +kernel) rfl (validB_sound (by decide +kernel)), by with_unfolding_all rfl⟩,
    Demo.after_iff.1 (by decide +kernel)⟩

/-! ## C77: RESET -/

/-- **C77.** The octets of a RESET are answered with those of a RESET ACKNOWLEDGE, sent to where they came from, with the
same domain (CS if there is none) and the same Global-RNC-ID, as long as the RNC-ID is at most 4095. -/
theorem C77_reset_partial {s : State} {a : SccpAddr} {data : Bytes} {l : List Ie} (h : ClMsg data 1 9 l)
    (hr : ∀ v, elem resetIEs l 86 = some v → (rncOf (some v)).rncId ≤ 4095) :
    ∃ bs, Answers env s (.unitdataInd a data) (.unitdataReq a) bs ∧
      Factory.Spec.Says bs 2 9 ([(3, .enum (domainOf (elem resetIEs l 3)))] ++ Factory.Spec.opt 86 id (elem resetIEs l 86)) := by
  have hv : ∀ ie ∈ l, Valid resetIEs ie := by
    obtain ⟨crit, m, ⟨value, -, hm, -⟩, hv⟩ := h
    cases (show some resetIEs = some m from hm)
    exact hv
  have hn : (resetIEs.ies.map (·.id)).Nodup := by decide +kernel
  have e86 := elem_has (id := 86) (d := resetIEs.ies[2]) hn (by with_unfolding_all rfl) hv
  have hdom : Factory.Spec.ValidDomain (domainOf (elem resetIEs l 3)) := by
    cases he : elem resetIEs l 3 with
    | none => exact Nat.zero_lt_two
    | some v =>
      have := elem_shaped (d := resetIEs.ies[1]) (by with_unfolding_all rfl) he
      obtain ⟨n, rfl, hn⟩ := enum_shape this
      exact hn
  have hrnc : ∀ v, elem resetIEs l 86 = some v → Factory.Spec.ValidRnc (toRncId (rncOf (some v))) ∧
      Factory.Spec.rncVal (toRncId (rncOf (some v))) = v := by
    intro v he
    have := elem_shaped (d := resetIEs.ies[2]) (by with_unfolding_all rfl) he
    obtain ⟨pl, n, rfl, h3, h4, -⟩ := grnc_shape this
    have := hr _ he
    simp only [rncOf] at this
    simp only [rncOf, toRncId, Factory.Spec.ValidRnc, Factory.Spec.rncVal, Int.toNat_of_nonneg h4]
    exact ⟨⟨h3, h4, by omega⟩, trivial⟩
  have hm : (linked env).decodeCl data = some ⟨1, 9, clBody 1 9 l⟩ := by
    rw [decodeCl_iff]
    exact .inl ⟨1, 9, l, h, rfl⟩
  by_cases h86 : Has l 86
  · obtain ⟨v, he⟩ := e86.2 h86
    obtain ⟨v1, v2⟩ := hrnc v he
    obtain ⟨bs, hb, hs⟩ := (C52_reset_ack (domainOf (elem resetIEs l 3)) (some (toRncId (rncOf (some v))))).1
      ⟨hdom, fun r hr => by cases hr; exact v1⟩
    refine ⟨bs, ⟨.resetAck (domainOf (elem resetIEs l 3)) (some (rncOf (some v))), _, hb, C37_reset_ack ?_ ⟨bs, hb⟩⟩, ?_⟩
    · rw [hm, clBody, if_pos ⟨rfl, rfl⟩, if_pos h86, he]; rfl
    · rw [he]
      simpa [Factory.Spec.opt, v2] using hs
  · obtain ⟨bs, hb, hs⟩ := (C52_reset_ack (domainOf (elem resetIEs l 3)) none).1 ⟨hdom, fun r hr => by cases hr⟩
    refine ⟨bs, ⟨.resetAck (domainOf (elem resetIEs l 3)) none, _, hb, C37_reset_ack ?_ ⟨bs, hb⟩⟩, ?_⟩
    · rw [hm, clBody, if_pos ⟨rfl, rfl⟩, if_neg h86]; rfl
    · rw [elem_none h86]
      exact hs

theorem reset_unanswered {s : State} {a : SccpAddr} {data : Bytes} {dom : Nat} {rnc : Option GRncId}
    (hm : env.decodeCl data = some ⟨PR_initiatingMessage, id_Reset, .reset dom rnc⟩)
    (hg : env.gen (.resetAck dom rnc) = .ok none) : step env (.unitdataInd a data) s = .ok (0, s) := by
  unfold step
  simp only [hm]
  unfold handleCl
  rw [if_pos rfl, if_pos rfl]
  simp only [bind_eq, handleClReset, hg, lift_ok_run, pure_run]

/-- **C77.** With a larger RNC-ID, which the decoder lets through, there is no answer at all. -/
theorem C77_unanswered {s : State} {a : SccpAddr} {data : Bytes} {l : List Ie} {v : Val} (h : ClMsg data 1 9 l)
    (hv : elem resetIEs l 86 = some v) (hr : 4095 < (rncOf (some v)).rncId) :
    step (linked env) (.unitdataInd a data) s = .ok (0, s) := by
  have hm : (linked env).decodeCl data = some ⟨1, 9, clBody 1 9 l⟩ := by
    rw [decodeCl_iff]
    exact .inl ⟨1, 9, l, h, rfl⟩
  have h86 : Has l 86 := Classical.byContradiction fun hn => by rw [elem_none hn] at hv; cases hv
  rw [clBody, if_pos ⟨rfl, rfl⟩, if_pos h86, hv] at hm
  have hg : (linked env).gen (.resetAck (domainOf (elem resetIEs l 3)) (some (rncOf (some v)))) = .ok none := by
    refine (C52_reset_ack (domainOf (elem resetIEs l 3)) (some (toRncId (rncOf (some v))))).2 fun hh => ?_
    have := (hh.2 _ rfl).2.2
    simp only [toRncId] at this
    omega
  exact reset_unanswered hm hg

theorem clMsg_octets {direction code crit : Nat} {m : MsgDef} {l : List Ie} (hd : 1 ≤ direction ∧ direction ≤ 4)
    (hc : code < 256) (hk : crit < 3) (hm : m ∈ tables) (hl : ∀ ie ∈ l, ie.id < 65536 ∧ ie.crit < 3)
    (hlen : (Wire.containerOctets l).length < 16384) (ht : cnClMsg direction code = some m) (hv : ∀ ie ∈ l, Valid m ie) :
    ClMsg (Wire.pduOctets direction code crit (Wire.containerOctets l)) direction code l := by
  obtain ⟨h1, h2⟩ := C42_wire hd hc hk hm hl hlen
  exact ⟨crit, m, ⟨_, h1, ht, h2⟩, hv⟩

theorem reset_mem : resetIEs ∈ tables := by
  unfold tables
  simp only [List.mem_append]
  refine Or.inl (Or.inl (Or.inl ?_))
  unfold Gen.Ranap.all
  repeat (first | exact List.mem_cons_self | apply List.mem_cons_of_mem)

/-- A RESET with cause, domain PS and RNC-ID. -/
def resetOf (hi lo : Byte) : List Ie := [⟨4, 1, [0x0b, 0x40]⟩, ⟨3, 0, [0x40]⟩, ⟨86, 1, [0x62, 0xf2, 0x24, hi, lo]⟩]

/-- RNC-ID 4095 is answered ... -/
example : ClMsg (Wire.pduOctets 1 9 0 (Wire.containerOctets (resetOf 0x0f 0xff))) 1 9 (resetOf 0x0f 0xff) ∧
    ∀ v, elem resetIEs (resetOf 0x0f 0xff) 86 = some v → (rncOf (some v)).rncId ≤ 4095 :=
  ⟨clMsg_octets (by decide) (by decide) (by decide) (m := resetIEs) reset_mem (by decide) (by decide +kernel) rfl
      (validB_sound (by decide +kernel)),
    fun v hv => by
      have : elem resetIEs (resetOf 0x0f 0xff) 86 = some (.seq [some (.octets [0x62, 0xf2, 0x24]), some (.int 4095)]) := by
        with_unfolding_all rfl
      rw [this] at hv
      cases hv
      decide⟩

/-- ... 4096 is not. -/
example : ∃ v, ClMsg (Wire.pduOctets 1 9 0 (Wire.containerOctets (resetOf 0x10 0x00))) 1 9 (resetOf 0x10 0x00) ∧
    elem resetIEs (resetOf 0x10 0x00) 86 = some v ∧ 4095 < (rncOf (some v)).rncId :=
  ⟨.seq [some (.octets [0x62, 0xf2, 0x24]), some (.int 4096)],
    clMsg_octets (by decide) (by decide) (by decide) (m := resetIEs) reset_mem (by decide) (by decide +kernel) rfl
      (validB_sound (by decide +kernel)),
    by with_unfolding_all rfl, by decide⟩

/-- **C77.** A RESET without an answer. -/
theorem C77_reset_unanswered : ∃ (data : Bytes) (l : List Ie), ClMsg data 1 9 l ∧ ∀ (env : Env) (s : State) (a : SccpAddr),
    step (linked env) (.unitdataInd a data) s = .ok (0, s) :=
  ⟨_, resetOf 0x10 0x00,
    clMsg_octets (crit := 0) (by decide) (by decide) (by decide) (m := resetIEs) reset_mem (by decide) (by decide +kernel) rfl
      (validB_sound (by decide +kernel)),
    fun _ _ _ => C77_unanswered (v := .seq [some (.octets [0x62, 0xf2, 0x24]), some (.int 4096)])
      (clMsg_octets (crit := 0) (by decide) (by decide) (by decide) (m := resetIEs) reset_mem (by decide) (by decide +kernel) rfl
        (validB_sound (by decide +kernel))) (by with_unfolding_all rfl) (by decide)⟩

/-- **C77, full statement.** -/
def C77_full : Prop :=
  ∀ (env : Env) (s : State) (a : SccpAddr) (data : Bytes) (l : List Ie), ClMsg data 1 9 l →
    ∃ bs, Answers env s (.unitdataInd a data) (.unitdataReq a) bs ∧
      Factory.Spec.Says bs 2 9 ([(3, .enum (domainOf (elem resetIEs l 3)))] ++ Factory.Spec.opt 86 id (elem resetIEs l 86))

/-- **C77.** So the property does not hold for every RESET. -/
theorem C77_violated : ¬ C77_full := by
  intro h
  obtain ⟨data, l, h1, h2⟩ := C77_reset_unanswered
  obtain ⟨bs, ⟨m, rc, -, h3⟩, -⟩ := h Demo.env init (Demo.addr 1) data l h1
  rw [h2] at h3
  simp [init] at h3

/-! ## C74, C75: uplink -/

/-- The elements of a generated message. -/
theorem says_co {bs : Bytes} {direction code : Nat} {want : List (Nat × Val)} {m : MsgDef}
    (h : Factory.Spec.Says bs direction code want) (hn : (want.map (·.1)).Nodup) (hm : cnCoMsg direction code = some m)
    (hx : ¬ (direction = 2 ∧ code = 0)) :
    ∃ l, CoMsg bs direction code l ∧ ∀ d ∈ m.ies, (Has l d.id ↔ (want.lookup d.id).isSome = true) ∧
      elem m l d.id = want.lookup d.id := by
  obtain ⟨p, m', l, h1, h2, h3, h4, h5, h6⟩ := Factory.says_pdu h
  have hp : cnCoMsg direction code = protocolMsg direction code := by
    unfold cnCoMsg at hm ⊢
    rw [if_neg hx] at hm ⊢
    split at hm
    · rw [if_pos (by assumption)]
    · cases hm
  have : m' = m := by
    rw [hm, protocolMsg, h1] at hp
    exact Option.some.inj (h2.symm.trans hp.symm)
  subst this
  refine ⟨l, ⟨p.crit, m', ⟨_, isPdu_iff.2 h4, hm, h5⟩, Factory.elements_valid h6⟩, fun d hd => ?_⟩
  obtain ⟨a, b⟩ := Factory.elements_lookup h3 h6 hn hd
  refine ⟨b, ?_⟩
  rw [← a]
  unfold elem
  have hf : m'.ies.find? (·.id = d.id) = some d := by
    cases hf : m'.ies.find? (·.id = d.id) with
    | none => exact absurd (List.find?_eq_none.1 hf d hd) (by simp)
    | some x =>
      have h7 := List.find?_some hf
      rw [Factory.row_eq h3 (List.mem_of_find?_eq_some hf) hd (by simpa using h7)]
  rw [hf]
  cases lastWith d.id l <;> rfl

/-- The octets of a Direct Transfer on a connection with context. -/
theorem uplink_dt {s : State} {c : ConnId} {data : Bytes} {l : List Ie} (hc : HasCtx s c) (h : CoMsg data 1 20 l) :
    Iu.Spec.initialUe (linked env) s (.dataInd c data) = none ∧
    uplink (linked env) s (.dataInd c data) = (readDt (dtOf l)).map fun x => (c, octetsOf (elem directTransferIEs l 16), x.1, x.2) := by
  have hm : (linked env).decodeCo data = some ⟨1, 20, .directTransfer (dtOf l)⟩ := decodeCo_iff.2 ⟨1, 20, l, h, rfl⟩
  have hi : Iu.Spec.initialUe (linked env) s (.dataInd c data) = none := by
    unfold Iu.Spec.initialUe firstPayload
    dsimp only
    rw [if_pos hc]
  refine ⟨hi, ?_⟩
  have hd : directTransfer (linked env) s (.dataInd c data) = some (c, dtOf l) := by
    unfold directTransfer coMsg
    dsimp only
    rw [if_pos hc, hm]
    rfl
  unfold uplink
  rw [hi, hd]
  rfl

/-- The octets of an Initial UE Message in a connection request. -/
theorem uplink_initial {s : State} {c : ConnId} {a : SccpAddr} {data : Bytes} {l : List Ie} (h : CoMsg data 1 19 l) :
    Iu.Spec.initialUe (linked env) s (.connectInd c a data) = some (c, a, initialUeOf l) ∧
    uplink (linked env) s (.connectInd c a data) =
      (readInitialUe (initialUeOf l)).map fun x => (c, octetsOf (elem initialUE_MessageIEs l 16), some x.2.1, some x.2.2) := by
  have hm : (linked env).decodeCo data = some ⟨1, 19, .initialUe (initialUeOf l)⟩ := decodeCo_iff.2 ⟨1, 19, l, h, rfl⟩
  have hi : Iu.Spec.initialUe (linked env) s (.connectInd c a data) = some (c, a, initialUeOf l) := by
    unfold Iu.Spec.initialUe firstPayload
    dsimp only
    rw [if_neg (fun hn => coMsg_nil (hn ▸ h))]
    dsimp only
    rw [hm]
    rfl
  refine ⟨hi, ?_⟩
  unfold uplink
  rw [hi]
  rfl

/-- Octets are one message at most. -/
theorem coMsg_unique {data : Bytes} {p c p' c' : Nat} {l l' : List Ie} (h : CoMsg data p c l) (h' : CoMsg data p' c' l') :
    p = p' ∧ c = c' ∧ l = l' := by
  obtain ⟨crit, m, ⟨v, h1, h2, h3⟩, -⟩ := h
  obtain ⟨crit', m', ⟨v', h1', h2', h3'⟩, -⟩ := h'
  have := (isPdu_iff.1 h1).symm.trans (isPdu_iff.1 h1')
  simp only [Option.some.injEq, Prod.mk.injEq] at this
  obtain ⟨rfl, rfl, rfl, rfl⟩ := this
  obtain rfl := Option.some.inj (h2.symm.trans h2')
  unfold Carries at h3 h3'
  rw [h3] at h3'
  have := congrArg elements (Option.some.inj h3')
  rw [elements_container, elements_container] at this
  exact ⟨rfl, rfl, Option.some.inj this⟩

/-- **C74.** The octets of a Direct Transfer with a NAS PDU of up to 256 octets, on a connection with context: this NAS
PDU is delivered once, for this context and with the location in the message, unless its LAI is reserved. -/
theorem C74_uplink_octets {ops : List Op} {s : State} {c : ConnId} {data : Bytes} {l : List Ie}
    (hc : CallbacksOk (linked env)) (hl : LinkOk (linked env)) (hr : RunOk (linked env) init ops)
    (h0 : run (linked env) ops init = .ok ((), s)) (hx : HasCtx s c) (h : CoMsg data 1 20 l)
    (hn : (octetsOf (elem directTransferIEs l 16)).length ≤ 256) :
    ∃ rc s' d, step (linked env) (.dataInd c data) s = .ok (rc, s') ∧ Happened s s' d ∧
      match readDt (dtOf l) with
      | none => recvs d = []
      | some (ra, sai) => ∃ p, LiveConn s p c ∧ recvs d = [(p, c, octetsOf (elem directTransferIEs l 16), ra, sai)] := by
  have hk : ¬ Kills s (.dataInd c data) := by
    rintro ⟨p, k, l', h', ⟨-, hf⟩ | ⟨hn', -⟩⟩
    · obtain ⟨rfl, rfl, rfl⟩ := coMsg_unique h h'
      rcases hf with ⟨-, -, h1, -⟩ | ⟨-, h1, -⟩ | ⟨-, h1, -⟩
      · omega
      · cases h1
      · cases h1
    · exact hn' hx
  rw [← C72_exactly_these_kill (op := .dataInd c data) hc hl hr h0 trivial] at hk
  cases hs : step (linked env) (.dataInd c data) s with
  | fault e => exact absurd ⟨e, hs⟩ hk
  | ok x =>
    obtain ⟨rc, s'⟩ := x
    obtain ⟨d, hd⟩ := step_happened hs
    refine ⟨rc, s', d, rfl, hd, ?_⟩
    obtain ⟨h1, h2⟩ := uplink_dt (env := env) hx h
    have := C23_uplink_routing h0 hs hd
    rw [h2, h1] at this
    cases hr : readDt (dtOf l) with
    | none => rw [hr] at this; exact this
    | some x =>
      rw [hr] at this
      obtain ⟨p, e1, e2⟩ := this
      exact ⟨p, e2, e1⟩

/-- **C74.** What the library itself generates: up to 256 octets arrive, from 257 to 1004 octets kill the receiver,
longer ones are lost without a trace. -/
theorem C74_direct_transfer {ops : List Op} {s : State} {c : ConnId} {nas bs : Bytes} {sapi : Byte}
    (hc : CallbacksOk (linked env)) (hl : LinkOk (linked env)) (hr : RunOk (linked env) init ops)
    (h0 : run (linked env) ops init = .ok ((), s)) (hx : HasCtx s c) (hg : Factory.dt sapi nas = .ok (some bs)) :
    (nas.length ≤ 256 → ∃ rc s' d p, step (linked env) (.dataInd c bs) s = .ok (rc, s') ∧ Happened s s' d ∧
      LiveConn s p c ∧ recvs d = [(p, c, nas, none, none)]) ∧
    (256 < nas.length → nas.length ≤ 1004 → ∃ e, step (linked env) (.dataInd c bs) s = .fault e) ∧
    (1004 < nas.length → step (linked env) (.dataInd c bs) s = .ok (-1, s)) := by
  have key : nas.length ≤ 1004 → ∃ l, CoMsg bs 1 20 l ∧ elem directTransferIEs l 16 = some (.octets nas) ∧ ¬ Has l 15 ∧
      ¬ Has l 55 ∧ ¬ Has l 58 := by
    intro hn
    obtain ⟨bs', h1, h2⟩ := C53_direct_transfer sapi nas hn
    rw [hg] at h1
    cases h1
    obtain ⟨l, h3, h4⟩ := says_co h2 (by simp) (m := directTransferIEs) rfl (by decide)
    refine ⟨l, h3, (h4 directTransferIEs.ies[0] (by with_unfolding_all exact List.getElem_mem ..)).2, ?_, ?_, ?_⟩
    · intro hh
      have := (h4 directTransferIEs.ies[1] (by with_unfolding_all exact List.getElem_mem ..)).1.1 hh
      cases this
    · intro hh
      have := (h4 directTransferIEs.ies[2] (by with_unfolding_all exact List.getElem_mem ..)).1.1 hh
      cases this
    · intro hh
      have := (h4 directTransferIEs.ies[3] (by with_unfolding_all exact List.getElem_mem ..)).1.1 hh
      cases this
  refine ⟨fun hn => ?_, fun hn hn' => ?_, fun hn => ?_⟩
  · obtain ⟨l, h1, h2, h3, h4, h5⟩ := key (by omega)
    have := C74_uplink_octets hc hl hr h0 hx h1 (by rw [h2]; exact hn)
    obtain ⟨rc, s', d, e1, e2, e3⟩ := this
    have hrd : readDt (dtOf l) = some (none, none) := by
      unfold readDt dtOf
      dsimp only
      rw [if_neg h3]
    rw [hrd] at e3
    obtain ⟨p, e3, e4⟩ := e3
    rw [h2] at e4
    exact ⟨rc, s', d, p, e1, e2, e3, e4⟩
  · obtain ⟨l, h1, h2, h3, -⟩ := key hn'
    refine (C72_exactly_these_kill (op := .dataInd c bs) hc hl hr h0 trivial).2 ⟨1, 20, l, h1, .inl ⟨hx, .inl ⟨rfl, rfl, ?_, fun hh => h3 hh.1⟩⟩⟩
    rw [h2]
    exact hn
  · rw [C53_too_long sapi nas hn] at hg
    cases hg
    have hd : (linked env).decodeCo [] = none := by
      cases hd : (linked env).decodeCo [] with
      | none => rfl
      | some msg =>
        obtain ⟨p, k, l, h, -⟩ := decodeCo_iff.1 hd
        exact absurd h coMsg_nil
    cases hu : ctxFind s c with
    | none => exact absurd hx (ctxFind_none.1 hu)
    | some u =>
      unfold step
      simp only [bind_eq, get_run, hu, rxCo, hd]
      rfl

/-- The elements of an Initial UE Message of the library. -/
theorem initial_elems {nas bs : Bytes} {id : BitVec 32} {isPs : Bool} {p0 p1 p2 : Byte} {n : Int}
    (h : Factory.Spec.Says bs 1 19 [(3, .enum (Factory.Spec.psOrCs isPs)), (15, fixedLai [p0, p1, p2]),
      (58, fixedSai [p0, p1, p2]), (16, .octets nas), (79, .bits (Factory.Spec.low24 id)),
      (86, Factory.Spec.rncVal ⟨[p0, p1, p2], n⟩)]) :
    ∃ l, CoMsg bs 1 19 l ∧ elem initialUE_MessageIEs l 16 = some (.octets nas) ∧
      elem initialUE_MessageIEs l 15 = some (fixedLai [p0, p1, p2]) ∧ elem initialUE_MessageIEs l 58 = some (fixedSai [p0, p1, p2]) ∧
      elem initialUE_MessageIEs l 86 = some (Factory.Spec.rncVal ⟨[p0, p1, p2], n⟩) ∧ Has l 15 ∧ Has l 58 ∧ Has l 86 ∧
      ¬ Has l 55 := by
  obtain ⟨l, h3, h4⟩ := says_co h (by simp) (m := initialUE_MessageIEs) rfl (by decide)
  have g := fun k (hk : k < initialUE_MessageIEs.ies.length) => h4 _ (List.getElem_mem hk)
  exact ⟨l, h3, (g 4 (by decide)).2, (g 1 (by decide)).2, (g 3 (by decide)).2, (g 6 (by decide)).2,
    (g 1 (by decide)).1.2 rfl, (g 3 (by decide)).1.2 rfl, (g 6 (by decide)).1.2 rfl,
    fun hh => by have := (g 2 (by decide)).1.1 hh; cases this⟩

/-- One with up to 256 octets of NAS PDU, in a connection request. -/
theorem initial_delivered {ops : List Op} {s : State} {c : ConnId} {a : SccpAddr} {nas bs : Bytes} {id : BitVec 32}
    {isPs : Bool} {p0 p1 p2 : Byte} {n : Int}
    (hc : CallbacksOk (linked env)) (hl : LinkOk (linked env)) (hr : RunOk (linked env) init ops)
    (h0 : run (linked env) ops init = .ok ((), s)) (hx : ¬ InUse s c)
    (h : Factory.Spec.Says bs 1 19 [(3, .enum (Factory.Spec.psOrCs isPs)), (15, fixedLai [p0, p1, p2]),
      (58, fixedSai [p0, p1, p2]), (16, .octets nas), (79, .bits (Factory.Spec.low24 id)),
      (86, Factory.Spec.rncVal ⟨[p0, p1, p2], n⟩)]) (hn : nas.length ≤ 256) :
    ∃ rc s' d p, step (linked env) (.connectInd c a bs) s = .ok (rc, s') ∧ Happened s s' d ∧
      ¬ Live s p ∧ recvs d = [(p, c, nas, some ⟨mcc p0 p1, laiMnc p1 p2, false, 0x4223, 0xff⟩, some 0x4223)] := by
  obtain ⟨l, h1, h2, h3, h4, h5, b1, b2, b3, b4⟩ := initial_elems h
  have hk : ¬ Kills s (.connectInd c a bs) := by
    rintro ⟨p, k, l', h', hf⟩
    obtain ⟨rfl, rfl, rfl⟩ := coMsg_unique h1 h'
    rcases hf with ⟨-, -, -, -, -, -, hf | hf⟩
    · exact hf b2
    · rw [h2] at hf
      have : 256 < nas.length := hf
      omega
  rw [← C72_exactly_these_kill (op := .connectInd c a bs) hc hl hr h0 hx] at hk
  cases hs : step (linked env) (.connectInd c a bs) s with
  | fault e => exact absurd ⟨e, hs⟩ hk
  | ok x =>
    obtain ⟨rc, s'⟩ := x
    obtain ⟨d, hd⟩ := step_happened hs
    have := C23_uplink_routing h0 hs hd
    obtain ⟨u1, u2⟩ := uplink_initial (env := env) (s := s) (c := c) (a := a) h1
    have hrd : readInitialUe (initialUeOf l) = some (⟨⟨mcc p0 p1, rncMnc p1 p2, p1.toNat / 16 ≠ 15⟩, BitVec.ofNat 16 n.toNat⟩,
        ⟨mcc p0 p1, laiMnc p1 p2, false, 0x4223, 0xff⟩, 0x4223) := by
      unfold readInitialUe initialUeOf
      simp only [h3, h4, h5, if_neg b4]
      rfl
    rw [u2, u1, hrd] at this
    obtain ⟨p, e1, e2⟩ := this
    rw [h2] at e1
    exact ⟨rc, s', d, p, rfl, hd, e2, e1⟩

/-- **C75.** An Initial UE Message generated by the library, in a connection request: with up to 256 octets of NAS PDU
a new context gets them, with the location in the message (LAC and SAC are those the generator puts in); from 257 to 966
octets kill the receiver; with more, which the generator turns into an empty message, the connection is accepted and
nothing reaches the user. -/
theorem C75_initial_ue {ops : List Op} {s : State} {c : ConnId} {a : SccpAddr} {nas bs : Bytes} {id : BitVec 32}
    {isPs : Bool} {p0 p1 p2 : Byte} {n : Int}
    (hc : CallbacksOk (linked env)) (hl : LinkOk (linked env)) (hr : RunOk (linked env) init ops)
    (h0 : run (linked env) ops init = .ok ((), s)) (hx : ¬ InUse s c) (hv : 0 ≤ n ∧ n ≤ 4095)
    (hg : Factory.initialUe id isPs (some ⟨[p0, p1, p2], n⟩) nas = .ok (some bs)) :
    (nas.length ≤ 256 → ∃ rc s' d p, step (linked env) (.connectInd c a bs) s = .ok (rc, s') ∧ Happened s s' d ∧
      ¬ Live s p ∧ recvs d = [(p, c, nas, some ⟨mcc p0 p1, laiMnc p1 p2, false, 0x4223, 0xff⟩, some 0x4223)]) ∧
    (256 < nas.length → nas.length ≤ 966 → ∃ e, step (linked env) (.connectInd c a bs) s = .fault e) ∧
    (966 < nas.length → ∃ s' d, step (linked env) (.connectInd c a bs) s = .ok (-1, s') ∧ Happened s s' d ∧
      prims d = [.connectResp c] ∧ callbacks d = [] ∧ s'.ues = s.ues) := by
  have key : nas.length ≤ 966 → Factory.Spec.Says bs 1 19 [(3, .enum (Factory.Spec.psOrCs isPs)), (15, fixedLai [p0, p1, p2]),
      (58, fixedSai [p0, p1, p2]), (16, .octets nas), (79, .bits (Factory.Spec.low24 id)),
      (86, Factory.Spec.rncVal ⟨[p0, p1, p2], n⟩)] := by
    intro hn
    obtain ⟨bs', h1, h2⟩ := (C65_initial_ue id isPs ⟨[p0, p1, p2], n⟩ nas).1 ⟨rfl, hv⟩ hn
    rw [hg] at h1
    cases h1
    exact h2
  refine ⟨fun hn => ?_, fun hn hn' => ?_, fun hn => ?_⟩
  · exact initial_delivered hc hl hr h0 hx (key (by omega)) hn
  · obtain ⟨l, h1, h2, h3, h4, h5, b1, b2, b3, b4⟩ := initial_elems (key hn')
    refine (C72_exactly_these_kill (op := .connectInd c a bs) hc hl hr h0 hx).2 ⟨1, 19, l, h1, rfl, rfl, b1, b3, ?_, fun hh => b4 hh.1, .inr ?_⟩
    · rw [h3]
      show ¬ ReservedLac [0x42, 0x23]
      decide
    · rw [h2]
      exact hn
  · rw [(C65_initial_ue id isPs ⟨[p0, p1, p2], n⟩ nas).2.1 ⟨rfl, hv⟩ hn] at hg
    cases hg
    exact ⟨_, [.sap (.connectResp c) ((linked env).sapRc s (.connectResp c))], rfl, rfl, rfl, rfl, rfl⟩

/-- **C74** for the messages of the library as it should hold: every one of them arrives. -/
def C74_full : Prop := ∀ (env : Env) (ops : List Op) (s : State) (c : ConnId) (nas bs : Bytes) (sapi : Byte),
  CallbacksOk (linked env) → LinkOk (linked env) → RunOk (linked env) init ops → run (linked env) ops init = .ok ((), s) →
  HasCtx s c → Factory.dt sapi nas = .ok (some bs) →
  ∃ rc s' d p, step (linked env) (.dataInd c bs) s = .ok (rc, s') ∧ Happened s s' d ∧
    LiveConn s p c ∧ recvs d = [(p, c, nas, none, none)]

theorem demo_run : RunOk (linked Demo.env) init [.connectInd 10 (Demo.addr 1) initialOctets] :=
  Demo.runOk_sound (by decide +kernel)

theorem C74_violated : ¬ C74_full := by
  intro hf
  have hc : CallbacksOk (linked Demo.env) := fun _ _ _ => trivial
  have hk : LinkOk (linked Demo.env) := fun _ _ _ => trivial
  obtain ⟨s, h0, hx, -⟩ := demo_ctx
  obtain ⟨nas, hl⟩ : ∃ nas : Bytes, nas.length = 257 := ⟨List.replicate 257 0, List.length_replicate⟩
  obtain ⟨bs, hg, -⟩ := C53_direct_transfer 0 nas (by omega)
  obtain ⟨_, _, _, _, h, -⟩ := hf _ _ s 10 _ bs 0 hc hk demo_run h0 hx hg
  obtain ⟨e, he⟩ := (C74_direct_transfer hc hk demo_run h0 hx hg).2.1 (by omega)
    (by omega)
  rw [he] at h
  cases h

/-- **C75** as it should hold. -/
def C75_full : Prop := ∀ (env : Env) (ops : List Op) (s : State) (c : ConnId) (a : SccpAddr) (nas bs : Bytes)
    (id : BitVec 32) (isPs : Bool) (p0 p1 p2 : Byte) (n : Int),
  CallbacksOk (linked env) → LinkOk (linked env) → RunOk (linked env) init ops → run (linked env) ops init = .ok ((), s) →
  ¬ InUse s c → 0 ≤ n ∧ n ≤ 4095 → Factory.initialUe id isPs (some ⟨[p0, p1, p2], n⟩) nas = .ok (some bs) →
  ∃ rc s' d p, step (linked env) (.connectInd c a bs) s = .ok (rc, s') ∧ Happened s s' d ∧ ¬ Live s p ∧
    recvs d = [(p, c, nas, some ⟨mcc p0 p1, laiMnc p1 p2, false, 0x4223, 0xff⟩, some 0x4223)]

theorem C75_violated : ¬ C75_full := by
  intro hf
  have hc : CallbacksOk (linked Demo.env) := fun _ _ _ => trivial
  have hk : LinkOk (linked Demo.env) := fun _ _ _ => trivial
  obtain ⟨s, h0, -, hx⟩ := demo_ctx
  obtain ⟨nas, hl⟩ : ∃ nas : Bytes, nas.length = 257 := ⟨List.replicate 257 0, List.length_replicate⟩
  obtain ⟨bs, hg, -⟩ := (C65_initial_ue 23 false ⟨[0x09, 0x01, 0x99], 0x926⟩ nas).1
    ⟨rfl, by decide, by decide⟩ (by omega)
  obtain ⟨_, _, _, _, h, -⟩ := hf _ _ s 11 (Demo.addr 1) _ bs _ _ _ _ _ _ hc hk
    demo_run h0 hx (by decide) hg
  obtain ⟨e, he⟩ := (C75_initial_ue (a := Demo.addr 1) hc hk demo_run h0 hx
    (by decide) hg).2.1 (by omega) (by omega)
  rw [he] at h
  cases h

/-- Hypotheses of C74 and C75: a context on connection 10, connection 11 not in use, generated messages. -/
example : (∃ s, run (linked Demo.env) [.connectInd 10 (Demo.addr 1) initialOctets] init = .ok ((), s) ∧
      decide (HasCtx s 10 ∧ ¬ InUse s 11) = true) ∧
    RunOk (linked Demo.env) init [.connectInd 10 (Demo.addr 1) initialOctets] ∧
    Factory.dt 0 [0xaa, 0xbb, 0xcc] = .ok (some [0x00, 0x14, 0x40, 0x10, 0x00, 0x00, 0x02, 0x00, 0x10, 0x40, 0x04, 0x03,
      0xaa, 0xbb, 0xcc, 0x00, 0x3b, 0x40, 0x01, 0x00]) ∧
    Factory.initialUe 23 false (some ⟨[0x09, 0x01, 0x99], 0x926⟩) [0xaa, 0xbb, 0xcc] = .ok (some initialOctets) :=
  ⟨Demo.after_iff.1 (by decide +kernel), Demo.runOk_sound (by decide +kernel), by decide +kernel, by decide +kernel⟩

/-! ## C78: paging -/

/-- **C78.** `ranap_iu_page_cs2` with a valid IMSI: every RNC that serves the location area, and no other, gets a Paging
message for the CS domain with this IMSI and TMSI. -/
theorem C78_page_cs {s : State} {imsi : Bytes} {tmsi : Option (BitVec 32)} {lai : Verif.Lai} (hv : ValidImsi imsi) :
    ∃ bs v d m, (linked env).gen m = .ok (some bs) ∧ Factory.Spec.IsImsi imsi v ∧
      Factory.Spec.Says bs 1 14 ([(3, .enum 0), (23, v)] ++ Factory.Spec.opt 64 (tmsiVal false) tmsi) ∧
      step (linked env) (.api (.pageCs2 imsi tmsi lai)) s =
        .ok (((s.rncs.filter fun r => decide (ServesLai r lai)).length : Int), { s with trace := s.trace ++ d }) ∧
      prims d = (s.rncs.filter fun r => decide (ServesLai r lai)).map (fun r => .unitdataReq r.addr m) ∧
      callbacks d = [] := by
  obtain ⟨bs, v, h1, h2, h3⟩ := (C55_paging imsi tmsi false 0 hv.1 (by have := hv.2.2; omega)).1 ⟨hv, by decide⟩
  obtain ⟨d, e1, e2, e3⟩ := C17_page_cs2 (env := linked env) (s := s) (lai := lai) h1
  exact ⟨bs, v, d, .paging imsi tmsi false 0, h1, h2, by simpa [Factory.Spec.opt, Factory.Spec.psOrCs] using h3, e1, e2, e3⟩

/-- **C78.** `ranap_iu_page_ps2` with a valid IMSI: the one RNC that serves the routing area, if any, gets a Paging
message for the PS domain with this IMSI and P-TMSI. -/
theorem C78_page_ps {ops : List Op} {s : State} {imsi : Bytes} {tmsi : Option (BitVec 32)} {rai : Rai}
    (h0 : run (linked env) ops init = .ok ((), s)) (hv : ValidImsi imsi) :
    ∃ bs v d m n, (linked env).gen m = .ok (some bs) ∧ Factory.Spec.IsImsi imsi v ∧
      Factory.Spec.Says bs 1 14 ([(3, .enum 1), (23, v)] ++ Factory.Spec.opt 64 (tmsiVal true) tmsi) ∧
      step (linked env) (.api (.pagePs2 imsi tmsi rai)) s = .ok (n, { s with trace := s.trace ++ d }) ∧ callbacks d = [] ∧
      match lastRnc (registrations (linked env) init ops) rai with
      | none => n = 0 ∧ prims d = []
      | some id => n = 1 ∧ ∃ r ∈ s.rncs, SameRnc r.rncId id ∧ Serves r rai ∧ prims d = [.unitdataReq r.addr m] := by
  obtain ⟨bs, v, h1, h2, h3⟩ := (C55_paging imsi tmsi true 0 hv.1 (by have := hv.2.2; omega)).1 ⟨hv, by decide⟩
  obtain ⟨d, n, e1, e2, e3⟩ := C18_page_ps2 (env := linked env) h0 (rai := rai) h1
  exact ⟨bs, v, d, .paging imsi tmsi true 0, n, h1, h2, by simpa [Factory.Spec.opt, Factory.Spec.psOrCs] using h3, e1, e2, e3⟩

/-- One RNC that serves the area of the context. -/
example : ValidImsi imsi15 ∧ ∃ s, run (linked Demo.env) [.connectInd 10 (Demo.addr 1) initialOctets] init = .ok ((), s) ∧
    decide ((s.rncs.filter fun r => decide (ServesLai r ⟨⟨901, 99, false⟩, 0x4223⟩)).length = 1) = true :=
  ⟨⟨by decide, by decide, by decide⟩, Demo.after_iff.1 (by decide +kernel)⟩

end Verif.Props
