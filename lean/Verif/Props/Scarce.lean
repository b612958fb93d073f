import Verif.Proofs.Scarce

/-!
# C120, C121, C122: when memory runs out, or the debug output cannot be written
-/

namespace Verif.Props
open Verif.Aper Verif.Ie Verif.Scarce
open Verif.Generate (Proto)
open Verif.Factory (Call put)

/-- Memory is found whenever it is needed. -/
def Memory (w : World) : Prop := ∀ n x, x ≠ .output → w n x = true

/-- The standard output can be written to. -/
def Writable (w : World) : Prop := ∀ n, w n .output = true

/-- The standard output cannot be written to, as it is closed. -/
def Closed (w : World) : Prop := ∀ n, w n .output = false

/-! ## C120 -/

/-- **C120**, full statement: a function that makes a message returns the message or NULL, whatever fails. -/
def C120_full : Prop := ∀ (c : Call) (q : Plan), plan c = some (.ok q) → ∀ (w : World) (debug : Bool) (n : Nat),
  (q.runW w debug n).1 = .ok none ∨ (q.runW w debug n).1 = c.result

/-- A message without any failure. -/
def message (p : Proto) (present code crit : Nat) (m : MsgDef) (s : Struct) : Option Bytes :=
  (encodeIes m s).bind fun l => Generate.generate p present code crit m.ty (container l)

/-- What carrying out a plan gives without any failure. -/
def outcome : Res Plan → Res (Option Bytes)
  | .ok q => .ok (message .ranap q.present q.code q.crit q.msg q.ies)
  | .fault f => .fault f

/-- The plans are those of the functions. -/
theorem C120_plan (c : Call) (x : Res Plan) (h : plan c = some x) : c.result = outcome x := by
  have key : ∀ present code crit m s, Factory.generate present code crit m s = message .ranap present code crit m s := by
    intro present code crit m s
    unfold Factory.generate message encodeMsg Generate.generate
    cases encodeIes m s <;> rfl
  cases c with
  | initialUe i p r n => cases r <;> cases h <;> first | rfl | exact congrArg Res.ok (key ..)
  | iuRelCmd c => cases c <;> cases h <;> first | rfl | exact congrArg Res.ok (key ..)
  | iuRelReq c => cases c <;> cases h <;> first | rfl | exact congrArg Res.ok (key ..)
  | commonId i =>
    cases i with
    | none => cases h; exact congrArg Res.ok (key ..)
    | some i =>
      cases h
      show Factory.commonId (some i) = _
      unfold Factory.commonId
      dsimp only
      cases Factory.permanentId i with
      | fault f => rfl
      | ok v => exact congrArg Res.ok (key ..)
  | pagingCmd i t p c =>
    cases i with
    | none => cases h; rfl
    | some i =>
      cases h
      show Factory.pagingCmd (some i) t p c = _
      unfold Factory.pagingCmd
      dsimp only
      cases Factory.permanentId i with
      | fault f => rfl
      | ok v => exact congrArg Res.ok (key ..)
  | _ => cases h <;> exact congrArg Res.ok (key ..)

/-- **C120**, any message of any protocol: NULL, or a message with some of the elements, in their order. -/
theorem C120_kept (w : World) (debug : Bool) (p : Proto) (present code crit : Nat) (m : MsgDef) (s : Struct) (n : Nat) :
    (messageW w debug p present code crit m s n).1 = none ∨ ∃ l kept : List Ie, encodeIes m s = some l ∧ kept.Sublist l ∧
      (messageW w debug p present code crit m s n).1 = Generate.generate p present code crit m.ty (container kept) := by
  rw [messageW_eq]
  cases h : (encodeIesW w debug m s n).1 with
  | none => exact .inl rfl
  | some kept =>
    obtain ⟨l, hl, hs, -⟩ := encodeRowsW_kept w debug _ _ _ _ _ _ _ h
    simp only [generateW_eq]
    split
    · exact .inr ⟨l, kept, hl, hs, rfl⟩
    · exact .inl rfl

/-- **C120**, any message of any protocol: NULL or the message, if there is room for the elements in the list. -/
theorem C120_none_or_message (w : World) (hl : ∀ n, w n .list = true) (debug : Bool) (p : Proto) (present code crit : Nat)
    (m : MsgDef) (s : Struct) (n : Nat) : (messageW w debug p present code crit m s n).1 = none ∨
      (messageW w debug p present code crit m s n).1 = message p present code crit m s := by
  rw [messageW_eq]
  cases h : (encodeIesW w debug m s n).1 with
  | none => exact .inl rfl
  | some kept =>
    obtain ⟨l, he, -, hk⟩ := encodeRowsW_kept w debug _ _ _ _ _ _ _ h
    simp only [generateW_eq]
    split
    · refine .inr ?_
      unfold message encodeIes
      rw [he, hk hl]
      rfl
    · exact .inl rfl

/-- **C120**, any message of any protocol: with memory, and an output that is not used or can be written to, the message. -/
theorem C120_any_sufficient (w : World) (hm : Memory w) (debug : Bool) (ho : debug = false ∨ Writable w) (p : Proto)
    (present code crit : Nat) (m : MsgDef) (s : Struct) (n : Nat) :
    (messageW w debug p present code crit m s n).1 = message p present code crit m s := by
  rw [messageW_eq]
  unfold message encodeIesW encodeIes
  rw [encodeRowsW_ok (fun n => ⟨hm n _ nofun, hm n _ nofun, hm n _ nofun⟩) ho]
  cases encodeRows m.ies 0 s.mask s.fields with
  | none => rfl
  | some l =>
    simp only [generateW_eq]
    rw [if_pos ⟨hm _ _ nofun, hm _ _ nofun⟩]
    rfl

theorem identitiesW_ok {w : World} (h : ∀ n, w n .identity = true) : ∀ k n, (identitiesW w k n).1 = true
  | 0, _ => rfl
  | k + 1, n => by
    show ((attempt w .identity >>= _) n).1 = true
    rw [attempt_bind, h]
    exact identitiesW_ok h k (n + 1)

theorem runW_eq (w : World) (debug : Bool) (q : Plan) (n : Nat) : (q.runW w debug n).1 =
    if (identitiesW w q.identities n).1 = true then
      .ok (messageW w debug .ranap q.present q.code q.crit q.msg q.ies (identitiesW w q.identities n).2).1
    else .fault .nullDeref := by
  unfold Plan.runW
  simp only [bind, StateT.bind, pure]
  rcases identitiesW w q.identities n with ⟨_ | _, n'⟩ <;> rfl

/-- **C120**, the part that holds: if it is not the list of elements for which there is no memory, nor a copy of an identity. -/
theorem C120_partial (c : Call) (q : Plan) (h : plan c = some (.ok q)) (w : World) (hl : ∀ n, w n .list = true)
    (hi : ∀ n, w n .identity = true) (debug : Bool) (n : Nat) :
    (q.runW w debug n).1 = .ok none ∨ (q.runW w debug n).1 = c.result := by
  rw [C120_plan c _ h, runW_eq, if_pos (identitiesW_ok hi _ _)]
  rcases C120_none_or_message w hl debug .ranap q.present q.code q.crit q.msg q.ies (identitiesW w q.identities n).2 with h | h
  · exact .inl (by rw [h])
  · exact .inr (by rw [h]; rfl)

/-- **C120**: with memory, and an output that is not used or can be written to, the message. -/
theorem C120_sufficient (c : Call) (q : Plan) (h : plan c = some (.ok q)) (w : World) (hm : Memory w) (debug : Bool)
    (ho : debug = false ∨ Writable w) (n : Nat) : (q.runW w debug n).1 = c.result := by
  rw [C120_plan c _ h, runW_eq, if_pos (identitiesW_ok (fun n => hm n _ nofun) _ _), C120_any_sufficient w hm debug ho]
  rfl

/-- A RESET of the CS domain because of an O&M intervention. -/
def someReset : Call := .reset2 0 (some ⟨5, 113⟩) none

/-- Everything succeeds but what is tried as the third: memory for the list of elements, at the first element. -/
def noListAtFirst : World := fun n _ => n != 2

/-- The message, and the message without its first element. -/
theorem someReset_messages : someReset.result = .ok (some [0x00, 0x09, 0x00, 0x0d, 0x00, 0x00, 0x02, 0x00, 0x04, 0x40, 0x01, 0x40,
      0x00, 0x03, 0x00, 0x01, 0x00]) ∧
    (plan someReset).map (fun x => match x with
      | .ok q => (q.runW noListAtFirst false 0).1
      | .fault f => .fault f) =
      some (.ok (some [0x00, 0x09, 0x00, 0x08, 0x00, 0x00, 0x01, 0x00, 0x03, 0x00, 0x01, 0x00])) := by
  decide +kernel

/-- **C120** is violated: a message without its first element, although it is mandatory, is returned as if all were well. -/
theorem C120_violated : ¬ C120_full := by
  intro h
  obtain ⟨h1, h2⟩ := someReset_messages
  obtain ⟨q, hq⟩ : ∃ q, plan someReset = some (.ok q) := ⟨_, rfl⟩
  rw [hq] at h2
  simp only [Option.map_some, Option.some.injEq] at h2
  rcases h someReset q hq noListAtFirst false 0 with h | h
  · rw [h2] at h; cases h
  · rw [h2, h1] at h
    exact absurd h (by decide)

/-- **C120** is violated: without memory for the copy of an identity the process ends. -/
theorem C120_crash (w : World) (hi : ∀ n, w n .identity = false) (imsi : Bytes) (debug : Bool) (n : Nat) (q : Plan)
    (h : plan (.commonId (some imsi)) = some (.ok q) ∨ ∃ t p c, plan (.pagingCmd (some imsi) t p c) = some (.ok q)) :
    (q.runW w debug n).1 = .fault .nullDeref := by
  have hk : ∃ k, q.identities = k + 1 := by
    rcases h with h | ⟨t, p, c, h⟩
    · simp only [plan] at h
      cases hp : Factory.permanentId imsi with
      | fault f => rw [hp] at h; cases h
      | ok v => rw [hp] at h; cases h; exact ⟨0, rfl⟩
    · simp only [plan] at h
      cases hp : Factory.permanentId imsi with
      | fault f => rw [hp] at h; cases h
      | ok v =>
        rw [hp] at h
        cases h
        cases t with
        | none => exact ⟨0, rfl⟩
        | some t => exact ⟨1, rfl⟩
  obtain ⟨k, hk⟩ := hk
  rw [runW_eq, hk, if_neg]
  show ¬ ((attempt w .identity >>= _) n).1 = true
  rw [attempt_bind, hi]
  exact nofun

/-- There are such plans. -/
example : ((plan (.commonId (some [0x30, 0x30, 0x31, 0x30, 0x31, 0x31]))).map fun x => x.isOk) = some true ∧
    ((plan (.pagingCmd (some [0x30, 0x30, 0x31, 0x30, 0x31, 0x31]) (some 7) false 0)).map fun x => x.isOk) = some true := by
  decide +kernel

theorem decodeIesW_eq {α : Type} (w : World) (debug : Bool) (m : MsgDef) (any : Bytes) (μ : Mem α) (n : Nat) :
    let r := (decodeIesW w debug m any n).1
    let d := (decodeIes m any μ).1
    (r.1 = -1 ∨ r = (d.1, d.2.mask, d.2.vals)) ∧ ((∀ n, w n .decoded = true) → r = (d.1, d.2.mask, d.2.vals)) := by
  have hz : (m.zero.fields.map fun _ => (none : Option Val)) = m.zero.vals := by
    unfold Struct.vals MsgDef.zero
    simp
  unfold decodeIesW decodeIes
  simp only [hz]
  cases decode m.ty any with
  | none => exact ⟨.inl rfl, fun _ => rfl⟩
  | some v =>
    dsimp only
    cases elements v with
    | none => exact ⟨.inl rfl, fun _ => rfl⟩
    | some l =>
      dsimp only
      rw [attempt_bind]
      cases hw : w n .decoded with
      | false =>
        refine ⟨.inl rfl, fun h => ?_⟩
        rw [h n] at hw
        cases hw
      | true =>
        have := decodeRowsW_eq w debug m l m.zero (μ.alloc true).2 (n + 1)
        simp only [Bool.not_true, Bool.false_eq_true, if_false]
        have hmask : m.zero.mask = 0 := rfl
        rw [hmask] at this
        simp only [bind, StateT.bind, pure, StateT.pure] at this ⊢
        rcases hr : decodeRowsW w debug m l 0 m.zero.vals (n + 1) with ⟨⟨ok, mask, fs⟩, n'⟩
        rw [hr] at this
        obtain ⟨h1, h2⟩ := this
        refine ⟨?_, fun h => ?_⟩
        · rcases h1 with h1 | h1
          · left
            dsimp only at h1
            subst h1
            rfl
          · right
            simp only [Prod.mk.injEq] at h1 ⊢
            obtain ⟨e1, e2, e3⟩ := h1
            subst e1 e2 e3
            exact ⟨rfl, rfl, rfl⟩
        · have h1 := h2 h
          simp only [Prod.mk.injEq] at h1 ⊢
          obtain ⟨e1, e2, e3⟩ := h1
          subst e1 e2 e3
          exact ⟨rfl, rfl, rfl⟩

/-- **C120**, decoding a message of any protocol: -1, or what is decoded otherwise. -/
theorem C120_decode {α : Type} (w : World) (debug : Bool) (m : MsgDef) (any : Bytes) (μ : Mem α) (n : Nat) :
    let r := (decodeIesW w debug m any n).1
    let d := (decodeIes m any μ).1
    r.1 = -1 ∨ r = (d.1, d.2.mask, d.2.vals) := (decodeIesW_eq w debug m any μ n).1

/-- **C120**, **C121**, decoding: with memory it is what is decoded otherwise, whatever happens to the debug output. -/
theorem C121_decode {α : Type} (w : World) (hm : ∀ n, w n .decoded = true) (debug : Bool) (m : MsgDef) (any : Bytes) (μ : Mem α)
    (n : Nat) : let d := (decodeIes m any μ).1
    (decodeIesW w debug m any n).1 = (d.1, d.2.mask, d.2.vals) := (decodeIesW_eq w debug m any μ n).2 hm

/-- What is decoded of the RESET above. -/
example : ((decodeIes Gen.Ranap.resetIEs [0x00, 0x00, 0x02, 0x00, 0x04, 0x40, 0x01, 0x40,
    0x00, 0x03, 0x00, 0x01, 0x00] (Mem.init : Mem Unit)).1).1 = 0 := by decide +kernel

/-! ## C121 -/

/-- **C121**, full statement: whether debug output is on makes no difference to the messages that are made. -/
def C121_full : Prop := ∀ w, Memory w → ∀ (p : Proto) (present code crit : Nat) (m : MsgDef) (s : Struct) (n : Nat),
  (messageW w true p present code crit m s n).1 = (messageW w false p present code crit m s n).1

/-- **C121**: while it is off, nothing depends on whether the standard output can be written to. -/
theorem C121_off {w w' : World} (h : ∀ n x, x ≠ .output → w n x = w' n x) (p : Proto) (present code crit : Nat) (m : MsgDef)
    (s : Struct) (n : Nat) : (messageW w false p present code crit m s n).1 = (messageW w' false p present code crit m s n).1 := by
  rw [messageW_eq, messageW_eq]
  unfold encodeIesW
  rw [encodeRowsW_off h]
  cases (encodeRowsW w' false m.ies 0 s.mask s.fields 0 0 n).1 with
  | none => rfl
  | some l => simp only [generateW_eq, h _ .pdu nofun, h _ .buffer nofun]

/-- **C121**, the part that holds: no difference if the standard output can be written to. -/
theorem C121_writable_partial (w : World) (hm : Memory w) (ho : Writable w) (p : Proto) (present code crit : Nat) (m : MsgDef)
    (s : Struct) (n : Nat) :
    (messageW w true p present code crit m s n).1 = (messageW w false p present code crit m s n).1 := by
  rw [C120_any_sufficient w hm true (.inr ho), C120_any_sufficient w hm false (.inl rfl)]

/-- **C121**: if it is closed, as that of a daemon may be, no message is made any more but those without any element. -/
theorem C121_closed (w : World) (hm : Memory w) (ho : Closed w) (p : Proto) (present code crit : Nat) (m : MsgDef)
    (s : Struct) (n : Nat) : (messageW w true p present code crit m s n).1 =
      if encodeIes m s = some [] then message p present code crit m s else none := by
  rw [messageW_eq]
  unfold message encodeIesW encodeIes
  rw [encodeRowsW_closed ho]
  by_cases h : encodeRows m.ies 0 s.mask s.fields = some []
  · rw [if_pos h, if_pos h, h]
    simp only [generateW_eq]
    rw [if_pos ⟨hm _ _ nofun, hm _ _ nofun⟩]
    rfl
  · rw [if_neg h, if_neg h]

/-- **C121** is violated: with a closed standard output and debug output there is no RESET. -/
theorem C121_violated : ¬ C121_full := by
  intro h
  let w : World := fun _ x => x != .output
  have hm : Memory w := fun n x hx => by simpa [w] using hx
  have ho : Closed w := fun n => rfl
  obtain ⟨q, hq⟩ : ∃ q, plan someReset = some (.ok q) := ⟨_, rfl⟩
  have h1 := C120_plan someReset _ hq
  rw [someReset_messages.1] at h1
  have h2 : message .ranap q.present q.code q.crit q.msg q.ies ≠ none := by
    intro hn
    simp only [outcome, hn, reduceCtorEq, Res.ok.injEq] at h1
  have h3 := h w hm .ranap q.present q.code q.crit q.msg q.ies 0
  rw [C121_closed w hm ho, C120_any_sufficient w hm false (.inl rfl)] at h3
  split at h3
  · rename_i he
    cases hq
    exact absurd he (by decide +kernel)
  · exact h2 h3.symm

/-- Worlds with memory where the output can and cannot be written to. -/
example : ∃ w, Memory w ∧ Writable w := ⟨fun _ _ => true, fun _ _ _ => rfl, fun _ => rfl⟩
example : ∃ w, Memory w ∧ Closed w := ⟨fun _ x => x != .output, fun _ x hx => by simpa using hx, fun _ => rfl⟩
/-- A message without elements. -/
example : encodeIes Gen.Ranap.iu_ReleaseCompleteIEs Gen.Ranap.iu_ReleaseCompleteIEs.zero = some [] := by decide +kernel

/-! ## C122 -/

/-- The functions of rua_msg_factory.c, with a payload (without one, `rua_new_disc` only). -/
inductive RuaCall where
  | udt (p : Bytes)
  | conn (isPs : Bool) (ctx : BitVec 32) (p : Bytes)
  | dt (isPs : Bool) (ctx : BitVec 32) (p : Bytes)
  | disc (isPs : Bool) (ctx : BitVec 32) (p : Option Bytes)

/-- A call when something may fail. -/
def RuaCall.runW (w : World) (lax debug : Bool) : RuaCall → S (Res (Option Bytes))
  | .udt p => newUdtW w lax debug p
  | .conn i c p => newConnW w lax debug i c p
  | .dt i c p => newDtW w lax debug i c p
  | .disc i c p => newDiscW w lax debug i c p

/-- The message of a call, or NULL. -/
def ruaData : Res Rua.Run → Res (Option Bytes)
  | .ok r => .ok (r.msg.map (·.data))
  | .fault f => .fault f

/-- The call when nothing fails (`Model/Rua.lean`). -/
def RuaCall.result : RuaCall → Res (Option Bytes)
  | .udt p => ruaData (Rua.newUdt (some p))
  | .conn i c p => ruaData (Rua.newConn i c (some p))
  | .dt i c p => ruaData (Rua.newDt i c (some p))
  | .disc i c p => ruaData (Rua.newDisc i c p)

/-- The same call with an empty payload. -/
def RuaCall.emptied : RuaCall → RuaCall
  | .udt _ => .udt []
  | .conn i c _ => .conn i c []
  | .dt i c _ => .dt i c []
  | .disc i c p => .disc i c p

/-- **C122**, full statement: wrapping a RANAP message gives the RUA message or NULL, whatever fails. -/
def C122_full : Prop := ∀ (c : RuaCall) (w : World) (lax debug : Bool) (n : Nat),
  (c.runW w lax debug n).1 = .ok none ∨ (c.runW w lax debug n).1 = c.result

theorem ruaData_finish (code : Nat) (m : MsgDef) (s : Struct) (tr : List (Ev Unit)) : ruaData (Rua.finish code m s tr) =
    match encodeIes m s with
    | none => .ok none
    | some l => match Generate.generate .rua 1 code 0 m.ty (container l) with
      | none => .fault .nullDeref
      | some bs => .ok (some bs) := by
  unfold Rua.finish Generate.generate
  cases encodeIes m s with
  | none => rfl
  | some l =>
    dsimp only
    cases encode m.ty (container l) <;> rfl

/-- With room in the list, the value of the PDU and the buffer: NULL, or what there is without failures. -/
theorem ruaFinishW_partial (w : World) (hl : ∀ n, w n .list = true) (hp : ∀ n, w n .pdu = true) (hb : ∀ n, w n .buffer = true)
    (debug : Bool) (code : Nat) (m : MsgDef) (s : Struct) (tr : List (Ev Unit)) (n : Nat) :
    (ruaFinishW w debug code m s n).1 = .ok none ∨ (ruaFinishW w debug code m s n).1 = ruaData (Rua.finish code m s tr) := by
  rw [ruaFinishW_eq, ruaData_finish]
  cases h : (encodeIesW w debug m s n).1 with
  | none => exact .inl rfl
  | some kept =>
    obtain ⟨l, he, -, hk⟩ := encodeRowsW_kept w debug _ _ _ _ _ _ _ h
    refine .inr ?_
    simp only [generateW_eq, hp, hb, and_self, if_true]
    unfold encodeIes
    rw [he, hk hl]
    rfl

theorem ruaFinishW_ok (w : World) (hm : ∀ n x, x ≠ .output → x ≠ .copy → w n x = true) (debug : Bool)
    (ho : debug = false ∨ Writable w) (code : Nat) (m : MsgDef) (s : Struct) (tr : List (Ev Unit)) (n : Nat) :
    (ruaFinishW w debug code m s n).1 = ruaData (Rua.finish code m s tr) := by
  rw [ruaFinishW_eq, ruaData_finish]
  unfold encodeIesW encodeIes
  rw [encodeRowsW_ok (fun n => ⟨hm n _ nofun nofun, hm n _ nofun nofun, hm n _ nofun nofun⟩) ho]
  cases encodeRows m.ies 0 s.mask s.fields with
  | none => rfl
  | some l =>
    simp only [generateW_eq]
    rw [if_pos ⟨hm _ _ nofun nofun, hm _ _ nofun nofun⟩]
    rfl

theorem ruaFinishW_crash (w : World) (hm : ∀ n, w n .element = true ∧ w n .value = true ∧ w n .list = true)
    (hf : (∀ n, w n .pdu = false) ∨ ∀ n, w n .buffer = false) (debug : Bool) (ho : debug = false ∨ Writable w)
    (code : Nat) (m : MsgDef) (s : Struct) (tr : List (Ev Unit)) (n : Nat) {bs : Bytes}
    (h : ruaData (Rua.finish code m s tr) = .ok (some bs)) : (ruaFinishW w debug code m s n).1 = .fault .nullDeref := by
  rw [ruaData_finish] at h
  rw [ruaFinishW_eq]
  unfold encodeIesW
  unfold encodeIes at h
  rw [encodeRowsW_ok hm ho]
  cases he : encodeRows m.ies 0 s.mask s.fields with
  | none => rw [he] at h; cases h
  | some l =>
    simp only [generateW_eq]
    rw [if_neg]
    rcases hf with hf | hf <;> simp [hf]

/-- **C122**, the part that holds: if there is memory for the list of elements, for the value of the PDU and for the buffer of
the message, and for the copy of the payload where a string without a buffer is encoded as an empty one. -/
theorem C122_partial (c : RuaCall) (w : World) (lax debug : Bool) (hl : ∀ n, w n .list = true) (hp : ∀ n, w n .pdu = true)
    (hb : ∀ n, w n .buffer = true) (hc : lax = true → ∀ n, w n .copy = true) (n : Nat) :
    (c.runW w lax debug n).1 = .ok none ∨ (c.runW w lax debug n).1 = c.result := by
  have key : ∀ code m s p tr, (ruaPayloadW w lax debug code m s p n).1 = .ok none ∨
      (ruaPayloadW w lax debug code m s p n).1 = ruaData (Rua.finish code m (put m Rua.idRANAP_Message (.octets p) s) tr) := by
    intro code m s p tr
    rw [ruaPayloadW_eq]
    split
    · exact ruaFinishW_partial w hl hp hb debug code m _ tr _
    · rename_i h
      rw [if_neg fun hx => h (hc hx n)]
      exact .inl rfl
  cases c with
  | udt p => exact key ..
  | conn i x p => exact key ..
  | dt i x p => exact key ..
  | disc i x p =>
    cases p with
    | none => exact ruaFinishW_partial w hl hp hb debug ..
    | some p =>
      simp only [RuaCall.runW, RuaCall.result, newDiscW, Rua.newDisc]
      split
      · exact ruaFinishW_partial w hl hp hb debug ..
      · exact key ..

/-- **C122**: with memory, and an output that is not used or can be written to, the message. -/
theorem C122_sufficient (c : RuaCall) (w : World) (hm : Memory w) (lax debug : Bool) (ho : debug = false ∨ Writable w) (n : Nat) :
    (c.runW w lax debug n).1 = c.result := by
  have hf := ruaFinishW_ok w (fun n x h _ => hm n x h) debug ho
  have key : ∀ code m s p tr, (ruaPayloadW w lax debug code m s p n).1 =
      ruaData (Rua.finish code m (put m Rua.idRANAP_Message (.octets p) s) tr) := by
    intro code m s p tr
    rw [ruaPayloadW_eq, if_pos (hm n .copy nofun)]
    exact hf ..
  cases c with
  | udt p => exact key ..
  | conn i x p => exact key ..
  | dt i x p => exact key ..
  | disc i x p =>
    cases p with
    | none => exact hf ..
    | some p =>
      simp only [RuaCall.runW, RuaCall.result, newDiscW, Rua.newDisc]
      split
      · exact hf ..
      · exact key ..

/-- **C122**: where there would be a message the process ends if there is no memory for the value of the PDU, or for the buffer
of the message. -/
theorem C122_crash (c : RuaCall) {bs : Bytes} (h : c.result = .ok (some bs)) (w : World)
    (hm : ∀ n x, x ≠ .pdu → x ≠ .buffer → w n x = true) (hf : (∀ n, w n .pdu = false) ∨ ∀ n, w n .buffer = false)
    (lax debug : Bool) (n : Nat) : (c.runW w lax debug n).1 = .fault .nullDeref := by
  have hx := fun code m s tr n => @ruaFinishW_crash w
    (fun n => ⟨hm n _ nofun nofun, hm n _ nofun nofun, hm n _ nofun nofun⟩) hf debug
    (.inr fun n => hm n _ nofun nofun) code m s tr n bs
  have key : ∀ code m s p tr, ruaData (Rua.finish code m (put m Rua.idRANAP_Message (.octets p) s) tr) = .ok (some bs) →
      (ruaPayloadW w lax debug code m s p n).1 = .fault .nullDeref := by
    intro code m s p tr h
    rw [ruaPayloadW_eq, if_pos (hm n .copy nofun nofun)]
    exact hx _ _ _ _ _ h
  cases c with
  | udt p => exact key _ _ _ _ _ h
  | conn i x p => exact key _ _ _ _ _ h
  | dt i x p => exact key _ _ _ _ _ h
  | disc i x p =>
    cases p with
    | none => exact hx _ _ _ _ _ h
    | some p =>
      simp only [RuaCall.runW, RuaCall.result, newDiscW, Rua.newDisc] at h ⊢
      split at h
      · rename_i hl
        rw [if_pos hl]
        exact hx _ _ _ _ _ h
      · rename_i hl
        rw [if_neg hl]
        exact key _ _ _ _ _ h

/-- **C122**: where a string without a buffer is encoded as an empty one, and there is no memory for the copy of the payload,
the message is sent with an empty payload. -/
theorem C122_empty (c : RuaCall) (w : World) (hm : ∀ n x, x ≠ .copy → w n x = true) (hc : ∀ n, w n .copy = false) (debug : Bool)
    (n : Nat) (hd : ∀ i x p, c ≠ .disc i x p) : (c.runW w true debug n).1 = c.emptied.result := by
  have key : ∀ code m s p tr, (ruaPayloadW w true debug code m s p n).1 =
      ruaData (Rua.finish code m (put m Rua.idRANAP_Message (.octets []) s) tr) := by
    intro code m s p tr
    rw [ruaPayloadW_eq, if_neg (by simp [hc]), if_pos rfl]
    exact ruaFinishW_ok w (fun n x _ h => hm n x h) debug (.inr fun n => hm n _ nofun) ..
  cases c with
  | udt p => exact key ..
  | conn i x p => exact key ..
  | dt i x p => exact key ..
  | disc i x p => exact absurd rfl (hd i x p)

/-- A RANAP message in a DirectTransfer, and what is made of it without memory for the copy. -/
theorem someDt : (RuaCall.dt false 1 [0x20, 0x14]).result = .ok (some [0x00, 0x02, 0x00, 0x16, 0x00, 0x00, 0x03, 0x00, 0x07, 0x00,
      0x01, 0x00, 0x00, 0x03, 0x00, 0x03, 0x00, 0x00, 0x01, 0x00, 0x04, 0x00, 0x03, 0x02, 0x20, 0x14]) ∧
    (RuaCall.dt false 1 []).result = .ok (some [0x00, 0x02, 0x00, 0x14, 0x00, 0x00, 0x03, 0x00, 0x07, 0x00,
      0x01, 0x00, 0x00, 0x03, 0x00, 0x03, 0x00, 0x00, 0x01, 0x00, 0x04, 0x00, 0x01, 0x00]) := by
  decide +kernel

/-- **C122** is violated: without memory for the buffer of the message the process ends. -/
theorem C122_violated : ¬ C122_full := by
  intro h
  have h1 := C122_crash _ someDt.1 (fun _ x => x != .buffer) (fun n x _ hx => by simpa using hx) (.inr fun _ => rfl) false false 0
  rcases h (.dt false 1 [0x20, 0x14]) (fun _ x => x != .buffer) false false 0 with h | h
  · rw [h1] at h; cases h
  · rw [h1, someDt.1] at h; cases h

/-- A world of `C122_empty`, where the payload of the message above is lost. -/
example : ((RuaCall.dt false 1 [0x20, 0x14]).runW (fun _ x => x != .copy) true false 0).1 =
    .ok (some [0x00, 0x02, 0x00, 0x14, 0x00, 0x00, 0x03, 0x00, 0x07, 0x00,
      0x01, 0x00, 0x00, 0x03, 0x00, 0x03, 0x00, 0x00, 0x01, 0x00, 0x04, 0x00, 0x01, 0x00]) := by
  rw [C122_empty _ _ (fun n x h => by simpa using h) (fun _ => rfl) _ _ (fun _ _ _ h => by cases h)]
  exact someDt.2

end Verif.Props
