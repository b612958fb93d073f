import Verif.Proofs.ScarceRab
import Verif.Proofs.ScarcePart
import Verif.Props.ScarceSec
import Verif.Props.RabParams

/-!
# C124, C125: all messages of RANAP, and RAB assignments, when memory runs out
-/

namespace Verif.Props
open Verif.Aper Verif.Ie Verif.Ie.Spec Verif.Rx.Spec Verif.Wire Verif.Gen.Ranap Verif.Factory Verif.Factory.Spec Verif.Scarce
open Verif.Aper.Spec (fits fitsFields fitsAlt fitsOct fitsLen)
open Verif.Generate (Proto)

/-! ## C124 -/

/-- **C124**, full statement: a function that makes a message of RANAP returns the message or NULL, whatever fails. -/
def C124_full : Prop := ∀ (c : Call) (w : World) (lax debug : Bool) (n : Nat),
  (callW w lax debug c n).1 = .ok none ∨ (callW w lax debug c n).1 = c.result

theorem factory_generate_eq (direction code crit : Nat) (m : MsgDef) (s : Struct) :
    Factory.generate direction code crit m s = message .ranap direction code crit m s := by
  unfold Factory.generate message encodeMsg Generate.generate
  cases encodeIes m s <;> rfl

theorem rabAssign_message (first second : Val) : rabAssign first second =
    .ok (message .ranap 1 0 reject rAB_AssignmentRequestIEs (rabStruct [.list (newIePair idRAB_SetupOrModifyItem reject
      RANAP_RAB_SetupOrModifyItemFirst first ignore RANAP_RAB_SetupOrModifyItemSecond second).toList])) :=
  congrArg Res.ok (factory_generate_eq ..)

theorem relReqW_eq (w : World) (h : ∀ n, w n .part = true) (debug : Bool) (rab : Byte) (c : Cause) (n : Nat) : ∃ n1 n2,
    ((rabRelReqW w debug rab (some c)).res n).1 = .ok (match (encodeIesW w debug rAB_ReleaseItemIEs
        (put rAB_ReleaseItemIEs idRAB_ReleaseItem (.seq [some (rabId rab), some c.toVal, none]) rAB_ReleaseItemIEs.zero) n1).1 with
      | none => none
      | some l => (messageW w debug .ranap 1 10 ignore rAB_ReleaseRequestIEs
          (put rAB_ReleaseRequestIEs idRAB_ReleaseList (container l) rAB_ReleaseRequestIEs.zero) n2).1) := by
  obtain ⟨n1, e1⟩ := gives_rabId h rab n
  rw [res_apply]
  unfold rabRelReqW
  rw [pbind_apply, e1]
  dsimp only
  rw [pbind_apply, lift_apply]
  dsimp only
  refine ⟨n1, (encodeIesW w debug rAB_ReleaseItemIEs
    (put rAB_ReleaseItemIEs idRAB_ReleaseItem (.seq [some (rabId rab), some c.toVal, none]) rAB_ReleaseItemIEs.zero) n1).2, ?_⟩
  generalize encodeIesW w debug rAB_ReleaseItemIEs
    (put rAB_ReleaseItemIEs idRAB_ReleaseItem (.seq [some (rabId rab), some c.toVal, none]) rAB_ReleaseItemIEs.zero) n1 = x
  obtain ⟨_ | l, n2⟩ := x <;> rfl

/-- The structure of a Reset Resource. -/
def resourceStruct (domain : Nat) (c : Cause) (rnc : Option RncId) (l : List Ie) : Struct :=
  let m := resetResourceIEs
  let s := put m idCN_DomainIndicator (.enum domain) m.zero
  let s := put m idCause c.toVal s
  let s := put m idIuSigConIdList (container l) s
  match rnc with
  | some r => put m idGlobalRNC_ID r.toVal (setMask (present resetIEs idGlobalRNC_ID) s)
  | none => s

theorem resourceW_eq (w : World) (debug : Bool) (domain : Nat) (c : Cause) (id : BitVec 32) (rnc : Option RncId) (n : Nat) : ∃ n2,
    ((resetResourceW w debug domain (some c) (some [id]) rnc).res n).1 = .ok (match (encodeIesW w debug resetResourceItemIEs
        (put resetResourceItemIEs idIuSigConIdItem (.seq [some (.bits (u24Bits id)), none]) resetResourceItemIEs.zero) n).1 with
      | none => none
      | some l => (messageW w debug .ranap 1 27 reject resetResourceIEs (resourceStruct domain c rnc l) n2).1) := by
  rw [res_apply]
  unfold resetResourceW
  dsimp only
  rw [pbind_apply, lift_apply]
  dsimp only
  refine ⟨(encodeIesW w debug resetResourceItemIEs
    (put resetResourceItemIEs idIuSigConIdItem (.seq [some (.bits (u24Bits id)), none]) resetResourceItemIEs.zero) n).2, ?_⟩
  generalize encodeIesW w debug resetResourceItemIEs
    (put resetResourceItemIEs idIuSigConIdItem (.seq [some (.bits (u24Bits id)), none]) resetResourceItemIEs.zero) n = x
  obtain ⟨_ | l, n2⟩ := x
  · rfl
  · cases rnc <;> rfl

/-- What becomes of it if a failure is noticed: NULL; otherwise the message. -/
theorem items_cases {w : World} (hl : ∀ n, w n .list = true) (debug : Bool) (mi : MsgDef) (item : Struct) (code crit : Nat)
    (m : MsgDef) (s : List Ie → Struct) (n1 n2 : Nat) :
    let x : Option Bytes := match (encodeIesW w debug mi item n1).1 with
      | none => none
      | some l => (messageW w debug .ranap 1 code crit m (s l) n2).1
    x = none ∨ x = match encodeIes mi item with
      | none => none
      | some l => Factory.generate 1 code crit m (s l) := by
  dsimp only
  cases h : (encodeIesW w debug mi item n1).1 with
  | none => exact .inl rfl
  | some kept =>
    obtain ⟨l, he, -, hk⟩ := encodeRowsW_kept w debug _ _ _ _ _ _ _ h
    have he' : encodeIes mi item = some l := he
    rw [he', hk hl]
    dsimp only
    rw [factory_generate_eq]
    exact C120_none_or_message w hl debug .ranap 1 code crit m (s l) n2

theorem items_ok {w : World} (hm : Memory w) (debug : Bool) (ho : debug = false ∨ Writable w) (mi : MsgDef) (item : Struct)
    (code crit : Nat) (m : MsgDef) (s : List Ie → Struct) (n1 n2 : Nat) :
    (match (encodeIesW w debug mi item n1).1 with
      | none => none
      | some l => (messageW w debug .ranap 1 code crit m (s l) n2).1) = match encodeIes mi item with
      | none => none
      | some l => Factory.generate 1 code crit m (s l) := by
  have : (encodeIesW w debug mi item n1).1 = encodeIes mi item :=
    encodeRowsW_ok (fun n => ⟨hm n _ nofun, hm n _ nofun, hm n _ nofun⟩) ho ..
  rw [this]
  cases encodeIes mi item with
  | none => rfl
  | some l =>
    dsimp only
    rw [factory_generate_eq]
    exact C120_any_sufficient w hm debug ho .ranap 1 code crit m (s l) n2

theorem relReq_eq (rab : Byte) (c : Cause) : rabRelReq rab (some c) = .ok (match encodeIes rAB_ReleaseItemIEs
        (put rAB_ReleaseItemIEs idRAB_ReleaseItem (.seq [some (rabId rab), some c.toVal, none]) rAB_ReleaseItemIEs.zero) with
      | none => none
      | some l => Factory.generate 1 10 ignore rAB_ReleaseRequestIEs
          (put rAB_ReleaseRequestIEs idRAB_ReleaseList (container l) rAB_ReleaseRequestIEs.zero)) := by
  unfold rabRelReq
  dsimp only
  generalize encodeIes rAB_ReleaseItemIEs _ = x
  cases x <;> rfl

theorem resource_eq (domain : Nat) (c : Cause) (id : BitVec 32) (rnc : Option RncId) :
    resetResource domain (some c) (some [id]) rnc = .ok (match encodeIes resetResourceItemIEs
        (put resetResourceItemIEs idIuSigConIdItem (.seq [some (.bits (u24Bits id)), none]) resetResourceItemIEs.zero) with
      | none => none
      | some l => Factory.generate 1 27 reject resetResourceIEs (resourceStruct domain c rnc l)) := by
  unfold resetResource
  dsimp only
  generalize encodeIes resetResourceItemIEs _ = x
  cases x with
  | none => rfl
  | some l => cases rnc <;> rfl

/-- Carrying out a plan, if there is one. -/
def carryOut (w : World) (debug : Bool) : Res Plan → S (Res (Option Bytes))
  | .ok q => q.runW w debug
  | .fault f => pure (.fault f)

/-- A call as planned. -/
theorem callW_plan {c : Call} {x : Res Plan} (h : plan c = some x) (w : World) (lax debug : Bool) :
    callW w lax debug c = carryOut w debug x := by
  cases c <;> first
    | (cases h; done)
    | (simp only [callW]; rw [h]; cases x <;> rfl)

/-- **C124**: with memory, and an output that is not used or can be written to, all functions return their message. -/
theorem C124_sufficient (c : Call) (w : World) (hm : Memory w) (lax debug : Bool) (ho : debug = false ∨ Writable w) (n : Nat) :
    (callW w lax debug c n).1 = c.result := by
  have planned : ∀ x, plan c = some x → (callW w lax debug c n).1 = c.result := by
    intro x hx
    rw [callW_plan hx]
    cases x with
    | ok q => exact C120_sufficient c q hx w hm debug ho n
    | fault f => exact (C120_plan c _ hx).symm
  have hp : ∀ n, w n .part = true := fun n => hm n _ nofun
  have hl : ∀ n, w n .parts = true := fun n => hm n _ nofun
  have hs : ∀ n, w n .string = true := fun n => hm n _ nofun
  have assign : ∀ first second n, (Res.ok (rabAssignW w debug first second n).1) = rabAssign first second := by
    intro first second n
    obtain ⟨n', l, h1, -, h2⟩ := rabAssignW_cases w debug first second n
    rw [h1, h2 (fun n => hm n _ nofun) (fun n => hm n _ nofun) ho hp hl, rabAssign_message, C120_any_sufficient w hm debug ho]
  cases c with
  | secModCmd2 ik ck st uia uea => exact C123_sufficient w hm debug ho ik ck st uia uea n
  | rabAssignVoice rab ip port x213 =>
    obtain ⟨n', h⟩ := voice_parts hp hl hs debug rab ip port x213 n
    exact h.trans (assign _ _ _)
  | rabAssignData rab ip tei x213 =>
    obtain ⟨n', h⟩ := data_parts hp hl hs lax debug rab ip tei x213 n
    exact h.trans (assign _ _ _)
  | rabRelReq rab cause =>
    cases cause with
    | none =>
      obtain ⟨n1, e1⟩ := gives_rabId hp rab n
      show ((rabRelReqW w debug rab none).res n).1 = _
      rw [res_apply]
      unfold rabRelReqW
      rw [pbind_apply, e1]
      rfl
    | some c =>
      obtain ⟨n1, n2, h⟩ := relReqW_eq w hp debug rab c n
      refine h.trans ((congrArg Res.ok (items_ok hm debug ho _ _ _ _ _
        (fun l => put rAB_ReleaseRequestIEs idRAB_ReleaseList (container l) rAB_ReleaseRequestIEs.zero) n1 n2)).trans ?_)
      exact (relReq_eq rab c).symm
  | resetResource d cause ids rnc =>
    cases ids with
    | none => cases cause <;> rfl
    | some ids =>
      cases cause with
      | none => cases ids with
        | nil => rfl
        | cons a l => cases l <;> rfl
      | some c =>
        match ids with
        | [] => rfl
        | _ :: _ :: _ => rfl
        | [id] =>
          obtain ⟨n2, h⟩ := resourceW_eq w debug d c id rnc n
          exact h.trans ((congrArg Res.ok (items_ok hm debug ho _ _ _ _ _ (resourceStruct d c rnc) n n2)).trans
            (resource_eq d c id rnc).symm)
  | reset2 => exact planned _ rfl
  | resetAck => exact planned _ rfl
  | errorInd => exact planned _ rfl
  | initialUe i p r nas => cases r <;> exact planned _ rfl
  | dt => exact planned _ rfl
  | secModCompl => exact planned _ rfl
  | commonId i => cases i <;> exact planned _ rfl
  | iuRelCmd c => cases c <;> exact planned _ rfl
  | iuRelCompl => exact planned _ rfl
  | pagingCmd i => cases i <;> exact planned _ rfl
  | iuRelReq c => cases c <;> exact planned _ rfl

/-- RAB assignment requests. -/
def Assigns : Call → Prop
  | .rabAssignVoice .. => True
  | .rabAssignData .. => True
  | _ => False

/-- What is noticed if it fails: memory for the value of the message and for its buffer; and, except in RAB assignment requests,
memory for an element and its value, and writing to the debug output. -/
def Noticed (c : Call) (x : What) : Prop :=
  x = .pdu ∨ x = .buffer ∨ (¬ Assigns c ∧ (x = .element ∨ x = .value ∨ x = .output))

/-- **C124**, the part that holds: if only such things fail that are noticed. -/
theorem C124_partial (c : Call) (w : World) (h : ∀ n x, ¬ Noticed c x → w n x = true) (lax debug : Bool) (n : Nat) :
    (callW w lax debug c n).1 = .ok none ∨ (callW w lax debug c n).1 = c.result := by
  have hlist : ∀ n, w n .list = true := fun n => h n _ (by simp [Noticed])
  have hp : ∀ n, w n .part = true := fun n => h n _ (by simp [Noticed])
  have hl : ∀ n, w n .parts = true := fun n => h n _ (by simp [Noticed])
  have hs : ∀ n, w n .string = true := fun n => h n _ (by simp [Noticed])
  have planned : ∀ x, plan c = some x → (callW w lax debug c n).1 = .ok none ∨ (callW w lax debug c n).1 = c.result := by
    intro x hx
    rw [callW_plan hx]
    cases x with
    | ok q => exact C120_partial c q hx w hlist (fun n => h n _ (by simp [Noticed])) debug n
    | fault f => exact .inr (C120_plan c _ hx).symm
  have assign : Assigns c → ∀ first second n, (Res.ok (rabAssignW w debug first second n).1) = .ok none ∨
      (Res.ok (rabAssignW w debug first second n).1) = rabAssign first second := by
    intro hc first second n
    obtain ⟨n', l, h1, -, h2⟩ := rabAssignW_cases w debug first second n
    rw [h1, h2 (fun n => h n _ (by simp [Noticed, hc])) (fun n => h n _ (by simp [Noticed, hc]))
      (.inr fun n => h n _ (by simp [Noticed, hc])) hp hl, rabAssign_message]
    rcases C120_none_or_message w hlist debug .ranap 1 0 reject rAB_AssignmentRequestIEs (rabStruct _) n' with g | g
    · exact .inl (congrArg Res.ok g)
    · exact .inr (congrArg Res.ok g)
  cases c with
  | secModCmd2 ik ck st uia uea =>
    obtain ⟨n1, n2, n3, n4, e⟩ := secModW_eq w debug ik ck st uia uea n
    show (secModCmd2W w debug ik ck st uia uea n).1 = _ ∨ (secModCmd2W w debug ik ck st uia uea n).1 = secModCmd2 ik ck st uia uea
    rw [e, secMod_eq]
    have ha : ∀ n, w n .algorithm = true := fun n => h n _ (by simp [Noticed])
    have hb : ∀ n, w n .algorithms = true := fun n => h n _ (by simp [Noticed])
    obtain ⟨s1, h1⟩ := algorithmsW_ok w ha hb uia 0 1 8 n
    obtain ⟨s2, h2⟩ := algorithmsW_ok w ha hb uea 1 2 8 n2
    have hk : ∀ k n, (keyW w k n).1 = keyBits k := by
      intro k n
      rw [keyW_eq, if_neg]
      rintro ⟨-, g⟩
      rw [h n .key (by simp [Noticed])] at g
      cases g
    have fin : ∀ s n', (Res.ok (messageW w debug .ranap 1 6 reject securityModeCommandIEs s n').1) = .ok none ∨
        (Res.ok (messageW w debug .ranap 1 6 reject securityModeCommandIEs s n').1) =
          .ok (message .ranap 1 6 reject securityModeCommandIEs s) := by
      intro s n'
      rcases C120_none_or_message w hlist debug .ranap 1 6 reject securityModeCommandIEs s n' with g | g
      · exact .inl (congrArg Res.ok g)
      · exact .inr (congrArg Res.ok g)
    rw [h1]
    cases algorithms uia 0 1 8 with
    | none => exact .inl rfl
    | some ia =>
      simp only [Option.map_some, hk]
      cases keyBits ik with
      | fault f => exact .inr rfl
      | ok ikBits =>
        cases ck with
        | none => exact fin _ _
        | some k =>
          simp only [h2]
          cases algorithms uea 1 2 8 with
          | none => exact .inl rfl
          | some ea =>
            simp only [Option.map_some, hk]
            cases keyBits (some k) with
            | fault f => exact .inr rfl
            | ok ckBits => exact fin _ _
  | rabAssignVoice rab ip port x213 =>
    obtain ⟨n', e⟩ := voice_parts hp hl hs debug rab ip port x213 n
    show ((rabAssignVoiceW w debug rab ip port x213).res n).1 = _ ∨ ((rabAssignVoiceW w debug rab ip port x213).res n).1 = _
    rw [e]
    exact assign trivial _ _ _
  | rabAssignData rab ip tei x213 =>
    obtain ⟨n', e⟩ := data_parts hp hl hs lax debug rab ip tei x213 n
    show ((rabAssignDataW w lax debug rab ip tei x213).res n).1 = _ ∨ ((rabAssignDataW w lax debug rab ip tei x213).res n).1 = _
    rw [e]
    exact assign trivial _ _ _
  | rabRelReq rab cause =>
    cases cause with
    | none =>
      right
      obtain ⟨n1, e1⟩ := gives_rabId hp rab n
      show ((rabRelReqW w debug rab none).res n).1 = _
      rw [res_apply]
      unfold rabRelReqW
      rw [pbind_apply, e1]
      rfl
    | some c =>
      obtain ⟨n1, n2, e⟩ := relReqW_eq w hp debug rab c n
      show ((rabRelReqW w debug rab (some c)).res n).1 = _ ∨ ((rabRelReqW w debug rab (some c)).res n).1 = rabRelReq rab (some c)
      rw [e, relReq_eq]
      rcases items_cases hlist debug rAB_ReleaseItemIEs
        (put rAB_ReleaseItemIEs idRAB_ReleaseItem (.seq [some (rabId rab), some c.toVal, none]) rAB_ReleaseItemIEs.zero)
        10 ignore rAB_ReleaseRequestIEs
        (fun l => put rAB_ReleaseRequestIEs idRAB_ReleaseList (container l) rAB_ReleaseRequestIEs.zero) n1 n2 with g | g
      · exact .inl (congrArg Res.ok g)
      · exact .inr (congrArg Res.ok g)
  | resetResource d cause ids rnc =>
    cases ids with
    | none => right; cases cause <;> rfl
    | some ids =>
      cases cause with
      | none => right; cases ids with
        | nil => rfl
        | cons a l => cases l <;> rfl
      | some c =>
        match ids with
        | [] => exact .inl rfl
        | _ :: _ :: _ => exact .inl rfl
        | [id] =>
          obtain ⟨n2, e⟩ := resourceW_eq w debug d c id rnc n
          show ((resetResourceW w debug d (some c) (some [id]) rnc).res n).1 = _ ∨
            ((resetResourceW w debug d (some c) (some [id]) rnc).res n).1 = resetResource d (some c) (some [id]) rnc
          rw [e, resource_eq]
          rcases items_cases hlist debug resetResourceItemIEs
            (put resetResourceItemIEs idIuSigConIdItem (.seq [some (.bits (u24Bits id)), none]) resetResourceItemIEs.zero)
            27 reject resetResourceIEs (resourceStruct d c rnc) n n2 with g | g
          · exact .inl (congrArg Res.ok g)
          · exact .inr (congrArg Res.ok g)
  | reset2 => exact planned _ rfl
  | resetAck => exact planned _ rfl
  | errorInd => exact planned _ rfl
  | initialUe i p r nas => cases r <;> exact planned _ rfl
  | dt => exact planned _ rfl
  | secModCompl => exact planned _ rfl
  | commonId i => cases i <;> exact planned _ rfl
  | iuRelCmd c => cases c <;> exact planned _ rfl
  | iuRelCompl => exact planned _ rfl
  | pagingCmd i => cases i <;> exact planned _ rfl
  | iuRelReq c => cases c <;> exact planned _ rfl

/-- One attempt fails, all others succeed. -/
def failsAt (k : Nat) : World := fun n _ => n != k

/-- A cause. -/
def oam : Cause := ⟨5, 113⟩

/-- A world in which only a part that is not looked at fails. -/
example : ∀ n x, ¬ Noticed (.resetResource 1 (some oam) (some [77]) none) x → (fun (n : Nat) (x : What) => n != 1 || x != .value) n x = true := by
  intro n x h
  cases x <;> first | (simp; done) | exact absurd (by simp [Noticed, Assigns]) h

/-- **C124 is violated**: a Reset Resource without items, a RAB Release Request without RABs. -/
theorem C124_lost :
    (callW (failsAt 2) true false (.resetResource 1 (some oam) (some [77]) none) 0).1 =
      .ok (some [0x00, 0x1b, 0x00, 0x14, 0x00, 0x00, 0x03, 0x00, 0x03, 0x00, 0x01, 0x80, 0x00, 0x04, 0x40, 0x01, 0x40, 0x00, 0x4d,
        0x40, 0x03, 0x00, 0x00, 0x00]) ∧
    (callW (failsAt 3) true false (.rabRelReq 1 (some oam)) 0).1 =
      .ok (some [0x00, 0x0a, 0x40, 0x0a, 0x00, 0x00, 0x01, 0x00, 0x29, 0x40, 0x03, 0x00, 0x00, 0x00]) := by
  constructor <;> decide +kernel

theorem C124_violated : ¬ C124_full := by
  intro h
  have h1 : (Call.rabRelReq 1 (some oam)).result ≠
      .ok (some [0x00, 0x0a, 0x40, 0x0a, 0x00, 0x00, 0x01, 0x00, 0x29, 0x40, 0x03, 0x00, 0x00, 0x00]) := by decide +kernel
  rcases h (.rabRelReq 1 (some oam)) (failsAt 3) true false 0 with g | g
  · rw [C124_lost.2] at g; cases g
  · rw [C124_lost.2] at g; exact h1 g.symm

/-- **C124 is violated**: without memory for the first part, the process ends. -/
theorem C124_crash (w : World) (n : Nat) (h : w n .part = false) (lax debug : Bool) (rab : Byte) :
    (∀ ip port x213, (callW w lax debug (.rabAssignVoice rab ip port x213) n).1 = .fault .nullDeref) ∧
    (∀ ip tei x213, (callW w lax debug (.rabAssignData rab ip tei x213) n).1 = .fault .nullDeref) ∧
    ∀ cause, (callW w lax debug (.rabRelReq rab cause) n).1 = .fault .nullDeref := by
  have e : rabIdW w rab n = (.error .nullDeref, n + 1) := by
    unfold rabIdW need
    rw [pbind_apply, pbind_apply, lift_apply]
    unfold attempt
    simp only [h]
    rfl
  refine ⟨fun ip port x213 => ?_, fun ip tei x213 => ?_, fun cause => ?_⟩
  · show ((rabAssignVoiceW w debug rab ip port x213).res n).1 = _
    rw [res_apply]
    unfold rabAssignVoiceW
    rw [pbind_apply, e]
  · show ((rabAssignDataW w lax debug rab ip tei x213).res n).1 = _
    rw [res_apply]
    unfold rabAssignDataW
    rw [pbind_apply, e]
  · show ((rabRelReqW w debug rab cause).res n).1 = _
    rw [res_apply]
    unfold rabRelReqW
    rw [pbind_apply, e]

example : failsAt 0 0 .part = false := rfl

/-! ## C125 -/

/-- **C125**, full statement: whatever fails, a RAB assignment request that is made asks for the RAB it was to ask for. -/
def C125_full : Prop := ∀ (w : World) (lax debug : Bool) (n : Nat) (rab : Byte) (ip : BitVec 32) (x213 : Bool) (bs : Bytes),
  (∀ port, (callW w lax debug (.rabAssignVoice rab ip port x213) n).1 = .ok (some bs) →
    AsksFor bs rab (some 6) amr122 (userPlane true 1) (fun t => IsTransport t (.inet (msb ip) 0) x213 1
      [port.extractLsb' 8 8, port.extractLsb' 0 8, 0, 0]) noData) ∧
  (∀ tei, (callW w lax debug (.rabAssignData rab ip tei x213) n).1 = .ok (some bs) →
    AsksFor bs rab none background (userPlane false 1) (fun t => IsTransport t (.inet (msb ip) 0) x213 0 (msb tei).toList) ipv4Data)

/-- What is made of a message: that it asks for no RAB, in two ways, or for one. -/
theorem assignW_says (w : World) (debug : Bool) {first second : Val}
    (l1 : maxBits RANAP_RAB_SetupOrModifyItemFirst first ≤ 1612)
    (l2 : maxBits RANAP_RAB_SetupOrModifyItemSecond second ≤ 800) (n : Nat) :
    (rabAssignW w debug first second n).1 = none ∨ ∃ bs, (rabAssignW w debug first second n).1 = some bs ∧
      (Says bs 1 0 [] ∨ Says bs 1 0 [(54, .list [.list []])] ∨
        (fits RANAP_RAB_SetupOrModifyItemFirst first = true ∧ Requests bs first second)) := by
  obtain ⟨n', l, h1, h2, -⟩ := rabAssignW_cases w debug first second n
  rw [h1]
  have hc : ∀ l, contents rAB_AssignmentRequestIEs (rabStruct l) = some [(rAB_AssignmentRequestIEs.ies[0], .list l)] := by
    intro l
    with_unfolding_all rfl
  have one : ∀ {l : List Val} {c' : List (IeDef × Val)}, c'.Sublist [(rAB_AssignmentRequestIEs.ies[0], .list l)] →
      wanted c' = [] ∨ wanted c' = [(54, .list l)] := by
    intro l c' h
    rcases List.sublist_cons_iff.1 h with g | ⟨r, rfl, g⟩ <;> obtain rfl := List.sublist_nil.1 g
    · exact .inl rfl
    · exact .inr rfl
  rcases messageW_says is_rAB_AssignmentRequestIEs (hc l) w debug n' with h | ⟨bs, c', hb, hs, hfit, -, hsays⟩
  · exact .inl h
  · refine .inr ⟨bs, hb, ?_⟩
    rcases h2 with rfl | rfl | ⟨p, hp, rfl⟩
    · have : allFit [(rAB_AssignmentRequestIEs.ies[0], .list [])] = false := by with_unfolding_all rfl
      rw [this] at hfit
      cases hfit
    · have := hsays (by decide +kernel)
      rcases one hs with e | e <;> rw [e] at this
      · exact .inl this
      · exact .inr (.inl this)
    · unfold newIePair at hp
      cases e1 : encode RANAP_RAB_SetupOrModifyItemFirst first with
      | none => simp [e1] at hp
      | some b1 =>
        cases e2 : encode RANAP_RAB_SetupOrModifyItemSecond second with
        | none => simp [e1, e2] at hp
        | some b2 =>
          have hp' : p = .seq [some (.int 53), some (.enum 0), some (.octets b1), some (.enum 1), some (.octets b2)] := by
            simp only [e1, e2] at hp
            exact (Option.some.inj hp).symm
          subst hp'
          have n1 := encode_length (t := RANAP_RAB_SetupOrModifyItemFirst) (by decide) e1
          have n2 := encode_length (t := RANAP_RAB_SetupOrModifyItemSecond) (by decide) e2
          have hm : maxBits RANAP_RAB_SetupOrModifyList (.list [.list [.seq [some (.int 53), some (.enum 0), some (.octets b1),
              some (.enum 1), some (.octets b2)]]]) =
              sBits (some ⟨1, 256, false⟩) + ((sBits (some ⟨0, 65535, false⟩) + ((1 + 5 + (maxBits RANAP_ProtocolIE_ID (.int 0) +
                (maxBits RANAP_Criticality (.enum 0) + (octBits b1.length + (maxBits RANAP_Criticality (.enum 0) +
                  (octBits b2.length + 0)))))) + 0)) + 0) := rfl
          have c1 : sBits (some ⟨1, 256, false⟩) ≤ 100 := by decide
          have c2 : sBits (some ⟨0, 65535, false⟩) ≤ 100 := by decide
          have c3 : maxBits RANAP_ProtocolIE_ID (.int 0) ≤ 100 := by decide
          have c4 : maxBits RANAP_Criticality (.enum 0) ≤ 100 := by decide
          have := hsays (by
            simp only [bound, rAB_AssignmentRequestIEs, List.getElem_cons_zero]
            rw [hm]
            unfold openOcts at *
            unfold octBits
            omega)
          rcases one hs with e | e <;> rw [e] at this
          · exact .inl this
          · refine .inr (.inr ⟨?_, b1, b2, this, decode_encode (by decide) e1, decode_encode (by decide) e2⟩)
            have := encode_isSome (t := RANAP_RAB_SetupOrModifyItemFirst) (by decide) first
            rw [e1] at this
            exact this.symm

/-- The end of the process by a null pointer, NULL, or a message. -/
def Made (r : Res (Option Bytes)) (Q : Bytes → Prop) : Prop :=
  r = .fault .nullDeref ∨ r = .ok none ∨ ∃ bs, r = .ok (some bs) ∧ Q bs

theorem made_of_yields {x : P (Option Bytes)} {Q : Bytes → Prop} (h : Yields x fun o => ∀ bs ∈ o, Q bs) (n : Nat) :
    Made (x.res n).1 Q := by
  rw [res_apply]
  have := h n
  generalize x n = y at this ⊢
  obtain ⟨f | o, n'⟩ := y
  · dsimp only at this ⊢
    subst this
    exact .inl rfl
  · cases o with
    | none => exact .inr (.inl rfl)
    | some bs => exact .inr (.inr ⟨bs, rfl, this bs rfl⟩)

theorem first_bits (rab : Byte) {nas : Option Val} {par up t : Val}
    (hn : ∀ v ∈ nas, maxBits RANAP_NAS_SynchronisationIndicator v ≤ 20) (hp : maxBits RANAP_RAB_Parameters par ≤ 800)
    (hu : maxBits RANAP_UserPlaneInformation up ≤ 60) (ht : maxBits RANAP_TransportLayerInformation t ≤ 700) :
    maxBits RANAP_RAB_SetupOrModifyItemFirst
      (.seq [some (.bits (octetsBits [rab])), nas, some par, some up, some t, none, none]) ≤ 1612 := by
  have hr' : maxBits RANAP_RAB_ID (.bits (octetsBits [rab])) ≤ 24 := Nat.le_of_ble_eq_true (by with_unfolding_all rfl)
  cases nas with
  | none =>
    simp only [RANAP_RAB_SetupOrModifyItemFirst, maxBits, maxFields, List.length_cons, List.length_nil]
    omega
  | some v =>
    have := hn v rfl
    simp only [RANAP_RAB_SetupOrModifyItemFirst, maxBits, maxFields, List.length_cons, List.length_nil]
    omega

theorem transport_part (a : Bytes) (alt : Nat) (o : Bytes) (halt : alt = 0 ∨ alt = 1) :
    maxBits RANAP_TransportLayerInformation (transport a alt []) ≤ maxBits RANAP_TransportLayerInformation (transport a alt o) := by
  have hm : ∀ o, maxBits RANAP_TransportLayerInformation (transport a alt o) =
        1 + 3 + ((sBits (some ⟨1, 160, true⟩) + 7 + (octetsBits a).length) +
          (maxBits RANAP_IuTransportAssociation (.choice alt (.octets o)) + 0)) := fun _ => rfl
  have h0 : ∀ o, maxBits RANAP_IuTransportAssociation (.choice 0 (.octets o)) =
      max (1 + consBits 2 + (sBits (some ⟨4, 4, false⟩) + 8 + octBits o.length)) (8 + octBits (openOcts 0)) := fun _ => rfl
  have h1 : ∀ o, maxBits RANAP_IuTransportAssociation (.choice 1 (.octets o)) =
      max (1 + consBits 2 + (sBits (some ⟨4, 4, false⟩) + 8 + octBits o.length)) (8 + octBits (openOcts 0)) := fun _ => rfl
  rw [hm, hm]
  rcases halt with rfl | rfl
  · rw [h0, h0]; unfold octBits; simp only [List.length_nil]; omega
  · rw [h1, h1]; unfold octBits; simp only [List.length_nil]; omega

/-- Without the octets of the association, or of the NAS synchronisation indicator, the item is not encoded. -/
theorem no_octets {rab nas par up rest} {a : Bytes} {alt : Nat} (halt : alt = 0 ∨ alt = 1)
    (h : fits RANAP_RAB_SetupOrModifyItemFirst (.seq (rab :: nas :: some par :: some up :: some (transport a alt []) :: rest)) = true) :
    False := by
  have : fits RANAP_TransportLayerInformation (transport a alt []) = false := by
    rcases halt with rfl | rfl <;>
      simp [transport, RANAP_TransportLayerInformation, RANAP_TransportLayerAddress, RANAP_IuTransportAssociation,
        RANAP_GTP_TEI, RANAP_BindingID, fits, fitsFields, fitsAlt, fitsLen, fitsOct, Fields.length]
  cases rab <;> cases nas <;> simp [RANAP_RAB_SetupOrModifyItemFirst, fits, fitsFields, this] at h

theorem no_sync {rab rest} (h : fits RANAP_RAB_SetupOrModifyItemFirst (.seq (rab :: some (.bits []) :: rest)) = true) : False := by
  have : fits RANAP_NAS_SynchronisationIndicator (.bits []) = false := rfl
  cases rab <;> simp [RANAP_RAB_SetupOrModifyItemFirst, fits, fitsFields, this] at h

/-- **C125**, what holds, for speech: whatever fails, a RAB assignment request that is made asks for no RAB, or for the one with this
id, address and port; and of its parameters nothing is altered, but there may be some missing. -/
theorem C125_voice_partial (w : World) (lax debug : Bool) (n : Nat) (rab : Byte) (ip : BitVec 32) (port : BitVec 16) (x213 : Bool) :
    Made (callW w lax debug (.rabAssignVoice rab ip port x213) n).1 fun bs =>
      Says bs 1 0 [] ∨ Says bs 1 0 [(54, .list [.list []])] ∨
      AsksForPart bs rab (some 6) amr122 (userPlane true 1) (fun t => IsTransport t (.inet (msb ip) 0) x213 1
        [port.extractLsb' 8 8, port.extractLsb' 0 8, 0, 0]) noData := by
  refine made_of_yields (x := rabAssignVoiceW w debug rab ip port x213) ?_ n
  obtain ⟨tla, h1, h2, h3, h4⟩ := transp_format (htonlAddr ip) port x213
  refine (yields_rabId w rab).bind ?_
  rintro _ rfl
  refine (yields_nas w 60).bind fun nas hnas => (yields_parVoice w 6700 12200).bind fun par hpar => (yields_upi w 1 1).bind ?_
  rintro _ rfl
  refine (yields_rtp w _ _ _ h1).bind fun t ht => .lift fun n bs hbs => ?_
  have htv : t.map transpVal = some (transport tla.buf 1 []) ∨
      t.map transpVal = some (transport tla.buf 1 [port.extractLsb' 8 8, port.extractLsb' 0 8, 0, 0]) := by
    rcases ht with rfl | rfl
    · left
      simp only [Option.map_some, transpVal, bitsOf_whole tla h2]
      rfl
    · right
      simp only [Option.map_some, transpVal, bitsOf_whole tla h2]
      rfl
  have hpb : maxBits RANAP_RAB_Parameters par ≤ 800 := Nat.le_trans (maxBits_part hpar _) par_voice.2
  have htf := (transport_fits (alt := 1) (o := [port.extractLsb' 8 8, port.extractLsb' 0 8, 0, 0]) (format_len h3 h4) rfl (by decide)).2
  have hnb : ∀ v ∈ nas, maxBits RANAP_NAS_SynchronisationIndicator v ≤ 20 := by
    rcases hnas with rfl | rfl | rfl
    · nofun
    · rintro _ ⟨⟩; decide +kernel
    · rintro _ ⟨⟩; exact nas_sync.2
  obtain ⟨tv, e, htv⟩ : ∃ tv, t.map transpVal = some tv ∧ (tv = transport tla.buf 1 [] ∨ tv = transport tla.buf 1 [port.extractLsb' 8 8, port.extractLsb' 0 8, 0, 0]) := by
    rcases htv with e | e
    · exact ⟨_, e, .inl rfl⟩
    · exact ⟨_, e, .inr rfl⟩
  rw [e] at hbs
  replace hbs : _ = some bs := hbs
  have htb : maxBits RANAP_TransportLayerInformation tv ≤ 700 := by
    rcases htv with rfl | rfl
    · exact Nat.le_trans (transport_part _ _ _ (.inr rfl)) htf
    · exact htf
  rcases assignW_says w debug (first_bits rab hnb hpb upi_voice.2 htb) (second := .seq [none, none, none, none, none, none, none])
    (by decide) n with h | ⟨bs', h, hs⟩
  · rw [show rabId rab = .bits (octetsBits [rab]) from rfl, h] at hbs
    cases hbs
  · rw [show rabId rab = .bits (octetsBits [rab]) from rfl, h] at hbs
    obtain rfl := Option.some.inj hbs
    rcases hs with hs | hs | ⟨hf, hs⟩
    · exact .inl hs
    · exact .inr (.inl hs)
    · refine .inr (.inr ⟨nas, par, _, tv, _, hs, ?_, par_voice_is, hpar, ?_, .same _⟩)
      · rcases hnas with rfl | rfl | rfl
        · exact .inl rfl
        · exact (no_sync hf).elim
        · exact .inr rfl
      · rcases htv with rfl | rfl
        · exact (no_octets (.inr rfl) hf).elim
        · exact ⟨tla.buf, h3, h4, rfl⟩

/-- **C125**, what holds, for data. -/
theorem C125_data_partial (w : World) (lax debug : Bool) (n : Nat) (rab : Byte) (ip tei : BitVec 32) (x213 : Bool) :
    Made (callW w lax debug (.rabAssignData rab ip tei x213) n).1 fun bs =>
      Says bs 1 0 [] ∨ Says bs 1 0 [(54, .list [.list []])] ∨
      AsksForPart bs rab none background (userPlane false 1) (fun t => IsTransport t (.inet (msb ip) 0) x213 0 (msb tei).toList)
        ipv4Data := by
  refine made_of_yields (x := rabAssignDataW w lax debug rab ip tei x213) ?_ n
  obtain ⟨tla, h1, h2, h3, h4⟩ := transp_format (htonlAddr ip) 0 x213
  refine (yields_rabId w rab).bind ?_
  rintro _ rfl
  refine (yields_parData w lax 1600000 800000).bind fun par hpar => (yields_upi w 0 1).bind ?_
  rintro _ rfl
  refine (yields_gtp w _ tei _ h1).bind fun t ht => (yields_newList w).bind fun pdp hpdp => (yields_need w).bind fun _ _ =>
    (yields_addTo w hpdp (.same _)).bind fun pdp hpdp => (yields_need w).bind fun _ _ => (yields_long w 0).bind ?_
  rintro _ rfl
  refine (yields_long w 0).bind ?_
  rintro _ rfl
  refine .lift fun n bs hbs => ?_
  have htv : t.map transpVal = some (transport tla.buf 0 []) ∨ t.map transpVal = some (transport tla.buf 0 (msb tei).toList) := by
    rcases ht with rfl | rfl
    · left
      simp only [Option.map_some, transpVal, bitsOf_whole tla h2]
      rfl
    · right
      simp only [Option.map_some, transpVal, bitsOf_whole tla h2]
      rfl
  have hpb : maxBits RANAP_RAB_Parameters par ≤ 800 := Nat.le_trans (maxBits_part hpar _) par_data.2
  have htf := (transport_fits (alt := 0) (o := (msb tei).toList) (format_len h3 h4) rfl (by decide)).2
  have hsec : Part (.seq [asVal pdp, some (.enum 1), some (.int 0), some (.int 0), none, none, none]) ipv4Data :=
    Fewer.seq (.asVal hpdp (.refl _))
  have hsb := Nat.le_trans (maxBits_part hsec RANAP_RAB_SetupOrModifyItemSecond)
    (show maxBits RANAP_RAB_SetupOrModifyItemSecond ipv4Data ≤ 800 by decide +kernel)
  obtain ⟨tv, e, htv⟩ : ∃ tv, t.map transpVal = some tv ∧ (tv = transport tla.buf 0 [] ∨ tv = transport tla.buf 0 (msb tei).toList) := by
    rcases htv with e | e
    · exact ⟨_, e, .inl rfl⟩
    · exact ⟨_, e, .inr rfl⟩
  rw [e] at hbs
  replace hbs : _ = some bs := hbs
  have htb : maxBits RANAP_TransportLayerInformation tv ≤ 700 := by
    rcases htv with rfl | rfl
    · exact Nat.le_trans (transport_part _ _ _ (.inl rfl)) htf
    · exact htf
  rcases assignW_says w debug (first_bits rab (nas := none) nofun hpb upi_data.2 htb) hsb n with h | ⟨bs', h, hs⟩
  · rw [show rabId rab = .bits (octetsBits [rab]) from rfl, h] at hbs
    cases hbs
  · rw [show rabId rab = .bits (octetsBits [rab]) from rfl, h] at hbs
    obtain rfl := Option.some.inj hbs
    rcases hs with hs | hs | ⟨hf, hs⟩
    · exact .inl hs
    · exact .inr (.inl hs)
    · refine .inr (.inr ⟨none, par, _, tv, _, hs, .inl rfl, par_data_is, hpar, ?_, hsec⟩)
      rcases htv with rfl | rfl
      · exact (no_octets (.inl rfl) hf).elim
      · exact ⟨tla.buf, h3, h4, rfl⟩

/-- The parameters for speech without a guaranteed bit rate. -/
def notGuaranteed : Rab := { amr122 with guaranteedBitrate := [] }

/-- The parameters for data with one bit rate. -/
def oneRate : Rab := { background with maxBitrate := [800000] }

def notGuaranteedVal : Val :=
  .seq [some (.enum 0), some (.enum 0), some (.list [.int 12200]), none, some (.enum 0),
    some (.int 244), some (.list [sduParVoice0, sduParVoice1, sduParVoice2]), some (.int 80), none,
    some (allocRetPrio 15 false true false), some (.enum 0), none, none]

def oneRateVal : Val :=
  .seq [some (.enum 3), some (.enum 3), some (.list [.int 800000]), none, some (.enum 0),
    some (.int 8000), some (.list [sduParData]), none, none,
    some (allocRetPrio 15 false false false), none, none,
    some (.list [.seq [some (.int idRAB_Parameter_ExtendedMaxBitrateList), some (.enum ignore), some (.octets extValue)]])]

theorem notGuaranteed_is : IsRab notGuaranteedVal notGuaranteed := ⟨none, rfl, rfl⟩

theorem oneRate_is : IsRab oneRateVal oneRate := ⟨_, rfl, _, rfl, by with_unfolding_all rfl⟩

/-- An address and a port. -/
def someTransport (alt : Nat) (o : Bytes) : Val :=
  transport [0x35, 0, 1, 10, 0, 0, 1, 0, 0, 0, 0, 0, 0, 0, 0, 0, 0, 0, 0, 0] alt o

theorem C125_no_guarantee : ∃ bs, (callW (failsAt 6) true false (.rabAssignVoice 1 0x0a000001 2342 true) 0).1 = .ok (some bs) ∧
    AsksFor bs 1 (some 6) notGuaranteed (userPlane true 1) (fun t => t = someTransport 1 [9, 38, 0, 0]) noData := by
  obtain ⟨f1, f2⟩ := first_fits 1 (nas := some (nasSyncInd 60)) (by rintro v ⟨⟩; exact nas_sync)
    (par := notGuaranteedVal) (by decide +kernel) upi_voice (t := someTransport 1 [9, 38, 0, 0])
    (transport_fits (.inr rfl) rfl (by decide))
  obtain ⟨bs, b1, b2, g1, g2, g3, g4⟩ := rabAssign_says (second := .seq [none, none, none, none, none, none, none]) f1
    (by rfl) f2 (by decide)
  refine ⟨bs, ?_, b1, b2, _, _, g2, g3, g4, notGuaranteed_is, rfl⟩
  rw [← g1]
  decide +kernel

theorem C125_one_rate : ∃ bs, (callW (failsAt 3) true false (.rabAssignData 1 0x0a000001 0x11223344 true) 0).1 = .ok (some bs) ∧
    AsksFor bs 1 none oneRate (userPlane false 1) (fun t => t = someTransport 0 [0x11, 0x22, 0x33, 0x44]) ipv4Data := by
  obtain ⟨f1, f2⟩ := first_fits 1 (nas := none) (by simp)
    (par := oneRateVal) (by decide +kernel) upi_data (t := someTransport 0 [0x11, 0x22, 0x33, 0x44])
    (transport_fits (.inr rfl) rfl (by decide))
  obtain ⟨bs, b1, b2, g1, g2, g3, g4⟩ := rabAssign_says
    (second := .seq [some (.list [.enum 3]), some (.enum 1), some (.int 0), some (.int 0), none, none, none]) f1
    (by rfl) f2 (by decide +kernel)
  refine ⟨bs, ?_, b1, b2, _, _, g2, g3, g4, oneRate_is, rfl⟩
  rw [← g1]
  decide +kernel

/-- **C125 is violated**: a single failure makes requests for conversational speech without a guaranteed bit rate, and for different
rates in the two directions with but one rate, that of the uplink.  Both are not proper. -/
theorem C125_improper : ¬ notGuaranteed.Proper ∧ ¬ oneRate.Proper :=
  ⟨fun h => (h.realTime (.inl rfl)).1 rfl, fun h => absurd h.perDirection (by decide)⟩

theorem C125_violated : ¬ C125_full := by
  intro h
  obtain ⟨bs, h1, h2⟩ := C125_one_rate
  have h3 := (h _ _ _ _ _ _ _ bs).2 _ h1
  have := (C105_determined h2 h3).2.1
  revert this
  decide

/-- **C125**, on what a part is: of a number, an enumerated value or a choice there is no part but itself; a part of a list has no
more elements, and a part of a sequence as many components. -/
theorem C125_part {v v' : Val} (h : Part v v') :
    (∀ i, v' = .int i → v = .int i) ∧ (∀ i, v' = .enum i → v = .enum i) ∧ (∀ i x, v' = .choice i x → v = .choice i x) ∧
    (∀ l, v' = .list l → ∃ l', v = .list l' ∧ l'.length ≤ l.length ∧ ∀ x ∈ l', ∃ y ∈ l, Part x y) ∧
    (∀ l, v' = .seq l → ∃ l', v = .seq l' ∧ l'.length = l.length ∧
      ∀ (i : Nat) (x : Val), l'[i]? = some (some x) → ∃ y, l[i]? = some (some y) ∧ Part x y) := by
  induction h with
  | same v =>
    refine ⟨fun _ => id, fun _ => id, fun _ _ => id, ?_, ?_⟩
    · rintro l rfl
      exact ⟨l, rfl, Nat.le_refl _, fun x hx => ⟨x, hx, .same x⟩⟩
    · rintro l rfl
      exact ⟨l, rfl, rfl, fun i x hx => ⟨x, hx, .same x⟩⟩
  | noBits b => exact ⟨nofun, nofun, nofun, nofun, nofun⟩
  | noOctets b => exact ⟨nofun, nofun, nofun, nofun, nofun⟩
  | without l r v =>
    refine ⟨nofun, nofun, nofun, ?_, nofun⟩
    rintro _ ⟨⟩
    refine ⟨_, rfl, by simp, fun x hx => ⟨x, ?_, .same x⟩⟩
    simp only [List.mem_append, List.mem_cons] at hx ⊢
    rcases hx with h | h
    · exact .inl h
    · exact .inr (.inr h)
  | @element l r v v' h _ =>
    refine ⟨nofun, nofun, nofun, ?_, nofun⟩
    rintro _ ⟨⟩
    refine ⟨_, rfl, by simp, fun x hx => ?_⟩
    simp only [List.mem_append, List.mem_cons] at hx
    rcases hx with g | rfl | g
    · exact ⟨x, by simp [g], .same x⟩
    · exact ⟨v', by simp, h⟩
    · exact ⟨x, by simp [g], .same x⟩
  | absent l r v =>
    refine ⟨nofun, nofun, nofun, nofun, ?_⟩
    rintro _ ⟨⟩
    refine ⟨_, rfl, by simp, fun i x hx => ⟨x, ?_, .same x⟩⟩
    rw [List.getElem?_append] at hx ⊢
    split
    · next hi => rwa [if_pos hi] at hx
    · next hi =>
      rw [if_neg hi] at hx
      cases hk : i - l.length with
      | zero => rw [hk] at hx; simp at hx
      | succ k => rw [hk] at hx; exact hx
  | @component l r v v' h _ =>
    refine ⟨nofun, nofun, nofun, nofun, ?_⟩
    rintro _ ⟨⟩
    refine ⟨_, rfl, by simp, fun i x hx => ?_⟩
    rw [List.getElem?_append] at hx ⊢
    split
    · next hi =>
      rw [if_pos hi] at hx
      exact ⟨x, hx, .same x⟩
    · next hi =>
      rw [if_neg hi] at hx
      cases hk : i - l.length with
      | zero =>
        rw [hk] at hx
        simp only [List.getElem?_cons_zero, Option.some.injEq] at hx
        subst hx
        exact ⟨v', rfl, h⟩
      | succ k => rw [hk] at hx; exact ⟨x, hx, .same x⟩
  | trans h1 h2 i1 i2 =>
    refine ⟨fun i e => i1.1 i (i2.1 i e), fun i e => i1.2.1 i (i2.2.1 i e), fun i x e => i1.2.2.1 i x (i2.2.2.1 i x e), ?_, ?_⟩
    · intro l e
      obtain ⟨l', e', hl, hx⟩ := i2.2.2.2.1 l e
      obtain ⟨l'', e'', hl', hx'⟩ := i1.2.2.2.1 l' e'
      refine ⟨l'', e'', Nat.le_trans hl' hl, fun x hm => ?_⟩
      obtain ⟨y, hy, p1⟩ := hx' x hm
      obtain ⟨z, hz, p2⟩ := hx y hy
      exact ⟨z, hz, p1.trans p2⟩
    · intro l e
      obtain ⟨l', e', hl, hx⟩ := i2.2.2.2.2 l e
      obtain ⟨l'', e'', hl', hx'⟩ := i1.2.2.2.2 l' e'
      refine ⟨l'', e'', hl'.trans hl, fun i x hm => ?_⟩
      obtain ⟨y, hy, p1⟩ := hx' i x hm
      obtain ⟨z, hz, p2⟩ := hx i y hy
      exact ⟨z, hz, p1.trans p2⟩

/-- A part that is not all: of the parameters for speech. -/
example : Part notGuaranteedVal (rabParVoice 6700 12200) :=
  .absent [some (.enum 0), some (.enum 0), some (.list [.int 12200])] _ _

end Verif.Props
