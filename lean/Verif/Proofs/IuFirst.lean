import Verif.Proofs.IuStep
import Verif.Spec.IuHist
import Verif.Props.Lai

/-!
# First messages: which operations register, and what
-/

namespace Verif.Iu
open Spec Lai Props

variable {env : Env}

theorem parseLai_ok {plmn lac : Bytes} {ra : GprsRaId} (h : parseLai plmn lac = .ok (0, ra)) :
    ∃ p0 p1 p2 l0 l1, plmn = [p0, p1, p2] ∧ lac = [l0, l1] ∧
      ¬ (l0 ++ l1 = (0 : BitVec 16) ∨ l0 ++ l1 = (0xfffe : BitVec 16)) ∧
      ra = ⟨mcc p0 p1, laiMnc p1 p2, false, l0 ++ l1, 0⟩ := by
  unfold parseLai at h
  match plmn, lac with
  | [p0, p1, p2], [l0, l1] =>
    refine ⟨p0, p1, p2, l0, l1, rfl, rfl, ?_⟩
    simp only [List.length_cons, List.length_nil, asn1strToU16, Res.ok_bind, load16be, lo_eq, hi_eq] at h
    rw [if_neg (by simp)] at h
    split at h
    · cases h
    · rename_i hb
      have hb' : ¬ (l0 ++ l1 = (0 : BitVec 16) ∨ l0 ++ l1 = (0xfffe : BitVec 16)) := hb
      refine ⟨hb', ?_⟩
      injection h with h
      injection h with _ h
      rw [← h]
      unfold laiMnc mcc
      by_cases hF : p1.toNat / 16 = 15
      · simp [hF]; omega
      · simp [hF]; omega
  | [p0, p1, p2], [] => simp at h
  | [p0, p1, p2], [_] => simp at h
  | [p0, p1, p2], _ :: _ :: _ :: _ => simp at h
  | [], _ => simp at h
  | [_], _ => simp at h
  | [_, _], _ => simp at h
  | _ :: _ :: _ :: _ :: _, _ => simp at h

theorem parseLai_bad {plmn lac : Bytes} {rc : Int} {ra : GprsRaId} (h : parseLai plmn lac = .ok (rc, ra))
    (hrc : rc ≠ 0) : ¬ ∃ p0 p1 p2 l0 l1, plmn = [p0, p1, p2] ∧ lac = [l0, l1] ∧
      ¬ (l0 ++ l1 = (0 : BitVec 16) ∨ l0 ++ l1 = (0xfffe : BitVec 16)) := by
  rintro ⟨p0, p1, p2, l0, l1, rfl, rfl, hb⟩
  unfold parseLai at h
  simp only [List.length_cons, List.length_nil, asn1strToU16, Res.ok_bind, load16be] at h
  rw [if_neg (by simp)] at h
  split at h
  · rename_i h'
    exact hb h'
  · injection h with h; injection h with h _; exact hrc h.symm

theorem grnc_some {plmn : Bytes} {n : Nat} {id : RncId} (h : grncIdParse plmn n = some id) :
    ∃ q0 q1 q2, plmn = [q0, q1, q2] ∧
      id = ⟨⟨mcc q0 q1, rncMnc q1 q2, q1.toNat / 16 ≠ 15⟩, BitVec.ofNat 16 n⟩ := by
  unfold grncIdParse at h
  split at h
  · rename_i q0 q1 q2
    refine ⟨q0, q1, q2, rfl, ?_⟩
    injection h with h
    rw [← h]
    unfold plmnFromBcd mcc rncMnc
    simp only [lo_eq, hi_eq]
    by_cases hF : q1.toNat / 16 = 15
    · simp [hF]; omega
    · simp [hF]; omega
  · cases h

theorem initialCheck_ok {ies : InitialUeIes} {o : Option (RncId × GprsRaId × BitVec 16)}
    (h : initialCheck ies = .ok o) : readInitialUe ies = o := by
  unfold initialCheck at h
  cases hp : parseLai ies.laiPlmn ies.laiLac with
  | fault e => rw [hp] at h; cases h
  | ok x =>
    obtain ⟨rc, ra⟩ := x
    rw [hp] at h
    simp only at h
    by_cases hrc : rc = 0
    · subst hrc
      obtain ⟨p0, p1, p2, l0, l1, e1, e2, hb, rfl⟩ := parseLai_ok hp
      rw [if_neg (by simp)] at h
      unfold readInitialUe
      rw [e1, e2]
      -- the Global-RNC-ID and SAC
      cases hg : grncIdParse ies.grnc.plmn ies.grnc.rncId with
      | none =>
        rw [hg] at h
        have hn : ∀ q0 q1 q2, ies.grnc.plmn ≠ [q0, q1, q2] := by
          intro q0 q1 q2 he; rw [he] at hg; simp [grncIdParse] at hg
        have ho : o = none := by
          split at h
          · cases h
          · split at h
            · injection h with h; exact h.symm
            · injection h with h; exact h.symm
        subst ho
        split
        · rename_i q0 q1 q2 _ _ _ _ _ he _
          exact absurd he (hn _ _ _)
        · rfl
      | some id =>
        rw [hg] at h
        obtain ⟨q0, q1, q2, e3, rfl⟩ := grnc_some hg
        rw [e3]
        rcases hsac : ies.saiSac with _ | ⟨s0, _ | ⟨s1, sr⟩⟩
        · simp only [hsac, asn1strToU16] at h ⊢
          split at h
          · cases h
          · split at h
            · injection h with h
            · cases h
        · simp only [hsac, asn1strToU16] at h ⊢
          split at h
          · cases h
          · split at h
            · injection h with h
            · cases h
        · simp only [hsac, asn1strToU16, load16be] at h ⊢
          rw [if_neg hb]
          rcases hr : ies.rac with _ | ⟨_ | ⟨r, rr⟩⟩
          · simp only [hr] at h ⊢
            simp only [Option.isSome_none, Bool.false_eq_true, false_and, if_false, RESERVED_RAC] at h
            split at h
            · injection h
            · cases h
          · simp only [hr, asn1strToU8] at h; cases h
          · simp only [hr, asn1strToU8, Option.isSome_some, true_and, RESERVED_RAC] at h ⊢
            by_cases h255 : r = 0xff
            · rw [if_pos h255] at h ⊢; injection h
            · rw [if_neg h255] at h ⊢
              split at h
              · injection h
              · cases h
    · rw [if_pos (by simpa using hrc)] at h
      injection h with h
      subst h
      have hbad := parseLai_bad hp hrc
      unfold readInitialUe
      split
      · rename_i p0 p1 p2 l0 l1 q0 q1 q2 s0 s1 sr e1 e2 e3 e4
        by_cases hb : l0 ++ l1 = (0 : BitVec 16) ∨ l0 ++ l1 = (0xfffe : BitVec 16)
        · rw [if_pos hb]
        · exact absurd ⟨p0, p1, p2, l0, l1, e1, e2, hb⟩ hbad
      · rfl

theorem dtCheck_ok {ies : DtIes} {o : Option (Option GprsRaId × Option (BitVec 16))}
    (h : dtCheck ies = .ok o) : readDt ies = o := by
  unfold dtCheck at h
  unfold readDt
  cases hl : ies.lai with
  | none => rw [hl] at h; injection h
  | some pl =>
    obtain ⟨plmn, lac⟩ := pl
    rw [hl] at h
    simp only at h
    cases hp : parseLai plmn lac with
    | fault e => rw [hp] at h; cases h
    | ok x =>
      obtain ⟨rc, ra⟩ := x
      rw [hp] at h
      simp only at h
      by_cases hrc : rc = 0
      · subst hrc
        obtain ⟨p0, p1, p2, l0, l1, rfl, rfl, hb, rfl⟩ := parseLai_ok hp
        rw [if_neg (by simp)] at h
        simp only
        rw [if_neg hb]
        rcases hr : ies.rac with _ | ⟨_ | ⟨r, rr⟩⟩
        · rw [hr] at h
          rcases hs : ies.saiSac with _ | ⟨_ | ⟨s0, _ | ⟨s1, sr⟩⟩⟩ <;>
            simp only [hs, asn1strToU16] at h ⊢ <;> first | (injection h) | (cases h)
        · simp only [hr, asn1strToU8] at h; cases h
        · rw [hr] at h
          rcases hs : ies.saiSac with _ | ⟨_ | ⟨s0, _ | ⟨s1, sr⟩⟩⟩ <;>
            simp only [hs, asn1strToU16, asn1strToU8] at h ⊢ <;> first | (injection h) | (cases h)
      · rw [if_pos (by simpa using hrc)] at h
        injection h with h
        subst h
        have hbad := parseLai_bad hp hrc
        split
        · rename_i heq; cases heq
        · rename_i p0 p1 p2 l0 l1 heq
          by_cases hb : l0 ++ l1 = (0 : BitVec 16) ∨ l0 ++ l1 = (0xfffe : BitVec 16)
          · rw [if_pos hb]
          · injection heq with heq; injection heq with h1 h2
            exact absurd ⟨p0, p1, p2, l0, l1, h1, h2, hb⟩ hbad
        · rfl

/-! ## Labels and history -/

/-- What a label leaves in the history. -/
def Lbl.Emits : Lbl → List Out → Prop
  | .sap p rc, d => d = [.sap p rc]
  | .free _, d => ∃ c rc, d = [.sap (.disconnectReq c) rc]
  | .release _ c _, d => ∃ conn rc, d = [.sap (.dataReq conn (.iuRelCmd (c.getD (.nAS CauseNAS_normal_release)))) rc]
  | .cb o, d => d = [o]
  | _, d => d = []

/-- History of a sequence of labels. -/
inductive Emits : List Lbl → List Out → Prop where
  | nil : Emits [] []
  | cons {l : Lbl} {ls : List Lbl} {d d' : List Out} : l.Emits d → Emits ls d' → Emits (l :: ls) (d ++ d')

theorem Atom.emits {l : Lbl} {s s' : State} (h : Atom env l s s') :
    ∃ d, s'.trace = s.trace ++ d ∧ l.Emits d := by
  cases h
  case sap => exact ⟨_, rfl, rfl⟩
  case free => exact ⟨_, rfl, _, _, rfl⟩
  case release => exact ⟨_, rfl, _, _, rfl⟩
  case cbRecv => exact ⟨_, rfl, rfl⟩
  case cbEvent => exact ⟨_, rfl, rfl⟩
  case cbArea => exact ⟨_, rfl, rfl⟩
  all_goals exact ⟨[], by simp [regState, allocSt], rfl⟩

theorem Path.emits {ls : List Lbl} {s s' : State} (h : Path env ls s s') :
    ∃ d, s'.trace = s.trace ++ d ∧ Emits ls d := by
  induction h with
  | nil => exact ⟨[], by simp, .nil⟩
  | cons ha _ ih =>
    obtain ⟨d, h1, h2⟩ := ha.emits
    obtain ⟨d', h3, h4⟩ := ih
    exact ⟨d ++ d', by rw [h3, h1, List.append_assoc], .cons h2 h4⟩

theorem Emits.append_inv {a b : List Lbl} {d : List Out} (h : Emits (a ++ b) d) :
    ∃ d1 d2, d = d1 ++ d2 ∧ Emits a d1 ∧ Emits b d2 := by
  induction a generalizing d with
  | nil => exact ⟨[], d, rfl, .nil, h⟩
  | cons l a ih =>
    cases h with
    | cons h1 h2 =>
      obtain ⟨d1, d2, rfl, h3, h4⟩ := ih h2
      exact ⟨_, d2, by simp, .cons h1 h3, h4⟩

/-- The callbacks named in the labels. -/
def cbsOf (ls : List Lbl) : List Out := ls.filterMap fun l => match l with | .cb o => some o | _ => none

theorem callbacks_append (a b : List Out) : callbacks (a ++ b) = callbacks a ++ callbacks b := List.filter_append ..
theorem prims_append (a b : List Out) : prims (a ++ b) = prims a ++ prims b := List.filterMap_append ..
theorem deliveries_append (a b : List Out) : deliveries (a ++ b) = deliveries a ++ deliveries b := List.filterMap_append ..
theorem cbsOf_append (a b : List Lbl) : cbsOf (a ++ b) = cbsOf a ++ cbsOf b := List.filterMap_append ..

/-- Callback labels are callbacks, not primitives. -/
def cbOk (ls : List Lbl) : Prop := ∀ l ∈ ls, ∀ o, l = .cb o → callbacks [o] = [o]

theorem Path.cbOk {ls : List Lbl} {s s' : State} (h : Path env ls s s') : cbOk ls := by
  induction h with
  | nil => intro l h; cases h
  | cons ha _ ih =>
    intro l hl o ho
    rcases List.mem_cons.1 hl with rfl | hl
    · subst ho; cases ha <;> rfl
    · exact ih l hl o ho

theorem Emits.callbacks {ls : List Lbl} {d : List Out} (h : Emits ls d) (hok : cbOk ls) : callbacks d = cbsOf ls := by
  induction h with
  | nil => rfl
  | @cons l ls d d' h1 _ ih =>
    rw [callbacks_append, ih (fun x hx => hok x (List.mem_cons_of_mem _ hx))]
    cases l
    case cb o =>
      cases h1
      rw [hok _ List.mem_cons_self o rfl]; rfl
    case sap => cases h1; rfl
    case free => obtain ⟨c, rc, rfl⟩ := h1; rfl
    case release => obtain ⟨c, rc, rfl⟩ := h1; rfl
    all_goals (cases h1; rfl)

theorem ApiLbls.cbsOf {ls : List Lbl} (h : ApiLbls ls) : cbsOf ls = [] := by
  unfold Iu.cbsOf
  rw [List.filterMap_eq_nil_iff]
  intro l hl
  have := h l hl
  cases l <;> simp_all [Lbl.isApi]

/-- The history a path adds, with its callbacks. -/
theorem Path.delta {ls : List Lbl} {s s' : State} (h : Path env ls s s') :
    ∃ d, s'.trace = s.trace ++ d ∧ Emits ls d ∧ callbacks d = Iu.cbsOf ls := by
  obtain ⟨d, h1, h2⟩ := h.emits
  exact ⟨d, h1, h2, h2.callbacks h.cbOk⟩

/-! ## Which labels change what -/

def Lbl.isReg : Lbl → Bool
  | .register _ _ _ => true
  | .alloc _ _ _ _ => true
  | .cb (.event none _) => true
  | _ => false

/-- Neither registration nor new context nor area event. -/
def NoReg (ls : List Lbl) : Prop := ∀ l ∈ ls, l.isReg = false

theorem NoReg.nil : NoReg [] := by intro l h; cases h
theorem NoReg.append {a b : List Lbl} (h : NoReg a) (h' : NoReg b) : NoReg (a ++ b) := by
  intro l hl
  rcases List.mem_append.1 hl with hl | hl
  · exact h l hl
  · exact h' l hl
theorem NoReg.cons {l : Lbl} {a : List Lbl} (h : l.isReg = false) (h' : NoReg a) : NoReg (l :: a) := by
  intro x hx
  rcases List.mem_cons.1 hx with rfl | hx
  · exact h
  · exact h' x hx
theorem NoReg.one {l : Lbl} (h : l.isReg = false) : NoReg [l] := .cons h .nil
theorem ApiLbls.noReg {ls : List Lbl} (h : ApiLbls ls) : NoReg ls := by
  intro l hl
  have := h l hl
  cases l <;> simp_all [Lbl.isApi, Lbl.isReg]
theorem LinkLbls.noReg {ls : List Lbl} (h : LinkLbls ls) : NoReg ls := by
  intro l hl
  rcases h l hl with h | ⟨p, c, rfl⟩
  · cases l <;> simp_all [Lbl.isApi, Lbl.isReg]
  · rfl
theorem EvShape.noReg {s s' : State} {p : Ptr} {e : Event} {ls : List Lbl} (h : EvShape env s p e ls s') :
    NoReg ls := by
  rcases h with ⟨_, rfl, _⟩ | ⟨u, _, ⟨_, _, as, rfl, has⟩ | ⟨_, _, rfl, _⟩⟩
  · exact .nil
  · exact .cons rfl has.noReg
  · exact .nil
theorem DtShape.noReg {s : State} {p : Ptr} {ies : DtIes} {ls : List Lbl} (h : DtShape s p ies ls) : NoReg ls := by
  rcases h with ⟨_, rfl⟩ | ⟨ra, sai, u, as, _, _, _, rfl, has⟩
  · exact .one rfl
  · exact .append (.cons rfl (.cons rfl has.noReg)) (.one rfl)
theorem CoShape.noReg {s s' : State} {p : Ptr} {m : Msg} {ls : List Lbl} (h : CoShape env s p m ls s') :
    NoReg ls := by
  rcases h with ⟨_, _, ies, _, h⟩ | ⟨_, _, c, u, rc, _, _, rfl, _⟩ | ⟨_, _, h⟩ | ⟨_, _, h⟩ |
    ⟨_, _, it, l, _, h⟩ | ⟨rfl, _⟩
  · exact h.noReg
  · exact .one rfl
  · exact h.noReg
  · exact h.noReg
  · exact h.noReg
  · exact .nil
theorem RxCoShape.noReg {s s' : State} {p : Ptr} {data : Bytes} {rc : Int} {ls : List Lbl}
    (h : RxCoShape env s p data rc ls s') : NoReg ls := by
  rcases h with ⟨_, _, rfl, _⟩ | ⟨m, _, _, h⟩
  · exact .nil
  · exact h.noReg
theorem ClShape.noReg {a : SccpAddr} {m : Msg} {ls : List Lbl} (h : ClShape env a m ls) : NoReg ls := by
  rcases h with ⟨_, _, d, rnc, _, ⟨_, rfl⟩ | ⟨b, rc, _, rfl⟩⟩ | ⟨_, rfl⟩
  · exact .nil
  · exact .one rfl
  · exact .nil

theorem Atom.keepRncs {l : Lbl} {s s' : State} (h : Atom env l s s') (hl : l.isReg = false) :
    s'.rncs = s.rncs ∧ s'.next = s.next := by
  cases h <;> first | (exact ⟨rfl, rfl⟩) | (simp [Lbl.isReg] at hl)

theorem Path.keepRncs {ls : List Lbl} {s s' : State} (h : Path env ls s s') (hl : NoReg ls) :
    s'.rncs = s.rncs ∧ s'.next = s.next := by
  induction h with
  | nil => exact ⟨rfl, rfl⟩
  | cons ha _ ih =>
    obtain ⟨h1, h2⟩ := ha.keepRncs (hl _ List.mem_cons_self)
    obtain ⟨h3, h4⟩ := ih (fun x hx => hl x (List.mem_cons_of_mem _ hx))
    exact ⟨h3.trans h1, h4.trans h2⟩

theorem Path.append_inv {a b : List Lbl} {s s' : State} (h : Path env (a ++ b) s s') :
    ∃ s1, Path env a s s1 ∧ Path env b s1 s' := by
  induction a generalizing s with
  | nil => exact ⟨s, .nil s, h⟩
  | cons l a ih =>
    cases h with
    | cons h1 h2 =>
      obtain ⟨s1, h3, h4⟩ := ih h2
      exact ⟨s1, .cons h1 h3, h4⟩

theorem Path.cons_inv {l : Lbl} {b : List Lbl} {s s' : State} (h : Path env (l :: b) s s') :
    ∃ s1, Atom env l s s1 ∧ Path env b s1 s' := by
  cases h with
  | cons h1 h2 => exact ⟨_, h1, h2⟩

/-! ## Every operation: a first message that registers, or no registration -/

theorem ctxFind_none {s : State} {c : ConnId} : ctxFind s c = none ↔ ¬ HasCtx s c := by
  unfold ctxFind HasCtx; simp

theorem ctxFind_some {s : State} {c : ConnId} {u : Ue} (h : ctxFind s c = some u) : u ∈ s.ues ∧ u.conn = c :=
  ⟨List.mem_of_find?_eq_some h, by simpa using List.find?_some h⟩

/-- Labels before the message is looked at. -/
def PreLbls (c : ConnId) (pre : List Lbl) : Prop :=
  (∃ rc, pre = [.sap (.connectResp c) rc]) ∨ pre = [.cacheDel c]

theorem PreLbls.noReg {c : ConnId} {pre : List Lbl} (h : PreLbls c pre) : NoReg pre := by
  rcases h with ⟨rc, rfl⟩ | rfl
  · exact .one rfl
  · exact .one rfl

/-- The labels of an accepted first message. -/
def AccShape (env : Env) (s : State) (c : ConnId) (a : SccpAddr) (nas : Bytes) (id : RncId) (ra : GprsRaId)
    (sai : BitVec 16) (ls : List Lbl) : Prop :=
  ∃ pre es p as, PreLbls c pre ∧
    ls = pre ++ .nasAlloc :: .register id (areaOfRa ra) a :: es ++
      .alloc p (regPtr env s id a) c ra :: .cb (.recv p c nas (some ra) (some sai)) :: as ++ [.nasFree] ∧
    ApiLbls as ∧ p = (reg1 env s id a).2.2 ∧
    (((regNew env s id (areaOfRa ra) a && env.hasEventCb) = false ∧ es = []) ∨
     ((regNew env s id (areaOfRa ra) a && env.hasEventCb) = true ∧
        ∃ as, es = .cb (.event none (.newArea id (areaOf (areaOfRa ra)))) :: as ∧ ApiLbls as))

/-- Either the operation brings an acceptable Initial UE Message as first message, or it
registers nothing. -/
def OpShape (env : Env) (s : State) (op : Op) (ls : List Lbl) : Prop :=
  (∃ c a ies id ra sai, initialUe env s op = some (c, a, ies) ∧ readInitialUe ies = some (id, ra, sai) ∧
    initialCheck ies = .ok (some (id, ra, sai)) ∧
    AccShape env s c a ies.nas id ra sai ls) ∨
  (registration env s op = none ∧ NoReg ls)

theorem initialUe_of {s : State} {op : Op} {c : ConnId} {a : SccpAddr} {d : Bytes}
    (h : firstPayload s op = some (c, a, d)) {m : Msg} (hm : env.decodeCo d = some m) {ies : InitialUeIes}
    (h1 : m.dir = PR_initiatingMessage) (h2 : m.proc = id_InitialUE_Message) (hb : m.body = .initialUe ies) :
    initialUe env s op = some (c, a, ies) := by
  obtain ⟨dir, proc, body⟩ := m
  simp only at h1 h2 hb
  subst h1 h2 hb
  unfold initialUe
  rw [h]
  simp only [hm]
  rw [if_pos ⟨trivial, trivial⟩]

theorem initialUe_some {s : State} {op : Op} {c : ConnId} {a : SccpAddr} {ies : InitialUeIes}
    (h : initialUe env s op = some (c, a, ies)) :
    ∃ d m, firstPayload s op = some (c, a, d) ∧ env.decodeCo d = some m ∧ m.dir = PR_initiatingMessage ∧
      m.proc = id_InitialUE_Message ∧ m.body = .initialUe ies := by
  unfold initialUe at h
  cases hf : firstPayload s op with
  | none => rw [hf] at h; cases h
  | some x =>
    obtain ⟨c', a', d⟩ := x
    rw [hf] at h
    simp only at h
    split at h
    · rename_i dir proc ies' hd
      split at h
      · rename_i hc
        injection h with h
        injection h with h1 h2
        injection h2 with h2 h3
        subst h1 h2 h3
        exact ⟨d, _, rfl, hd, hc.1, hc.2, rfl⟩
      · cases h
    · cases h

theorem registration_none_of {s : State} {op : Op} (h : firstPayload s op = none) :
    registration env s op = none := by
  unfold registration initialUe; rw [h]

theorem RxInitShape.shape {s0 s s' : State} {op : Op} {c : ConnId} {a : SccpAddr} {d : Bytes} {rc : Int}
    {pre ls : List Lbl} (hf : firstPayload s0 op = some (c, a, d)) (hpre : PreLbls c pre)
    (h1 : s.rncs = s0.rncs) (h2 : s.next = s0.next)
    (h : RxInitShape env s ⟨a, c⟩ d rc ls s') : OpShape env s0 op (pre ++ ls) := by
  have hreg1 : ∀ id, reg1 env s id a = reg1 env s0 id a := by
    intro id; unfold reg1 rncIdFind; rw [h1, h2]
  have hregP : ∀ id, regPtr env s id a = regPtr env s0 id a := by
    intro id; unfold regPtr; rw [hreg1]
  have hregN : ∀ id rai, regNew env s id rai a = regNew env s0 id rai a := by
    intro id rai; unfold regNew; rw [hreg1]
  rcases h with ⟨hd, _, rfl, _⟩ | ⟨m, hm, _, h⟩
  · refine .inr ⟨?_, by simpa using hpre.noReg⟩
    unfold registration initialUe; rw [hf]; simp only [hd]
  · rcases h with ⟨hn, rfl, _⟩ | ⟨hdir, hproc, ies, hb, h⟩
    · refine .inr ⟨?_, by simpa using hpre.noReg⟩
      unfold registration
      cases hi : initialUe env s0 op with
      | none => rfl
      | some x =>
        obtain ⟨c', a', ies⟩ := x
        obtain ⟨d', m', hf', hm', e1, e2, _⟩ := initialUe_some hi
        rw [hf] at hf'
        injection hf' with hf'
        injection hf' with _ hf'
        injection hf' with _ hf'
        subst hf'
        rw [hm] at hm'
        injection hm' with hm'
        subst hm'
        exact absurd ⟨e1, e2⟩ hn
    · have hi := initialUe_of hf hm hdir hproc hb
      rcases h with ⟨hc, rfl⟩ | ⟨id, ra, sai, es, p, as, hc, rfl, has, hp, hes⟩
      · refine .inr ⟨?_, hpre.noReg.append (.one rfl)⟩
        unfold registration
        rw [hi]
        simp only [initialCheck_ok hc, Option.map_none]
      · refine .inl ⟨c, a, ies, id, ra, sai, hi, initialCheck_ok hc, hc, pre, es, p, as, hpre, ?_, has, ?_, ?_⟩
        · rw [← hregP]; simp; rfl
        · rw [← hreg1]; exact hp
        · rw [← hregN]; exact hes

theorem firstPayload_connect (s : State) (c : ConnId) (a : SccpAddr) (d : Bytes) :
    firstPayload s (.connectInd c a d) = if d = [] then none else some (c, a, d) := rfl
theorem firstPayload_data (s : State) (c : ConnId) (d : Bytes) :
    firstPayload s (.dataInd c d) =
      if HasCtx s c then none else (s.cache.find? (·.1 = c)).map fun e => (c, e.2, d) := rfl

theorem step_shape {op : Op} {s s' : State} {rc : Int} (h : step env op s = .ok (rc, s')) :
    ∃ ls, Path env ls s s' ∧ OpShape env s op ls := by
  cases op with
  | connectInd c a d =>
    obtain ⟨ls, hp, ls', rfl, h'⟩ := wp_ok (pl_connectInd c a d s) h
    refine ⟨_, hp, ?_⟩
    rcases h' with ⟨hd, _, rfl⟩ | ⟨hd, h'⟩
    · refine .inr ⟨registration_none_of ?_, .cons rfl (.one rfl)⟩
      rw [firstPayload_connect, if_pos hd]
    · have hf : firstPayload s (.connectInd c a d) = some (c, a, d) := by
        rw [firstPayload_connect, if_neg hd]
      exact RxInitShape.shape (s := confirmed env s c) (pre := [_]) hf (.inl ⟨_, rfl⟩) rfl rfl h'
  | connectConf =>
    obtain ⟨ls, hp, _⟩ := wp_ok (wpl_pure (env := env) (F := anyF) (a := (-1 : Int)) (S := fun _ ls _ => ls = []) rfl) h
    exact ⟨ls, hp, .inr ⟨registration_none_of rfl, by rename_i h; rw [h]; exact .nil⟩⟩
  | disconnectInd c d =>
    obtain ⟨ls, hp, ls1, rfl, h'⟩ := wp_ok (pl_disconnectInd c d s) h
    refine ⟨_, hp, .inr ⟨registration_none_of rfl, .cons rfl ?_⟩⟩
    rcases h' with ⟨_, _, rfl, _⟩ | ⟨u, ms, s1, fs, _, rfl, _, hm, hf⟩
    · exact .nil
    · refine .append ?_ ?_
      · rcases hm with ⟨_, _, rfl, _⟩ | ⟨_, hm⟩
        · exact .nil
        · exact hm.noReg
      · rcases hf with ⟨_, rfl, _⟩ | ⟨v, _, hf⟩
        · exact .nil
        · exact hf.lbls.noReg
  | dataInd c d =>
    obtain ⟨ls, hp, h'⟩ := wp_ok (pl_dataInd c d s) h
    refine ⟨_, hp, ?_⟩
    rcases h' with ⟨u, hu, h'⟩ | ⟨hn, hc, _, rfl, _⟩ | ⟨addr, ls', hn, hc, rfl, h'⟩
    · refine .inr ⟨registration_none_of ?_, h'.noReg⟩
      rw [firstPayload_data, if_pos ⟨u, ctxFind_some hu⟩]
    · refine .inr ⟨registration_none_of ?_, .nil⟩
      rw [firstPayload_data, if_neg (ctxFind_none.1 hn)]
      unfold cacheFind at hc
      rw [Option.map_eq_none_iff] at hc ⊢
      exact hc
    · unfold cacheFind at hc
      rw [Option.map_eq_some_iff] at hc
      obtain ⟨e, he, rfl⟩ := hc
      have hf : firstPayload s (.dataInd c d) = some (c, e.2, d) := by
        rw [firstPayload_data, if_neg (ctxFind_none.1 hn), he]; rfl
      exact RxInitShape.shape (s := uncached s c) (pre := [_]) hf (.inr rfl) rfl rfl h'
  | unitdataInd a d =>
    obtain ⟨ls, hp, h'⟩ := wp_ok (pl_unitdataInd a d s) h
    refine ⟨_, hp, .inr ⟨registration_none_of rfl, ?_⟩⟩
    rcases h' with ⟨_, _, rfl⟩ | ⟨m, _, _, h'⟩
    · exact .nil
    · exact h'.noReg
  | noticeInd a c =>
    obtain ⟨ls, hp, _, h'⟩ := wp_ok (pl_notice a c s) h
    exact ⟨_, hp, .inr ⟨registration_none_of rfl, h'.noReg⟩⟩
  | pcstateInd a b c =>
    obtain ⟨ls, hp, _, h'⟩ := wp_ok (pl_pcstate a b c s) h
    exact ⟨_, hp, .inr ⟨registration_none_of rfl, h'.noReg⟩⟩
  | otherInd =>
    obtain ⟨ls, hp, _⟩ := wp_ok (wpl_pure (env := env) (F := anyF) (a := (-1 : Int)) (S := fun _ ls _ => ls = []) rfl) h
    exact ⟨ls, hp, .inr ⟨registration_none_of rfl, by rename_i h; rw [h]; exact .nil⟩⟩
  | timer p =>
    obtain ⟨ls, hp, _, h'⟩ := wp_ok (pl_timer p s) h
    refine ⟨_, hp, .inr ⟨registration_none_of rfl, ?_⟩⟩
    rcases h' with ⟨_, rfl, _⟩ | ⟨_, ls', rfl, h'⟩
    · exact .nil
    · exact .cons rfl h'.noReg
  | api a =>
    obtain ⟨ls, hp, h'⟩ := wp_ok (pl_runApi a s) h
    exact ⟨_, hp, .inr ⟨registration_none_of rfl, h'.noReg⟩⟩

end Verif.Iu
