import Verif.Proofs.Rua
import Verif.Props.FactoryEmpty

/-!
# Wrapping RANAP messages in RUA (C58, C59, C60, C67, C68)
-/

namespace Verif.Props
open Verif.Aper Verif.Ie Verif.Ie.Spec Verif.Wire Verif.Gen.Rua Verif.Rua Verif.Rua.Spec
open Verif.Factory.Spec (low24 psOrCs)

/-! ## C58 -/

/-- The function returns a message with PPID 19 which is a complete RUA message of this procedure and is
understood by the receiver as exactly the wanted elements. -/
def Conveys (r : Res Run) (code : Nat) (want : List (Nat × Val)) : Prop :=
  ∃ tr bs, r = .ok ⟨tr, some ⟨bs, 19⟩⟩ ∧ (∃ crit, IsMessage bs code crit want) ∧ Understood bs code want

theorem Conveys.of {r : Res Run} {tr : List (Ev Unit)} {code len limit : Nat} {want : List (Nat × Val)}
    (h : Wraps r tr code want len limit) (hl : len ≤ limit) (hn : (want.map (·.1)).Nodup) : Conveys r code want := by
  obtain ⟨bs, h1, h2, h3⟩ := h.1 hl
  exact ⟨tr, bs, h1, ⟨0, h2⟩, understood h2 (by decide) h3 hn⟩

/-- **C58.** Connectionless Transfer. -/
theorem C58_udt (p : Bytes) (h : p.length ≤ 1009) : Conveys (newUdt (some p)) 4 [(4, .octets p)] :=
  .of (udt_wraps p) h (by simp)

/-- **C58.** Connect: CN domain, context id, establishment cause "normal call", RANAP message. -/
theorem C58_connect (isPs : Bool) (ctx : BitVec 32) (p : Bytes) (h : p.length ≤ 992) :
    Conveys (newConn isPs ctx (some p)) 1
      [(7, .enum (psOrCs isPs)), (3, .bits (low24 ctx)), (6, .enum 1), (4, .octets p)] :=
  .of (conn_wraps isPs ctx p) h (by simp)

/-- **C58.** Direct Transfer: CN domain, context id, RANAP message. -/
theorem C58_direct_transfer (isPs : Bool) (ctx : BitVec 32) (p : Bytes) (h : p.length ≤ 997) :
    Conveys (newDt isPs ctx (some p)) 2 [(7, .enum (psOrCs isPs)), (3, .bits (low24 ctx)), (4, .octets p)] :=
  .of (dt_wraps isPs ctx p) h (by simp)

/-- **C58.** Disconnect: CN domain, context id, cause "normal", and the RANAP message iff there is one that
is not empty. -/
theorem C58_disconnect (isPs : Bool) (ctx : BitVec 32) (p : Option Bytes) (h : ∀ b ∈ p, b.length ≤ 992) :
    Conveys (newDisc isPs ctx p) 3
      ([(7, .enum (psOrCs isPs)), (3, .bits (low24 ctx)), (1, .choice 0 (.enum 0))] ++
        match p with
        | some (b :: bs) => [(4, .octets (b :: bs))]
        | _ => []) := by
  have empty : ∀ tr, Conveys (finish 3 disconnectIEs (discBase isPs ctx) tr) 3
      [(7, .enum (psOrCs isPs)), (3, .bits (low24 ctx)), (1, .choice 0 (.enum 0))] := by
    intro tr
    obtain ⟨bs, h1, h2, h3⟩ := disc_empty isPs ctx tr
    exact ⟨tr, bs, h1, ⟨0, h2⟩, understood h2 (by decide) h3 (by simp)⟩
  match p with
  | none => exact empty []
  | some [] => exact empty [.free 0]
  | some (b :: bs) => exact .of (disc_wraps isPs ctx (b :: bs) (by simp)) (h _ rfl) (by simp)

/-- The number in the context id element is the context id given, as long as it has no more than 24
bits. -/
theorem C58_context_id (ctx : BitVec 32) (h : ctx.toNat < 2 ^ 24) : contextOf (low24 ctx) = ctx.toNat := by
  rw [contextOf_low24, Nat.mod_eq_of_lt h]

example : (0x123456 : BitVec 32).toNat < 2 ^ 24 := by decide

/-- A RANAP Reset wrapped for the PS domain, context id 0x123456. -/
example : (match newDt true 0x123456 (some [0x00, 0x09, 0x00]) with
    | .ok r => r.msg
    | .fault _ => none) =
    some ⟨[0x00, 0x02, 0x00, 0x17, 0x00, 0x00, 0x03, 0x00, 0x07, 0x00, 0x01, 0x80, 0x00, 0x03, 0x00, 0x03, 0x12, 0x34,
      0x56, 0x00, 0x04, 0x00, 0x04, 0x03, 0x00, 0x09, 0x00], 19⟩ := by decide +kernel

/-- The functions that take a context id, with the procedure code of their message. -/
def withContext : List (Nat × (Bool → BitVec 32 → Option Bytes → Res Run)) := [(1, newConn), (2, newDt), (3, newDisc)]

/-- **C58.** The input message is freed exactly once, whatever is returned. -/
theorem C58_consumed (p : Bytes) :
    (∃ r, newUdt (some p) = .ok r ∧ Consumed r.trace) ∧
    ∀ g ∈ withContext, ∀ isPs ctx, ∃ r, g.2 isPs ctx (some p) = .ok r ∧ Consumed r.trace := by
  have key : ∀ {r : Res Run} {code len limit : Nat} {want : List (Nat × Val)}, Wraps r consume code want len limit →
      ∃ x, r = .ok x ∧ Consumed x.trace := by
    intro r code len limit want h
    have hc : Consumed consume := ⟨[1], rfl, by simp⟩
    by_cases hl : len ≤ limit
    · obtain ⟨bs, h1, -⟩ := h.1 hl
      exact ⟨_, h1, hc⟩
    · exact ⟨_, h.2 (by omega), hc⟩
  refine ⟨key (udt_wraps p), ?_⟩
  intro g hg isPs ctx
  simp only [withContext, List.mem_cons, List.not_mem_nil, or_false] at hg
  rcases hg with rfl | rfl | rfl
  · exact key (conn_wraps isPs ctx p)
  · exact key (dt_wraps isPs ctx p)
  · cases p with
    | nil =>
      obtain ⟨bs, h1, -⟩ := disc_empty isPs ctx [.free 0]
      exact ⟨_, h1, [], rfl, by simp⟩
    | cons b bs => exact key (disc_wraps isPs ctx (b :: bs) (by simp))

/-- **C58.** Without an input message only a Disconnect can be made. -/
theorem C58_no_payload (isPs : Bool) (ctx : BitVec 32) :
    newUdt none = .fault .nullDeref ∧ newConn isPs ctx none = .fault .nullDeref ∧
    newDt isPs ctx none = .fault .nullDeref ∧
    ∃ bs, newDisc isPs ctx none = .ok ⟨[], some ⟨bs, 19⟩⟩ :=
  ⟨rfl, rfl, rfl, (disc_empty isPs ctx []).imp fun _ h => h.1⟩

/-! ## C59 -/

/-- The receiver of the message finds this context id element. -/
def ContextElement (r : Res Run) (code : Nat) (v : Val) : Prop :=
  ∃ tr bs ppid want, r = .ok ⟨tr, some ⟨bs, ppid⟩⟩ ∧ Understood bs code want ∧ want.lookup 3 = some v

/-- **C59 as stated.** Different context ids give different context id elements. -/
def C59_full : Prop := ∀ g ∈ withContext, ∀ (isPs : Bool) (a b : BitVec 32) (p : Bytes) (va vb : Val), a ≠ b →
  ContextElement (g.2 isPs a (some p)) g.1 va → ContextElement (g.2 isPs b (some p)) g.1 vb → va ≠ vb

/-- The context id element of every message. -/
theorem C59_context_element (isPs : Bool) (ctx : BitVec 32) (p : Bytes) (h : p.length ≤ 992) (v : Val) :
    ∀ g ∈ withContext, (ContextElement (g.2 isPs ctx (some p)) g.1 v ↔ v = .bits (low24 ctx)) := by
  have key : ∀ {code : Nat} {r : Res Run} {want : List (Nat × Val)} {m : MsgDef} {d : IeDef}, Conveys r code want →
      want.lookup 3 = some (.bits (low24 ctx)) → message code = some m → d ∈ m.ies → d.id = 3 →
      (ContextElement r code v ↔ v = .bits (low24 ctx)) := by
    rintro code r want m d ⟨tr, bs, h1, -, h2⟩ hw hm hd hid
    constructor
    · rintro ⟨tr', bs', ppid, want', h1', h2', hv⟩
      rw [h1] at h1'
      cases h1'
      have := understood_unique h2 h2' hm hd
      rw [hid, hw, hv] at this
      cases this
      rfl
    · rintro rfl
      exact ⟨tr, bs, 19, want, h1, h2, hw⟩
  intro g hg
  simp only [withContext, List.mem_cons, List.not_mem_nil, or_false] at hg
  rcases hg with rfl | rfl | rfl
  · exact key (C58_connect isPs ctx p h) rfl rfl (List.mem_iff_getElem?.2 ⟨1, rfl⟩) rfl
  · exact key (C58_direct_transfer isPs ctx p (by omega)) rfl rfl (List.mem_iff_getElem?.2 ⟨1, rfl⟩) rfl
  · refine key (C58_disconnect isPs ctx (some p) (by simpa using h)) ?_ rfl (List.mem_iff_getElem?.2 ⟨1, rfl⟩) rfl
    cases p <;> rfl

/-- **C59 is false**: contexts 0 and 2^24 are the same to the receiver. -/
theorem C59_violated : ¬ C59_full := by
  intro h
  have e := fun ctx => (C59_context_element true ctx [] (by decide) (.bits (low24 0)) (1, newConn) (by simp [withContext])).2
  exact h (1, newConn) (by simp [withContext]) true 0 0x1000000 [] _ _ (by decide) (e 0 rfl)
    (e 0x1000000 (congrArg Val.bits (by decide))) rfl

/-- **C59, exactly.** The elements coincide iff the context ids have the same 24 lower bits. -/
theorem C59_iff (g) (hg : g ∈ withContext) (isPs : Bool) (a b : BitVec 32) (p : Bytes) (h : p.length ≤ 992) (va vb : Val)
    (ha : ContextElement (g.2 isPs a (some p)) g.1 va) (hb : ContextElement (g.2 isPs b (some p)) g.1 vb) :
    va = vb ↔ a.toNat % 2 ^ 24 = b.toNat % 2 ^ 24 := by
  rw [C59_context_element isPs a p h va g hg] at ha
  rw [C59_context_element isPs b p h vb g hg] at hb
  rw [ha, hb, ← low24_iff]
  exact ⟨fun h => by injection h, fun h => by rw [h]⟩

/-- **C59, the part that holds**: context ids below 2^24 are not aliased. -/
theorem C59_below_partial (g) (hg : g ∈ withContext) (isPs : Bool) (a b : BitVec 32) (p : Bytes) (h : p.length ≤ 992)
    (va vb : Val) (hab : a ≠ b) (h1 : a.toNat < 2 ^ 24) (h2 : b.toNat < 2 ^ 24)
    (ha : ContextElement (g.2 isPs a (some p)) g.1 va) (hb : ContextElement (g.2 isPs b (some p)) g.1 vb) : va ≠ vb := by
  intro he
  have := (C59_iff g hg isPs a b p h va vb ha hb).1 he
  rw [Nat.mod_eq_of_lt h1, Nat.mod_eq_of_lt h2] at this
  exact hab (BitVec.eq_of_toNat_eq this)

example : ∃ va vb, ContextElement (newConn true 1 (some [0x00])) 1 va ∧ ContextElement (newConn true 2 (some [0x00])) 1 vb :=
  ⟨_, _, (C59_context_element true 1 [0x00] (by decide) _ (1, newConn) (by simp [withContext])).2 rfl,
    (C59_context_element true 2 [0x00] (by decide) _ (1, newConn) (by simp [withContext])).2 rfl⟩

/-! ## C60: what does not fit -/

/-- **C60.** A payload that is too long for the buffer of 1024 octets is lost: the message returned is
empty. -/
theorem C60_rua_too_long (isPs : Bool) (ctx : BitVec 32) (p : Bytes) :
    (1009 < p.length → newUdt (some p) = .ok ⟨consume, some ⟨[], 19⟩⟩) ∧
    (992 < p.length → newConn isPs ctx (some p) = .ok ⟨consume, some ⟨[], 19⟩⟩) ∧
    (997 < p.length → newDt isPs ctx (some p) = .ok ⟨consume, some ⟨[], 19⟩⟩) ∧
    (992 < p.length → newDisc isPs ctx (some p) = .ok ⟨consume, some ⟨[], 19⟩⟩) :=
  ⟨(udt_wraps p).2, (conn_wraps isPs ctx p).2, (dt_wraps isPs ctx p).2, fun h =>
    (disc_wraps isPs ctx p (by rintro rfl; simp at h)).2 h⟩

example : 1009 < (List.replicate 1024 0 : Bytes).length := by rw [List.length_replicate]; decide

/-! ## C67: memory -/

/-- **C67 as stated.** Nothing allocated by a RUA message function remains allocated except the message it
returns. -/
def C67_full : Prop := ∀ (p : Bytes) (isPs : Bool) (ctx : BitVec 32),
  (∃ r, newUdt (some p) = .ok r ∧ NothingLeft r.trace) ∧
  ∀ g ∈ withContext, ∃ r, g.2 isPs ctx (some p) = .ok r ∧ NothingLeft r.trace

/-- **C67 is false**: the copy of the payload is not freed. -/
theorem C67_violated : ¬ C67_full := by
  intro h
  obtain ⟨r, h1, h2⟩ := (h [] true 0).1
  obtain ⟨bs, h3, -⟩ := (udt_wraps []).1 (by decide)
  rw [h3] at h1
  cases h1
  cases h2

/-- **C67, exactly.** Every call with a payload leaves one block behind, except a Disconnect with an empty
payload. -/
theorem C67_exact (p : Bytes) (isPs : Bool) (ctx : BitVec 32) :
    (∃ r, newUdt (some p) = .ok r ∧ replay [0] r.trace = some [1]) ∧
    (∃ r, newConn isPs ctx (some p) = .ok r ∧ replay [0] r.trace = some [1]) ∧
    (∃ r, newDt isPs ctx (some p) = .ok r ∧ replay [0] r.trace = some [1]) ∧
    (∃ r, newDisc isPs ctx (some p) = .ok r ∧ replay [0] r.trace = some (if p = [] then [] else [1])) := by
  have key : ∀ {r : Res Run} {code len limit : Nat} {want : List (Nat × Val)}, Wraps r consume code want len limit →
      ∃ x, r = .ok x ∧ replay [0] x.trace = some [1] := by
    intro r code len limit want h
    by_cases hl : len ≤ limit
    · obtain ⟨bs, h1, -⟩ := h.1 hl
      exact ⟨_, h1, rfl⟩
    · exact ⟨_, h.2 (by omega), rfl⟩
  refine ⟨key (udt_wraps p), key (conn_wraps isPs ctx p), key (dt_wraps isPs ctx p), ?_⟩
  cases p with
  | nil =>
    obtain ⟨bs, h1, -⟩ := disc_empty isPs ctx [.free 0]
    exact ⟨_, h1, rfl⟩
  | cons b bs => exact key (disc_wraps isPs ctx (b :: bs) (by simp))

/-- **C67, the part that holds.** -/
theorem C67_empty_disconnect_partial (isPs : Bool) (ctx : BitVec 32) :
    ∃ r, newDisc isPs ctx (some []) = .ok r ∧ NothingLeft r.trace := by
  obtain ⟨r, h1, h2⟩ := (C67_exact [] isPs ctx).2.2.2
  exact ⟨r, h1, h2⟩

/-! ## C68: criticality -/

/-- **C68 as stated**, for RUA. The messages carry the criticality the specification assigns to the procedure. -/
def C68_full : Prop := ∀ (p : Bytes) (isPs : Bool) (ctx : BitVec 32) (tr : List (Ev Unit)) (msg : Rua.Msg) (crit : Nat)
  (want : List (Nat × Val)),
  (newUdt (some p) = .ok ⟨tr, some msg⟩ → IsMessage msg.data 4 crit want → crit = procedureCriticality) ∧
  ∀ g ∈ withContext, g.2 isPs ctx (some p) = .ok ⟨tr, some msg⟩ → IsMessage msg.data g.1 crit want →
    crit = procedureCriticality

/-- **C68 is false**: they carry "reject" instead of "ignore". -/
theorem C68_violated : ¬ C68_full := by
  intro h
  obtain ⟨bs, h1, h2, h3⟩ := (udt_wraps []).1 (by decide)
  have := (h [] true 0 consume ⟨bs, 19⟩ 0 _).1 h1 h2
  cases this

/-- **C68, the part that holds.** The messages of the RANAP generators carry the criticality of their
procedure. -/
theorem C68_ranap_partial {bs : Bytes} (h : Returned bs) (hne : bs ≠ []) :
    ∃ direction p value, p ∈ Verif.Gen.Ranap.procs ∧ bs = pduOctets direction p.code p.crit value := by
  rcases C60_empty_or_complete_partial h with h | ⟨direction, code, want, ⟨p, m, l, hp, -, hbs, -⟩, -⟩
  · exact absurd h hne
  · obtain ⟨h1, h2⟩ := Factory.mem_of_find hp
    exact ⟨direction, p, _, h1, by rw [h2]; exact hbs⟩

example : Returned [0x00, 0x14, 0x40, 0x10, 0x00, 0x00, 0x02, 0x00, 0x10, 0x40, 0x04, 0x03,
    0xaa, 0xbb, 0xcc, 0x00, 0x3b, 0x40, 0x01, 0x00] := .dt 0 [0xaa, 0xbb, 0xcc] _ (by decide +kernel)

end Verif.Props
