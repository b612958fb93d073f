import Verif.Proofs.FactoryMemCalls2
import Verif.Props.Linked

/-!
# Memory of the message generators (C81)

`Call` is a call of one of the functions of `/repo/src/ranap_msg_factory.c`, `Call.run` what it does to the heap,
`Leaves x n`: it frees only what it allocated, frees it once, and `n` blocks stay allocated that nobody has a
pointer to.
-/

namespace Verif.Props
open Verif.Aper Verif.Ie Verif.Ie.Spec Verif.Gen.Ranap Verif.Factory Verif.Factory.Spec
open Verif.Aper.Spec (fits)

/-- An empty heap. -/
def emptyHeap : Heap := ⟨0, []⟩

theorem live_empty : Live emptyHeap [] := ⟨⟨[], rfl, .refl _⟩, by simp⟩

/-- **C81**: the model with the heap returns the messages C51-C60 and C65 are about. -/
theorem C81_same_result (c : Call) : c.result = match c.run with
    | .fault f => .fault f
    | .ok x => .ok ((x emptyHeap).1.map (·.1)) := by
  have h := call_ok c
  unfold CallOk at h
  cases hr : c.run with
  | fault f => rw [hr] at h; exact h
  | ok x =>
    rw [hr] at h
    obtain ⟨r, h1, h2⟩ := h
    rw [h1]
    exact congrArg _ (h2 emptyHeap [] live_empty).1.symm

/-- **C81, full statement**: whatever the arguments, nothing but the message returned stays allocated. -/
def C81_full : Prop := ∀ (c : Call) x, c.run = .ok x → Leaves x 0

/-- **C81**: exactly so many blocks are left behind (`Spec.leftBehind`), and nothing is freed twice or without having
been allocated. -/
theorem C81_leaves (c : Call) {x : M (Option (Bytes × List Nat))} (h : c.run = .ok x) : Leaves x (leftBehind c) := by
  have hc := call_ok c
  unfold CallOk at hc
  rw [h] at hc
  obtain ⟨r, -, h2⟩ := hc
  intro μ live hl
  obtain ⟨-, lost, h3, h4, -⟩ := h2 μ live hl
  exact ⟨lost, h3, h4⟩

/-- **C81, proved part**: if a message is returned, nothing else stays allocated. -/
theorem C81_message_partial (c : Call) {x : M (Option (Bytes × List Nat))} {bs : Bytes} (h : c.run = .ok x)
    (hr : c.result = .ok (some bs)) : Leaves x 0 := by
  have hc := call_ok c
  unfold CallOk at hc
  rw [h] at hc
  obtain ⟨r, h1, h2⟩ := hc
  rw [hr] at h1
  cases h1
  obtain ⟨-, -, -, -, h0⟩ := h2 emptyHeap [] live_empty
  have := C81_leaves c h
  rwa [h0 rfl] at this

/-- Whatever the outcome: the message is the only new block afterwards, and freeing it leaves the heap as it was. -/
theorem C81_message_freed (c : Call) {x : M (Option (Bytes × List Nat))} {bs : Bytes} (h : c.run = .ok x)
    (hr : c.result = .ok (some bs)) : ∃ msg, (x emptyHeap).1 = some (bs, msg) ∧
      Clean ((x emptyHeap).2.trace ++ msg.map .free) := by
  obtain ⟨lost, h1, h2⟩ := C81_message_partial c h hr emptyHeap [] live_empty
  have h3 := C81_same_result c
  rw [h, hr] at h3
  dsimp only at h3
  cases hx : (x emptyHeap).1 with
  | none => rw [hx] at h3; cases h3
  | some p =>
    obtain ⟨b, msg⟩ := p
    rw [hx] at h2 h3
    cases h3
    refine ⟨msg, rfl, ?_⟩
    obtain rfl := List.length_eq_zero_iff.1 h1
    have h4 := live_release h2.2
    obtain ⟨⟨l, e, hp⟩, -⟩ := h4
    rw [List.perm_nil.1 hp] at e
    rw [List.append_nil] at e
    exact e

/-- Messages the functions return: a Reset, a Direct Transfer, a RAB assignment. -/
example : ∃ bs, (Call.reset2 0 (some cause46) (some rnc926)).result = .ok (some bs) := by
  obtain ⟨bs, h, -⟩ := (C52_reset 0 cause46 (some rnc926)).1 (by decide)
  exact ⟨bs, h⟩
example : ∃ bs, (Call.rabAssignVoice 1 0x0a0b0c0d 2342 true).result = .ok (some bs) := by
  obtain ⟨bs, h, -⟩ := C56_voice 1 0x0a0b0c0d 2342 true
  exact ⟨bs, h⟩

/-- A Global-RNC-ID with an RNC-ID of 4096. -/
def rnc4096 : Factory.RncId := { rnc926 with rncId := 4096 }

/-- **C81.** A Reset Acknowledge to an RNC with a number above 4095 leaves three blocks: the encoded domain
indicator, its value, and the list. -/
theorem C81_reset_ack (d : Nat) (r : Factory.RncId) (hd : ValidDomain d) (hr : ¬ ValidRnc r) :
    (Call.resetAck d (some r)).result = .ok none ∧ leftBehind (.resetAck d (some r)) = 3 := by
  refine ⟨(C52_reset_ack d (some r)).2 fun h => hr (h.2 r rfl), ?_⟩
  simp [leftBehind, hd, hr, elementBlocks]

example : ValidDomain 0 ∧ ¬ ValidRnc rnc4096 := by decide

/-- **C81 is violated.** -/
theorem C81_violated : ¬ C81_full := by
  intro hf
  obtain ⟨l1, e1, h1⟩ := C81_leaves (.resetAck 0 (some rnc4096)) rfl emptyHeap [] live_empty
  obtain ⟨l2, e2, h2⟩ := hf (.resetAck 0 (some rnc4096)) _ rfl emptyHeap [] live_empty
  obtain ⟨hn, h3⟩ := C81_reset_ack 0 rnc4096 (by decide) (by decide)
  rw [h3] at e1
  have h4 := C81_same_result (.resetAck 0 (some rnc4096))
  rw [hn] at h4
  simp only [Call.run, Res.ok.injEq] at h4
  cases hx : (resetAckM 0 (some rnc4096) emptyHeap).1 with
  | some p => rw [hx] at h4; cases h4
  | none =>
    rw [hx] at h1 h2
    obtain ⟨⟨a, ea, pa⟩, -⟩ := h1
    obtain ⟨⟨b, eb, pb⟩, -⟩ := h2
    rw [ea] at eb
    cases eb
    have := pa.length_eq
    have := pb.length_eq
    simp only [List.append_nil] at *
    omega

/-- The call made again and again. -/
def again (x : M (Option (Bytes × List Nat))) : Nat → M Unit
  | 0 => pure ()
  | n + 1 => do
    let _ ← x
    again x n

/-- **C81.** The memory is never given back: `n` calls leave `3 * n` blocks.  Every RESET whose RNC-ID is above 4095
makes one such call (C77_unanswered), so a peer can use up the memory. -/
theorem C81_reset_ack_again (d : Nat) (r : Factory.RncId) (hd : ValidDomain d) (hr : ¬ ValidRnc r) (n : Nat) :
    ∃ live, replay [] (again (resetAckM d (some r)) n emptyHeap).2.trace = some live ∧ live.length = 3 * n := by
  have step : ∀ μ live, Live μ live → ∃ live', Live (resetAckM d (some r) μ).2 live' ∧ live'.length = live.length + 3 := by
    intro μ live hl
    obtain ⟨hn, h3⟩ := C81_reset_ack d r hd hr
    have hc := call_ok (.resetAck d (some r))
    obtain ⟨res, h1, h2⟩ : ∃ res, (Call.resetAck d (some r)).result = .ok res ∧
      DoesWith [] (resetAckM d (some r)) res (leftBehind (.resetAck d (some r))) := hc
    rw [hn] at h1
    cases h1
    obtain ⟨e, lost, e1, h4, -⟩ := h2 μ live hl
    cases hx : (resetAckM d (some r) μ).1 with
    | some p => rw [hx] at e; cases e
    | none =>
      rw [hx] at h4
      exact ⟨_, h4, by rw [List.length_append, e1, h3]; omega⟩
  have key : ∀ n μ live, Live μ live → ∃ live', Live (again (resetAckM d (some r)) n μ).2 live' ∧
      live'.length = live.length + 3 * n := by
    intro n
    induction n with
    | zero => exact fun μ live h => ⟨live, h, rfl⟩
    | succ n ih =>
      intro μ live h
      obtain ⟨l1, h1, e1⟩ := step μ live h
      obtain ⟨l2, h2, e2⟩ := ih _ _ h1
      exact ⟨l2, h2, by omega⟩
  obtain ⟨live, ⟨⟨l, e, p⟩, -⟩, hlen⟩ := key n emptyHeap [] live_empty
  exact ⟨l, e, by rw [p.length_eq, hlen]; simp⟩

open Verif.Linked Verif.Linked.Spec in
/-- **C81.** Octets of a RESET with an RNC-ID above 4095 make the client call `ranap_new_msg_reset_ack` with arguments
that leave three blocks (and send nothing, C77_unanswered). -/
theorem C81_remote (env : Iu.Env) {data : Bytes} {l : List Ie} {v : Val} (h : ClMsg data 1 9 l)
    (hv : elem resetIEs l 86 = some v) (hr : 4095 < (rncOf (some v)).rncId) :
    ∃ d r, (linked env).decodeCl data = some ⟨1, 9, .reset d (some r)⟩ ∧
      leftBehind (.resetAck d (some (toRncId r))) = 3 := by
  have hm : (linked env).decodeCl data = some ⟨1, 9, clBody 1 9 l⟩ := by
    rw [decodeCl_iff]
    exact .inl ⟨1, 9, l, h, rfl⟩
  have h86 : Has l 86 := Classical.byContradiction fun hn => by rw [elem_none hn] at hv; cases hv
  rw [clBody, if_pos ⟨rfl, rfl⟩, if_pos h86, hv] at hm
  have hdom : ValidDomain (domainOf (elem resetIEs l 3)) := by
    cases he : elem resetIEs l 3 with
    | none => exact Nat.zero_lt_two
    | some v =>
      have := elem_shaped (d := resetIEs.ies[1]) (by with_unfolding_all rfl) he
      obtain ⟨n, rfl, hn⟩ := enum_shape this
      exact hn
  refine ⟨_, _, hm, (C81_reset_ack _ _ hdom fun hh => ?_).2⟩
  have := hh.2.2
  simp only [toRncId] at this
  omega

/-- **C81.** Paging a subscriber with an IMSI of fewer than 5 or more than 16 digits leaves three blocks. -/
theorem C81_paging (imsi : Bytes) (t : Option (BitVec 32)) (p : Bool) (c : BitVec 32)
    (h : imsi.length < 5 ∨ 16 < imsi.length) : leftBehind (.pagingCmd (some imsi) t p c) = 3 := by
  have : ¬ ImsiLength imsi := by unfold ImsiLength; omega
  simp [leftBehind, this, elementBlocks]

example : ([0x31, 0x32, 0x33] : Bytes).length < 5 := by decide

/-- **C81.** A Security Mode Command with UEA0 ("no encryption") permitted besides UEA1, and a ciphering key: the list
of the integrity algorithms is emptied but its elements and the key stay. -/
theorem C81_uea0 (ik ck : Bytes) (st : Nat) : leftBehind (.secModCmd2 (some ik) (some ck) st 0x06 0x03) = 3 := by
  have h1 : ¬ Unknown 0x06 := by
    rw [unknown_iff]
    exact fun h => h ((onlyTwo_iff _).2 (by decide))
  have h2 : Unknown 0x03 := ⟨0, by decide, by decide, by decide⟩
  simp only [leftBehind, h1, h2, if_false, if_true, Option.isSome_some, and_self]
  rfl

/-- **C81.** No call leaves more than eleven blocks. -/
theorem C81_bounded (c : Call) : leftBehind c ≤ 11 := by
  have hb : ∀ b : Bool, b.toNat ≤ 1 := by decide
  have ho : ∀ {α : Type} (o : Option α), o.toList.length ≤ 1 := fun o => by cases o <;> simp
  have hk : ∀ m, known m ≤ 2 := fun m => by
    have h1 := hb (m.getLsbD 1)
    have h2 := hb (m.getLsbD 2)
    unfold known
    omega
  have he : ∀ n, n ≤ 5 → elementBlocks n ≤ 11 := fun n h => by unfold elementBlocks; split <;> omega
  have ha : ∀ n, n ≤ 2 → algorithmBlocks n ≤ 3 := fun n h => by unfold algorithmBlocks; split <;> omega
  have h0 : ∀ (b : Bool) m, (if b then 0 else known m) ≤ 2 := fun b m => by
    have := hk m
    split <;> omega
  cases c <;> simp only [leftBehind]
  case errorInd c v d r =>
    have h1 := ho c
    have h2 := ho v
    have := he _ (Nat.le_trans h1 (by omega : 1 ≤ 5))
    have := he (c.toList.length + v.toList.length) (by omega)
    repeat' split
    all_goals omega
  case secModCmd2 ik ck st uia uea =>
    have h1 := ho ik
    have h2 := ho ck
    have := ha _ (h0 (uia.getLsbD 0) uia)
    have := ha _ (h0 (uea.getLsbD 0) uea)
    have := ha _ (hk uea)
    have := ha 0 (by omega)
    have := hk uia
    have := he 1 (by omega)
    have := he (1 + ck.toList.length) (by omega)
    split
    · omega
    · repeat' split
      all_goals omega
  case pagingCmd i t p c =>
    have h1 := ho t
    have := he 1 (by omega)
    have := he (2 + t.toList.length) (by omega)
    repeat' split
    all_goals omega
  all_goals
    repeat' split
    all_goals first | omega | exact he _ (by omega)

/-- **C81.** These never leave anything behind. -/
theorem C81_never (sapi : Byte) (nas : Bytes) (imsi : Option Bytes) (c : Option Cause) (rab : Byte)
    (ip tei : BitVec 32) (port : BitVec 16) (x213 : Bool) :
    leftBehind (.dt sapi nas) = 0 ∧ leftBehind (.commonId imsi) = 0 ∧ leftBehind (.iuRelCmd c) = 0 ∧
    leftBehind .iuRelCompl = 0 ∧ leftBehind (.iuRelReq c) = 0 ∧ leftBehind (.rabAssignVoice rab ip port x213) = 0 ∧
    leftBehind (.rabAssignData rab ip tei x213) = 0 := by
  refine ⟨rfl, rfl, rfl, rfl, rfl, rfl, rfl⟩

end Verif.Props
