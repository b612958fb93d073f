import Verif.Proofs.Compose

/-!
# RANAP messages inside RUA messages (C82)

What the user does to send a NAS PDU: generate the RANAP message, wrap it.
-/

namespace Verif.Props
open Verif.Aper Verif.Ie Verif.Ie.Spec Verif.Rua Verif.Rua.Spec Verif.Factory
open Verif.Factory.Spec (low24 psOrCs Says ValidRnc rncVal)

/-- A RANAP message is generated and wrapped: with complete contents. -/
def Arrives (gen : Res (Option Bytes)) (wrap : Option Bytes → Res Run) (direction proc : Nat) (elems : List (Nat × Val))
    (code : Nat) (header : List (Nat × Val)) : Prop :=
  ∃ ranap, gen = .ok (some ranap) ∧ Says ranap direction proc elems ∧ Conveys (wrap (some ranap)) code (header ++ [(4, .octets ranap)])

/-- ... or a complete RANAP message is generated, but what comes out of the wrapping is empty. -/
def LostInWrapping (gen : Res (Option Bytes)) (wrap : Option Bytes → Res Run) (direction proc : Nat) (elems : List (Nat × Val)) :
    Prop :=
  ∃ ranap tr, gen = .ok (some ranap) ∧ Says ranap direction proc elems ∧ wrap (some ranap) = .ok ⟨tr, some ⟨[], 19⟩⟩

/-- ... or there is no RANAP message, and an empty one is wrapped. -/
def EmptyInside (gen : Res (Option Bytes)) (wrap : Option Bytes → Res Run) (code : Nat) (header : List (Nat × Val)) : Prop :=
  gen = .ok (some []) ∧ Conveys (wrap (some [])) code header

/-- What a Direct Transfer with a NAS PDU says. -/
def dtElems (sapi : Byte) (nas : Bytes) : List (Nat × Val) := [(16, .octets nas), (59, .enum (if sapi = 3 then 1 else 0))]

/-- What an Initial UE Message says. -/
def ueElems (connId : BitVec 32) (isPs : Bool) (r : RncId) (nas : Bytes) : List (Nat × Val) :=
  [(3, .enum (psOrCs isPs)), (15, fixedLai r.plmn), (58, fixedSai r.plmn), (16, .octets nas), (79, .bits (low24 connId)),
    (86, rncVal r)]

/-- **C82.** A NAS PDU in a RANAP Direct Transfer in a RUA Direct Transfer: exactly those of up to 977 octets arrive.  From 978
to 1004 the RUA message is empty although there is a RANAP message; above, an empty RANAP message is sent. -/
theorem C82_direct_transfer (isPs : Bool) (ctx : BitVec 32) (sapi : Byte) (nas : Bytes) :
    let header := [(7, .enum (psOrCs isPs)), (3, .bits (low24 ctx))]
    (nas.length ≤ 977 → Arrives (dt sapi nas) (newDt isPs ctx) 1 20 (dtElems sapi nas) 2 header) ∧
    (977 < nas.length → nas.length ≤ 1004 → LostInWrapping (dt sapi nas) (newDt isPs ctx) 1 20 (dtElems sapi nas)) ∧
    (1004 < nas.length → EmptyInside (dt sapi nas) (newDt isPs ctx) 2 (header ++ [(4, .octets [])])) := by
  refine ⟨fun h => ?_, fun h h' => ?_, fun h => ⟨(dt_both sapi nas).2 h, C58_direct_transfer isPs ctx [] (by simp)⟩⟩
  · obtain ⟨bs, h1, h2, h3, -⟩ := dt_length sapi nas (by omega)
    exact ⟨bs, h1, h2, C58_direct_transfer isPs ctx bs (by omega)⟩
  · obtain ⟨bs, h1, h2, -, h3⟩ := dt_length sapi nas h'
    exact ⟨bs, _, h1, h2, (dt_wraps isPs ctx bs).2 (by rw [h3 (by omega)]; omega)⟩

/-- **C82.** ... in a RUA Disconnect: up to 972 octets; above 1004, the Disconnect has no RANAP message. -/
theorem C82_disconnect (isPs : Bool) (ctx : BitVec 32) (sapi : Byte) (nas : Bytes) :
    let header := [(7, .enum (psOrCs isPs)), (3, .bits (low24 ctx)), (1, .choice 0 (.enum 0))]
    (nas.length ≤ 972 → Arrives (dt sapi nas) (newDisc isPs ctx) 1 20 (dtElems sapi nas) 3 header) ∧
    (972 < nas.length → nas.length ≤ 1004 → LostInWrapping (dt sapi nas) (newDisc isPs ctx) 1 20 (dtElems sapi nas)) ∧
    (1004 < nas.length → EmptyInside (dt sapi nas) (newDisc isPs ctx) 3 header) := by
  refine ⟨fun h => ?_, fun h h' => ?_, fun h => ⟨(dt_both sapi nas).2 h, C58_disconnect isPs ctx (some []) (by simp)⟩⟩
  · obtain ⟨bs, h1, h2, h3, -⟩ := dt_length sapi nas (by omega)
    have hne : bs ≠ [] := by
      rintro rfl
      obtain ⟨⟨p, m, l, -, -, h4, -⟩, -⟩ := h2
      have := congrArg List.length h4
      rw [Factory.pduOctets_length] at this
      simp at this
      omega
    match bs, hne with
    | b :: bs, _ => exact ⟨_, h1, h2, C58_disconnect isPs ctx (some (b :: bs)) (by simp at h3 ⊢; omega)⟩
  · obtain ⟨bs, h1, h2, -, h3⟩ := dt_length sapi nas h'
    have hl := h3 (by omega)
    have hne : bs ≠ [] := by rintro rfl; simp at hl
    exact ⟨bs, _, h1, h2, (disc_wraps isPs ctx bs hne).2 (by rw [hl]; omega)⟩

/-- **C82.** A NAS PDU in an Initial UE Message in a RUA Connect: exactly those of up to 934 octets arrive. -/
theorem C82_connect (isPs : Bool) (ctx : BitVec 32) {r : RncId} (hr : ValidRnc r) (nas : Bytes) :
    let header := [(7, .enum (psOrCs isPs)), (3, .bits (low24 ctx)), (6, .enum 1)]
    (nas.length ≤ 934 → Arrives (initialUe ctx isPs (some r) nas) (newConn isPs ctx) 1 19 (ueElems ctx isPs r nas) 1 header) ∧
    (934 < nas.length → nas.length ≤ 966 →
      LostInWrapping (initialUe ctx isPs (some r) nas) (newConn isPs ctx) 1 19 (ueElems ctx isPs r nas)) ∧
    (966 < nas.length → EmptyInside (initialUe ctx isPs (some r) nas) (newConn isPs ctx) 1 (header ++ [(4, .octets [])])) := by
  refine ⟨fun h => ?_, fun h h' => ?_, fun h => ⟨(C65_initial_ue ctx isPs r nas).2.1 hr h, C58_connect isPs ctx [] (by simp)⟩⟩
  · obtain ⟨bs, h1, h2, h3, -⟩ := ue_length ctx isPs hr nas (by omega)
    exact ⟨bs, h1, h2, C58_connect isPs ctx bs (by omega)⟩
  · obtain ⟨bs, h1, h2, -, h3⟩ := ue_length ctx isPs hr nas h'
    exact ⟨bs, _, h1, h2, (conn_wraps isPs ctx bs).2 (by rw [h3 (by omega)]; omega)⟩

/-- **C82**, as one would like it: whatever the RANAP library makes a message of, the RUA library can transport. -/
def C82_full : Prop := ∀ (isPs : Bool) (ctx : BitVec 32) (sapi : Byte) (nas ranap : Bytes) (elems : List (Nat × Val)),
  dt sapi nas = .ok (some ranap) → Says ranap 1 20 elems →
    Conveys (newDt isPs ctx (some ranap)) 2 [(7, .enum (psOrCs isPs)), (3, .bits (low24 ctx)), (4, .octets ranap)]

theorem C82_violated : ¬ C82_full := by
  intro h
  obtain ⟨nas, hl⟩ : ∃ nas : Bytes, nas.length = 978 := ⟨List.replicate 978 0, List.length_replicate⟩
  obtain ⟨ranap, tr, h1, h2, h3⟩ := (C82_direct_transfer false 0 0 nas).2.1 (by omega) (by omega)
  obtain ⟨tr', bs, h4, ⟨crit, h5⟩, -⟩ := h false 0 0 nas ranap _ h1 h2
  rw [h3] at h4
  simp only [Res.ok.injEq, Run.mk.injEq, Option.some.injEq, Msg.mk.injEq] at h4
  obtain ⟨m, l, -, h6, -⟩ := h5
  have := congrArg List.length h6
  rw [← h4.2.1, Factory.pduOctets_length] at this
  simp at this
  omega

example : ([0x05, 0x08, 0x02] : Bytes).length ≤ 977 ∧ ([0x05, 0x08, 0x02] : Bytes).length ≤ 934 := by decide
example : 977 < (List.replicate 1000 (0 : Byte)).length ∧ (List.replicate 1000 (0 : Byte)).length ≤ 1004 ∧
    934 < (List.replicate 950 (0 : Byte)).length ∧ (List.replicate 950 (0 : Byte)).length ≤ 966 := by
  simp only [List.length_replicate]; decide
example : ValidRnc rnc926 := by decide

/-- the octets for a short Direct Transfer -/
example : (match dt 0 [0xaa, 0xbb, 0xcc] with
    | .ok r => (match newDt false 42 r with
      | .ok r => r.msg
      | .fault _ => none)
    | .fault _ => none) = some ⟨[0x00, 0x02, 0x00, 0x28, 0x00, 0x00, 0x03, 0x00, 0x07, 0x00, 0x01, 0x00, 0x00, 0x03, 0x00, 0x03,
      0x00, 0x00, 0x2a, 0x00, 0x04, 0x00, 0x15, 0x14, 0x00, 0x14, 0x40, 0x10, 0x00, 0x00, 0x02, 0x00, 0x10, 0x40, 0x04, 0x03,
      0xaa, 0xbb, 0xcc, 0x00, 0x3b, 0x40, 0x01, 0x00], 19⟩ := by decide +kernel

end Verif.Props
