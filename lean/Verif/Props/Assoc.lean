import Verif.Props.Addr
import Verif.Proofs.AperShape
import Verif.Gen.RanapTypes

/-!
# C103: reading transport associations of the other side
-/

namespace Verif.Props
open Verif.Aper Verif.Aper.Spec Verif.Addr Verif.Gen.Ranap

/-- A decoded transport association as the structure a C program gets: the first alternative is a GTP TEI, the second a
binding id (asn1/ranap/RANAP-IEs.asn:914-918). -/
def assocOf : Val → TranspAssoc
  | .choice 0 (.octets b) => .gtpTei b
  | .choice 1 (.octets b) => .bindingId b
  | _ => .nothing

/-- A binding id for an RTP port: the port, not zero, and two octets of zero. -/
def IsPort (t : TranspAssoc) (port : BitVec 16) : Prop :=
  port ≠ 0 ∧ t = .bindingId [port.extractLsb' 8 8, port.extractLsb' 0 8, 0, 0]

/-- A GTP TEI that looks like one. -/
def LooksLikePort (t : TranspAssoc) (port : BitVec 16) : Prop :=
  port ≠ 0 ∧ t = .gtpTei [port.extractLsb' 8 8, port.extractLsb' 0 8, 0, 0]

/-- **C103, full statement**: `ranap_transp_assoc_decode` survives every transport association that was decoded from a
message, and accepts exactly the binding ids of RTP ports, with the port. -/
def C103_full : Prop := ∀ (bs : Bytes) (v : Val) (p0 : BitVec 16), decode RANAP_IuTransportAssociation bs = some v →
  ∃ rc p, transpAssocDecode p0 (some (assocOf v)) = .ok (rc, p) ∧ (rc = 0 ↔ ∃ port, IsPort (assocOf v) port) ∧
    ∀ port, IsPort (assocOf v) port → p = port

theorem port_ext {p q : BitVec 16} (h1 : p.extractLsb' 8 8 = q.extractLsb' 8 8) (h2 : p.extractLsb' 0 8 = q.extractLsb' 0 8) :
    p = q := by
  have h1 := congrArg BitVec.toNat h1
  have h2 := congrArg BitVec.toNat h2
  simp only [BitVec.extractLsb'_toNat, Nat.shiftRight_eq_div_pow] at h1 h2
  apply BitVec.eq_of_toNat_eq
  omega

/-- What is decoded is one of the two, and has four octets. -/
theorem assoc_shape {bs : Bytes} {v : Val} (h : decode RANAP_IuTransportAssociation bs = some v) :
    ∃ b0 b1 b2 b3, assocOf v = .gtpTei [b0, b1, b2, b3] ∨ assocOf v = .bindingId [b0, b1, b2, b3] := by
  have hs := decode_shaped h
  cases v <;> simp [shaped, RANAP_IuTransportAssociation] at hs
  rename_i i v
  have four : ∀ b : Bytes, b.length = 4 → ∃ b0 b1 b2 b3, b = [b0, b1, b2, b3] := by
    rintro (_ | ⟨b0, _ | ⟨b1, _ | ⟨b2, _ | ⟨b3, _ | ⟨b4, b⟩⟩⟩⟩⟩) hb <;> simp at hb
    exact ⟨b0, b1, b2, b3, rfl⟩
  match i with
  | 0 =>
    simp [Fields.length, shapedAlt, RANAP_GTP_TEI] at hs
    cases v <;> simp [shaped, shapedLen] at hs
    obtain ⟨b0, b1, b2, b3, rfl⟩ := four _ hs.1
    exact ⟨b0, b1, b2, b3, .inl rfl⟩
  | 1 =>
    simp [Fields.length, shapedAlt, RANAP_BindingID] at hs
    cases v <;> simp [shaped, shapedLen] at hs
    obtain ⟨b0, b1, b2, b3, rfl⟩ := four _ hs.1
    exact ⟨b0, b1, b2, b3, .inr rfl⟩
  | i + 2 => simp [Fields.length, shapedAlt] at hs

/-- **C103**, the part that holds, exactly: all of them are survived; those accepted are the ports, and the TEIs that look
like one. -/
theorem C103_partial {bs : Bytes} {v : Val} {p0 : BitVec 16} (h : decode RANAP_IuTransportAssociation bs = some v) :
    ∃ rc p, transpAssocDecode p0 (some (assocOf v)) = .ok (rc, p) ∧
      (rc = 0 ↔ ∃ port, IsPort (assocOf v) port ∨ LooksLikePort (assocOf v) port) ∧
      ∀ port, IsPort (assocOf v) port ∨ LooksLikePort (assocOf v) port → p = port := by
  obtain ⟨b0, b1, b2, b3, hv⟩ := assoc_shape h
  have he : transpAssocDecode p0 (some (assocOf v)) = transpAssocDecode p0 (some (.bindingId [b0, b1, b2, b3])) := by
    rcases hv with hv | hv <;> rw [hv] <;> rfl
  have hp : ∀ port, (IsPort (assocOf v) port ∨ LooksLikePort (assocOf v) port) ↔
      port ≠ 0 ∧ [b0, b1, b2, b3] = [port.extractLsb' 8 8, port.extractLsb' 0 8, 0, 0] := by
    intro port
    rcases hv with hv | hv <;> simp only [IsPort, LooksLikePort, hv, reduceCtorEq, TranspAssoc.gtpTei.injEq,
      TranspAssoc.bindingId.injEq, and_false, false_or, or_false]
  obtain ⟨-, rc, p, e1, e2, e3⟩ := C08_assoc_accepts_iff b0 b1 b2 b3 p0
  have key : ∀ port, (IsPort (assocOf v) port ∨ LooksLikePort (assocOf v) port) → rc = 0 ∧ p = port := by
    intro port h
    obtain ⟨h0, h1⟩ := (hp port).1 h
    simp only [List.cons.injEq, and_true] at h1
    obtain ⟨rfl, rfl, rfl, rfl⟩ := h1
    have hrc : rc = 0 := by
      rw [e2]
      refine ⟨rfl, rfl, fun hz => h0 ?_⟩
      exact port_ext (hz.1.trans (by decide)) (hz.2.trans (by decide))
    refine ⟨hrc, ?_⟩
    exact port_ext (e3 hrc).1 (e3 hrc).2
  refine ⟨rc, p, he.trans e1, ⟨fun hrc => ⟨p, (hp p).2 ?_⟩, fun ⟨port, h⟩ => (key port h).1⟩, fun port h => (key port h).2⟩
  obtain ⟨rfl, rfl, h0⟩ := e2.1 hrc
  obtain ⟨z1, z2⟩ := e3 hrc
  rw [z1, z2]
  refine ⟨?_, rfl⟩
  rintro rfl
  apply h0
  rw [← z1, ← z2]
  decide

/-- **C103** is violated: the TEI 0x12340000 is taken for the port 0x1234. -/
theorem C103_violated : ¬ C103_full := by
  intro h
  obtain ⟨rc, p, h1, h2, -⟩ := h [0x00, 0x12, 0x34, 0x00, 0x00] (.choice 0 (.octets [0x12, 0x34, 0, 0])) 0 rfl
  have : transpAssocDecode 0 (some (assocOf (.choice 0 (.octets [0x12, 0x34, 0, 0])))) = .ok (0, 0x1234) := by decide
  rw [this] at h1
  cases h1
  obtain ⟨port, -, h3⟩ := h2.1 rfl
  cases h3

/-- a binding id in a message, and what is made of it -/
example : decode RANAP_IuTransportAssociation [0x40, 0x12, 0x34, 0x00, 0x00] = some (.choice 1 (.octets [0x12, 0x34, 0, 0])) := rfl
example : IsPort (assocOf (.choice 1 (.octets [0x12, 0x34, 0, 0]))) 0x1234 := ⟨by decide, by decide⟩

end Verif.Props
