import Verif.Model.Aper

/-!
# Deciding that two types are the same
-/

namespace Verif.Aper

mutual
/-- Equality of types, computably. -/
def Ty.eqb : Ty → Ty → Bool
  | .null, .null => true
  | .bool, .bool => true
  | .int r, .int r' => decide (r = r')
  | .enum a b c, .enum a' b' c' => a == a' && b == b' && c == c'
  | .bits s, .bits s' => decide (s = s')
  | .octets s, .octets s' => decide (s = s')
  | .any, .any => true
  | .seq e fs, .seq e' fs' => e == e' && fs.eqb fs'
  | .choice e r a, .choice e' r' a' => e == e' && r.eqb r' && a.eqb a'
  | .seqOf s t, .seqOf s' t' => decide (s = s') && t.eqb t'
  | .oid, .oid => true
  | _, _ => false
/-- Equality of components, computably. -/
def Fields.eqb : Fields → Fields → Bool
  | .nil, .nil => true
  | .cons o t fs, .cons o' t' fs' => o == o' && t.eqb t' && fs.eqb fs'
  | _, _ => false
end

mutual
theorem Ty.eqb_sound (s t : Ty) (h : s.eqb t = true) : s = t := by
  cases s <;> cases t <;> simp only [Ty.eqb, Bool.false_eq_true] at h <;>
    try simp only [decide_eq_true_eq, Bool.and_eq_true, beq_iff_eq] at h
  · rfl
  · rfl
  · rw [h]
  · obtain ⟨⟨rfl, rfl⟩, rfl⟩ := h; rfl
  · rw [h]
  · rw [h]
  · rfl
  · obtain ⟨rfl, h⟩ := h; rw [Fields.eqb_sound _ _ h]
  · obtain ⟨⟨rfl, h1⟩, h2⟩ := h; rw [Fields.eqb_sound _ _ h1, Fields.eqb_sound _ _ h2]
  · obtain ⟨rfl, h⟩ := h; rw [Ty.eqb_sound _ _ h]
  · rfl
theorem Fields.eqb_sound (s t : Fields) (h : s.eqb t = true) : s = t := by
  cases s <;> cases t <;> simp only [Fields.eqb, Bool.false_eq_true] at h
  · rfl
  · simp only [Bool.and_eq_true, beq_iff_eq] at h
    obtain ⟨⟨rfl, h1⟩, h2⟩ := h
    rw [Ty.eqb_sound _ _ h1, Fields.eqb_sound _ _ h2]
end

end Verif.Aper
