import Verif.Proofs.FactoryRx

/-!
# Single messages
-/

namespace Verif.Factory
open Verif.Aper Verif.Ie Verif.Ie.Spec Verif.Rx.Spec Verif.Wire Verif.Gen.Ranap Verif.Factory.Spec
open Verif.Aper.Spec (fits fitsFields fitsAlt fitsOct fitsLen)

theorem says_nonempty {bs : Bytes} {direction code : Nat} {want : List (Nat × Val)} (h : Says bs direction code want) :
    bs ≠ [] := by
  obtain ⟨⟨p, m, l, -, -, rfl, -⟩, -⟩ := h
  simp [pduOctets]

theorem saysOrEmpty_says {bs : Bytes} {direction code : Nat} {want : List (Nat × Val)} (h : SaysOrEmpty bs direction code want)
    (hb : bs ≠ []) : Says bs direction code want := by
  obtain ⟨w, hw, rfl⟩ := h
  split at hb
  · rename_i hl
    rw [if_pos hl]
    exact ⟨hw, hl⟩
  · exact absurd rfl hb

/-- Both outcomes for a message that may be long. -/
theorem Kind.bothLong {m : MsgDef} {direction code crit : Nat} (k : Kind m direction code crit) {s : Struct}
    {c : List (IeDef × Val)} {valid : Prop} (hcont : contents m s = some c) (hfit : allFit c = true ↔ valid) :
    (valid → ∃ bs, Res.ok (generate direction code crit m s) = .ok (some bs) ∧ SaysOrEmpty bs direction code (wanted c) ∧
      (bound c ≤ 1000 → Says bs direction code (wanted c))) ∧
    (¬ valid → Res.ok (generate direction code crit m s) = .ok none) := by
  refine ⟨fun h => ?_, fun h => ?_⟩
  · obtain ⟨bs, h1, h2⟩ := k.exact hcont (hfit.2 h)
    refine ⟨bs, congrArg _ h1, h2, fun hb => ?_⟩
    obtain ⟨bs', h1', h2'⟩ := k.says hcont (hfit.2 h) hb
    obtain rfl := Option.some.inj (h1.symm.trans h1')
    exact h2'
  · have : allFit c = false := by
      cases h' : allFit c
      · rfl
      · exact absurd (hfit.1 h') h
    exact congrArg _ (k.null hcont this)

/-! ## Error Indication -/

/-- The rows of Error Indication for given arguments. -/
def eiRows (cause : Option Cause) (diag : Option Val) (domain : Option Nat) : List (IeDef × Val) :=
  (cause.map fun c => (errorIndicationIEs.ies[0], c.toVal)).toList ++
  (diag.map fun v => (errorIndicationIEs.ies[1], v)).toList ++
  (domain.map fun d => (errorIndicationIEs.ies[2], Val.enum d)).toList

theorem ei_mask : present errorIndicationIEs idCause = 1 ∧ present errorIndicationIEs idCriticalityDiagnostics = 2 ∧
   present errorIndicationIEs idCN_DomainIndicator = 4 ∧ present resetAcknowledgeIEs idGlobalRNC_ID = 2 := by decide
theorem ei_put (v : Val) (f0 f1 f2 f3 : Option Slot) (k : BitVec 16) :
  put errorIndicationIEs idCause v ⟨k, [f0, f1, f2, f3]⟩ = ⟨k, [some ⟨v, none⟩, f1, f2, f3]⟩ ∧
  put errorIndicationIEs idCriticalityDiagnostics v ⟨k, [f0, f1, f2, f3]⟩ = ⟨k, [f0, some ⟨v, none⟩, f2, f3]⟩ ∧
  put errorIndicationIEs idCN_DomainIndicator v ⟨k, [f0, f1, f2, f3]⟩ = ⟨k, [f0, f1, some ⟨v, none⟩, f3]⟩ ∧
  put errorIndicationIEs idGlobalRNC_ID v ⟨k, [f0, f1, f2, f3]⟩ = ⟨k, [f0, f1, f2, some ⟨v, none⟩]⟩ := ⟨rfl, rfl, rfl, rfl⟩
theorem ei_zero : errorIndicationIEs.zero = ⟨0, [none, none, none, none]⟩ := rfl
theorem ei_or (a k : BitVec 16) (fs) : orMask a ⟨k, fs⟩ = ⟨k ||| a, fs⟩ := rfl
theorem ei_set (a k : BitVec 16) (fs) : setMask a ⟨k, fs⟩ = ⟨a, fs⟩ := rfl

theorem errorInd_none (cause : Option Cause) (diag : Option Val) (domain : Option Nat) :
    ∃ s, errorInd cause diag domain none = .ok (generate 1 22 ignore errorIndicationIEs s) ∧
      contents errorIndicationIEs s = some (eiRows cause diag domain) := by
  refine ⟨_, rfl, ?_⟩
  obtain ⟨m1, m2, m3, m4⟩ := ei_mask
  rw [ei_zero, m1, m2, m3]
  cases cause <;> cases diag <;> cases domain <;> simp only [ei_or, ei_put] <;>
    simp [contents, contentsRows, isPresent, presentConst, eiRows, errorIndicationIEs, slotVal]

/-- No diagnostics. -/
def emptyDiag : Val := .seq [none, none, none, none, none]

theorem errorInd_some (cause : Option Cause) (diag : Option Val) (domain : Option Nat) (r : RncId) :
    ∃ s, errorInd cause diag domain (some r) = .ok (generate 1 22 ignore errorIndicationIEs s) ∧
      contents errorIndicationIEs s = some [(errorIndicationIEs.ies[1], diag.getD emptyDiag)] := by
  refine ⟨_, rfl, ?_⟩
  obtain ⟨m1, m2, m3, m4⟩ := ei_mask
  have hz : zeroVal RANAP_CriticalityDiagnostics = some emptyDiag := rfl
  rw [ei_zero, m1, m2, m3, m4]
  cases cause <;> cases diag <;> cases domain <;> simp only [ei_or, ei_put, ei_set] <;>
    simp [contents, contentsRows, isPresent, presentConst, errorIndicationIEs, slotVal, hz]

/-! ## Algorithms -/

theorem mask_bit : ∀ mask : Byte, ∀ n < 8, (mask &&& ((1 : Byte) <<< n) = 0) = (mask.getLsbD n = false) := by
  intro mask n hn
  apply propext
  revert mask n
  decide +kernel

/-- No bit but 1 and 2. -/
def onlyTwo (mask : Byte) : Prop := ∀ i, mask.getLsbD i = true → i = 1 ∨ i = 2

theorem onlyTwo_iff (mask : Byte) : onlyTwo mask ↔ mask.getLsbD 0 = false ∧ mask.getLsbD 3 = false ∧
    mask.getLsbD 4 = false ∧ mask.getLsbD 5 = false ∧ mask.getLsbD 6 = false ∧ mask.getLsbD 7 = false := by
  constructor
  · intro h
    have h' : ∀ i, i ≠ 1 → i ≠ 2 → mask.getLsbD i = false := by
      intro i h1 h2
      cases hb : mask.getLsbD i
      · rfl
      · rcases h i hb with h | h <;> contradiction
    exact ⟨h' 0 (by decide) (by decide), h' 3 (by decide) (by decide), h' 4 (by decide) (by decide),
      h' 5 (by decide) (by decide), h' 6 (by decide) (by decide), h' 7 (by decide) (by decide)⟩
  · rintro ⟨h0, h3, h4, h5, h6, h7⟩ i hi
    by_cases h8 : 8 ≤ i
    · rw [BitVec.getLsbD_of_ge _ _ h8] at hi; cases hi
    · have : i = 0 ∨ i = 1 ∨ i = 2 ∨ i = 3 ∨ i = 4 ∨ i = 5 ∨ i = 6 ∨ i = 7 := by omega
      rcases this with rfl | rfl | rfl | rfl | rfl | rfl | rfl | rfl <;> simp_all

theorem algorithms_eq (mask : Byte) (a1 a2 : Int) :
    (onlyTwo mask → algorithms mask a1 a2 8 = some (selected mask a1 a2)) ∧
    (¬ onlyTwo mask → algorithms mask a1 a2 8 = none) := by
  have hb := mask_bit mask
  rw [onlyTwo_iff]
  simp only [algorithms, hb 0 (by decide), hb 1 (by decide), hb 2 (by decide), hb 3 (by decide), hb 4 (by decide),
    hb 5 (by decide), hb 6 (by decide), hb 7 (by decide), selected]
  generalize mask.getLsbD 0 = b0
  generalize mask.getLsbD 1 = b1
  generalize mask.getLsbD 2 = b2
  generalize mask.getLsbD 3 = b3
  generalize mask.getLsbD 4 = b4
  generalize mask.getLsbD 5 = b5
  generalize mask.getLsbD 6 = b6
  generalize mask.getLsbD 7 = b7
  cases b0 <;> cases b1 <;> cases b2 <;> cases b3 <;> simp <;> cases b4 <;> simp <;> cases b5 <;> simp <;>
    cases b6 <;> simp

end Verif.Factory
