import Verif.Proofs.AperSize
import Verif.Proofs.Wire
import Verif.Proofs.Ie

/-!
# The size of decoded messages
-/

namespace Verif.Aper
open Verif.Aper.Spec

/-! ## Octets -/

theorem cost_octStr8 (s : Option Size) : Cost (fun b : Bytes => 8 * b.length) 1 0 (dOctStr s) := by
  cases s with
  | none => exact cost_octets
  | some s =>
    have exactly : ∀ n, Cost (fun b : Bytes => 8 * b.length) 1 0 (do return toOctets (← dBody s (8 * n))) := by
      intro n i v j h
      rw [bind_apply] at h
      cases hx : dBody s (8 * n) i with
      | none => rw [hx] at h; cases h
      | some p =>
        obtain ⟨a, k⟩ := p
        rw [hx] at h
        cases h
        have h1 := cost_body s (8 * n) _ _ _ hx
        have h2 : a.length = 8 * n := by
          have take : ∀ {i}, dTake (8 * n) i = some (a, j) → a.length = 8 * n := by
            intro i hx
            unfold dTake at hx
            split at hx
            · cases hx
            · next hs => cases hx; exact splitN_taken hs
          unfold dBody at hx
          split at hx
          · exact take hx
          · rw [bind_apply] at hx
            cases hy : dAlign i with
            | none => rw [hy] at hx; cases hx
            | some q => rw [hy] at hx; exact take hx
        dsimp only
        rw [toOctets_length]
        omega
    have both : ∀ out : Bool, Cost (fun b : Bytes => 8 * b.length) 1 0 (if out = true then dOctets else do
        let n ← dSize s
        return toOctets (← dBody s (8 * n))) := by
      intro out
      cases out
      · exact cost_then (needs_size_any s) exactly
      · exact cost_octets
    simp only [dOctStr]
    cases s.ext
    · exact cost_then (needs_pure false) both
    · exact cost_then needs_bit both

theorem cost_listOctets {d : Dec Val} (h : Cost (fun v => 8 * octetsIn v) 1 0 d) :
    ∀ n, Cost (fun vs => 8 * octetsInAll vs) 1 0 (dList d n)
  | 0 => cost_pure _ (by simp [octetsInAll])
  | n + 1 => by
    unfold dList
    refine cost_bind (b := 0) (c := 0) h fun v => ?_
    rw [Nat.add_comm]
    exact cost_bind (b := 0) (c := 8 * octetsIn v) (cost_listOctets h n) fun vs => cost_pure _ (by
      simp only [octetsInAll]; omega)

mutual
theorem cost_octetsIn (t : Ty) : Cost (fun v => 8 * octetsIn v) 1 0 (dec t) := by
  cases t with
  | null => simp only [dec]; exact cost_pure _ (by simp [octetsIn])
  | oid => simp only [dec]; exact cost_fail
  | bool => simp only [dec]; exact cost_then needs_bit fun _ => cost_pure _ (by simp [octetsIn])
  | int r => simp only [dec]; exact cost_then (needs_int r) fun _ => cost_pure _ (by simp [octetsIn])
  | enum a b c => simp only [dec]; exact cost_then (needs_enum a b c) fun _ => cost_pure _ (by simp [octetsIn])
  | bits s => simp only [dec]; exact cost_then (needs_bitStr s) fun _ => cost_pure _ (by simp [octetsIn])
  | octets s =>
    simp only [dec]
    exact cost_bind (b := 0) (c := 0) (cost_octStr8 s) fun _ => cost_pure _ (by simp only [octetsIn]; omega)
  | any =>
    simp only [dec]
    exact cost_bind (b := 0) (c := 0) cost_octets fun _ => cost_pure _ (by simp only [octetsIn]; omega)
  | seq ext fs =>
    simp only [dec]
    have last : ∀ (out : Bool) (vs : List (Option Val)), Cost (fun v => 8 * octetsIn v) 1 (8 * octetsInOpt vs + 0)
        (if out = true then (do dSkipExt; return Val.seq vs) else (return Val.seq vs : Dec Val)) := by
      intro out vs
      split
      · exact cost_then needs_skipExt fun _ => cost_pure _ (by simp only [octetsIn]; omega)
      · exact cost_pure _ (by simp only [octetsIn]; omega)
    have mid : ∀ out : Bool, Cost (fun v => 8 * octetsIn v) 1 0 (do
        let bm ← dTake fs.numOpt
        let vs ← decFields fs bm
        if out then do
          dSkipExt
          return .seq vs
        else return .seq vs) := by
      intro out
      exact cost_then (needs_take _) fun bm => cost_bind (b := 0) (c := 0) (cost_octetsInOpt fs bm) fun vs => last out vs
    cases ext
    · exact cost_then (needs_pure false) mid
    · exact cost_then needs_bit mid
  | choice ext root adds =>
    simp only [dec]
    have both : ∀ out : Bool, Cost (fun v => 8 * octetsIn v) 1 0 (if out = true then (do
          let i ← dNsn
          return .choice (i + root.length) (← dOpen (decAlt adds i)) : Dec Val)
        else do
          let i ← dCons root.length
          return .choice i (← decAlt root i)) := by
      intro out
      cases out
      · exact cost_then (needs_cons _) fun i => cost_bind (b := 0) (c := 0) (cost_octetsInAlt root i) fun v =>
          cost_pure _ (by simp only [octetsIn]; omega)
      · exact cost_then needs_nsn fun i => cost_bind (b := 0) (c := 0) (cost_open (cost_octetsInAlt adds i)) fun v =>
          cost_pure _ (by simp only [octetsIn]; omega)
    cases ext
    · exact cost_then (needs_pure false) both
    · exact cost_then needs_bit both
  | seqOf s t =>
    simp only [dec]
    exact cost_then (needs_count s) fun n => cost_bind (b := 0) (c := 0) (cost_listOctets (cost_octetsIn t) n) fun vs =>
      cost_pure _ (by simp only [octetsIn]; omega)
theorem cost_octetsInOpt (fs : Fields) (bm : Bits) : Cost (fun vs => 8 * octetsInOpt vs) 1 0 (decFields fs bm) := by
  cases fs with
  | nil => simp only [decFields]; exact cost_pure _ (by simp [octetsInOpt])
  | cons opt t fs =>
    have here : ∀ bm, Cost (fun vs => 8 * octetsInOpt vs) 1 0 (do
        let v ← dec t
        return some v :: (← decFields fs bm)) := by
      intro bm
      refine cost_bind (b := 0) (c := 0) (cost_octetsIn t) fun v => ?_
      rw [Nat.add_comm]
      exact cost_bind (b := 0) (c := 8 * octetsIn v) (cost_octetsInOpt fs bm) fun vs => cost_pure _ (by
        simp only [octetsInOpt]; omega)
    cases opt with
    | false => simp only [decFields]; exact here bm
    | true =>
      cases bm with
      | nil => simp only [decFields]; exact cost_fail
      | cons b bm =>
        cases b with
        | true => simp only [decFields]; exact here bm
        | false =>
          simp only [decFields]
          exact cost_bind (b := 0) (c := 0) (cost_octetsInOpt fs bm) fun vs => cost_pure _ (by
            simp only [octetsInOpt]; omega)
theorem cost_octetsInAlt (fs : Fields) (i : Nat) : Cost (fun v => 8 * octetsIn v) 1 0 (decAlt fs i) := by
  cases fs with
  | nil => simp only [decAlt]; exact cost_fail
  | cons opt t fs =>
    cases i with
    | zero => simp only [decAlt]; exact cost_octetsIn t
    | succ i => simp only [decAlt]; exact cost_octetsInAlt fs i
end

/-- The octets in a decoded value are all octets of the input. -/
theorem decode_octetsIn {t : Ty} {bs : Bytes} {v : Val} (h : decode t bs = some v) : octetsIn v ≤ bs.length := by
  unfold decode at h
  split at h
  · cases h
  · next a j hd =>
    cases h
    have := cost_octetsIn t _ _ _ hd
    dsimp only at this
    rw [octetsBits_length] at this
    omega

/-! ## Elements -/

theorem cost_gain {α β : Type} {h : β → Nat} {c n : Nat} {d : Dec α} {k : α → Dec β} (hd : Needs n d)
    (hk : ∀ a, Cost h 1 (c + n) (k a)) : Cost h 1 c (d >>= k) := by
  intro i v j e
  rw [bind_apply] at e
  cases hx : d i with
  | none => rw [hx] at e; cases e
  | some p =>
    obtain ⟨a, m⟩ := p
    rw [hx] at e
    have h1 := hd _ _ _ hx
    have h2 := hk a _ _ _ e
    omega

/-- The bits an element takes at least. -/
def weigh : Val → Nat
  | .seq [_, _, some (.octets b)] => 18 + 8 * b.length
  | _ => 0

theorem cost_triple : Cost weigh 1 0 (dec (Wire.triple ⟨0, 65535, false⟩)) := by
  unfold Wire.triple
  rw [dec]
  simp only [Bool.false_eq_true, if_false, pure_bind]
  refine cost_then (needs_take 0) fun bm => ?_
  simp only [decFields, bind_assoc, pure_bind]
  refine cost_gain (n := 16) (needs_dec (.int ⟨0, 65535, false⟩)) fun a => ?_
  refine cost_gain (n := 2) (needs_dec (.enum 3 3 false)) fun b => ?_
  simp only [dec, bind_assoc, pure_bind]
  refine cost_bind (b := 0) (c := 18) cost_octets fun v => cost_pure _ ?_
  simp only [weigh]
  omega

theorem cost_triples : ∀ n, Cost (fun vs => (vs.map weigh).sum) 1 0 (dList (dec (Wire.triple ⟨0, 65535, false⟩)) n)
  | 0 => cost_pure _ (by simp)
  | n + 1 => by
    unfold dList
    refine cost_bind (b := 0) (c := 0) cost_triple fun v => ?_
    rw [Nat.add_comm]
    exact cost_bind (b := 0) (c := weigh v) (cost_triples n) fun vs => cost_pure _ (by
      simp only [List.map_cons, List.sum_cons]; omega)

/-- The elements of a container. -/
def weighAll : Val → Nat
  | .seq [some (.list vs)] => (vs.map weigh).sum
  | _ => 0

theorem cost_containerTy : Cost weighAll 1 0 (dec Wire.containerTy) := by
  unfold Wire.containerTy
  rw [dec]
  simp only [if_true, decFields, bind_assoc, pure_bind]
  refine cost_then needs_bit fun out => cost_then (needs_take _) fun _ => ?_
  simp only [dec, bind_assoc, pure_bind]
  refine cost_then (needs_count _) fun n => cost_bind (b := 0) (c := 0) (cost_triples n) fun vs => ?_
  split
  · exact cost_then needs_skipExt fun _ => cost_pure _ (by simp [weighAll])
  · exact cost_pure _ (by simp [weighAll])

end Verif.Aper

namespace Verif.Ie
open Verif.Aper Verif.Aper.Spec Verif.Ie.Spec

theorem weighAll_container (l : List Ie) : weighAll (container l) = 18 * l.length + 8 * (l.map (·.value.length)).sum := by
  have : ∀ l : List Ie, ((l.map Ie.toVal).map weigh).sum = 18 * l.length + 8 * (l.map (·.value.length)).sum := by
    intro l
    induction l with
    | nil => rfl
    | cons ie l ih =>
      simp only [List.map_cons, List.sum_cons, List.length_cons, ih]
      simp only [Ie.toVal, weigh]
      omega
  exact this l

/-- Every element takes room. -/
theorem carries_size {m : MsgDef} (hm : m ∈ tables) {bs : Bytes} {l : List Ie} (h : Carries m bs l) :
    18 * l.length + 8 * (l.map (·.value.length)).sum ≤ 8 * bs.length := by
  unfold Carries at h
  rw [Wire.isPlain_sound (List.all_eq_true.1 Wire.tables_plain m hm)] at h
  unfold decode at h
  split at h
  · cases h
  · next a j hd =>
    cases h
    have := cost_containerTy _ _ _ hd
    dsimp only at this
    rw [octetsBits_length, weighAll_container] at this
    omega

theorem tables_solid : tables.all (fun m => m.ies.all fun d => d.ty.solid && decide (d.ty.growth.1 ≤ 9) &&
    decide (d.ty.growth.2 ≤ 48)) = true := by decide +kernel

theorem elementCells_le {m : MsgDef} (hm : m ∈ tables) (ie : Ie) : elementCells m ie ≤ 72 * ie.value.length + 48 := by
  unfold elementCells
  split
  · omega
  · next d hd =>
    have := List.all_eq_true.1 (List.all_eq_true.1 tables_solid m hm) d (List.mem_of_find?_eq_some hd)
    simp only [Bool.and_eq_true, decide_eq_true_eq] at this
    split
    · omega
    · next v hv =>
      have h1 := decode_cells this.1.1 hv
      have h2 := Nat.mul_le_mul_right (8 * ie.value.length) this.1.2
      omega

theorem messageCells_le {m : MsgDef} (hm : m ∈ tables) {bs : Bytes} {l : List Ie} (h : Carries m bs l) :
    messageCells m l ≤ 72 * bs.length := by
  have h1 := carries_size hm h
  have h2 : ∀ l : List Ie, messageCells m l ≤ 72 * (l.map (·.value.length)).sum + 48 * l.length := by
    intro l
    induction l with
    | nil => simp [messageCells]
    | cons ie l ih =>
      have := elementCells_le hm ie
      simp only [messageCells, List.map_cons, List.sum_cons, List.length_cons] at ih ⊢
      omega
  have := h2 l
  omega

theorem lookup_find {id : Nat} {ds : List IeDef} {k0 sh0 k sh : Nat} {d : IeDef} (h : lookup id ds k0 sh0 = some (k, sh, d)) :
    ds.find? (·.id = id) = some d := by
  induction ds generalizing k0 sh0 with
  | nil => simp [lookup] at h
  | cons e ds ih =>
    unfold lookup at h
    by_cases he : e.id = id
    · rw [if_pos he] at h
      cases h
      simp [he]
    · rw [if_neg he] at h
      simp [he, ih h]

theorem cellsOpt_set (vs : List (Option Val)) (k : Nat) (v : Val) : cellsOpt (vs.set k (some v)) ≤ cellsOpt vs + cells v := by
  induction vs generalizing k with
  | nil => simp [cellsOpt]
  | cons w vs ih =>
    cases k with
    | zero =>
      cases w <;> simp only [List.set_cons_zero, cellsOpt] <;> omega
    | succ k =>
      have := ih k
      cases w <;> simp only [List.set_cons_succ, cellsOpt] <;> omega

theorem decodeRows_cells {α : Type} (m : MsgDef) (l : List Ie) (s : Struct) (μ : Mem α) :
    cellsOpt (decodeRows m l s μ).1.2.vals ≤ cellsOpt s.vals + messageCells m l := by
  induction l generalizing s μ with
  | nil => simp [decodeRows, messageCells]
  | cons ie l ih =>
    unfold decodeRows
    split
    · dsimp only; omega
    · next k sh d hl =>
      have hv : ∀ s : Struct, Struct.vals (if d.opt = true then { s with mask := setPresent s.mask sh } else s) = s.vals := by
        intro s; split <;> rfl
      dsimp only
      split
      · dsimp only
        rw [hv]; omega
      · next v hd =>
        refine Nat.le_trans (ih _ _) ?_
        have he : elementCells m ie = cells v := by
          unfold elementCells
          rw [lookup_find hl]
          simp only [hd]
        have hm : messageCells m (ie :: l) = cells v + messageCells m l := by
          simp only [messageCells, List.map_cons, List.sum_cons, he]
        rw [hm]
        have : (Struct.vals { (if d.opt = true then { s with mask := setPresent s.mask sh } else s) with
            fields := (if d.opt = true then { s with mask := setPresent s.mask sh } else s).fields.set k
              (some ⟨v, (μ.alloc (owns d.ty v)).1⟩) }) = s.vals.set k (some v) := by
          simp only [Struct.vals, List.map_set]
          split <;> rfl
        simp only at this ⊢
        rw [this]
        have := cellsOpt_set s.vals k v
        omega

theorem zero_cells (m : MsgDef) : cellsOpt m.zero.vals = m.ies.length := by
  have : ∀ ds : List IeDef, cellsOpt ((ds.map fun _ => (none : Option Slot)).map (·.map Slot.val)) = ds.length := by
    intro ds
    induction ds with
    | nil => rfl
    | cons d ds ih =>
      simp only [List.map_cons, Option.map_none, cellsOpt, ih, List.length_cons]
      omega
  exact this m.ies

end Verif.Ie
