import Verif.Model.Scarce

/-!
# Lemmas about functions that may fail
-/

namespace Verif.Scarce
open Verif.Aper Verif.Ie Verif.Factory Verif.Generate

theorem attempt_bind {α : Type} (w : World) (x : What) (k : Bool → S α) (n : Nat) :
    (attempt w x >>= k) n = k (w n x) (n + 1) := rfl

theorem pure_apply {α : Type} (a : α) (n : Nat) : (pure a : S α) n = (a, n) := rfl

theorem newIeW_eq (w : World) (debug : Bool) (d : IeDef) (f : Option Slot) (n : Nat) : newIeW w debug d f n =
    if w n .element = false then (none, n + 1) else
    match newIe d.id d.crit d.ty f with
    | none => (none, n + 1)
    | some ie => if w (n + 1) .value = false then (none, n + 2) else
      if debug = true then (if w (n + 2) .output = true then some ie else none, n + 3) else (some ie, n + 2) := by
  unfold newIeW
  rw [attempt_bind]
  cases h1 : w n .element
  · rfl
  · cases h2 : newIe d.id d.crit d.ty f with
    | none => rfl
    | some ie =>
      simp only [Bool.not_true, Bool.false_eq_true, if_false, attempt_bind, reduceCtorEq]
      cases h3 : w (n + 1) .value
      · rfl
      · cases debug
        · rfl
        · simp only [Bool.not_true, Bool.false_eq_true, if_false, if_true, attempt_bind, reduceCtorEq]
          cases h4 : w (n + 1 + 1) .output <;> simp [h4, pure_apply]

/-- The next row of the list. -/
theorem encodeRowsW_cons (w : World) (debug : Bool) (d : IeDef) (ds : List IeDef) (sh : Nat) (mask : BitVec 16) (f : Option Slot)
    (fs : List (Option Slot)) (count size n : Nat) : encodeRowsW w debug (d :: ds) sh mask (f :: fs) count size n =
    if (d.opt && !isPresent mask sh) = true then encodeRowsW w debug ds (sh + 1) mask fs count size n
    else match newIeW w debug d f n with
      | (none, n) => (none, n)
      | (some ie, n) =>
        if count = size then
          if w n .list = true then
            let r := encodeRowsW w debug ds (if d.opt then sh + 1 else sh) mask fs (count + 1) (if size = 0 then 4 else 2 * size) (n + 1)
            (r.1.map (ie :: ·), r.2)
          else encodeRowsW w debug ds (if d.opt then sh + 1 else sh) mask fs count size (n + 1)
        else
          let r := encodeRowsW w debug ds (if d.opt then sh + 1 else sh) mask fs (count + 1) size n
          (r.1.map (ie :: ·), r.2) := by
  conv => lhs; unfold encodeRowsW
  split
  · rfl
  · simp only [bind, StateT.bind, pure, StateT.pure]
    rcases newIeW w debug d f n with ⟨_ | ie, n⟩
    · rfl
    · by_cases hc : count = size
      · subst hc
        simp only [if_true]
        show (attempt w .list >>= _) n = _
        rw [attempt_bind]
        cases hl : w n .list <;> rfl
      · simp only [if_neg hc]
        rfl

theorem encodeRows_cons (d : IeDef) (ds : List IeDef) (sh : Nat) (mask : BitVec 16) (f : Option Slot)
    (fs : List (Option Slot)) : encodeRows (d :: ds) sh mask (f :: fs) =
    if (d.opt && !isPresent mask sh) = true then encodeRows ds (sh + 1) mask fs
    else match newIe d.id d.crit d.ty f with
      | none => none
      | some ie => (encodeRows ds (if d.opt then sh + 1 else sh) mask fs).map (ie :: ·) := by
  conv => lhs; unfold encodeRows
  split
  · rfl
  · cases newIe d.id d.crit d.ty f with
    | none => rfl
    | some ie => cases encodeRows ds (if d.opt then sh + 1 else sh) mask fs <;> rfl

/-- An element that was made is the right one. -/
theorem newIeW_some {w : World} {debug : Bool} {d : IeDef} {f : Option Slot} {n n' : Nat} {ie : Ie}
    (h : newIeW w debug d f n = (some ie, n')) : newIe d.id d.crit d.ty f = some ie := by
  rw [newIeW_eq] at h
  split at h
  · cases h
  · split at h
    · cases h
    · rename_i ie' he
      rw [he]
      split at h
      · cases h
      · split at h
        · have := congrArg Prod.fst h
          split at h
          · rename_i ho; simpa [ho] using this
          · rename_i ho; simp [ho] at this
        · exact congrArg Prod.fst h

/-- What is encoded are some of the elements, in their order; all of them if there is always room in the list. -/
theorem encodeRowsW_kept (w : World) (debug : Bool) : ∀ (ds : List IeDef) (sh : Nat) (mask : BitVec 16)
    (fs : List (Option Slot)) (count size n : Nat) {kept : List Ie},
    (encodeRowsW w debug ds sh mask fs count size n).1 = some kept →
    ∃ l, encodeRows ds sh mask fs = some l ∧ kept.Sublist l ∧ ((∀ n, w n .list = true) → kept = l)
  | [], sh, mask, fs, count, size, n, kept, h => by
    cases h
    exact ⟨[], by unfold encodeRows; rfl, .slnil, fun _ => rfl⟩
  | d :: ds, sh, mask, [], count, size, n, kept, h => by cases h
  | d :: ds, sh, mask, f :: fs, count, size, n, kept, h => by
    rw [encodeRowsW_cons] at h
    rw [encodeRows_cons]
    split at h
    · rename_i hp
      rw [if_pos hp]
      exact encodeRowsW_kept w debug ds _ mask fs _ _ _ h
    · rename_i hp
      rw [if_neg hp]
      split at h
      · cases h
      · rename_i ie n' he
        rw [newIeW_some he]
        split at h
        · split at h
          · obtain ⟨k, hk, rfl⟩ := Option.map_eq_some_iff.1 h
            obtain ⟨l, hl, hs, hw⟩ := encodeRowsW_kept w debug ds _ mask fs _ _ _ hk
            exact ⟨ie :: l, by rw [hl]; rfl, hs.cons₂ ie, fun h => by rw [hw h]⟩
          · rename_i hroom
            obtain ⟨l, hl, hs, hw⟩ := encodeRowsW_kept w debug ds _ mask fs _ _ _ h
            exact ⟨ie :: l, by rw [hl]; rfl, hs.cons ie, fun h => absurd (h _) hroom⟩
        · obtain ⟨k, hk, rfl⟩ := Option.map_eq_some_iff.1 h
          obtain ⟨l, hl, hs, hw⟩ := encodeRowsW_kept w debug ds _ mask fs _ _ _ hk
          exact ⟨ie :: l, by rw [hl]; rfl, hs.cons₂ ie, fun h => by rw [hw h]⟩

/-- With memory, and an output that is not used or can be written to, an element is made if it can be. -/
theorem newIeW_ok {w : World} {debug : Bool} (hm : ∀ n, w n .element = true ∧ w n .value = true ∧ w n .list = true)
    (ho : debug = false ∨ ∀ n, w n .output = true) (d : IeDef) (f : Option Slot) (n : Nat) :
    (newIeW w debug d f n).1 = newIe d.id d.crit d.ty f := by
  rw [newIeW_eq, (hm _).1, if_neg (by simp)]
  cases newIe d.id d.crit d.ty f with
  | none => rfl
  | some ie =>
    simp only [(hm _).2.1]
    rcases ho with rfl | ho
    · simp
    · simp only [ho]
      cases debug <;> simp

theorem encodeRowsW_ok {w : World} {debug : Bool} (hm : ∀ n, w n .element = true ∧ w n .value = true ∧ w n .list = true)
    (ho : debug = false ∨ ∀ n, w n .output = true) : ∀ (ds : List IeDef) (sh : Nat) (mask : BitVec 16)
    (fs : List (Option Slot)) (count size n : Nat),
    (encodeRowsW w debug ds sh mask fs count size n).1 = encodeRows ds sh mask fs
  | [], sh, mask, fs, count, size, n => by unfold encodeRows; rfl
  | d :: ds, sh, mask, [], count, size, n => by unfold encodeRows; rfl
  | d :: ds, sh, mask, f :: fs, count, size, n => by
    rw [encodeRowsW_cons, encodeRows_cons]
    split
    · exact encodeRowsW_ok hm ho ds _ mask fs _ _ _
    · have := newIeW_ok hm ho d f n
      split
      · rename_i he
        rw [he] at this
        rw [← this]
      · rename_i ie n' he
        rw [he] at this
        rw [← this]
        split
        · rw [if_pos ((hm _).2.2)]
          show Option.map _ _ = _
          rw [encodeRowsW_ok hm ho ds]
        · show Option.map _ _ = _
          rw [encodeRowsW_ok hm ho ds]

/-- If it is used and cannot be written to, no element is made. -/
theorem encodeRowsW_closed {w : World} (ho : ∀ n, w n .output = false) : ∀ (ds : List IeDef) (sh : Nat) (mask : BitVec 16)
    (fs : List (Option Slot)) (count size n : Nat),
    (encodeRowsW w true ds sh mask fs count size n).1 = if encodeRows ds sh mask fs = some [] then some [] else none
  | [], sh, mask, fs, count, size, n => by unfold encodeRows; rfl
  | d :: ds, sh, mask, [], count, size, n => by unfold encodeRows; rfl
  | d :: ds, sh, mask, f :: fs, count, size, n => by
    rw [encodeRowsW_cons, encodeRows_cons]
    split
    · exact encodeRowsW_closed ho ds _ mask fs _ _ _
    · have hnone : (newIeW w true d f n).1 = none := by
        rw [newIeW_eq]
        split
        · rfl
        · split
          · rfl
          · split
            · rfl
            · simp [ho]
      split
      · rw [if_neg]
        cases newIe d.id d.crit d.ty f with
        | none => simp
        | some ie => cases encodeRows ds (if d.opt then sh + 1 else sh) mask fs <;> simp
      · rename_i he
        rw [he] at hnone
        cases hnone

/-- Without debug output it makes no difference whether it could be written. -/
theorem encodeRowsW_off {w w' : World} (h : ∀ n x, x ≠ .output → w n x = w' n x) : ∀ (ds : List IeDef) (sh : Nat)
    (mask : BitVec 16) (fs : List (Option Slot)) (count size n : Nat),
    encodeRowsW w false ds sh mask fs count size n = encodeRowsW w' false ds sh mask fs count size n
  | [], sh, mask, fs, count, size, n => rfl
  | d :: ds, sh, mask, [], count, size, n => rfl
  | d :: ds, sh, mask, f :: fs, count, size, n => by
    have hn : newIeW w false d f n = newIeW w' false d f n := by
      rw [newIeW_eq, newIeW_eq, h _ .element nofun, h _ .value nofun]
      rfl
    rw [encodeRowsW_cons, encodeRowsW_cons, hn]
    split
    · exact encodeRowsW_off h ds _ mask fs _ _ _
    · split
      · rfl
      · rename_i n' _
        rw [h n' .list nofun]
        split
        · split
          · rw [encodeRowsW_off h ds]
          · exact encodeRowsW_off h ds _ mask fs _ _ _
        · rw [encodeRowsW_off h ds]

theorem generateW_eq (w : World) (p : Proto) (present code crit : Nat) (t : Ty) (v : Val) (n : Nat) :
    (generateW w p present code crit t v n).1 =
      if w n .pdu = true ∧ w (n + 1) .buffer = true then Generate.generate p present code crit t v else none := by
  unfold generateW Generate.generate
  cases encode t v with
  | none => simp [pure, StateT.pure]
  | some any =>
    show ((attempt w .pdu >>= _) n).1 = _
    rw [attempt_bind]
    cases h1 : w n .pdu
    · rfl
    · simp only [Bool.not_true, Bool.false_eq_true, if_false, attempt_bind]
      cases h2 : w (n + 1) .buffer <;> rfl

theorem messageW_eq (w : World) (debug : Bool) (p : Proto) (present code crit : Nat) (m : MsgDef) (s : Struct) (n : Nat) :
    (messageW w debug p present code crit m s n).1 =
      match (encodeIesW w debug m s n).1 with
      | none => none
      | some l => (generateW w p present code crit m.ty (container l) (encodeIesW w debug m s n).2).1 := by
  unfold messageW
  simp only [bind, StateT.bind, pure, StateT.pure]
  rcases encodeIesW w debug m s n with ⟨_ | l, n'⟩ <;> rfl

theorem ruaFinishW_eq (w : World) (debug : Bool) (code : Nat) (m : MsgDef) (s : Struct) (n : Nat) :
    (ruaFinishW w debug code m s n).1 =
      match (encodeIesW w debug m s n).1 with
      | none => .ok none
      | some l => match (generateW w .rua 1 code 0 m.ty (container l) (encodeIesW w debug m s n).2).1 with
        | none => .fault .nullDeref
        | some bs => .ok (some bs) := by
  unfold ruaFinishW
  simp only [bind, StateT.bind, pure, StateT.pure]
  rcases encodeIesW w debug m s n with ⟨_ | l, n'⟩
  · rfl
  · simp only [StateT.bind, bind]
    rcases generateW w .rua 1 code 0 m.ty (container l) n' with ⟨_ | bs, n''⟩ <;> rfl

theorem ruaPayloadW_eq (w : World) (lax debug : Bool) (code : Nat) (m : MsgDef) (s : Struct) (p : Bytes) (n : Nat) :
    (ruaPayloadW w lax debug code m s p n).1 =
      if w n .copy = true then (ruaFinishW w debug code m (put m Rua.idRANAP_Message (.octets p) s) (n + 1)).1
      else if lax = true then (ruaFinishW w debug code m (put m Rua.idRANAP_Message (.octets []) s) (n + 1)).1
      else .ok none := by
  unfold ruaPayloadW copyW attempt
  simp only [bind, StateT.bind, pure, StateT.pure]
  cases w n .copy
  · cases lax <;> rfl
  · rfl

/-- Decoding with a failure is failing, and otherwise gives what it always gives. -/
theorem decodeRowsW_eq {α : Type} (w : World) (debug : Bool) (m : MsgDef) : ∀ (l : List Ie) (s : Struct) (μ : Mem α) (n : Nat),
    let r := (decodeRowsW w debug m l s.mask s.vals n).1
    let d := (decodeRows m l s μ).1
    (r.1 = false ∨ r = (d.1, d.2.mask, d.2.vals)) ∧ ((∀ n, w n .decoded = true) → r = (d.1, d.2.mask, d.2.vals))
  | [], s, μ, n => ⟨.inr rfl, fun _ => rfl⟩
  | ie :: rest, s, μ, n => by
    intro r d
    have hr : r = (decodeRowsW w debug m (ie :: rest) s.mask s.vals n).1 := rfl
    have hd : d = (decodeRows m (ie :: rest) s μ).1 := rfl
    clear_value r d
    unfold decodeRowsW at hr
    unfold decodeRows at hd
    cases hl : lookup ie.id m.ies 0 0 with
    | none =>
      rw [hl] at hr hd
      subst hr hd
      exact ⟨.inr rfl, fun _ => rfl⟩
    | some x =>
      obtain ⟨k, sh, e⟩ := x
      rw [hl] at hr hd
      simp only at hr hd
      cases hv : decode e.ty ie.value with
      | none =>
        rw [hv] at hr hd
        subst hr hd
        cases e.opt <;> exact ⟨.inr rfl, fun _ => rfl⟩
      | some v =>
        rw [hv] at hr hd
        simp only at hr hd
        rw [attempt_bind] at hr
        cases ha : w n .decoded with
        | false =>
          rw [ha] at hr
          subst hr
          exact ⟨.inl rfl, fun h => by rw [h n] at ha; cases ha⟩
        | true =>
          rw [ha] at hr
          have hs : ∀ (t : Struct) (b : Option Nat), t.vals.set k (some v) = Struct.vals ⟨t.mask, t.fields.set k (some ⟨v, b⟩)⟩ := by
            intro t b
            simp only [Struct.vals, List.map_set, Option.map_some]
          have key : ∀ n', r = (decodeRowsW w debug m rest (if e.opt then setPresent s.mask sh else s.mask)
              (s.vals.set k (some v)) n').1 → (r.1 = false ∨ r = (d.1, d.2.mask, d.2.vals)) ∧
              ((∀ n, w n .decoded = true) → r = (d.1, d.2.mask, d.2.vals)) := by
            intro n' hr
            have hvals : s.vals.set k (some v) = Struct.vals
                ⟨if e.opt then setPresent s.mask sh else s.mask, s.fields.set k (some ⟨v, (μ.alloc (owns e.ty v)).1⟩)⟩ := hs s _
            rw [hvals] at hr
            have ih := decodeRowsW_eq w debug m rest
              ⟨if e.opt then setPresent s.mask sh else s.mask, s.fields.set k (some ⟨v, (μ.alloc (owns e.ty v)).1⟩)⟩
              (μ.alloc (owns e.ty v)).2 n'
            have hd' : d = (decodeRows m rest
              ⟨if e.opt then setPresent s.mask sh else s.mask, s.fields.set k (some ⟨v, (μ.alloc (owns e.ty v)).1⟩)⟩
              (μ.alloc (owns e.ty v)).2).1 := by
              rw [hd]
              cases e.opt <;> rfl
            rw [hr, hd']
            exact ih
          cases debug with
          | false => exact key _ hr
          | true => exact key _ hr

end Verif.Scarce
