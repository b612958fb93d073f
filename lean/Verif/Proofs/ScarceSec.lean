import Verif.Proofs.Scarce
import Verif.Proofs.FactoryMsgs

/-!
# Messages of which elements were left out
-/

namespace Verif.Scarce
open Verif.Aper Verif.Ie Verif.Ie.Spec Verif.Rx.Spec Verif.Wire Verif.Gen.Ranap Verif.Factory Verif.Factory.Spec
open Verif.Generate (Proto)

theorem encodeAll_cons (d : IeDef) (v : Val) (c : List (IeDef × Val)) : encodeAll ((d, v) :: c) =
    match encode d.ty v with
    | none => none
    | some b => (encodeAll c).map (⟨d.id, d.crit, b⟩ :: ·) := by
  conv => lhs; unfold encodeAll
  cases encode d.ty v with
  | none => rfl
  | some b => cases encodeAll c <;> rfl

/-- Some of the elements are the elements of some of the rows. -/
theorem encodeAll_sublist : ∀ {c : List (IeDef × Val)} {l kept : List Ie}, encodeAll c = some l → kept.Sublist l →
    ∃ c', c'.Sublist c ∧ encodeAll c' = some kept
  | [], l, kept, h, hs => by
    cases h
    obtain rfl := List.sublist_nil.1 hs
    exact ⟨[], .slnil, rfl⟩
  | (d, v) :: c, l, kept, h, hs => by
    rw [encodeAll_cons] at h
    cases he : encode d.ty v with
    | none => rw [he] at h; cases h
    | some b =>
      rw [he] at h
      obtain ⟨l', hl', rfl⟩ := Option.map_eq_some_iff.1 h
      rcases List.sublist_cons_iff.1 hs with hs | ⟨r, rfl, hr⟩
      · obtain ⟨c', h1, h2⟩ := encodeAll_sublist hl' hs
        exact ⟨c', h1.cons _, h2⟩
      · obtain ⟨c', h1, h2⟩ := encodeAll_sublist hl' hr
        refine ⟨(d, v) :: c', h1.cons_cons _, ?_⟩
        rw [encodeAll_cons, he, h2]
        rfl

theorem bound_sublist : ∀ {c' c : List (IeDef × Val)}, c'.Sublist c → bound c' ≤ bound c
  | _, _, .slnil => Nat.le_refl _
  | _, _, .cons (d, v) h => by
    have := bound_sublist h
    show bound _ ≤ 5 + openOcts (maxBits d.ty v) + bound _
    omega
  | _, _, .cons_cons (d, v) h => by
    have := bound_sublist h
    show 5 + openOcts (maxBits d.ty v) + bound _ ≤ 5 + openOcts (maxBits d.ty v) + bound _
    omega

/-- The octets of a message with some of its elements. -/
theorem generate_kept {m : MsgDef} {direction code crit : Nat} (k : Kind m direction code crit) {c : List (IeDef × Val)}
    (hmem : ∀ x ∈ c, x.1 ∈ m.ies) (hlen : c.length ≤ m.ies.length) {l : List Ie} (hl : encodeAll c = some l) :
    ∃ bs, Generate.generate .ranap direction code crit m.ty (container l) = some bs ∧ SaysOrEmpty bs direction code (wanted c) ∧
      (bound c ≤ 1000 → Says bs direction code (wanted c)) := by
  obtain ⟨p, rfl, hk, hproc, hkind⟩ := k.proc
  obtain ⟨h1, h2, h3, h4⟩ := encodeAll_spec hmem (fun x hx => (row_facts k.mem (hmem x hx)).2.1)
    (fun x hx => (row_facts k.mem (hmem x hx)).1) hl
  have hshort := List.all_eq_true.1 tables_short m k.mem
  simp only [decide_eq_true_eq] at hshort
  have key : Generate.generate .ranap direction code p.crit m.ty (container l) =
      some (if (pduOctets direction code p.crit (containerOctets l)).length ≤ 1024 then
        pduOctets direction code p.crit (containerOctets l) else []) := by
    unfold Generate.generate
    obtain ⟨any, ha, ha1, ha2⟩ := encode_container_room k.mem (l := l) (by omega) (fun ie hie => by
      obtain ⟨x, hx, h4, h5⟩ := h2 ie hie
      rw [h4, h5]
      exact (row_facts k.mem (hmem x hx)).2.2)
    obtain ⟨bs, hb, hb1, hb2⟩ := ranap_pdu direction code p.crit any k.pos k.le k.small hk
    have hb' : encode Proto.ranap.pdu (Factory.pduVal direction code p.crit any) = some bs := hb
    simp only [ha, genPdu, hb', Option.map_some]
    have hw := pduOctets_length direction code p.crit (containerOctets l)
    by_cases hlt : (containerOctets l).length < 16384
    · have h5 := ha1 hlt
      subst h5
      rw [hb1 hlt]
      rfl
    · have h5 := ha2 (by omega)
      have hr : Proto.ranap.room = 1024 := rfl
      rw [if_neg (by rw [hr]; omega), if_neg (by split at hw <;> omega)]
  rw [key]
  refine ⟨_, rfl, ⟨_, ⟨p, m, l, hproc, hkind, rfl, h1⟩, rfl⟩, fun hb => ?_⟩
  have hw := pduOctets_length direction code p.crit (containerOctets l)
  rw [containerOctets_length] at hw
  have hle : (pduOctets direction code p.crit (containerOctets l)).length ≤ 1024 := by split at hw <;> omega
  rw [if_pos hle]
  exact ⟨⟨p, m, l, hproc, hkind, rfl, h1⟩, hle⟩

/-- A message that is made when something may fail: some of its elements. -/
theorem messageW_says {m : MsgDef} {direction code crit : Nat} (k : Kind m direction code crit) {s : Struct}
    {c : List (IeDef × Val)} (hcont : contents m s = some c) (w : World) (debug : Bool) (n : Nat) :
    (messageW w debug .ranap direction code crit m s n).1 = none ∨
    ∃ bs c', (messageW w debug .ranap direction code crit m s n).1 = some bs ∧ c'.Sublist c ∧ allFit c = true ∧
      SaysOrEmpty bs direction code (wanted c') ∧ (bound c ≤ 1000 → Says bs direction code (wanted c')) := by
  rw [messageW_eq]
  cases h : (encodeIesW w debug m s n).1 with
  | none => exact .inl rfl
  | some kept =>
    obtain ⟨l, hl, hs, -⟩ := encodeRowsW_kept w debug _ _ _ _ _ _ _ h
    simp only [generateW_eq]
    split
    · obtain ⟨hmem, hlen⟩ := contents_mem hcont
      rw [encodeRows_contents hcont] at hl
      obtain ⟨c', h1, h2⟩ := encodeAll_sublist hl hs
      obtain ⟨bs, hb, h3, h4⟩ := generate_kept k (fun x hx => hmem x (h1.subset hx))
        (Nat.le_trans h1.length_le hlen) h2
      refine .inr ⟨bs, c', hb, h1, ?_, h3, fun hc => h4 (Nat.le_trans (bound_sublist h1) hc)⟩
      have := encodeAll_isSome fun x hx => (row_facts k.mem (hmem x hx)).1
      rw [hl] at this
      exact this.symm
    · exact .inl rfl

/-! ## Algorithms and keys -/

theorem algorithmsW_succ (w : World) (mask : Byte) (a1 a2 : Int) (k n : Nat) : algorithmsW w mask a1 a2 (k + 1) n =
    match algorithmsW w mask a1 a2 k n with
    | (.fault f, n) => (.fault f, n)
    | (.ok none, n) => (.ok none, n)
    | (.ok (some (l, size)), n) =>
      if mask &&& ((1 : Byte) <<< k) = 0 then (.ok (some (l, size)), n)
      else if k = 1 ∨ k = 2 then
        if w n .algorithm = false then (.fault .nullDeref, n + 1)
        else if l.length = size then
          if w (n + 1) .algorithms = true then
            (.ok (some (l ++ [.int (if k = 1 then a1 else a2)], if size = 0 then 4 else 2 * size)), n + 2)
          else (.ok (some (l, size)), n + 2)
        else (.ok (some (l ++ [.int (if k = 1 then a1 else a2)], size)), n + 1)
      else (.ok none, n) := by
  conv => lhs; unfold algorithmsW
  simp only [bind, StateT.bind, pure]
  rcases algorithmsW w mask a1 a2 k n with ⟨r, n'⟩
  cases r with
  | fault f => rfl
  | ok o =>
    cases o with
    | none => rfl
    | some x =>
      obtain ⟨l, size⟩ := x
      dsimp only
      split
      · rfl
      · split
        · show (attempt w .algorithm >>= _) n' = _
          rw [attempt_bind]
          cases h1 : w n' .algorithm
          · rfl
          · simp only [Bool.not_true, Bool.false_eq_true, if_false, reduceCtorEq]
            split
            · show (attempt w .algorithms >>= _) (n' + 1) = _
              rw [attempt_bind]
              cases h2 : w (n' + 1) .algorithms <;> rfl
            · rfl
        · rfl

/-- Only algorithms that are asked for are in the list, in their order. -/
theorem algorithmsW_sub (w : World) (mask : Byte) (a1 a2 : Int) : ∀ (k n : Nat),
    match (algorithmsW w mask a1 a2 k n).1 with
    | .fault f => f = .nullDeref
    | .ok none => algorithms mask a1 a2 k = none
    | .ok (some x) => ∃ l0, algorithms mask a1 a2 k = some l0 ∧ x.1.Sublist l0
  | 0, n => ⟨[], rfl, .slnil⟩
  | k + 1, n => by
    have ih := algorithmsW_sub w mask a1 a2 k n
    rw [algorithmsW_succ]
    unfold algorithms
    generalize algorithmsW w mask a1 a2 k n = x at ih ⊢
    obtain ⟨r, n'⟩ := x
    cases r with
    | fault f => exact ih
    | ok o =>
      cases o with
      | none =>
        dsimp only at ih ⊢
        rw [ih]
      | some x =>
        obtain ⟨l, size⟩ := x
        obtain ⟨l0, h1, h2⟩ := ih
        rw [h1]
        dsimp only at h2 ⊢
        by_cases hm : mask &&& ((1 : Byte) <<< k) = 0
        · rw [if_pos hm, if_pos hm]
          exact ⟨l0, rfl, h2⟩
        · rw [if_neg hm, if_neg hm]
          by_cases hk : k = 1 ∨ k = 2
          · have ha : (if k = 1 then some (l0 ++ [Val.int a1]) else if k = 2 then some (l0 ++ [.int a2]) else none) =
                some (l0 ++ [.int (if k = 1 then a1 else a2)]) := by
              rcases hk with rfl | rfl <;> rfl
            rw [if_pos hk, ha]
            by_cases g1 : w n' .algorithm = false
            · rw [if_pos g1]
            · rw [if_neg g1]
              by_cases g2 : l.length = size
              · rw [if_pos g2]
                by_cases g3 : w (n' + 1) .algorithms = true
                · rw [if_pos g3]
                  exact ⟨_, rfl, h2.append (.refl _)⟩
                · rw [if_neg g3]
                  exact ⟨_, rfl, h2.trans (List.sublist_append_left _ _)⟩
              · rw [if_neg g2]
                exact ⟨_, rfl, h2.append (.refl _)⟩
          · have h3 : k ≠ 1 := fun h => hk (.inl h)
            have h4 : k ≠ 2 := fun h => hk (.inr h)
            rw [if_neg hk, if_neg h3, if_neg h4]

/-- With memory it is the list. -/
theorem algorithmsW_ok (w : World) (h1 : ∀ n, w n .algorithm = true) (h2 : ∀ n, w n .algorithms = true) (mask : Byte)
    (a1 a2 : Int) : ∀ (k n : Nat), ∃ size,
    (algorithmsW w mask a1 a2 k n).1 = .ok ((algorithms mask a1 a2 k).map fun l => (l, size))
  | 0, n => ⟨0, rfl⟩
  | k + 1, n => by
    obtain ⟨size, ih⟩ := algorithmsW_ok w h1 h2 mask a1 a2 k n
    rw [algorithmsW_succ]
    unfold algorithms
    generalize algorithmsW w mask a1 a2 k n = x at ih ⊢
    obtain ⟨r, n'⟩ := x
    dsimp only at ih
    subst ih
    cases algorithms mask a1 a2 k with
    | none => exact ⟨0, rfl⟩
    | some l =>
      simp only [Option.map_some]
      by_cases hm : mask &&& ((1 : Byte) <<< k) = 0
      · rw [if_pos hm, if_pos hm]
        exact ⟨size, rfl⟩
      · rw [if_neg hm, if_neg hm]
        by_cases hk : k = 1 ∨ k = 2
        · have ha : (if k = 1 then some (l ++ [Val.int a1]) else if k = 2 then some (l ++ [.int a2]) else none) =
              some (l ++ [.int (if k = 1 then a1 else a2)]) := by
            rcases hk with rfl | rfl <;> rfl
          rw [if_pos hk, ha, h1, if_neg (by simp), h2]
          split
          · exact ⟨_, rfl⟩
          · exact ⟨_, rfl⟩
        · have h3 : k ≠ 1 := fun h => hk (.inl h)
          have h4 : k ≠ 2 := fun h => hk (.inr h)
          rw [if_neg hk, if_neg h3, if_neg h4]
          exact ⟨0, rfl⟩

/-- Without memory for an algorithm there is no list but the empty one. -/
theorem algorithmsW_empty (w : World) (hw : ∀ n, w n .algorithm = false) (mask : Byte) (a1 a2 : Int) : ∀ (k n : Nat) {x},
    (algorithmsW w mask a1 a2 k n).1 = .ok (some x) → algorithms mask a1 a2 k = some []
  | 0, n, x, _ => rfl
  | k + 1, n, x, h => by
    have ih := @algorithmsW_empty w hw mask a1 a2 k n
    rw [algorithmsW_succ] at h
    unfold algorithms
    generalize algorithmsW w mask a1 a2 k n = y at ih h
    obtain ⟨r, n'⟩ := y
    cases r with
    | fault f => cases h
    | ok o =>
      cases o with
      | none => cases h
      | some z =>
        rw [ih rfl]
        obtain ⟨l, size⟩ := z
        dsimp only at h ⊢
        by_cases hm : mask &&& ((1 : Byte) <<< k) = 0
        · rw [if_pos hm]
        · rw [if_neg hm] at h
          by_cases hk : k = 1 ∨ k = 2
          · rw [if_pos hk, if_pos (hw _)] at h
            cases h
          · rw [if_neg hk] at h
            cases h

theorem keyW_eq (w : World) (k : Option Bytes) (n : Nat) : (keyW w k n).1 =
    if k.isSome = true ∧ w n .key = false then .ok [] else keyBits k := by
  cases k with
  | none => rfl
  | some b =>
    show ((attempt w .key >>= _) n).1 = _
    rw [attempt_bind]
    cases w n .key <;> rfl

end Verif.Scarce
