import Verif.Proofs.ScarceSec
import Verif.Props.FactorySec
import Verif.Props.Scarce

/-!
# C123: Security Mode Command when memory runs out
-/

namespace Verif.Props
open Verif.Aper Verif.Ie Verif.Ie.Spec Verif.Rx.Spec Verif.Wire Verif.Gen.Ranap Verif.Factory Verif.Factory.Spec Verif.Scarce
open Verif.Aper.Spec (fits fitsFields)
open Verif.Generate (Proto)

/-- **C120**, the messages of RANAP: whatever fails, what is made is NULL, or a message of the same kind with some of the
elements it should have, in their order and with their values. -/
theorem C120_elements {m : MsgDef} {direction code crit : Nat} (k : Kind m direction code crit) {s : Struct}
    {c : List (IeDef × Val)} (hcont : contents m s = some c) (w : World) (debug : Bool) (n : Nat) :
    (messageW w debug .ranap direction code crit m s n).1 = none ∨
    ∃ bs want, (messageW w debug .ranap direction code crit m s n).1 = some bs ∧
      want.Sublist (c.map fun x => (x.1.id, x.2)) ∧ SaysOrEmpty bs direction code want := by
  rcases messageW_says k hcont w debug n with h | ⟨bs, c', h1, h2, -, h3, -⟩
  · exact .inl h
  · exact .inr ⟨bs, wanted c', h1, h2.map _, h3⟩

/-- The elements of a Security Mode Command. -/
def command (ia : List Val) (ik : Bytes) (ea : List Val) (ck : Option Bytes) (status : Nat) : List (Nat × Val) :=
  [(12, securityInfo ia ik)] ++ opt 11 (fun k => securityInfo ea k) ck ++ [(75, .enum status)]

/-- **C123**, full statement: whatever fails, a Security Mode Command that is made demands what it was asked to demand. -/
def C123_full : Prop := ∀ (w : World) (debug : Bool) (ik : Bytes) (ck : Option Bytes) (status : Nat) (uia uea : Byte) (n : Nat),
  16 ≤ ik.length → (∀ k ∈ ck, 16 ≤ k.length) →
  (secModCmd2W w debug (some ik) ck status uia uea n).1 = .ok none ∨
  (secModCmd2W w debug (some ik) ck status uia uea n).1 = secModCmd2 (some ik) ck status uia uea

/-- Sublists of the algorithms are selected by another mask. -/
theorem sublist_selected {mask : Byte} {a1 a2 : Int} {l : List Val} (h : l.Sublist (selected mask a1 a2)) :
    ∃ mask', l = selected mask' a1 a2 := by
  have all : ∀ l : List Val, l.Sublist [.int a1, .int a2] → ∃ mask', l = selected mask' a1 a2 := by
    intro l h
    rcases List.sublist_cons_iff.1 h with g | ⟨r, rfl, g⟩ <;> rcases List.sublist_cons_iff.1 g with g' | ⟨r', rfl, g'⟩ <;>
      obtain rfl := List.sublist_nil.1 g'
    · exact ⟨0, rfl⟩
    · exact ⟨4, rfl⟩
    · exact ⟨2, rfl⟩
    · exact ⟨6, rfl⟩
  apply all
  refine h.trans ?_
  unfold selected
  cases mask.getLsbD 1 <;> cases mask.getLsbD 2 <;> simp

theorem secModW_eq (w : World) (debug : Bool) (ik ck : Option Bytes) (status : Nat) (uia uea : Byte) (n : Nat) :
    ∃ n1 n2 n3 n4, (secModCmd2W w debug ik ck status uia uea n).1 =
      match (algorithmsW w uia 0 1 8 n).1 with
      | .fault f => .fault f
      | .ok none => .ok none
      | .ok (some x) =>
        match (keyW w ik n1).1 with
        | .fault f => .fault f
        | .ok ikBits =>
          match ck with
          | none => .ok (messageW w debug .ranap 1 6 reject securityModeCommandIEs (secModIes x.1 ikBits none status) n2).1
          | some _ =>
            match (algorithmsW w uea 1 2 8 n2).1 with
            | .fault f => .fault f
            | .ok none => .ok none
            | .ok (some y) =>
              match (keyW w ck n3).1 with
              | .fault f => .fault f
              | .ok ckBits => .ok (messageW w debug .ranap 1 6 reject securityModeCommandIEs
                  (secModIes x.1 ikBits (some (y.1, ckBits)) status) n4).1 := by
  refine ⟨(algorithmsW w uia 0 1 8 n).2, (keyW w ik (algorithmsW w uia 0 1 8 n).2).2,
    (algorithmsW w uea 1 2 8 (keyW w ik (algorithmsW w uia 0 1 8 n).2).2).2,
    (keyW w ck (algorithmsW w uea 1 2 8 (keyW w ik (algorithmsW w uia 0 1 8 n).2).2).2).2, ?_⟩
  unfold secModCmd2W
  simp only [bind, StateT.bind, pure]
  rcases algorithmsW w uia 0 1 8 n with ⟨r, n1⟩
  cases r with
  | fault f => rfl
  | ok o =>
    cases o with
    | none => rfl
    | some x =>
      simp only [StateT.bind, bind]
      rcases keyW w ik n1 with ⟨r, n2⟩
      cases r with
      | fault f => rfl
      | ok ikBits =>
        cases ck with
        | none => rfl
        | some k =>
          simp only [StateT.bind, bind]
          rcases algorithmsW w uea 1 2 8 n2 with ⟨r, n3⟩
          cases r with
          | fault f => rfl
          | ok o =>
            cases o with
            | none => rfl
            | some y =>
              simp only [StateT.bind, bind]
              rcases keyW w (some k) n3 with ⟨r, n4⟩
              cases r <;> rfl

/-- The function without failures, in the same form. -/
theorem secMod_eq (ik ck : Option Bytes) (status : Nat) (uia uea : Byte) : secModCmd2 ik ck status uia uea =
    match algorithms uia 0 1 8 with
    | none => .ok none
    | some ia =>
      match keyBits ik with
      | .fault f => .fault f
      | .ok ikBits =>
        match ck with
        | none => .ok (message .ranap 1 6 reject securityModeCommandIEs (secModIes ia ikBits none status))
        | some _ =>
          match algorithms uea 1 2 8 with
          | none => .ok none
          | some ea =>
            match keyBits ck with
            | .fault f => .fault f
            | .ok ckBits => .ok (message .ranap 1 6 reject securityModeCommandIEs
                (secModIes ia ikBits (some (ea, ckBits)) status)) := by
  have key : ∀ s, Factory.generate 1 6 reject securityModeCommandIEs s = message .ranap 1 6 reject securityModeCommandIEs s := by
    intro s
    unfold Factory.generate message encodeMsg Generate.generate
    cases encodeIes securityModeCommandIEs s <;> rfl
  unfold secModCmd2
  cases algorithms uia 0 1 8 with
  | none => rfl
  | some ia =>
    dsimp only
    cases keyBits ik with
    | fault f => rfl
    | ok b =>
      dsimp only
      cases ck with
      | none => exact congrArg Res.ok (key _)
      | some k =>
        dsimp only
        cases algorithms uea 1 2 8 with
        | none => rfl
        | some ea =>
          dsimp only
          cases keyBits (some k) with
          | fault f => rfl
          | ok b' => exact congrArg Res.ok (key _)

/-- **C123**: with memory, and an output that is not used or can be written to, the message. -/
theorem C123_sufficient (w : World) (hm : Memory w) (debug : Bool) (ho : debug = false ∨ Writable w) (ik ck : Option Bytes)
    (status : Nat) (uia uea : Byte) (n : Nat) :
    (secModCmd2W w debug ik ck status uia uea n).1 = secModCmd2 ik ck status uia uea := by
  obtain ⟨n1, n2, n3, n4, h⟩ := secModW_eq w debug ik ck status uia uea n
  rw [h, secMod_eq]
  obtain ⟨s1, h1⟩ := algorithmsW_ok w (fun n => hm n _ nofun) (fun n => hm n _ nofun) uia 0 1 8 n
  obtain ⟨s2, h2⟩ := algorithmsW_ok w (fun n => hm n _ nofun) (fun n => hm n _ nofun) uea 1 2 8 n2
  have hk : ∀ k n, (keyW w k n).1 = keyBits k := by
    intro k n
    rw [keyW_eq, if_neg]
    rintro ⟨-, h⟩
    rw [hm n .key nofun] at h
    cases h
  cases ck with
  | none =>
    simp only [h1, hk, C120_any_sufficient w hm debug ho]
    cases algorithms uia 0 1 8 <;> rfl
  | some k =>
    simp only [h1, h2, hk, C120_any_sufficient w hm debug ho]
    cases algorithms uia 0 1 8 with
    | none => rfl
    | some ia =>
      simp only [Option.map_some]
      cases algorithms uea 1 2 8 <;> rfl

/-- A key that is not there does not fit. -/
theorem no_key_fits (l : List Val) : fits RANAP_IntegrityProtectionInformation (.seq [some (.list l), some (.bits []), none]) = false ∧
    fits RANAP_EncryptionInformation (.seq [some (.list l), some (.bits []), none]) = false := by
  have h0 : fits RANAP_IntegrityProtectionKey (.bits []) = false := rfl
  have h1 : fits RANAP_EncryptionKey (.bits []) = false := rfl
  constructor
  · simp only [RANAP_IntegrityProtectionInformation, fits, fitsFields, h0, Bool.and_false, Bool.false_and]
  · simp only [RANAP_EncryptionInformation, fits, fitsFields, h1, Bool.and_false, Bool.false_and]

/-- The rows of a Security Mode Command. -/
def secRows (ia : List Val) (ik : Bits) (e : Option (List Val × Bits)) (status : Nat) : List (IeDef × Val) :=
  [(securityModeCommandIEs.ies[0], .seq [some (.list ia), some (.bits ik), none])] ++
    (e.map fun x => (securityModeCommandIEs.ies[1], Val.seq [some (.list x.1), some (.bits x.2), none])).toList ++
    [(securityModeCommandIEs.ies[2], .enum status)]

theorem secRows_contents (ia : List Val) (ik : Bits) (e : Option (List Val × Bits)) (status : Nat) :
    contents securityModeCommandIEs (secModIes ia ik e status) = some (secRows ia ik e status) := by
  cases e with
  | none => with_unfolding_all rfl
  | some x => with_unfolding_all rfl

/-- **C123**, what holds: whatever fails, a Security Mode Command never permits an algorithm it was not asked to permit, nor
with another key or key status; but algorithms, and whole elements, may be missing. -/
theorem C123_partial (w : World) (debug : Bool) (ik : Bytes) (ck : Option Bytes) (status : Nat) (uia uea : Byte) (n : Nat)
    (hik : 16 ≤ ik.length) (hck : ∀ k ∈ ck, 16 ≤ k.length) :
    (secModCmd2W w debug (some ik) ck status uia uea n).1 = .fault .nullDeref ∨
    (secModCmd2W w debug (some ik) ck status uia uea n).1 = .ok none ∨
    ∃ bs ia ea want, (secModCmd2W w debug (some ik) ck status uia uea n).1 = .ok (some bs) ∧ Says bs 1 6 want ∧
      ia.Sublist (selected uia 0 1) ∧ ea.Sublist (selected uea 1 2) ∧ want.Sublist (command ia ik ea ck status) := by
  have hsub : ∀ mask (a1 a2 : Int) l0 l, algorithms mask a1 a2 8 = some l0 → List.Sublist l l0 →
      l.Sublist (selected mask a1 a2) := by
    intro mask a1 a2 l0 l h hl
    obtain ⟨h1, h2⟩ := algorithms_eq mask a1 a2
    by_cases ho : onlyTwo mask
    · rw [h1 ho] at h; cases h; exact hl
    · rw [h2 ho] at h; cases h
  have hkey : ∀ k n, 16 ≤ k.length → (keyW w (some k) n).1 = .ok [] ∨ (keyW w (some k) n).1 = .ok (octetsBits (k.take 16)) := by
    intro k n hk
    rw [keyW_eq]
    split
    · exact .inl rfl
    · exact .inr (if_neg (Nat.not_lt.2 hk))
  have hsb : openOcts (maxBits RANAP_KeyStatus (.enum status)) ≤ 100 := by
    unfold openOcts; simp only [RANAP_KeyStatus, maxBits]; decide
  obtain ⟨n1, n2, n3, n4, h⟩ := secModW_eq w debug (some ik) ck status uia uea n
  rw [h]
  clear h
  have ha := algorithmsW_sub w uia 0 1 8 n
  cases ck with
  | none =>
    dsimp only
    generalize (algorithmsW w uia 0 1 8 n).1 = r at ha ⊢
    cases r with
    | fault f => exact .inl (by rw [show f = _ from ha])
    | ok o =>
      cases o with
      | none => exact .inr (.inl rfl)
      | some x =>
        obtain ⟨l0, h1, h2⟩ := ha
        have hx := hsub _ _ _ _ _ h1 h2
        obtain ⟨mask, hmask⟩ := sublist_selected hx
        refine .inr ?_
        dsimp only
        rcases hkey ik n1 hik with hk | hk
        · rw [hk]
          rcases messageW_says is_securityModeCommandIEs (secRows_contents x.1 [] none status) w debug n2 with h | ⟨_, _, -, -, h, -⟩
          · exact .inl (congrArg Res.ok h)
          · simp [allFit, secRows, securityModeCommandIEs, (no_key_fits x.1).1] at h
        · rw [hk]
          rcases messageW_says is_securityModeCommandIEs (secRows_contents x.1 (octetsBits (ik.take 16)) none status) w debug n2 with
            h | ⟨bs, c', hb, hc, -, -, hsays⟩
          · exact .inl (congrArg Res.ok h)
          · refine .inr ⟨bs, x.1, [], wanted c', congrArg Res.ok hb, hsays ?_, hx, List.nil_sublist _, hc.map _⟩
            have := (secInfo_fits mask 0 1 (by decide) (by decide) ik hik).2
            rw [← hmask] at this
            unfold securityInfo at this
            simp only [secRows, Option.map_none, Option.toList_none, List.append_nil, List.cons_append, List.nil_append, bound,
              securityModeCommandIEs, List.getElem_cons_zero, List.getElem_cons_succ]
            omega
  | some k =>
    have hlk := hck k rfl
    dsimp only
    have hb := algorithmsW_sub w uea 1 2 8 n2
    generalize (algorithmsW w uia 0 1 8 n).1 = r at ha ⊢
    cases r with
    | fault f => exact .inl (by rw [show f = _ from ha])
    | ok o =>
      cases o with
      | none => exact .inr (.inl rfl)
      | some x =>
        obtain ⟨l0, h1, h2⟩ := ha
        have hx := hsub _ _ _ _ _ h1 h2
        obtain ⟨mask, hmask⟩ := sublist_selected hx
        dsimp only
        obtain ⟨ib, hib, hib'⟩ : ∃ ib, (keyW w (some ik) n1).1 = .ok ib ∧ (ib = [] ∨ ib = octetsBits (ik.take 16)) := by
          rcases hkey ik n1 hik with h | h
          · exact ⟨_, h, .inl rfl⟩
          · exact ⟨_, h, .inr rfl⟩
        rw [hib]
        dsimp only
        generalize (algorithmsW w uea 1 2 8 n2).1 = r at hb ⊢
        cases r with
        | fault f => exact .inl (by rw [show f = _ from hb])
        | ok o =>
          cases o with
          | none => exact .inr (.inl rfl)
          | some y =>
            obtain ⟨l1, g1, g2⟩ := hb
            have hy := hsub _ _ _ _ _ g1 g2
            obtain ⟨mask', hmask'⟩ := sublist_selected hy
            refine .inr ?_
            obtain ⟨cb, hcb, hcb'⟩ : ∃ cb, (keyW w (some k) n3).1 = .ok cb ∧ (cb = [] ∨ cb = octetsBits (k.take 16)) := by
              rcases hkey k n3 hlk with h | h
              · exact ⟨_, h, .inl rfl⟩
              · exact ⟨_, h, .inr rfl⟩
            dsimp only
            rw [hcb]
            dsimp only
            rcases messageW_says is_securityModeCommandIEs (secRows_contents x.1 ib (some (y.1, cb)) status) w debug n4 with
              h | ⟨bs, c', hbs, hc, hfit, -, hsays⟩
            · exact .inl (congrArg Res.ok h)
            · have hi : ib = octetsBits (ik.take 16) := by
                rcases hib' with rfl | h
                · simp [allFit, secRows, securityModeCommandIEs, (no_key_fits x.1).1] at hfit
                · exact h
              have hcc : cb = octetsBits (k.take 16) := by
                rcases hcb' with rfl | h
                · simp [allFit, secRows, securityModeCommandIEs, (no_key_fits y.1).2] at hfit
                · exact h
              subst hi hcc
              refine .inr ⟨bs, x.1, y.1, wanted c', congrArg Res.ok hbs, hsays ?_, hx, hy, hc.map _⟩
              have e1 := (secInfo_fits mask 0 1 (by decide) (by decide) ik hik).2
              have e2 : openOcts (maxBits RANAP_EncryptionInformation (securityInfo (selected mask' 1 2) k)) ≤ 100 :=
                (secInfo_fits mask' 1 2 (by decide) (by decide) k hlk).2
              rw [← hmask] at e1
              rw [← hmask'] at e2
              unfold securityInfo at e1 e2
              simp only [secRows, Option.map_some, Option.toList_some, List.append_nil, List.cons_append, List.nil_append, bound,
                securityModeCommandIEs, List.getElem_cons_zero, List.getElem_cons_succ]
              omega

/-- Keys. -/
def someKey : Bytes := List.replicate 16 0x5a

/-- A world where the list of elements cannot grow at the first two elements. -/
def noListAtTwo : World := fun n x => x != .list || decide (13 < n)

/-- A world where the list of algorithms cannot grow at the first algorithm. -/
def noListAtAlgorithm : World := fun n x => x != .algorithms || decide (1 < n)

/-- **C123**: a command is returned that demands neither integrity protection nor encryption, although both were asked for. -/
theorem C123_nothing_demanded : (secModCmd2W noListAtTwo false (some someKey) (some someKey) 0 6 6 0).1 =
    .ok (some [0x00, 0x06, 0x00, 0x08, 0x00, 0x00, 0x01, 0x00, 0x4b, 0x00, 0x01, 0x00]) := by
  decide +kernel

/-- **C123**: a command is returned that permits UIA2 only, although UIA1 was to be permitted too. -/
theorem C123_one_missing : (secModCmd2W noListAtAlgorithm false (some someKey) (some someKey) 0 6 6 0).1 =
    .ok (some ([0x00, 0x06, 0x00, 0x34, 0x00, 0x00, 0x03, 0x00, 0x0c, 0x00, 0x12, 0x00, 0x80] ++ someKey ++
      [0x00, 0x0b, 0x40, 0x12, 0x08, 0x90] ++ someKey ++ [0x00, 0x4b, 0x00, 0x01, 0x00])) := by
  decide +kernel

/-- What should have been returned. -/
theorem C123_asked_for : secModCmd2 (some someKey) (some someKey) 0 6 6 =
    .ok (some ([0x00, 0x06, 0x00, 0x34, 0x00, 0x00, 0x03, 0x00, 0x0c, 0x00, 0x12, 0x08, 0x08] ++ someKey ++
      [0x00, 0x0b, 0x40, 0x12, 0x08, 0x90] ++ someKey ++ [0x00, 0x4b, 0x00, 0x01, 0x00])) := by
  decide +kernel

/-- **C123** is violated. -/
theorem C123_violated : ¬ C123_full := by
  intro h
  have h1 := h noListAtTwo false someKey (some someKey) 0 6 6 0 (by decide) (by rintro k ⟨⟩; decide)
  rw [C123_nothing_demanded, C123_asked_for] at h1
  exact absurd h1 (by decide)

/-- **C123**: the process ends if there is no memory for an algorithm. -/
theorem C123_crash (w : World) (hw : ∀ n, w n .algorithm = false) (debug : Bool) (ik ck : Option Bytes) (status : Nat)
    (uia uea : Byte) (hu : SelectsAlgorithms uia) (n : Nat) :
    (secModCmd2W w debug ik ck status uia uea n).1 = .fault .nullDeref := by
  obtain ⟨n1, n2, n3, n4, h⟩ := secModW_eq w debug ik ck status uia uea n
  rw [h]
  have ha := algorithmsW_sub w uia 0 1 8 n
  have he := @algorithmsW_empty w hw uia 0 1 8 n
  have h0 : algorithms uia 0 1 8 = some (selected uia 0 1) := (algorithms_eq uia 0 1).1 hu.2
  generalize (algorithmsW w uia 0 1 8 n).1 = r at ha he ⊢
  cases r with
  | fault f => rw [show f = _ from ha]
  | ok o =>
    cases o with
    | none => rw [show algorithms uia 0 1 8 = none from ha] at h0; cases h0
    | some x =>
      rw [he rfl] at h0
      have h1 := (Option.some.inj h0).symm
      unfold selected at h1
      rcases hu.1 with h | h <;> simp [h] at h1

/-- The masks and keys of the examples are such. -/
example : SelectsAlgorithms 0x06 ∧ 16 ≤ someKey.length := ⟨⟨by decide, (onlyTwo_iff _).2 (by decide)⟩, by decide⟩
/-- Rows of a command, for `C120_elements`. -/
example : contents securityModeCommandIEs (secModIes [.int 0] (octetsBits someKey) none 1) =
    some (secRows [.int 0] (octetsBits someKey) none 1) := secRows_contents ..

end Verif.Props
