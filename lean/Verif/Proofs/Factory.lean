import Verif.Proofs.Wire
import Verif.Proofs.Dispatch
import Verif.Model.Factory
import Verif.Spec.Factory

/-!
# Generated messages: generic part
-/

namespace Verif.Factory
open Verif.Aper Verif.Ie Verif.Ie.Spec Verif.Rx.Spec Verif.Wire Verif.Gen.Ranap Verif.Factory.Spec
open Verif.Aper.Spec (fits)

/-- The value of a member. -/
def slotVal (d : IeDef) : Option Slot → Option Val
  | some s => some s.val
  | none => zeroVal d.ty

theorem newIe_slotVal (d : IeDef) (f : Option Slot) : newIe d.id d.crit d.ty f = match slotVal d f with
    | none => none
    | some v => match encode d.ty v with
      | none => none
      | some b => some ⟨d.id, d.crit, b⟩ := by
  cases f <;> rfl

/-- The rows that go into the message, with their values. -/
def contentsRows : List IeDef → Nat → BitVec 16 → List (Option Slot) → Option (List (IeDef × Val))
  | [], _, _, _ => some []
  | _ :: _, _, _, [] => none
  | d :: ds, sh, mask, f :: fs =>
    if d.opt && !isPresent mask sh then contentsRows ds (sh + 1) mask fs
    else match slotVal d f with
      | none => none
      | some v => match contentsRows ds (if d.opt then sh + 1 else sh) mask fs with
        | none => none
        | some r => some ((d, v) :: r)

def contents (m : MsgDef) (s : Struct) : Option (List (IeDef × Val)) := contentsRows m.ies 0 s.mask s.fields

/-- The values encoded. -/
def encodeAll : List (IeDef × Val) → Option (List Ie)
  | [] => some []
  | (d, v) :: c => match encode d.ty v with
    | none => none
    | some b => match encodeAll c with
      | none => none
      | some l => some (⟨d.id, d.crit, b⟩ :: l)

theorem encodeRows_contents {ds : List IeDef} {sh : Nat} {mask : BitVec 16} {fs : List (Option Slot)}
    {c : List (IeDef × Val)} (h : contentsRows ds sh mask fs = some c) : encodeRows ds sh mask fs = encodeAll c := by
  induction ds generalizing sh fs c with
  | nil => simp only [contentsRows, Option.some.injEq] at h; subst h; rfl
  | cons d ds ih =>
    cases fs with
    | nil => simp [contentsRows] at h
    | cons f fs =>
      simp only [contentsRows] at h
      simp only [encodeRows]
      split at h
      · rename_i hp
        rw [if_pos hp]
        exact ih h
      · rename_i hp
        rw [if_neg hp]
        rw [newIe_slotVal]
        split at h
        · cases h
        · rename_i v hv
          split at h
          · cases h
          · rename_i r hr
            simp only [Option.some.injEq] at h
            subst h
            simp only [encodeAll]
            cases encode d.ty v with
            | none => rfl
            | some b =>
              simp only
              rw [ih hr]
              cases encodeAll r <;> rfl

theorem contents_mem {ds : List IeDef} {sh : Nat} {mask : BitVec 16} {fs : List (Option Slot)}
    {c : List (IeDef × Val)} (h : contentsRows ds sh mask fs = some c) :
    (∀ x ∈ c, x.1 ∈ ds) ∧ c.length ≤ ds.length := by
  induction ds generalizing sh fs c with
  | nil => simp only [contentsRows, Option.some.injEq] at h; subst h; simp
  | cons d ds ih =>
    cases fs with
    | nil => simp [contentsRows] at h
    | cons f fs =>
      simp only [contentsRows] at h
      split at h
      · obtain ⟨h1, h2⟩ := ih h
        exact ⟨fun x hx => List.mem_cons_of_mem _ (h1 x hx), by simp; omega⟩
      · split at h
        · cases h
        · split at h
          · cases h
          · rename_i r hr
            simp only [Option.some.injEq] at h
            subst h
            obtain ⟨h1, h2⟩ := ih hr
            refine ⟨fun x hx => ?_, by simp; omega⟩
            rcases List.mem_cons.1 hx with rfl | hx
            · exact List.mem_cons_self
            · exact List.mem_cons_of_mem _ (h1 x hx)

/-- All values can be encoded. -/
def allFit (c : List (IeDef × Val)) : Bool := c.all fun x => fits x.1.ty x.2

theorem encodeAll_isSome {c : List (IeDef × Val)} (h : ∀ x ∈ c, x.1.ty.sane = true) :
    (encodeAll c).isSome = allFit c := by
  induction c with
  | nil => rfl
  | cons x c ih =>
    obtain ⟨d, v⟩ := x
    have h1 := encode_isSome (h (d, v) List.mem_cons_self) v
    have h2 := ih fun x hx => h x (List.mem_cons_of_mem _ hx)
    simp only [encodeAll, allFit, List.all_cons] at *
    rw [← h1, ← h2]
    cases encode d.ty v with
    | none => rfl
    | some b => cases encodeAll c <;> rfl

/-- The wanted elements for the rows and values. -/
def wanted (c : List (IeDef × Val)) : List (Nat × Val) := c.map fun x => (x.1.id, x.2)

/-- Upper bound of the octets of the elements. -/
def bound : List (IeDef × Val) → Nat
  | [] => 0
  | (d, v) :: c => 5 + openOcts (maxBits d.ty v) + bound c

theorem lenOctets_length (n : Nat) : (lenOctets n).length = if n < 128 then 1 else 2 := by
  unfold lenOctets; split <;> rfl

theorem encodeAll_spec {m : MsgDef} {c : List (IeDef × Val)} {l : List Ie}
    (hm : ∀ x ∈ c, x.1 ∈ m.ies) (hok : ∀ x ∈ c, x.1.ty.ok = true) (hs : ∀ x ∈ c, x.1.ty.sane = true)
    (h : encodeAll c = some l) :
    Elements m l (wanted c) ∧ (∀ ie ∈ l, ∃ x ∈ c, ie.id = x.1.id ∧ ie.crit = x.1.crit) ∧ l.length = c.length ∧
      (l.flatMap ieOctets).length ≤ bound c := by
  induction c generalizing l with
  | nil =>
    simp only [encodeAll, Option.some.injEq] at h
    subst h
    exact ⟨trivial, by simp, rfl, by simp [bound]⟩
  | cons x c ih =>
    obtain ⟨d, v⟩ := x
    simp only [encodeAll] at h
    cases hb : encode d.ty v with
    | none => rw [hb] at h; cases h
    | some b =>
      rw [hb] at h
      cases hc : encodeAll c with
      | none => rw [hc] at h; cases h
      | some l' =>
        rw [hc] at h
        simp only [Option.some.injEq] at h
        subst h
        obtain ⟨h1, h2, h3, h4⟩ := ih (fun x hx => hm x (List.mem_cons_of_mem _ hx))
          (fun x hx => hok x (List.mem_cons_of_mem _ hx)) (fun x hx => hs x (List.mem_cons_of_mem _ hx)) hc
        refine ⟨⟨⟨d, hm _ List.mem_cons_self, rfl, rfl, rfl, decode_encode (hok (d, v) List.mem_cons_self) hb⟩, h1⟩,
          ?_, by simp [h3], ?_⟩
        · intro ie hie
          rcases List.mem_cons.1 hie with rfl | hie
          · exact ⟨_, List.mem_cons_self, rfl, rfl⟩
          · obtain ⟨x, hx, hxx⟩ := h2 ie hie
            exact ⟨x, List.mem_cons_of_mem _ hx, hxx⟩
        · have : b.length ≤ openOcts (maxBits d.ty v) := encode_length (hs (d, v) List.mem_cons_self) hb
          have h5 := lenOctets_length b.length
          simp only [List.flatMap_cons, List.length_append, ieOctets, be16, List.length_cons, List.length_nil, bound]
          split at h5 <;> omega

theorem tables_sane : tables.all (fun m => m.ies.all fun d => d.ty.sane && decide (d.id < 65536) && decide (d.crit < 3))
    = true := by decide +kernel

theorem tables_short : tables.all (fun m => decide (m.ies.length < 65536)) = true := by decide +kernel

theorem row_facts {m : MsgDef} (hm : m ∈ tables) {d : IeDef} (hd : d ∈ m.ies) :
    d.ty.sane = true ∧ d.ty.ok = true ∧ d.id < 65536 ∧ d.crit < 3 := by
  have h := List.all_eq_true.1 (List.all_eq_true.1 tables_sane m hm) d hd
  simp only [Bool.and_eq_true, decide_eq_true_eq] at h
  exact ⟨h.1.1, (good hm).types d hd, h.1.2, h.2⟩

/-- The four PDUs. -/
def ranapRoot : Fields := .cons false RANAP_InitiatingMessage (.cons false RANAP_SuccessfulOutcome
  (.cons false RANAP_UnsuccessfulOutcome (.cons false RANAP_Outcome .nil)))

theorem ranap_pdu (present code crit : Nat) (value : Bytes) (hp : 1 ≤ present) (hp4 : present ≤ 4) (hc : code < 256)
    (hk : crit < 3) :
    ∃ bs, encode RANAP_RANAP_PDU (pduVal present code crit value) = some bs ∧
      (value.length < 16384 → bs = pduOctets present code crit value) ∧ value.length ≤ bs.length := by
  have h : present = 1 ∨ present = 2 ∨ present = 3 ∨ present = 4 := by omega
  have hs : (pduTy ranapRoot).sane = true := by decide
  rcases h with rfl | rfl | rfl | rfl <;>
    exact encode_pdu_room (root := ranapRoot) (Or.inr rfl) (by decide) (fun _ => by rfl)
      (fun _ => by simp [ranapRoot, Aper.Spec.fitsAlt]; rfl) hs hc hk

theorem pduOctets_length (p c k : Nat) (v : Bytes) :
    (pduOctets p c k v).length = 3 + (if v.length < 128 then 1 else 2) + v.length := by
  simp only [pduOctets, List.length_append, List.length_cons, List.length_nil, lenOctets_length]

theorem containerOctets_length (l : List Ie) : (containerOctets l).length = 3 + (l.flatMap ieOctets).length := by
  simp only [containerOctets, be16, List.length_append, List.length_cons, List.length_nil]

/-- The octets of a generated message, exactly. -/
theorem generate_eq {m : MsgDef} (hm : m ∈ tables) {s : Struct} {c : List (IeDef × Val)} (hcont : contents m s = some c)
    (present code crit : Nat) (hp : 1 ≤ present) (hp4 : present ≤ 4) (hc : code < 256) (hk : crit < 3) :
    generate present code crit m s = (encodeAll c).map fun l =>
      if (pduOctets present code crit (containerOctets l)).length ≤ 1024 then
        pduOctets present code crit (containerOctets l) else [] := by
  obtain ⟨hmem, hlen⟩ := contents_mem hcont
  unfold generate encodeMsg encodeIes
  unfold contents at hcont
  rw [encodeRows_contents hcont]
  cases hl : encodeAll c with
  | none => rfl
  | some l =>
    obtain ⟨-, h2, h3, -⟩ := encodeAll_spec hmem (fun x hx => (row_facts hm (hmem x hx)).2.1)
      (fun x hx => (row_facts hm (hmem x hx)).1) hl
    have hshort := List.all_eq_true.1 tables_short m hm
    simp only [decide_eq_true_eq] at hshort
    obtain ⟨any, ha, ha1, ha2⟩ := encode_container_room hm (l := l) (by omega) (fun ie hie => by
      obtain ⟨x, hx, h4, h5⟩ := h2 ie hie
      rw [h4, h5]
      exact (row_facts hm (hmem x hx)).2.2)
    obtain ⟨bs, hb, hb1, hb2⟩ := ranap_pdu present code crit any hp hp4 hc hk
    simp only [ha, genPdu, hb, Option.map_some]
    have hw := pduOctets_length present code crit (containerOctets l)
    by_cases hlt : (containerOctets l).length < 16384
    · have h5 := ha1 hlt
      subst h5
      rw [hb1 hlt]
      rfl
    · have h5 := ha2 (by omega)
      rw [if_neg (by unfold tailroom; omega), if_neg (by split at hw <;> omega)]

theorem mem_of_find {code : Nat} {p : Proc} (h : procs.find? (·.code == code) = some p) : p ∈ procs ∧ p.code = code :=
  ⟨List.mem_of_find?_eq_some h, by simpa using List.find?_some h⟩

/-- All values fit and the message is short: it is complete. -/
theorem generate_says {m : MsgDef} (hm : m ∈ tables) {s : Struct} {c : List (IeDef × Val)} (hcont : contents m s = some c)
    {present code : Nat} (hp : 1 ≤ present) (hp4 : present ≤ 4) (hc : code < 256) {p : Proc} (hk : p.crit < 3)
    (hproc : procs.find? (·.code == code) = some p) (hkind : ofKind present p = some m)
    (hfit : allFit c = true) (hb : bound c ≤ 1000) :
    ∃ bs, generate present code p.crit m s = some bs ∧ Says bs present code (wanted c) := by
  obtain ⟨hmem, hlen⟩ := contents_mem hcont
  rw [generate_eq hm hcont present code p.crit hp hp4 hc hk]
  have := encodeAll_isSome fun x hx => (row_facts hm (hmem x hx)).1
  rw [hfit] at this
  obtain ⟨l, hl⟩ := Option.isSome_iff_exists.1 this
  obtain ⟨h1, h2, h3, h4⟩ := encodeAll_spec hmem (fun x hx => (row_facts hm (hmem x hx)).2.1)
    (fun x hx => (row_facts hm (hmem x hx)).1) hl
  have hw := pduOctets_length present code p.crit (containerOctets l)
  rw [containerOctets_length] at hw
  have hle : (pduOctets present code p.crit (containerOctets l)).length ≤ 1024 := by split at hw <;> omega
  rw [hl, Option.map_some, if_pos hle]
  exact ⟨_, rfl, ⟨p, m, l, hproc, hkind, rfl, h1⟩, hle⟩

/-- All values fit: complete, or empty if too long. -/
theorem generate_exact {m : MsgDef} (hm : m ∈ tables) {s : Struct} {c : List (IeDef × Val)} (hcont : contents m s = some c)
    {present code : Nat} (hp : 1 ≤ present) (hp4 : present ≤ 4) (hc : code < 256) {p : Proc} (hk : p.crit < 3)
    (hproc : procs.find? (·.code == code) = some p) (hkind : ofKind present p = some m)
    (hfit : allFit c = true) :
    ∃ bs, generate present code p.crit m s = some bs ∧ SaysOrEmpty bs present code (wanted c) := by
  obtain ⟨hmem, hlen⟩ := contents_mem hcont
  rw [generate_eq hm hcont present code p.crit hp hp4 hc hk]
  have := encodeAll_isSome fun x hx => (row_facts hm (hmem x hx)).1
  rw [hfit] at this
  obtain ⟨l, hl⟩ := Option.isSome_iff_exists.1 this
  obtain ⟨h1, h2, h3, h4⟩ := encodeAll_spec hmem (fun x hx => (row_facts hm (hmem x hx)).2.1)
    (fun x hx => (row_facts hm (hmem x hx)).1) hl
  rw [hl, Option.map_some]
  exact ⟨_, rfl, _, ⟨p, m, l, hproc, hkind, rfl, h1⟩, rfl⟩

/-- Some value does not fit: NULL. -/
theorem generate_none {m : MsgDef} (hm : m ∈ tables) {s : Struct} {c : List (IeDef × Val)} (hcont : contents m s = some c)
    {present code crit : Nat} (hp : 1 ≤ present) (hp4 : present ≤ 4) (hc : code < 256) (hk : crit < 3)
    (hfit : allFit c = false) : generate present code crit m s = none := by
  obtain ⟨hmem, hlen⟩ := contents_mem hcont
  rw [generate_eq hm hcont present code crit hp hp4 hc hk]
  have := encodeAll_isSome fun x hx => (row_facts hm (hmem x hx)).1
  rw [hfit] at this
  cases h : encodeAll c with
  | none => rfl
  | some l => rw [h] at this; cases this

/-- In any case, what is not empty is complete. -/
theorem generate_nonempty {m : MsgDef} (hm : m ∈ tables) {s : Struct} {c : List (IeDef × Val)} (hcont : contents m s = some c)
    {present code : Nat} (hp : 1 ≤ present) (hp4 : present ≤ 4) (hc : code < 256) {p : Proc} (hk : p.crit < 3)
    (hproc : procs.find? (·.code == code) = some p) (hkind : ofKind present p = some m) {bs : Bytes}
    (h : generate present code p.crit m s = some bs) (hne : bs ≠ []) : Says bs present code (wanted c) := by
  obtain ⟨hmem, hlen⟩ := contents_mem hcont
  rw [generate_eq hm hcont present code p.crit hp hp4 hc hk] at h
  cases hl : encodeAll c with
  | none => rw [hl] at h; cases h
  | some l =>
    rw [hl, Option.map_some] at h
    obtain ⟨h1, h2, h3, h4⟩ := encodeAll_spec hmem (fun x hx => (row_facts hm (hmem x hx)).2.1)
      (fun x hx => (row_facts hm (hmem x hx)).1) hl
    split at h
    · rename_i hle
      exact ⟨⟨p, m, l, hproc, hkind, (Option.some.inj h).symm, h1⟩, Option.some.inj h ▸ hle⟩
    · exact absurd (Option.some.inj h).symm hne

end Verif.Factory
