import Verif.Proofs.FactoryMsgs
import Verif.Spec.FactoryMem

/-!
# Memory of the message generators: generic part
-/

namespace Verif.Factory
open Verif.Aper Verif.Ie Verif.Ie.Spec Verif.Rx.Spec Verif.Wire Verif.Gen.Ranap Verif.Factory.Spec
open Verif.Aper.Spec (fits)

theorem bind_eq {α β : Type} (c : M α) (k : α → M β) (μ : Heap) : (c >>= k) μ = k (c μ).1 (c μ).2 := rfl

theorem pure_eq {α : Type} (a : α) (μ : Heap) : (pure a : M α) μ = (a, μ) := rfl

theorem _root_.Verif.Factory.Spec.Live.perm {μ : Heap} {l l' : List Nat} (h : Live μ l) (p : l.Perm l') : Live μ l' := by
  obtain ⟨⟨x, e, q⟩, hb⟩ := h
  exact ⟨⟨x, e, q.trans p⟩, fun b hb' => hb b (p.mem_iff.2 hb')⟩

theorem live_calloc {μ : Heap} {l : List Nat} (h : Live μ l) : Live (calloc μ).2 ((calloc μ).1 ++ l) := by
  obtain ⟨⟨x, e, q⟩, hb⟩ := h
  refine ⟨⟨μ.next :: x, ?_, q.cons _⟩, ?_⟩
  · simp only [calloc, replay_append, e, Option.bind_some, replay]
    rw [if_neg]
    intro hm
    have := hb _ (q.mem_iff.1 hm)
    omega
  · intro b hb'
    simp only [calloc, List.cons_append, List.nil_append, List.mem_cons] at *
    rcases hb' with rfl | hb'
    · omega
    · have := hb b hb'; omega

theorem live_release {μ : Heap} {bs l : List Nat} (h : Live μ (bs ++ l)) : Live (release bs μ).2 l := by
  obtain ⟨⟨x, e, q⟩, hb⟩ := h
  obtain ⟨y, e', p⟩ := replay_frees (α := Unit) q
  refine ⟨⟨y, ?_, p⟩, fun b hb' => hb b (List.mem_append_right _ hb')⟩
  simp only [release, replay_append, e, Option.bind_some, e']

/-- What is made is owned by the caller. -/
def Gives (c : M (List Nat)) : Prop := ∀ μ l, Live μ l → Live (c μ).2 ((c μ).1 ++ l)

theorem gives_calloc : Gives calloc := fun _ _ h => live_calloc h

theorem gives_nil : Gives (pure []) := fun _ _ h => h

theorem gives_parts {cs : List (M (List Nat))} (h : ∀ c ∈ cs, Gives c) : Gives (parts cs) := by
  induction cs with
  | nil => exact gives_nil
  | cons c cs ih =>
    intro μ l hl
    have h1 := h c List.mem_cons_self μ l hl
    have h2 := ih (fun c hc => h c (List.mem_cons_of_mem _ hc)) _ _ h1
    show Live (parts cs (c μ).2).2 ((c μ).1 ++ (parts cs (c μ).2).1 ++ l)
    refine h2.perm ?_
    rw [List.append_assoc]
    exact List.perm_append_comm_assoc _ _ _

/-! ## Encode functions -/

/-- The rows that go into the message, with their values. -/
def rowsOf : List IeDef → Nat → BitVec 16 → List (Option Slot) → List (IeDef × Option Val)
  | [], _, _, _ => []
  | d :: _, _, _, [] => [(d, none)]
  | d :: ds, sh, mask, f :: fs =>
    if d.opt && !isPresent mask sh then rowsOf ds (sh + 1) mask fs
    else (d, slotVal d f) :: rowsOf ds (if d.opt then sh + 1 else sh) mask fs

/-- The value can be encoded. -/
def good (x : IeDef × Option Val) : Bool := match x.2 with | some v => fits x.1.ty v | none => false

/-- Elements made before one that cannot be encoded. -/
def made (rows : List (IeDef × Option Val)) : Nat := (rows.takeWhile good).length

theorem newIe_good {d : IeDef} (h : d.ty.sane = true) (f : Option Slot) :
    (newIe d.id d.crit d.ty f).isSome = good (d, slotVal d f) := by
  rw [newIe_slotVal]
  unfold good
  cases slotVal d f with
  | none => rfl
  | some v =>
    have := encode_isSome h v
    simp only
    rw [← this]
    cases encode d.ty v <;> rfl

theorem encodeRowsM_spec {ds : List IeDef} (hs : ∀ d ∈ ds, d.ty.sane = true) (sh : Nat) (mask : BitVec 16)
    (fs : List (Option Slot)) (out : List Nat) (μ : Heap) (l : List Nat) (h : Live μ (out ++ l)) :
    (encodeRowsM ds sh mask fs out μ).1.1 = encodeRows ds sh mask fs ∧
    Live (encodeRowsM ds sh mask fs out μ).2 ((encodeRowsM ds sh mask fs out μ).1.2 ++ l) ∧
    (encodeRowsM ds sh mask fs out μ).1.2.length = (if made (rowsOf ds sh mask fs) = 0 then out.length
      else 2 * made (rowsOf ds sh mask fs) + out.length + if out.isEmpty then 1 else 0) ∧
    (encodeRows ds sh mask fs).isSome = (rowsOf ds sh mask fs).all good := by
  induction ds generalizing sh fs out μ with
  | nil => exact ⟨rfl, h, rfl, rfl⟩
  | cons d ds ih =>
    have ih := ih fun d hd => hs d (List.mem_cons_of_mem _ hd)
    cases fs with
    | nil => exact ⟨rfl, h, by simp [encodeRowsM, rowsOf, made, good, pure_eq], by simp [encodeRows, rowsOf, good]⟩
    | cons f fs =>
      rw [encodeRowsM, encodeRows, rowsOf]
      by_cases hp : (d.opt && !isPresent mask sh) = true
      · simp only [if_pos hp]
        exact ih _ _ _ _ h
      · simp only [if_neg hp]
        have hg := newIe_good (hs d List.mem_cons_self) f
        have h1 := live_calloc h
        have n1 : (calloc μ).1.length = 1 := rfl
        simp only [bind_eq]
        generalize calloc μ = r1 at *
        obtain ⟨ie, μ1⟩ := r1
        simp only at h1 n1 ⊢
        cases hn : newIe d.id d.crit d.ty f with
        | none =>
          rw [hn] at hg
          simp only [Option.isSome_none] at hg
          simp only [bind_eq, pure_eq, true_and]
          refine ⟨live_release h1, ?_, ?_⟩
          · simp [made, ← hg]
          · simp [← hg]
        | some e =>
          rw [hn] at hg
          simp only [Option.isSome_some] at hg
          have h2 := live_calloc h1
          have n2 : (calloc μ1).1.length = 1 := rfl
          simp only [bind_eq]
          generalize calloc μ1 = r2 at *
          obtain ⟨value, μ2⟩ := r2
          simp only at h2 n2 ⊢
          have h3 : ∃ array μ3, callocIf out.isEmpty μ2 = (array, μ3) ∧
              array.length = (if out.isEmpty = true then 1 else 0) ∧ Live μ3 (array ++ ie ++ value ++ out ++ l) := by
            have hp : (value ++ (ie ++ (out ++ l))).Perm (ie ++ value ++ out ++ l) := by
              have := List.perm_append_comm_assoc value ie (out ++ l)
              simpa [List.append_assoc] using this
            unfold callocIf
            split
            · exact ⟨_, _, rfl, rfl, by
                have := live_calloc h2
                refine this.perm ?_
                rw [List.append_assoc _ ie, List.append_assoc, List.append_assoc]
                refine List.Perm.append_left _ ?_
                simpa [List.append_assoc] using hp⟩
            · exact ⟨[], _, rfl, rfl, h2.perm (by simpa using hp)⟩
          obtain ⟨array, μ3, e3, n3, h3⟩ := h3
          rw [e3]
          simp only
          obtain ⟨i1, i2, i3, i4⟩ := ih (if d.opt = true then sh + 1 else sh) fs (array ++ ie ++ value ++ out) μ3 h3
          generalize encodeRowsM ds (if d.opt = true then sh + 1 else sh) mask fs (array ++ ie ++ value ++ out) μ3 = r4 at *
          obtain ⟨⟨r, out'⟩, μ4⟩ := r4
          simp only at i1 i2 i3 ⊢
          subst i1
          have hne : (array ++ ie ++ value ++ out).isEmpty = false := by
            cases ie with
            | nil => simp at n1
            | cons a b => simp
          have hlen : out'.length = if made ((d, slotVal d f) :: rowsOf ds (if d.opt = true then sh + 1 else sh) mask fs) = 0
              then out.length
              else 2 * made ((d, slotVal d f) :: rowsOf ds (if d.opt = true then sh + 1 else sh) mask fs) + out.length +
                if out.isEmpty = true then 1 else 0 := by
            rw [i3, hne]
            simp only [made, List.takeWhile_cons, ← hg, if_true, List.length_cons, List.length_append, n1, n2, n3]
            simp only [Bool.false_eq_true, if_false]
            split <;> split <;> simp_all <;> omega
          have hall : (encodeRows ds (if d.opt = true then sh + 1 else sh) mask fs).isSome =
              ((d, slotVal d f) :: rowsOf ds (if d.opt = true then sh + 1 else sh) mask fs).all good := by
            rw [i4, List.all_cons, ← hg, Bool.true_and]
          cases hr : encodeRows ds (if d.opt = true then sh + 1 else sh) mask fs with
          | none =>
            rw [hr] at hall
            exact ⟨rfl, i2, hlen, hall⟩
          | some l' =>
            rw [hr] at hall
            exact ⟨rfl, i2, hlen, hall⟩

/-- Blocks left behind when the elements cannot all be encoded. -/
def leftOf (rows : List (IeDef × Option Val)) : Nat := if rows.all good = true then 0 else elementBlocks (made rows)

def rows (m : MsgDef) (s : Struct) : List (IeDef × Option Val) := rowsOf m.ies 0 s.mask s.fields

theorem encodeM_spec {m : MsgDef} (hm : m ∈ tables) (s : Struct) (μ : Heap) (l : List Nat) (h : Live μ l) :
    (encodeM m s μ).1.1 = encodeIes m s ∧ Live (encodeM m s μ).2 ((encodeM m s μ).1.2 ++ l) ∧
    (encodeM m s μ).1.2.length = elementBlocks (made (rows m s)) ∧ (encodeIes m s).isSome = (rows m s).all good := by
  obtain ⟨h1, h2, h3, h4⟩ := encodeRowsM_spec (fun d hd => (row_facts hm hd).1) 0 s.mask s.fields [] μ l h
  exact ⟨h1, h2, by rw [show encodeM m s μ = encodeRowsM m.ies 0 s.mask s.fields [] μ from rfl, h3]; rfl, h4⟩

theorem generateM_spec (present code crit : Nat) (t : Ty) (v : Val) (μ : Heap) (l : List Nat) (h : Live μ l) :
    (generateM present code crit t v μ).1.map (·.1) =
      (encode t v).map (fun any => genPdu RANAP_RANAP_PDU tailroom (Factory.pduVal present code crit any)) ∧
    match (generateM present code crit t v μ).1 with
    | some (_, msg) => msg.length = 1 ∧ Live (generateM present code crit t v μ).2 (msg ++ l)
    | none => Live (generateM present code crit t v μ).2 l := by
  unfold generateM
  cases encode t v with
  | none => exact ⟨rfl, h⟩
  | some any =>
    refine ⟨rfl, rfl, ?_⟩
    have h1 := live_calloc h
    have h2 := live_calloc h1
    exact live_release (h2.perm (List.perm_append_comm_assoc _ _ _))

theorem finish_spec (present code crit : Nat) {m : MsgDef} (hm : m ∈ tables) (s : Struct) (ies : List Nat)
    (rel : Bool) (μ : Heap) (live : List Nat) (h : Live μ (ies ++ live)) :
    (finish present code crit m s ies rel μ).1.map (·.1) = generate present code crit m s ∧
    ∃ lost : List Nat, lost.length = (if rel = true then 0 else leftOf (rows m s)) ∧
    match (finish present code crit m s ies rel μ).1 with
    | some (_, msg) => msg.length = 1 ∧ Live (finish present code crit m s ies rel μ).2 (msg ++ lost ++ live)
    | none => Live (finish present code crit m s ies rel μ).2 (lost ++ live) := by
  obtain ⟨h1, h2, h3, h4⟩ := encodeM_spec hm s μ _ h
  unfold finish
  simp only [bind_eq]
  generalize encodeM m s μ = r at *
  obtain ⟨⟨r, out⟩, μ1⟩ := r
  simp only at h1 h2 h3 ⊢
  subst h1
  have h5 := live_release (h2.perm (List.perm_append_comm_assoc _ _ _))
  generalize (release ies μ1).2 = μ2 at *
  unfold generate encodeMsg
  cases he : encodeIes m s with
  | none =>
    rw [he] at h4
    simp only [Option.isSome_none] at h4
    cases rel with
    | true => exact ⟨rfl, [], rfl, live_release h5⟩
    | false =>
      refine ⟨rfl, out, ?_, h5⟩
      simp only [leftOf, ← h4, h3]
      simp
  | some l =>
    rw [he] at h4
    simp only [Option.isSome_some] at h4
    have h6 := generateM_spec present code crit m.ty (container l) μ2 _ h5
    simp only [bind_eq, pure_eq]
    generalize generateM present code crit m.ty (container l) μ2 = r at *
    obtain ⟨r, μ3⟩ := r
    obtain ⟨e, h6⟩ := h6
    simp only at e h6 ⊢
    refine ⟨?_, [], ?_, ?_⟩
    · rw [e]; cases encode m.ty (container l) <;> rfl
    · simp [leftOf, ← h4]
    · cases r with
      | none => exact live_release h6
      | some x =>
        refine ⟨h6.1, ?_⟩
        rw [List.append_nil]
        exact live_release (h6.2.perm (List.perm_append_comm_assoc _ _ _))

end Verif.Factory
