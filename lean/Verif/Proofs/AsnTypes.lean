import Verif.Spec.AsnTypes

/-!
# Computing what types stand for
-/

namespace Verif.AsnToStruct.Spec
open Verif.Aper Verif.Gen

/-! ## Fast search

The kernel compares numbers quickly, and words slowly. -/

/-- A number for a word. -/
noncomputable def key (w : Text) : Nat :=
  List.rec (α := Char) (motive := fun _ => Nat) 0 (fun (c : Char) _ r => r * 2097152 + (c.toNat + 1)) w

theorem key_inj : ∀ {a b : Text}, key a = key b → a = b
  | [], [], _ => rfl
  | [], c :: b, h => by simp only [key] at h; omega
  | c :: a, [], h => by simp only [key] at h; omega
  | c :: a, d :: b, h => by
    have hc : c.toNat < 1114112 := by
      have := c.valid; simp only [Char.toNat, UInt32.isValidChar, Nat.isValidChar] at *; omega
    have hd : d.toNat < 1114112 := by
      have := d.valid; simp only [Char.toNat, UInt32.isValidChar, Nat.isValidChar] at *; omega
    have h' : key a * 2097152 + (c.toNat + 1) = key b * 2097152 + (d.toNat + 1) := h
    have h1 : key a = key b := by omega
    have h2 : c.toNat = d.toNat := by omega
    rw [key_inj h1, Char.toNat_inj.1 h2]

theorem key_if {α : Type} (a b : Text) (x y : α) : (bif Nat.beq (key a) (key b) then x else y) = if a = b then x else y := by
  by_cases h : a = b
  · rw [if_pos h, h]; simp
  · have : Nat.beq (key a) (key b) = false := by
      rw [← Bool.not_eq_true, Nat.beq_eq]; exact fun h' => h (key_inj h')
    rw [if_neg h, this]; rfl

noncomputable def findF {α : Type} (k : Nat) (l : List (Text × α)) : Option α :=
  List.rec (α := Text × α) (motive := fun _ => Option α) none (fun x _ r => bif Nat.beq (key x.1) k then some x.2 else r) l

theorem findF_eq {α : Type} (name : Text) (l : List (Text × α)) : findF (key name) l = find name l := by
  induction l with
  | nil => rfl
  | cons x l ih => exact (key_if x.1 name (some x.2) (findF (key name) l)).trans (by rw [ih]; rfl)

noncomputable def findNumberF (k : Nat) (l : List Assignment) : Option Int :=
  List.rec (α := Assignment) (motive := fun _ => Option Int) none (fun x _ r => match x with
    | .number n v => bif Nat.beq (key n) k then some v else r
    | _ => r) l

theorem findNumberF_eq (name : Text) (l : List Assignment) : findNumberF (key name) l = findNumber name l := by
  induction l with
  | nil => rfl
  | cons x l ih => cases x with
    | number n v => exact (key_if n name (some v) (findNumberF (key name) l)).trans (by rw [ih]; rfl)
    | _ => exact ih

noncomputable def findTypeF (k : Nat) (l : List Assignment) : Option Expr :=
  List.rec (α := Assignment) (motive := fun _ => Option Expr) none (fun x _ r => match x with
    | .type n e => bif Nat.beq (key n) k then some e else r
    | _ => r) l

theorem findTypeF_eq (name : Text) (l : List Assignment) : findTypeF (key name) l = findType name l := by
  induction l with
  | nil => rfl
  | cons x l ih => cases x with
    | type n e => exact (key_if n name (some e) (findTypeF (key name) l)).trans (by rw [ih]; rfl)
    | _ => exact ih

noncomputable def findTemplateF (k : Nat) (l : List Assignment) : Option (List Text × Expr) :=
  List.rec (α := Assignment) (motive := fun _ => Option (List Text × Expr)) none (fun x _ r => match x with
    | .template n ps e => bif Nat.beq (key n) k then some (ps, e) else r
    | _ => r) l

theorem findTemplateF_eq (name : Text) (l : List Assignment) : findTemplateF (key name) l = findTemplate name l := by
  induction l with
  | nil => rfl
  | cons x l ih => cases x with
    | template n ps e => exact (key_if n name (some (ps, e)) (findTemplateF (key name) l)).trans (by rw [ih]; rfl)
    | _ => exact ih

noncomputable def findClassF (k : Nat) (l : List Assignment) : Option (List (Text × Text)) :=
  List.rec (α := Assignment) (motive := fun _ => Option (List (Text × Text))) none (fun x _ r => match x with
    | .cls n fs => bif Nat.beq (key n) k then some fs else r
    | _ => r) l

theorem findClassF_eq (name : Text) (l : List Assignment) : findClassF (key name) l = findClass name l := by
  induction l with
  | nil => rfl
  | cons x l ih => cases x with
    | cls n fs => exact (key_if n name (some fs) (findClassF (key name) l)).trans (by rw [ih]; rfl)
    | _ => exact ih

noncomputable def numberF (l : List Assignment) (σ : List (Text × Text)) (w : Text) : Option Int :=
  match integer (subst σ w) with
  | some n => some n
  | none => findNumberF (key (subst σ w)) l

theorem numberF_eq (l : List Assignment) (σ : List (Text × Text)) (w : Text) : numberF l σ w = number l σ w := by
  unfold numberF number
  rw [findNumberF_eq]
  cases integer (subst σ w) <;> rfl

noncomputable def valueRangeF (l : List Assignment) (σ : List (Text × Text)) (b : Bounds) : Option Range :=
  (numberF l σ b.lo).bind fun lo => (numberF l σ b.hi).map fun hi => ⟨lo, hi, b.ext⟩

theorem valueRangeF_eq (l : List Assignment) (σ : List (Text × Text)) (b : Bounds) :
    valueRangeF l σ b = valueRange l σ b := by
  unfold valueRangeF valueRange
  rw [numberF_eq, numberF_eq]

noncomputable def sizeRangeF (l : List Assignment) (σ : List (Text × Text)) : Option Bounds → Option (Option Size)
  | none => some none
  | some b => (numberF l σ b.lo).bind fun lo => (numberF l σ b.hi).bind fun hi =>
    if 0 ≤ lo ∧ 0 ≤ hi then some (some ⟨lo.toNat, hi.toNat, b.ext⟩) else none

theorem sizeRangeF_eq (l : List Assignment) (σ : List (Text × Text)) (b : Option Bounds) :
    sizeRangeF l σ b = sizeRange l σ b := by
  cases b with
  | none => rfl
  | some b => unfold sizeRangeF sizeRange; simp only [numberF_eq]

/-! ## Types -/

/-- Types that are known already, and all assignments. -/
structure Env where
  types : List (Text × Ty)
  items : List Assignment

mutual
/-- The type an expression stands for. -/
noncomputable def Env.ty (E : Env) : Nat → List (Text × Text) → Expr → Option Ty
  | 0, _, _ => none
  | _ + 1, _, .null => some .null
  | _ + 1, _, .bool => some .bool
  | _ + 1, _, .any => some .any
  | _ + 1, _, .oid => some .oid
  | _ + 1, _, .int _ none => none
  | _ + 1, σ, .int _ (some b) => (valueRangeF E.items σ b).map .int
  | _ + 1, _, .enum root none => some (.enum root.length root.length false)
  | _ + 1, _, .enum root (some adds) => some (.enum root.length (root.length + adds.length) true)
  | _ + 1, σ, .bits s => (sizeRangeF E.items σ s).map .bits
  | _ + 1, σ, .octets s => (sizeRangeF E.items σ s).map .octets
  | n + 1, σ, .seq root adds => (E.fields n σ root).map (.seq adds.isSome)
  | n + 1, σ, .choice root none => (E.fields n σ root).map fun r => .choice false r .nil
  | n + 1, σ, .choice root (some adds) => (E.fields n σ root).bind fun r => (E.fields n σ adds).map (.choice true r)
  | n + 1, σ, .seqOf s e => (sizeRangeF E.items σ s).bind fun s => (E.ty n σ e).map (.seqOf s)
  | _ + 1, _, .ref name => findF (key name) E.types
  | n + 1, σ, .app name args => (findTemplateF (key name) E.items).bind fun x => E.ty n (x.1.zip (args.map (subst σ))) x.2
  | _ + 1, _, .field cls f => (findClassF (key cls) E.items).bind fun fs => match findF (key f) fs with
    | some ty => findF (key ty) E.types
    | none => some .any
noncomputable def Env.fields (E : Env) : Nat → List (Text × Text) → Comps → Option Fields
  | 0, _, _ => none
  | _ + 1, _, .nil => some .nil
  | n + 1, σ, .cons _ e opt rest => (E.ty n σ e).bind fun t => (E.fields n σ rest).map (.cons opt t)
end

theorem find_mem {α : Type} {name : Text} {l : List (Text × α)} {a : α} (h : find name l = some a) : (name, a) ∈ l := by
  induction l with
  | nil => simp [find] at h
  | cons x l ih =>
    obtain ⟨n, b⟩ := x
    unfold find at h
    split at h
    · rename_i hn
      rw [← hn, ← Option.some.inj h]
      exact List.mem_cons_self
    · exact List.mem_cons_of_mem _ (ih h)

/-- A reference means the same whatever the arguments. -/
theorem Means.ref_any {l : List Assignment} {σ τ : List (Text × Text)} {name : Text} {t : Ty} (h : Means l σ (.ref name) t) :
    Means l τ (.ref name) t := by
  cases h with
  | ref h1 h2 => exact .ref h1 h2

mutual
theorem Env.ty_sound {E : Env} (hE : ∀ x ∈ E.types, Means E.items [] (.ref x.1) x.2) : ∀ (n : Nat) {σ : List (Text × Text)}
    {e : Expr} {t : Ty}, E.ty n σ e = some t → Means E.items σ e t
  | 0, _, _, _, h => by simp [Env.ty] at h
  | n + 1, σ, e, t, h => by
    cases e with
    | null => simp only [Env.ty, Option.some.injEq] at h; exact h ▸ .null
    | bool => simp only [Env.ty, Option.some.injEq] at h; exact h ▸ .bool
    | any => simp only [Env.ty, Option.some.injEq] at h; exact h ▸ .any
    | oid => simp only [Env.ty, Option.some.injEq] at h; exact h ▸ .oid
    | int names b =>
      cases b with
      | none => simp [Env.ty] at h
      | some b =>
        simp only [Env.ty, valueRangeF_eq, Option.map_eq_some_iff] at h
        obtain ⟨r, hr, rfl⟩ := h
        exact .int hr
    | enum root adds =>
      cases adds with
      | none => simp only [Env.ty, Option.some.injEq] at h; exact h ▸ .enum
      | some adds => simp only [Env.ty, Option.some.injEq] at h; exact h ▸ .enumExt
    | bits b =>
      simp only [Env.ty, sizeRangeF_eq, Option.map_eq_some_iff] at h
      obtain ⟨r, hr, rfl⟩ := h
      exact .bits hr
    | octets b =>
      simp only [Env.ty, sizeRangeF_eq, Option.map_eq_some_iff] at h
      obtain ⟨r, hr, rfl⟩ := h
      exact .octets hr
    | seq root adds =>
      simp only [Env.ty, Option.map_eq_some_iff] at h
      obtain ⟨fs, hf, rfl⟩ := h
      exact .seq (Env.fields_sound hE n hf)
    | choice root adds =>
      cases adds with
      | none =>
        simp only [Env.ty, Option.map_eq_some_iff] at h
        obtain ⟨fs, hf, rfl⟩ := h
        exact .choice (Env.fields_sound hE n hf)
      | some adds =>
        simp only [Env.ty, Option.bind_eq_some_iff, Option.map_eq_some_iff] at h
        obtain ⟨r, hr, a, ha, rfl⟩ := h
        exact .choiceExt (Env.fields_sound hE n hr) (Env.fields_sound hE n ha)
    | seqOf b e =>
      simp only [Env.ty, sizeRangeF_eq, Option.bind_eq_some_iff, Option.map_eq_some_iff] at h
      obtain ⟨s, hs, t, ht, rfl⟩ := h
      exact .seqOf hs (Env.ty_sound hE n ht)
    | ref name =>
      simp only [Env.ty, findF_eq] at h
      exact (hE _ (find_mem h)).ref_any
    | app name args =>
      simp only [Env.ty, findTemplateF_eq, Option.bind_eq_some_iff] at h
      obtain ⟨⟨ps, e⟩, h1, h2⟩ := h
      exact .app h1 (Env.ty_sound hE n h2)
    | field cls f =>
      simp only [Env.ty, findClassF_eq, findF_eq, Option.bind_eq_some_iff] at h
      obtain ⟨fs, h1, h2⟩ := h
      split at h2
      · rename_i ty hf
        exact .field h1 hf (hE _ (find_mem h2))
      · rename_i hf
        exact (Option.some.inj h2) ▸ .openType h1 hf
theorem Env.fields_sound {E : Env} (hE : ∀ x ∈ E.types, Means E.items [] (.ref x.1) x.2) : ∀ (n : Nat) {σ : List (Text × Text)}
    {c : Comps} {fs : Fields}, E.fields n σ c = some fs → MeansAll E.items σ c fs
  | 0, _, _, _, h => by simp [Env.fields] at h
  | n + 1, σ, c, fs, h => by
    cases c with
    | nil => simp only [Env.fields, Option.some.injEq] at h; exact h ▸ .nil
    | cons name e opt rest =>
      simp only [Env.fields, Option.bind_eq_some_iff, Option.map_eq_some_iff] at h
      obtain ⟨t, ht, r, hr, rfl⟩ := h
      exact .cons (Env.ty_sound hE n ht) (Env.fields_sound hE n hr)
end

/-- The types of these names, where each may use those in front of it. -/
noncomputable def stages (l : List Assignment) (known : List (Text × Ty)) : List (Text × Ty) → Option (List Ty)
  | [] => some []
  | (name, t) :: rest => (findTypeF (key name) l).bind fun e => (Env.ty ⟨known, l⟩ 1000 [] e).bind fun t' =>
    (stages l ((name, t) :: known) rest).map (t' :: ·)

theorem stages_sound {l : List Assignment} : ∀ (order known : List (Text × Ty)), (∀ x ∈ known, Means l [] (.ref x.1) x.2) →
    stages l known order = some (order.map (·.2)) → ∀ x ∈ order, Means l [] (.ref x.1) x.2
  | [], _, _, _, x, hx => nomatch hx
  | (name, t) :: rest, known, hk, h, x, hx => by
    simp only [stages, findTypeF_eq, List.map_cons, Option.bind_eq_some_iff, Option.map_eq_some_iff] at h
    obtain ⟨e, he, t', ht, ts, hts, heq⟩ := h
    simp only [List.cons.injEq] at heq
    obtain ⟨rfl, rfl⟩ := heq
    have h0 : Means l [] (.ref name) t' := .ref he (Env.ty_sound (E := ⟨known, l⟩) hk 1000 ht)
    have hk' : ∀ x ∈ (name, t') :: known, Means l [] (.ref x.1) x.2 := by
      intro x hx
      rcases List.mem_cons.1 hx with rfl | hx
      · exact h0
      · exact hk x hx
    rcases List.mem_cons.1 hx with rfl | hx
    · exact h0
    · exact stages_sound rest _ hk' hts x hx

theorem map_eq_mem {α γ : Type} {f : α → γ} {g : α → γ} {l : List α} (h : l.map f = l.map g) {x : α} (hx : x ∈ l) :
    f x = g x := by
  induction l with
  | nil => cases hx
  | cons y l ih =>
    simp only [List.map_cons, List.cons.injEq] at h
    rcases List.mem_cons.1 hx with rfl | hx
    · exact h.1
    · exact ih h.2 hx

/-- The table in the order of the text, from one in an order in which each type uses only those in front of it. -/
theorem typesOf_of_stages {l : List Assignment} {types order : List (Text × Ty)} (h1 : typeNames l = types.map (·.1))
    (h2 : stages l [] order = some (order.map (·.2)))
    (h3 : types.map (fun x => findF (key x.1) order) = types.map fun x => some x.2) : TypesOf l types :=
  ⟨h1, fun x hx => stages_sound order [] (fun _ h => nomatch h) h2 x (find_mem ((findF_eq _ _).symm.trans (map_eq_mem h3 hx)))⟩

/-- An expression stands for one type only. -/
theorem Means.unique {l : List Assignment} {σ : List (Text × Text)} {e : Expr} {t t' : Ty} (h : Means l σ e t) :
    Means l σ e t' → t = t' := by
  refine Means.rec (l := l) (motive_1 := fun σ e t _ => ∀ t', Means l σ e t' → t = t')
    (motive_2 := fun σ c fs _ => ∀ fs', MeansAll l σ c fs' → fs = fs') ?_ ?_ ?_ ?_ ?_ ?_ ?_ ?_ ?_ ?_ ?_ ?_ ?_ ?_ ?_ ?_ ?_ ?_ ?_ h t'
  · intro _ t' h'; cases h'; rfl
  · intro _ t' h'; cases h'; rfl
  · intro _ t' h'; cases h'; rfl
  · intro _ t' h'; cases h'; rfl
  · intro _ _ _ _ h t' h'
    cases h' with | int h' => rw [h] at h'; cases h'; rfl
  · intro _ _ t' h'; cases h'; rfl
  · intro _ _ _ t' h'; cases h'; rfl
  · intro _ _ _ h t' h'
    cases h' with | bits h' => rw [h] at h'; cases h'; rfl
  · intro _ _ _ h t' h'
    cases h' with | octets h' => rw [h] at h'; cases h'; rfl
  · intro _ _ _ _ _ ih t' h'
    cases h' with | seq h' => rw [ih _ h']
  · intro _ _ _ _ ih t' h'
    cases h' with | choice h' => rw [ih _ h']
  · intro _ _ _ _ _ _ _ ih1 ih2 t' h'
    cases h' with | choiceExt h1' h2' => rw [ih1 _ h1', ih2 _ h2']
  · intro _ _ _ _ _ h1 _ ih t' h'
    cases h' with | seqOf h1' h2' => rw [h1] at h1'; cases h1'; rw [ih _ h2']
  · intro _ _ _ _ h1 _ ih t' h'
    cases h' with | ref h1' h2' => rw [h1] at h1'; cases h1'; exact ih _ h2'
  · intro _ _ _ _ _ _ h1 _ ih t' h'
    cases h' with | app h1' h2' => rw [h1] at h1'; cases h1'; exact ih _ h2'
  · intro _ _ _ _ _ _ h1 h2 _ ih t' h'
    cases h' with
    | field h1' h2' h3' => rw [h1] at h1'; cases h1'; rw [h2] at h2'; cases h2'; exact ih _ h3'
    | openType h1' h2' => rw [h1] at h1'; cases h1'; rw [h2] at h2'; cases h2'
  · intro _ _ _ _ h1 h2 t' h'
    cases h' with
    | field h1' h2' h3' => rw [h1] at h1'; cases h1'; rw [h2] at h2'; cases h2'
    | openType h1' h2' => rfl
  · intro _ fs' h'; cases h'; rfl
  · intro _ _ _ _ _ _ _ _ _ ih1 ih2 fs' h'
    cases h' with | cons h1' h2' => rw [ih1 _ h1', ih2 _ h2']

theorem typesOf_unique {l : List Assignment} {types types' : List (Text × Ty)} (h : TypesOf l types) (h' : TypesOf l types') :
    types = types' := by
  have hn : types.map (·.1) = types'.map (·.1) := h.1.symm.trans h'.1
  have h2 := h.2
  have h2' := h'.2
  clear h h'
  induction types generalizing types' with
  | nil => cases types' with
    | nil => rfl
    | cons x l => cases hn
  | cons x types ih => cases types' with
    | nil => cases hn
    | cons y types' =>
      simp only [List.map_cons, List.cons.injEq] at hn
      have hx := h2 x List.mem_cons_self
      rw [hn.1] at hx
      have := Means.unique hx (h2' y List.mem_cons_self)
      rw [ih hn.2 (fun z hz => h2 z (List.mem_cons_of_mem _ hz)) (fun z hz => h2' z (List.mem_cons_of_mem _ hz)),
        Prod.ext hn.1 this]

end Verif.AsnToStruct.Spec
