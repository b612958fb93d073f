import Verif.Gen.TextLit
import Verif.Proofs.AsnToStruct

/-!
# The generator on a text that is given in parts

Matching on the beginning of a text: either the result does not depend on what follows, or more text is needed.
-/

namespace Verif.AsnToStruct
open Spec

/-- Result for the beginning of a text. -/
inductive Part (α : Type) where
  | more
  | no
  | yes (a : α)
  deriving DecidableEq

/-- A repetition on the beginning of a text (compare `starM`). -/
def starP {α : Type} (p : Char → Bool) (k : Text → Part α) : Text → Part α
  | [] => .more
  | c :: t =>
    if p c then
      match starP p k t with
      | .yes r => .yes r
      | .no => k (c :: t)
      | .more => .more
    else k (c :: t)

/-- A group on the beginning of a text (compare `groupM`); the characters taken are in reverse order. -/
def groupP {α : Type} (p : Char → Bool) (k : Text → Text → Part α) (acc : Text) : Text → Part α
  | [] => .more
  | c :: t =>
    if p c then
      match groupP p k (c :: acc) t with
      | .yes r => .yes r
      | .no => k acc (c :: t)
      | .more => .more
    else k acc (c :: t)

/-- A match on the beginning of a text (compare `matchAt`). -/
def matchP : List Item → Text → Part (List Text × Text)
  | [], t => .yes ([], t)
  | .one _ :: _, [] => .more
  | .one p :: k, c :: t => if p c then matchP k t else .no
  | .star p :: k, t => starP p (matchP k) t
  | .plus _ :: _, [] => .more
  | .plus p :: k, c :: t => if p c then starP p (matchP k) t else .no
  | .group _ :: _, [] => .more
  | .group p :: k, c :: t =>
    if p c then groupP p (fun w r => match matchP k r with
      | .yes (ws, r) => .yes (w.reverse :: ws, r)
      | .no => .no
      | .more => .more) [c] t else .no

/-- All matches that start in this part of a text (compare `findFrom`), if all of them end there. -/
def findP (re : List Item) : Text → Text → Option (List (List Text))
  | _, [] => some []
  | [], _ :: _ => none
  | _ :: fuel, c :: t => match matchP re (c :: t) with
    | .more => none
    | .no => findP re fuel t
    | .yes (gs, r) => (findP re fuel r).map (gs :: ·)

/-- The result for the beginning of a text is the result for the text. -/
def Fits (rest : Text) : Part (List Text × Text) → Option (List Text × Text) → Prop
  | .more, _ => True
  | .no, o => o = none
  | .yes a, o => o = some (a.1, a.2 ++ rest)

theorem starP_fits {rest : Text} {p : Char → Bool} {k : Text → Part (List Text × Text)} {k' : Text → Option (List Text × Text)}
    (hk : ∀ t, Fits rest (k t) (k' (t ++ rest))) : ∀ t, Fits rest (starP p k t) (starM p k' (t ++ rest))
  | [] => trivial
  | c :: t => by
    have ih := starP_fits (p := p) hk t
    have hc := hk (c :: t)
    rw [List.cons_append] at hc ⊢
    rw [starP, starM]
    by_cases hp : p c = true
    · rw [if_pos hp, if_pos hp]
      cases h : starP p k t with
      | more => trivial
      | no =>
        rw [h] at ih
        rw [show starM p k' (t ++ rest) = none from ih]
        exact hc
      | yes a =>
        rw [h] at ih
        rw [show starM p k' (t ++ rest) = some (a.1, a.2 ++ rest) from ih]
        exact rfl
    · rw [if_neg hp, if_neg hp]
      exact hc

theorem groupP_fits {rest : Text} {p : Char → Bool} {k : Text → Text → Part (List Text × Text)}
    {k' : Text → Text → Option (List Text × Text)} (hk : ∀ w t, Fits rest (k w t) (k' w.reverse (t ++ rest))) :
    ∀ t acc, Fits rest (groupP p k acc t) (groupM p k' acc.reverse (t ++ rest))
  | [], _ => trivial
  | c :: t, acc => by
    have ih := groupP_fits (p := p) hk t (c :: acc)
    have hc := hk acc (c :: t)
    rw [List.cons_append] at hc ⊢
    rw [groupP, groupM]
    rw [List.reverse_cons] at ih
    by_cases hp : p c = true
    · rw [if_pos hp, if_pos hp]
      cases h : groupP p k (c :: acc) t with
      | more => trivial
      | no =>
        rw [h] at ih
        rw [show groupM p k' (acc.reverse ++ [c]) (t ++ rest) = none from ih]
        exact hc
      | yes a =>
        rw [h] at ih
        rw [show groupM p k' (acc.reverse ++ [c]) (t ++ rest) = some (a.1, a.2 ++ rest) from ih]
        exact rfl
    · rw [if_neg hp, if_neg hp]
      exact hc

theorem matchP_fits (rest : Text) : ∀ (re : List Item) (t : Text), Fits rest (matchP re t) (matchAt re (t ++ rest))
  | [], t => by rw [matchP, matchAt]; exact rfl
  | .one _ :: _, [] => by rw [matchP]; trivial
  | .one p :: k, c :: t => by
    rw [matchP, List.cons_append, matchAt]
    by_cases hp : p c = true
    · rw [if_pos hp, if_pos hp]; exact matchP_fits rest k t
    · rw [if_neg hp, if_neg hp]; exact rfl
  | .star p :: k, t => by
    rw [matchP, matchAt]
    exact starP_fits (matchP_fits rest k) t
  | .plus _ :: _, [] => by rw [matchP]; trivial
  | .plus p :: k, c :: t => by
    rw [matchP, List.cons_append, matchAt]
    by_cases hp : p c = true
    · rw [if_pos hp, if_pos hp]; exact starP_fits (matchP_fits rest k) t
    · rw [if_neg hp, if_neg hp]; exact rfl
  | .group _ :: _, [] => by rw [matchP]; trivial
  | .group p :: k, c :: t => by
    rw [matchP, List.cons_append, matchAt]
    by_cases hp : p c = true
    · rw [if_pos hp, if_pos hp]
      refine groupP_fits (fun w r => ?_) t [c]
      have h := matchP_fits rest k r
      cases hm : matchP k r with
      | more => trivial
      | no =>
        rw [hm] at h
        rw [show matchAt k (r ++ rest) = none from h]
        exact rfl
      | yes a =>
        rw [hm] at h
        rw [show matchAt k (r ++ rest) = some (a.1, a.2 ++ rest) from h]
        exact rfl
    · rw [if_neg hp, if_neg hp]; exact rfl

theorem findP_sound {re : List Item} (hre : Solid re) {rest : Text} : ∀ {f t : Text} {l : List (List Text)},
    findP re f t = some l → findAll re (t ++ rest) = l ++ findAll re rest
  | f, [], l, h => by
    cases f <;> (rw [findP] at h; cases h; rfl)
  | [], _ :: _, l, h => by rw [findP] at h; cases h
  | d :: f, c :: t, l, h => by
    rw [findP] at h
    have hf := matchP_fits rest re (c :: t)
    cases hm : matchP re (c :: t) with
    | more => rw [hm] at h; cases h
    | no =>
      rw [hm] at h hf
      rw [List.cons_append] at hf ⊢
      rw [findAll_none (show _ = none from hf)]
      exact findP_sound hre h
    | yes a =>
      rw [hm] at h hf
      rw [findAll_some hre (show _ = some (a.1, a.2 ++ rest) from hf)]
      cases hl : findP re f a.2 with
      | none =>
        have h : (findP re f a.2).map (a.1 :: ·) = some l := h
        rw [hl] at h; cases h
      | some l' =>
        have h : (findP re f a.2).map (a.1 :: ·) = some l := h
        rw [hl] at h
        cases h
        rw [findP_sound hre hl, List.cons_append]

/-! ## Forms that are quick to evaluate -/

/-- `groupM` with the characters taken in reverse order. -/
def groupR {α : Type} (p : Char → Bool) (k : Text → Text → Option α) (acc : Text) : Text → Option α
  | [] => k acc.reverse []
  | c :: t =>
    if p c then
      match groupR p k (c :: acc) t with
      | some r => some r
      | none => k acc.reverse (c :: t)
    else k acc.reverse (c :: t)

theorem groupR_eq {α : Type} {p : Char → Bool} {k : Text → Text → Option α} : ∀ {t acc : Text},
    groupR p k acc t = groupM p k acc.reverse t
  | [], _ => rfl
  | c :: t, acc => by
    rw [groupR, groupM, groupR_eq (t := t), List.reverse_cons]
    rfl

/-- `matchAt` with this. -/
def matchR : List Item → Text → Option (List Text × Text)
  | [], t => some ([], t)
  | .one _ :: _, [] => none
  | .one p :: k, c :: t => if p c then matchR k t else none
  | .star p :: k, t => starM p (matchR k) t
  | .plus _ :: _, [] => none
  | .plus p :: k, c :: t => if p c then starM p (matchR k) t else none
  | .group _ :: _, [] => none
  | .group p :: k, c :: t =>
    if p c then groupR p (fun w r => (matchR k r).map fun (ws, r) => (w :: ws, r)) [c] t else none

theorem matchR_eq : ∀ (re : List Item) (t : Text), matchR re t = matchAt re t
  | [], t => rfl
  | .one _ :: _, [] => rfl
  | .one p :: k, c :: t => by rw [matchR, matchAt, matchR_eq k t]
  | .star p :: k, t => by rw [matchR, matchAt, funext (matchR_eq k)]
  | .plus _ :: _, [] => rfl
  | .plus p :: k, c :: t => by rw [matchR, matchAt, funext (matchR_eq k)]
  | .group _ :: _, [] => rfl
  | .group p :: k, c :: t => by
    rw [matchR, matchAt, groupR_eq, funext (matchR_eq k)]
    rfl

/-- `findFrom` with this. -/
def findR (re : List Item) : Text → Text → List (List Text)
  | [], _ => []
  | _ :: fuel, t => match matchR re t with
    | some (groups, rest) => groups :: findR re fuel rest
    | none => findR re fuel (t.drop 1)

theorem findR_eq {re : List Item} : ∀ {f t : Text}, findR re f t = findFrom re f t
  | [], t => rfl
  | _ :: f, t => by
    rw [findR, findFrom, matchR_eq]
    cases matchAt re t with
    | none => exact findR_eq
    | some a => exact congrArg (a.1 :: ·) findR_eq

/-- `lit` for a list of characters. -/
def litR (t : Text) : List Item := t.map fun c => .one (· == c)

/-- `objRe` with this. -/
def objReR : List Item :=
  [.star space] ++ (litR (text% "{") ++ ([.star space, .group innerChar, .star space] ++ (litR (text% "}") ++
    [.star space, .star sepChar])))

/-- `ieRe` with this. -/
def ieReR : List Item :=
  litR (text% "ID") ++ ([.star space, .group wordChar, .star space] ++ (litR (text% "CRITICALITY") ++
    ([.star space, .group wordChar, .plus space, .plus upper, .plus space, .group wordChar, .star space] ++
      (litR (text% "PRESENCE") ++ [.star space, .group wordChar]))))

/-- `setRe` with this. -/
def setReR : List Item :=
  [.group wordChar, .plus space, .group classChar, .star space] ++ (litR (text% "::=") ++ ([.star space] ++
    (litR (text% "{") ++ ([.plus space, .group bodyChar, .plus space] ++ litR (text% "}\n")))))

theorem litR_eq {s : String} {t : Text} (h : s.toList = t) : litR t = lit s := by
  subst h; rfl

theorem objReR_eq : objReR = objRe := by
  unfold objReR objRe
  rw [litR_eq (s := "{") (String.toList_ofList (l := _)), litR_eq (s := "}") (String.toList_ofList (l := _))]

theorem ieReR_eq : ieReR = ieRe := by
  unfold ieReR ieRe
  rw [litR_eq (s := "ID") (String.toList_ofList (l := _)), litR_eq (s := "CRITICALITY") (String.toList_ofList (l := _)),
    litR_eq (s := "PRESENCE") (String.toList_ofList (l := _))]

theorem setReR_eq : setReR = setRe := by
  unfold setReR setRe
  rw [litR_eq (s := "::=") (String.toList_ofList (l := _)), litR_eq (s := "{") (String.toList_ofList (l := _)),
    litR_eq (s := "}\n") (String.toList_ofList (l := _))]

/-- `rows` with this. -/
def rowsR (body : Text) : List Row :=
  (findR objReR body body).flatMap fun j => (findR ieReR j.flatten j.flatten).filterMap toRow

theorem rowsR_eq (body : Text) : rowsR body = rows body := by
  simp only [rowsR, rows, findAll, findR_eq, objReR_eq, ieReR_eq]

/-- `isExtension` with this. -/
def isExtensionR : Text → Bool
  | [] => false
  | c :: t => (text% "EXTENSION").isPrefixOf (c :: t) || isExtensionR t

theorem isExtensionR_eq : ∀ t : Text, isExtensionR t = isExtension t
  | [] => rfl
  | c :: t => by
    rw [isExtensionR, isExtension, isExtensionR_eq t, show "EXTENSION".toList = text% "EXTENSION" from String.toList_ofList]

/-- The table an object set gets (compare `addSet`). -/
def setTable : List Text → Option (Text × List Row)
  | [name, cls, body] =>
    if isExtensionR cls then none else
    match rowsR body with
    | [] => none
    | r :: rs => some (name, r :: rs)
  | _ => none

/-- The tables of a part of the file. -/
def part (ls : List Text) : Option (List (Text × List Row)) :=
  let s := source ls
  (findP setReR s s).map (·.filterMap setTable)

/-- The tables of a file. -/
def fileTables (ls : List Text) : List (Text × List Row) := (findAll setRe (source ls)).filterMap setTable

theorem source_append (a b : List Text) : source (a ++ b) = source a ++ source b := by
  simp [source]

theorem part_sound {a b : List Text} {l : List (Text × List Row)} (h : part a = some l) :
    fileTables (a ++ b) = l ++ fileTables b := by
  unfold part at h
  rw [setReR_eq] at h
  cases hf : findP setRe (source a) (source a) with
  | none => simp only [hf] at h; cases h
  | some l' =>
    simp only [hf, Option.map_some, Option.some.injEq] at h
    unfold fileTables
    rw [source_append, findP_sound solid_setRe hf, List.filterMap_append, h]

theorem fold_tables : ∀ (l : List (List Text)) (d : List (Text × List Row)),
    (d.map (·.1) ++ (l.filterMap setTable).map (·.1)).Nodup → l.foldl addSet d = d ++ l.filterMap setTable
  | [], d, _ => by simp
  | g :: l, d, h => by
    rw [List.foldl_cons]
    have key : ∀ o, setTable g = o → addSet d g = match o with
        | none => d
        | some (n, r) => assign d n r := by
      intro o ho
      subst ho
      match g with
      | [] | [_] | [_, _] | _ :: _ :: _ :: _ :: _ => rfl
      | [name, cls, body] =>
        simp only [addSet, setTable, isExtensionR_eq, rowsR_eq]
        by_cases h1 : isExtension cls = true
        · rw [if_pos h1, if_pos h1]
        · rw [if_neg h1, if_neg h1]
          by_cases h2 : rows body = []
          · rw [if_pos h2, h2]
          · rw [if_neg h2]
            cases h3 : rows body with
            | nil => exact absurd h3 h2
            | cons r rs => rfl
    cases ho : setTable g with
    | none =>
      rw [key _ ho, List.filterMap_cons_none ho]
      rw [List.filterMap_cons_none ho] at h
      exact fold_tables l d h
    | some e =>
      rw [List.filterMap_cons_some ho, List.map_cons] at h
      rw [key _ ho, List.filterMap_cons_some ho]
      have hn : e.1 ∉ d.map (·.1) := fun hm => by
        rw [List.nodup_append] at h
        exact h.2.2 _ hm _ List.mem_cons_self rfl
      rw [show (match some e with | none => d | some (n, r) => assign d n r) = assign d e.1 e.2 from rfl, assign_new hn]
      have h' : ((d ++ [(e.1, e.2)]).map (·.1) ++ (l.filterMap setTable).map (·.1)).Nodup := by simpa using h
      rw [fold_tables l _ h', List.append_assoc]
      rfl

theorem iesDefs_of_parts {ls : List Text} {l : List (Text × List Row)} (h : fileTables ls = l) (hn : (l.map (·.1)).Nodup) :
    iesDefs ls = l := by
  unfold iesDefs
  have := fold_tables (findAll setRe (source ls)) [] (by
    rw [show (findAll setRe (source ls)).filterMap setTable = l from h]
    simpa using hn)
  rw [this]
  exact h

end Verif.AsnToStruct
