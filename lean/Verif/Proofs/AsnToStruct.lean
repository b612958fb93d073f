import Verif.Spec.AsnToStruct

/-!
# Regular expressions of the generator: auxiliary results
-/

namespace Verif.AsnToStruct
open Spec

/-! ## Characters -/

/-- The text does not go on with one of these characters. -/
def HeadNot (p : Char → Bool) (t : Text) : Prop := ∀ c, t.head? = some c → p c = false

theorem headNot_cons {p : Char → Bool} {c : Char} {t : Text} : HeadNot p (c :: t) ↔ p c = false := by
  simp [HeadNot]

theorem headNot_append {p : Char → Bool} {s t : Text} (hs : s ≠ []) (h : ∀ c ∈ s, p c = false) : HeadNot p (s ++ t) := by
  cases s with
  | nil => exact absurd rfl hs
  | cons c s => exact headNot_cons.2 (h c (by simp))

theorem headNot_gap {p : Char → Bool} {s t : Text} (h : ∀ c ∈ s, p c = false) (ht : HeadNot p t) : HeadNot p (s ++ t) := by
  cases s with
  | nil => exact ht
  | cons c s => exact headNot_cons.2 (h c (by simp))

theorem char_le_iff (a b : Char) : (a ≤ b) ↔ a.toNat ≤ b.toNat := Iff.rfl

theorem upper_iff {c : Char} : upper c = true ↔ c.isUpper = true := by
  simp [upper, Char.isUpper, Char.le_def, UInt32.le_iff_toNat_le, GE.ge]

theorem digit_iff {c : Char} : ('0' ≤ c && c ≤ '9') = true ↔ c.isDigit = true := by
  simp [Char.isDigit, Char.le_def, UInt32.le_iff_toNat_le, GE.ge]

theorem lower_iff {c : Char} : ('a' ≤ c && c ≤ 'z') = true ↔ c.isLower = true := by
  simp [Char.isLower, Char.le_def, UInt32.le_iff_toNat_le, GE.ge]

theorem classChar_iff {c : Char} : classChar c = true ↔ c.isUpper = true ∨ c.isDigit = true ∨ c = '-' := by
  unfold classChar
  rw [Bool.or_eq_true, Bool.or_eq_true, upper_iff, digit_iff, beq_iff_eq, or_assoc]

theorem wordChar_iff {c : Char} : wordChar c = true ↔ c.isAlphanum = true ∨ c = '-' := by
  unfold wordChar
  rw [Bool.or_eq_true, lower_iff, classChar_iff]
  simp only [Char.isAlphanum, Char.isAlpha, Bool.or_eq_true]
  constructor
  · rintro (h | h | h | h) <;> simp [h]
  · rintro (((h | h) | h) | h) <;> simp [h]

theorem spc_not_word {c : Char} (h : space c = true) : wordChar c = false := by
  cases hw : wordChar c
  · rfl
  · exfalso
    unfold space at h
    unfold wordChar classChar upper at hw
    simp only [Bool.or_eq_true, Bool.and_eq_true, decide_eq_true_eq, beq_iff_eq, char_le_iff, ← Char.toNat_inj] at h hw
    simp only [show 'a'.toNat = 97 from rfl, show 'z'.toNat = 122 from rfl, show 'A'.toNat = 65 from rfl,
      show 'Z'.toNat = 90 from rfl, show '0'.toNat = 48 from rfl, show '9'.toNat = 57 from rfl,
      show '-'.toNat = 45 from rfl] at hw
    omega

theorem word_not_space {c : Char} (h : wordChar c = true) : space c = false := by
  cases hs : space c
  · rfl
  · rw [spc_not_word hs] at h; cases h

theorem gap_space {s : Text} (h : Gap s) : ∀ c ∈ s, space c = true := by
  intro c hc
  rcases h c hc with rfl | rfl | rfl <;> rfl

theorem isWord_all {t : Text} (h : IsWord t) : ∀ c ∈ t, wordChar c = true := fun c hc => wordChar_iff.2 (h.2 c hc)

theorem class_word {c : Char} (h : classChar c = true) : wordChar c = true := by
  unfold wordChar; simp [h]

theorem upper_word {c : Char} (h : upper c = true) : wordChar c = true :=
  class_word (by unfold classChar; simp [h])

theorem isClass_all {t : Text} (h : IsClass t) : ∀ c ∈ t, classChar c = true := fun c hc => classChar_iff.2 (h.2 c hc)

/-! ## Repetitions -/

theorem starM_run {α : Type} {p : Char → Bool} {k : Text → Option α} {x : α} :
    ∀ {t : Text}, k (t.dropWhile p) = some x → starM p k t = some x
  | [], h => h
  | c :: t, h => by
    unfold starM
    rw [List.dropWhile_cons] at h
    cases hp : p c
    · simpa [hp] using h
    · rw [hp] at h
      simp [starM_run h]

theorem groupM_run {α : Type} {p : Char → Bool} {k : Text → Text → Option α} {x : α} :
    ∀ {t acc : Text}, k (acc ++ t.takeWhile p) (t.dropWhile p) = some x → groupM p k acc t = some x
  | [], acc, h => by simpa [groupM] using h
  | c :: t, acc, h => by
    unfold groupM
    rw [List.dropWhile_cons, List.takeWhile_cons] at h
    cases hp : p c
    · simpa [hp] using h
    · rw [hp] at h
      rw [groupM_run (t := t) (acc := acc ++ [c]) (by simpa using h)]
      simp

theorem groupM_none {α : Type} {p : Char → Bool} {k : Text → Text → Option α} :
    ∀ {t acc : Text}, (∀ w r, t = w ++ r → (∀ c ∈ w, p c = true) → k (acc ++ w) r = none) → groupM p k acc t = none
  | [], acc, h => by simpa [groupM] using h [] [] rfl (by simp)
  | c :: t, acc, h => by
    unfold groupM
    have h0 : k acc (c :: t) = none := by simpa using h [] (c :: t) rfl (by simp)
    cases hp : p c
    · simpa [hp] using h0
    · rw [groupM_none (t := t) (acc := acc ++ [c]) (fun w r e hw => by
        have := h (c :: w) r (by rw [e]; rfl) (by simpa [hp] using hw)
        simpa using this)]
      simpa using h0

theorem groupM_longest {α : Type} {p : Char → Bool} {k : Text → Text → Option α} {x : α} {R : Text} :
    ∀ {w acc : Text}, (∀ c ∈ w, p c = true) → k (acc ++ w) R = some x →
      (∀ w2 r, R = w2 ++ r → w2 ≠ [] → (∀ c ∈ w2, p c = true) → k (acc ++ w ++ w2) r = none) →
      groupM p k acc (w ++ R) = some x
  | [], acc, _, hk, hn => by
    cases R with
    | nil => simpa [groupM] using hk
    | cons c R =>
      show groupM p k acc (c :: R) = some x
      unfold groupM
      cases hp : p c
      · simpa [hp] using hk
      · rw [groupM_none (t := R) (acc := acc ++ [c]) (fun w r e hw => by
          have := hn (c :: w) r (by rw [e]; rfl) (by simp) (by simpa [hp] using hw)
          simpa using this)]
        simpa using hk
  | c :: w, acc, hw, hk, hn => by
    show groupM p k acc (c :: (w ++ R)) = some x
    unfold groupM
    rw [groupM_longest (w := w) (acc := acc ++ [c]) (fun d hd => hw d (by simp [hd])) (by simpa using hk)
      (fun w2 r e h0 h2 => by simpa using hn w2 r e h0 h2)]
    simp [hw c (by simp)]

theorem takeWhile_run {p : Char → Bool} {s r : Text} (hs : ∀ c ∈ s, p c = true) (hr : HeadNot p r) :
    (s ++ r).takeWhile p = s := by
  rw [List.takeWhile_append_of_pos hs]
  cases r with
  | nil => simp
  | cons c r => simp [headNot_cons.1 hr]

theorem dropWhile_run {p : Char → Bool} {s r : Text} (hs : ∀ c ∈ s, p c = true) (hr : HeadNot p r) :
    (s ++ r).dropWhile p = r := by
  rw [List.dropWhile_append_of_pos hs]
  cases r with
  | nil => simp
  | cons c r => simp [headNot_cons.1 hr]

/-! ## Matching -/

theorem match_star {p : Char → Bool} {k : List Item} {s r : Text} {x : List Text × Text} (hs : ∀ c ∈ s, p c = true)
    (hr : HeadNot p r) (h : matchAt k r = some x) : matchAt (.star p :: k) (s ++ r) = some x := by
  rw [matchAt]
  exact starM_run (by rw [dropWhile_run hs hr]; exact h)

theorem match_plus {p : Char → Bool} {k : List Item} {s r : Text} {x : List Text × Text} (h0 : s ≠ [])
    (hs : ∀ c ∈ s, p c = true) (hr : HeadNot p r) (h : matchAt k r = some x) : matchAt (.plus p :: k) (s ++ r) = some x := by
  cases s with
  | nil => exact absurd rfl h0
  | cons c s =>
    show matchAt (.plus p :: k) (c :: (s ++ r)) = some x
    rw [matchAt, if_pos (hs c (by simp))]
    exact starM_run (by rw [dropWhile_run (fun d hd => hs d (by simp [hd])) hr]; exact h)

theorem match_group {p : Char → Bool} {k : List Item} {s r : Text} {ws : List Text} {r' : Text} (h0 : s ≠ [])
    (hs : ∀ c ∈ s, p c = true) (hr : HeadNot p r) (h : matchAt k r = some (ws, r')) :
    matchAt (.group p :: k) (s ++ r) = some (s :: ws, r') := by
  cases s with
  | nil => exact absurd rfl h0
  | cons c s =>
    show matchAt (.group p :: k) (c :: (s ++ r)) = _
    have hs' : ∀ d ∈ s, p d = true := fun d hd => hs d (by simp [hd])
    rw [matchAt, if_pos (hs c (by simp))]
    exact groupM_run (by rw [dropWhile_run hs' hr, takeWhile_run hs' hr, h]; rfl)

theorem match_ones {k : List Item} {r : Text} {x : List Text × Text} :
    ∀ {l : List Char}, matchAt k r = some x → matchAt ((l.map fun c => Item.one (· == c)) ++ k) (l ++ r) = some x
  | [], h => h
  | c :: l, h => by
    show matchAt (.one (· == c) :: ((l.map fun c => Item.one (· == c)) ++ k)) (c :: (l ++ r)) = some x
    rw [matchAt]
    simpa using match_ones (l := l) h

theorem match_lit {k : List Item} {r : Text} {x : List Text × Text} {s : String} (h : matchAt k r = some x) :
    matchAt (lit s ++ k) (s.toList ++ r) = some x := match_ones h

/-! ## What a match says of the text -/

/-- The text an expression takes, with its groups. -/
def Takes : List Item → Text → Prop
  | [], w => w = []
  | .one p :: k, w => ∃ c w', w = c :: w' ∧ p c = true ∧ Takes k w'
  | .star p :: k, w => ∃ s w', w = s ++ w' ∧ (∀ c ∈ s, p c = true) ∧ Takes k w'
  | .plus p :: k, w => ∃ s w', w = s ++ w' ∧ s ≠ [] ∧ (∀ c ∈ s, p c = true) ∧ Takes k w'
  | .group p :: k, w => ∃ s w', w = s ++ w' ∧ s ≠ [] ∧ (∀ c ∈ s, p c = true) ∧ Takes k w'

theorem starM_sound {α : Type} {p : Char → Bool} {k : Text → Option α} {x : α} :
    ∀ {t : Text}, starM p k t = some x → ∃ s r, t = s ++ r ∧ (∀ c ∈ s, p c = true) ∧ k r = some x
  | [], h => ⟨[], [], rfl, by simp, h⟩
  | c :: t, h => by
    unfold starM at h
    cases hp : p c
    · rw [hp] at h
      exact ⟨[], c :: t, rfl, by simp, by simpa using h⟩
    · rw [hp] at h
      simp only [if_true] at h
      cases hq : starM p k t with
      | none => rw [hq] at h; exact ⟨[], c :: t, rfl, by simp, h⟩
      | some y =>
        rw [hq] at h
        obtain ⟨s, r, e, hs, hk⟩ := starM_sound hq
        cases h
        exact ⟨c :: s, r, by rw [e]; rfl, by simpa [hp] using hs, hk⟩

theorem groupM_sound {α : Type} {p : Char → Bool} {k : Text → Text → Option α} {x : α} :
    ∀ {t acc : Text}, groupM p k acc t = some x →
      ∃ s r, t = s ++ r ∧ (∀ c ∈ s, p c = true) ∧ k (acc ++ s) r = some x
  | [], acc, h => ⟨[], [], rfl, by simp, by simpa [groupM] using h⟩
  | c :: t, acc, h => by
    unfold groupM at h
    cases hp : p c
    · rw [hp] at h
      exact ⟨[], c :: t, rfl, by simp, by simpa using h⟩
    · rw [hp] at h
      simp only [if_true] at h
      cases hq : groupM p k (acc ++ [c]) t with
      | none => rw [hq] at h; exact ⟨[], c :: t, rfl, by simp, by simpa using h⟩
      | some y =>
        rw [hq] at h
        obtain ⟨s, r, e, hs, hk⟩ := groupM_sound hq
        cases h
        exact ⟨c :: s, r, by rw [e]; rfl, by simpa [hp] using hs, by simpa using hk⟩

theorem match_sound : ∀ {re : List Item} {t r : Text} {gs : List Text}, matchAt re t = some (gs, r) →
    ∃ w, t = w ++ r ∧ Takes re w
  | [], t, r, gs, h => by
    rw [matchAt] at h; cases h
    exact ⟨[], rfl, rfl⟩
  | .one p :: k, [], r, gs, h => by rw [matchAt] at h; cases h
  | .one p :: k, c :: t, r, gs, h => by
    rw [matchAt] at h
    split at h
    · rename_i hp
      obtain ⟨w, e, hw⟩ := match_sound h
      exact ⟨c :: w, by rw [e]; rfl, c, w, rfl, hp, hw⟩
    · cases h
  | .star p :: k, t, r, gs, h => by
    rw [matchAt] at h
    obtain ⟨s, r', e, hs, hk⟩ := starM_sound h
    obtain ⟨w, e', hw⟩ := match_sound hk
    exact ⟨s ++ w, by rw [e, e', List.append_assoc], s, w, rfl, hs, hw⟩
  | .plus p :: k, [], r, gs, h => by rw [matchAt] at h; cases h
  | .plus p :: k, c :: t, r, gs, h => by
    rw [matchAt] at h
    split at h
    · rename_i hp
      obtain ⟨s, r', e, hs, hk⟩ := starM_sound h
      obtain ⟨w, e', hw⟩ := match_sound hk
      exact ⟨c :: s ++ w, by rw [e, e']; simp, c :: s, w, rfl, by simp, by simpa [hp] using hs, hw⟩
    · cases h
  | .group p :: k, [], r, gs, h => by rw [matchAt] at h; cases h
  | .group p :: k, c :: t, r, gs, h => by
    rw [matchAt] at h
    split at h
    · rename_i hp
      obtain ⟨s, r', e, hs, hk⟩ := groupM_sound h
      cases hm : matchAt k r' with
      | none => rw [hm] at hk; cases hk
      | some y =>
        obtain ⟨ws, r2⟩ := y
        rw [hm] at hk
        cases hk
        obtain ⟨w, e', hw⟩ := match_sound hm
        exact ⟨c :: s ++ w, by rw [e, e']; simp, c :: s, w, rfl, by simp, by simpa [hp] using hs, hw⟩
    · cases h

theorem takes_ones {k : List Item} : ∀ {l : List Char} {w : Text},
    Takes ((l.map fun c => Item.one (· == c)) ++ k) w → ∃ w', w = l ++ w' ∧ Takes k w'
  | [], w, h => ⟨w, rfl, h⟩
  | c :: l, w, h => by
    obtain ⟨d, w', e, hd, hw⟩ := h
    obtain ⟨w2, e2, h2⟩ := takes_ones (l := l) hw
    have : d = c := by simpa using hd
    exact ⟨w2, by rw [e, e2, this]; rfl, h2⟩

theorem takes_lit {k : List Item} {s : String} {w : Text} (h : Takes (lit s ++ k) w) :
    ∃ w', w = s.toList ++ w' ∧ Takes k w' := takes_ones h

/-! ## All matches -/

/-- Every match takes at least one character. -/
def Solid (re : List Item) : Prop := ∀ w, Takes re w → w ≠ []

theorem findFrom_fuel {re : List Item} (hre : Solid re) : ∀ (n : Nat) {f f' t : Text}, t.length ≤ n → t.length ≤ f.length →
    t.length ≤ f'.length → findFrom re f t = findFrom re f' t := by
  have empty : matchAt re [] = none := by
    cases h : matchAt re [] with
    | none => rfl
    | some y =>
      obtain ⟨w, e, hw⟩ := match_sound (gs := y.1) (r := y.2) h
      exact absurd (List.append_eq_nil_iff.1 e.symm).1 (hre w hw)
  have nil : ∀ f, findFrom re f [] = [] := by
    intro f
    induction f with
    | nil => rfl
    | cons c f ih => rw [findFrom, empty]; exact ih
  intro n
  induction n with
  | zero =>
    intro f f' t hn _ _
    have : t = [] := List.length_eq_zero_iff.1 (by omega)
    rw [this, nil, nil]
  | succ n ih =>
    intro f f' t hn hf hf'
    cases t with
    | nil => rw [nil, nil]
    | cons c t =>
      cases f with
      | nil => simp at hf
      | cons a f =>
        cases f' with
        | nil => simp at hf'
        | cons b f' =>
          simp only [List.length_cons, Nat.add_le_add_iff_right] at hn hf hf'
          rw [findFrom, findFrom]
          cases h : matchAt re (c :: t) with
          | none => exact ih hn hf hf'
          | some y =>
            obtain ⟨gs, r⟩ := y
            obtain ⟨w, e, hw⟩ := match_sound h
            have hl := congrArg List.length e
            have := List.length_pos_iff.2 (hre w hw)
            simp only [List.length_cons, List.length_append] at hl
            simp only
            rw [ih (f := f) (f' := f') (t := r) (by omega) (by omega) (by omega)]

theorem findAll_nil {re : List Item} : findAll re [] = [] := rfl

theorem findAll_some {re : List Item} (hre : Solid re) {t r : Text} {gs : List Text} (h : matchAt re t = some (gs, r)) :
    findAll re t = gs :: findAll re r := by
  obtain ⟨w, e, hw⟩ := match_sound h
  have hp := List.length_pos_iff.2 (hre w hw)
  have hl := congrArg List.length e
  rw [List.length_append] at hl
  cases t with
  | nil => simp at hl; omega
  | cons c t =>
    unfold findAll
    rw [findFrom, h]
    simp only [List.length_cons] at hl
    simp only
    rw [findFrom_fuel hre r.length (f := t) (f' := r) (Nat.le_refl _) (by omega) (Nat.le_refl _)]

theorem findAll_none {re : List Item} {c : Char} {t : Text} (h : matchAt re (c :: t) = none) :
    findAll re (c :: t) = findAll re t := by
  unfold findAll
  rw [findFrom, h]
  rfl

/-- No match begins in `q`. -/
theorem findAll_skip {re : List Item} {t : Text} : ∀ {q : Text},
    (∀ a b, q = a ++ b → b ≠ [] → matchAt re (b ++ t) = none) → findAll re (q ++ t) = findAll re t
  | [], _ => rfl
  | c :: q, h => by
    have h1 : matchAt re (c :: (q ++ t)) = none := h [] (c :: q) rfl (by simp)
    show findAll re (c :: (q ++ t)) = findAll re t
    rw [findAll_none h1]
    exact findAll_skip (q := q) fun a b e hb => h (c :: a) b (by rw [e]; rfl) hb

theorem solid_objRe : Solid objRe := by
  rintro w ⟨s, w', e, -, hw⟩ h0
  obtain ⟨w2, e2, -⟩ := takes_lit hw
  rw [h0, e2] at e
  simp at e

theorem solid_ieRe : Solid ieRe := by
  intro w h h0
  obtain ⟨w2, e2, -⟩ := takes_lit h
  rw [h0] at e2
  simp at e2

theorem solid_setRe : Solid setRe := by
  rintro w ⟨s, w', e, hs, -⟩ h0
  rw [h0] at e
  exact hs (List.append_eq_nil_iff.1 e.symm).1

/-! ## Elements -/

/-- `objRe` from the opening brace on. -/
def objRe1 : List Item :=
  lit "{" ++ ([.star space, .group innerChar, .star space] ++ (lit "}" ++ [.star space, .star sepChar]))

theorem objRe1_head {t : Text} (h : HeadNot (· == '{') t) : matchAt objRe1 t = none := by
  show matchAt (.one (· == '{') :: _) t = none
  cases t with
  | nil => rw [matchAt]
  | cons c t =>
    rw [matchAt, if_neg]
    have := headNot_cons.1 h
    simpa using this

theorem objRe_eq (t : Text) : matchAt objRe t = matchAt objRe1 (t.dropWhile space) := by
  show matchAt (.star space :: objRe1) t = _
  rw [matchAt]
  induction t with
  | nil => rfl
  | cons c t ih =>
    unfold starM
    rw [List.dropWhile_cons]
    cases hc : space c
    · simp
    · have hn : matchAt objRe1 (c :: t) = none := objRe1_head (headNot_cons.2 (by
        cases he : (c == '{')
        · rfl
        · rw [beq_iff_eq.1 he] at hc; exact absurd hc (by decide)))
      rw [ih, hn]
      simp only [if_true]
      cases matchAt objRe1 (List.dropWhile space t) <;> rfl

/-- Text without an opening brace does not matter. -/
theorem findAll_gap {t : Text} : ∀ {g : Text}, '{' ∉ g → findAll objRe (g ++ t) = findAll objRe t
  | [], _ => rfl
  | c :: g, hg => by
    have ih := findAll_gap (t := t) (g := g) (fun h => hg (by simp [h]))
    have hc : (c == '{') = false := beq_eq_false_iff_ne.2 fun h => hg (h ▸ List.mem_cons_self)
    show findAll objRe (c :: (g ++ t)) = _
    rw [← ih]
    cases hs : space c
    · refine findAll_none ?_
      rw [objRe_eq, List.dropWhile_cons, hs]
      exact objRe1_head (headNot_cons.2 hc)
    · have he : matchAt objRe (c :: (g ++ t)) = matchAt objRe (g ++ t) := by
        rw [objRe_eq, objRe_eq, List.dropWhile_cons, hs]; rfl
      cases hm : matchAt objRe (g ++ t) with
      | none => exact findAll_none (he.trans hm)
      | some y =>
        obtain ⟨gs, r⟩ := y
        rw [findAll_some solid_objRe (he.trans hm), findAll_some solid_objRe hm]

theorem gap_not {s : Text} {c : Char} (h : Gap s) (hc : ¬ Gap [c]) : c ∉ s :=
  fun hm => hc (by intro d hd; rw [List.mem_singleton.1 hd]; exact h c hm)

theorem gap_mem {c : Char} : Gap [c] ↔ c = ' ' ∨ c = '\t' ∨ c = '\n' := by simp [Gap]

/-- The characters of an element. -/
theorem defines_chars {w : Text} {e : Row} (h : Defines w e) : ∀ c ∈ w, wordChar c = true ∨ Gap [c] := by
  obtain ⟨h1, h2, h3, h4, s1, s2, s3, s4, s5, s6, s7, kw, hs, hk, rfl⟩ := h
  have hg : ∀ s ∈ [s1, s2, s3, s4, s5, s6, s7], ∀ c ∈ s, wordChar c = true ∨ Gap [c] := fun s hm c hc => .inr (by
    rw [gap_mem]; exact (hs s hm).1 c hc)
  have hw : ∀ s, IsWord s → ∀ c ∈ s, wordChar c = true ∨ Gap [c] := fun s hm c hc => .inl (isWord_all hm c hc)
  have l1 : ∀ c ∈ "ID".toList, wordChar c = true ∨ Gap [c] := fun c hc => .inl ((by decide : ∀ c ∈ "ID".toList, wordChar c = true) c hc)
  have l2 : ∀ c ∈ "CRITICALITY".toList, wordChar c = true ∨ Gap [c] := fun c hc => .inl ((by decide : ∀ c ∈ "CRITICALITY".toList, wordChar c = true) c hc)
  have l3 : ∀ c ∈ "PRESENCE".toList, wordChar c = true ∨ Gap [c] := fun c hc => .inl ((by decide : ∀ c ∈ "PRESENCE".toList, wordChar c = true) c hc)
  have lk : ∀ c ∈ kw, wordChar c = true ∨ Gap [c] := fun c hc => .inl (upper_word (upper_iff.2 (hk.2 c hc)))
  intro c hc
  simp only [List.mem_append] at hc
  rcases hc with h | h | h | h | h | h | h | h | h | h | h | h | h | h | h
  · exact l1 c h
  · exact hg s1 (by simp) c h
  · exact hw _ h1 c h
  · exact hg s2 (by simp) c h
  · exact l2 c h
  · exact hg s3 (by simp) c h
  · exact hw _ h2 c h
  · exact hg s4 (by simp) c h
  · exact lk c h
  · exact hg s5 (by simp) c h
  · exact hw _ h3 c h
  · exact hg s6 (by simp) c h
  · exact l3 c h
  · exact hg s7 (by simp) c h
  · exact hw _ h4 c h

theorem defines_head {w : Text} {e : Row} (h : Defines w e) : ∃ w', w = 'I' :: w' := by
  obtain ⟨h1, h2, h3, h4, s1, s2, s3, s4, s5, s6, s7, kw, hs, hk, rfl⟩ := h
  exact ⟨_, rfl⟩

theorem defines_last {w : Text} {e : Row} (h : Defines w e) : ∃ w' z, w = w' ++ [z] ∧ wordChar z = true := by
  obtain ⟨h1, h2, h3, h4, s1, s2, s3, s4, s5, s6, s7, kw, hs, hk, rfl⟩ := h
  refine ⟨"ID".toList ++ (s1 ++ (e.id ++ (s2 ++ ("CRITICALITY".toList ++ (s3 ++ (e.crit ++ (s4 ++ (kw ++ (s5 ++ (e.ty ++ (s6 ++
      ("PRESENCE".toList ++ (s7 ++ e.presence.dropLast))))))))))))), e.presence.getLast h4.1, ?_,
      isWord_all h4 _ (List.getLast_mem h4.1)⟩
  simp only [List.append_assoc, List.dropLast_concat_getLast]

theorem headNot_of {p : Char → Bool} {s t : Text} (h0 : s ≠ []) (h : ∀ c ∈ s, p c = false) : HeadNot p (s ++ t) :=
  headNot_append h0 h

/-- The expression for the words of an element finds them, with spaces behind. -/
theorem ieRe_match {w b : Text} {e : Row} (h : Defines w e) (hb : HeadNot wordChar b) :
    matchAt ieRe (w ++ b) = some ([e.id, e.crit, e.ty, e.presence], b) := by
  obtain ⟨h1, h2, h3, h4, s1, s2, s3, s4, s5, s6, s7, kw, hs, hk, rfl⟩ := h
  have g := fun s (hm : s ∈ [s1, s2, s3, s4, s5, s6, s7]) => gap_space (hs s hm).1
  have n0 := fun s (hm : s ∈ [s1, s2, s3, s4, s5, s6, s7]) => (hs s hm).2
  have gn := fun s (hm : s ∈ [s1, s2, s3, s4, s5, s6, s7]) c hc => spc_not_word (g s hm c hc)
  have wn : ∀ {t : Text}, IsWord t → ∀ c ∈ t, space c = false := fun ht c hc => word_not_space (isWord_all ht c hc)
  have ku : ∀ c ∈ kw, upper c = true := fun c hc => upper_iff.2 (hk.2 c hc)
  have gu : ∀ s ∈ [s1, s2, s3, s4, s5, s6, s7], ∀ c ∈ s, upper c = false := fun s hm c hc => by
    cases hq : upper c with
    | false => rfl
    | true =>
      have := upper_word hq
      rw [gn s hm c hc] at this
      cases this
  simp only [List.append_assoc]
  refine match_lit (match_star (g s1 (by simp)) (headNot_of h1.1 (wn h1)) (match_group h1.1 (isWord_all h1)
    (headNot_of (n0 s2 (by simp)) (gn s2 (by simp))) (match_star (g s2 (by simp)) ?_ (match_lit
    (match_star (g s3 (by simp)) (headNot_of h2.1 (wn h2)) (match_group h2.1 (isWord_all h2)
    (headNot_of (n0 s4 (by simp)) (gn s4 (by simp))) (match_plus (n0 s4 (by simp)) (g s4 (by simp))
    (headNot_of hk.1 fun c hc => word_not_space (upper_word (ku c hc)))
    (match_plus hk.1 ku (headNot_of (n0 s5 (by simp)) (gu s5 (by simp))) (match_plus (n0 s5 (by simp)) (g s5 (by simp))
    (headNot_of h3.1 (wn h3)) (match_group h3.1 (isWord_all h3) (headNot_of (n0 s6 (by simp)) (gn s6 (by simp)))
    (match_star (g s6 (by simp)) ?_ (match_lit (match_star (g s7 (by simp)) (headNot_of h4.1 (wn h4))
    (match_group h4.1 (isWord_all h4) hb (by rw [matchAt])))))))))))))))
  · exact headNot_cons.2 (by decide)
  · exact headNot_cons.2 (by decide)

theorem findAll_ieRe_nil : ∀ {t : Text}, 'I' ∉ t → findAll ieRe t = []
  | [], _ => rfl
  | c :: t, h => by
    rw [findAll_none, findAll_ieRe_nil fun h' => h (by simp [h'])]
    show matchAt (.one (· == 'I') :: _) (c :: t) = none
    rw [matchAt, if_neg]
    exact fun h' => h (beq_iff_eq.1 h' ▸ List.mem_cons_self)

theorem inner_of {c : Char} (h : wordChar c = true ∨ Gap [c]) (hn : c ≠ '\n') : innerChar c = true := by
  unfold innerChar
  rcases h with h | h
  · simp [h]
  · rcases gap_mem.1 h with h | h | h <;> simp_all

theorem mem_takeWhile {p : Char → Bool} {c : Char} {t : Text} (h : c ∈ t.takeWhile p) : p c = true := by
  induction t with
  | nil => simp at h
  | cons d t ih =>
    rw [List.takeWhile_cons] at h
    split at h
    · rename_i hd
      rcases List.mem_cons.1 h with rfl | h
      · exact hd
      · exact ih h
    · simp at h

/-- An element on one line is found. -/
theorem obj_match {a w b t : Text} {e : Row} (ha : Gap a) (hw : Defines w e) (hb : Gap b) (hl : '\n' ∉ w) :
    ∃ x g t', Gap x ∧ '{' ∉ g ∧ t = g ++ t' ∧
      matchAt objRe ('{' :: (a ++ (w ++ (b ++ '}' :: t)))) = some ([w ++ x], t') := by
  have e1 : b.takeWhile innerChar ++ b.dropWhile innerChar = b := List.takeWhile_append_dropWhile
  have hx : ∀ c ∈ b.takeWhile innerChar, c ∈ b := fun c hc => (List.takeWhile_sublist _).mem hc
  have hy : ∀ c ∈ b.dropWhile innerChar, c ∈ b := fun c hc => (List.dropWhile_sublist _).mem hc
  have e2 : t.takeWhile space ++ ((t.dropWhile space).takeWhile sepChar ++ (t.dropWhile space).dropWhile sepChar) = t := by
    rw [List.takeWhile_append_dropWhile, List.takeWhile_append_dropWhile]
  refine ⟨b.takeWhile innerChar, t.takeWhile space ++ (t.dropWhile space).takeWhile sepChar,
    (t.dropWhile space).dropWhile sepChar, fun c hc => hb c (hx c hc), ?_, by rw [List.append_assoc, e2], ?_⟩
  · intro hm
    rcases List.mem_append.1 hm with hm | hm
    · exact absurd (mem_takeWhile hm) (by decide)
    · exact absurd (mem_takeWhile hm) (by decide)
  · rw [objRe_eq, List.dropWhile_cons]
    simp only [show space '{' = false by decide, Bool.false_eq_true, if_false]
    refine match_lit (s := "{") (match_star (gap_space ha) ?_ ?_)
    · obtain ⟨w', rfl⟩ := defines_head hw
      exact headNot_cons.2 (by decide)
    · have : w ++ (b ++ '}' :: t) = (w ++ b.takeWhile innerChar) ++ (b.dropWhile innerChar ++ ("}".toList ++ t)) := by
        rw [List.append_assoc, ← List.append_assoc (b.takeWhile innerChar), e1]; rfl
      rw [this]
      refine match_group ?_ ?_ ?_ (match_star (fun c hc => gap_space hb c (hy c hc)) (headNot_cons.2 (by decide))
        (match_lit ?_))
      · obtain ⟨w', rfl⟩ := defines_head hw
        simp
      · intro c hc
        rcases List.mem_append.1 hc with hc | hc
        · exact inner_of (defines_chars hw c hc) (fun h => hl (h ▸ hc))
        · exact mem_takeWhile hc
      · cases hd : b.dropWhile innerChar with
        | nil => exact headNot_cons.2 (by decide)
        | cons c r =>
          refine headNot_cons.2 ?_
          have := List.head?_dropWhile_not innerChar b
          rw [hd] at this
          simpa using this
      · show matchAt (.star space :: [.star sepChar]) t = _
        rw [matchAt]
        refine starM_run ?_
        rw [matchAt]
        exact starM_run (by rw [matchAt])

/-- An element that is spread over lines is not. -/
theorem obj_lost {a w b t : Text} {e : Row} (ha : Gap a) (hw : Defines w e) (hb : Gap b) (hl : '\n' ∈ w) :
    matchAt objRe ('{' :: (a ++ (w ++ (b ++ '}' :: t)))) = none := by
  rw [objRe_eq, List.dropWhile_cons]
  simp only [show space '{' = false by decide, Bool.false_eq_true, if_false]
  cases hm : matchAt objRe1 ('{' :: (a ++ (w ++ (b ++ '}' :: t)))) with
  | none => rfl
  | some y =>
    exfalso
    obtain ⟨v, ev, hv⟩ := match_sound (gs := y.1) (r := y.2) hm
    obtain ⟨v1, e1, s1, v2, e2, hs1, i, v3, e3, -, hi, s2, v4, e4, hs2, hv4⟩ := takes_lit hv
    obtain ⟨v5, e5, -⟩ := takes_lit hv4
    have hE : a ++ (w ++ (b ++ '}' :: t)) = s1 ++ (i ++ (s2 ++ '}' :: (v5 ++ y.2))) := by
      rw [e1, e2, e3, e4, e5] at ev
      simpa using ev
    have hg : ∀ s : Text, (∀ c ∈ s, space c = true) → '}' ∉ s := fun s hs h => absurd (hs _ h) (by decide)
    have n1 : '}' ∉ a ++ (w ++ b) := by
      intro h
      simp only [List.mem_append] at h
      rcases h with h | h | h
      · exact hg a (gap_space ha) h
      · rcases defines_chars hw _ h with h | h
        · exact absurd h (by decide)
        · exact absurd (gap_mem.1 h) (by decide)
      · exact hg b (gap_space hb) h
    have n2 : '}' ∉ s1 ++ (i ++ s2) := by
      intro h
      simp only [List.mem_append] at h
      rcases h with h | h | h
      · exact hg s1 hs1 h
      · exact absurd (hi _ h) (by decide)
      · exact hg s2 hs2 h
    have hF : a ++ (w ++ b) = s1 ++ (i ++ s2) := by
      have h1 : (a ++ (w ++ b)) ++ '}' :: t = (s1 ++ (i ++ s2)) ++ '}' :: (v5 ++ y.2) := by simpa using hE
      have := congrArg (List.takeWhile (· != '}')) h1
      rwa [takeWhile_run (fun c hc => by simpa using fun h : c = '}' => n1 (h ▸ hc)) (headNot_cons.2 (by decide)),
        takeWhile_run (fun c hc => by simpa using fun h : c = '}' => n2 (h ▸ hc)) (headNot_cons.2 (by decide))] at this
    -- `w` is inside of `i`
    obtain ⟨w', hw'⟩ := defines_head hw
    obtain ⟨w'', z, hz, hzw⟩ := defines_last hw
    have hG : ∃ cs, i ++ s2 = cs ++ (w ++ b) := by
      rcases List.append_eq_append_iff.1 hF with ⟨as, h1, h2⟩ | ⟨cs, h1, h2⟩
      · cases as with
        | nil => exact ⟨[], by simpa using h2.symm⟩
        | cons d as =>
          rw [hw'] at h2
          have hd : 'I' = d := (List.cons.inj h2).1
          have := hs1 d (by rw [h1]; simp)
          rw [← hd] at this
          exact absurd this (by decide)
      · exact ⟨cs, h2⟩
    obtain ⟨cs, hG⟩ := hG
    have hin : ∀ c ∈ w, c ∈ i := by
      rw [← List.append_assoc] at hG
      rcases List.append_eq_append_iff.1 hG with ⟨as, h1, h2⟩ | ⟨as, h1, h2⟩
      · cases ht : as.reverse with
        | nil =>
          have : as = [] := by simpa using ht
          rw [this, List.append_nil] at h1
          intro c hc
          rw [← h1]; simp [hc]
        | cons d q =>
          have hd : as = q.reverse ++ [d] := by
            have := congrArg List.reverse ht
            simpa using this
          rw [hz, hd, ← List.append_assoc, ← List.append_assoc] at h1
          have he : z = d := by
            have := congrArg List.getLast? h1
            simpa using this
          have := hs2 d (by rw [h2, hd]; simp)
          rw [← he, word_not_space hzw] at this
          cases this
      · intro c hc
        rw [h1]; simp [hc]
    exact absurd (hi _ (hin _ hl)) (by decide)

/-- Nor is one without a closing brace. -/
theorem obj_open {a w b t : Text} {e : Row} (ha : Gap a) (hw : Defines w e) (hb : Gap b)
    (ht : ∀ x y, t = x ++ '}' :: y → '{' ∈ x) : matchAt objRe ('{' :: (a ++ (w ++ (b ++ t)))) = none := by
  rw [objRe_eq, List.dropWhile_cons]
  simp only [show space '{' = false by decide, Bool.false_eq_true, if_false]
  cases hm : matchAt objRe1 ('{' :: (a ++ (w ++ (b ++ t)))) with
  | none => rfl
  | some y =>
    exfalso
    obtain ⟨v, ev, hv⟩ := match_sound (gs := y.1) (r := y.2) hm
    obtain ⟨v1, e1, s1, v2, e2, hs1, i, v3, e3, -, hi, s2, v4, e4, hs2, hv4⟩ := takes_lit hv
    obtain ⟨v5, e5, -⟩ := takes_lit hv4
    have hE : (a ++ (w ++ b)) ++ t = (s1 ++ (i ++ s2)) ++ '}' :: (v5 ++ y.2) := by
      rw [e1, e2, e3, e4, e5] at ev
      simpa using ev
    have n1 : '}' ∉ a ++ (w ++ b) := by
      intro h
      simp only [List.mem_append] at h
      rcases h with h | h | h
      · exact absurd (gap_space ha _ h) (by decide)
      · rcases defines_chars hw _ h with h | h
        · exact absurd h (by decide)
        · exact absurd (gap_mem.1 h) (by decide)
      · exact absurd (gap_space hb _ h) (by decide)
    have n2 : '{' ∉ s1 ++ (i ++ s2) := by
      intro h
      simp only [List.mem_append] at h
      rcases h with h | h | h
      · exact absurd (hs1 _ h) (by decide)
      · exact absurd (hi _ h) (by decide)
      · exact absurd (hs2 _ h) (by decide)
    rcases List.append_eq_append_iff.1 hE with ⟨as, h1, h2⟩ | ⟨as, h1, h2⟩
    · exact n2 (by rw [h1]; exact List.mem_append_right _ (ht _ _ h2))
    · cases as with
      | nil => exact absurd (ht [] _ h2.symm) (by simp)
      | cons d as =>
        have : '}' = d := (List.cons.inj h2).1
        exact n1 (by rw [h1, this]; simp)

theorem body_elem_gap {a w b : Text} {e : Row} (ha : Gap a) (hw : Defines w e) (hb : Gap b) :
    '{' ∉ a ++ (w ++ (b ++ ['}'])) := by
  intro h
  simp only [List.mem_append, List.mem_singleton] at h
  rcases h with h | h | h | h
  · exact absurd (gap_space ha _ h) (by decide)
  · rcases defines_chars hw _ h with h | h
    · exact absurd h (by decide)
    · exact absurd (gap_mem.1 h) (by decide)
  · exact absurd (gap_space hb _ h) (by decide)
  · exact absurd h (by decide)

theorem rows_gap {g t : Text} (hg : '{' ∉ g) : rows (g ++ t) = rows t := by
  unfold rows
  rw [findAll_gap hg]

/-- All elements of an object set that are written on one line are found, with their words, and nothing else. -/
theorem rows_body {torn : Prop} {l : List (Text × Row)} {t : Text} (h : Body torn l t) : rows t = oneLine l := by
  induction h with
  | @none g hg =>
    have := rows_gap (t := []) hg
    rw [List.append_nil] at this
    rw [this]; rfl
  | @elem g a w b t e l hg ha hw hb _ ih =>
    rw [rows_gap hg]
    by_cases hl : '\n' ∈ w
    · have h1 : oneLine ((w, e) :: l) = oneLine l := by simp [oneLine, hl]
      rw [h1, ← ih]
      unfold rows
      rw [findAll_none (obj_lost ha hw hb hl)]
      have : a ++ (w ++ (b ++ '}' :: t)) = (a ++ (w ++ (b ++ ['}']))) ++ t := by simp
      rw [this, findAll_gap (body_elem_gap ha hw hb)]
    · have h1 : oneLine ((w, e) :: l) = e :: oneLine l := by simp [oneLine, hl]
      obtain ⟨x, g', t', hx, hg', et, hm⟩ := obj_match (t := t) ha hw hb hl
      rw [h1, ← ih]
      have h2 : rows ('{' :: (a ++ (w ++ (b ++ '}' :: t)))) =
          (findAll ieRe (w ++ x)).filterMap toRow ++ rows t' := by
        unfold rows
        rw [findAll_some solid_objRe hm]
        simp
      have hxw : HeadNot wordChar x := by
        intro c hc
        exact spc_not_word (gap_space hx c (List.mem_of_mem_head? hc))
      rw [h2, findAll_some solid_ieRe (ieRe_match hw hxw),
        findAll_ieRe_nil (gap_not hx (by rw [gap_mem]; decide)), et, rows_gap hg']
      rfl
  | @«open» g a w b t e l _ hg ha hw hb _ ht ih =>
    rw [rows_gap hg, ← ih]
    unfold rows
    rw [findAll_none (obj_open ha hw hb ht)]
    have : a ++ (w ++ (b ++ t)) = (a ++ (w ++ b)) ++ t := by simp
    rw [this, findAll_gap (fun h => body_elem_gap ha hw hb (by
      simp only [List.mem_append] at h ⊢
      rcases h with h | h | h <;> simp [h]))]

theorem body_append {torn : Prop} {l : List (Text × Row)} {t g : Text} (h : Body torn l t) (hg : '{' ∉ g) (hg2 : '}' ∉ g) :
    Body torn l (t ++ g) := by
  induction h with
  | @none g' hg' => exact .none (by simp [hg, hg'])
  | @elem g' a w b t e l hg' ha hw hb _ ih =>
    have := Body.elem (g := g') (a := a) (w := w) (b := b) (e := e) hg' ha hw hb ih
    simpa using this
  | @«open» g' a w b t e l htn hg' ha hw hb _ ht ih =>
    have := Body.open (g := g') (a := a) (w := w) (b := b) (e := e) htn hg' ha hw hb ih (by
      intro x y e
      rcases List.append_eq_append_iff.1 e with ⟨as, h1, h2⟩ | ⟨as, h1, h2⟩
      · exact absurd (by rw [h2]; simp) hg2
      · cases as with
        | nil => exact absurd (by rw [← show '}' :: y = g by simpa using h2]; simp) hg2
        | cons d as =>
          have hd : '}' = d := (List.cons.inj h2).1
          exact ht x as (by rw [h1, hd]))
    simpa using this

theorem body_mono {torn : Prop} {l : List (Text × Row)} {t : Text} (h : Body False l t) : Body torn l t := by
  induction h with
  | none hg => exact .none hg
  | elem hg ha hw hb _ ih => exact .elem hg ha hw hb ih
  | «open» hf => exact hf.elim

/-! ## Object sets -/

theorem bodyChar_gap {c : Char} (h : Gap [c]) : bodyChar c = true := by
  rcases gap_mem.1 h with rfl | rfl | rfl <;> rfl

theorem bodyText_all {t : Text} (h : BodyText t) : ∀ c ∈ t, bodyChar c = true := by
  intro c hc
  rcases h.2.2 c hc with h | h | h | h | h | h | h | h
  · unfold bodyChar innerChar; simp [wordChar_iff.2 (.inl h)]
  · unfold bodyChar innerChar; simp [wordChar_iff.2 (.inr h)]
  · exact bodyChar_gap h
  all_goals subst h; rfl

theorem bodyText_head {t r : Text} (h : BodyText t) : HeadNot space (t ++ r) := by
  cases t with
  | nil => exact absurd rfl h.1
  | cons c t =>
    refine headNot_cons.2 ?_
    have hn := h.2.1 c rfl
    rcases h.2.2 c (by simp) with h | h | h | h | h | h | h | h
    · exact word_not_space (wordChar_iff.2 (.inl h))
    · exact word_not_space (wordChar_iff.2 (.inr h))
    · exact absurd h hn
    all_goals subst h; decide

theorem space_not_class {c : Char} (h : space c = true) : classChar c = false := by
  cases hc : classChar c with
  | false => rfl
  | true =>
    have := class_word hc
    rw [spc_not_word h] at this
    cases this

theorem eq_of_append_lt {s r w q : Text} (h : s ++ r = w ++ q) (hl : s.length ≤ w.length) : ∃ x, w = s ++ x ∧ r = x ++ q := by
  rcases List.append_eq_append_iff.1 h with ⟨x, h1, h2⟩ | ⟨x, h1, h2⟩
  · exact ⟨x, h1, h2⟩
  · have : x = [] := by
      have := congrArg List.length h1
      simp only [List.length_append] at this
      exact List.length_eq_zero_iff.1 (by omega)
    subst this
    exact ⟨[], by simpa using h1.symm, by simpa using h2.symm⟩

/-- The definition of an object set is found, up to its closing brace. -/
theorem set_match {d t name cls : Text} {torn : Prop} {l : List (Text × Row)} (h : SetDef torn name cls l d) (ht : NoBrace t) :
    ∃ body, Body torn l body ∧ matchAt setRe (d ++ t) = some ([name, cls, body], t) := by
  obtain ⟨h1, h2, s1, s2, s3, s4, s5, body, hs, n1, n4, n5, hb, hbt, rfl⟩ := h
  have g := fun s (hm : s ∈ [s1, s2, s3, s4, s5]) => gap_space (hs s hm)
  have h5 : s5.dropLast ++ [s5.getLast n5] = s5 := List.dropLast_concat_getLast n5
  have hl5 : ∀ c ∈ s5.dropLast, c ∈ s5 := fun c hc => List.dropLast_subset _ hc
  refine ⟨body ++ s5.dropLast, body_append hb (fun h => absurd (g s5 (by simp) _ (hl5 _ h)) (by decide))
    (fun h => absurd (g s5 (by simp) _ (hl5 _ h)) (by decide)), ?_⟩
  simp only [List.append_assoc, List.cons_append]
  refine match_group h1.1 (isWord_all h1) (headNot_of n1 fun c hc => spc_not_word (g s1 (by simp) c hc))
    (match_plus n1 (g s1 (by simp)) (headNot_of h2.1 fun c hc => word_not_space (class_word (isClass_all h2 c hc)))
    (match_group h2.1 (isClass_all h2) ?_ (match_star (g s2 (by simp)) (headNot_cons.2 (by decide))
    (match_lit (match_star (g s3 (by simp)) (headNot_cons.2 (by decide)) (match_lit (s := "{")
    (match_plus n4 (g s4 (by simp)) (bodyText_head hbt) ?_)))))))
  · exact headNot_gap (fun c hc => space_not_class (g s2 (by simp) c hc)) (headNot_cons.2 (by decide))
  · -- the body: everything up to the last character before the brace
    have hE : body ++ (s5 ++ ("}\n".toList ++ t)) = (body ++ s5.dropLast) ++ (s5.getLast n5 :: ("}\n".toList ++ t)) := by
      have h6 := congrArg (fun u => body ++ (u ++ ("}\n".toList ++ t))) h5
      simpa using h6.symm
    have hk : matchAt (.plus space :: lit "}\n") (s5.getLast n5 :: ("}\n".toList ++ t)) = some ([], t) := by
      refine match_plus (s := [s5.getLast n5]) (by simp) ?_ (headNot_cons.2 (by decide)) ?_
      · intro c hc
        rw [List.mem_singleton.1 hc]
        exact g s5 (by simp) _ (List.getLast_mem n5)
      · have := match_lit (k := []) (s := "}\n") (r := t) (x := ([], t)) (by rw [matchAt])
        rwa [List.append_nil] at this
    show matchAt (.group bodyChar :: .plus space :: lit "}\n") (body ++ (s5 ++ ("}\n".toList ++ t))) = _
    rw [hE]
    have hch : ∀ c ∈ body ++ s5.dropLast, bodyChar c = true := by
      intro c hc
      rcases List.mem_append.1 hc with hc | hc
      · exact bodyText_all hbt c hc
      · exact bodyChar_gap (by rw [gap_mem]; exact hs s5 (by simp) c (hl5 c hc))
    cases hbb : body ++ s5.dropLast with
    | nil => exact absurd (List.append_eq_nil_iff.1 hbb).1 hbt.1
    | cons c0 rest =>
      rw [hbb] at hch
      show matchAt _ (c0 :: (rest ++ _)) = _
      rw [matchAt, if_pos (hch c0 (by simp))]
      refine groupM_longest (fun c hc => hch c (by simp [hc])) (by rw [hk]; rfl) ?_
      intro w2 r er hw0 hw2
      cases hm : matchAt (.plus space :: lit "}\n") r with
      | none => rfl
      | some y =>
        exfalso
        obtain ⟨v, ev, sp, v', e1, hsp0, hsp, hv'⟩ := match_sound (gs := y.1) (r := y.2) hm
        obtain ⟨v2, e2, -⟩ := takes_lit (k := []) (s := "}\n") (by simpa using hv')
        -- the brace of this match is in `t`
        have hF : [s5.getLast n5, '}', '\n'] ++ t = (w2 ++ sp) ++ '}' :: ('\n' :: (v2 ++ y.2)) := by
          rw [ev, e1, e2] at er
          simpa using er
        have hlen : [s5.getLast n5, '}'].length ≤ (w2 ++ sp).length := by
          have a1 := List.length_pos_iff.2 hw0
          have a2 := List.length_pos_iff.2 hsp0
          simp only [List.length_append, List.length_cons, List.length_nil]; omega
        have hX : ∃ x, t = x ++ '}' :: ('\n' :: (v2 ++ y.2)) ∧ ∀ c ∈ x, c ∈ w2 ++ sp := by
          obtain ⟨x, h1, h2⟩ := eq_of_append_lt (s := [s5.getLast n5, '}']) (r := '\n' :: t) hF hlen
          cases x with
          | nil => exact absurd (List.cons.inj h2).1 (by decide)
          | cons d x =>
            exact ⟨x, (List.cons.inj h2).2, fun c hc => by rw [h1]; simp [hc]⟩
        obtain ⟨x, hx, hxm⟩ := hX
        rcases List.mem_append.1 (hxm _ (ht _ _ hx)) with h | h
        · exact absurd (hw2 _ h) (by decide)
        · exact absurd (hsp _ h) (by decide)

/-- What a match of the expression for object sets is. -/
theorem set_shape {t : Text} (h : matchAt setRe t ≠ none) : ∃ w a k b s z, t = w ++ (a ++ (k ++ (b ++ ("::=".toList ++ (s ++ '{' :: z))))) ∧
    w ≠ [] ∧ (∀ c ∈ w, wordChar c = true) ∧ (∀ c ∈ a, space c = true) ∧ (∀ c ∈ k, wordChar c = true) ∧
    (∀ c ∈ b, space c = true) ∧ (∀ c ∈ s, space c = true) := by
  cases hm : matchAt setRe t with
  | none => exact absurd hm h
  | some y =>
    obtain ⟨v, ev, w, v1, e1, hw0, hw, a, v2, e2, -, ha, k, v3, e3, -, hk, b, v4, e4, hb, hv4⟩ :=
      match_sound (gs := y.1) (r := y.2) hm
    obtain ⟨v5, e5, s, v6, e6, hs, hv6⟩ := takes_lit hv4
    obtain ⟨v7, e7, -⟩ := takes_lit (s := "{") hv6
    refine ⟨w, a, k, b, s, v7 ++ y.2, ?_, hw0, hw, ha, fun c hc => class_word (hk c hc), hb, hs⟩
    rw [ev, e1, e2, e3, e4, e5, e6, e7]
    simp

theorem noSet_none {t : Text} (h : NoSet t) : ∀ a b, t = a ++ b → matchAt setRe b = none := by
  intro a b e
  cases hm : matchAt setRe b with
  | none => rfl
  | some y =>
    exfalso
    obtain ⟨w, a', k, b', s, z, e', -, -, -, -, -, hs⟩ := set_shape (t := b) (by rw [hm]; simp)
    obtain ⟨c, hc, hcw⟩ := h (a ++ (w ++ (a' ++ (k ++ b')))) s z (by rw [e, e']; simp)
    have := word_not_space (wordChar_iff.2 (.inl hcw))
    rw [hs c hc] at this
    cases this

theorem findAll_noSet {t : Text} (h : NoSet t) : findAll setRe t = [] := by
  have := findAll_skip (re := setRe) (t := []) (q := t) (fun a b e _ => by
    rw [List.append_nil]; exact noSet_none h a b e)
  rw [List.append_nil] at this
  rw [this]; rfl

/-- A space among words is followed by spaces only. -/
theorem space_tail {b Z : Text} {c : Char} (hc : space c = true) (hb : ∀ d ∈ b, space d = true) :
    ∀ {k Y : Text}, (∀ d ∈ k, wordChar d = true) → k ++ b = Y ++ c :: Z → ∀ d ∈ Z, space d = true
  | [], Y, _, e => fun d hd => hb d (by
    have : d ∈ Y ++ c :: Z := by simp [hd]
    rw [← e] at this
    simpa using this)
  | x :: k, [], hk, e => by
    have : x = c := (List.cons.inj e).1
    have h1 := hk x (by simp)
    rw [this, spc_not_word hc] at h1
    cases h1
  | x :: k, y :: Y, hk, e => space_tail hc hb (fun d hd => hk d (by simp [hd])) (List.cons.inj e).2

/-- No match begins before the definition. -/
theorem set_leftmost {p d t name cls : Text} {torn : Prop} {l : List (Text × Row)} (hp : NoSet p)
    (hl : ∀ c, p.getLast? = some c → ¬ IsWord [c]) (hd : SetDef torn name cls l d) :
    ∀ x q, p = x ++ q → q ≠ [] → matchAt setRe (q ++ (d ++ t)) = none := by
  intro x q ex hq
  cases hm : matchAt setRe (q ++ (d ++ t)) with
  | none => rfl
  | some y =>
    exfalso
    obtain ⟨w, a, k, b, s, z, e, hw0, hw, ha, hk, hb, hs⟩ := set_shape (t := q ++ (d ++ t)) (by rw [hm]; simp)
    have hlast : ∀ c, q.getLast? = some c → wordChar c = false := by
      intro c hc
      have h1 : p.getLast? = some c := by rw [ex, List.getLast?_append, hc]; rfl
      have h2 := hl c h1
      cases hcw : wordChar c with
      | false => rfl
      | true => exact absurd ⟨by simp, by simpa using wordChar_iff.1 hcw⟩ h2
    have hnc : ':' ∉ w ++ (a ++ (k ++ b)) := by
      intro h
      simp only [List.mem_append] at h
      rcases h with h | h | h | h
      · exact absurd (hw _ h) (by decide)
      · exact absurd (ha _ h) (by decide)
      · exact absurd (hk _ h) (by decide)
      · exact absurd (hb _ h) (by decide)
    have e' : q ++ (d ++ t) = (w ++ (a ++ (k ++ b))) ++ ':' :: (":=".toList ++ (s ++ '{' :: z)) := by
      rw [e]; simp
    obtain ⟨h1, h2, s1, s2, s3, s4, s5, body, hss, n1, n4, n5, hbd, hbt, rfl⟩ := hd
    have g := fun s (hm : s ∈ [s1, s2, s3, s4, s5]) => gap_space (hss s hm)
    have tw : ∀ {u v : Text}, ':' ∉ u → (u ++ ':' :: v).takeWhile (· != ':') = u := fun hu =>
      takeWhile_run (fun c hc => by simpa using fun h : c = ':' => hu (h ▸ hc)) (headNot_cons.2 (by decide))
    by_cases hc : ':' ∈ q
    · -- `::=` begins in `q`: so does the brace
      have hM : ∀ c ∈ "::=".toList ++ (s ++ ['{']), wordChar c = false := by
        intro c hc
        simp only [List.mem_append, List.mem_singleton] at hc
        rcases hc with hc | hc | hc
        · exact (by decide : ∀ c ∈ "::=".toList, wordChar c = false) c hc
        · exact spc_not_word (hs c hc)
        · subst hc; decide
      have fin : ∀ u cs, q = u ++ (("::=".toList ++ (s ++ ['{'])) ++ cs) → False := by
        intro u cs hu
        obtain ⟨c, hc, hcw⟩ := hp (x ++ u) s cs (by rw [ex, hu]; simp)
        have := word_not_space (wordChar_iff.2 (.inl hcw))
        rw [hs c hc] at this
        cases this
      rcases List.append_eq_append_iff.1 e' with ⟨as, g1, g2⟩ | ⟨as, g1, g2⟩
      · exact hnc (by rw [g1]; simp [hc])
      · have g3 : ("::=".toList ++ (s ++ ['{'])) ++ z = as ++ (name ++ (s1 ++ (cls ++ (s2 ++ ("::=".toList ++ (s3 ++ ('{' ::
            (s4 ++ (body ++ (s5 ++ "}\n".toList))))))))) ++ t) := by rw [← g2]; simp
        rcases List.append_eq_append_iff.1 g3 with ⟨cs, f1, f2⟩ | ⟨cs, f1, f2⟩
        · exact fin _ cs (by rw [g1, f1])
        · cases cs with
          | nil => exact fin (w ++ (a ++ (k ++ b))) [] (by rw [g1, f1, List.append_nil, List.append_nil])
          | cons c cs =>
            cases hnm : name with
            | nil => exact h1.1 hnm
            | cons f r =>
              rw [hnm] at f2
              have h3 : f = c := (List.cons.inj f2).1
              have h4 := hM c (by rw [f1]; simp)
              rw [← h3, isWord_all h1 f (by rw [hnm]; simp)] at h4
              cases h4
    · -- all of `q`, the name and the class would be two words
      have hn2 : ':' ∉ q ++ (name ++ (s1 ++ (cls ++ s2))) := by
        intro h
        simp only [List.mem_append] at h
        rcases h with h | h | h | h | h
        · exact hc h
        · exact absurd (isWord_all h1 _ h) (by decide)
        · exact absurd (g s1 (by simp) _ h) (by decide)
        · exact absurd (isClass_all h2 _ h) (by decide)
        · exact absurd (g s2 (by simp) _ h) (by decide)
      have hE : q ++ (name ++ (s1 ++ (cls ++ s2))) = w ++ (a ++ (k ++ b)) := by
        have := congrArg (List.takeWhile (· != ':')) e'
        rw [tw hnc] at this
        rw [← this]
        have e2 : q ++ ((name ++ (s1 ++ (cls ++ (s2 ++ ("::=".toList ++ (s3 ++ ('{' :: (s4 ++ (body ++ (s5 ++ "}\n".toList))))))))))
            ++ t) = (q ++ (name ++ (s1 ++ (cls ++ s2)))) ++ ':' :: (":=".toList ++ (s3 ++ ('{' :: (s4 ++ (body ++ (s5 ++ "}\n".toList)))))
            ++ t) := by simp
        rw [e2, tw hn2]
      -- the word of the class follows a space, but there is none behind the second word
      have fin : ∀ Y, k ++ b = Y ++ (s1 ++ (cls ++ s2)) → False := by
        intro Y hY
        cases hs1 : s1 with
        | nil => exact n1 hs1
        | cons c s1' =>
          rw [hs1] at hY
          have hsp := space_tail (c := c) (Z := s1' ++ (cls ++ s2)) (g s1 (by simp) c (by rw [hs1]; simp)) hb hk hY
          cases hcl : cls with
          | nil => exact h2.1 hcl
          | cons f r =>
            have h3 := hsp f (by rw [hcl]; simp)
            rw [word_not_space (class_word (isClass_all h2 f (by rw [hcl]; simp)))] at h3
            cases h3
      rcases List.append_eq_append_iff.1 hE with ⟨as, g1, g2⟩ | ⟨as, g1, g2⟩
      · -- `q` inside of the first word
        cases hql : q.getLast? with
        | none => exact hq (List.getLast?_eq_none_iff.1 hql)
        | some c =>
          have h3 := hw c (by rw [g1]; simp [List.mem_of_getLast? hql])
          rw [hlast c hql] at h3
          cases h3
      · rcases List.append_eq_append_iff.1 g2 with ⟨cs, f1, f2⟩ | ⟨cs, f1, f2⟩
        · exact fin (cs ++ name) (by rw [f2]; simp)
        · cases cs with
          | nil => exact fin name (by simpa using f2.symm)
          | cons c cs =>
            cases hnm : name with
            | nil => exact h1.1 hnm
            | cons f r =>
              rw [hnm] at f2
              have h3 : f = c := (List.cons.inj f2).1
              have h4 := ha c (by rw [f1]; simp)
              rw [← h3, word_not_space (isWord_all h1 f (by rw [hnm]; simp))] at h4
              cases h4

/-! ## The module -/

theorem isExtension_iff {t : Text} : isExtension t = true ↔ "EXTENSION".toList <:+: t := by
  induction t with
  | nil => decide
  | cons c t ih =>
    rw [isExtension, Bool.or_eq_true, ih, List.isPrefixOf_iff_prefix, List.infix_cons_iff]

theorem assign_new {d : List (Text × List Row)} {key : Text} {v : List Row} (h : key ∉ d.map (·.1)) :
    assign d key v = d ++ [(key, v)] := by
  unfold assign
  rw [if_neg]
  intro hc
  obtain ⟨e, he, hk⟩ := List.any_eq_true.1 hc
  exact h (List.mem_map.2 ⟨e, he, of_decide_eq_true hk⟩)

theorem module_mono {torn : Prop} {m : List (Text × Text × List (Text × Row))} {t : Text} (h : Module False m t) :
    Module torn m t := by
  induction h with
  | rest h => exact .rest h
  | set hp hl hd ht _ ih =>
    obtain ⟨h1, h2, s1, s2, s3, s4, s5, body, hs, n1, n4, n5, hb, h⟩ := hd
    exact .set hp hl ⟨h1, h2, s1, s2, s3, s4, s5, body, hs, n1, n4, n5, body_mono hb, h⟩ ht ih

theorem fold_module {torn : Prop} {m : List (Text × Text × List (Text × Row))} {t : Text} (h : Module torn m t) :
    ∀ d : List (Text × List Row), (d.map (·.1) ++ m.map (·.1)).Nodup →
      (findAll setRe t).foldl addSet d = d ++ tables oneLine m := by
  induction h with
  | rest ht => intro d _; rw [findAll_noSet ht]; exact (List.append_nil d).symm
  | @set p dd t name cls l m hp hl hd ht _ ih =>
    intro d hn
    obtain ⟨body, hb, hm⟩ := set_match hd ht
    rw [findAll_skip (set_leftmost hp hl hd), findAll_some solid_setRe hm, List.foldl_cons]
    simp only [addSet, rows_body hb]
    have e1 : tables oneLine ((name, cls, l) :: m) =
        (if "EXTENSION".toList <:+: cls ∨ oneLine l = [] then [] else [(name, oneLine l)]) ++ tables oneLine m := by
      unfold tables
      rw [List.filterMap_cons]
      by_cases h : "EXTENSION".toList <:+: cls ∨ oneLine l = []
      · simp only [if_pos h]; rfl
      · simp only [if_neg h]; rfl
    have hn1 : (d.map (·.1) ++ m.map (·.1)).Nodup := hn.sublist (by simp)
    rw [e1]
    by_cases hx : "EXTENSION".toList <:+: cls
    · rw [if_pos (isExtension_iff.2 hx), if_pos (.inl hx), ih d hn1]; rfl
    · rw [if_neg (fun h => hx (isExtension_iff.1 h))]
      by_cases h0 : oneLine l = []
      · rw [if_pos h0, if_pos (.inr h0), ih d hn1]; rfl
      · rw [if_neg h0, if_neg (by simp only [not_or]; exact ⟨hx, h0⟩), assign_new, ih, List.append_assoc]
        · simpa using hn
        · intro hc
          exact (List.nodup_append.1 hn).2.2 _ hc name (by simp) rfl

/-! ## Comments -/

theorem cut_none {l : Text} (h : ¬ "--".toList <:+: l) : cut l = l := by
  induction l with
  | nil => rfl
  | cons c l ih =>
    rw [cut, if_neg, ih]
    · intro hc
      exact h (List.infix_cons_iff.2 (.inr hc))
    · rintro ⟨rfl, h2⟩
      cases l with
      | nil => cases h2
      | cons d l =>
        cases h2
        exact h ⟨[], l, rfl⟩

theorem cut_comment {a b : Text} (h : ¬ "--".toList <:+: a ++ ['-']) : cut (a ++ ("--".toList ++ b)) = a := by
  induction a with
  | nil => rfl
  | cons c a ih =>
    show cut (c :: (a ++ ("--".toList ++ b))) = _
    rw [cut, if_neg, ih]
    · intro hc
      exact h (List.infix_cons_iff.2 (.inr hc))
    · rintro ⟨rfl, h2⟩
      cases a with
      | nil => exact h ⟨[], [], rfl⟩
      | cons d a =>
        cases h2
        exact h ⟨[], a ++ ['-'], rfl⟩

theorem cut_line {l t : Text} (h : Line l t) : (cut l).filter (· ≠ '\r') = t := by
  rcases h with ⟨h1, rfl⟩ | ⟨a, b, rfl, h1, rfl⟩
  · rw [cut_none h1]
  · rw [cut_comment h1]

theorem source_read {ls : List Text} {t : Text} (h : Read ls t) : source ls = t := by
  induction h with
  | nil => rfl
  | line hl _ ih =>
    unfold source at ih ⊢
    rw [List.flatMap_cons, ih, cut_line hl]

theorem cut_total : ∀ l : Text, ("--".toList <:+: l → ∃ b, l = cut l ++ ("--".toList ++ b) ∧ ¬ "--".toList <:+: cut l ++ ['-'])
  | [] => fun h => absurd h (by decide)
  | c :: l => fun h => by
    rw [cut]
    split
    · rename_i hc
      obtain ⟨rfl, h2⟩ := hc
      cases l with
      | nil => cases h2
      | cons d l => cases h2; exact ⟨l, rfl, by decide⟩
    · rename_i hc
      have hl : "--".toList <:+: l := by
        rcases List.infix_cons_iff.1 h with h | h
        · obtain ⟨r, hr⟩ := h
          cases hr
          exact absurd ⟨rfl, rfl⟩ hc
        · exact h
      obtain ⟨b, e, hb⟩ := cut_total l hl
      refine ⟨b, by rw [List.cons_append, ← e], fun hi => ?_⟩
      rcases List.infix_cons_iff.1 hi with h3 | h3
      · obtain ⟨r, hr⟩ := h3
        have h4 : '-' = c ∧ ('-' :: r : Text) = cut l ++ ['-'] := List.cons.inj hr
        refine hc ⟨h4.1.symm, ?_⟩
        rw [e]
        cases hq : cut l with
        | nil => rfl
        | cons f q =>
          rw [hq] at h4
          rw [← (List.cons.inj h4.2).1]; rfl
      · exact hb h3

theorem read_total (ls : List Text) : ∃ t, Read ls t := by
  induction ls with
  | nil => exact ⟨[], .nil⟩
  | cons l ls ih =>
    obtain ⟨t, ht⟩ := ih
    by_cases h : "--".toList <:+: l
    · obtain ⟨b, e, hb⟩ := cut_total l h
      exact ⟨_, .line (.inr ⟨_, b, e, hb, rfl⟩) ht⟩
    · exact ⟨_, .line (.inl ⟨h, rfl⟩) ht⟩

end Verif.AsnToStruct
