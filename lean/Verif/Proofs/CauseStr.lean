import Verif.Model.CauseStr

/-! Cause strings. -/

namespace Verif.CauseStr
open Verif.Gen.Causes

theorem write_ok {buf s : List Char} (h : s.length ≤ buf.length) : ∃ b, write buf s = .ok b ∧ b.length = buf.length ∧ s <+: b := by
  refine ⟨s ++ buf.drop s.length, by rw [write, if_pos h], ?_, List.prefix_append _ _⟩
  rw [List.length_append, List.length_drop]
  omega

theorem text_write {b s : List Char} (h : s ++ ['\x00'] <+: b) (hs : '\x00' ∉ s) : text b = s := by
  obtain ⟨r, rfl⟩ := h
  unfold text
  have : ∀ x ∈ s, (x != '\x00') = true := by
    intro x hx
    rw [bne_iff_ne]
    rintro rfl
    exact hs hx
  rw [List.append_assoc, List.takeWhile_append_of_pos this]
  simp

theorem snprintf_ok {buf : List Char} {n : Nat} (hn : 0 < n) (h : buf.length = n) (s : List Char) :
    ∃ b, snprintf buf n s = .ok b ∧ b.length = n ∧ '\x00' ∈ b ∧ ('\x00' ∉ s → text b = s.take (n - 1)) := by
  obtain ⟨b, h1, h2, h3⟩ := write_ok (buf := buf) (s := s.take (n - 1) ++ ['\x00']) (by
    simp only [List.length_append, List.length_take, List.length_cons, List.length_nil]; omega)
  refine ⟨b, h1, by omega, h3.subset (by simp), fun hs => text_write h3 fun h => hs (List.mem_of_mem_take h)⟩

theorem strcpy_ok {buf s : List Char} (h : s.length < buf.length) :
    ∃ b, strcpy buf s = .ok b ∧ b.length = buf.length ∧ '\x00' ∈ b ∧ ('\x00' ∉ s → text b = s) := by
  obtain ⟨b, h1, h2, h3⟩ := write_ok (buf := buf) (s := s ++ ['\x00']) (by
    simp only [List.length_append, List.length_cons, List.length_nil]; omega)
  exact ⟨b, h1, h2, h3.subset (by simp), text_write h3⟩

/-! ## Numbers -/

theorem digitChar_inj {a b : Nat} (ha : a < 16) (hb : b < 16) (h : a.digitChar = b.digitChar) : a = b := by
  have : ∀ a : Fin 16, ∀ b : Fin 16, a.val.digitChar = b.val.digitChar → a = b := by decide
  have := this ⟨a, ha⟩ ⟨b, hb⟩ h
  simpa using congrArg Fin.val this

theorem digitChar_plain {a : Nat} (ha : a < 16) : a.digitChar ≠ '\x00' ∧ a.digitChar ≠ '-' ∧ a.digitChar ≠ ')' := by
  have : ∀ a : Fin 16, a.val.digitChar ≠ '\x00' ∧ a.val.digitChar ≠ '-' ∧ a.val.digitChar ≠ ')' := by decide
  exact this ⟨a, ha⟩

theorem toDigits_plain {b : Nat} (hb : 1 < b) (hb' : b ≤ 16) (n : Nat) :
    ∀ x ∈ Nat.toDigits b n, x ≠ '\x00' ∧ x ≠ '-' ∧ x ≠ ')' := by
  induction n using Nat.strongRecOn with
  | ind n ih =>
    rw [Nat.toDigits_eq_if hb]
    split
    · intro x hx
      simp only [List.mem_cons, List.not_mem_nil, or_false] at hx
      subst hx
      exact digitChar_plain (by omega)
    · intro x hx
      simp only [List.mem_append, List.mem_cons, List.not_mem_nil, or_false] at hx
      rcases hx with hx | rfl
      · exact ih _ (Nat.div_lt_self (by omega) hb) x hx
      · exact digitChar_plain (Nat.lt_of_lt_of_le (Nat.mod_lt _ (by omega)) hb')

theorem toDigits_inj {b : Nat} (hb : 1 < b) (hb' : b ≤ 16) {m n : Nat} (h : Nat.toDigits b m = Nat.toDigits b n) : m = n := by
  induction m using Nat.strongRecOn generalizing n with
  | ind m ih =>
    have hmm : m % b < 16 := Nat.lt_of_lt_of_le (Nat.mod_lt _ (by omega)) hb'
    have hnm : n % b < 16 := Nat.lt_of_lt_of_le (Nat.mod_lt _ (by omega)) hb'
    have pos : ∀ k, 0 < (Nat.toDigits b k).length := fun k => Nat.length_toDigits_pos
    rw [Nat.toDigits_eq_if hb, Nat.toDigits_eq_if (n := n) hb] at h
    split at h <;> split at h
    · exact digitChar_inj (by omega) (by omega) (List.cons.inj h).1
    · have := congrArg List.length h
      have := pos (n / b)
      simp only [List.length_append, List.length_cons, List.length_nil] at *
      omega
    · have := congrArg List.length h
      have := pos (m / b)
      simp only [List.length_append, List.length_cons, List.length_nil] at *
      omega
    · obtain ⟨h1, h2⟩ := List.append_inj' h rfl
      have e1 := ih _ (Nat.div_lt_self (by omega) hb) h1
      have e2 := digitChar_inj hmm hnm (List.cons.inj h2).1
      rw [← Nat.div_add_mod m b, ← Nat.div_add_mod n b, e1, e2]

theorem decimal_inj {v w : Int} (h : decimal v = decimal w) : v = w := by
  have hd : ∀ n s, Nat.toDigits 10 n ≠ '-' :: s := by
    intro n s e
    exact (toDigits_plain (b := 10) (by decide) (by decide) n '-' (by rw [e]; simp)).2.1 rfl
  unfold decimal at h
  split at h <;> split at h
  · have := toDigits_inj (b := 10) (by decide) (by decide) (List.cons.inj h).2
    omega
  · exact absurd h.symm (hd _ _)
  · exact absurd h (hd _ _)
  · have := toDigits_inj (by decide) (by decide) h
    omega

theorem decimal_length {v : Int} (h1 : -9223372036854775808 ≤ v) (h2 : v < 9223372036854775808) :
    (decimal v).length ≤ 20 := by
  have : (Nat.toDigits 10 v.natAbs).length ≤ 19 := by
    rw [Nat.length_toDigits_le_iff (by decide) (by decide)]
    omega
  unfold decimal
  rw [List.length_append]
  split <;> simp <;> omega

/-! ## Names -/

def unknownPrefix : List Char := "unknown 0x".toList

/-- What remains of a name and the closing parenthesis when `k` characters are left. -/
def shown (t : Names) (k : Nat) (v : Int) : List Char := (valueString t v ++ [')']).take k

theorem find_row {t : Names} {n : Nat} {r : Nat × List Char} (h : t.find? (·.1 == n) = some r) : r ∈ t ∧ r.1 = n :=
  ⟨List.mem_of_find?_eq_some h, by simpa using List.find?_some h⟩

theorem shown_unknown {t : Names} {k : Nat} (hk : 19 ≤ k) {v : Int}
    (h : t.find? (·.1 == (v % 4294967296).toNat) = none) :
    shown t k v = unknownPrefix ++ Nat.toDigits 16 (v % 4294967296).toNat ++ [')'] := by
  unfold shown valueString
  simp only [h]
  apply List.take_of_length_le
  have : (Nat.toDigits 16 (v % 4294967296).toNat).length ≤ 8 := by
    rw [Nat.length_toDigits_le_iff (by decide) (by decide)]
    omega
  have h10 : ("unknown 0x".toList).length = 10 := by decide
  simp only [List.length_append, List.length_cons, List.length_nil, h10]
  omega

/-- Every name in the table, cut off after `k` characters, differs from the others, up to the pairs
allowed by `e`, and from those of unknown values. -/
def distinct (t : Names) (k : Nat) (e : Nat → Nat → Bool) : Bool :=
  t.all fun r => !(unknownPrefix.isPrefixOf ((r.2 ++ [')']).take k)) &&
    t.all fun r' => r.1 == r'.1 || e r.1 r'.1 || (r.2 ++ [')']).take k != (r'.2 ++ [')']).take k

theorem shown_inj {t : Names} {k : Nat} {e : Nat → Nat → Bool} (hk : 19 ≤ k) (hd : distinct t k e = true) {v w : Int}
    (h : shown t k v = shown t k w) :
    (v % 4294967296) = (w % 4294967296) ∨ e (v % 4294967296).toNat (w % 4294967296).toNat = true := by
  have hpre : ∀ r ∈ t, ∀ s, (r.2 ++ [')']).take k ≠ unknownPrefix ++ s := by
    intro r hr s h
    have := List.all_eq_true.1 hd r hr
    rw [h] at this
    simp only [Bool.and_eq_true, Bool.not_eq_true'] at this
    rw [List.isPrefixOf_iff_prefix.2 (List.prefix_append unknownPrefix s)] at this
    cases this.1
  cases hv : t.find? (·.1 == (v % 4294967296).toNat) with
  | none =>
    cases hw : t.find? (·.1 == (w % 4294967296).toNat) with
    | none =>
      left
      rw [shown_unknown hk hv, shown_unknown hk hw] at h
      simp only [List.append_cancel_right_eq, List.append_cancel_left_eq] at h
      have := toDigits_inj (by decide) (by decide) h
      omega
    | some r =>
      rw [shown_unknown hk hv] at h
      unfold shown valueString at h
      simp only [hw] at h
      exact absurd (h.symm.trans (List.append_assoc _ _ _)) (hpre r (find_row hw).1 _)
  | some r =>
    obtain ⟨hr, hrn⟩ := find_row hv
    cases hw : t.find? (·.1 == (w % 4294967296).toNat) with
    | none =>
      rw [shown_unknown hk hw] at h
      unfold shown valueString at h
      simp only [hv] at h
      exact absurd (h.trans (List.append_assoc _ _ _)) (hpre r hr _)
    | some r' =>
      obtain ⟨hr', hrn'⟩ := find_row hw
      unfold shown valueString at h
      simp only [hv, hw] at h
      have := List.all_eq_true.1 hd r hr
      simp only [Bool.and_eq_true] at this
      have := List.all_eq_true.1 this.2 r' hr'
      simp only [h, bne_self_eq_false, Bool.or_false, Bool.or_eq_true, beq_iff_eq] at this
      rw [hrn, hrn'] at this
      rcases this with h | h
      · left; omega
      · exact .inr h

theorem valueString_plain {t : Names} (ht : t.all (fun r => r.2.all (· != '\x00')) = true) (v : Int) :
    '\x00' ∉ valueString t v := by
  unfold valueString
  simp only
  split
  · next r h =>
    intro hm
    have := List.all_eq_true.1 (List.all_eq_true.1 ht r (find_row h).1) _ hm
    simp at this
  · intro hm
    rcases List.mem_append.1 hm with h | h
    · revert h; decide
    · exact (toDigits_plain (by decide) (by decide) _ _ h).1 rfl

/-! ## Groups -/

/-- The first `k` characters of a group. -/
theorem group_take {name : String} {s : List Char} {n : Nat} (h : name.toList.length < n) :
    (group name s).take n = name.toList ++ '(' :: ((s ++ [')']).take (n - (name.toList.length + 1))) := by
  unfold group
  rw [List.take_append, List.take_of_length_le (by omega)]
  have : n - name.toList.length = (n - (name.toList.length + 1)) + 1 := by omega
  rw [this, List.take_succ_cons]

theorem group_name {a b : List Char} {s s' : List Char} (ha : '(' ∉ a) (hb : '(' ∉ b)
    (h : a ++ '(' :: s = b ++ '(' :: s') : a = b ∧ s = s' := by
  induction a generalizing b with
  | nil =>
    cases b with
    | nil => exact ⟨rfl, (List.cons.inj h).2⟩
    | cons x b => simp only [List.nil_append, List.cons_append] at h; exact absurd (List.mem_cons.2 (.inl (List.cons.inj h).1)) hb
  | cons x a ih =>
    cases b with
    | nil => simp only [List.nil_append, List.cons_append] at h; exact absurd (List.mem_cons.2 (.inl (List.cons.inj h).1.symm)) ha
    | cons y b =>
      simp only [List.cons_append] at h
      obtain ⟨rfl, h2⟩ := List.cons.inj h
      obtain ⟨rfl, h3⟩ := ih (fun hm => ha (List.mem_cons_of_mem _ hm)) (fun hm => hb (List.mem_cons_of_mem _ hm)) h2
      exact ⟨rfl, h3⟩

/-- A function on buffers that puts the beginning of a string into the buffer. -/
def Puts (r : Res (List Char)) (n : Nat) (s : List Char) : Prop :=
  ∃ b, r = .ok b ∧ b.length = n ∧ '\x00' ∈ b ∧ text b = s

theorem puts_group {buf : List Char} {n : Nat} (h : buf.length = n) {name : String} {s : List Char}
    (hn : name.toList.length < n - 1) (h0 : '\x00' ∉ name.toList) (hs : '\x00' ∉ s) :
    Puts (snprintf buf n (group name s)) n
      (name.toList ++ '(' :: ((s ++ [')']).take (n - 1 - (name.toList.length + 1)))) := by
  obtain ⟨b, h1, h2, h3, h4⟩ := snprintf_ok (by omega) h (group name s)
  refine ⟨b, h1, h2, h3, ?_⟩
  rw [h4, group_take hn]
  unfold group
  simp only [List.mem_append, List.mem_cons, List.not_mem_nil, or_false, not_or]
  exact ⟨h0, by decide, hs, by decide⟩

theorem decimal_plain (v : Int) : '\x00' ∉ decimal v := by
  unfold decimal
  intro h
  rcases List.mem_append.1 h with h | h
  · split at h
    · revert h; decide
    · cases h
  · exact (toDigits_plain (b := 10) (by decide) (by decide) _ _ h).1 rfl

/-- The names and tables of a function. -/
structure Groups where
  size : Nat
  rows : List (Nat × String × Names)

def ruaGroups : Groups := ⟨32, [(1, "radio", ruaRadio), (2, "transport", ruaTransp), (3, "protocol", ruaProt), (4, "misc", ruaMisc)]⟩
def hnbapGroups : Groups := ⟨32, [(1, "radio", hnbapRadio), (2, "transport", hnbapTransp), (3, "protocol", hnbapProt), (4, "misc", hnbapMisc)]⟩
def ranapGroups : Groups := ⟨128, [(1, "radio", ranapRadio), (2, "transmission", ranapTransm), (3, "nas", ranapNas), (4, "protocol", ranapProt), (5, "misc", ranapMisc)]⟩

/-- The names are short and plain, and different. -/
def Groups.good (g : Groups) : Bool :=
  g.rows.all fun r => decide (r.2.1.toList.length + 20 < g.size) && r.2.1.toList.all (fun x => x != '\x00' && x != '(') &&
    r.2.2.all (fun x => x.2.all (· != '\x00')) &&
    g.rows.all fun r' => r.1 == r'.1 || r.2.1.toList != r'.2.1.toList

theorem rua_good : ruaGroups.good = true := by decide +kernel
theorem hnbap_good : hnbapGroups.good = true := by decide +kernel
theorem ranap_good : ranapGroups.good = true := by decide +kernel

/-- The text of a cause in a group. -/
def Groups.text (g : Groups) (name : String) (t : Names) (v : Int) : List Char :=
  name.toList ++ '(' :: shown t (g.size - 1 - (name.toList.length + 1)) v

theorem Groups.facts {g : Groups} (hg : g.good = true) {p : Nat} {name : String} {t : Names} (h : (p, name, t) ∈ g.rows) :
    name.toList.length + 20 < g.size ∧ '\x00' ∉ name.toList ∧ '(' ∉ name.toList ∧
      t.all (fun x => x.2.all (· != '\x00')) = true := by
  have := List.all_eq_true.1 hg _ h
  simp only [Bool.and_eq_true, decide_eq_true_eq] at this
  obtain ⟨⟨⟨h1, h2⟩, h3⟩, -⟩ := this
  refine ⟨h1, fun hm => ?_, fun hm => ?_, h3⟩ <;>
  · have := List.all_eq_true.1 h2 _ hm
    simp at this

theorem Groups.puts {g : Groups} (hg : g.good = true) {p : Nat} {name : String} {t : Names} (h : (p, name, t) ∈ g.rows)
    {buf : List Char} (hb : buf.length = g.size) (v : Int) :
    Puts (snprintf buf g.size (group name (valueString t v))) g.size (g.text name t v) := by
  obtain ⟨h1, h2, -, h4⟩ := g.facts hg h
  exact puts_group hb (by omega) h2 (valueString_plain h4 v)

theorem Groups.text_inj {g : Groups} (hg : g.good = true) {p p' : Nat} {name name' : String} {t t' : Names}
    (h : (p, name, t) ∈ g.rows) (h' : (p', name', t') ∈ g.rows) {v v' : Int}
    (he : g.text name t v = g.text name' t' v') :
    p = p' ∧ name.toList = name'.toList ∧ shown t (g.size - 1 - (name.toList.length + 1)) v =
      shown t' (g.size - 1 - (name'.toList.length + 1)) v' := by
  obtain ⟨-, -, h3, -⟩ := g.facts hg h
  obtain ⟨-, -, h3', -⟩ := g.facts hg h'
  obtain ⟨e1, e2⟩ := group_name h3 h3' he
  refine ⟨?_, e1, e2⟩
  have := List.all_eq_true.1 hg _ h
  simp only [Bool.and_eq_true] at this
  have := List.all_eq_true.1 this.2 _ h'
  simp only [e1, bne_self_eq_false, Bool.or_false, beq_iff_eq] at this
  exact this

end Verif.CauseStr
