import Verif.Spec.CauseStr
import Verif.Proofs.CauseTables

/-!
# Cause strings (C61, C69)
-/

namespace Verif.Props
open Verif.CauseStr Verif.CauseStr.Spec Verif.Gen.Causes

namespace CauseStr

theorem ranap_shows {p : Nat} {name : String} {t : Names} (h : (p, name, t) ∈ ranapGroups.rows) (v : Int) :
    Shows ranapCauseStr 128 ⟨p, v⟩ (ranapGroups.text name t v) := by
  intro buf hb
  have := ranapGroups.puts ranap_good h hb v
  simp only [ranapGroups, List.mem_cons, List.not_mem_nil, or_false, Prod.mk.injEq] at h
  rcases h with ⟨rfl, rfl, rfl⟩ | ⟨rfl, rfl, rfl⟩ | ⟨rfl, rfl, rfl⟩ | ⟨rfl, rfl, rfl⟩ | ⟨rfl, rfl, rfl⟩ <;> exact this

theorem rua_shows {p : Nat} {name : String} {t : Names} (h : (p, name, t) ∈ ruaGroups.rows) (v : Int) :
    Shows ruaCauseStr 32 ⟨p, v⟩ (ruaGroups.text name t v) := by
  intro buf hb
  have := ruaGroups.puts rua_good h hb v
  simp only [ruaGroups, List.mem_cons, List.not_mem_nil, or_false, Prod.mk.injEq] at h
  rcases h with ⟨rfl, rfl, rfl⟩ | ⟨rfl, rfl, rfl⟩ | ⟨rfl, rfl, rfl⟩ | ⟨rfl, rfl, rfl⟩ <;> exact this

theorem hnbap_shows {p : Nat} {name : String} {t : Names} (h : (p, name, t) ∈ hnbapGroups.rows) (v : Int) :
    Shows hnbapCauseStr 32 ⟨p, v⟩ (hnbapGroups.text name t v) := by
  intro buf hb
  have := hnbapGroups.puts hnbap_good h hb v
  simp only [hnbapGroups, List.mem_cons, List.not_mem_nil, or_false, Prod.mk.injEq] at h
  rcases h with ⟨rfl, rfl, rfl⟩ | ⟨rfl, rfl, rfl⟩ | ⟨rfl, rfl, rfl⟩ | ⟨rfl, rfl, rfl⟩ <;> exact this

theorem shows_unique {f : List Char → Verif.CauseStr.Cause → Res (List Char)} {n : Nat} {c : Verif.CauseStr.Cause}
    {s s' : List Char} (h : Shows f n c s) (h' : Shows f n c s') : s = s' := by
  obtain ⟨b, h1, -, -, h2⟩ := h (List.replicate n 'x') (by simp)
  obtain ⟨b', h1', -, -, h2'⟩ := h' (List.replicate n 'x') (by simp)
  rw [h1] at h1'
  cases h1'
  rw [← h2, h2']

theorem four {g : Groups} (h : ∃ a b c d : String × Names, g.rows = [(1, a), (2, b), (3, c), (4, d)]) {p : Nat}
    (h1 : 1 ≤ p) (h4 : p ≤ 4) : ∃ name t, (p, name, t) ∈ g.rows := by
  obtain ⟨a, b, c, d, h⟩ := h
  rw [h]
  have : p = 1 ∨ p = 2 ∨ p = 3 ∨ p = 4 := by omega
  rcases this with rfl | rfl | rfl | rfl
  · exact ⟨a.1, a.2, by simp⟩
  · exact ⟨b.1, b.2, by simp⟩
  · exact ⟨c.1, c.2, by simp⟩
  · exact ⟨d.1, d.2, by simp⟩

theorem row_eq {g : Groups} (h : (g.rows.map (·.1)).Nodup) {p : Nat} {a b : String × Names} (ha : (p, a) ∈ g.rows)
    (hb : (p, b) ∈ g.rows) : a = b := by
  obtain ⟨i, hi⟩ := List.mem_iff_getElem?.1 ha
  obtain ⟨j, hj⟩ := List.mem_iff_getElem?.1 hb
  obtain ⟨hi', ei⟩ := List.getElem?_eq_some_iff.1 hi
  obtain ⟨hj', ej⟩ := List.getElem?_eq_some_iff.1 hj
  have : i = j := by
    refine (List.getElem_inj (h₀ := by simpa using hi') (h₁ := by simpa using hj') h).1 ?_
    simp only [List.getElem_map, ei, ej]
  subst this
  rw [ei] at ej
  exact (Prod.mk.inj ej).2

/-- Equal texts of two causes in the same groups. -/
theorem same_text {g : Groups} (hg : g.good = true) (hn : (g.rows.map (·.1)).Nodup) {e : Nat → Nat → Nat → Bool}
    (hd : (g.rows.all fun r => distinct r.2.2 (g.size - 1 - (r.2.1.toList.length + 1)) (e r.1)) = true)
    {p p' : Nat} {name name' : String} {t t' : Names} (h : (p, name, t) ∈ g.rows) (h' : (p', name', t') ∈ g.rows)
    {v v' : Int} (hv : IsU32 v) (hv' : IsU32 v') (he : g.text name t v = g.text name' t' v') :
    p = p' ∧ (v = v' ∨ e p v.toNat v'.toNat = true) := by
  obtain ⟨rfl, -, h3⟩ := g.text_inj hg h h' he
  cases row_eq hn h h'
  obtain ⟨h4, -⟩ := g.facts hg h
  have := shown_inj (by simp only; omega) (List.all_eq_true.1 hd _ h) h3
  rw [Int.emod_eq_of_lt hv.1 hv.2, Int.emod_eq_of_lt hv'.1 hv'.2] at this
  exact ⟨rfl, this⟩

end CauseStr

open CauseStr

/-! ## C61: within the buffer -/

/-- **C61.** `ranap_cause_str` stays within its buffer of 128 characters and leaves a terminated string
there which depends on the cause only. -/
theorem C61_ranap_fits (c : Verif.CauseStr.Cause) : ∃ s, Shows ranapCauseStr 128 c s := by
  obtain ⟨p, v⟩ := c
  by_cases h : 1 ≤ p ∧ p ≤ 5
  · have : p = 1 ∨ p = 2 ∨ p = 3 ∨ p = 4 ∨ p = 5 := by omega
    rcases this with rfl | rfl | rfl | rfl | rfl
    · exact ⟨_, ranap_shows (List.mem_iff_getElem?.2 ⟨0, rfl⟩) v⟩
    · exact ⟨_, ranap_shows (List.mem_iff_getElem?.2 ⟨1, rfl⟩) v⟩
    · exact ⟨_, ranap_shows (List.mem_iff_getElem?.2 ⟨2, rfl⟩) v⟩
    · exact ⟨_, ranap_shows (List.mem_iff_getElem?.2 ⟨3, rfl⟩) v⟩
    · exact ⟨_, ranap_shows (List.mem_iff_getElem?.2 ⟨4, rfl⟩) v⟩
  · by_cases h6 : p = 6
    · subst h6
      exact ⟨_, fun buf hb => puts_group hb (by decide) (by decide) (decimal_plain v)⟩
    · refine ⟨"unknown".toList, fun buf hb => ?_⟩
      have : ranapCauseStr buf ⟨p, v⟩ = strcpy buf "unknown".toList := by
        unfold ranapCauseStr
        split <;> first | rfl | (simp at *; omega)
      rw [this]
      obtain ⟨b, h1, h2, h3, h4⟩ := strcpy_ok (buf := buf) (s := "unknown".toList) (by rw [hb]; decide)
      exact ⟨b, h1, h2.trans hb, h3, h4 (by decide)⟩

/-- **C61.** `rua_cause_str` stays within its buffer of 32 characters. -/
theorem C61_rua_fits (c : Verif.CauseStr.Cause) : ∃ s, Shows ruaCauseStr 32 c s := by
  obtain ⟨p, v⟩ := c
  by_cases h : 1 ≤ p ∧ p ≤ 4
  · obtain ⟨name, t, h⟩ := four (g := ruaGroups) ⟨_, _, _, _, rfl⟩ h.1 h.2
    exact ⟨_, rua_shows h v⟩
  · refine ⟨"unknown".toList, fun buf hb => ?_⟩
    have : ruaCauseStr buf ⟨p, v⟩ = strcpy buf "unknown".toList := by
      unfold ruaCauseStr
      split <;> first | rfl | (simp at *; omega)
    rw [this]
    obtain ⟨b, h1, h2, h3, h4⟩ := strcpy_ok (buf := buf) (s := "unknown".toList) (by rw [hb]; decide)
    exact ⟨b, h1, h2.trans hb, h3, h4 (by decide)⟩

/-- **C61.** `hnbap_cause_str` stays within its buffer of 32 characters; for a cause group that it does not
know it returns the string of the call before. -/
theorem C61_hnbap_fits (c : Verif.CauseStr.Cause) :
    (c.present ≤ 4 → ∃ s, Shows hnbapCauseStr 32 c s) ∧ (4 < c.present → ∀ buf, hnbapCauseStr buf c = .ok buf) := by
  obtain ⟨p, v⟩ := c
  constructor
  · intro h
    by_cases h0 : p = 0
    · subst h0
      refine ⟨"NOTHING".toList, fun buf hb => ?_⟩
      obtain ⟨b, h1, h2, h3, h4⟩ := snprintf_ok (by decide) hb "NOTHING".toList
      exact ⟨b, h1, h2, h3, (h4 (by decide)).trans (by decide)⟩
    · obtain ⟨name, t, h⟩ := four (g := hnbapGroups) ⟨_, _, _, _, rfl⟩ (p := p) (by omega) h
      exact ⟨_, hnbap_shows h v⟩
  · intro h buf
    unfold hnbapCauseStr
    split <;> first | rfl | (simp at *; omega)

/-! ## C61: different causes, different strings -/

/-- **C61 as stated**, second part: different known causes are shown differently. -/
def C61_full : Prop :=
  (∀ c c' s, ranapKnown c → ranapKnown c' → Shows ranapCauseStr 128 c s → Shows ranapCauseStr 128 c' s → c = c') ∧
  (∀ c c' s, ruaKnown c → ruaKnown c' → Shows ruaCauseStr 32 c s → Shows ruaCauseStr 32 c' s → c = c') ∧
  (∀ c c' s, hnbapKnown c → hnbapKnown c' → Shows hnbapCauseStr 32 c s → Shows hnbapCauseStr 32 c' s → c = c')

/-- **C61, RANAP**: causes of different groups or with different values are shown differently, be they known
or not.  (Groups: 1 radio network to 5 miscellaneous, 6 non-standard.) -/
theorem C61_ranap_partial (c c' : Verif.CauseStr.Cause) (s : List Char) (h : 1 ≤ c.present ∧ c.present ≤ 6)
    (h' : 1 ≤ c'.present ∧ c'.present ≤ 6) (hv : if c.present = 6 then IsLong c.value else IsU32 c.value)
    (hv' : if c'.present = 6 then IsLong c'.value else IsU32 c'.value)
    (hs : Shows ranapCauseStr 128 c s) (hs' : Shows ranapCauseStr 128 c' s) : c = c' := by
  have row : ∀ {p : Nat}, 1 ≤ p → p ≤ 5 → ∃ name t, (p, name, t) ∈ ranapGroups.rows := by
    intro p h1 h5
    have : p = 1 ∨ p = 2 ∨ p = 3 ∨ p = 4 ∨ p = 5 := by omega
    rcases this with rfl | rfl | rfl | rfl | rfl
    · exact ⟨_, _, List.mem_iff_getElem?.2 ⟨0, rfl⟩⟩
    · exact ⟨_, _, List.mem_iff_getElem?.2 ⟨1, rfl⟩⟩
    · exact ⟨_, _, List.mem_iff_getElem?.2 ⟨2, rfl⟩⟩
    · exact ⟨_, _, List.mem_iff_getElem?.2 ⟨3, rfl⟩⟩
    · exact ⟨_, _, List.mem_iff_getElem?.2 ⟨4, rfl⟩⟩
  have six : ∀ v : Int, Shows ranapCauseStr 128 ⟨6, v⟩ ("non-standard".toList ++ '(' :: (decimal v ++ [')']).take 114) :=
    fun v buf hb => puts_group hb (by decide) (by decide) (decimal_plain v)
  have other : ∀ {p : Nat} {name : String} {t : Names} {v w : Int}, (p, name, t) ∈ ranapGroups.rows →
      Shows ranapCauseStr 128 ⟨p, v⟩ s → Shows ranapCauseStr 128 ⟨6, w⟩ s → False := by
    intro p name t v w hr h1 h2
    have e := (shows_unique h1 (ranap_shows hr v)).symm.trans (shows_unique h2 (six w))
    obtain ⟨-, -, h3, -⟩ := ranapGroups.facts ranap_good hr
    have e1 := (group_name h3 (by decide) e).1
    have : ∀ r ∈ ranapGroups.rows, r.2.1.toList ≠ "non-standard".toList := by decide +kernel
    exact this _ hr e1
  obtain ⟨p, v⟩ := c
  obtain ⟨p', v'⟩ := c'
  simp only at h h' hv hv'
  by_cases h6 : p = 6
  · subst h6
    by_cases h6' : p' = 6
    · subst h6'
      have e := (shows_unique hs (six v)).symm.trans (shows_unique hs' (six v'))
      have e := (group_name (by decide) (by decide) e).2
      rw [if_pos rfl] at hv hv'
      have l1 := decimal_length hv.1 hv.2
      have l2 := decimal_length hv'.1 hv'.2
      rw [List.take_of_length_le (by simp; omega), List.take_of_length_le (by simp; omega)] at e
      rw [decimal_inj (List.append_cancel_right e)]
    · obtain ⟨name, t, hr⟩ := row h'.1 (by omega)
      exact (other hr hs' hs).elim
  · obtain ⟨name, t, hr⟩ := row h.1 (by omega)
    by_cases h6' : p' = 6
    · subst h6'
      exact (other hr hs hs').elim
    · obtain ⟨name', t', hr'⟩ := row h'.1 (by omega)
      have e := (shows_unique hs (ranap_shows hr v)).symm.trans (shows_unique hs' (ranap_shows hr' v'))
      obtain ⟨rfl, e2⟩ := same_text (e := fun _ => noPair) ranap_good (by decide) ranap_distinct hr hr' (by rwa [if_neg h6] at hv)
        (by rwa [if_neg h6'] at hv') e
      simp only [noPair, Bool.false_eq_true, or_false] at e2
      rw [e2]

/-- **C61, RANAP**: a known cause is shown as group and name. -/
theorem C61_ranap_text {p : Nat} {name : String} {t : Names} (h : (p, name, t) ∈
      [(1, "radio", ranapRadio), (2, "transmission", ranapTransm), (3, "nas", ranapNas), (4, "protocol", ranapProt),
        (5, "misc", ranapMisc)]) {n : Nat} {s : List Char} (hn : (n, s) ∈ t) :
    Shows ranapCauseStr 128 ⟨p, n⟩ (name.toList ++ ['('] ++ s ++ [')']) := by
  have e := ranap_shows h n
  have := List.all_eq_true.1 (List.all_eq_true.1 ranap_shown _ h) _ hn
  simp only [beq_iff_eq] at this
  unfold Groups.text at e
  rw [this] at e
  simpa using e

example : Shows ranapCauseStr 128 ⟨1, 46⟩ "radio(radio connection with UE lost)".toList := by
  have h := ranap_shows (p := 1) (List.mem_iff_getElem?.2 ⟨0, rfl⟩) 46
  have e : ranapGroups.text "radio" ranapRadio 46 = "radio(radio connection with UE lost)".toList := by decide +kernel
  exact e ▸ h

/-- The same for RUA and HNBAP: what coincides. -/
theorem four_iff {f : List Char → Verif.CauseStr.Cause → Res (List Char)} {g : Groups} (hg : g.good = true)
    (h4 : ∃ a b c d : String × Names, g.rows = [(1, a), (2, b), (3, c), (4, d)])
    (hd : (g.rows.all fun r => distinct r.2.2 (g.size - 1 - (r.2.1.toList.length + 1)) (fun a b => r.1 == 3 && synPair a b)) = true)
    (hf : ∀ {p : Nat} {name : String} {t : Names}, (p, name, t) ∈ g.rows → ∀ v, Shows f 32 ⟨p, v⟩ (g.text name t v))
    (hsyn : ∀ name t, (3, name, t) ∈ g.rows → g.text name t 1 = g.text name t 2)
    (c c' : Verif.CauseStr.Cause) (h : 1 ≤ c.present ∧ c.present ≤ 4) (h' : 1 ≤ c'.present ∧ c'.present ≤ 4)
    (hv : IsU32 c.value) (hv' : IsU32 c'.value) :
    (∃ s, Shows f 32 c s ∧ Shows f 32 c' s) ↔ (c = c' ∨ AbstractSyntaxError c ∧ AbstractSyntaxError c') := by
  obtain ⟨p, v⟩ := c
  obtain ⟨p', v'⟩ := c'
  simp only at h h' hv hv'
  obtain ⟨name, t, hr⟩ := four h4 h.1 h.2
  obtain ⟨name', t', hr'⟩ := four h4 h'.1 h'.2
  have hn : (g.rows.map (·.1)).Nodup := by
    obtain ⟨a, b, c, d, e⟩ := h4
    rw [e]
    simp
  constructor
  · rintro ⟨s, hs, hs'⟩
    have e := (shows_unique hs (hf hr v)).symm.trans (shows_unique hs' (hf hr' v'))
    obtain ⟨rfl, e2⟩ := same_text (e := fun p a b => p == 3 && synPair a b) hg hn hd hr hr' hv hv' e
    rcases e2 with rfl | e2
    · exact .inl rfl
    · simp only [synPair, Bool.and_eq_true, beq_iff_eq, Bool.or_eq_true] at e2
      have := hv.1
      have := hv'.1
      exact .inr ⟨⟨e2.1, by simp only; omega⟩, e2.1, by simp only; omega⟩
  · rintro (e | ⟨⟨e1, e2⟩, e3, e4⟩)
    · cases e
      exact ⟨_, hf hr v, hf hr v⟩
    · simp only at e1 e2 e3 e4
      subst e1 e3
      cases row_eq hn hr hr'
      have e := hsyn name t hr
      refine ⟨_, hf hr v, ?_⟩
      have : g.text name t v = g.text name t v' := by
        rcases e2 with rfl | rfl <;> rcases e4 with rfl | rfl <;> first | rfl | exact e | exact e.symm
      rw [this]
      exact hf hr v'

/-- **C61, RUA, exactly.** Two causes are shown as the same string iff they are the same or both are an
abstract syntax error (reject; ignore and notify), the names of which are cut off. -/
theorem C61_rua_iff (c c' : Verif.CauseStr.Cause) (h : 1 ≤ c.present ∧ c.present ≤ 4)
    (h' : 1 ≤ c'.present ∧ c'.present ≤ 4) (hv : IsU32 c.value) (hv' : IsU32 c'.value) :
    (∃ s, Shows ruaCauseStr 32 c s ∧ Shows ruaCauseStr 32 c' s) ↔
      (c = c' ∨ AbstractSyntaxError c ∧ AbstractSyntaxError c') := by
  refine four_iff rua_good ⟨_, _, _, _, rfl⟩ rua_distinct rua_shows (fun name t hr => ?_) c c' h h' hv hv'
  cases row_eq (by decide) hr (List.mem_iff_getElem?.2 ⟨2, rfl⟩ : (3, "protocol", ruaProt) ∈ ruaGroups.rows)
  decide +kernel

/-- **C61, HNBAP, exactly.** The same. -/
theorem C61_hnbap_iff (c c' : Verif.CauseStr.Cause) (h : 1 ≤ c.present ∧ c.present ≤ 4)
    (h' : 1 ≤ c'.present ∧ c'.present ≤ 4) (hv : IsU32 c.value) (hv' : IsU32 c'.value) :
    (∃ s, Shows hnbapCauseStr 32 c s ∧ Shows hnbapCauseStr 32 c' s) ↔
      (c = c' ∨ AbstractSyntaxError c ∧ AbstractSyntaxError c') := by
  refine four_iff hnbap_good ⟨_, _, _, _, rfl⟩ hnbap_distinct hnbap_shows (fun name t hr => ?_) c c' h h' hv hv'
  cases row_eq (by decide) hr (List.mem_iff_getElem?.2 ⟨2, rfl⟩ : (3, "protocol", hnbapProt) ∈ hnbapGroups.rows)
  decide +kernel

/-- A known transport cause and an unknown one. -/
example : IsU32 0 ∧ IsU32 77 := by decide

/-- **C61 is false** as stated. -/
theorem C61_violated : ¬ C61_full := by
  rintro ⟨-, h, -⟩
  obtain ⟨s, h1, h2⟩ := (C61_rua_iff ⟨3, 1⟩ ⟨3, 2⟩ (by decide) (by decide) (by decide) (by decide)).2
    (.inr ⟨⟨rfl, .inl rfl⟩, rfl, .inr rfl⟩)
  have := h ⟨3, 1⟩ ⟨3, 2⟩ s ⟨1, rfl, by decide⟩ ⟨2, rfl, by decide⟩ h1 h2
  cases this

/-! ## C69: every value has a name -/

/-- The value has a row in the table. -/
def Named (t : Names) (n : Nat) : Prop := ∃ s, (n, s) ∈ t

/-- **C69 as stated.** Every cause and procedure code that the protocols define has a name. -/
def C69_full : Prop :=
  ∀ x ∈ [(ranapRadio, ranapRadioAll), (ranapTransm, ranapTransmAll), (ranapNas, ranapNasAll), (ranapProt, ranapProtAll),
      (ranapMisc, ranapMiscAll), (ranapProcedures, ranapProceduresAll), (ruaRadio, ruaRadioAll), (ruaTransp, ruaTranspAll),
      (ruaProt, ruaProtAll), (ruaMisc, ruaMiscAll), (hnbapRadio, hnbapRadioAll), (hnbapTransp, hnbapTranspAll),
      (hnbapProt, hnbapProtAll), (hnbapMisc, hnbapMiscAll), (sabpCauses, sabpCausesAll),
      (sabpProcedures, sabpProceduresAll)], ∀ n ∈ x.2, Named x.1 n

theorem named_iff {t : Names} {n : Nat} : Named t n ↔ n ∈ t.map (·.1) := by
  unfold Named
  simp

/-- **C69 is false**: two radio network causes of HNBAP have no name. -/
theorem C69_violated : ¬ C69_full := by
  intro h
  have := h (hnbapRadio, hnbapRadioAll) (by simp) 14 (by decide)
  rw [named_iff] at this
  revert this
  decide +kernel

/-- **C69, exactly**: everything else has one. -/
theorem C69_all_but_two_partial :
    (∀ x ∈ [(ranapRadio, ranapRadioAll), (ranapTransm, ranapTransmAll), (ranapNas, ranapNasAll), (ranapProt, ranapProtAll),
      (ranapMisc, ranapMiscAll), (ranapProcedures, ranapProceduresAll), (ruaRadio, ruaRadioAll), (ruaTransp, ruaTranspAll),
      (ruaProt, ruaProtAll), (ruaMisc, ruaMiscAll), (hnbapTransp, hnbapTranspAll),
      (hnbapProt, hnbapProtAll), (hnbapMisc, hnbapMiscAll), (sabpCauses, sabpCausesAll),
      (sabpProcedures, sabpProceduresAll)], ∀ n ∈ x.2, Named x.1 n) ∧
    ∀ n ∈ hnbapRadioAll, (Named hnbapRadio n ↔ n ≠ 14 ∧ n ≠ 15) := by
  simp only [named_iff]
  decide +kernel

end Verif.Props
