import Verif.Model.Vty

/-!
# VTY configuration round trip (C62)
-/

namespace Verif.Props
open Verif.Vty

/-- A freshly initialised process: X.213 encoding, no debug output (the defaults). -/
def fresh : Settings := ⟨some 0, 0, 0⟩

theorem words_indent (n : Nat) (l : List Char) : words (List.replicate n ' ' ++ l) = words l := by
  induction n with
  | zero => rfl
  | succ n ih =>
    rw [List.replicate_succ, List.cons_append, words, wordsFrom, if_pos rfl, if_pos rfl]
    exact ih

theorem exec_indent (n : Nat) (l : List Char) (s : Settings) : exec (List.replicate n ' ' ++ l) s = exec l s := by
  unfold exec
  simp only [words_indent]

theorem exec_enc (s : Settings) (e : Nat) (h : s.enc = some e) :
    exec "iu rab-assign-addr-enc v4raw".toList s = (.success, { s with enc := some 1 }) := by
  have hw : words "iu rab-assign-addr-enc v4raw".toList =
    ["iu".toList, "rab-assign-addr-enc".toList, "v4raw".toList] := by decide
  unfold exec
  simp only [hw]
  rw [if_neg (by decide), if_neg (by decide), if_neg (by decide), if_neg (by decide), if_neg (by decide), if_pos (by decide),
    cfgEnc, h, if_pos rfl]

theorem exec_debug (s : Settings) : exec "asn1 debug 1".toList s = (.success, { s with debug := 1 }) := by
  have hw : words "asn1 debug 1".toList = ["asn1".toList, "debug".toList, "1".toList] := by decide
  unfold exec
  simp only [hw]
  rw [if_pos (by decide)]
  rfl

theorem exec_xer (s : Settings) : exec "asn1 xer-print 1".toList s = (.success, { s with xer := 1 }) := by
  have hw : words "asn1 xer-print 1".toList = ["asn1".toList, "xer-print".toList, "1".toList] := by decide
  unfold exec
  simp only [hw]
  rw [if_neg (by decide), if_neg (by decide), if_pos (by decide)]
  rfl

/-- Settings that commands can produce. -/
def Plain (s : Settings) : Prop := (s.enc = some 0 ∨ s.enc = some 1) ∧ (s.debug = 0 ∨ s.debug = 1) ∧ (s.xer = 0 ∨ s.xer = 1)

theorem exec_plain (l : List Char) {s : Settings} (h : Plain s) : Plain (exec l s).2 := by
  obtain ⟨h1, h2, h3⟩ := h
  have he : ∀ a, Plain (cfgEnc a s).2 := by
    intro a
    unfold cfgEnc
    rcases h1 with h1 | h1 <;> rw [h1] <;> exact ⟨by simp only; split <;> simp, h2, h3⟩
  unfold exec
  simp only
  split
  · exact ⟨h1, .inr rfl, h3⟩
  split
  · exact ⟨h1, .inl rfl, h3⟩
  split
  · exact ⟨h1, h2, .inr rfl⟩
  split
  · exact ⟨h1, h2, .inl rfl⟩
  split
  · exact he _
  split
  · exact he _
  · exact ⟨h1, h2, h3⟩

theorem execAll_plain (ls : List (List Char)) {s : Settings} (h : Plain s) : Plain (execAll ls s) := by
  induction ls generalizing s with
  | nil => exact h
  | cons l ls ih => exact ih (exec_plain l h)

theorem write_restores (n : Nat) {s : Settings} (h : Plain s) :
    (configWrite (List.replicate n ' ') s).1 = .success ∧
    execAll (configWrite (List.replicate n ' ') s).2 fresh = s := by
  obtain ⟨e, d, x⟩ := s
  obtain ⟨h1, h2, h3⟩ := h
  simp only at h1 h2 h3
  rcases h1 with rfl | rfl <;> rcases h2 with rfl | rfl <;> rcases h3 with rfl | rfl <;>
    simp only [configWrite, execAll, exec_indent, exec_debug, exec_xer, exec_enc fresh 0 rfl, List.nil_append, List.append_nil,
      List.cons_append, ne_eq, not_true_eq_false, if_true, if_false, Int.one_ne_zero, not_false_eq_true,
      Nat.zero_ne_one, Nat.one_ne_zero, or_true, true_or] <;>
    (refine ⟨trivial, ?_⟩; first | trivial | rfl)

/-- **C62.** After any history of lines entered, the configuration is written successfully, and executing
what was written in a fresh process restores all settings.  The lines may be indented. -/
theorem C62_round_trip (history : List (List Char)) (n : Nat) :
    (configWrite (List.replicate n ' ') (execAll history fresh)).1 = .success ∧
    execAll (configWrite (List.replicate n ' ') (execAll history fresh)).2 fresh = execAll history fresh :=
  write_restores n (execAll_plain history ⟨.inl rfl, .inl rfl, .inl rfl⟩)

/-- Every combination of settings has such a history. -/
theorem C62_reachable (v4raw debug xer : Bool) : ∃ history,
    execAll history fresh = ⟨some (if v4raw then 1 else 0), if debug then 1 else 0, if xer then 1 else 0⟩ := by
  refine ⟨(configWrite [] ⟨some (if v4raw then 1 else 0), if debug then 1 else 0, if xer then 1 else 0⟩).2, ?_⟩
  exact (write_restores 0 (s := ⟨some (if v4raw then 1 else 0), if debug then 1 else 0, if xer then 1 else 0⟩) (by
    refine ⟨?_, ?_, ?_⟩ <;> simp only <;> split <;> simp)).2

/-- **C62.** The encoding is not restored if it is X.213 and a fresh process does not start with that. -/
theorem C62_other_default (n : Nat) (d x : Int) :
    (execAll (configWrite (List.replicate n ' ') ⟨some 0, d, x⟩).2 ⟨some 1, 0, 0⟩).enc = some 1 := by
  simp only [configWrite, if_true, true_or]
  by_cases h1 : d = 0 <;> by_cases h2 : x = 0 <;>
    simp only [h1, h2, execAll, exec_indent, exec_debug, exec_xer, ne_eq, not_true_eq_false, not_false_eq_true, if_true, if_false,
      List.nil_append, List.append_nil, List.cons_append, Nat.zero_ne_one]

example : configWrite [' '] ⟨some 1, 1, 0⟩ = (.success, [" iu rab-assign-addr-enc v4raw".toList, " asn1 debug 1".toList]) := by decide

end Verif.Props
