import Verif.Model.AsnToC
import Verif.Spec.AsnNames

/-!
# Names of the generated code
-/

namespace Verif.AsnToStruct
open Spec

/-! ## Letters -/

theorem toLower_val (c : Char) :
    (65 ≤ c.toNat ∧ c.toNat ≤ 90 ∧ c.toLower.toNat = c.toNat + 32) ∨ (¬ (65 ≤ c.toNat ∧ c.toNat ≤ 90) ∧ c.toLower = c) := by
  have hA : ('A'.val : UInt32).toNat = 65 := rfl
  have hZ : ('Z'.val : UInt32).toNat = 90 := rfl
  unfold Char.toLower
  split
  · rename_i h
    have h1 := UInt32.le_iff_toNat_le.1 h.1
    have h2 := UInt32.le_iff_toNat_le.1 h.2
    rw [hA] at h1
    rw [hZ] at h2
    refine .inl ⟨h1, h2, ?_⟩
    show (c.val + ('a'.val - 'A'.val)).toNat = _
    have h3 : ('a'.val - 'A'.val : UInt32).toNat = 32 := by decide +kernel
    have h4 : c.toNat = c.val.toNat := rfl
    rw [UInt32.toNat_add, h3, h4]
    omega
  · rename_i h
    refine .inr ⟨fun h' => h ⟨UInt32.le_iff_toNat_le.2 h'.1, UInt32.le_iff_toNat_le.2 h'.2⟩, rfl⟩

theorem toUpper_val (c : Char) :
    (97 ≤ c.toNat ∧ c.toNat ≤ 122 ∧ c.toUpper.toNat + 32 = c.toNat) ∨ (¬ (97 ≤ c.toNat ∧ c.toNat ≤ 122) ∧ c.toUpper = c) := by
  have hA : ('a'.val : UInt32).toNat = 97 := rfl
  have hZ : ('z'.val : UInt32).toNat = 122 := rfl
  unfold Char.toUpper
  split
  · rename_i h
    have h1 := UInt32.le_iff_toNat_le.1 h.1
    have h2 := UInt32.le_iff_toNat_le.1 h.2
    rw [hA] at h1
    rw [hZ] at h2
    refine .inl ⟨h1, h2, ?_⟩
    show (c.val + ('A'.val - 'a'.val)).toNat + 32 = c.val.toNat
    have h3 : ('A'.val - 'a'.val : UInt32).toNat = 4294967264 := by decide +kernel
    rw [UInt32.toNat_add, h3]
    omega
  · rename_i h
    refine .inr ⟨fun h' => h ⟨UInt32.le_iff_toNat_le.2 h'.1, UInt32.le_iff_toNat_le.2 h'.2⟩, rfl⟩

theorem char_ext {a b : Char} (h : a.toNat = b.toNat) : a = b := by
  apply Char.ext
  exact UInt32.toNat_inj.1 h

theorem toLower_toLower (c : Char) : c.toLower.toLower = c.toLower := by
  rcases toLower_val c with ⟨_, _, h⟩ | ⟨_, h⟩
  · rcases toLower_val c.toLower with ⟨_, _, h'⟩ | ⟨_, h'⟩
    · omega
    · exact h'
  · rw [h, h]

theorem toLower_toUpper (c : Char) : c.toUpper.toLower = c.toLower := by
  rcases toUpper_val c with ⟨_, _, h⟩ | ⟨_, h⟩
  · apply char_ext
    rcases toLower_val c.toUpper with ⟨_, _, h'⟩ | ⟨_, h'⟩
    · rcases toLower_val c with ⟨_, _, h2⟩ | ⟨_, h2⟩
      · omega
      · rw [h2]; omega
    · omega
  · rw [h]

theorem toLower_eq_underscore {c : Char} : c.toLower = '_' ↔ c = '_' := by
  constructor
  · intro h
    rcases toLower_val c with ⟨_, _, h'⟩ | ⟨_, h'⟩
    · rw [h] at h'
      have : ('_' : Char).toNat = 95 := rfl
      omega
    · rw [← h', h]
  · rintro rfl; rfl

theorem toLower_eq_dash {c : Char} : c.toLower = '-' ↔ c = '-' := by
  constructor
  · intro h
    rcases toLower_val c with ⟨_, _, h'⟩ | ⟨_, h'⟩
    · rw [h] at h'
      have : ('-' : Char).toNat = 45 := rfl
      omega
    · rw [← h', h]
  · rintro rfl; rfl

/-! ## Words -/

theorem small_lowerCase (w : Text) : small (lowerCase w) = small w := by
  simp [small, lowerCase, toLower_toLower]

theorem small_upperCase (w : Text) : small (upperCase w) = small w := by
  simp [small, upperCase, toLower_toUpper]

theorem small_append (a b : Text) : small (a ++ b) = small a ++ small b := by simp [small]

theorem small_underscore (w : Text) : small (underscore w) = underscore (small w) := by
  simp only [small, underscore, List.map_map]
  apply List.map_congr_left
  intro c _
  by_cases h : c = '-'
  · subst h; rfl
  · simp only [Function.comp_apply, if_neg h, toLower_eq_dash]

theorem small_plain {w : Text} (h : Plain w) : Plain (small w) := by
  unfold Plain small at *
  simp only [List.mem_map, not_exists, not_and]
  intro c hc he
  rw [toLower_eq_underscore] at he
  exact h (he ▸ hc)

theorem underscore_inj : ∀ {a b : Text}, Plain a → Plain b → underscore a = underscore b → a = b
  | [], [], _, _, _ => rfl
  | [], _ :: _, _, _, h => by simp [underscore] at h
  | _ :: _, [], _, _, h => by simp [underscore] at h
  | x :: a, y :: b, ha, hb, h => by
    simp only [underscore, List.map_cons, List.cons.injEq] at h
    simp only [Plain, List.mem_cons, not_or] at ha hb
    rw [underscore_inj (a := a) (b := b) ha.2 hb.2 h.2]
    congr 1
    have h1 := h.1
    split at h1 <;> split at h1
    · rename_i h2 h3; rw [h2, h3]
    · exact absurd h1 hb.1
    · exact absurd h1.symm ha.1
    · exact h1

theorem small_lowerFirst (w : Text) : small (lowerFirstCamelWord w) = small w := by
  unfold lowerFirstCamelWord
  split
  · exact small_lowerCase w
  · simp only
    split
    · rw [small_append, small_lowerCase, ← small_append, List.take_append_drop]
    · rw [small_append, small_lowerCase, ← small_append, List.take_append_drop]

theorem subFrom_none {pat rep : Text} : ∀ {w : Text}, ¬ pat <:+: w → subFrom pat rep 0 w = w
  | [], _ => rfl
  | c :: t, h => by
    unfold subFrom
    rw [if_neg, subFrom_none]
    · exact fun h' => h (h'.trans (List.suffix_cons c t).isInfix)
    · rw [List.isPrefixOf_iff_prefix]
      exact fun h' => h h'.isInfix

theorem idText : "id-".toList = ['i', 'd', '-'] := by decide +kernel

theorem sub_id {id : Text} (h1 : "id-".toList <+: id) (h2 : ¬ "id-".toList <:+: id.drop 3) :
    sub "id-".toList [] id = id.drop 3 := by
  rw [idText] at *
  obtain ⟨x, rfl⟩ := h1
  have h2 : ¬ ['i', 'd', '-'] <:+: x := h2
  show subFrom _ _ 0 ('i' :: 'd' :: '-' :: x) = x
  simp [subFrom, subFrom_none h2]

theorem drop_three {id : Text} (h1 : "id-".toList <+: id) : id = "id-".toList ++ id.drop 3 := by
  rw [idText] at *
  obtain ⟨x, rfl⟩ := h1
  rfl

theorem plain_drop {w : Text} (n : Nat) (h : Plain w) : Plain (w.drop n) := fun h' => h (List.mem_of_mem_drop h')

theorem small_member {r : Row} (h1 : "id-".toList <+: r.id) (h2 : ¬ "id-".toList <:+: r.id.drop 3) :
    small (memberName r) = underscore (small (r.id.drop 3)) := by
  unfold memberName
  rw [small_lowerFirst, small_underscore, sub_id h1 h2]

theorem member_differ {a b : Row} (ha : "id-".toList <+: a.id ∧ ¬ "id-".toList <:+: a.id.drop 3 ∧ Plain a.id)
    (hb : "id-".toList <+: b.id ∧ ¬ "id-".toList <:+: b.id.drop 3 ∧ Plain b.id) (h : Differ a.id b.id) :
    memberName a ≠ memberName b := by
  intro he
  apply h
  have h' := congrArg small he
  rw [small_member ha.1 ha.2.1, small_member hb.1 hb.2.1] at h'
  have h' := underscore_inj (small_plain (plain_drop 3 ha.2.2)) (small_plain (plain_drop 3 hb.2.2)) h'
  rw [drop_three ha.1, drop_three hb.1, small_append, small_append, h']

theorem members_nodup {ies : List Row} (h : Clear ies) : (memberNames ies).Nodup := by
  unfold memberNames
  rw [List.nodup_append]
  refine ⟨by split <;> simp, ?_, ?_⟩
  · rw [List.Nodup, List.pairwise_map]
    refine h.differ.imp_of_mem fun {a b} ha hb hd => member_differ ?_ ?_ hd
    · exact ⟨(h.ids a ha).1, (h.ids a ha).2.1, (h.ids a ha).2.2.1⟩
    · exact ⟨(h.ids b hb).1, (h.ids b hb).2.1, (h.ids b hb).2.2.1⟩
  · intro x hx y hy he
    split at hx
    · simp only [List.mem_singleton] at hx
      obtain ⟨r, hr, rfl⟩ := List.mem_map.1 hy
      have hm : memberName ⟨"id-presenceMask".toList, [], [], []⟩ = "presenceMask".toList := by decide +kernel
      refine member_differ (a := r) (b := ⟨"id-presenceMask".toList, [], [], []⟩) ?_ ?_ (h.ids r hr).2.2.2 ?_
      · exact ⟨(h.ids r hr).1, (h.ids r hr).2.1, (h.ids r hr).2.2.1⟩
      · decide +kernel
      · rw [hm, ← he, hx]
    · simp at hx

/-! ## Presence constants -/

theorem id_inj {ies : List Row} (h : Clear ies) {a b : Row} (ha : a ∈ ies) (hb : b ∈ ies) (he : small a.id = small b.id) : a = b := by
  obtain ⟨i, hi, rfl⟩ := List.mem_iff_getElem.1 ha
  obtain ⟨j, hj, rfl⟩ := List.mem_iff_getElem.1 hb
  rcases Nat.lt_trichotomy i j with hij | rfl | hij
  · exact absurd he (List.pairwise_iff_getElem.1 h.differ i j hi hj hij)
  · rfl
  · exact absurd he.symm (List.pairwise_iff_getElem.1 h.differ j i hj hi hij)

/-- Identifier or type, as it is used in a presence constant. -/
def ret (ies : List Row) (ie : Row) : Text := if (ies.filter (· ≠ ie)).any (·.ty = ie.ty) then ie.id else ie.ty

theorem uniqueName_some {ies : List Row} (h : Clear ies) {ie : Row} (hm : ie ∈ ies) :
    uniqueName ies ie = some (underscore (upperCase (ret ies ie))) := by
  unfold uniqueName
  rw [if_neg]
  · rfl
  · simp only [List.any_filter, List.any_eq_true, Bool.and_eq_true, decide_eq_true_eq, not_exists, not_and]
    intro o ho hne he
    exact hne (id_inj h ho hm (by rw [he]))

theorem ret_plain {ies : List Row} (h : Clear ies) {ie : Row} (hm : ie ∈ ies) : Plain (ret ies ie) := by
  unfold ret
  split
  · exact (h.ids ie hm).2.2.1
  · exact (h.types ie hm).1

theorem small_id {ies : List Row} (h : Clear ies) {ie : Row} (hm : ie ∈ ies) : "id-".toList <+: small ie.id := by
  have h1 : small "id-".toList = "id-".toList := by decide +kernel
  rw [drop_three (h.ids ie hm).1, small_append, h1]
  exact List.prefix_append _ _

theorem ret_inj {ies : List Row} (h : Clear ies) {a b : Row} (ha : a ∈ ies) (hb : b ∈ ies)
    (he : small (ret ies a) = small (ret ies b)) : a = b := by
  unfold ret at he
  split at he <;> split at he
  · exact id_inj h ha hb he
  · exact absurd (he ▸ small_id h ha) (h.types b hb).2
  · exact absurd (he ▸ small_id h hb) (h.types a ha).2
  · rename_i h1 h2
    have ht := h.same a ha b hb he
    simp only [List.any_filter, List.any_eq_true, Bool.and_eq_true, decide_eq_true_eq, not_exists, not_and] at h1
    exact Classical.byContradiction fun hne => h1 b hb (fun hba => hne hba.symm) ht.symm

theorem upperCase_plain {w : Text} (h : Plain w) : Plain (upperCase w) := by
  unfold Plain upperCase at *
  simp only [List.mem_map, not_exists, not_and]
  intro c hc he
  have h1 := toLower_toUpper c
  rw [he] at h1
  exact h ((toLower_eq_underscore.1 h1.symm) ▸ hc)

theorem macroName_inj {pre key : Text} {ies : List Row} (h : Clear ies) {a b : Row} (ha : a ∈ ies) (hb : b ∈ ies)
    (he : macroName pre key ies a = macroName pre key ies b) : a = b := by
  unfold macroName at he
  rw [uniqueName_some h ha, uniqueName_some h hb] at he
  simp only [Option.map_some, Option.some.injEq, List.append_cancel_right_eq, List.append_cancel_left_eq] at he
  have he := underscore_inj (upperCase_plain (ret_plain h ha)) (upperCase_plain (ret_plain h hb)) he
  have he := congrArg small he
  rw [small_upperCase, small_upperCase] at he
  exact ret_inj h ha hb he

theorem macroName_some {pre key : Text} {ies : List Row} (h : Clear ies) {ie : Row} (hm : ie ∈ ies) :
    ∃ n, macroName pre key ies ie = some n := ⟨_, by rw [macroName, uniqueName_some h hm]; rfl⟩

theorem presence_iff {ies : List Row} (h : Clear ies) {ie : Row} (hm : ie ∈ ies) :
    (ie.presence = "optional".toList ∨ ie.presence = "conditional".toList) ↔ ie.presence ≠ "mandatory".toList := by
  have h1 : ("optional".toList) ≠ "mandatory".toList := by decide +kernel
  have h2 : ("conditional".toList) ≠ "mandatory".toList := by decide +kernel
  constructor
  · rintro (h | h) <;> rw [h]
    · exact h1
    · exact h2
  · intro hne
    rcases h.presence ie hm with h | h
    · exact absurd h hne
    · exact h

/-- The constants from a row on: those of the elements that are not mandatory, in order. -/
theorem macrosFrom_spec {pre key : Text} {ies : List Row} (h : Clear ies) : ∀ (rest : List Row) (shift : Nat), (∀ r ∈ rest, r ∈ ies) →
    ∃ ms, macrosFrom pre key ies rest shift = some ms ∧
      ms.map (fun m => (some m.1)) = (rest.filter fun r => r.presence ≠ "mandatory".toList).map (macroName pre key ies) ∧
      ms.map (·.2) = List.range' shift ms.length
  | [], shift, _ => ⟨[], rfl, rfl, rfl⟩
  | ie :: rest, shift, hsub => by
    have hm := hsub ie (by simp)
    obtain ⟨n, hn⟩ := macroName_some (pre := pre) (key := key) h hm
    by_cases hp : ie.presence ≠ "mandatory".toList
    · obtain ⟨ms, h1, h2, h3⟩ := macrosFrom_spec (pre := pre) (key := key) h rest (shift + 1) (fun r hr => hsub r (by simp [hr]))
      refine ⟨(n, shift) :: ms, ?_, ?_, ?_⟩
      · simp only [macrosFrom, hn, Option.bind_eq_bind, Option.bind_some, if_pos ((presence_iff h hm).2 hp), h1]
      · rw [List.filter_cons, if_pos (decide_eq_true hp), List.map_cons, List.map_cons, h2, hn]
      · simp [h3, List.range'_succ]
    · obtain ⟨ms, h1, h2, h3⟩ := macrosFrom_spec (pre := pre) (key := key) h rest shift (fun r hr => hsub r (by simp [hr]))
      refine ⟨ms, ?_, ?_, h3⟩
      · simp only [macrosFrom, hn, Option.bind_eq_bind, Option.bind_some, if_neg (fun hh => hp ((presence_iff h hm).1 hh)), h1]
      · rw [List.filter_cons, if_neg (fun hh => hp (of_decide_eq_true hh)), h2]

theorem macros_spec {pre key : Text} {ies : List Row} (h : Clear ies) :
    ∃ ms, macros pre key ies = some ms ∧ (ms.map (·.1)).Nodup ∧
      ∀ k ie, ies[k]? = some ie → ie.presence ≠ "mandatory".toList →
        ∃ n, macroName pre key ies ie = some n ∧ ∀ b, (n, b) ∈ ms ↔ b = optionalBefore ies k := by
  obtain ⟨ms, h1, h2, h3⟩ := macrosFrom_spec (pre := pre) (key := key) h ies 0 (fun _ hr => hr)
  have hnd : (ms.map (·.1)).Nodup := by
    have : (ms.map fun m => some m.1).Nodup := by
      rw [h2, List.Nodup, List.pairwise_map]
      refine (h.differ.filter _).imp_of_mem fun {a b} ha hb hd he => ?_
      have := macroName_inj h (List.mem_filter.1 ha).1 (List.mem_filter.1 hb).1 he
      exact hd (by rw [this])
    rw [List.Nodup, List.pairwise_map] at *
    exact this.imp fun hab he => hab (by rw [he])
  refine ⟨ms, h1, hnd, fun k ie hk hp => ?_⟩
  obtain ⟨hlt, rfl⟩ := List.getElem?_eq_some_iff.1 hk
  have hm := List.getElem_mem hlt
  obtain ⟨n, hn⟩ := macroName_some (pre := pre) (key := key) h hm
  have hsplit : ies = ies.take k ++ ies[k] :: ies.drop (k + 1) := by
    rw [← List.drop_eq_getElem_cons hlt, List.take_append_drop]
  have hf : (ies.filter fun r => r.presence ≠ "mandatory".toList)[optionalBefore ies k]? = some ies[k] := by
    rw [show (ies.filter fun r => r.presence ≠ "mandatory".toList) =
        (ies.take k).filter (fun r => r.presence ≠ "mandatory".toList) ++
          ies[k] :: (ies.drop (k + 1)).filter (fun r => r.presence ≠ "mandatory".toList) from ?_]
    · unfold optionalBefore
      rw [List.getElem?_append_right (Nat.le_refl _), Nat.sub_self]
      rfl
    · have := congrArg (List.filter fun r : Row => r.presence ≠ "mandatory".toList) hsplit
      rw [List.filter_append, List.filter_cons, if_pos (decide_eq_true hp)] at this
      exact this
  have h4 : (ms.map fun m => some m.1)[optionalBefore ies k]? = some (some n) := by
    rw [h2, List.getElem?_map, hf, Option.map_some, hn]
  rw [List.getElem?_map] at h4
  obtain ⟨m, hm1, hm2⟩ := Option.map_eq_some_iff.1 h4
  have h5 : (ms.map (·.2))[optionalBefore ies k]? = some m.2 := by rw [List.getElem?_map, hm1]; rfl
  obtain ⟨hj, -⟩ := List.getElem?_eq_some_iff.1 hm1
  rw [h3, List.getElem?_range' hj] at h5
  have h6 : m = (n, optionalBefore ies k) := by
    have h5 := Option.some.inj h5
    have hm2 := Option.some.inj hm2
    rw [← hm2, show optionalBefore ies k = m.2 by omega]
  subst h6
  refine ⟨n, hn, fun b => ⟨fun hb => ?_, ?_⟩⟩
  · obtain ⟨i, hi, hib⟩ := List.mem_iff_getElem.1 hb
    obtain ⟨hj', hje⟩ := List.getElem?_eq_some_iff.1 hm1
    have : i = optionalBefore ies k := by
      have h7 := (List.getElem_inj (i := i) (j := optionalBefore ies k) (h₀ := by simpa using hi) (h₁ := by simpa using hj') hnd).1
      apply h7
      rw [List.getElem_map, List.getElem_map, hib, hje]
    subst this
    rw [hib] at hje
    exact congrArg Prod.snd hje
  · rintro rfl
    exact List.mem_of_getElem? hm1

end Verif.AsnToStruct
