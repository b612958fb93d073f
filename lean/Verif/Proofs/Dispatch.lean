import Verif.Proofs.IeLeak
import Verif.Spec.Dispatch

/-!
# Receiving RANAP messages: proofs
-/

namespace Verif.Rx
open Verif.Aper Verif.Ie Verif.Ie.Spec Verif.Rx.Spec Verif.Gen.Ranap

/-! ## Tables -/

/-- What a switch does for a direction and a code. -/
def Switch.at (sw : Switch) (p c : Nat) : Option MsgDef := (sw p).bind fun cases => cases.lookup c

theorem lookup_ge {cases : List (Nat × MsgDef)} {c : Nat} (h : cases.all (fun x => decide (x.1 < 48)) = true)
    (hc : 48 ≤ c) : cases.lookup c = none := by
  rw [List.lookup_eq_none_iff]
  intro p hp
  have := List.all_eq_true.1 h p hp
  simp only [decide_eq_true_eq] at this
  simp only [bne_iff_ne, ne_eq]
  omega

theorem range_eq {f g : Nat → Option MsgDef} (h : (List.range 48).map f = (List.range 48).map g) {c : Nat} (hc : c < 48) :
    f c = g c := by
  have := congrArg (fun l => l[c]?) h
  simpa [List.getElem?_range, hc] using this

theorem protocolMsg_ge {p c : Nat} (hc : 48 ≤ c) : protocolMsg p c = none := by
  unfold protocolMsg
  have : procs.find? (·.code == c) = none := by
    rw [List.find?_eq_none]
    intro q hq
    have h : procs.all (fun q => decide (q.code < 48)) = true := by decide +kernel
    have := List.all_eq_true.1 h q hq
    simp only [decide_eq_true_eq] at this
    simp only [beq_iff_eq]
    omega
  rw [this]
  rfl

theorem protocolMsg_kind {p c : Nat} (hp : p = 0 ∨ 5 ≤ p) : protocolMsg p c = none := by
  unfold protocolMsg
  have : ∀ q, ofKind p q = none := by
    intro q
    unfold ofKind
    split <;> first | rfl | omega
  cases procs.find? (·.code == c) with
  | none => rfl
  | some q => simp [this]

theorem small_cases (p : Nat) : p = 1 ∨ p = 2 ∨ p = 3 ∨ p = 4 ∨ (p = 0 ∨ 5 ≤ p) := by omega

theorem cnCoRx_other {p : Nat} (h : p = 0 ∨ 5 ≤ p) : cnCoRx p = none := by
  unfold cnCoRx; split <;> first | rfl | omega

theorem cnClRx_other {p : Nat} (h : p ≠ 1 ∧ p ≠ 2) : cnClRx p = none := by
  unfold cnClRx; split <;> first | rfl | omega

theorem ranCoRx_other {p : Nat} (h : p = 0 ∨ 4 ≤ p) : ranCoRx p = none := by
  unfold ranCoRx; split <;> first | rfl | omega

theorem not_mem_ge {l : List (Nat × Nat)} (h : l.all (fun x => decide (x.2 < 48)) = true) {p c : Nat} (hc : 48 ≤ c) :
    (p, c) ∉ l := by
  intro hm
  have := List.all_eq_true.1 h _ hm
  simp only [decide_eq_true_eq] at this
  omega

theorem cnCo_table (p c : Nat) : cnCoRx.at p c = cnCoMsg p c := by
  by_cases hc : c < 48
  · rcases small_cases p with rfl | rfl | rfl | rfl | hp
    · exact range_eq (f := fun c => cnCoRx.at 1 c) (g := fun c => cnCoMsg 1 c) rfl hc
    · exact range_eq (f := fun c => cnCoRx.at 2 c) (g := fun c => cnCoMsg 2 c) rfl hc
    · exact range_eq (f := fun c => cnCoRx.at 3 c) (g := fun c => cnCoMsg 3 c) rfl hc
    · exact range_eq (f := fun c => cnCoRx.at 4 c) (g := fun c => cnCoMsg 4 c) rfl hc
    · rw [Switch.at, cnCoRx_other hp, cnCoMsg, protocolMsg_kind hp, if_neg (by omega)]
      simp
  · have hc : 48 ≤ c := by omega
    have e : cnCoMsg p c = none := by
      rw [cnCoMsg, if_neg (by omega), if_neg (not_mem_ge (by decide) hc)]
    rw [e]
    unfold Switch.at cnCoRx
    split <;> first | rfl | (simp only [Option.bind_some]; exact lookup_ge (by decide +kernel) hc)

theorem cnCl_table (p c : Nat) : cnClRx.at p c = cnClMsg p c := by
  by_cases hc : c < 48
  · rcases small_cases p with rfl | rfl | rfl | rfl | hp
    · exact range_eq (f := fun c => cnClRx.at 1 c) (g := fun c => cnClMsg 1 c) rfl hc
    · exact range_eq (f := fun c => cnClRx.at 2 c) (g := fun c => cnClMsg 2 c) rfl hc
    · exact range_eq (f := fun c => cnClRx.at 3 c) (g := fun c => cnClMsg 3 c) rfl hc
    · exact range_eq (f := fun c => cnClRx.at 4 c) (g := fun c => cnClMsg 4 c) rfl hc
    · rw [Switch.at, cnClRx_other (by omega), cnClMsg, protocolMsg_kind hp, if_neg (by omega), if_neg (by omega)]
      simp
  · have hc : 48 ≤ c := by omega
    have e : cnClMsg p c = none := by
      rw [cnClMsg, if_neg (by omega), if_neg (by omega), if_neg (not_mem_ge (by decide) hc)]
    rw [e]
    unfold Switch.at cnClRx
    split <;> first | rfl | (simp only [Option.bind_some]; exact lookup_ge (by decide +kernel) hc)

theorem ranCo_table (p c : Nat) : ranCoRx.at p c = ranCoMsg p c := by
  by_cases hc : c < 48
  · rcases small_cases p with rfl | rfl | rfl | rfl | hp
    · exact range_eq (f := fun c => ranCoRx.at 1 c) (g := fun c => ranCoMsg 1 c) rfl hc
    · exact range_eq (f := fun c => ranCoRx.at 2 c) (g := fun c => ranCoMsg 2 c) rfl hc
    · exact range_eq (f := fun c => ranCoRx.at 3 c) (g := fun c => ranCoMsg 3 c) rfl hc
    · exact range_eq (f := fun c => ranCoRx.at 4 c) (g := fun c => ranCoMsg 4 c) rfl hc
    · rw [Switch.at, ranCoRx_other (by omega), ranCoMsg, protocolMsg_kind hp]
      simp
  · have hc : 48 ≤ c := by omega
    have e : ranCoMsg p c = none := by
      rw [ranCoMsg, if_neg (not_mem_ge (by decide) hc)]
    rw [e]
    unfold Switch.at ranCoRx
    split <;> first | rfl | (simp only [Option.bind_some]; exact lookup_ge (by decide +kernel) hc)

/-- The freeing functions have the same cases as the decoding functions. -/
theorem cnCo_free (p : Nat) : cnCoFree p = cnCoRx p := by unfold cnCoFree cnCoRx; split <;> rfl
theorem cnCl_free (p : Nat) : cnClFree p = cnClRx p := by unfold cnClFree cnClRx; split <;> rfl
theorem ranCo_free (p : Nat) : ranCoFree p = ranCoRx p := by unfold ranCoFree ranCoRx; split <;> rfl

theorem at_good {sw : Switch} {l : List (Nat × MsgDef)} (hl : l.all (fun x => goodB x.2) = true)
    (hs : ∀ p cases, sw p = some cases → cases ⊆ l) {p c : Nat} {m : MsgDef} (h : sw.at p c = some m) : Good m := by
  unfold Switch.at at h
  cases hp : sw p with
  | none => rw [hp] at h; cases h
  | some cases =>
    rw [hp] at h
    simp only [Option.bind_some] at h
    have hm : (c, m) ∈ cases := by
      clear hp
      induction cases with
      | nil => simp at h
      | cons x cases ih =>
        rw [List.lookup_cons] at h
        split at h
        · next he => cases h; simp only [beq_iff_eq] at he; subst he; simp
        · exact List.mem_cons_of_mem _ (ih h)
    exact goodB_sound (List.all_eq_true.1 hl _ (hs p cases hp hm))

def cnCoAll := cnCoRxInitiating ++ cnCoRxSuccessful ++ cnCoRxUnsuccessful ++ cnCoRxOutcome
def cnClAll := cnClRxInitiating ++ cnClRxSuccessful
def ranCoAll := ranCoRxInitiating ++ ranCoRxSuccessful ++ ranCoRxUnsuccessful

theorem cnCo_good {p c : Nat} {m : MsgDef} (h : cnCoRx.at p c = some m) : Good m := by
  refine at_good (l := cnCoAll) (by decide +kernel) ?_ h
  intro p cases hc
  unfold cnCoRx at hc
  split at hc <;> cases hc <;> intro x hx <;> simp [cnCoAll, hx]

theorem cnCl_good {p c : Nat} {m : MsgDef} (h : cnClRx.at p c = some m) : Good m := by
  refine at_good (l := cnClAll) (by decide +kernel) ?_ h
  intro p cases hc
  unfold cnClRx at hc
  split at hc <;> cases hc <;> intro x hx <;> simp [cnClAll, hx]

theorem ranCo_good {p c : Nat} {m : MsgDef} (h : ranCoRx.at p c = some m) : Good m := by
  refine at_good (l := ranCoAll) (by decide +kernel) ?_ h
  intro p cases hc
  unfold ranCoRx at hc
  split at hc <;> cases hc <;> intro x hx <;> simp [ranCoAll, hx]

/-! ## Decoding -/

/-- What decoding the elements `l` leaves in a structure; `n` blocks were allocated for them,
numbered from 2. -/
structure Held (m : MsgDef) (l : List Ie) (n : Nat) (ok : Bool) (s : Struct) : Prop where
  sub : ∀ b ∈ blocks s, 2 ≤ b ∧ b < 2 + n
  nodup : (blocks s).Nodup
  len : s.fields.length = m.ies.length
  occ : Occ m s
  kept : l.Pairwise (fun a b => a.id = b.id → ¬ OwnsMemory m a) → (blocks s).length = n
  lost : ok = true → (blocks s).length = n → l.Pairwise (fun a b => a.id = b.id → ¬ OwnsMemory m a)
  some_iff : ok = true → (n = 0 ↔ ∀ ie ∈ l, ¬ OwnsMemory m ie)
  fails : ok = false → ∃ l1 x l2, l = l1 ++ x :: l2 ∧ (∀ ie ∈ l1, Valid m ie) ∧ ¬ Valid m x ∧
    (n = 0 ↔ ∀ ie ∈ l1, ¬ OwnsMemory m ie)
  count : ∃ good rest, SplitAtBad m l good rest ∧ ok = rest.isEmpty ∧ n = owners m good ∧
    (blocks s).length + replaced m good = n

/-- Allocations before the handler is called: the PDU, the container, `n` values; the first two are
freed again. -/
def pre (n : Nat) : List (Ev Message) :=
  [.alloc 0, .alloc 1] ++ (List.range' 2 n).map .alloc ++ [.free 1, .free 0]

theorem isPdu_iff {data value : Bytes} {direction code crit : Nat} :
    IsPdu data direction code crit value ↔ decodePdu data = some (direction, code, crit, value) := by
  unfold IsPdu decodePdu
  constructor
  · rintro ⟨h1, pc, rfl, h⟩
    rw [h]
    simp only [Nat.sub_add_cancel h1]
  · intro h
    split at h
    · rename_i i pc cr v hd
      cases h
      exact ⟨by omega, pc, rfl, hd⟩
    · cases h


inductive Out (sw : Switch) (dflt : Int) (data : Bytes) : (Int × Message) × Mem Message → Prop
  | garbage (h : decodePdu data = none) : Out sw dflt data ((-1, Message.zero), Mem.init)
  | unknown {p c crit : Nat} {value : Bytes} {msg : Message} (h : decodePdu data = some (p, c, crit, value))
      (hm : sw.at p c = none) (h1 : msg.direction = p) (h2 : msg.msg = none)
      (h3 : msg = ⟨p, c, crit, none⟩ ∨ msg = ⟨p, 0, 0, none⟩) (h4 : ((sw p).isSome = true → msg = ⟨p, c, crit, none⟩)) :
      Out sw dflt data ((dflt, msg), ⟨1, [.alloc 0, .free 0]⟩)
  | broken {p c crit : Nat} {value : Bytes} {m : MsgDef} (h : decodePdu data = some (p, c, crit, value))
      (hm : sw.at p c = some m) (h1 : decode m.ty value = none) :
      Out sw dflt data ((-1, ⟨p, c, crit, some (m.name, m.zero)⟩), ⟨1, [.alloc 0, .free 0]⟩)
  | elements {p c crit : Nat} {value : Bytes} {m : MsgDef} {l : List Ie} {n : Nat} {rc : Int} {s : Struct}
      (h : decodePdu data = some (p, c, crit, value)) (hm : sw.at p c = some m) (hc : Carries m value l)
      (hd : DecSpec m l rc s) (hh : Held m l n (decide (rc = 0)) s) :
      Out sw dflt data ((rc, ⟨p, c, crit, some (m.name, s)⟩), ⟨2 + n, pre n⟩)

theorem blocks_zero (m : MsgDef) : blocks m.zero = [] := by
  rw [blocks_eq, MsgDef.zero, List.filterMap_map]
  induction m.ies with
  | nil => rfl
  | cons a l ih => simp only [List.filterMap_cons, Function.comp, blk, Option.bind_none]; exact ih

theorem zero_field {m : MsgDef} {k : Nat} {f : Option Slot} (h : m.zero.fields[k]? = some f) : f = none := by
  simp only [MsgDef.zero, List.getElem?_map] at h
  cases hk : m.ies[k]? with
  | none => rw [hk] at h; cases h
  | some d => rw [hk] at h; cases h; rfl

theorem occ_zero (m : MsgDef) : Occ m m.zero :=
  ⟨fun _ _ _ _ h => (nomatch zero_field h), fun _ _ _ _ h => (nomatch zero_field h)⟩

theorem decode2_out {sw : Switch} (hg : ∀ p c m, sw.at p c = some m → Good m) (dflt : Int) (data : Bytes) :
    Out sw dflt data (decode2 sw dflt data Mem.init) := by
  unfold decode2
  cases hd : decodePdu data with
  | none => exact .garbage hd
  | some x =>
    obtain ⟨p, c, crit, value⟩ := x
    simp only [Mem.alloc, if_true, Mem.init, List.nil_append]
    cases hp : sw p with
    | none =>
      exact .unknown hd (by rw [Switch.at, hp]; rfl) rfl rfl (Or.inr rfl) (by rw [hp]; simp)
    | some cases =>
      simp only
      cases hl : cases.lookup c with
      | none =>
        exact .unknown hd (by rw [Switch.at, hp]; exact hl) rfl rfl (Or.inl rfl) (fun _ => rfl)
      | some m =>
        have hat : sw.at p c = some m := by rw [Switch.at, hp]; exact hl
        have hm := hg p c m hat
        simp only
        rcases carries_or_not hm value with ⟨l, hcar⟩ | hnone
        · have hsp := decodeIes_spec hm hcar (α := Message) ⟨0 + 1, [.alloc 0]⟩
          obtain ⟨n, hI⟩ := decodeRows_mem (α := Message) hm l m.zero ⟨2, [.alloc 0, .alloc 1]⟩ (by simp [MsgDef.zero])
            (occ_zero m) (by rw [blocks_zero]; simp) (by rw [blocks_zero]; simp)
          have hC := decodeRows_count (α := Message) hm l m.zero ⟨2, [.alloc 0, .alloc 1]⟩ (by simp [MsgDef.zero])
          unfold decodeIes at hsp ⊢
          unfold Carries at hcar
          rw [hcar] at hsp ⊢
          simp only [elements_container, Mem.alloc, if_true, List.cons_append, List.nil_append] at hsp ⊢
          simp only [Nat.zero_add, Nat.reduceAdd] at hsp ⊢
          revert hsp hI hC
          generalize decodeRows m l m.zero ⟨2, [.alloc 0, .alloc 1]⟩ = r
          obtain ⟨⟨ok, s⟩, μ⟩ := r
          intro hI hC hsp
          simp only at hI hsp hC ⊢
          have hμ : (Mem.free (Mem.free μ (some 1)) (some 0)) = ⟨2 + n, pre n⟩ := by
            have h1 := hI.next
            have h2 := hI.trace
            simp only at h1 h2
            simp only [Mem.free, Mem.emit, h1, h2, pre, List.append_assoc, List.cons_append, List.nil_append]
          rw [hμ]
          refine .elements hd hat hcar hsp ?_
          have hb := blocks_zero m
          have hok : decide ((if ok = true then (0 : Int) else -1) = 0) = ok := by cases ok <;> simp
          rw [hok]
          refine ⟨?_, hI.nodup, hsp.len, hI.occ, ?_, ?_, hI.some_iff, hI.fails, ?_⟩
          · intro b hbb
            rcases hI.sub b hbb with h | h
            · rw [hb] at h; cases h
            · exact h
          · intro hpw
            have := hI.kept (fun k d f _ hf hbf => by rw [zero_field hf] at hbf; cases hbf) hpw
            rwa [hb, List.length_nil, Nat.zero_add] at this
          · intro ho hlen
            exact (hI.lost ho (by rw [hb, List.length_nil, Nat.zero_add]; exact hlen)).2
          · obtain ⟨good, rest, h1, h2, h3, h4⟩ := hC
            have h5 := hI.next
            rw [hb, hit_zero, List.length_nil] at h4
            simp only at h5
            exact ⟨good, rest, h1, h2, by omega, by omega⟩
        · unfold decodeIes
          rw [hnone]
          simp only
          exact .broken hd hat hnone

/-! ## Freeing -/

theorem freeMsg_none {fsw : Switch} {msg : Message} {μ : Mem Message} (h : msg.msg = none) : freeMsg fsw msg μ = μ := by
  unfold freeMsg
  rw [h]
  cases fsw msg.direction with
  | none => rfl
  | some cases => simp only; cases cases.lookup msg.procedureCode <;> rfl

theorem freeMsg_some {sw fsw : Switch} (hf : ∀ p, fsw p = sw p) {p c crit : Nat} {m : MsgDef} {s : Struct} {μ : Mem Message}
    (hat : sw.at p c = some m) (hm : Good m) (hl : s.fields.length = m.ies.length) (ho : Occ m s) :
    freeMsg fsw ⟨p, c, crit, some (m.name, s)⟩ μ = ⟨μ.next, μ.trace ++ (blocks s).map .free⟩ := by
  unfold freeMsg
  simp only [hf]
  unfold Switch.at at hat
  cases hp : sw p with
  | none => rw [hp] at hat; cases hat
  | some cases =>
    rw [hp] at hat
    simp only [Option.bind_some] at hat
    simp only [hat, if_true]
    exact freeIes_eq hm hl ho μ

/-! ## Traces -/

/-- Live blocks when the handler is called. -/
theorem replay_pre (n : Nat) : ∃ live, replay [] (pre n) = some live ∧ List.Perm live (List.range' 2 n) := by
  unfold pre
  rw [List.append_assoc, replay_append]
  have h1 : replay [] [Ev.alloc (α := Message) 0, .alloc 1] = some [1, 0] := by simp [replay]
  rw [h1]
  simp only [Option.bind_some]
  rw [replay_append]
  obtain ⟨live, e, p⟩ := replay_allocs (α := Message) (live := [1, 0]) (a := 2) (n := n) (by simp)
  rw [e]
  simp only [Option.bind_some]
  obtain ⟨live', e', p'⟩ := replay_frees (α := Message) (fr := [1, 0]) (rest := List.range' 2 n)
    (p.trans List.perm_append_comm)
  exact ⟨live', e', p'⟩

/-- Freeing what a structure holds leaves the other blocks. -/
theorem replay_rest {m : MsgDef} {l : List Ie} {n : Nat} {ok : Bool} {s : Struct} (hh : Held m l n ok s)
    {live : List Nat} (hp : List.Perm live (List.range' 2 n)) :
    ∃ rest, replay live ((blocks s).map (Ev.free (α := Message))) = some rest ∧ rest.length = n - (blocks s).length ∧
      (blocks s).length ≤ n := by
  have hnd : (List.range' 2 n).Nodup := List.nodup_range'
  have hsub : blocks s ⊆ List.range' 2 n := by
    intro b hb
    have := hh.sub b hb
    rw [List.mem_range'_1]
    omega
  have hperm : List.Perm ((List.range' 2 n).filter (fun b => decide (b ∈ blocks s))) (blocks s) := by
    rw [List.perm_ext_iff_of_nodup (hnd.sublist List.filter_sublist) hh.nodup]
    intro a
    simp only [List.mem_filter, decide_eq_true_eq]
    exact ⟨fun h => h.2, fun h => ⟨hsub h, h⟩⟩
  have hsplit := (List.filter_append_perm (fun b => decide (b ∈ blocks s)) (List.range' 2 n)).symm
  have hlive := (hp.trans hsplit).trans (hperm.append_right _)
  obtain ⟨rest, e, p⟩ := replay_frees (α := Message) hlive
  refine ⟨rest, e, ?_, ?_⟩
  · have h1 := hlive.length_eq
    have h2 := hp.length_eq
    have h3 := p.length_eq
    simp only [List.length_append, List.length_range'] at h1 h2
    omega
  · have h1 := hlive.length_eq
    have h2 := hp.length_eq
    simp only [List.length_append, List.length_range'] at h1 h2
    omega

theorem calls_append {α : Type} (a b : List (Ev α)) : calls (a ++ b) = calls a ++ calls b := by
  simp [calls]

theorem calls_frees {α : Type} (l : List Nat) : calls (l.map (Ev.free (α := α))) = [] := by
  induction l with
  | nil => rfl
  | cons a l ih => simp [calls]

theorem calls_allocs {α : Type} (l : List Nat) : calls (l.map (Ev.alloc (α := α))) = [] := by
  induction l with
  | nil => rfl
  | cons a l ih => simp [calls]

theorem calls_pre (n : Nat) : calls (pre n) = [] := by
  simp only [pre, calls_append, calls_allocs]
  rfl

theorem replay_call {α : Type} (live : List Nat) (a : α) : replay live [.call a] = some live := rfl

end Verif.Rx
