import Verif.Proofs.Hnb
import Verif.Model.HnbMem
import Verif.Spec.HnbMem

/-!
# Memory of the HNB emulator, step by step
-/

namespace Verif.Hnb
open Verif.Aper Verif.Ie Verif.Ie.Spec Verif.Rx Verif.Rx.Spec Verif.Linked Verif.Linked.Spec Verif.Hnb.Spec

theorem inUse_init : InUse Mem.init [] := ⟨⟨[], rfl, .refl _⟩, by simp⟩

theorem inUse_perm {μ : Mem Message} {a b : List Nat} (h : InUse μ a) (p : List.Perm a b) : InUse μ b := by
  obtain ⟨⟨l, e, q⟩, f⟩ := h
  exact ⟨⟨l, e, q.trans p⟩, fun x hx => f x (p.mem_iff.2 hx)⟩

theorem inUse_alloc {μ : Mem Message} {live : List Nat} (h : InUse μ live) :
    InUse (μ.alloc true).2 (μ.next :: live) := by
  obtain ⟨⟨l, e, q⟩, f⟩ := h
  unfold Mem.alloc
  rw [if_pos rfl]
  refine ⟨⟨μ.next :: l, ?_, q.cons _⟩, ?_⟩
  · simp only [replay_append, e, Option.bind_some, replay]
    rw [if_neg]
    intro hm
    exact Nat.lt_irrefl _ (f _ (q.mem_iff.1 hm))
  · intro b hb
    rcases List.mem_cons.1 hb with rfl | hb
    · simp
    · have := f b hb
      simp only
      omega

theorem inUse_call {μ : Mem Message} {live : List Nat} (h : InUse μ live) (m : Message) : InUse (μ.emit (.call m)) live := by
  obtain ⟨⟨l, e, q⟩, f⟩ := h
  refine ⟨⟨l, ?_, q⟩, f⟩
  simp only [Mem.emit, replay_append, e, Option.bind_some, replay]

theorem inUse_frees {μ : Mem Message} {fr live : List Nat} (h : InUse μ (fr ++ live)) :
    InUse ⟨μ.next, μ.trace ++ fr.map .free⟩ live := by
  obtain ⟨⟨l, e, q⟩, f⟩ := h
  obtain ⟨l', e', q'⟩ := replay_frees (α := Message) q
  refine ⟨⟨l', ?_, q'⟩, fun b hb => f b (List.mem_append_right _ hb)⟩
  simp only [replay_append, e, Option.bind_some, e']

theorem inUse_free {μ : Mem Message} {b : Nat} {live : List Nat} (h : InUse μ (b :: live)) : InUse (μ.free (some b)) live :=
  inUse_frees (fr := [b]) h

theorem inUse_allocs {μ : Mem Message} {live : List Nat} (h : InUse μ live) (n : Nat) :
    InUse ⟨μ.next + n, μ.trace ++ (List.range' μ.next n).map .alloc⟩ (List.range' μ.next n ++ live) := by
  obtain ⟨⟨l, e, q⟩, f⟩ := h
  obtain ⟨l', e', q'⟩ := replay_allocs (α := Message) (live := l) (a := μ.next) (n := n)
    (fun b hb => f b (q.mem_iff.1 hb))
  refine ⟨⟨l', ?_, q'.trans (q.append_left _)⟩, ?_⟩
  · simp only [replay_append, e, Option.bind_some, e']
  · intro b hb
    rcases List.mem_append.1 hb with hb | hb
    · rw [List.mem_range'_1] at hb; exact hb.2
    · have := f b hb
      simp only
      omega

/-- What decoding has left in a structure: it holds some of the blocks allocated. -/
structure Filled (m : MsgDef) (value : Bytes) (rc : Int) (s : Struct) (new : List Nat) : Prop where
  sub : blocks s ⊆ new
  nodup : (blocks s).Nodup
  newNodup : new.Nodup
  len : s.fields.length = m.ies.length
  occ : Occ m s
  rc_cases : rc = 0 ∨ rc = -1
  count : ∀ l good rest, Carries m value l → SplitAtBad m l good rest →
    (rc = 0 ↔ rest = []) ∧ new.length = owners m good ∧ (blocks s).length + replaced m good = owners m good
  none : (∀ l, ¬ Carries m value l) → rc = -1 ∧ new = []
  holds : ∀ l, Carries m value l → rc = 0 → Holds m l s

theorem decodeIes_inUse {m : MsgDef} (hm : Good m) (value : Bytes) {μ : Mem Message} {live : List Nat} (h : InUse μ live) :
    ∃ new, InUse (decodeIes m value μ).2 (new ++ live) ∧ Filled m value (decodeIes m value μ).1.1 (decodeIes m value μ).1.2 new := by
  rcases carries_or_not hm value with ⟨l, hc⟩ | hnone
  · have hsp := decodeIes_spec hm hc μ
    have h1 := inUse_alloc h
    obtain ⟨n, hI⟩ := decodeRows_mem (α := Message) hm l m.zero (μ.alloc true).2 (by simp [MsgDef.zero])
      (occ_zero m) (by rw [blocks_zero]; simp) (by rw [blocks_zero]; simp)
    obtain ⟨good, rest, hs, c1, c2, c3⟩ := decodeRows_count (α := Message) hm l m.zero (μ.alloc true).2 (by simp [MsgDef.zero])
    have hc' := hc
    unfold Carries at hc
    unfold decodeIes at hsp ⊢
    rw [hc] at hsp ⊢
    simp only [elements_container] at hsp ⊢
    revert hI c1 c2 c3 hsp
    generalize decodeRows m l m.zero (μ.alloc true).2 = r
    obtain ⟨⟨ok, s⟩, μ'⟩ := r
    intro hI c1 c2 c3 hsp
    simp only at hI c1 c2 c3 hsp ⊢
    have hn : n = owners m good := by have := hI.next; omega
    subst hn
    have h2 := inUse_allocs h1 (owners m good)
    have e : μ' = ⟨(μ.alloc true).2.next + owners m good, (μ.alloc true).2.trace ++
        (List.range' (μ.alloc true).2.next (owners m good)).map .alloc⟩ := by
      rw [← hI.next, ← hI.trace]
    rw [← e] at h2
    have eb : (μ.alloc true).1 = some μ.next := rfl
    have en : (μ.alloc true).2.next = μ.next + 1 := rfl
    refine ⟨List.range' (μ.next + 1) (owners m good), ?_, ?_⟩
    · rw [eb]
      refine inUse_free (inUse_perm h2 ?_)
      rw [en]
      exact List.perm_middle
    · rw [blocks_zero, hit_zero, List.length_nil] at c3
      refine ⟨?_, hI.nodup, List.nodup_range', hsp.len, hI.occ, hsp.rc_cases, ?_, ?_, ?_⟩
      · intro b hb
        rcases hI.sub b hb with hb | hb
        · rw [blocks_zero] at hb; cases hb
        · rw [en] at hb; rw [List.mem_range'_1]; exact hb
      · intro l' good' rest' hl' hs'
        cases carries_inj hc' hl'
        obtain ⟨rfl, rfl⟩ := split_unique hs' hs
        refine ⟨?_, by simp, by omega⟩
        rw [c1]
        cases rest' <;> simp
      · intro hno; exact absurd hc' (hno l)
      · intro l' hl' h0
        cases carries_inj hc' hl'
        rw [h0] at hsp
        exact holds_of_dec hsp
  · have e : decodeIes m value μ = ((-1, m.zero), μ) := by unfold decodeIes; rw [hnone]
    rw [e]
    have no : ∀ l, ¬ Carries m value l := fun l hl => by unfold Carries at hl; rw [hnone] at hl; cases hl
    refine ⟨[], h, ?_, ?_, by simp, by simp [MsgDef.zero], occ_zero m, Or.inr rfl, ?_, fun _ => ⟨rfl, rfl⟩, ?_⟩
    · simp only; rw [blocks_zero]; simp
    · simp only; rw [blocks_zero]; simp
    · intro l _ _ hl; exact absurd hl (no l)
    · intro l hl; exact absurd hl (no l)

/-- Freeing the structure leaves the rest. -/
theorem frees_inUse {μ : Mem Message} {a new live : List Nat} (hsub : a ⊆ new) (ha : a.Nodup) (hn : new.Nodup)
    (h : InUse μ (new ++ live)) : ∃ left, InUse ⟨μ.next, μ.trace ++ a.map .free⟩ (left ++ live) ∧
      left.length + a.length = new.length := by
  have hperm : List.Perm (new.filter (fun b => decide (b ∈ a))) a := by
    rw [List.perm_ext_iff_of_nodup (hn.sublist List.filter_sublist) ha]
    intro x
    simp only [List.mem_filter, decide_eq_true_eq]
    exact ⟨fun h => h.2, fun h => ⟨hsub h, h⟩⟩
  have hsplit : List.Perm new (a ++ new.filter (fun b => !decide (b ∈ a))) :=
    (List.filter_append_perm (fun b => decide (b ∈ a)) new).symm.trans (hperm.append_right _)
  refine ⟨new.filter (fun b => !decide (b ∈ a)), inUse_frees (inUse_perm h ?_), ?_⟩
  · rw [← List.append_assoc]
    exact hsplit.append_right _
  · have := hsplit.length_eq
    rw [List.length_append] at this
    omega

theorem freeIes_inUse {m : MsgDef} (hm : Good m) {value : Bytes} {rc : Int} {s : Struct} {new live : List Nat}
    (hf : Filled m value rc s new) {μ : Mem Message} (h : InUse μ (new ++ live)) :
    ∃ left, InUse (freeIes m s μ) (left ++ live) ∧ left.length + (blocks s).length = new.length := by
  rw [freeIes_eq hm hf.len hf.occ]
  exact frees_inUse hf.sub hf.nodup hf.newNodup h

/-! ## RANAP -/

/-- What is left of the message itself, after `decode2`. -/
inductive Decoded (sw : Switch) (dflt : Int) (data : Bytes) : Int → Message → List Nat → Prop
  | garbage (h : Rx.decodePdu data = none) : Decoded sw dflt data (-1) Message.zero []
  | unknown {p c crit : Nat} {value : Bytes} {msg : Message} (h : Rx.decodePdu data = some (p, c, crit, value))
      (hm : sw.at p c = none) (h2 : msg.msg = none) : Decoded sw dflt data dflt msg []
  | known {p c crit : Nat} {value : Bytes} {m : MsgDef} {rc : Int} {s : Struct} {new : List Nat}
      (h : Rx.decodePdu data = some (p, c, crit, value)) (hm : sw.at p c = some m) (hf : Filled m value rc s new) :
      Decoded sw dflt data rc ⟨p, c, crit, some (m.name, s)⟩ new

theorem decode2_inUse {sw : Switch} (hg : ∀ p c m, sw.at p c = some m → Good m) (dflt : Int) (data : Bytes)
    {μ : Mem Message} {live : List Nat} (h : InUse μ live) : ∃ new,
      InUse (decode2 sw dflt data μ).2 (new ++ live) ∧
      Decoded sw dflt data (decode2 sw dflt data μ).1.1 (decode2 sw dflt data μ).1.2 new := by
  unfold decode2
  cases hd : Rx.decodePdu data with
  | none => exact ⟨[], h, .garbage hd⟩
  | some x =>
    obtain ⟨p, c, crit, value⟩ := x
    have h1 := inUse_alloc h
    have eb : (μ.alloc true).1 = some μ.next := rfl
    simp only
    rw [eb]
    cases hp : sw p with
    | none => exact ⟨[], inUse_free h1, .unknown hd (by rw [Switch.at, hp]; rfl) rfl⟩
    | some cases =>
      simp only
      cases hl : cases.lookup c with
      | none => exact ⟨[], inUse_free h1, .unknown hd (by rw [Switch.at, hp]; exact hl) rfl⟩
      | some m =>
        have hat : sw.at p c = some m := by rw [Switch.at, hp]; exact hl
        obtain ⟨new, h2, h3⟩ := decodeIes_inUse (hg p c m hat) value h1
        exact ⟨new, inUse_free (inUse_perm h2 List.perm_middle), .known hd hat h3⟩

/-- Freeing the message. -/
theorem freeMsg_inUse {sw fsw : Switch} (hf : ∀ p, fsw p = sw p) (hg : ∀ p c m, sw.at p c = some m → Good m) {dflt : Int}
    {data : Bytes} {rc : Int} {msg : Message} {new live : List Nat} (hd : Decoded sw dflt data rc msg new)
    {μ : Mem Message} (h : InUse μ (new ++ live)) : ∃ left, InUse (freeMsg fsw msg μ) (left ++ live) ∧
      (∀ msgs : Nat → Nat → Option MsgDef, (∀ p c, sw.at p c = msgs p c) →
        (∀ p c crit m l good rest, Pdu msgs data p c crit m l → SplitAtBad m l good rest → left.length = replaced m good) ∧
        ((∀ p c crit m l, ¬ Pdu msgs data p c crit m l) → left = [])) := by
  cases hd with
  | garbage e =>
    rw [freeMsg_none rfl]
    refine ⟨[], h, fun msgs _ => ⟨?_, fun _ => rfl⟩⟩
    rintro p c crit m l good rest ⟨v, hp, -⟩
    rw [isPdu_iff, e] at hp; cases hp
  | unknown e hm h2 =>
    rw [freeMsg_none h2]
    refine ⟨[], h, fun msgs hsw => ⟨?_, fun _ => rfl⟩⟩
    rintro p c crit m l good rest ⟨v, hp, hq, -⟩
    rw [isPdu_iff, e] at hp; cases hp
    rw [hsw, hq] at hm; cases hm
  | @known p c crit value m rc s new e hm hfl =>
    rw [freeMsg_some hf hm (hg _ _ _ hm) hfl.len hfl.occ]
    obtain ⟨left, h1, h2⟩ := frees_inUse hfl.sub hfl.nodup hfl.newNodup h
    refine ⟨left, h1, fun msgs hsw => ⟨?_, ?_⟩⟩
    · rintro p' c' crit' m' l good rest ⟨v, hp, hq, hr⟩ hs
      rw [isPdu_iff, e] at hp; cases hp
      rw [hsw, hq] at hm; cases hm
      have := hfl.count l good rest hr hs
      omega
    · intro hno
      rw [hsw] at hm
      have := hfl.none (fun l hl => hno p c crit m l ⟨value, isPdu_iff.2 e, hm, hl⟩)
      rw [this.2] at h2
      rw [List.length_nil] at h2
      exact List.length_eq_zero_iff.1 (by omega)

theorem cnRxCo_leaves (data : Bytes) {n : Nat} (hn : CoLeft data n) : Leaves (fun μ => (cnRxCo data μ).2) n := by
  intro μ live h
  obtain ⟨new, h1, h2⟩ := decode2_inUse (sw := cnCoRx) (fun p c m => cnCo_good) (-1) data h
  show ∃ new, InUse (cnRxCo data μ).2 (new ++ live) ∧ new.length = n
  unfold cnRxCo
  revert h1 h2
  generalize decode2 cnCoRx (-1) data μ = r
  obtain ⟨⟨rc, msg⟩, μ'⟩ := r
  intro h1 h2
  simp only at h1 h2 ⊢
  have key : ∃ left, (rc = 0 → InUse (freeMsg cnCoFree msg (μ'.emit (.call msg))) (left ++ live)) ∧
      (rc ≠ 0 → InUse μ' (left ++ live)) ∧ left.length = n := by
    by_cases h0 : rc = 0
    · obtain ⟨left, h3, h4⟩ := freeMsg_inUse cnCo_free (fun p c m => cnCo_good) h2 (inUse_call h1 msg)
      refine ⟨left, fun _ => h3, fun h => absurd h0 h, ?_⟩
      obtain ⟨g1, g2⟩ := h4 _ cnCo_table
      rcases hn with ⟨p, c, crit, m, l, good, rest, hp, hs, rfl⟩ | ⟨hno, rfl⟩
      · have e := g1 _ _ _ _ _ _ _ hp hs
        rw [if_pos, e]
        obtain ⟨v, k1, k2, k3⟩ := hp
        rw [isPdu_iff] at k1
        cases h2 with
        | garbage e => cases h0
        | unknown e hm _ => cases h0
        | known e hm hf =>
          rw [e] at k1; cases k1
          rw [cnCo_table, k2] at hm; cases hm
          exact (hf.count _ _ _ k3 hs).1.1 h0
      · rw [g2 hno]; rfl
    · refine ⟨new, fun h => absurd h h0, fun _ => h1, ?_⟩
      rcases hn with ⟨p, c, crit, m, l, good, rest, ⟨v, k1, k2, k3⟩, hs, rfl⟩ | ⟨hno, rfl⟩
      · rw [isPdu_iff] at k1
        cases h2 with
        | garbage e => rw [e] at k1; cases k1
        | unknown e hm _ => rw [e] at k1; cases k1; rw [cnCo_table, k2] at hm; cases hm
        | known e hm hf =>
          rw [e] at k1; cases k1
          rw [cnCo_table, k2] at hm; cases hm
          have := hf.count _ _ _ k3 hs
          rw [if_neg (fun hr => h0 (this.1.2 hr))]
          exact this.2.1
      · cases h2 with
        | garbage e => rfl
        | unknown e hm _ => rfl
        | known e hm hf =>
          rw [cnCo_table] at hm
          rw [(hf.none (fun l hl => hno _ _ _ _ l ⟨_, isPdu_iff.2 e, hm, hl⟩)).2]
          rfl
  obtain ⟨left, a, b, c⟩ := key
  refine ⟨left, ?_, c⟩
  by_cases h0 : rc = 0
  · rw [if_neg (by simpa using h0)]; exact a h0
  · rw [if_pos h0]; exact b h0

theorem cnRxCl_leaves (data : Bytes) {n : Nat} (hn : ClLeft data n) : Leaves (fun μ => (cnRxCl data μ).2) n := by
  intro μ live h
  obtain ⟨new, h1, h2⟩ := decode2_inUse (sw := cnClRx) (fun p c m => cnCl_good) 0 data h
  show ∃ new, InUse (cnRxCl data μ).2 (new ++ live) ∧ new.length = n
  unfold cnRxCl
  revert h1 h2
  generalize decode2 cnClRx 0 data μ = r
  obtain ⟨⟨rc, msg⟩, μ'⟩ := r
  intro h1 h2
  simp only at h1 h2 ⊢
  have h3 : InUse (if rc = 0 then μ'.emit (.call msg) else μ') (new ++ live) := by
    split
    · exact inUse_call h1 msg
    · exact h1
  obtain ⟨left, h4, h5⟩ := freeMsg_inUse cnCl_free (fun p c m => cnCl_good) h2 h3
  obtain ⟨g1, g2⟩ := h5 _ cnCl_table
  refine ⟨left, h4, ?_⟩
  rcases hn with ⟨p, c, crit, m, l, good, rest, hp, hs, rfl⟩ | ⟨hno, rfl⟩
  · exact g1 _ _ _ _ _ _ _ hp hs
  · rw [g2 hno]; rfl

end Verif.Hnb
