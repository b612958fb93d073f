import Verif.Proofs.IuWp

/-!
# Effect of API calls and callbacks

An API call may remove contexts, switch flags of contexts, change timers, and hand
primitives to SCCP.  It never touches the registry or the cached requests, and never
invokes a callback.
-/

namespace Verif.Iu

/-- The same context, with flags possibly switched by a release. -/
def SameUe (u u' : Ue) : Prop :=
  u' = u ∨ u' = { u with notification := false, freeOnRelease := true }

theorem SameUe.refl (u : Ue) : SameUe u u := .inl rfl

theorem SameUe.trans {a b c : Ue} (h1 : SameUe a b) (h2 : SameUe b c) : SameUe a c := by
  rcases h1 with rfl | rfl <;> rcases h2 with rfl | rfl
  · exact .inl rfl
  · exact .inr rfl
  · exact .inr rfl
  · exact .inr rfl

theorem SameUe.ptr {u u' : Ue} (h : SameUe u u') : u'.ptr = u.ptr := by
  rcases h with rfl | rfl <;> rfl
theorem SameUe.conn {u u' : Ue} (h : SameUe u u') : u'.conn = u.conn := by
  rcases h with rfl | rfl <;> rfl
theorem SameUe.rnc {u u' : Ue} (h : SameUe u u') : u'.rnc = u.rnc := by
  rcases h with rfl | rfl <;> rfl
theorem SameUe.raId {u u' : Ue} (h : SameUe u u') : u'.raId = u.raId := by
  rcases h with rfl | rfl <;> rfl

/-- `l'` arises from `l` by removing contexts and switching flags. -/
inductive UeRel : List Ue → List Ue → Prop where
  | nil : UeRel [] []
  | drop (u : Ue) {l l' : List Ue} : UeRel l l' → UeRel (u :: l) l'
  | keep {u u' : Ue} {l l' : List Ue} : SameUe u u' → UeRel l l' → UeRel (u :: l) (u' :: l')

namespace UeRel

theorem refl : ∀ l, UeRel l l
  | [] => .nil
  | u :: l => .keep (SameUe.refl u) (refl l)

theorem trans {a b c : List Ue} (h1 : UeRel a b) (h2 : UeRel b c) : UeRel a c := by
  induction h1 generalizing c with
  | nil => exact h2
  | drop u _ ih => exact .drop u (ih h2)
  | keep hs _ ih =>
    cases h2 with
    | drop _ h => exact .drop _ (ih h)
    | keep hs2 h => exact .keep (hs.trans hs2) (ih h)

theorem filter (l : List Ue) (f : Ue → Bool) : UeRel l (l.filter f) := by
  induction l with
  | nil => exact .nil
  | cons u l ih =>
    rw [List.filter_cons]
    split
    · exact .keep (SameUe.refl u) ih
    · exact .drop u ih

theorem map (l : List Ue) (f : Ue → Ue) (hf : ∀ u, SameUe u (f u)) : UeRel l (l.map f) := by
  induction l with
  | nil => exact .nil
  | cons u l ih => exact .keep (hf u) ih

theorem mem {l l' : List Ue} (h : UeRel l l') {u' : Ue} (hu : u' ∈ l') : ∃ u ∈ l, SameUe u u' := by
  induction h with
  | nil => cases hu
  | drop v _ ih => obtain ⟨u, h1, h2⟩ := ih hu; exact ⟨u, List.mem_cons_of_mem _ h1, h2⟩
  | keep hs _ ih =>
    rcases List.mem_cons.1 hu with rfl | hu
    · exact ⟨_, List.mem_cons_self, hs⟩
    · obtain ⟨u, h1, h2⟩ := ih hu; exact ⟨u, List.mem_cons_of_mem _ h1, h2⟩

theorem ptrs {l l' : List Ue} (h : UeRel l l') : (l'.map (·.ptr)).Sublist (l.map (·.ptr)) := by
  induction h with
  | nil => exact .slnil
  | drop v _ ih => exact ih.cons _
  | keep hs _ ih => simp only [List.map_cons, hs.ptr]; exact ih.cons₂ _

theorem conns {l l' : List Ue} (h : UeRel l l') : (l'.map (·.conn)).Sublist (l.map (·.conn)) := by
  induction h with
  | nil => exact .slnil
  | drop v _ ih => exact ih.cons _
  | keep hs _ ih => simp only [List.map_cons, hs.conn]; exact ih.cons₂ _

end UeRel

/-- An output that is a primitive to SCCP (not a callback). -/
def Out.isSap : Out → Bool
  | .sap _ _ => true
  | _ => false

/-- Effect of API calls. -/
structure Eff (s s' : State) : Prop where
  rncs : s'.rncs = s.rncs
  cache : s'.cache = s.cache
  next : s'.next = s.next
  nasBufs : s'.nasBufs = s.nasBufs
  ues : UeRel s.ues s'.ues
  trace : ∃ d, s'.trace = s.trace ++ d ∧ ∀ o ∈ d, o.isSap = true

theorem Eff.refl (s : State) : Eff s s :=
  ⟨rfl, rfl, rfl, rfl, UeRel.refl _, ⟨[], by simp, by simp⟩⟩

theorem Eff.trans {a b c : State} (h1 : Eff a b) (h2 : Eff b c) : Eff a c := by
  obtain ⟨d1, e1, p1⟩ := h1.trace
  obtain ⟨d2, e2, p2⟩ := h2.trace
  refine ⟨h2.rncs.trans h1.rncs, h2.cache.trans h1.cache, h2.next.trans h1.next,
    h2.nasBufs.trans h1.nasBufs, h1.ues.trans h2.ues, d1 ++ d2, ?_, ?_⟩
  · rw [e2, e1, List.append_assoc]
  · intro o ho
    rcases List.mem_append.1 ho with h | h
    · exact p1 o h
    · exact p2 o h

theorem Eff.sap (s : State) (p : Prim) (rc : Int) :
    Eff s { s with trace := s.trace ++ [.sap p rc] } :=
  ⟨rfl, rfl, rfl, rfl, UeRel.refl _, [.sap p rc], rfl, by simp [Out.isSap]⟩

theorem Eff.timers (s : State) (t : List (Ptr × Int)) : Eff s { s with timers := t } :=
  ⟨rfl, rfl, rfl, rfl, UeRel.refl _, [], by simp, by simp⟩

theorem Eff.ofUes (s : State) {us : List Ue} (h : UeRel s.ues us) : Eff s { s with ues := us } :=
  ⟨rfl, rfl, rfl, rfl, h, [], by simp, by simp⟩

theorem Eff.ofFree (s : State) {us : List Ue} (b : Int) (h : UeRel s.ues us) : Eff s { s with ues := us, blocks := b } :=
  ⟨rfl, rfl, rfl, rfl, h, [], by simp, by simp⟩

/-- Only primitives were handed to SCCP (and buffers of `ranap_iu_tx` counted). -/
def TrOnly (s s' : State) : Prop :=
  ∃ d b, s' = { s with trace := s.trace ++ d, txBufs := b } ∧ ∀ o ∈ d, o.isSap = true

theorem TrOnly.refl (s : State) : TrOnly s s := ⟨[], s.txBufs, by simp, by simp⟩

theorem TrOnly.txBuf (s : State) (b : Int) : TrOnly s { s with txBufs := b } := ⟨[], b, by simp, by simp⟩

theorem TrOnly.sap (s : State) (p : Prim) (rc : Int) :
    TrOnly s { s with trace := s.trace ++ [.sap p rc] } := ⟨[.sap p rc], s.txBufs, rfl, by simp [Out.isSap]⟩

theorem TrOnly.trans {a b c : State} (h1 : TrOnly a b) (h2 : TrOnly b c) : TrOnly a c := by
  obtain ⟨d1, b1, rfl, p1⟩ := h1
  obtain ⟨d2, b2, rfl, p2⟩ := h2
  refine ⟨d1 ++ d2, b2, by simp [List.append_assoc], ?_⟩
  intro o ho
  rcases List.mem_append.1 ho with h | h
  · exact p1 o h
  · exact p2 o h

theorem TrOnly.eff {s s' : State} (h : TrOnly s s') : Eff s s' := by
  obtain ⟨d, b, rfl, hd⟩ := h
  exact ⟨rfl, rfl, rfl, rfl, UeRel.refl _, d, rfl, hd⟩

/-- Any fault is allowed. -/
abbrev anyF : Fault → Prop := fun _ => True
/-- No fault is allowed. -/
abbrev noF : Fault → Prop := fun _ => False

/-! ## `Eff` for each API function (partial correctness) -/

variable {env : Env}

theorem eff_genMsg (m : TxMsg) (s : State) :
    wp anyF (genMsg env m) (fun _ s' => s' = s) s := by
  unfold genMsg
  simp only [wp_bind, wp_lift]
  split
  · split <;> simp [anyF]
  · trivial

theorem eff_deref (p : Ptr) (s : State) :
    wp anyF (deref p) (fun u s' => s' = s ∧ s.ues.find? (·.ptr = p) = some u) s := by
  rw [wp_deref]; split <;> simp_all [anyF]

theorem eff_freeUe (ue : Option Ptr) (s : State) : wp anyF (freeUe env ue) (fun _ s' => Eff s s') s := by
  unfold freeUe
  cases ue with
  | none => exact Eff.refl s
  | some p =>
    simp only [wp_bind]
    refine wp_mono (eff_deref p s) ?_
    rintro u s' ⟨rfl, _⟩
    simp only [wp_modify, wp_sapDown]
    exact (Eff.timers s' _).trans ((Eff.sap _ _ _).trans (Eff.ofFree _ _ (UeRel.filter _ _)))

theorem tr_iuTx (ue : Option Ptr) (nas : Bytes) (sapi : BitVec 8) (s : State) :
    wp anyF (iuTx env ue nas sapi) (fun _ s' => TrOnly s s') s := by
  unfold iuTx
  cases ue with
  | none => exact TrOnly.txBuf s _
  | some p =>
    simp only [wp_bind, txBuf, wp_modify]
    refine wp_mono (eff_deref p _) ?_
    rintro u s' ⟨rfl, _⟩
    refine wp_mono (eff_genMsg _ _) ?_
    rintro _ s'' rfl
    unfold txData; simp only [wp_sapDown]
    exact ⟨[_], _, rfl, by simp [Out.isSap]⟩

theorem tr_iuTxRelease (p : Ptr) (c : Option Cause) (s : State) :
    wp anyF (iuTxRelease env p c) (fun _ s' => TrOnly s s') s := by
  unfold iuTxRelease
  simp only [wp_bind]
  refine wp_mono (eff_genMsg _ s) ?_
  rintro _ s' rfl
  refine wp_mono (eff_deref p s') ?_
  rintro u s'' ⟨rfl, _⟩
  unfold txData; simp only [wp_sapDown]
  exact TrOnly.sap _ _ _

theorem eff_iuTxReleaseFree (p : Ptr) (c : Option Cause) (t : Int) (s : State) :
    wp anyF (iuTxReleaseFree env p c t) (fun _ s' => Eff s s') s := by
  unfold iuTxReleaseFree
  simp only [wp_bind]
  refine wp_mono (eff_deref p s) ?_
  rintro u s' ⟨rfl, _⟩
  simp only [wp_modify]
  refine wp_mono (tr_iuTxRelease p c _) ?_
  intro rc s'' he
  refine (Eff.ofUes s' (UeRel.map _ _ ?_)).trans (he.eff.trans (Eff.timers _ _))
  intro v
  by_cases hv : v.ptr = p
  · right; simp [hv]
  · left; simp [hv]

theorem tr_iuTxSecModeCmd (p : Ptr) (ik ck : Bytes) (a b : Bool) (s : State) :
    wp anyF (iuTxSecModeCmd env p ik ck a b) (fun _ s' => TrOnly s s') s := by
  unfold iuTxSecModeCmd
  simp only [wp_bind]
  refine wp_mono (eff_genMsg _ s) ?_
  rintro _ s' rfl
  refine wp_mono (eff_deref p s') ?_
  rintro u s'' ⟨rfl, _⟩
  unfold txData; simp only [wp_sapDown]
  exact TrOnly.sap _ _ _

theorem tr_iuTxCommonId (p : Ptr) (imsi : Option Bytes) (s : State) :
    wp anyF (iuTxCommonId env p imsi) (fun _ s' => TrOnly s s') s := by
  unfold iuTxCommonId
  simp only [wp_bind]
  refine wp_mono (eff_deref p s) ?_
  rintro u s'' ⟨rfl, _⟩
  refine wp_mono (eff_genMsg _ s'') ?_
  rintro _ s' rfl
  unfold txData; simp only [wp_sapDown]
  exact TrOnly.sap _ _ _

theorem tr_iuRabAct (p : Ptr) (msg : Bytes) (s : State) :
    wp anyF (iuRabAct env p msg) (fun _ s' => TrOnly s s') s := by
  unfold iuRabAct
  simp only [wp_bind]
  refine wp_mono (eff_deref p s) ?_
  rintro u s'' ⟨rfl, _⟩
  unfold txData; simp only [wp_sapDown]
  exact TrOnly.sap _ _ _

theorem tr_txPagingCmd (a : SccpAddr) (imsi : Bytes) (t : Option (BitVec 32)) (ps : Bool) (c : Nat)
    (s : State) : wp anyF (txPagingCmd env a imsi t ps c) (fun _ s' => TrOnly s s') s := by
  unfold txPagingCmd
  simp only [wp_bind]
  refine wp_mono (eff_genMsg _ s) ?_
  rintro _ s' rfl
  simp only [wp_sapDown]
  exact TrOnly.sap _ _ _

theorem tr_iuPage (imsi : Bytes) (t : Option (BitVec 32)) (lac : BitVec 16) (rac : BitVec 8) (ps : Bool)
    (s : State) : wp anyF (iuPage env imsi t lac rac ps) (fun _ s' => TrOnly s s') s := by
  unfold iuPage
  simp only [wp_bind, wp_get]
  split
  · simp only [wp_bind]
    exact wp_mono (tr_txPagingCmd _ _ _ _ _ s) (fun _ _ h => h)
  · exact TrOnly.refl s

theorem tr_pageLoop (imsi : Bytes) (t : Option (BitVec 32)) (ps : Bool) (hit : Rai → Bool)
    (l : List Rnc) (n : Int) (s : State) :
    wp anyF (pageLoop env imsi t ps hit l n) (fun _ s' => TrOnly s s') s := by
  induction l generalizing n s with
  | nil => exact TrOnly.refl s
  | cons r l ih =>
    unfold pageLoop
    split
    · simp only [wp_bind]
      refine wp_mono (tr_txPagingCmd _ _ _ _ _ s) ?_
      intro rc s' h
      exact wp_mono (ih _ s') (fun _ _ h' => h.trans h')
    · exact ih _ s

/-- The API calls that change more than the trace. -/
def Api.mutates : Api → Bool
  | .freeUe _ => true
  | .txReleaseFree _ _ _ => true
  | _ => false

theorem tr_runApi (a : Api) (h : a.mutates = false) (s : State) :
    wp anyF (runApi env a) (fun _ s' => TrOnly s s') s := by
  unfold runApi
  cases a <;> simp only [wp_bind]
  · cases h
  · exact tr_iuTx _ _ _ s
  · exact tr_iuTxRelease _ _ s
  · cases h
  · exact tr_iuTxSecModeCmd _ _ _ _ _ s
  · exact tr_iuTxCommonId _ _ s
  · exact tr_iuRabAct _ _ s
  · exact TrOnly.refl s
  · exact tr_iuPage _ _ _ _ _ s
  · exact tr_iuPage _ _ _ _ _ s
  · unfold iuPageCs2; simp only [wp_bind, wp_get]; exact tr_pageLoop _ _ _ _ _ _ s
  · unfold iuPagePs2; simp only [wp_bind, wp_get]; exact tr_pageLoop _ _ _ _ _ _ s

theorem eff_runApi (a : Api) (s : State) : wp anyF (runApi env a) (fun _ s' => Eff s s') s := by
  cases hm : a.mutates with
  | false => exact wp_mono (tr_runApi a hm s) (fun _ _ h => h.eff)
  | true =>
    unfold runApi
    cases a <;> first | (cases hm; done) | skip
    · simp only [wp_bind]; exact wp_mono (eff_freeUe _ s) (fun _ _ h => h)
    · simp only [wp_bind]; exact wp_mono (eff_iuTxReleaseFree _ _ _ s) (fun _ _ h => h)

theorem eff_runScript (sc : Script) (s : State) :
    wp anyF (runScript env sc) (fun _ s' => Eff s s') s := by
  induction sc generalizing s with
  | done => exact Eff.refl s
  | call a k ih =>
    unfold runScript
    simp only [wp_bind]
    refine wp_mono (eff_runApi a s) ?_
    intro rc s' h
    exact wp_mono (ih rc s') (fun _ _ h' => h.trans h')

/-- A callback: the call is recorded, then only API effects follow. -/
theorem eff_callback (o : Out) (s : State) :
    wp anyF (callback env o) (fun _ s' => Eff { s with trace := s.trace ++ [o] } s') s := by
  unfold callback
  simp only [wp_bind, wp_emit, wp_get]
  exact eff_runScript _ _

end Verif.Iu
