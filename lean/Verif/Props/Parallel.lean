import Verif.Spec.Parallel
import Verif.Props.Session

/-!
# C104: any number of location updates at the same time

The sessions of C101 share one client.  Every move in one session is, for the others, one of the things the client does
beside.
-/

namespace Verif.Props
open Verif.Session Verif.Hnb.Spec Verif.Linked
open Verif.Iu.Spec (InUse HasCtx OpOk RunOk)

/-- All sessions begin as in C101, with different connection ids. -/
structure AllBegin {k : Nat} (S : Sessions k) (σ : Many k) : Prop where
  begins : ∀ i, Begins S.env (S.hnb i) (S.conn i) (S.dialogue i) (σ.of i)
  different : ∀ i j, i ≠ j → S.conn i ≠ S.conn j

variable {k : Nat} {S : Sessions k} {σ τ : Many k} {l : List (Fin k)}

theorem many_put_self (σ : Many k) (i : Fin k) (x : Sys) : (σ.put i x).of i = x := by
  simp [Many.put, Many.of]

theorem many_put_other (σ : Many k) {i j : Fin k} (h : j ≠ i) (x : Sys) : (σ.put i x).of j = { σ.of j with cn := x.cn } := by
  simp [Many.put, Many.of, h]

/-- What a move in one session is to the client: nothing, or a proper operation on the connection of this session. -/
theorem session_client {env : Iu.Env} {hnb : Hnb.Env} {c : Iu.ConnId} {d : Dialogue} {σ τ τ' : Sys} {n : Nat}
    (h : Begins env hnb c d σ) (hs : Steps env hnb c n σ τ) (hm : Step env hnb c true τ (.ok τ')) :
    τ'.cn = τ.cn ∨ ∃ op rc, (∀ c', c ≠ c' → ∀ s, Other c' s op) ∧ OpOk (linked env) τ.cn op ∧
      Iu.step (linked env) op τ.cn = .ok (rc, τ'.cn) := by
  obtain ⟨q, hq⟩ := begins_at h hs
  generalize hr : Res.ok τ' = r at hm
  cases hm with
  | write hw =>
    left
    unfold Sys.hnbMove at hr
    split at hr <;> cases hr
    rfl
  | @connect _ m ranap calling hm hc =>
    right
    obtain ⟨-, kk, w, h1, h2, -, -⟩ := hq.next hm
    obtain rfl := isK_connect h2 hc
    have hx := hq.fresh (cfgs_opening q hq.cfg (by rw [h1]; rfl))
    unfold Sys.cnMove at hr
    split at hr <;> cases hr
    rename_i rc s e
    exact ⟨.connectInd c calling ranap, rc, fun c' hc _ => hc, hx, e⟩
  | @data _ m ranap hm hc =>
    right
    unfold Sys.cnMove at hr
    split at hr <;> cases hr
    rename_i rc s e
    exact ⟨.dataInd c ranap, rc, fun c' hc _ => hc, trivial, e⟩
  | down hm hg hd =>
    left
    unfold Sys.hnbMove at hr
    split at hr <;> cases hr
    rfl

/-- Each session goes through a schedule of C101; its moves are those made in it. -/
theorem parallel_project (h : AllBegin S σ) (hs : Schedule S σ l τ) (i : Fin k) :
    Steps S.env (S.hnb i) (S.conn i) (l.count i) (σ.of i) (τ.of i) := by
  induction hs generalizing i with
  | refl => exact .refl
  | @move l τ τ' j _ hm ih =>
    generalize hr : Res.ok τ' = r at hm
    generalize ho : some j = o at hm
    cases hm with
    | of j' hst =>
      cases ho
      cases hr
      by_cases hij : i = j
      · subst hij
        rw [List.count_cons_self, many_put_self]
        exact .move (ih i) hst
      · rw [List.count_cons_of_ne (Ne.symm hij), many_put_other _ hij]
        rcases session_client (h.begins j) (ih j) hst with e | ⟨op, rc, h1, h2, h3⟩
        · rw [e]
          exact ih i
        · exact .beside (ih i) (.other (h1 _ (h.different j i (Ne.symm hij)) _) h2 h3)
    | breaks => cases hr
    | beside => cases ho
  | @beside l τ τ' _ hm ih =>
    generalize hr : Res.ok τ' = r at hm
    generalize ho : none = o at hm
    cases hm with
    | of => cases ho
    | breaks => cases ho
    | beside h1 h2 h3 =>
      cases hr
      exact .beside (ih i) (.other (h1 i) h2 h3)

/-- **C104.** Whatever is done next, nothing breaks. -/
theorem C104_nothing_breaks (h : AllBegin S σ) (hs : Schedule S σ l τ) {o : Option (Fin k)} {r : Res (Many k)}
    (hr : Moves S o τ r) : ∃ τ', r = .ok τ' := by
  cases hr with
  | of => exact ⟨_, rfl⟩
  | breaks i hst =>
    obtain ⟨τ', e⟩ := C101_nothing_breaks (h.begins i) (parallel_project h hs i) hst
    cases e
  | beside => exact ⟨_, rfl⟩

theorem length_le_of_counts {k : Nat} (l : List (Fin k)) (m : Nat) (h : ∀ i, l.count i ≤ m) : l.length ≤ m * k := by
  have key : ∀ (xs : List (Fin k)) (l : List (Fin k)), (∀ i, l.count i ≤ m) → (∀ i ∈ l, i ∈ xs) → l.length ≤ m * xs.length := by
    intro xs
    induction xs with
    | nil =>
      intro l _ hl
      cases l with
      | nil => simp
      | cons a l => exact absurd (hl a (List.mem_cons_self ..)) (by simp)
    | cons x xs ih =>
      intro l hc hl
      have h1 := ih (l.filter (· ≠ x)) (fun i => Nat.le_trans ((List.filter_sublist).count_le i) (hc i)) (by
        intro i hi
        obtain ⟨h1, h2⟩ := List.mem_filter.1 hi
        rcases List.mem_cons.1 (hl i h1) with rfl | h3
        · simp at h2
        · exact h3)
      have h2 : l.length = l.count x + (l.filter (· ≠ x)).length := by
        rw [List.length_eq_countP_add_countP (· == x), List.count, ← List.countP_eq_length_filter]
        congr 1
        apply List.countP_congr
        intro a _
        simp
      have h3 := hc x
      rw [List.length_cons, Nat.mul_succ]
      omega
  have := key (List.finRange k) l h (fun i _ => List.mem_finRange i)
  rwa [List.length_finRange] at this

/-- **C104.** As long as a message is waiting anywhere, something can be done in one of the sessions; twenty moves in each are all
there can be. -/
theorem C104_goes_on (h : AllBegin S σ) (hs : Schedule S σ l τ) :
    (∀ i, l.count i ≤ 20) ∧ l.length ≤ 20 * k ∧ (¬ AllQuiet S τ → ∃ i τ', Moves S (some i) τ (.ok τ')) := by
  have h1 : ∀ i, l.count i ≤ 20 := fun i => (C101_goes_on (h.begins i) (parallel_project h hs i)).1
  refine ⟨h1, length_le_of_counts l 20 h1, fun hq => ?_⟩
  obtain ⟨i, hi⟩ := Classical.not_forall.1 hq
  obtain ⟨x, hx⟩ := (C101_goes_on (h.begins i) (parallel_project h hs i)).2 hi
  exact ⟨i, _, .of i hx⟩

/-- ... and in the session it waits in. -/
theorem C104_nobody_is_stuck (h : AllBegin S σ) (hs : Schedule S σ l τ) (i : Fin k) (hq : ¬ Quiet (S.conn i) (τ.of i)) :
    ∃ τ', Moves S (some i) τ (.ok τ') := by
  obtain ⟨x, hx⟩ := (C101_goes_on (h.begins i) (parallel_project h hs i)).2 hq
  exact ⟨_, .of i hx⟩

/-- **C104.** At all times, what has been seen of each connection is a beginning of its own transcript. -/
theorem C104_in_order (h : AllBegin S σ) (hs : Schedule S σ l τ) (i : Fin k) :
    ∃ t b, acts (S.conn i) τ.cn.trace = acts (S.conn i) σ.cn.trace ++ t ∧ t <+: transcript (S.hnb i) (S.dialogue i) b :=
  C101_in_order (h.begins i) (parallel_project h hs i)

/-- **C104.** When nothing is waiting any more, every location update has been completed, and no context is left of any of them. -/
theorem C104_completes (h : AllBegin S σ) (hs : Schedule S σ l τ) (hq : AllQuiet S τ) (i : Fin k) :
    ∃ b, acts (S.conn i) τ.cn.trace = acts (S.conn i) σ.cn.trace ++ transcript (S.hnb i) (S.dialogue i) b ∧
      l.count i = (if b then 20 else 18) ∧ ¬ HasCtx τ.cn (S.conn i) :=
  C101_completes (h.begins i) (parallel_project h hs i) (hq i)

/-- **C104.** So all can always be completed. -/
theorem C104_can_complete (h : AllBegin S σ) (hs : Schedule S σ l τ) : ∃ l' τ', Schedule S σ l' τ' ∧ AllQuiet S τ' ∧ l <:+ l' := by
  have key : ∀ m l τ, 20 * k ≤ l.length + m → Schedule S σ l τ → ∃ l' τ', Schedule S σ l' τ' ∧ AllQuiet S τ' ∧ l <:+ l' := by
    intro m
    induction m with
    | zero =>
      intro l τ hn hs
      by_cases hq : AllQuiet S τ
      · exact ⟨l, τ, hs, hq, List.suffix_refl _⟩
      · obtain ⟨i, τ', h'⟩ := (C104_goes_on h hs).2.2 hq
        have := (C104_goes_on h (.move hs h')).2.1
        rw [List.length_cons] at this
        omega
    | succ m ih =>
      intro l τ hn hs
      by_cases hq : AllQuiet S τ
      · exact ⟨l, τ, hs, hq, List.suffix_refl _⟩
      · obtain ⟨i, τ', h'⟩ := (C104_goes_on h hs).2.2 hq
        obtain ⟨l', τ'', g1, g2, g3⟩ := ih (i :: l) τ' (by rw [List.length_cons]; omega) (.move hs h')
        exact ⟨l', τ'', g1, g2, (List.suffix_cons i l).trans g3⟩
  exact key (20 * k) l τ (by omega) hs

/-- There are such systems, for every number of emulators: connection ids 0, 1, ..., at a client that has just been started. -/
theorem msc_all_begin (k : Nat) (hk : k ≤ 2 ^ 32) : ∃ (S : Sessions k) (σ : Many k), AllBegin S σ := by
  have hb : ∀ i : Fin k, ∃ e', Begins (msc demoHnb demoDialogue) demoHnb (BitVec.ofNat 32 i.val) demoDialogue
      ⟨e', Iu.init, e'.sent.length, (sends (acts (BitVec.ofNat 32 i.val) Iu.init.trace)).length⟩ := fun i =>
    msc_begins demoDialogue_valid _ reach_init rfl rfl [] (s := Iu.init) (ops := []) trivial rfl (by
      unfold InUse HasCtx
      simp [Iu.init])
  refine ⟨⟨msc demoHnb demoDialogue, fun _ => demoHnb, fun i => BitVec.ofNat 32 i.val, fun _ => demoDialogue⟩,
    ⟨fun i => Classical.choose (hb i), Iu.init, fun i => (Classical.choose (hb i)).sent.length,
      fun i => (sends (acts (BitVec.ofNat 32 i.val) Iu.init.trace)).length⟩, ?_, ?_⟩
  · exact fun i => Classical.choose_spec (hb i)
  · intro i j hij he
    have := congrArg BitVec.toNat he
    simp only [BitVec.toNat_ofNat] at this
    rw [Nat.mod_eq_of_lt (by omega), Nat.mod_eq_of_lt (by omega)] at this
    exact hij (Fin.ext this)

/-- So a thousand location updates, interleaved in any way, can be and are all completed. -/
example : ∃ (S : Sessions 1000) (σ : Many 1000) (l : List (Fin 1000)) (τ : Many 1000), AllBegin S σ ∧ Schedule S σ l τ ∧
    AllQuiet S τ ∧ 18 ≤ l.count 999 := by
  obtain ⟨S, σ, h⟩ := msc_all_begin 1000 (by decide)
  obtain ⟨l, τ, h1, h2, -⟩ := C104_can_complete h .refl
  obtain ⟨b, -, hc, -⟩ := C104_completes h h1 h2 999
  exact ⟨S, σ, l, τ, h, h1, h2, by rw [hc]; split <;> omega⟩

end Verif.Props
