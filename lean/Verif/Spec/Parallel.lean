import Verif.Spec.Session

/-!
# Many location updates at the same time

Any number of emulators, each with its own connection through a gateway, and one Iu client that serves all of them.
-/

namespace Verif.Session
open Verif.Linked

/-- Emulators `0 .. k-1`, the one client, and what the gateways have passed on. -/
structure Many (k : Nat) where
  hnb : Fin k → Hnb.State
  cn : Iu.State
  up : Fin k → Nat
  down : Fin k → Nat

/-- What of it belongs to one emulator. -/
def Many.of {k : Nat} (σ : Many k) (i : Fin k) : Sys := ⟨σ.hnb i, σ.cn, σ.up i, σ.down i⟩

/-- One emulator, its gateway or the client for it has moved: the other emulators and gateways have not. -/
def Many.put {k : Nat} (σ : Many k) (i : Fin k) (x : Sys) : Many k where
  hnb := fun j => if j = i then x.hnb else σ.hnb j
  cn := x.cn
  up := fun j => if j = i then x.up else σ.up j
  down := fun j => if j = i then x.down else σ.down j

/-- What the sessions have in common is the client and its user; each has its own emulator, connection id and dialogue. -/
structure Sessions (k : Nat) where
  env : Iu.Env
  hnb : Fin k → Hnb.Env
  conn : Fin k → Iu.ConnId
  dialogue : Fin k → Dialogue

/-- Something happens: in one of the sessions (the outcome may be a failure), or the client survives something that is about none
of them. -/
inductive Moves {k : Nat} (S : Sessions k) : Option (Fin k) → Many k → Res (Many k) → Prop
  | of (i : Fin k) {σ : Many k} {x : Sys} (h : Step S.env (S.hnb i) (S.conn i) true (σ.of i) (.ok x)) :
    Moves S (some i) σ (.ok (σ.put i x))
  | breaks (i : Fin k) {σ : Many k} {f : Fault} (h : Step S.env (S.hnb i) (S.conn i) true (σ.of i) (.fault f)) :
    Moves S (some i) σ (.fault f)
  | beside {σ : Many k} {op : Iu.Op} {rc : Int} {s : Iu.State} (ho : ∀ i, Other (S.conn i) σ.cn op)
    (hok : Iu.Spec.OpOk (linked S.env) σ.cn op) (h : Iu.step (linked S.env) op σ.cn = .ok (rc, s)) :
    Moves S none σ (.ok { σ with cn := s })

/-- A schedule: who has moved, the last first. -/
inductive Schedule {k : Nat} (S : Sessions k) (σ : Many k) : List (Fin k) → Many k → Prop
  | refl : Schedule S σ [] σ
  | move {l τ τ' i} (h : Schedule S σ l τ) (hs : Moves S (some i) τ (.ok τ')) : Schedule S σ (i :: l) τ'
  | beside {l τ τ'} (h : Schedule S σ l τ) (hs : Moves S none τ (.ok τ')) : Schedule S σ l τ'

/-- No message is waiting anywhere. -/
def AllQuiet {k : Nat} (S : Sessions k) (σ : Many k) : Prop := ∀ i, Quiet (S.conn i) (σ.of i)

end Verif.Session
