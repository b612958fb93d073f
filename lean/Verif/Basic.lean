/-!
# Outcomes and buffers

C code may run into undefined behaviour or a failed assertion.  Both are the
distinct outcome `Res.fault`; no model function assumes them away.
-/

namespace Verif

/-- One octet (`uint8_t`). -/
abbrev Byte := BitVec 8
/-- An octet string / buffer content. -/
abbrev Bytes := List Byte

/-- Why a C execution has no further defined behaviour. -/
inductive Fault where
  /-- write outside an object -/
  | oobWrite
  /-- read outside an object -/
  | oobRead
  /-- NULL pointer dereference -/
  | nullDeref
  /-- access to a freed object -/
  | useAfterFree
  /-- `OSMO_ASSERT` / `msgb_put` abort the process -/
  | abort
  /-- a list traversal does not terminate -/
  | diverge
  /-- reading a union member other than the one written -/
  | wrongUnion
  deriving DecidableEq, Repr

/-- Result of a C function: a value, or no defined continuation. -/
inductive Res (α : Type) where
  | ok (a : α)
  | fault (f : Fault)
  deriving DecidableEq, Repr

namespace Res

/-- Sequencing: a fault stops the execution. -/
def bind {α β : Type} (r : Res α) (f : α → Res β) : Res β :=
  match r with
  | .ok a => f a
  | .fault e => .fault e

instance : Monad Res where
  pure := Res.ok
  bind := Res.bind

/-- The execution is defined. -/
def isOk {α : Type} : Res α → Bool
  | .ok _ => true
  | .fault _ => false

@[simp] theorem pure_eq {α : Type} (a : α) : (pure a : Res α) = .ok a := rfl
@[simp] theorem ok_bind {α β : Type} (a : α) (f : α → Res β) : (Res.ok a >>= f) = f a := rfl
@[simp] theorem fault_bind {α β : Type} (e : Fault) (f : α → Res β) :
    ((Res.fault e : Res α) >>= f) = .fault e := rfl

theorem bind_eq_ok {α β : Type} {r : Res α} {f : α → Res β} {b : β} :
    (r >>= f) = .ok b ↔ ∃ a, r = .ok a ∧ f a = .ok b := by
  cases r <;> simp

end Res

/-- A C buffer: its content (the length of the list is its size). -/
abbrev Buf := Bytes

/-- `buf[i] = v` for a buffer of `buf.length` octets. -/
def bufWrite (buf : Buf) (i : Nat) (v : Byte) : Res Buf :=
  if i < buf.length then .ok (buf.set i v) else .fault .oobWrite

/-- `buf[i]` for a buffer of `buf.length` octets. -/
def bufRead (buf : Buf) (i : Nat) : Res Byte :=
  match buf[i]? with
  | some v => .ok v
  | none => .fault .oobRead

/-- `osmo_load16be` on two octets (external, DESIGN.md section 3). -/
def load16be (hi lo : Byte) : BitVec 16 := hi ++ lo

/-- `osmo_load32be` on four octets. -/
def load32be (a b c d : Byte) : BitVec 32 := a ++ b ++ c ++ d

/-- The octets written by `osmo_store16be`. -/
def store16be (v : BitVec 16) : Bytes := [v.extractLsb' 8 8, v.extractLsb' 0 8]

/-- The octets in memory of `htonl(v)` on any host: big-endian. -/
def store32be (v : BitVec 32) : Bytes :=
  [v.extractLsb' 24 8, v.extractLsb' 16 8, v.extractLsb' 8 8, v.extractLsb' 0 8]

end Verif
