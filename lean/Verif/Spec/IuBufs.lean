import Verif.Spec.IuFlow

/-!
# Buffers of NAS messages
-/

namespace Verif.Iu.Spec

/-- The operation brings a message with a NAS PDU (an Initial UE Message as first message of a
connection, or a Direct Transfer) whose location elements are not acceptable. -/
def refused (env : Env) (s : State) (op : Op) : Bool :=
  ((initialUe env s op).isSome || (directTransfer env s op).isSome) && (uplink env s op).isNone

/-- The number of refused messages in a history. -/
def refusals (env : Env) : State → List Op → Int
  | _, [] => 0
  | s, op :: ops => (if refused env s op then 1 else 0) +
      match step env op s with
      | .ok (_, s') => refusals env s' ops
      | .fault _ => 0

/-- The caller of `ranap_iu_tx` did not set the destination. -/
def unsetDst : Api → Bool
  | .tx none _ _ => true
  | _ => false

/-- A callback never transmits without a destination. -/
def DstSet : Script → Prop
  | .done => True
  | .call a k => unsetDst a = false ∧ ∀ rc, DstSet (k rc)

end Verif.Iu.Spec
