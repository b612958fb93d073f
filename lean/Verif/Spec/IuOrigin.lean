import Verif.Spec.IuHist

/-!
# The messages that open contexts

Nothing here uses the client's own parsing or its lists of contexts and RNCs, except to tell whether a message is the
first one of its connection (`initialUe`, `Spec/IuHist.lean`).
-/

namespace Verif.Iu.Spec

/-- What an acceptable Initial UE Message says about the UE it comes from: connection, RNC and location. -/
structure Opening where
  conn : ConnId
  rnc : RncId
  ra : GprsRaId
  deriving DecidableEq, Repr

/-- The operation brings an acceptable Initial UE Message as first message of a connection. -/
def opening (env : Env) (s : State) (op : Op) : Option Opening :=
  match initialUe env s op with
  | none => none
  | some (c, _, ies) => (readInitialUe ies).map fun x => ⟨c, x.1, x.2.1⟩

/-- All these messages of a history, oldest first. -/
def openings (env : Env) : State → List Op → List Opening
  | _, [] => []
  | s, op :: ops =>
    (opening env s op).toList ++
      match step env op s with
      | .ok (_, s') => openings env s' ops
      | .fault _ => []

/-- The latest one on a connection. -/
def lastOpening (os : List Opening) (c : ConnId) : Option Opening := os.reverse.find? fun o => decide (o.conn = c)

end Verif.Iu.Spec
