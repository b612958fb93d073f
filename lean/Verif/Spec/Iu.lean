import Verif.Model.IuTypes

/-!
# Vocabulary for the properties of the Iu client
-/

namespace Verif.Iu.Spec

/-- Two PLMN identities denote the same network: for two-digit values the number of MNC
digits matters (01 is not 001). -/
def SamePlmn (a b : Plmn) : Prop := a.mcc = b.mcc ∧ a.mnc = b.mnc ∧ (a.mnc < 100 → a.mnc3 = b.mnc3)

/-- Same location area. -/
def SameLai (a b : Verif.Lai) : Prop := SamePlmn a.plmn b.plmn ∧ a.lac = b.lac

/-- Same routing area. -/
def SameArea (a b : Rai) : Prop := SameLai a.lai b.lai ∧ a.rac = b.rac

/-- Same RNC. -/
def SameRnc (a b : RncId) : Prop := SamePlmn a.plmn b.plmn ∧ a.rncId = b.rncId

instance (a b : Plmn) : Decidable (SamePlmn a b) := by unfold SamePlmn; infer_instance
instance (a b : Verif.Lai) : Decidable (SameLai a b) := by unfold SameLai; infer_instance
instance (a b : Rai) : Decidable (SameArea a b) := by unfold SameArea; infer_instance
instance (a b : RncId) : Decidable (SameRnc a b) := by unfold SameRnc; infer_instance

/-- What one accepted Initial UE Message tells about the radio network. -/
structure Registration where
  rnc : RncId
  area : Rai
  addr : SccpAddr
  deriving DecidableEq, Repr

/-- The RNC named in the most recent registration of an area. -/
def lastRnc (regs : List Registration) (area : Rai) : Option RncId :=
  (regs.reverse.find? fun g => decide (SameArea g.area area)).map (·.rnc)

/-- The SCCP address of the most recent registration of an RNC. -/
def lastAddr (regs : List Registration) (rnc : RncId) : Option SccpAddr :=
  (regs.reverse.find? fun g => decide (SameRnc g.rnc rnc)).map (·.addr)

/-- An RNC record serves an area. -/
def Serves (r : Rnc) (area : Rai) : Prop := ∃ e ∈ r.areas, SameArea e area

/-- An RNC record serves some area within a location area. -/
def ServesLai (r : Rnc) (lai : Verif.Lai) : Prop := ∃ e ∈ r.areas, SameLai e.lai lai

instance (r : Rnc) (area : Rai) : Decidable (Serves r area) := by unfold Serves; infer_instance
instance (r : Rnc) (lai : Verif.Lai) : Decidable (ServesLai r lai) := by unfold ServesLai; infer_instance

/-- The context a handle denotes. -/
def Live (s : State) (p : Ptr) : Prop := ∃ u ∈ s.ues, u.ptr = p

/-- What happened between two states of a history. -/
def Happened (s s' : State) (d : List Out) : Prop := s'.trace = s.trace ++ d

end Verif.Iu.Spec
