import Verif.Spec.Factory

/-!
# What is asked for in a RAB assignment (TS 25.413 9.2.1.2 ff., asn1/ranap/RANAP-IEs.asn)
-/

namespace Verif.Factory.Spec
open Verif.Aper Verif.Gen.Ranap

/-- `mantissa · 10^-exponent` -/
structure Ratio where
  mantissa : Nat
  exponent : Nat
  deriving DecidableEq

/-- Delivery of erroneous SDUs. -/
inductive Erroneous where | yes | no | noErrorDetection
  deriving DecidableEq

inductive TrafficClass where | conversational | streaming | interactive | background
  deriving DecidableEq

inductive Asymmetry where | symmetricBidirectional | unidirectionalDownlink | unidirectionalUplink | asymmetricBidirectional
  deriving DecidableEq

/-- A subflow; `sizes` are the sizes of its SDUs in bits, in the order of the formats. -/
structure Subflow where
  sduErrorRatio : Option Ratio
  residualBitErrorRatio : Ratio
  erroneous : Erroneous
  sizes : List Nat
  deriving DecidableEq

/-- Allocation and retention priority; level 15 is "no priority". -/
structure Priority where
  level : Nat
  mayPreempt : Bool
  preemptable : Bool
  queueing : Bool
  deriving DecidableEq

/-- The parameters of a radio access bearer (bits, bit/s, ms). -/
structure Rab where
  trafficClass : TrafficClass
  asymmetry : Asymmetry
  maxBitrate : List Nat
  guaranteedBitrate : List Nat
  inOrder : Bool
  maxSduSize : Nat
  subflows : List Subflow
  transferDelay : Option Nat
  priority : Priority
  speech : Bool
  extendedMaxBitrate : List Nat
  deriving DecidableEq

def ints (l : List Nat) : Val := .list (l.map fun (n : Nat) => .int n)

/-- Nothing is written for an empty list. -/
def intsIfAny : List Nat → Option Val
  | [] => none
  | l => some (ints l)

def Ratio.val (r : Ratio) : Val := .seq [some (.int r.mantissa), some (.int r.exponent), none]

/-- In the order of the enumeration. -/
def Erroneous.val : Erroneous → Val
  | .yes => .enum 0
  | .no => .enum 1
  | .noErrorDetection => .enum 2

def TrafficClass.val : TrafficClass → Val
  | .conversational => .enum 0
  | .streaming => .enum 1
  | .interactive => .enum 2
  | .background => .enum 3

def Asymmetry.val : Asymmetry → Val
  | .symmetricBidirectional => .enum 0
  | .unidirectionalDownlink => .enum 1
  | .unidirectionalUplink => .enum 2
  | .asymmetricBidirectional => .enum 3

/-- SDU-ParameterItem: SDU error ratio, residual bit error ratio, delivery of erroneous SDUs, format information. -/
def Subflow.val (f : Subflow) : Val :=
  .seq [f.sduErrorRatio.map Ratio.val, some f.residualBitErrorRatio.val, some f.erroneous.val,
    match f.sizes with
    | [] => none
    | l => some (.list (l.map fun (n : Nat) => .seq [some (.int n), none, none])), none]

/-- AllocationOrRetentionPriority. -/
def Priority.val (p : Priority) : Val :=
  .seq [some (.int p.level), some (.enum (if p.mayPreempt then 1 else 0)), some (.enum (if p.preemptable then 1 else 0)),
    some (.enum (if p.queueing then 1 else 0)), none]

/-- RAB-Parameters, in the order of the ASN.1 specification; the extended maximum bit rates are an extension (id 177, criticality
ignore) in an encoding of its own. -/
def IsRab (v : Val) (p : Rab) : Prop :=
  ∃ ext, v = .seq [some p.trafficClass.val, some p.asymmetry.val, some (ints p.maxBitrate), intsIfAny p.guaranteedBitrate,
      some (.enum (if p.inOrder then 0 else 1)), some (.int p.maxSduSize), some (.list (p.subflows.map Subflow.val)),
      p.transferDelay.map (fun (n : Nat) => .int n), none, some p.priority.val, if p.speech then some (.enum 0) else none, none, ext] ∧
    match p.extendedMaxBitrate with
    | [] => ext = none
    | l => ∃ b, ext = some (.list [.seq [some (.int 177), some (.enum 1), some (.octets b)]]) ∧
        decode RANAP_RAB_Parameter_ExtendedMaxBitrateList b = some (ints l)

/-- User plane mode: transparent, or support mode for predefined SDU sizes; and the versions of it that may be used. -/
def userPlane (predefinedSizes : Bool) (versions : BitVec 16) : Val :=
  .seq [some (.enum (if predefinedSizes then 1 else 0)),
    some (.bits ((List.range 16).map fun i => versions.getMsbD i)), none]

/-- A RAB assignment request for a single RAB: its id, the NAS synchronisation indicator (four bits), the parameters, the user
plane, the transport layer information; and the second part of the item. -/
def AsksFor (bs : Bytes) (rab : Byte) (nas : Option (BitVec 4)) (p : Rab) (up : Val) (transport : Val → Prop) (second : Val) : Prop :=
  ∃ b1 b2 par t,
    Says bs 1 0 [(54, .list [.list [.seq [some (.int 53), some (.enum 0), some (.octets b1), some (.enum 1),
      some (.octets b2)]]])] ∧
    decode RANAP_RAB_SetupOrModifyItemFirst b1 =
      some (.seq [some (.bits (octetsBits [rab])), nas.map (fun n => .bits ((List.range 4).map fun i => n.getMsbD i)), some par,
        some up, some t, none, none]) ∧
    decode RANAP_RAB_SetupOrModifyItemSecond b2 = some second ∧ IsRab par p ∧ transport t

/-! ## The two services -/

/-- AMR speech at 12.2 kbit/s with silence descriptors: three subflows, each with a format for speech and one for silence. -/
def amr122 : Rab where
  trafficClass := .conversational
  asymmetry := .symmetricBidirectional
  maxBitrate := [12200]
  guaranteedBitrate := [6700]
  inOrder := true
  maxSduSize := 244
  subflows := [
    { sduErrorRatio := some ⟨1, 5⟩, residualBitErrorRatio := ⟨1, 6⟩, erroneous := .yes, sizes := [81, 39] },
    { sduErrorRatio := none, residualBitErrorRatio := ⟨1, 3⟩, erroneous := .noErrorDetection, sizes := [103, 0] },
    { sduErrorRatio := none, residualBitErrorRatio := ⟨5, 3⟩, erroneous := .noErrorDetection, sizes := [60, 0] }]
  transferDelay := some 80
  priority := { level := 15, mayPreempt := false, preemptable := true, queueing := false }
  speech := true
  extendedMaxBitrate := []

/-- Background data: 1.6 Mbit/s down, 0.8 Mbit/s up, or 42 Mbit/s where that can be said. -/
def background : Rab where
  trafficClass := .background
  asymmetry := .asymmetricBidirectional
  maxBitrate := [1600000, 800000]
  guaranteedBitrate := []
  inOrder := true
  maxSduSize := 8000
  subflows := [{ sduErrorRatio := some ⟨1, 4⟩, residualBitErrorRatio := ⟨1, 5⟩, erroneous := .no, sizes := [] }]
  transferDelay := none
  priority := { level := 15, mayPreempt := false, preemptable := false, queueing := false }
  speech := false
  extendedMaxBitrate := [42000000]

/-- The second part for data: PDP type IPv4, no reporting of data volumes, sequence numbers 0. -/
def ipv4Data : Val :=
  .seq [some (.list [.enum 3]), some (.enum 1), some (.int 0), some (.int 0), none, none, none]

/-- ... and for speech: nothing. -/
def noData : Val := .seq [none, none, none, none, none, none, none]

/-! ## Conditions in the ASN.1 specification that its syntax does not express -/

/-- "This IE shall be present if the traffic class IE is set to Conversational or Streaming" (guaranteed bit rate, transfer delay,
source statistics descriptor); "... to Interactive" (traffic handling priority: there is none in `Rab`); "... if the Delivery Of
Erroneous SDU IE is set to Yes or No" (SDU error ratio). -/
structure Rab.Proper (p : Rab) : Prop where
  realTime : p.trafficClass = .conversational ∨ p.trafficClass = .streaming →
    p.guaranteedBitrate ≠ [] ∧ p.transferDelay.isSome = true ∧ p.speech = true
  notInteractive : p.trafficClass ≠ .interactive
  errorRatio : ∀ f ∈ p.subflows, f.erroneous ≠ .noErrorDetection → f.sduErrorRatio.isSome = true
  perDirection : p.maxBitrate.length = if p.asymmetry = .asymmetricBidirectional then 2 else 1

/-- All subflows have the same number of formats; the SDUs of all subflows together are at most as long as the maximum SDU size, and
as long in the first format. -/
def Rab.SizesAgree (p : Rab) : Prop :=
  (∀ f ∈ p.subflows, ∀ g ∈ p.subflows, f.sizes.length = g.sizes.length) ∧
  (∀ i : Nat, (p.subflows.map fun f => match f.sizes[i]? with | some n => n | none => 0).sum ≤ p.maxSduSize) ∧
  (p.subflows.map fun f => match f.sizes[0]? with | some n => n | none => 0).sum = p.maxSduSize

end Verif.Factory.Spec
