import Verif.Spec.CsnMsg
import Verif.Rlc.Ctx

/-!
# The bits of the messages a station acts on

Field by field in the order of 3GPP TS 44.060, 11.2 and 12; written without looking at the tables of the code.
-/
namespace Verif.Spec

/-- An optional element: a zero bit, or a one bit and the element. -/
def opt : Option (List Bool) → List Bool
  | none => [false]
  | some l => true :: l

/-- Packet Timing Advance (12.12): value; index and timeslot. -/
structure TimingAdv where
  value : Option Nat
  index : Option (Nat × Nat)

def TimingAdv.bits (t : TimingAdv) : List Bool :=
  opt (t.value.map fun x => natBits 6 x) ++ opt (t.index.map fun p => natBits 4 p.1 ++ natBits 3 p.2)

def TimingAdv.Ok (t : TimingAdv) : Prop :=
  (∀ x, t.value = some x → x < 64) ∧ ∀ p, t.index = some p → p.1 < 16 ∧ p.2 < 8

/-- Starting Frame Number Description (12.21): absolute (T1', T3, T2), or relative. -/
def startBits : Rlc.StartTime → List Bool
  | .abs t1 t3 t2 => false :: (natBits 5 t1 ++ natBits 6 t3 ++ natBits 5 t2)
  | .rel k => true :: natBits 13 k

def StartOk : Rlc.StartTime → Prop
  | .abs t1 t3 t2 => t1 < 32 ∧ t3 < 64 ∧ t2 < 32
  | .rel k => k < 8192

/-- How the station is addressed: Global TFI (12.10) or TLLI. -/
inductive Station where
  | ul (tfi : Nat)
  | dl (tfi : Nat)
  | tlli (tlli : Nat)
  deriving DecidableEq, Repr

def Station.bits : Station → List Bool
  | .ul tfi => [false] ++ [false] ++ natBits 5 tfi
  | .dl tfi => [false] ++ [true] ++ natBits 5 tfi
  | .tlli t => [true, false] ++ natBits 32 t

def Station.Ok : Station → Prop
  | .ul tfi => tfi < 32
  | .dl tfi => tfi < 32
  | .tlli t => t < 2 ^ 32

/-- Which station the context looks for. -/
def Station.msId : Station → Rlc.MsId
  | .ul tfi => .ulTfi tfi
  | .dl tfi => .dlTfi tfi
  | .tlli t => .tlli t

/-- Frequency Parameters (12.8): training sequence; ARFCN, or indirect encoding with MAIO, MA number and change
marks.  The two forms of direct encoding are left out. -/
inductive Freq where
  | arfcn (tsc n : Nat)
  | indirect (tsc maio ma : Nat) (mark : Option (Nat × Option Nat))

def Freq.bits : Freq → List Bool
  | .arfcn tsc n => natBits 3 tsc ++ [false, false] ++ natBits 10 n
  | .indirect tsc maio ma mark => natBits 3 tsc ++ [false, true] ++ natBits 6 maio ++ natBits 4 ma ++
    opt (mark.map fun p => natBits 2 p.1 ++ opt (p.2.map fun x => natBits 2 x))

def Freq.Ok : Freq → Prop
  | .arfcn tsc n => tsc < 8 ∧ n < 1024
  | .indirect tsc maio ma mark => tsc < 8 ∧ maio < 64 ∧ ma < 16 ∧
    ∀ p, mark = some p → p.1 < 4 ∧ ∀ x, p.2 = some x → x < 4

/-- Power Control Parameters (12.13): ALPHA, and GAMMA for each timeslot. -/
structure Power where
  alpha : Nat
  gamma : Nat → Option Nat

def Power.bits (p : Power) : List Bool :=
  natBits 4 p.alpha ++ (List.range 8).flatMap fun i => opt ((p.gamma i).map fun x => natBits 5 x)

def Power.Ok (p : Power) : Prop := p.alpha < 16 ∧ ∀ i x, p.gamma i = some x → x < 32

/-- Persistence levels. -/
structure Persistence where
  a : Nat
  b : Nat
  c : Nat
  d : Nat

def Persistence.bits (p : Persistence) : List Bool := natBits 4 p.a ++ natBits 4 p.b ++ natBits 4 p.c ++ natBits 4 p.d

def Persistence.Ok (p : Persistence) : Prop := p.a < 16 ∧ p.b < 16 ∧ p.c < 16 ∧ p.d < 16

/-- PACKET DOWNLINK ASSIGNMENT (11.2.7) without measurement mapping and additions. -/
structure DlAssignment where
  page : Nat
  persistence : Option Persistence
  station : Station
  macMode : Nat
  rlcMode : Nat
  ctrlAck : Bool
  /-- one bit for each timeslot, timeslot 0 first -/
  slots : Nat
  ta : TimingAdv
  /-- P0, BTS_PWR_CTRL_MODE, PR_MODE -/
  p0 : Option (Nat × Nat × Nat)
  freq : Option Freq
  tfi : Option Nat
  power : Option Power
  start : Option Rlc.StartTime

def DlAssignment.bits (d : DlAssignment) : List Bool :=
  natBits 6 2 ++ natBits 2 d.page ++ opt (d.persistence.map Persistence.bits) ++ d.station.bits ++ [false] ++
  natBits 2 d.macMode ++ natBits 1 d.rlcMode ++ [d.ctrlAck] ++ natBits 8 d.slots ++ d.ta.bits ++
  opt (d.p0.map fun p => natBits 4 p.1 ++ natBits 1 p.2.1 ++ natBits 1 p.2.2) ++ opt (d.freq.map Freq.bits) ++
  opt (d.tfi.map fun x => natBits 5 x) ++ opt (d.power.map Power.bits) ++ opt (d.start.map startBits) ++ [false] ++ [false]

structure DlAssignment.Ok (d : DlAssignment) : Prop where
  page : d.page < 4
  persistence : ∀ p, d.persistence = some p → p.Ok
  station : d.station.Ok
  macMode : d.macMode < 4
  rlcMode : d.rlcMode < 2
  slots : d.slots < 256
  ta : d.ta.Ok
  p0 : ∀ p, d.p0 = some p → p.1 < 16 ∧ p.2.1 < 2 ∧ p.2.2 < 2
  freq : ∀ f, d.freq = some f → f.Ok
  tfi : ∀ x, d.tfi = some x → x < 32
  power : ∀ p, d.power = some p → p.Ok
  start : ∀ s, d.start = some s → StartOk s

/-- The timeslots of a PACKET UPLINK ASSIGNMENT: USF for each, or ALPHA and USF and GAMMA for each. -/
inductive UlSlots where
  | plain (usf : Nat → Option Nat)
  | power (alpha : Nat) (slot : Nat → Option (Nat × Nat))

def UlSlots.bits : UlSlots → List Bool
  | .plain usf => false :: (List.range 8).flatMap fun i => opt ((usf i).map fun x => natBits 3 x)
  | .power alpha slot => true :: (natBits 4 alpha ++
    (List.range 8).flatMap fun i => opt ((slot i).map fun p => natBits 3 p.1 ++ natBits 5 p.2))

def UlSlots.Ok : UlSlots → Prop
  | .plain usf => ∀ i x, usf i = some x → x < 8
  | .power alpha slot => alpha < 16 ∧ ∀ i p, slot i = some p → p.1 < 8 ∧ p.2 < 32

/-- The USF of each timeslot that is assigned. -/
def UlSlots.usf : UlSlots → Nat → Option Nat
  | .plain usf, i => usf i
  | .power _ slot, i => (slot i).map Prod.fst

/-- PACKET UPLINK ASSIGNMENT (11.2.29) with dynamic allocation, without additions. -/
structure UlAssignment where
  page : Nat
  persistence : Option Persistence
  station : Station
  codingCommand : Nat
  tlliCoding : Nat
  ta : TimingAdv
  freq : Option Freq
  extended : Nat
  /-- P0, PR_MODE -/
  p0 : Option (Nat × Nat)
  granularity : Nat
  tfi : Option Nat
  granted : Option Nat
  start : Option Rlc.StartTime
  slots : UlSlots

def UlAssignment.bits (d : UlAssignment) : List Bool :=
  natBits 6 10 ++ natBits 2 d.page ++ opt (d.persistence.map Persistence.bits) ++ d.station.bits ++ [false] ++
  natBits 2 d.codingCommand ++ natBits 1 d.tlliCoding ++ d.ta.bits ++ opt (d.freq.map Freq.bits) ++ [false, true] ++
  natBits 1 d.extended ++ opt (d.p0.map fun p => natBits 4 p.1 ++ natBits 1 p.2) ++ natBits 1 d.granularity ++
  opt (d.tfi.map fun x => natBits 5 x) ++ opt (d.granted.map fun x => natBits 8 x) ++
  opt (d.start.map startBits) ++ d.slots.bits ++ [false]

structure UlAssignment.Ok (d : UlAssignment) : Prop where
  page : d.page < 4
  persistence : ∀ p, d.persistence = some p → p.Ok
  station : d.station.Ok
  codingCommand : d.codingCommand < 4
  tlliCoding : d.tlliCoding < 2
  ta : d.ta.Ok
  freq : ∀ f, d.freq = some f → f.Ok
  extended : d.extended < 2
  p0 : ∀ p, d.p0 = some p → p.1 < 16 ∧ p.2 < 2
  granularity : d.granularity < 2
  tfi : ∀ x, d.tfi = some x → x < 32
  granted : ∀ x, d.granted = some x → x < 256
  start : ∀ s, d.start = some s → StartOk s
  slots : d.slots.Ok

/-- Additions for R99 to PACKET UPLINK ACK/NACK: extended timing advance, TBF_EST. -/
structure UlAckR99 where
  ext : Option Nat
  tbfEst : Bool

/-- PACKET UPLINK ACK/NACK (11.2.28) for GPRS, without extension bits. -/
structure UlReport where
  page : Nat
  tfi : Nat
  codingCommand : Nat
  final : Bool
  ssn : Nat
  /-- eight octets -/
  bitmap : Octets
  /-- TLLI for contention resolution -/
  tlli : Option Nat
  ta : Option TimingAdv
  power : Option Power
  r99 : Option UlAckR99

/-- The two zero bits before the additions: no fixed allocation; as the table of the code has them. -/
def UlReport.bits (d : UlReport) : List Bool :=
  natBits 6 9 ++ natBits 2 d.page ++ natBits 2 0 ++ natBits 5 d.tfi ++ [false] ++ natBits 2 d.codingCommand ++
  [d.final] ++ natBits 7 d.ssn ++ d.bitmap.flatMap (fun x => natBits 8 x.toNat) ++ opt (d.tlli.map fun x => natBits 32 x) ++
  opt (d.ta.map TimingAdv.bits) ++ opt (d.power.map Power.bits) ++ [false] ++ natBits 2 0 ++
  opt (d.r99.map fun r => opt (r.ext.map fun x => natBits 2 x) ++ [r.tbfEst])

structure UlReport.Ok (d : UlReport) : Prop where
  page : d.page < 4
  tfi : d.tfi < 32
  codingCommand : d.codingCommand < 4
  ssn : d.ssn < 128
  len : d.bitmap.length = 8
  tlli : ∀ x, d.tlli = some x → x < 2 ^ 32
  ta : ∀ t, d.ta = some t → t.Ok
  power : ∀ p, d.power = some p → p.Ok
  r99 : ∀ r, d.r99 = some r → ∀ x, r.ext = some x → x < 4

end Verif.Spec
