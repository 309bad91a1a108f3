/-!
# Specification: EGPRS PACKET CHANNEL REQUEST (3GPP TS 44.060, table 11.2.5a.2)
-/
namespace Verif.Spec

/-- What is requested, with priority and random bits. -/
inductive ChReq where
  /-- one phase access, multislot class -/
  | onePhase (multislot prio random : Nat)
  /-- short access, number of blocks -/
  | shortAccess (blocks prio random : Nat)
  /-- one phase access by a station with reduced latency, multislot class group -/
  | reducedLatency (group prio random : Nat)
  | twoPhase (prio random : Nat)
  | signalling (random : Nat)
  | unackOnePhase (random : Nat)
  | dedicated (random : Nat)
  | emergency (random : Nat)
  /-- by a station that understands immediate packet assignments -/
  | twoPhaseIpa (prio random : Nat)
  | signallingIpa (random : Nat)
  deriving DecidableEq, Repr

/-- The numbers fit their fields. -/
def ChReq.Ok : ChReq → Prop
  | .onePhase m p r => m < 32 ∧ p < 4 ∧ r < 8
  | .shortAccess n p r => n < 8 ∧ p < 4 ∧ r < 8
  | .reducedLatency g p r => g < 8 ∧ p < 4 ∧ r < 8
  | .twoPhase p r => p < 4 ∧ r < 8
  | .signalling r => r < 32
  | .unackOnePhase r => r < 32
  | .dedicated r => r < 32
  | .emergency r => r < 32
  | .twoPhaseIpa p r => p < 4 ∧ r < 8
  | .signallingIpa r => r < 32

/-- The eleven bits. -/
def ChReq.code : ChReq → Nat
  | .onePhase m p r => m * 32 + p * 8 + r
  | .shortAccess n p r => 0b100 * 256 + n * 32 + p * 8 + r
  | .reducedLatency g p r => 0b101 * 256 + g * 32 + p * 8 + r
  | .twoPhase p r => 0b110000 * 32 + p * 8 + r
  | .signalling r => 0b110011 * 32 + r
  | .unackOnePhase r => 0b110101 * 32 + r
  | .dedicated r => 0b110110 * 32 + r
  | .emergency r => 0b110111 * 32 + r
  | .twoPhaseIpa p r => 0b111000 * 32 + p * 8 + r
  | .signallingIpa r => 0b111001 * 32 + r

end Verif.Spec
