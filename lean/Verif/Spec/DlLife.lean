import Verif.Rlc.Ctx

/-!
# Specification: the life of a downlink TBF (3GPP TS 44.060, 9.3.2.6 and 13)

T3190 supervises the reception of blocks, T3192 the time after the final PACKET DOWNLINK ACK/NACK.
-/
namespace Verif.Spec
open Verif Verif.Rlc

/-- The downlink TBF of the entity with serial number `n`. -/
def dlTbf (s : Ctx) (n : Nat) : Option DlLink := (s.es.find? fun g => g.n == n).bind Gre.dl

/-- Events with which a downlink TBF can begin: assignments, and the block in which their starting time comes. -/
def CanBegin : CtxEv → Prop
  | .pktDlAss .. => True
  | .immAssDl .. => True
  | .rts .. => True
  | _ => False

/-- How the downlink TBF of entity `n` may change with an event and the blocks sent; TBFs up to now have numbers below
`tbfs`. -/
inductive DlChange (e : CtxEv) (outs : List CtxOut) (n tbfs : Nat) : Option DlLink → Option DlLink → Prop
  | same (d) : DlChange e outs n tbfs d d
  /-- a new one, in the place of the old one if there was one: T3190 is started -/
  | begins (d) (id : Nat) (a : DlAlloc) : CanBegin e → tbfs ≤ id → DlChange e outs n tbfs d (some ⟨id, .flow, a, true, false⟩)
  /-- a data block: T3190 is started again -/
  | data (d : DlLink) (last : Bool) (poll : Option Nat) (fn ts : Nat) : e = .dlData d.alloc.tfi last poll fn ts →
      DlChange e outs n tbfs (some d) (some { d with t3190 := true, st := if last then .finished else d.st })
  /-- the final acknowledgement is sent: T3190 is stopped and T3192 started -/
  | acked (d : DlLink) (o : Avail) (fn ts usf : Nat) (chanReq : Bool) : e = .rts o fn ts usf → d.st = .finished →
      .block ts fn n (.dlAck true chanReq) ∈ outs →
      DlChange e outs n tbfs (some d) (some { d with t3190 := false, t3192 := true })
  /-- a timer runs out -/
  | t3190 (d : DlLink) : e = .t3190 n → d.t3190 = true → DlChange e outs n tbfs (some d) none
  | t3192 (d : DlLink) : e = .t3192 n → d.t3192 = true → DlChange e outs n tbfs (some d) none
  /-- a PACKET DOWNLINK ASSIGNMENT with Control Ack while T3192 runs -/
  | controlAck (d : DlLink) (id tfi start mask poll fn ts) : e = .pktDlAss id tfi start mask true poll fn ts → d.t3192 = true →
      DlChange e outs n tbfs (some d) none
  /-- the mobile station is given up -/
  | givenUp (d : DlLink) (old ptmsi : Nat) (imsi : List Nat) : e = .assign old noTlli ptmsi imsi →
      DlChange e outs n tbfs (some d) none

/-- A timer supervises the TBF, and T3192 does only when all data was received. -/
def Supervised (d : DlLink) : Prop := (d.t3190 = true ∨ d.t3192 = true) ∧ (d.t3192 = true → d.st = .finished)

end Verif.Spec
