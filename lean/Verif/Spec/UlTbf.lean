import Verif.Rlc.UlTbf

/-!
# Specification: what the network and the lower layer may do to an uplink TBF

Used as the hypothesis of the partial theorems for C27 and C30: each clause excludes one of the ways in which the
code aborts.
-/
namespace Verif.Spec

open Verif.Rlc

/-- The starting time is one that TS 44.018, 10.5.2.38 allows (`T1'` below 32, `T3` below 51), or a relative one. -/
def ValidStart : StartTime → Prop
  | .abs t1p t3 _ => t1p < 32 ∧ t3 < 51
  | .rel _ => True

/-- An optional starting time. -/
def ValidStart? : Option StartTime → Prop
  | none => True
  | some s => ValidStart s

/-- An immediate assignment whose starting time, if any, is absolute (as the message format has it) and valid. -/
def ValidImmAss : ImmAss → Prop
  | .egprs => True
  | .single s => ValidStart s ∧ ∀ k, s ≠ .rel k
  | .dynamic _ _ s => ValidStart? s ∧ ∀ k, s ≠ some (.rel k)
  | .fixed _ s => ValidStart? s ∧ ∀ k, s ≠ some (.rel k)

/-- A PACKET UPLINK ASSIGNMENT with a dynamic allocation of at least one of the eight timeslots. -/
def ValidPktUlAss : PktUlAss → Prop
  | .dynamic _ s ts => ValidStart? s ∧ ∃ tn, tn < 8 ∧ ∃ usf, ts[tn]? = some (some usf)
  | .otherGprs => False
  | .egprs => False

/-- A downlink radio block starts in frame 0, 4 or 8 of thirteen. -/
def BlockStart (fn : Nat) : Prop := fn % 13 = 0 ∨ fn % 13 = 4 ∨ fn % 13 = 8

/-- The RRBP field has two bits. -/
def ValidPoll : Option Nat → Prop
  | none => True
  | some rrbp => rrbp < 4

/-- One-phase access has been granted, and no data block has been sent since. -/
def BeforeFirstBlock (t : UlTbf) : Prop := t.st = .flow ∧ t.assType = .onePhase ∧ t.n3104 = 0

/-- What is expected of the network and the lower layer when the TBF is in state `t`. -/
def Expected (t : UlTbf) : TbfEv → Prop
  | .immAss m _ _ => ValidImmAss m
  | .pktUlAss m poll fn _ => ValidPktUlAss m ∧ ValidPoll poll ∧ BlockStart fn
  | .ack _ poll _ fn _ => ValidPoll poll ∧ BlockStart fn ∧ ¬ BeforeFirstBlock t
  | .sendData _ _ _ rachOk => rachOk = true ∧ t.n3104 + 1 < 2 ^ 32
  | _ => True

/-- All events of the sequence are as expected. -/
def AsExpected (env : UlEnv) : Option UlTbf × List UlOut → List TbfEv → Prop
  | _, [] => True
  | (none, _), _ :: _ => True
  | (some t, outs), e :: es =>
    Expected t e ∧ ∀ t' o, t.step env e = .ok (t', o) → AsExpected env (t', outs ++ o) es

/-- Some timer that ends the present state of the TBF sooner or later is running. -/
def TimerRunning (t : UlTbf) : Prop := t.pending = true ∨ t.t3168 = true ∨ t.t3180 = true

/-- How many of the random accesses of a run were caused by N3104, that is, happened when a data block was sent. -/
def accessesByN3104 (env : UlEnv) : Option UlTbf → List TbfEv → Nat
  | _, [] => 0
  | none, _ :: _ => 0
  | some t, e :: es =>
    match t.step env e with
    | .ok (t', o) =>
      (match e with
       | .sendData .. => o.count .rach
       | _ => 0) + accessesByN3104 env t' es
    | _ => 0

/-- Random accesses allowed to a TBF: four, one fewer if it was not started by one. -/
def maxAccesses : UlStart → Nat
  | .access _ => 4
  | _ => 3

/-- PACKET RESOURCE REQUESTs allowed to a TBF that has made `n` random accesses: three repetitions; the first one
follows a random access, or the start from a TBF being released. -/
def maxResReqs (n : Nat) : UlStart → Nat
  | .fromReleasing _ => n + 4
  | _ => n + 3

/-- The event is an immediate assignment. -/
def IsImmAss : TbfEv → Prop
  | .immAss .. => True
  | _ => False

/-- The event belongs to the assignment: an assignment message, a tick, the request for resources or the answer to the
poll. -/
def IsAssEv : TbfEv → Prop
  | .immAss .. => True
  | .pktUlAss .. => True
  | .tick .. => True
  | .sendResReq .. => True
  | .pollAss .. => True
  | _ => False

/-- The TBF may send data in timeslot `tn` when `usf` is announced. -/
def MaySend (t : UlTbf) (tn usf : Nat) : Prop := t.cur.usf tn = some usf

end Verif.Spec
