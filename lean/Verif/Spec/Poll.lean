import Verif.Rlc.PollTree

/-!
# Specification: reserved polls

Time is an unbounded count of frames; frame numbers are this count modulo the hyperframe.
-/
namespace Verif.Spec

open Verif.Rlc

/-- What is reserved at which time. -/
abbrev Reservations := Nat → Option (PollReason × PollOwner)

/-- Operations with times instead of frame numbers. -/
inductive TimedOp where
  | reserve (t : Nat) (reason : PollReason) (owner : PollOwner)
  | poll (t : Nat)
  | expire (t : Nat)
  | freeTbf (n : Nat)
  | freeEntity (g : Nat) (tbfs : List Nat)

/-- The operation as the code sees it. -/
def TimedOp.op : TimedOp → PollOp
  | .reserve t r o => .reserve (t % hyperframe) r o
  | .poll t => .poll (t % hyperframe)
  | .expire t => .expire (t % hyperframe)
  | .freeTbf n => .freeTbf n
  | .freeEntity g l => .freeEntity g l

/-- The time an operation is about. -/
def TimedOp.time? : TimedOp → Option Nat
  | .reserve t _ _ => some t
  | .poll t => some t
  | .expire t => some t
  | _ => none

/-- The ideal: one reservation per time; a poll uses it up; expiry removes what is not in the future; freeing a TBF
removes what is its own. -/
def Reservations.step (m : Reservations) : TimedOp → PollOut × Reservations
  | .reserve t r o =>
    match m t with
    | some _ => (.eexist, m)
    | none => (.reserved, fun u => if u = t then some (r, o) else m u)
  | .poll t =>
    match m t with
    | some v => (.found v.1 v.2, fun u => if u = t then none else m u)
    | none => (.nothing, m)
  | .expire t => (.nothing, fun u => if u ≤ t then none else m u)
  | .freeTbf n => (.nothing, fun u => if (m u).map (·.2) = some (.tbf n) then none else m u)
  | .freeEntity _ tbfs => (.nothing, fun u => if ∃ n ∈ tbfs, (m u).map (·.2) = some (.tbf n) then none else m u)

/-- The ideal over a history. -/
def Reservations.run (m : Reservations) : List TimedOp → List PollOut × Reservations
  | [] => ([], m)
  | op :: ops => ((m.step op).1 :: ((m.step op).2.run ops).1, ((m.step op).2.run ops).2)

/-- Every reservation in force lies within a quarter of a hyperframe (52 minutes) of the time of the operation. -/
def Near (m : Reservations) (op : TimedOp) : Prop :=
  ∀ t u, op.time? = some t → m u ≠ none → u < t + 678912 ∧ t < u + 678912

/-- … throughout a history. -/
def AlwaysNear (m : Reservations) : List TimedOp → Prop
  | [] => True
  | op :: ops => Near m op ∧ AlwaysNear (m.step op).2 ops

/-- Nothing reserved. -/
def Reservations.none : Reservations := fun _ => Option.none

end Verif.Spec
