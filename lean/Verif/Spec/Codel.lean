import Verif.Rlc.Codel

/-!
# Specification: what CoDel promises about the packets it drops

A history is the list of the packets in the order they are taken out of the queue.
-/
namespace Verif.Spec

open Verif.Rlc

/-- A packet taken out of the queue: when it was put in, when it is taken out, how many octets stay behind. -/
structure Taken where
  recv : Int
  now : Int
  bytes : Nat
  deriving DecidableEq, Repr

/-- The packet stayed in the queue for at least `target`, and more than `maxpacket` octets are behind it. -/
def Taken.Late (t : Taken) (target : Int) (maxpacket : Nat) : Prop :=
  target ≤ t.now - t.recv ∧ maxpacket < t.bytes

/-- The queue manager after a history. -/
def after (s : Codel) (ts : List Taken) : Codel := ts.foldl (fun s t => (s.control t.recv t.now t.bytes).1) s

/-- Its decision about the next packet. -/
def dropped (s : Codel) (t : Taken) : Bool := (s.control t.recv t.now t.bytes).2

/-- `f / 256` is `1 / sqrt(count)`, rounded down: `f ≤ 256 / sqrt(count) < f + 1`. -/
def IsInvSqrt (f count : Nat) : Prop := f * f * count ≤ 65536 ∧ 65536 < (f + 1) * (f + 1) * count

/-- The queue manager as set up for an interval (in ms). -/
def codelFor (ms : Int) : Codel := Codel.init.setInterval ms

end Verif.Spec
