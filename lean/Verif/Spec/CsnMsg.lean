import Verif.Spec.CsnLayout

/-!
# Whole messages

What an RLC/MAC control block consists of, for uplink and downlink messages.
-/
namespace Verif.Spec

open Csn1

/-- The parts of an uplink message: what its table says, up to the padding. -/
def ulParts (m : Mem) : Option (List Item) :=
  (ulTable (m 0 % 256)).bind fun t => layL m 0 t.dropLast {} []

/-- The parts of a downlink message of type `mt`. -/
def dlParts (mt : Nat) (m : Mem) : Option (List Item) :=
  (dlTable mt).bind fun t => layL m 0 t.dropLast {} []

/-- A block of 23 octets that starts with the bits `l`: filled up with a zero bit and the padding octets
0x2B (3GPP TS 44.060, 11: the spare padding starts with a zero bit, then follows the pattern). -/
def padded (l : List Bool) : List Bool :=
  l ++ (List.range (184 - l.length)).map fun k => k != 0 && Nat.testBit 0x2B (7 - (l.length + k) % 8)

/-- The number made of `n` bits of a block from position `i` on. -/
def fieldAt (v : List Bool) (i n : Nat) : Nat :=
  ((List.range n).map fun k => if v[i + k]? = some true then 2 ^ (n - 1 - k) else 0).sum

/-- Where the message starts in a downlink control block (3GPP TS 44.060, 10.3.1): behind the octet with
the payload type; with payload type 2 one octet more, another if the AC bit is set, another if the RBSN bit
is set and the FS bit is not. -/
def dlStart (v : List Bool) : Option Nat :=
  if fieldAt v 0 2 = 1 then some 8
  else if fieldAt v 0 2 = 2 then
    some (16 + (if fieldAt v 15 1 = 1 then 8 else 0) + (if fieldAt v 8 1 = 1 ∧ fieldAt v 14 1 = 0 then 8 else 0))
  else none

/-- The bits `l` are in the block from position `i` on. -/
def Contains (v : List Bool) (i : Nat) (l : List Bool) : Prop := (v.drop i).take l.length = l

instance (v : List Bool) (i : Nat) (l : List Bool) : Decidable (Contains v i l) := by
  unfold Contains; infer_instance

/-- Number of lists of structures in a message. -/
def lists (l : List Item) : Nat := (l.map fun i => match i with | .stop => 1 | _ => 0).sum

end Verif.Spec
