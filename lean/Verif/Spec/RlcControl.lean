import Verif.Csn1.Dec

/-!
# Layout of an RLC/MAC control block (3GPP TS 44.060, 10.3.1)

Bits are numbered from 0, the most significant bit of the first octet.
-/
namespace Verif.Spec

open Csn1 (bitsVal bitAt Mem CRes CSt)

/-- The payload type: the two leading bits. -/
def payloadType (v : List Bool) : Nat := bitsVal v 0 2

/-- Where the control message of a downlink block starts.  Payload type 2 announces an octet with RBSN
(bit 8), RTI, FS (bit 14) and AC (bit 15); AC = 1 announces a further octet, and so does RBSN = 1 with
FS = 0. -/
def dlMessageAt (v : List Bool) : Nat :=
  if payloadType v = 2 then
    16 + (if bitAt v 15 = 1 then 8 else 0) + (if bitAt v 8 = 1 ∧ bitAt v 14 = 0 then 8 else 0)
  else 8

/-- The message type of a downlink control block. -/
def dlMessageType (v : List Bool) : Nat := bitsVal v (dlMessageAt v) 6

/-- The message type of an uplink control block: behind the header octet. -/
def ulMessageType (v : List Bool) : Nat := bitsVal v 8 6

/-- The bits of octets, most significant first. -/
def bitsOf (l : List Nat) : List Bool :=
  l.flatMap fun x => [x.testBit 7, x.testBit 6, x.testBit 5, x.testBit 4, x.testBit 3, x.testBit 2,
    x.testBit 1, x.testBit 0]

/-- T3168 in milliseconds (3GPP TS 44.060, table 12.24.2): the coded value plus one, in units of 500 ms. -/
def t3168Ms (x : Nat) : Nat := 500 * x + 500

/-- T3192 in milliseconds (3GPP TS 44.060, table 12.24.2). -/
def t3192Ms : Nat → Option Nat
  | 0 => some 500
  | 1 => some 1000
  | 2 => some 1500
  | 3 => some 0
  | 4 => some 80
  | 5 => some 120
  | 6 => some 160
  | 7 => some 200
  | _ => none

/-- A decoder writing to a structure of `n` octets keeps to it: no undefined behaviour (in particular no
store elsewhere), and all memory behind the structure is unchanged when it returns. -/
def KeepsTo (n : Nat) (m : Mem) (r : CRes CSt) : Prop :=
  (∀ u, r ≠ .ub u) ∧ ∀ t, r = .ok t → ∀ a, n ≤ a → t.mem a = m a

end Verif.Spec
