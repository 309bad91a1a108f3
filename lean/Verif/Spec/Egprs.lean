import Verif.Spec.RlcBlock

/-!
# Specification: EGPRS data blocks (TS 44.060)

Coding schemes are numbered as in the code: CS-1 … CS-4 are 1 … 4, MCS-1 … MCS-9 are 5 … 13.  The puncturing schemes P1,
P2, P3 are 0, 1, 2.
-/
namespace Verif.Spec

/-- Bit `i` of a block, the bits of every octet counted from the least significant one. -/
def bitAt (b : Octets) (i : Nat) : Bool := ((b[i / 8]?).getD 0).toNat.testBit (i % 8)

/-- How many payloads a block carries: two with MCS-7, MCS-8 and MCS-9. -/
def payloads (cs : Nat) : Nat := if 11 ≤ cs then 2 else 1

/-- Octets of each payload (TS 44.060 table 10.0a.1), without the six octets of padding of a padded MCS-3 or MCS-6
block. -/
def payloadLen (cs : Nat) (padded : Bool) : Nat :=
  match cs, padded with
  | 1, _ => 20 | 2, _ => 30 | 3, _ => 36 | 4, _ => 50
  | 5, _ => 22 | 6, _ => 28
  | 7, false => 37 | 7, true => 31
  | 8, _ => 44 | 9, _ => 56
  | 10, false => 74 | 10, true => 68
  | 11, _ => 56 | 12, _ => 68 | 13, _ => 74
  | _, _ => 0

/-- The bit at which payload `k` starts, behind the header, the padding, and the FBI/TI and E bits of this and earlier
payloads (TS 44.060, 10.2, 10.3a). -/
def payloadStart (up : Bool) (cs : Nat) (padded : Bool) (k : Nat) : Nat :=
  match cs, padded with
  | 1, _ => 24 | 2, _ => 24 | 3, _ => 24 | 4, _ => 24
  | 5, _ => 33 | 6, _ => 33
  | 7, false => 33 | 7, true => 81
  | 8, _ => 33
  | 9, _ => if up then 39 else 30
  | 10, false => if up then 39 else 30
  | 10, true => if up then 87 else 78
  | 11, _ => (if up then 48 else 42) + k * (2 + 8 * 56)
  | 12, _ => (if up then 48 else 42) + k * (2 + 8 * 68)
  | 13, _ => (if up then 48 else 42) + k * (2 + 8 * 74)
  | _, _ => 0

/-- Bits of a block (TS 44.060 table 10.0a.1 with the header sizes; for CS-2 to CS-4 without spare bits). -/
def blockBits (up : Bool) (cs : Nat) : Nat :=
  match cs with
  | 1 => 184 | 2 => 264 | 3 => 312 | 4 => 424
  | 5 => 209 | 6 => 257 | 7 => 329 | 8 => 385
  | 9 => if up then 487 else 478
  | 10 => if up then 631 else 622
  | 11 => if up then 946 else 940
  | 12 => if up then 1138 else 1132
  | 13 => if up then 1234 else 1228
  | _ => 0

/-- Octets of the buffer a block is sent or received in (TS 45.003; rounded up). -/
def blockOctets (cs : Nat) : Nat :=
  match cs with
  | 1 => 23 | 2 => 34 | 3 => 40 | 4 => 54
  | 5 => 27 | 6 => 33 | 7 => 42 | 8 => 49 | 9 => 61 | 10 => 79
  | 11 => 119 | 12 => 143 | 13 => 155
  | _ => 0

/-- What a receiver concludes from the coding and puncturing scheme indicator in a header of type 1, 2 or 3
(TS 44.060 tables 10.4.8a.1.1, 10.4.8a.2.1, 10.4.8a.3.1): the coding scheme, padded or not, the puncturing schemes of
the payloads. -/
def cpsMeaning (type cps : Nat) : Option (Nat × Bool × List Nat) :=
  match type, cps with
  | 1, 0b00000 => some (13, false, [0, 0]) | 1, 0b00001 => some (13, false, [0, 1])
  | 1, 0b00010 => some (13, false, [0, 2]) | 1, 0b00100 => some (13, false, [1, 0])
  | 1, 0b00101 => some (13, false, [1, 1]) | 1, 0b00110 => some (13, false, [1, 2])
  | 1, 0b01000 => some (13, false, [2, 0]) | 1, 0b01001 => some (13, false, [2, 1])
  | 1, 0b01010 => some (13, false, [2, 2])
  | 1, 0b01011 => some (12, false, [0, 0]) | 1, 0b01100 => some (12, false, [0, 1])
  | 1, 0b01101 => some (12, false, [0, 2]) | 1, 0b01110 => some (12, false, [1, 0])
  | 1, 0b01111 => some (12, false, [1, 1]) | 1, 0b10000 => some (12, false, [1, 2])
  | 1, 0b10001 => some (12, false, [2, 0]) | 1, 0b10010 => some (12, false, [2, 1])
  | 1, 0b10011 => some (12, false, [2, 2])
  | 1, 0b10100 => some (11, false, [0, 0]) | 1, 0b10101 => some (11, false, [0, 1])
  | 1, 0b10110 => some (11, false, [0, 2]) | 1, 0b10111 => some (11, false, [1, 0])
  | 1, 0b11000 => some (11, false, [1, 1]) | 1, 0b11001 => some (11, false, [1, 2])
  | 1, 0b11010 => some (11, false, [2, 0]) | 1, 0b11011 => some (11, false, [2, 1])
  | 1, 0b11100 => some (11, false, [2, 2])
  | 2, 0b000 => some (10, false, [0]) | 2, 0b001 => some (10, false, [1])
  | 2, 0b010 => some (10, true, [0]) | 2, 0b011 => some (10, true, [1])
  | 2, 0b100 => some (9, false, [0]) | 2, 0b101 => some (9, false, [1])
  | 3, 0b0000 => some (8, false, [0]) | 3, 0b0001 => some (8, false, [1]) | 3, 0b0010 => some (8, false, [2])
  | 3, 0b0011 => some (7, false, [0]) | 3, 0b0100 => some (7, false, [1]) | 3, 0b0101 => some (7, false, [2])
  | 3, 0b0110 => some (7, true, [0]) | 3, 0b0111 => some (7, true, [1]) | 3, 0b1000 => some (7, true, [2])
  | 3, 0b1001 => some (6, false, [0]) | 3, 0b1010 => some (6, false, [1])
  | 3, 0b1011 => some (5, false, [0]) | 3, 0b1100 => some (5, false, [1])
  | _, _ => none

/-- The header type of an EGPRS coding scheme. -/
def headerType (cs : Nat) : Nat := if cs ≤ 8 then 3 else if cs ≤ 10 then 2 else 1

/-- How many puncturing schemes a coding scheme has. -/
def punctCount (cs : Nat) : Nat := if cs = 5 ∨ cs = 6 ∨ cs = 9 ∨ cs = 10 then 2 else 3

/-- The puncturing scheme a block is sent with after it was last sent with coding scheme `c` and puncturing scheme `p`,
now with coding scheme `d` (TS 44.060, 9.3.2.1.1 and table 9.3.2.1.1.1): the next one in cyclic order as long as the
coding scheme stays. -/
def nextPunct (c p d : Nat) : Nat :=
  if c = d then (p + 1) % punctCount c
  else if c = 13 ∧ d = 10 then (if p = 1 then 1 else 0)
  else if c = 10 ∧ d = 13 then (if p = 0 then 2 else 1)
  else if c = 11 ∧ d = 9 then 0
  else if c = 9 ∧ d = 11 then 1
  else 0

/-- The coding scheme whose blocks have half the payload, for those that can be split in two. -/
def halfScheme (cs : Nat) : Option Nat :=
  match cs with
  | 8 => some 5 | 9 => some 6 | 11 => some 6 | 10 => some 7 | 13 => some 7
  | _ => none

/-- Length indicators at the start of an EGPRS payload (TS 44.060 table 10.4.14a.1): octets of seven bits of length and
the extension bit.  A length of zero is allowed in the first one only (the PDU ended with the previous block); 127 in the
last one says that filling octets follow.  Result as for GPRS: the lengths; whether another PDU, or the rest of one,
follows up to the end of the block; the octets behind.  `none`: not well-formed. -/
def readLisEgprs (first : Bool) : Octets → Option (List Nat × Bool × Octets)
  | [] => none
  | o :: rest =>
    let l := o.toNat / 2
    let e := o.toNat % 2
    if l = 127 ∧ e = 1 then some ([], false, rest)
    else if l = 0 ∧ ¬ first then none
    else if e = 1 then some ([l], true, rest)
    else (readLisEgprs false rest).map fun r => (l :: r.1, r.2.1, r.2.2)

/-- The pieces of LLC PDUs a downlink EGPRS payload carries: `e` = E, `isLast` = it is the last block of the TBF. -/
def piecesEgprs (e isLast : Bool) (payload : Octets) : Option (List Piece) :=
  if e then cut isLast true [] payload
  else (readLisEgprs true payload).bind fun r => cut isLast r.2.1 r.1 r.2.2

end Verif.Spec
