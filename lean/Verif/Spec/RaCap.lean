import Verif.Spec.CsnMsg

/-!
# The value part of an MS Radio Access capability (3GPP TS 24.008, 10.5.5.12a)

A capability is a list of entries, one for each access technology.  An entry in the long form consists of
the access technology type, the length in bits of the rest, and the rest ("Content"), the fields of which
were added release by release.
-/
namespace Verif.Spec

open Csn1

/-- The parts of the value part for the structure at address 0: what its table says, up to the padding. -/
def raParts (m : Mem) : Option (List Item) :=
  layL m 0 [.recTArr1 1 759 69 11 0 t_MS_RA_capability_value] {} []

/-- `{ 0 | 1 < … > }`: a flag, and what follows if it is set. -/
def ifThere (flag : Nat) (l : List Bool) : List Bool := if flag = 0 then [false] else true :: l

/-- "Multislot capability struct"; `f` gives the members of the structure in the order of their
declaration, a flag before what it announces. -/
def multislotBits (f : Nat → Nat) : List Bool :=
  ifThere (f 0) (natBits 5 (f 1)) ++                      -- HSCSD Multi Slot Class
  ifThere (f 2) (natBits 5 (f 3) ++ natBits 1 (f 4)) ++   -- GPRS Multi Slot Class, Extended Dynamic Allocation
  ifThere (f 5) (natBits 4 (f 6) ++ natBits 4 (f 7)) ++   -- SMS_VALUE, SM_VALUE
  ifThere (f 8) (natBits 5 (f 9)) ++                      -- ECSD Multi Slot Class
  ifThere (f 10) (natBits 5 (f 11) ++ natBits 1 (f 12)) ++ -- EGPRS Multi Slot Class, Extended Dynamic Allocation
  ifThere (f 13) (natBits 2 (f 14) ++ natBits 1 (f 15) ++ -- DTM GPRS Multi Slot Class, Single Slot DTM
    ifThere (f 16) (natBits 2 (f 17)))                    -- DTM EGPRS Multi Slot Class

/-- The fields of "Content" in order; `f` gives the members of the structure. -/
def contentFields (f : Nat → Nat) : List (List Bool) := [
  natBits 3 (f 0),                            -- RF Power Capability
  ifThere (f 1) (natBits 7 (f 2)),            -- A5 bits
  natBits 1 (f 3),                            -- ES IND
  natBits 1 (f 4),                            -- PS
  natBits 1 (f 5),                            -- VGCS
  natBits 1 (f 6),                            -- VBS
  ifThere (f 7) (multislotBits fun o => f (8 + o)), -- Multislot capability
  ifThere (f 26) (natBits 2 (f 27)),          -- 8PSK Power Capability
  natBits 1 (f 28),                           -- COMPACT Interference Measurement Capability
  natBits 1 (f 29),                           -- Revision Level Indicator
  natBits 1 (f 30),                           -- UMTS FDD
  natBits 1 (f 31),                           -- UMTS 3.84 Mcps TDD
  natBits 1 (f 32),                           -- CDMA 2000
  natBits 1 (f 33),                           -- UMTS 1.28 Mcps TDD
  natBits 1 (f 34),                           -- GERAN Feature Package 1
  ifThere (f 35) (natBits 2 (f 36) ++ natBits 2 (f 37)), -- Extended DTM GPRS, EGPRS Multi Slot Class
  natBits 1 (f 38),                           -- Modulation based multislot class support
  ifThere (f 39) (natBits 2 (f 40)),          -- High Multislot Capability
  ifThere (f 41) (natBits 4 (f 42)),          -- GERAN Iu Mode Capability
  natBits 2 (f 43),                           -- GMSK Multislot Power Profile
  natBits 2 (f 44),                           -- 8-PSK Multislot Power Profile
  natBits 1 (f 45),                           -- Multiple TBF Capability
  natBits 2 (f 46),                           -- Downlink Advanced Receiver Performance
  natBits 1 (f 47),                           -- Extended RLC/MAC Control Message Segmentation
  natBits 1 (f 48),                           -- DTM Enhancements Capability
  ifThere (f 49) (natBits 3 (f 50) ++ ifThere (f 51) (natBits 3 (f 52))), -- DTM GPRS, EGPRS High Multi Slot Class
  natBits 1 (f 53),                           -- PS Handover Capability
  natBits 1 (f 54),                           -- DTM Handover Capability
  ifThere (f 55) (natBits 3 (f 56) ++ natBits 1 (f 57)), -- Downlink Dual Carrier: reduction, DTM
  natBits 1 (f 58),                           -- Flexible Timeslot Assignment
  natBits 1 (f 59),                           -- GAN PS Handover Capability
  natBits 1 (f 60),                           -- RLC Non-persistent Mode
  natBits 1 (f 61),                           -- Reduced Latency Capability
  natBits 2 (f 62),                           -- Uplink EGPRS2
  natBits 2 (f 63),                           -- Downlink EGPRS2
  natBits 1 (f 64),                           -- E-UTRA FDD support
  natBits 1 (f 65),                           -- E-UTRA TDD support
  natBits 2 (f 66),                           -- GERAN to E-UTRA support in GERAN packet transfer mode
  natBits 1 (f 67)]                           -- Priority-based reselection support

/-- The member of each field of "Content": its flag, or the field itself. -/
def contentHeads : List Nat := [0, 1, 3, 4, 5, 6, 7, 26, 28, 29, 30, 31, 32, 33, 34, 35, 38, 39, 41, 43, 44, 45,
  46, 47, 48, 49, 53, 54, 55, 58, 59, 60, 61, 62, 63, 64, 65, 66, 67]

/-- `l`, if the flag is set. -/
def ifSet (flag : Nat) (l : List Nat) : List Nat := if flag = 0 then [] else l

/-- The members that count in "Multislot capability struct", whose first is `a`. -/
def multislotMembers (f : Nat → Nat) (a : Nat) : List Nat :=
  a :: ifSet (f 0) [a + 1] ++ (a + 2) :: ifSet (f 2) [a + 3, a + 4] ++ (a + 5) :: ifSet (f 5) [a + 6, a + 7] ++
  (a + 8) :: ifSet (f 8) [a + 9] ++ (a + 10) :: ifSet (f 10) [a + 11, a + 12] ++
  (a + 13) :: ifSet (f 13) ([a + 14, a + 15, a + 16] ++ ifSet (f 16) [a + 17])

/-- The members that count in each field of "Content": those sent. -/
def contentMembers (f : Nat → Nat) : List (List Nat) := [
  [0], 1 :: ifSet (f 1) [2], [3], [4], [5], [6], 7 :: ifSet (f 7) (multislotMembers (fun o => f (8 + o)) 8),
  26 :: ifSet (f 26) [27], [28], [29], [30], [31], [32], [33], [34], 35 :: ifSet (f 35) [36, 37], [38],
  39 :: ifSet (f 39) [40], 41 :: ifSet (f 41) [42], [43], [44], [45], [46], [47], [48],
  49 :: ifSet (f 49) ([50, 51] ++ ifSet (f 51) [52]), [53], [54], 55 :: ifSet (f 55) [56, 57],
  [58], [59], [60], [61], [62], [63], [64], [65], [66], [67]]

/-- The number of bits of each member. -/
def contentWidths : List Nat := [3, 1, 7, 1, 1, 1, 1, 1,
  1, 5, 1, 5, 1, 1, 4, 4, 1, 5, 1, 5, 1, 1, 2, 1, 1, 2,
  1, 2, 1, 1, 1, 1, 1, 1, 1, 1, 2, 2, 1, 1, 2, 1, 4, 2, 2, 1, 2, 1, 1, 1, 3, 1, 3, 1, 1, 1, 3, 1,
  1, 1, 1, 1, 2, 2, 1, 1, 2, 1]

/-- Every member can be expressed in its bits. -/
def ContentFits (f : Nat → Nat) : Prop := ∀ o w, contentWidths[o]? = some w → f o < 2 ^ w

/-- An entry in the long form: the access technology, the members of its "Content", how many fields of it
the sender knows, and what the sender adds that was specified later. -/
structure RaEntry where
  tech : Nat
  content : Nat → Nat
  known : Nat
  later : List Bool

/-- The bits of "Content" of an entry. -/
def RaEntry.body (e : RaEntry) : List Bool := ((contentFields e.content).take e.known).flatten ++ e.later

/-- The bits of an entry. -/
def RaEntry.bits (e : RaEntry) : List Bool := natBits 4 e.tech ++ natBits 7 e.body.length ++ e.body

/-- The sender is well-behaved: a technology of the long form, values in range, a length that can be
expressed, and nothing from later releases without all from the earlier ones. -/
structure RaEntry.Ok (e : RaEntry) : Prop where
  tech : e.tech < 14
  fits : ContentFits e.content
  known : 0 < e.known
  len : e.body.length < 128
  order : e.later = [] ∨ contentHeads.length ≤ e.known

/-- The bits of a list of entries: a one bit before each further entry, a zero bit behind the last. -/
def raBits : List RaEntry → List Bool
  | [] => []
  | [e] => e.bits ++ [false]
  | e :: l => e.bits ++ true :: raBits l

/-- The entry is in memory at `a`: the technology, then every member the sender sent, with fields it does
not know, or their flags, zero. -/
structure RaEntry.In (e : RaEntry) (m : Mem) (a : Nat) : Prop where
  tech : m a = e.tech
  sent : ∀ o ∈ ((contentMembers e.content).take e.known).flatten, m (a + 1 + o) = e.content o
  absent : ∀ o ∈ contentHeads.drop e.known, m (a + 1 + o) = 0

/-- The entry is in the structure at `a` with all fields of "Content": what a user fills in to be sent. -/
structure RaEntry.Filled (e : RaEntry) (m : Mem) (a : Nat) : Prop where
  tech : m a % 256 = e.tech
  content : ∀ o, o < 68 → m (a + 1 + o) % 256 = e.content o
  known : e.known = contentHeads.length
  later : e.later = []

/-- The bits that fill up `n` octets behind `k` bits: a zero bit, then the pattern 0x2B. -/
def raPadding (n k : Nat) : List Bool :=
  (List.range (8 * n - k)).map fun i => i != 0 && Nat.testBit 0x2B (7 - (k + i) % 8)

end Verif.Spec
