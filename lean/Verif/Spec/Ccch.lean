import Verif.Spec.RlcControl
import Verif.Rlc.Ccch

/-!
# Messages on the common control channel (3GPP TS 44.018)

Bits are numbered from 0, the most significant bit of the first octet of the rest octets.
-/
namespace Verif.Spec

open Verif.Rlc (CcchGre MobId GreNames CcchOut PdchEst)

/-- The padding pattern 0010 1011, repeated. -/
def padBit (i : Nat) : Bool := i % 8 = 2 ∨ i % 8 = 4 ∨ i % 8 = 6 ∨ i % 8 = 7

/-- H: the bit differs from the padding pattern; L: it does not. -/
def isH (v : List Bool) (i : Nat) : Bool := v.getD i false ≠ padBit i

/-- Behind an optional field of `w` bits announced by H at position `i`. -/
def optLh (v : List Bool) (w i : Nat) : Nat := if isH v i then i + 1 + w else i + 1

/-- P1 rest octets (10.5.2.23): NLN (3 bits), two priorities (3 bits each), group call information, then the two
packet page indications.  Where the announcement of the group call information is. -/
def p1GroupCall (v : List Bool) : Nat := optLh v 3 (optLh v 3 (optLh v 3 0))

/-- P2 rest octets (10.5.2.24): CN3 (2 bits), NLN (3 bits), three priorities (3 bits each), then the packet page
indication. -/
def p2Indication (v : List Bool) : Nat := optLh v 3 (optLh v 3 (optLh v 3 (optLh v 3 (optLh v 2 0))))

/-- The mobile station has this identity.  All ones is no P-TMSI. -/
def HasId (g : GreNames) : MobId → Prop
  | .imsi i => g.imsi = i
  | .tmsi t => g.ptmsi = t ∧ t ≠ 0xffffffff
  | .other => False

instance (g : GreNames) : (id : MobId) → Decidable (HasId g id)
  | .imsi i => inferInstanceAs (Decidable (g.imsi = i))
  | .tmsi t => inferInstanceAs (Decidable (g.ptmsi = t ∧ t ≠ 0xffffffff))
  | .other => inferInstanceAs (Decidable False)

/-- The indications for one paged identity: one for each mobile station that has it, with its TLLI. -/
def pagesFor (es : List CcchGre) (id : MobId) : List CcchOut :=
  (es.filter fun g => HasId g.names id).map fun g => .page g.names.serial g.names.tlli

/-- The L2 pseudo length of a message with `n` octets behind it, rest octets not counted (10.5.2.19). -/
def pseudoLength (n : Nat) : UInt8 := UInt8.ofNat (4 * n + 1)

/-- The second identity of a paging request type 1, with tag and length. -/
def secondId : Option Octets → Octets
  | none => []
  | some m => [0x17, UInt8.ofNat m.length] ++ m

/-- A paging request type 1 (9.1.22): L2 pseudo length, skip indicator and protocol discriminator, message type, page
mode, the first identity with its length, the second with tag and length, rest octets. -/
def pagingRequest1 (mode : UInt8) (mi1 : Octets) (mi2 : Option Octets) (rest : Octets) : Octets :=
  [pseudoLength (4 + mi1.length + (secondId mi2).length), 0x06, 0x21, mode, UInt8.ofNat mi1.length] ++
    (mi1 ++ (secondId mi2 ++ rest))

/-- A paging request type 2 (9.1.23): two TMSIs, then the third identity with tag and length, rest octets. -/
def pagingRequest2 (mode : UInt8) (tmsis : Octets) (mi3 : Octets) (rest : Octets) : Octets :=
  [pseudoLength (3 + tmsis.length + 2 + mi3.length), 0x06, 0x22, mode] ++
    (tmsis ++ ([0x17, UInt8.ofNat mi3.length] ++ (mi3 ++ rest)))

end Verif.Spec

namespace Verif.Spec
open Verif.Rlc (ImmAss StartTime PdchEst)
open Csn1 (bitsVal bitAt)

/-- Behind an optional field of `w` bits announced by 1 at position `i`. -/
def optBit (v : List Bool) (w i : Nat) : Nat := if bitAt v i = 1 then i + 1 + w else i + 1

/-- A starting time (10.5.2.38): T1', T3, T2. -/
def startingTime (v : List Bool) (i : Nat) : StartTime :=
  .abs (bitsVal v i 5) (bitsVal v (i + 5) 6) (bitsVal v (i + 11) 5)

/-- IA rest octets (10.5.2.16) that begin with `HH 00`: a packet uplink assignment. -/
def IsUplinkAssignment (v : List Bool) : Prop :=
  isH v 0 = true ∧ isH v 1 = true ∧ bitAt v 2 = 0 ∧ bitAt v 3 = 0

/-- Where the starting time of a dynamic allocation is announced: behind TFI (5), polling (1), the choice of dynamic
allocation (1), USF (3), USF granularity (1), optionally P0 and PR_MODE (5), channel coding (2), TLLI block channel
coding (1), optionally ALPHA (4), GAMMA (5), optionally the timing advance index (4). -/
def dynStartAt (v : List Bool) : Nat := optBit v 4 (optBit v 4 (optBit v 5 16 + 3) + 5)

/-- The packet uplink assignment: `1` and a dynamic allocation, or `0` and a single block. -/
def uplinkAssignment (v : List Bool) : ImmAss :=
  if bitAt v 4 = 1 then
    .dynamic (bitsVal v 5 5) (bitsVal v 12 3)
      (if bitAt v (dynStartAt v) = 1 then some (startingTime v (dynStartAt v + 1)) else none)
  else .single (startingTime v (optBit v 4 5 + 5 + 2))

/-- A channel description without hopping (10.5.2.25a): TN, TSC, ARFCN. -/
def plainChannel (tn tsc arfcn : Nat) : Octets :=
  [UInt8.ofNat (8 + tn), UInt8.ofNat (32 * tsc + arfcn / 256), UInt8.ofNat (arfcn % 256)]

/-- A channel description with hopping: TN, TSC, MAIO, HSN. -/
def hoppingChannel (tn tsc maio hsn : Nat) : Octets :=
  [UInt8.ofNat (8 + tn), UInt8.ofNat (32 * tsc + 16 + maio / 4), UInt8.ofNat (64 * (maio % 4) + hsn)]

/-- An immediate assignment (9.1.18): page mode and dedicated mode, channel description, request reference (3
octets), timing advance, mobile allocation with its length, rest octets. -/
def immediateAssignment (mode : UInt8) (chan ref : Octets) (ta : UInt8) (ma rest : Octets) : Octets :=
  [pseudoLength (11 + ma.length), 0x06, 0x3f, mode] ++ (chan ++ (ref ++ ([ta, UInt8.ofNat ma.length] ++ (ma ++ rest))))

end Verif.Spec
