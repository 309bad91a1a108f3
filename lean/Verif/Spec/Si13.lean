import Verif.Spec.RlcControl

/-!
# System information type 13 (3GPP TS 44.018, 10.5.2.37b; 3GPP TS 44.060, 12.10a)

Bits are numbered from 0, the most significant bit of the first octet of the rest octets.
-/
namespace Verif.Spec

open Csn1 (bitsVal bitAt)

/-- The position behind a list `{ 1 < element : bit (n) > } ** 0` that starts at bit `i`; the first
argument only bounds the number of elements (a list cannot go on behind the last bit). -/
def listEnd (v : List Bool) (n : Nat) : Nat → Nat → Nat
  | 0, i => i + 1
  | k + 1, i => if bitAt v i = 1 then listEnd v n k (i + 1 + n) else i + 1

/-- The position behind a GPRS Mobile Allocation that starts at bit `i`: HSN (6 bits), the list of RFL
numbers (4 bits each), then `0` with MA_LENGTH (6 bits) and MA_LENGTH + 1 bits, or `1` with the list of
ARFCN indices (6 bits each). -/
def mobileAllocationEnd (v : List Bool) (i : Nat) : Nat :=
  let j := listEnd v 4 (v.length - (i + 6)) (i + 6)
  if bitAt v j = 0 then j + 7 + (bitsVal v (j + 1) 6 + 1)
  else listEnd v 6 (v.length - (j + 1)) (j + 1)

/-- Are there rest octets at all?  (`H`, which for the first bit is 1.) -/
def si13Present (v : List Bool) : Prop := bitAt v 0 = 1

/-- Where the bit telling whether there is a PBCCH is: behind BCCH_CHANGE_MARK (3 bits), SI_CHANGE_FIELD
(4 bits) and the optional SI13_CHANGE_MARK (2 bits) with its GPRS Mobile Allocation. -/
def pbcchBit (v : List Bool) : Nat := if bitAt v 8 = 0 then 9 else mobileAllocationEnd v 11

/-- Does the message announce a PBCCH? -/
def announcesPbcch (v : List Bool) : Prop := si13Present v ∧ bitAt v (pbcchBit v) = 1

/-- The GPRS Cell Options, if the message has any: with no PBCCH they are behind RAC (8 bits),
SPGC_CCCH_SUP (1), PRIORITY_ACCESS_THR (3) and NETWORK_CONTROL_ORDER (2). -/
def cellOptionsAt (v : List Bool) : Option Nat :=
  if bitAt v 0 = 1 ∧ bitAt v (pbcchBit v) = 0 then some (pbcchBit v + 1 + 14) else none

end Verif.Spec
