import Verif.Basic
/-!
# Specification: GPRS RLC data blocks in octets (3GPP TS 44.060, 10.2.1, 10.2.2, 10.3.1, 10.3.2)

The bits of an octet are numbered from 8, the most significant one.
-/
namespace Verif.Spec
open Verif

/-- The sizes of a block with CS-1 to CS-4: payload (N2 - 2, table 10.2.1) and octets with spare bits in the end. -/
def AirSize (payload spare : Nat) : Prop :=
  (payload = 20 ∧ spare = 0) ∨ (payload = 30 ∧ spare = 1) ∨ (payload = 36 ∧ spare = 1) ∨ (payload = 50 ∧ spare = 1)

/-- The header of a downlink RLC data block, figure 10.2.1.1. -/
structure DlHead where
  usf : Nat
  sp : Bool
  rrbp : Nat
  pr : Nat
  tfi : Nat
  fbi : Bool
  bsn : Nat
  e : Bool

structure DlHead.Ok (h : DlHead) : Prop where
  usf : h.usf < 8
  rrbp : h.rrbp < 4
  pr : h.pr < 4
  tfi : h.tfi < 32
  bsn : h.bsn < 128

/-- Payload type 0 (bits 8, 7), RRBP (6, 5), S/P (4), USF (3 to 1); PR (8, 7), TFI (6 to 2), FBI (1); BSN (8 to 2), E (1). -/
def DlHead.octets (h : DlHead) : Octets :=
  [UInt8.ofNat (h.rrbp * 16 + h.sp.toNat * 8 + h.usf), UInt8.ofNat (h.pr * 64 + h.tfi * 2 + h.fbi.toNat),
   UInt8.ofNat (h.bsn * 2 + h.e.toNat)]

/-- A downlink data block on the air. -/
def dlAir (h : DlHead) (payload spare : Octets) : Octets := h.octets ++ payload ++ spare

/-- The header of an uplink RLC data block, figure 10.2.2.1. -/
structure UlHead where
  cv : Nat
  si : Bool
  r : Bool
  pi : Bool
  tfi : Nat
  ti : Bool
  bsn : Nat
  e : Bool
  deriving DecidableEq, Repr

/-- How the network reads it: payload type 0 (bits 8, 7), CV (6 to 3), SI (2), R (1); spare (8), PI (7), TFI (6 to 2),
TI (1); BSN (8 to 2), E (1). -/
def readUlHead (o0 o1 o2 : UInt8) : Option UlHead :=
  if o0.toNat / 64 = 0 then
    some ⟨o0.toNat / 4 % 16, o0.toNat / 2 % 2 = 1, o0.toNat % 2 = 1, o1.toNat / 64 % 2 = 1, o1.toNat / 2 % 32, o1.toNat % 2 = 1,
      o2.toNat / 2, o2.toNat % 2 = 1⟩
  else none

/-- The size of the payload goes with that of the block. -/
def ulPayloadLen : Nat → Option Nat
  | 23 => some 20
  | 34 => some 30
  | 40 => some 36
  | 54 => some 50
  | _ => none

/-- Header and payload of an uplink data block. -/
def readUlAir : Octets → Option (UlHead × Octets)
  | o0 :: o1 :: o2 :: l => do
    let h ← readUlHead o0 o1 o2
    let n ← ulPayloadLen (l.length + 3)
    some (h, l.take n)
  | _ => none

end Verif.Spec
