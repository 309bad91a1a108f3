import Verif.Basic
/-!
# Specification side of the quality of service profile (3GPP TS 24.008, 10.5.6.5)

The bit rates and transfer delays the information element can express, and what its octets mean.
-/
namespace Verif.Spec.Qos

/-- The bit rates (kbit/s) that can be expressed. -/
def Rate (v : Nat) : Prop :=
  v ≤ 63 ∨ (∃ k ≤ 63, v = 64 + 8 * k) ∨ (∃ k ≤ 126, v = 576 + 64 * k) ∨
  (∃ k, 1 ≤ k ∧ k ≤ 74 ∧ v = 8600 + 100 * k) ∨ (∃ k, 1 ≤ k ∧ k ≤ 112 ∧ v = 16000 + 1000 * k) ∨
  (∃ k, 1 ≤ k ∧ k ≤ 64 ∧ v = 128000 + 2000 * k) ∨ (∃ k, 1 ≤ k ∧ k ≤ 61 ∧ v = 256000 + 4000 * k) ∨
  (∃ k, 1 ≤ k ∧ k ≤ 100 ∧ v = 500000 + 10000 * k) ∨ (∃ k, 1 ≤ k ∧ k ≤ 85 ∧ v = 1500000 + 100000 * k)

/-- The best the element can do for a rate: the largest expressible one that is not above it. -/
def BestRate (x v : Nat) : Prop := Rate v ∧ v ≤ x ∧ ∀ w, Rate w → w ≤ x → w ≤ v

/-- The meaning of the three octets of a rate in kbit/s; `none` if it means "subscribed" or is not
defined. -/
def meaning (m e1 e2 : Nat) : Option Nat :=
  if m = 0 then none
  else if m ≤ 0x3f then some m
  else if m ≤ 0x7f then some (64 + (m - 0x40) * 8)
  else if m ≤ 0xfd then some (576 + (m - 0x80) * 64)
  else if m = 0xff then some 0
  else if e1 = 0 then some 8640
  else if e1 ≤ 0x4a then some (8600 + e1 * 100)
  else if e1 ≤ 0xba then some (16000 + (e1 - 0x4a) * 1000)
  else if e1 < 0xfa then some (128000 + (e1 - 0xba) * 2000)
  else if e1 > 0xfa then none
  else if e2 = 0 then some 256000
  else if e2 ≤ 0x3d then some (256000 + e2 * 4000)
  else if e2 ≤ 0xa1 then some (500000 + (e2 - 0x3d) * 10000)
  else if e2 ≤ 0xf6 then some (1500000 + (e2 - 0xa1) * 100000)
  else none

/-- The transfer delays (ms) that can be expressed. -/
def Delay (v : Nat) : Prop :=
  (∃ k, 1 ≤ k ∧ k ≤ 15 ∧ v = 10 * k) ∨ (∃ k ≤ 15, v = 200 + 50 * k) ∨ (∃ k ≤ 30, v = 1000 + 100 * k)

/-- The largest expressible delay that is not above a delay. -/
def BestDelay (x v : Nat) : Prop := Delay v ∧ v ≤ x ∧ ∀ w, Delay w → w ≤ x → w ≤ v

/-- The meaning of the six bits of a transfer delay. -/
def delayMeaning (t : Nat) : Option Nat :=
  if t = 0 then none
  else if t ≤ 0x0f then some (10 * t)
  else if t ≤ 0x1f then some (200 + (t - 0x10) * 50)
  else if t ≤ 0x3e then some (1000 + (t - 0x20) * 100)
  else none

/-- The four rates of an element. -/
inductive Which where
  | mbrUl | mbrDl | gbrUl | gbrDl
  deriving DecidableEq, Repr

/-- Where the standard puts the three octets of a rate, counted from the first octet of the profile:
the extension octets of the downlink come before those of the uplink (octets 15-18 and 19-22 of the
information element). -/
def place : Which → Nat × Nat × Nat
  | .mbrUl => (5, 14, 18)
  | .mbrDl => (6, 12, 16)
  | .gbrUl => (9, 15, 19)
  | .gbrDl => (10, 13, 17)

/-- A rate as a receiver following the standard reads it; octets that are not there count as zero. -/
def readStd (b : List UInt8) (w : Which) : Option Nat :=
  meaning (b.getD (place w).1 0).toNat (b.getD (place w).2.1 0).toNat (b.getD (place w).2.2 0).toNat

end Verif.Spec.Qos
