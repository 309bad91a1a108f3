import Verif.Llc.Xid

/-!
# Specification: legal LLC XID parameters, 3GPP TS 44.064 Table 6
-/
namespace Verif.Spec

open Verif.Llc

/-- Legal values of the fixed-length XID parameters (by XID type number), TS 44.064 Table 6. -/
def XidLegal (type val : Nat) : Prop :=
  match type with
  | 0 => val ≤ 15                                 -- Version
  | 1 | 2 | 13 | 15 => val ≤ 0xffffffff           -- IOV-UI, IOV-I, i-IOV-UI, MAC-IOV-UI
  | 3 => val ≤ 4095                               -- T200
  | 4 => 1 ≤ val ∧ val ≤ 15                       -- N200
  | 5 | 6 => 140 ≤ val ∧ val ≤ 1520               -- N201-U, N201-I
  | 7 | 8 => val = 0 ∨ (9 ≤ val ∧ val ≤ 24320)    -- mD, mU
  | 9 | 10 => 1 ≤ val ∧ val ≤ 255                 -- kD, kU
  | 12 => val = 0                                 -- Reset: no value
  | 14 => 1 ≤ val ∧ val ≤ 255                     -- i-IOV-UI-cnt
  | _ => False

/-- A well-formed parameter: Layer-3 parameters (type 11) carry up to 255 octets and no number, all
others a legal number and no octets. -/
def XidWellFormed (f : XidField) : Prop :=
  (f.type = 11 ∧ f.val = 0 ∧ f.var.length ≤ 255) ∨ (XidLegal f.type f.val ∧ f.var = [])

end Verif.Spec
