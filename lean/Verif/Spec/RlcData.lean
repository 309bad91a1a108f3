import Verif.Spec.RlcAir
/-!
# Specification: what RLC data blocks consist of (3GPP TS 44.060, 10.2, 10.4)
-/
namespace Verif.Spec
open Verif

/-- A length indicator octet: length (bits 8 to 3), M (2), E (1); figure 10.2.2.1. -/
structure LenInd where
  li : Nat
  m : Bool
  e : Bool
  deriving DecidableEq, Repr

def LenInd.octet (x : LenInd) : UInt8 := UInt8.ofNat (x.li * 4 + x.m.toNat * 2 + x.e.toNat)

/-- A further length indicator follows (10.4.14: M = 1 and E = 0). -/
def LenInd.goesOn (x : LenInd) : Bool := x.m && !x.e

/-- Every length indicator but the last one announces the next. -/
def Chain : List LenInd → Prop
  | [] => True
  | [x] => x.li < 64 ∧ x.goesOn = false
  | x :: y :: l => x.li < 64 ∧ x.goesOn = true ∧ Chain (y :: l)

/-- An uplink data block; a PFI only comes with a TLLI. -/
structure UlPdu where
  cv : Nat
  si : Bool
  r : Bool
  spare : Bool
  tfi : Nat
  bsn : Nat
  lis : List LenInd
  tlli : Option Nat
  pfi : Option (Nat × Bool)
  data : Octets

structure UlPdu.Ok (p : UlPdu) : Prop where
  cv : p.cv < 16
  tfi : p.tfi < 32
  bsn : p.bsn < 128
  lis : Chain p.lis
  tlli : ∀ t, p.tlli = some t → t < 4294967296
  pfi : ∀ x, p.pfi = some x → x.1 < 128 ∧ p.tlli.isSome

/-- In octets: header, length indicators, TLLI (most significant octet first), PFI with E, data. -/
def UlPdu.octets (p : UlPdu) : Octets :=
  [UInt8.ofNat (p.cv * 4 + p.si.toNat * 2 + p.r.toNat),
   UInt8.ofNat (p.spare.toNat * 128 + p.pfi.isSome.toNat * 64 + p.tfi * 2 + p.tlli.isSome.toNat),
   UInt8.ofNat (p.bsn * 2 + p.lis.isEmpty.toNat)] ++ p.lis.map LenInd.octet ++
  (match p.tlli with
    | some t => [UInt8.ofNat (t / 16777216), UInt8.ofNat (t / 65536 % 256), UInt8.ofNat (t / 256 % 256), UInt8.ofNat (t % 256)]
    | none => []) ++
  (match p.pfi with
    | some (f, e) => [UInt8.ofNat (f * 2 + e.toNat)]
    | none => []) ++ p.data

end Verif.Spec
