import Verif.Llc.Entity

/-!
# Specification: UI frames on the wire and in the stream of primitives (3GPP TS 44.064, 6.3, 6.4.2)
-/
namespace Verif.Spec

open Verif.Llc

/-- N(U) of a UI frame: the control field is `110xxNNN NNNNNNEP` (second and third octet); `none` if the
frame is of another format. -/
def uiNu (pdu : Octets) : Option Nat :=
  match pdu with
  | _ :: c0 :: c1 :: _ =>
    if c0.toNat / 32 = 6 then some ((c0.toNat % 8) * 64 + c1.toNat / 4) else none
  | _ => none

/-- The N(U) of all UI frames sent for a TLLI and SAPI, in order. -/
def sentNus (tlli sapi : Nat) (out : List Out) : List Nat :=
  out.filterMap fun o =>
    match o with
    | .down _ t s _ pdu => if t = tlli ∧ s = sapi then uiNu pdu else none
    | _ => none

/-- The UI frame (protected, not ciphered) that carries `data` with number `nu` on `sapi`: address,
control field, information field, then the FCS. -/
def uiFrame (cr : Bool) (sapi nu : Nat) (data : Octets) : Octets :=
  let body := UInt8.ofNat (sapi + if cr then 64 else 0) :: UInt8.ofNat (0xc0 + nu / 64) ::
    UInt8.ofNat ((nu % 64) * 4 + 1) :: data
  let f := fcs body
  body ++ [UInt8.ofNat (f % 256), UInt8.ofNat (f / 256 % 256), UInt8.ofNat (f / 65536 % 256)]

end Verif.Spec
