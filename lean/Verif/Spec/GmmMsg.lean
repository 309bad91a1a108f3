import Verif.Basic
/-!
# GMM messages: specification

The layout of the messages a mobile station sends, from the tables of TS 24.008 clause 9.4 and the rules of
TS 24.007 clause 11.2, without reference to the model.
-/
namespace Verif.Spec.Gmm
open Verif

/-- A length octet and that many octets. -/
def takeLv : Octets → Option (Octets × Octets)
  | [] => none
  | n :: l => if n.toNat ≤ l.length then some (l.take n.toNat, l.drop n.toNat) else none

/-- `n` octets. -/
def takeN (n : Nat) (l : Octets) : Option (Octets × Octets) :=
  if n ≤ l.length then some (l.take n, l.drop n) else none

/-- The optional part of a message, TS 24.007 11.2.4: an identifier with bit 8 set is an element of one
octet with its value in the lower half; any other identifier is followed by a value of the length given in
the table (`fixed`), or else by a length octet and a value.  The identifier of an element of one octet is
given as its upper half. -/
def optionals (fixed : UInt8 → Option Nat) : Nat → Octets → Option (List (UInt8 × Octets))
  | _, [] => some []
  | 0, _ :: _ => none
  | fuel + 1, t :: l =>
    if 0x80 ≤ t.toNat then
      (optionals fixed fuel l).map fun r => (t / 16, [t % 16]) :: r
    else
      match (match fixed t with
        | some n => takeN n l
        | none => takeLv l) with
      | none => none
      | some (v, l') => (optionals fixed fuel l').map fun r => (t, v) :: r

/-- All the optional elements of a message. -/
def optionalsOf (fixed : UInt8 → Option Nat) (l : Octets) : Option (List (UInt8 × Octets)) :=
  optionals fixed l.length l

/-- The value of an element, if there is one. -/
def valueOf (l : List (UInt8 × Octets)) (tag : UInt8) : Option Octets :=
  (l.find? fun e => e.1 == tag).map Prod.snd

/-- The optional elements of requests that are not of the form TLV, tables 9.4.1 and 9.4.14: Old P-TMSI
signature, Requested READY timer value, DRX parameter. -/
def requestIes (t : UInt8) : Option Nat :=
  if t = 0x19 then some 3 else if t = 0x17 then some 1 else if t = 0x27 then some 2 else none

/-- What follows the protocol discriminator of GMM and the type of the message. -/
def bodyOf (type : UInt8) : Octets → Option Octets
  | pd :: t :: l => if pd = 0x08 ∧ t = type then some l else none
  | _ => none

/-- ATTACH REQUEST, table 9.4.1. -/
structure AttachReq where
  netCap : Octets
  type   : UInt8
  cksn   : UInt8
  drx    : Octets
  mi     : Octets
  ra     : Octets
  raCap  : Octets
  opts   : List (UInt8 × Octets)
  deriving DecidableEq, Repr

/-- Decode ATTACH REQUEST. -/
def readAttachReq (b : Octets) : Option AttachReq := do
  let l ← bodyOf 0x01 b
  let (netCap, l) ← takeLv l
  let (x, l) ← takeN 1 l
  let (drx, l) ← takeN 2 l
  let (mi, l) ← takeLv l
  let (ra, l) ← takeN 6 l
  let (raCap, l) ← takeLv l
  let opts ← optionalsOf requestIes l
  some ⟨netCap, x.headD 0 % 16, x.headD 0 / 16, drx, mi, ra, raCap, opts⟩

/-- ROUTING AREA UPDATE REQUEST, table 9.4.14. -/
structure RauReq where
  type   : UInt8
  cksn   : UInt8
  ra     : Octets
  raCap  : Octets
  opts   : Option (List (UInt8 × Octets))
  deriving DecidableEq, Repr

/-- Decode ROUTING AREA UPDATE REQUEST; the optional part may be unreadable. -/
def readRauReq (b : Octets) : Option RauReq := do
  let l ← bodyOf 0x08 b
  let (x, l) ← takeN 1 l
  let (ra, l) ← takeN 6 l
  let (raCap, l) ← takeLv l
  some ⟨x.headD 0 % 16, x.headD 0 / 16, ra, raCap, optionalsOf requestIes l⟩

/-- DETACH REQUEST of a mobile station, table 9.4.5.2 and 10.5.5.5: the lower half octet has the type in
bits 1 to 3 and power off in bit 4; the P-TMSI is the optional element 18. -/
structure DetachReq where
  type     : UInt8
  poweroff : UInt8
  opts     : Option (List (UInt8 × Octets))
  deriving DecidableEq, Repr

/-- Decode DETACH REQUEST. -/
def readDetachReq (b : Octets) : Option DetachReq := do
  let l ← bodyOf 0x05 b
  let (x, l) ← takeN 1 l
  some ⟨x.headD 0 % 8, x.headD 0 / 8 % 2, optionalsOf requestIes l⟩

/-- The identity of type P-TMSI, table 10.5.4. -/
def ptmsiIdentity (p : Nat) : Octets :=
  [0xf4, UInt8.ofNat (p / 0x1000000), UInt8.ofNat (p / 0x10000), UInt8.ofNat (p / 0x100), UInt8.ofNat p]

/-- A value of 24 bits, most significant octet first. -/
def value24 (a b c : UInt8) : Nat := a.toNat * 0x10000 + b.toNat * 0x100 + c.toNat

/-- The digits of a mobile identity of type IMSI, IMEI or IMEISV, figure 10.5.4: the first digit is the
upper half of octet 3, with an indication in bit 4 whether the number of digits is odd, and the type in
bits 1 to 3; then come two digits to an octet, the lower half first; after an even number of digits the
last half octet is filled with 1111. -/
def identityDigits : Octets → Option (Nat × List Nat)
  | [] => none
  | x :: l =>
    let ds := x.toNat / 16 :: l.flatMap fun y => [y.toNat % 16, y.toNat / 16]
    if x.toNat / 8 % 2 = 1 then some (x.toNat % 8, ds)
    else if ds.getLast? = some 15 then some (x.toNat % 8, ds.dropLast) else none

end Verif.Spec.Gmm
