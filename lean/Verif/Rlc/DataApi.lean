import Verif.Basic
/-!
# RLC data blocks for users of the library

`osmo_gprs_rlcmac_decode_uplink_data` and `osmo_gprs_rlcmac_encode_downlink_data`.  All fields fill up octets, so the bit
vector is read and written in octets; the read position is what is left of it.  `bitvec_read_field` of libosmocore
yields 0 and stays where it is when there are too few bits left (which does not happen to 23 octets in the theorems below).
-/
namespace Verif.Rlc
open Verif

/-- `MAX_NUMBER_LLC_PDU`, /repo/include/osmocom/gprs/rlcmac/csn1_defs.h:43. -/
def maxLlcPdu : Nat := 5

/-- One entry of `LENGTH_INDICATOR`, `M` and `E`, /repo/include/osmocom/gprs/rlcmac/csn1_defs.h:5168-5170, 5191-5193. -/
structure LiEntry where
  li : Nat
  m : Nat
  e : Nat
  deriving DecidableEq, Repr

/-- What is written to `RlcMacUplinkDataBlock_t`, /repo/include/osmocom/gprs/rlcmac/csn1_defs.h:5156-5176; `lis`: the
entries written; `tlli`, `pfi` (with `E_2`): `none` if not written; `data`: the first octets of `RLC_DATA`. -/
structure UlDataOut where
  cv : Nat
  si : Nat
  r : Nat
  spare : Nat
  pi : Nat
  tfi : Nat
  ti : Nat
  bsn : Nat
  e1 : Nat
  lis : List LiEntry
  tlli : Option Nat
  pfi : Option (Nat × Nat)
  data : Octets
  deriving DecidableEq, Repr

/-- The next octet. -/
def bvOctet : Octets → Nat × Octets
  | [] => (0, [])
  | o :: l => (o.toNat, l)

/-- The next 32 bits. -/
def bvWord : Octets → Nat × Octets
  | a :: b :: c :: d :: l => (a.toNat * 16777216 + b.toNat * 65536 + c.toNat * 256 + d.toNat, l)
  | l => (0, l)

/-- The loop over the length indicators from entry `i` on, /repo/src/rlcmac/csn1_ts_44_060.c:5108-5117. -/
def liRead (i : Nat) : Octets → Res (List LiEntry × Octets)
  | [] => if i < maxLlcPdu then .ok ([⟨0, 0, 0⟩], []) else .ub .outOfBounds
  | o :: l =>
    if i < maxLlcPdu then
      let x : LiEntry := ⟨o.toNat / 4, o.toNat / 2 % 2, o.toNat % 2⟩
      if x.m = 1 ∧ x.e = 0 then do
        let (xs, l') ← liRead (i + 1) l
        .ok (x :: xs, l')
      else .ok ([x], l)
    else .ub .outOfBounds

/-- The length indicators, if the extension bit announces them, /repo/src/rlcmac/csn1_ts_44_060.c:5104-5118. -/
def lisRead (e1 : Nat) (d : Octets) : Res (List LiEntry × Octets) := if e1 = 0 then liRead 0 d else .ok ([], d)

/-- What follows them, /repo/src/rlcmac/csn1_ts_44_060.c:5119-5141; `len` is the number of octets of the vector. -/
def ulDataRest (len o0 o1 o2 : Nat) (lis : List LiEntry) (d4 : Octets) : Res (Option UlDataOut) :=
  let ti := o1 % 2
  let pi := o1 / 64 % 2
  let tlli := if ti = 1 then some (bvWord d4).1 else none
  let d5 := if ti = 1 then (bvWord d4).2 else d4
  let pfi := if ti = 1 ∧ pi = 1 then some ((bvOctet d5).1 / 2, (bvOctet d5).1 % 2) else none
  let d6 := if ti = 1 ∧ pi = 1 then (bvOctet d5).2 else d5
  let dataLen := (23 + 4294967296 - (len - d6.length)) % 4294967296
  if dataLen ≤ 20 then
    .ok (some { cv := o0 / 4 % 16, si := o0 / 2 % 2, r := o0 % 2, spare := o1 / 128, pi, tfi := o1 / 2 % 32, ti, bsn := o2 / 2,
                e1 := o2 % 2, lis, tlli, pfi, data := (List.range dataLen).map fun i => d6.getD i 0 })
  else .ub .assertFail

/-- `osmo_gprs_rlcmac_decode_uplink_data`, /repo/src/rlcmac/csn1_ts_44_060.c:5072-5148. `none`: not a data block, nothing is
written. -/
def decodeUplinkData (d : Octets) : Res (Option UlDataOut) :=
  let x0 := bvOctet d
  let x1 := bvOctet x0.2
  let x2 := bvOctet x1.2
  if x0.1 / 64 = 0 then do
    let (lis, d4) ← lisRead (x2.1 % 2) x2.2
    ulDataRest d.length x0.1 x1.1 x2.1 lis d4
  else .ok none

/-- `RlcMacDownlinkDataBlock_t` with payload type "data", /repo/include/osmocom/gprs/rlcmac/csn1_defs.h:5180-5196. -/
structure DlDataIn where
  rrbp : Nat
  sp : Nat
  usf : Nat
  pr : Nat
  tfi : Nat
  fbi : Nat
  bsn : Nat
  e1 : Nat
  /-- five entries -/
  lis : List LiEntry
  /-- 20 octets -/
  data : Octets
  deriving DecidableEq, Repr

/-- The loop over the length indicators, /repo/src/rlcmac/csn1_ts_44_060.c:5187-5196; the list is what is left of the arrays. -/
def liWrite : List LiEntry → Res Octets
  | [] => .ub .outOfBounds
  | x :: xs => do
    let o := UInt8.ofNat (x.li % 64 * 4 + x.m % 2 * 2 + x.e % 2)
    if x.m = 1 ∧ x.e = 0 then do
      let l ← liWrite xs
      .ok (o :: l)
    else .ok [o]

/-- The length indicators, if the extension bit announces them, /repo/src/rlcmac/csn1_ts_44_060.c:5184-5197. -/
def lisWrite (x : DlDataIn) : Res Octets := if x.e1 = 0 then liWrite x.lis else .ok []

/-- `osmo_gprs_rlcmac_encode_downlink_data`, /repo/src/rlcmac/csn1_ts_44_060.c:5150-5207, into a bit vector of 23 octets. -/
def encodeDownlinkData (x : DlDataIn) : Res Octets := do
  let h := [UInt8.ofNat (0 * 64 + x.rrbp % 4 * 16 + x.sp % 2 * 8 + x.usf % 8), UInt8.ofNat (x.pr % 4 * 64 + x.tfi % 32 * 2 + x.fbi % 2),
    UInt8.ofNat (x.bsn % 128 * 2 + x.e1 % 2)]
  let l ← lisWrite x
  let n := (23 + 4294967296 - (h ++ l).length) % 4294967296
  if n ≤ 20 then do
    let p ← rdN x.data 0 n
    .ok (h ++ l ++ p)
  else .ub .assertFail

end Verif.Rlc
