import Verif.Llc.Crc

/-!
# Model of the LLC frame encoder and decoder

/repo/src/llc/llc_pdu.c (`gprs_llc_pdu_encode`, `gprs_llc_pdu_decode`) and the types of
/repo/include/osmocom/gprs/llc/llc_private.h.
-/
namespace Verif.Llc

/-- `enum gprs_llc_frame_fmt`, /repo/include/osmocom/gprs/llc/llc_private.h:34-39. -/
inductive Fmt where
  | I | S | UI | U
  deriving DecidableEq, Repr

/-- `enum gprs_llc_frame_func`, /repo/include/osmocom/gprs/llc/llc_private.h:49-66. -/
inductive Func where
  | SABM | DISC | UA | DM | FRMR | XID | NULL | UI | UI_DUMMY | RR | ACK | SACK | RNR
  deriving DecidableEq, Repr

/-- Numeric value of the enumerator, /repo/include/osmocom/gprs/llc/llc_private.h:49-66
(consecutive from 0). -/
def Func.toNat : Func → Nat
  | SABM => 0 | DISC => 1 | UA => 2 | DM => 3 | FRMR => 4 | XID => 5 | NULL => 6
  | UI => 7 | UI_DUMMY => 8 | RR => 9 | ACK => 10 | SACK => 11 | RNR => 12

/-- `OSMO_GPRS_LLC_PDU_F_*`, /repo/include/osmocom/gprs/llc/llc_private.h:154-159, one Boolean per
flag bit. -/
structure Flags where
  cmdRsp : Bool := false
  follFin : Bool := false
  ackReq : Bool := false
  macPres : Bool := false
  encMode : Bool := false
  protMode : Bool := false
  deriving DecidableEq, Repr

/-- `struct gprs_llc_pdu_decoded` as input of the encoder,
/repo/include/osmocom/gprs/llc/llc_private.h:161-176.  `sackR` are the first `sack.len` octets of the
R(n) bitmap, `data` the `data_len` octets at `data`. -/
structure Pdu where
  sapi : Nat
  fmt : Fmt
  func : Func
  flags : Flags := {}
  seqRx : Nat := 0
  seqTx : Nat := 0
  sackR : Octets := []
  data : Octets := []
  deriving DecidableEq, Repr

/-- `UI_HDR_LEN + N202`, /repo/include/osmocom/gprs/llc/llc_private.h:28-29: number of octets the FCS
covers in unprotected mode. -/
def unprotCover : Nat := 3 + 4

/-- The flag bit `1 << n` if set. -/
def bit (b : Bool) (n : Nat) : Nat := if b then 1 <<< n else 0

/-- Address octet, /repo/src/llc/llc_pdu.c:150-154. -/
def encAddr (p : Pdu) : UInt8 := UInt8.ofNat ((p.sapi &&& 0x0f) ||| bit p.flags.cmdRsp 6)

/-- Low two bits of the supervisory function code `(func - RR) & 0x03`,
/repo/src/llc/llc_pdu.c:172 and 194.  (12 is added so that the natural number subtraction does not
truncate; it vanishes modulo 4.) -/
def encSupCode (f : Func) : Nat := (f.toNat + 12 - Func.RR.toNat) &&& 0x03

/-- Control field (with SACK bitmap) of an I frame, /repo/src/llc/llc_pdu.c:157-181. -/
def encCtrlI (p : Pdu) : Res Octets :=
  let c0 := bit p.flags.ackReq 6 ||| ((p.seqTx >>> 4) &&& 0x1f)
  let c1 := ((p.seqTx &&& 0x0f) <<< 4) ||| ((p.seqRx >>> 6) &&& 0x07)
  let c2 := ((p.seqRx &&& 0x3f) <<< 2) ||| encSupCode p.func
  let hdr := [UInt8.ofNat c0, UInt8.ofNat c1, UInt8.ofNat c2]
  if p.func = .SACK then
    if p.sackR.length = 0 then .err .einval
    else .ok (hdr ++ UInt8.ofNat (p.sackR.length - 1) :: p.sackR)
  else .ok hdr

/-- Control field (with SACK bitmap) of an S frame, /repo/src/llc/llc_pdu.c:182-202.  Note that the
A bit is written to the second octet (line 189). -/
def encCtrlS (p : Pdu) : Res Octets :=
  let c0 := 0x80 ||| ((p.seqRx >>> 6) &&& 0x07)
  let c1 := (bit p.flags.ackReq 5 ||| ((p.seqRx &&& 0x3f) <<< 2)) ||| encSupCode p.func
  let hdr := [UInt8.ofNat c0, UInt8.ofNat c1]
  if p.func = .SACK then
    if p.sackR.length = 0 then .err .einval
    else .ok (hdr ++ p.sackR)
  else .ok hdr

/-- Control field of a UI frame, /repo/src/llc/llc_pdu.c:203-219. -/
def encCtrlUI (p : Pdu) : Octets :=
  let c0 := (0xc0 ||| bit p.flags.macPres 4) ||| ((p.seqTx >>> 6) &&& 0x07)
  let c1 := (((p.seqTx &&& 0x3f) <<< 2) ||| bit p.flags.encMode 1) ||| bit p.flags.protMode 0
  [UInt8.ofNat c0, UInt8.ofNat c1]

/-- `GPRS_LLC_U_*` code of a U function, /repo/src/llc/llc_pdu.c:134-140 and 228-253; `none` is the
`default:` branch. -/
def encUCode : Func → Option Nat
  | .NULL => some 0x00
  | .DM => some 0x01
  | .DISC => some 0x04
  | .UA => some 0x06
  | .SABM => some 0x07
  | .FRMR => some 0x08
  | .XID => some 0x0b
  | _ => none

/-- Control field of a U frame, /repo/src/llc/llc_pdu.c:220-255. -/
def encCtrlU (p : Pdu) : Res Octets :=
  match encUCode p.func with
  | some c => .ok [UInt8.ofNat ((0xe0 ||| bit p.flags.follFin 4) ||| c)]
  | none => .err .einval

/-- Control field by format, the `switch (pdu->fmt)` of /repo/src/llc/llc_pdu.c:156-256. -/
def encCtrl (p : Pdu) : Res Octets :=
  match p.fmt with
  | .I => encCtrlI p
  | .S => encCtrlS p
  | .UI => .ok (encCtrlUI p)
  | .U => encCtrlU p

/-- The three FCS octets, least significant first, /repo/src/llc/llc_pdu.c:275-277. -/
def fcsOctets (f : Nat) : Octets :=
  [UInt8.ofNat (f &&& 0xff), UInt8.ofNat ((f >>> 8) &&& 0xff), UInt8.ofNat ((f >>> 16) &&& 0xff)]

/-- Octets covered by the FCS when sending, /repo/src/llc/llc_pdu.c:270-273. -/
def encCover (protMode : Bool) (body : Octets) : Octets :=
  if protMode then body else body.take (min body.length unprotCover)

/-- `gprs_llc_pdu_encode`, /repo/src/llc/llc_pdu.c:142-280.  Simplification: the tail room of the
`msgb` is not limited here (callers allocate 4096 octets). -/
def encode (p : Pdu) : Res Octets :=
  match encCtrl p with
  | .ok ctrl =>
    let body := encAddr p :: ctrl ++ p.data
    if p.flags.macPres then .err .enotsup
    else .ok (body ++ fcsOctets (fcs (encCover p.flags.protMode body)))
  | .err e => .err e
  | .ub u => .ub u

/-! ## Decoder -/

/-- `struct gprs_llc_pdu_decoded` as output of the decoder.  `data` is a pointer into the received
buffer: `some (offset, data_len)`, or `none` for `NULL`; `data_len` is a `size_t` (64 bit). -/
structure Decoded where
  sapi : Nat := 0
  fmt : Fmt := .I
  func : Func := .SABM
  flags : Flags := {}
  seqRx : Nat := 0
  seqTx : Nat := 0
  fcs : Nat := 0
  mac : Nat := 0
  sackR : Octets := []
  data : Option (Nat × Nat) := none
  deriving DecidableEq, Repr

/-- Subtraction on `size_t` (wraps modulo 2^64; the operands are below 2^64). -/
def szSub (a b : Nat) : Nat := if b ≤ a then a - b else a + 2 ^ 64 - b

/-- Reserved SAPI values, /repo/src/llc/llc_pdu.c:324-334. -/
def sapiReserved (s : Nat) : Bool :=
  s = 0x00 || s = 0x04 || s = 0x06 || s = 0x0a || s = 0x0c || s = 0x0d || s = 0x0f

/-- `memcpy` into the 32 octets of `sack.r`: more than 32 octets overflow the array. -/
def sackCopy (d : Octets) (off n : Nat) : Res Octets :=
  if n ≤ 32 then rdN d off n else .ub .outOfBounds

/-- I frame branch, /repo/src/llc/llc_pdu.c:340-380. `dl` is `data_len` after removal of FCS and
address octet; `d` is the whole buffer, so `ctrl[i]` is `d[1+i]`. -/
def decodeI (d : Octets) (p : Decoded) (dl : Nat) : Res Decoded := do
  if dl < 3 then .err .einval
  else do
    let dl := dl - 3
    let c0 ← rd d 1
    let c1 ← rd d 2
    let c2 ← rd d 3
    let p := { p with
      fmt := .I
      flags := { p.flags with ackReq := p.flags.ackReq || (c0 &&& 0x40 != 0) }
      seqTx := ((c0 &&& 0x1f) <<< 4) ||| (c1 >>> 4)
      seqRx := ((c1 &&& 0x7) <<< 6) ||| (c2 >>> 2) }
    match c2 &&& 0x03 with
    | 0 => .ok { p with func := .RR, data := some (4, dl) }
    | 1 => .ok { p with func := .ACK, data := some (4, dl) }
    | 2 => .ok { p with func := .RNR, data := some (4, dl) }
    | _ =>
      if dl < 1 then .err .einval
      else do
        let k ← rd d 4
        let sl := (k &&& 0x1f) + 1
        if dl < sl then .err .einval
        else do
          let r ← sackCopy d 5 sl
          .ok { p with func := .SACK, sackR := r, data := some (4 + (1 + sl), szSub dl (1 + sl)) }

/-- S frame branch, /repo/src/llc/llc_pdu.c:381-413.  `sack.len` is a `uint8_t`. -/
def decodeS (d : Octets) (p : Decoded) (dl : Nat) : Res Decoded := do
  if dl < 2 then .err .einval
  else do
    let dl := dl - 2
    let c0 ← rd d 1
    let c1 ← rd d 2
    let p := { p with
      fmt := .S
      data := none
      flags := { p.flags with ackReq := p.flags.ackReq || (c0 &&& 0x20 != 0) }
      seqRx := ((c0 &&& 0x7) <<< 6) ||| (c1 >>> 2) }
    match c1 &&& 0x03 with
    | 0 => .ok { p with func := .RR }
    | 1 => .ok { p with func := .ACK }
    | 2 => .ok { p with func := .RNR }
    | _ =>
      if dl < 1 then .err .einval
      else do
        let r ← sackCopy d 3 (dl % 256)
        .ok { p with func := .SACK, sackR := r }

/-- `osmo_load32le` of four octets. -/
def le32 (l : Octets) : Nat :=
  l.foldr (fun b acc => b.toNat + 256 * acc) 0

/-- UI frame branch, /repo/src/llc/llc_pdu.c:414-443. -/
def decodeUI (d : Octets) (p : Decoded) (dl : Nat) : Res Decoded := do
  if dl < 2 then .err .einval
  else do
    let dl := dl - 2
    let c0 ← rd d 1
    let c1 ← rd d 2
    let p := { p with
      fmt := .UI
      func := .UI
      seqTx := ((c0 &&& 0x7) <<< 6) ||| (c1 >>> 2)
      flags := { p.flags with
        encMode := p.flags.encMode || (c1 &&& 0x02 != 0)
        protMode := p.flags.protMode && (c1 &&& 0x01 != 0) } }
    if c0 &&& 0x10 != 0 then
      if dl < 4 then .err .einval
      else do
        let m ← rdN d (3 + szSub dl 4) 4
        .ok { p with
          data := some (3, szSub dl 4)
          mac := le32 m
          flags := { p.flags with macPres := true } }
    else .ok { p with data := some (3, dl) }

/-- U frame branch, /repo/src/llc/llc_pdu.c:444-486. -/
def decodeU (d : Octets) (p : Decoded) (dl : Nat) : Res Decoded := do
  if dl < 1 then .err .einval
  else do
    let dl := dl - 1
    let c0 ← rd d 1
    let p := { p with
      fmt := .U
      data := none
      flags := { p.flags with follFin := p.flags.follFin || (c0 &&& 0x10 != 0) } }
    match c0 &&& 0x0f with
    | 0x00 => .ok { p with func := .NULL }
    | 0x01 => .ok { p with func := .DM }
    | 0x04 => .ok { p with func := .DISC }
    | 0x06 => .ok { p with func := .UA }
    | 0x07 => .ok { p with func := .SABM }
    | 0x08 => .ok { p with func := .FRMR }
    | 0x0b => .ok { p with func := .XID, data := some (2, dl) }
    | _ => .err .enotsup

/-- Dispatch on the control field, /repo/src/llc/llc_pdu.c:336-486. -/
def decodeCtrl (d : Octets) (p : Decoded) (dl : Nat) : Res Decoded := do
  if dl < 1 then .err .einval
  else do
    let c0 ← rd d 1
    if c0 &&& 0x80 = 0 then decodeI d p dl
    else if c0 &&& 0xc0 = 0x80 then decodeS d p dl
    else if c0 &&& 0xe0 = 0xc0 then decodeUI d p dl
    else decodeU d p dl

/-- `gprs_llc_pdu_decode`, /repo/src/llc/llc_pdu.c:282-489, on a zero-initialised result record. -/
def decode (d : Octets) : Res Decoded := do
  let n := d.length
  if n < 3 then .err .einval
  else do
    let f0 ← rd d (n - 3)
    let f1 ← rd d (n - 2)
    let f2 ← rd d (n - 1)
    let fcs := (f0 ||| (f1 <<< 8)) ||| (f2 <<< 16)
    let dl := n - 3
    if dl < 1 then .err .einval
    else do
      let dl := dl - 1
      let a ← rd d 0
      if a &&& 0x80 != 0 then .err .einval
      else
        let sapi := a &&& 0x0f
        if sapiReserved sapi then .err .einval
        else decodeCtrl d { fcs, sapi, flags := { protMode := true, cmdRsp := a &&& 0x40 != 0 } } dl

/-- The octets the decoded record's payload pointer denotes (empty for `NULL`). -/
def Decoded.payload (p : Decoded) (d : Octets) : Octets :=
  match p.data with
  | none => []
  | some (off, len) => (d.drop off).take len

/-- The octets over which the receiver computes the FCS: `crc_length` of
/repo/src/llc/llc.c:848-851 (a `uint16_t`). -/
def rxCover (p : Decoded) (d : Octets) : Octets :=
  let n := (d.length - 3) % 2 ^ 16
  d.take (if p.flags.protMode then n else min n unprotCover)

/-- The receiver's FCS comparison, /repo/src/llc/llc.c:851. -/
def fcsOk (p : Decoded) (d : Octets) : Bool := p.fcs == fcs (rxCover p d)

end Verif.Llc
