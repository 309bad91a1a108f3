import Verif.Basic

/-!
# Model of the LLC XID parameter codec, /repo/src/llc/llc_xid.c
-/
namespace Verif.Llc

/-- `struct gprs_llc_xid_field`, /repo/include/osmocom/gprs/llc/llc_private.h:104-113; `var` are the
`var.val_len` octets at `var.val` (`val_len` is a `uint8_t`). -/
structure XidField where
  type : Nat
  val : Nat := 0
  var : Octets := []
  deriving DecidableEq, Repr

/-- An entry of `gprs_llc_xid_desc`, /repo/src/llc/llc_xid.c:54-60. -/
structure XidDesc where
  varLen : Bool := false
  len : Nat := 0
  min : Nat := 0
  max : Nat := 0
  allowZero : Bool := false
  deriving DecidableEq, Repr

/-- `gprs_llc_xid_desc[]`, /repo/src/llc/llc_xid.c:60-77. -/
def xidDescTbl : List XidDesc := [
  { len := 1, min := 0, max := 15 },
  { len := 4, min := 0, max := 0xffffffff },
  { len := 4, min := 0, max := 0xffffffff },
  { len := 2, min := 0, max := 4095 },
  { len := 1, min := 1, max := 15 },
  { len := 2, min := 140, max := 1520 },
  { len := 2, min := 140, max := 1520 },
  { len := 2, min := 9, max := 24320, allowZero := true },
  { len := 2, min := 9, max := 24320, allowZero := true },
  { len := 1, min := 1, max := 255 },
  { len := 1, min := 1, max := 255 },
  { varLen := true },
  { len := 0 },
  { len := 4, min := 0, max := 0xffffffff },
  { len := 1, min := 1, max := 255 },
  { len := 4, min := 0, max := 0xffffffff }]

/-- Table access; every use below is guarded by `type < 16`. -/
def xidDesc (t : Nat) : XidDesc := xidDescTbl[t]?.getD {}

/-- `gprs_llc_xid_field_get_len`, /repo/src/llc/llc_xid.c:89-95. -/
def xidFieldLen (f : XidField) : Nat :=
  if (xidDesc f.type).varLen then f.var.length else (xidDesc f.type).len

/-- `gprs_llc_xid_field_is_valid`, /repo/src/llc/llc_xid.c:97-137. -/
def xidValid (f : XidField) : Bool :=
  if f.type ≥ 16 then false
  else if (xidDesc f.type).varLen then true
  else if f.var.length > 0 then false
  else if (xidDesc f.type).allowZero && f.val == 0 then true
  else if f.val < (xidDesc f.type).min then false
  else if f.val > (xidDesc f.type).max then false
  else true

/-- Big-endian fixed-length value, the `switch (len)` of /repo/src/llc/llc_xid.c:184-201;
other lengths hit `OSMO_ASSERT(0)`. -/
def xidFixedOctets (len v : Nat) : Res Octets :=
  match len with
  | 1 => .ok [UInt8.ofNat v]
  | 2 => .ok [UInt8.ofNat (v >>> 8), UInt8.ofNat v]
  | 4 => .ok [UInt8.ofNat (v >>> 24), UInt8.ofNat (v >>> 16), UInt8.ofNat (v >>> 8), UInt8.ofNat v]
  | _ => .ub .assertFail

/-- Value part of one field after the header, /repo/src/llc/llc_xid.c:173-201; `off` is
`wptr - data`, `cap` the buffer size. -/
def xidEncValue (cap off len : Nat) (f : XidField) : Res Octets :=
  if off + len > cap then .err .einval
  else if (xidDesc f.type).varLen then .ok f.var
  else xidFixedOctets len f.val

/-- One loop iteration of `gprs_llc_xid_encode`, /repo/src/llc/llc_xid.c:146-201: the octets written
for field `f` at offset `off` of a buffer of `cap` octets. -/
def xidEncField (cap off : Nat) (f : XidField) : Res Octets :=
  if !xidValid f then .err .einval
  else if off ≥ cap then .err .einval
  else
    let h0 := (f.type &&& 0x1f) <<< 2
    let len := xidFieldLen f
    if len = 0 then .ok [UInt8.ofNat h0]
    else if len < 4 then
      (xidEncValue cap (off + 1) len f).bind fun v => .ok (UInt8.ofNat (h0 ||| len) :: v)
    else if off + 1 ≥ cap then .err .einval
    else
      (xidEncValue cap (off + 2) len f).bind fun v =>
        .ok (UInt8.ofNat ((h0 ||| (1 <<< 7)) ||| ((len >>> 6) &&& 0x03)) ::
             UInt8.ofNat ((len <<< 2) &&& 0xff) :: v)

/-- The loop of `gprs_llc_xid_encode`, /repo/src/llc/llc_xid.c:146-202. -/
def xidEncLoop (cap off : Nat) : List XidField → Res Octets
  | [] => .ok []
  | f :: fs =>
    (xidEncField cap off f).bind fun o =>
    (xidEncLoop cap (off + o.length) fs).bind fun rest => .ok (o ++ rest)

/-- `gprs_llc_xid_encode`, /repo/src/llc/llc_xid.c:139-205: the octets written into a buffer of `cap`
octets. -/
def xidEncode (cap : Nat) (fs : List XidField) : Res Octets := xidEncLoop cap 0 fs

/-- Value of a fixed-length field, /repo/src/llc/llc_xid.c:265-284. -/
def xidFixedVal (d : Octets) (ptr len : Nat) : Res Nat :=
  match len with
  | 0 => .ok 0
  | 1 => rd d ptr
  | 2 => do
    let a ← rd d ptr
    let b ← rd d (ptr + 1)
    .ok (a * 256 + b)
  | 4 => do
    let a ← rd d ptr
    let b ← rd d (ptr + 1)
    let c ← rd d (ptr + 2)
    let e ← rd d (ptr + 3)
    .ok (((a * 256 + b) * 256 + c) * 256 + e)
  | _ => .err .einval

/-- Value part of one field, /repo/src/llc/llc_xid.c:252-289. The pointer stored for variable-length
values is modelled as the octets it designates. -/
def xidDecValue (d : Octets) (type ptr len : Nat) : Res XidField :=
  if (xidDesc type).varLen then
    (rdN d ptr len).bind fun v => .ok { type, var := v }
  else
    (xidFixedVal d ptr len).bind fun v =>
      if xidValid { type, val := v } then .ok { type, val := v } else .err .einval

/-- Header part of one field: `(type, length, octets consumed)`, /repo/src/llc/llc_xid.c:226-247.
`len` is a `uint8_t`. -/
def xidDecHdr (d : Octets) (ptr dl : Nat) : Res (Nat × Nat × Nat) := do
  let h ← rd d ptr
  let type := (h >>> 2) &&& 0x1f
  if type ≥ 16 then .err .einval
  else if h &&& 0x80 ≠ 0 then
    if dl - 1 < 1 then .err .einval
    else do
      let h2 ← rd d (ptr + 1)
      .ok (type, (((h &&& 0x07) <<< 6) % 256) ||| (h2 >>> 2), 2)
  else .ok (type, h &&& 0x03, 1)

/-- The loop of `gprs_llc_xid_decode`, /repo/src/llc/llc_xid.c:223-294.  `ptr` and `dl` are the read
pointer and the `data_len` still to parse, `n` is `num_fields`.  The fuel bounds the number of
iterations; `xidDecode` supplies enough (every iteration consumes an octet). -/
def xidDecLoop (d : Octets) (max : Nat) : (fuel ptr dl n : Nat) → Res (List XidField)
  | _, _, 0, _ => .ok []
  | 0, _, _ + 1, _ => .err .eio
  | fuel + 1, ptr, dl + 1, n =>
    if n + 1 > max then .err .enomem
    else
      (xidDecHdr d ptr (dl + 1)).bind fun (type, len, hl) =>
        if dl + 1 - hl < len then .err .einval
        else
          (xidDecValue d type (ptr + hl) len).bind fun f =>
          (xidDecLoop d max fuel (ptr + hl + len) (dl + 1 - hl - len) (n + 1)).bind fun rest =>
            .ok (f :: rest)

/-- `gprs_llc_xid_decode`, /repo/src/llc/llc_xid.c:208-299, into a zero-initialised field array of
`max` entries. -/
def xidDecode (max : Nat) (d : Octets) : Res (List XidField) := xidDecLoop d max d.length 0 d.length 0

end Verif.Llc
