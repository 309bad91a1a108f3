import Verif.Rlc.Window

/-!
# Model of the RLC data block decoder, /repo/src/rlcmac/rlcmac_dec.c

Only GPRS (CS-1..4) blocks: the header parser rejects EGPRS blocks
(/repo/src/rlcmac/rlcmac_dec.c:284-296), so `parse_extensions_egprs` is never reached.
-/
namespace Verif.Rlc

/-- `struct gprs_rlcmac_rlc_llc_chunk`, /repo/include/osmocom/gprs/rlcmac/rlcmac_dec.h:20-24. -/
structure Chunk where
  offset : Nat := 0
  length : Nat
  complete : Bool
  deriving DecidableEq, Repr

/-- `LENGTH_TO_END`, /repo/src/rlcmac/rlcmac_dec.c:37. -/
def lengthToEnd : Nat := 255

/-- The loop of `parse_extensions_gprs`, /repo/src/rlcmac/rlcmac_dec.c:121-175, with `chunks != NULL`
(the only caller passes an array).  `acc` are the chunks found so far; every round adds one, and the
loop returns once there are `size` of them, so `size + 1` rounds (first argument) suffice.  Octets are
read from the payload of the block only: a read behind it is a fault (the C buffer is longer than the
payload, the octet read would be a leftover of an earlier block). -/
def parseExtLoop (data : Octets) (isLast : Bool) (size : Nat) : Nat → Nat → List Chunk → Res (Nat × List Chunk)
  | 0, _, _ => .err .enospc
  | f + 1, offs, acc =>
    if offs > data.length then .err .einval
    else do
      let o ← rd data offs
      let li := o / 4
      let e := if li = 0 then 1 else o % 2
      let m := if li = 0 then 0 else o / 2 % 2
      if m = 0 ∧ e = 0 then .ok (offs + 1, [])
      else if acc.length = size then .err .enospc
      else
        let acc1 := acc ++ [{ length := if li = 0 then lengthToEnd else li,
                              complete := li ≠ 0 || isLast }]
        if e = 1 ∧ m = 1 then
          if acc1.length = size then .err .enospc
          else .ok (offs + 1, acc1 ++ [{ length := lengthToEnd, complete := isLast }])
        else if e = 1 then .ok (offs + 1, acc1)
        else parseExtLoop data isLast size f (offs + 1) acc1

/-- The layout loop of `gprs_rlcmac_rlc_data_from_dl_data`, /repo/src/rlcmac/rlcmac_dec.c:226-245. -/
def layout (dataLen : Nat) : Nat → List Chunk → Res (List Chunk)
  | _, [] => .ok []
  | offs, c :: cs =>
    if c.length = lengthToEnd ∧ offs = dataLen then .ok []
    else
      let len := if c.length = lengthToEnd then dataLen - offs else c.length
      if offs + len > dataLen then .err .einval
      else do
        let r ← layout dataLen (offs + len) cs
        .ok ({ offset := offs, length := len, complete := c.complete } :: r)

/-- `gprs_rlcmac_rlc_data_from_dl_data`, /repo/src/rlcmac/rlcmac_dec.c:180-248, for a GPRS block with
payload `data` (`rdbi->data_len` octets), extension bit `e`, `isLast` = `rdbi->cv == 0`, and an array of
`size > 0` chunks. -/
def fromDlData (e isLast : Bool) (data : Octets) (size : Nat) : Res (List Chunk) := do
  let (offs, pre) ←
    if e then Res.ok (0, [{ length := lengthToEnd, complete := isLast }])
    else parseExtLoop data isLast size (size + 1) 0 []
  layout data.length offs pre

end Verif.Rlc
