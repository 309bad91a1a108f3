import Verif.Rlc.Window

/-!
# Model of the RLC uplink data block encoder

/repo/src/rlcmac/rlcmac_enc.c and the block creation of /repo/src/rlcmac/tbf_ul.c.  GPRS (CS-1..4) only.
-/
namespace Verif.Rlc

/-- `*p = f(*p)` at index `i` of a buffer. -/
def modAt (buf : Octets) (i : Nat) (f : UInt8 → UInt8) : Res Octets :=
  match buf[i]? with
  | some x => .ok (buf.set i (f x))
  | none => .ub .outOfBounds

/-- `memcpy(buf + off, src, n)` (also `memmove`, the source having been read first). -/
def copyTo (buf : Octets) (off : Nat) (src : Octets) : Res Octets :=
  if off + src.length ≤ buf.length then .ok (buf.take off ++ src ++ buf.drop (off + src.length))
  else .ub .outOfBounds

/-- `enum gpr_rlcmac_append_result`, /repo/include/osmocom/gprs/rlcmac/rlcmac_enc.h:20-24. -/
inductive AppendResult where
  | needMoreBlocks | completedSpaceLeft | completedBlockFilled
  deriving DecidableEq, Repr

/-- The variables `gprs_rlcmac_enc_append_ul_data` works on: the payload buffer (`rdbi->data_len` octets;
anything behind counts as out of bounds although the C array has 74), `*offset`, `*num_chunks`,
`rdbi->e`. -/
structure EncSt where
  buf : Octets
  offset : Nat
  numChunks : Nat
  e : Bool
  deriving DecidableEq, Repr

/-- `if (e_pointer) *e_pointer = ...`: changes to the last length indicator written so far,
/repo/src/rlcmac/rlcmac_enc.c:80, 91-94, 112-113, 133-136, 165-168. -/
def modLi (numChunks : Nat) (buf : Octets) (f : UInt8 → UInt8) : Res Octets :=
  if numChunks ≠ 0 then modAt buf (numChunks - 1) f else .ok buf

/-- `gprs_rlcmac_enc_append_ul_data`, /repo/src/rlcmac/rlcmac_enc.c:66-193.  `isFinal` is `rdbi->cv == 0`;
`llc` the content of `llc_msg`.  Result: the state, what is left in `llc_msg`, the return value.  The 6
bit field `li` takes `chunk` modulo 64. -/
def appendUl (st : EncSt) (isFinal : Bool) (llc : Octets) : Res (EncSt × Octets × AppendResult) :=
  let chunk := llc.length
  let space := st.buf.length - st.offset
  if chunk > space then do
    let b1 ← modLi st.numChunks st.buf (· ||| 0x02)
    let b2 ← copyTo b1 st.offset (llc.take space)
    .ok ({ st with buf := b2, offset := st.buf.length, numChunks := st.numChunks + 1 }, llc.drop space,
      .needMoreBlocks)
  else if chunk = space ∧ isFinal then do
    let b1 ← modLi st.numChunks st.buf (· ||| 0x01)
    let b2 ← copyTo b1 st.offset (llc.take space)
    .ok ({ st with buf := b2, offset := st.buf.length, numChunks := st.numChunks + 1 }, llc.drop space,
      .completedBlockFilled)
  else do
    let moved ← rdN st.buf st.numChunks (st.offset - st.numChunks)
    let b1 ← copyTo st.buf (st.numChunks + 1) moved
    let b2 ← modLi st.numChunks b1 (fun x => (x &&& 0xfe) ||| 0x02)
    if chunk = space then do
      let b3 ← copyTo b2 st.numChunks [UInt8.ofNat (0 * 4 + 0 * 2 + 1)]
      let b4 ← copyTo b3 (st.offset + 1) (llc.take (space - 1))
      .ok ({ buf := b4, offset := st.buf.length, numChunks := st.numChunks + 1, e := false },
        llc.drop (space - 1), .needMoreBlocks)
    else do
      let b3 ← copyTo b2 st.numChunks [UInt8.ofNat (chunk % 64 * 4 + 0 * 2 + 1)]
      let b4 ← copyTo b3 (st.offset + 1) llc
      .ok ({ buf := b4, offset := st.offset + 1 + chunk, numChunks := st.numChunks + 1, e := false }, [],
        if space - 1 - chunk > 0 then .completedSpaceLeft else .completedBlockFilled)

/-- The `do ... while` loop of `create_new_bsn`, /repo/src/rlcmac/tbf_ul.c:734-775.  The list is the LLC
data not yet sent: `llc_tx_msg` and the frames the LLC queue will yield, in this order. -/
def fillLoop (isFinal : Bool) : EncSt → List Octets → Res (EncSt × List Octets)
  | st, [] => if st.numChunks > 0 then .ok (st, []) else .ub .assertFail
  | st, m :: q =>
    if m.length = 0 then (if st.numChunks > 0 then .ok (st, m :: q) else .ub .assertFail)
    else do
      let (st1, rest, ar) ← appendUl st isFinal m
      match ar with
      | .needMoreBlocks => .ok (st1, rest :: q)
      | .completedBlockFilled => .ok (st1, q)
      | .completedSpaceLeft => fillLoop isFinal st1 q

/-- An uplink RLC data block: TI (TLLI present), E, countdown value and payload. -/
structure UlBlock where
  ti : Bool
  e : Bool
  cv : Nat
  data : Octets
  deriving DecidableEq, Repr

/-- The four octets of a TLLI, most significant first (`osmo_store32be`). -/
def tlliOctets (t : Nat) : Octets :=
  [UInt8.ofNat (t / 16777216), UInt8.ofNat (t / 65536), UInt8.ofNat (t / 256), UInt8.ofNat t]

/-- The block creation part of `create_new_bsn`, /repo/src/rlcmac/tbf_ul.c:692-775: `len` octets of
payload, countdown value `cv`, TLLI included when in contention resolution.  The list is the LLC data not
yet sent; `OSMO_ASSERT(ul_tbf->llc_tx_msg)` is line 688. -/
def createBlock (len cv : Nat) (tlli : Option Nat) (q : List Octets) : Res (UlBlock × List Octets) :=
  if q = [] then .ub .assertFail
  else do
    let buf0 := List.replicate len (0x2b : UInt8)
    let st0 : EncSt ←
      match tlli with
      | some t => do
        let b ← copyTo buf0 0 (tlliOctets t)
        .ok { buf := b, offset := 4, numChunks := 0, e := true }
      | none => .ok { buf := buf0, offset := 0, numChunks := 0, e := true }
    let (st, q') ← fillLoop (cv = 0) st0 q
    .ok ({ ti := tlli.isSome, e := st.e, cv, data := st.buf }, q')

end Verif.Rlc
