import Verif.Rlc.Enc
/-!
# Model of how an uplink EGPRS data block is filled, /repo/src/rlcmac/tbf_ul.c and rlcmac_enc.c

The LLC frames are written by the same function as for GPRS (`appendUl`).
-/
namespace Verif.Rlc

/-- `gprs_rlcmac_rlc_data_to_ul_append_egprs_li_padding`, /repo/src/rlcmac/rlcmac_enc.c:195-225: the octet with the
length 127 and the extension bit is 0xff. -/
def padEgprs (st : EncSt) : Res EncSt := do
  let moved ← rdN st.buf st.numChunks (st.offset - st.numChunks)
  let b1 ← copyTo st.buf (st.numChunks + 1) moved
  let b2 ← copyTo b1 st.numChunks [0xff]
  let b3 ← modLi st.numChunks b2 (· &&& 0xfe)
  .ok { st with buf := b3, offset := st.buf.length, numChunks := st.numChunks + 1 }

/-- The `do ... while` loop of `create_new_bsn`, /repo/src/rlcmac/tbf_ul.c:734-775, for an EGPRS coding scheme. -/
def fillLoopEg (isFinal : Bool) : EncSt → List Octets → Res (EncSt × List Octets)
  | st, [] => if st.numChunks > 0 then do .ok (← padEgprs st, []) else .ub .assertFail
  | st, m :: q =>
    if m.length = 0 then (if st.numChunks > 0 then do .ok (← padEgprs st, m :: q) else .ub .assertFail)
    else do
      let (st1, rest, ar) ← appendUl st isFinal m
      match ar with
      | .needMoreBlocks => .ok (st1, rest :: q)
      | .completedBlockFilled => .ok (st1, q)
      | .completedSpaceLeft => fillLoopEg isFinal st1 q

/-- The block creation part of `create_new_bsn`, /repo/src/rlcmac/tbf_ul.c:692-775, for an EGPRS coding scheme with `len`
octets of payload: the TLLI is written with the least significant octet first (lines 727-729). -/
def createBlockEg (len cv : Nat) (tlli : Option Nat) (q : List Octets) : Res (UlBlock × List Octets) :=
  if q = [] then .ub .assertFail
  else do
    let buf0 := List.replicate len (0x2b : UInt8)
    let st0 : EncSt ←
      match tlli with
      | some t => do
        let b ← copyTo buf0 0 (tlliOctets t).reverse
        .ok { buf := b, offset := 4, numChunks := 0, e := true }
      | none => .ok { buf := buf0, offset := 0, numChunks := 0, e := true }
    let (st, q') ← fillLoopEg (cv = 0) st0 q
    .ok ({ ti := tlli.isSome, e := st.e, cv, data := st.buf }, q')

end Verif.Rlc
