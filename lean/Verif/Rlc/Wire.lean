import Verif.Rlc.Egprs
import Verif.Rlc.TbfDl
import Verif.Rlc.Ccch
/-!
# RLC data blocks in octets

What L1CTL-PDCH_DATA.ind makes of the octets it comes with, and the octets of an uplink data block.  GPRS (CS-1..4); for
EGPRS the code reads and writes no headers.
-/
namespace Verif.Rlc
open Verif

/-! ## Downlink -/

/-- What the octets received on a PDCH are taken for. -/
inductive PdchIn where
  /-- ignored, the return value is 0 -/
  | nothing
  /-- ignored, an error is returned -/
  | refused (e : Errno)
  /-- an RLC data block: TFI, BSN, the block, and RRBP if the block polls -/
  | data (tfi bsn : Nat) (b : Block) (poll : Option Nat)
  /-- the bits of an RLC/MAC control block -/
  | ctrl (v : List Bool)
  deriving DecidableEq, Repr

/-- `gprs_rlcmac_handle_gprs_dl_data_block` up to the search for the TBF, /repo/src/rlcmac/rlcmac.c:814-826, with
`gprs_rlcmac_rlc_parse_dl_data_header_gprs`, /repo/src/rlcmac/rlcmac_dec.c:250-276 (the bit fields are those of
/repo/include/osmocom/gprs/rlcmac/rlc.h:49-61) and the copying of /repo/src/rlcmac/tbf_dl.c:328-335 into `buf`, 74 octets
(rlc.h:220-222).  The other header types: rlcmac_dec.c:284-303. -/
def dlDataBlock (cs : Nat) (d : Octets) : Res PdchIn :=
  if hdrType cs = 2 then do
    let i ← dataInfoInit false cs false
    let o0 ← rd d 0
    let o1 ← rd d 1
    let o2 ← rd d 2
    let buf ← copyToAligned i 0 d (List.replicate 74 0)
    .ok (.data (o1 / 2 % 32) (o2 / 2) ⟨o2 % 2 = 1, o1 % 2 = 1, buf.take i.len⟩
      (if o0 / 8 % 2 = 1 then some (o0 / 16 % 4) else none))
  else .ok (.refused .enotsup)

/-- `gprs_rlcmac_handle_gprs_dl_block`, /repo/src/rlcmac/rlcmac.c:832-855; of a control block the 23 octets of CS-1 are
read, rlcmac.c:763-768. -/
def gprsDlBlock (cs : Nat) (d : Octets) : Res PdchIn := do
  let o ← rd d 0
  if o / 64 = 0 then dlDataBlock cs d
  else if o / 64 = 3 then .ok .nothing
  else do
    let v ← rdN d 0 23
    .ok (.ctrl (octBits v))

/-- `rlcmac_prim_handle_l1ctl_pdch_data_ind`, /repo/src/rlcmac/rlcmac_prim.c:587-622. -/
def pdchDataInd (fn : Nat) (d : Octets) : Res PdchIn :=
  if d.length = 0 then .ok .nothing
  else
    let cs := getBySizeDl d.length
    if cs = csUnknown then .ok (.refused .einval)
    else if fn % 104 = 12 then .ok .nothing
    else if isGprs cs then gprsDlBlock cs d
    else if isEdge cs then .ok (.refused .enotsup)
    else .ub .assertFail

/-! ## Uplink -/

/-- `gprs_rlcmac_rlc_write_ul_data_header`, /repo/src/rlcmac/rlcmac_enc.c:31-64, for a GPRS coding scheme: the bit fields of
/repo/include/osmocom/gprs/rlcmac/rlc.h:29-47.  `r` and `si` are 0 from /repo/src/rlcmac/rlc.c:52-53 on. -/
def ulHeader (tfi bsn : Nat) (b : UlBlock) : Octets :=
  let r := 0
  let si := 0
  [UInt8.ofNat (r % 2 + si % 2 * 2 + b.cv % 16 * 4 + 0 * 64),
   UInt8.ofNat ((if b.ti then 1 else 0) + tfi % 32 * 2 + 0 * 64 + 0 * 128),
   UInt8.ofNat ((if b.e then 1 else 0) + bsn % 128 * 2)]

/-- The part of `create_ul_acked_block` that lays out the message, /repo/src/rlcmac/tbf_ul.c:1087-1177, for one data
block: header and payload in a message of the size of the coding scheme, zero as allocated. -/
def ulDataMsg (cs tfi bsn : Nat) (b : UlBlock) : Res Octets := do
  let i ← dataInfoInit true cs false
  let m ← copyFromAligned i 0 (List.replicate (sizeUl cs) 0) b.data
  if hdrType cs = 2 then copyTo m 0 (ulHeader tfi bsn b) else .ok m

end Verif.Rlc
