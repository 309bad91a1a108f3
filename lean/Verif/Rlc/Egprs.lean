import Verif.Rlc.CodingScheme
import Verif.Rlc.Enc
import Verif.Rlc.Dec

/-!
# EGPRS data blocks

Model of the parts of the uplink and downlink data path that know about EGPRS: where the payloads lie in a block, the
copying of payloads that are not octet aligned, coding and puncturing scheme indication, puncturing, resegmentation and
the length indicators.  (The block headers of EGPRS are not implemented in /repo: writing and parsing them returns
`-ENOTSUP`.)
-/
namespace Verif.Rlc

/-! ## Layout of a block -/

/-- `mcs_info[cs].optional_padding_bits`, /repo/src/rlcmac/coding_scheme.c:54, 58-89;
`gprs_rlcmac_mcs_opt_padding_bits`, lines 255-258. -/
def optPadBits (cs : Nat) : Nat := [0, 0, 0, 0, 0, 0, 0, 48, 0, 0, 48, 0, 0, 0].getD cs 0

/-- `mcs_info[cs].data_hdr`, /repo/src/rlcmac/coding_scheme.c:55, 58-89 (`gprs_rlcmac_mcs_header_type`, lines 369-372):
the numbers of `enum gprs_rlcmac_header_type`, /repo/include/osmocom/gprs/rlcmac/coding_scheme.h:90-98: 2 is GPRS, 3, 4 and 5
are the EGPRS header types 1, 2 and 3. -/
def hdrType (cs : Nat) : Nat := [0, 2, 2, 2, 2, 5, 5, 5, 5, 4, 4, 3, 3, 3].getD cs 0

/-- `hdr_type_info[ht].uplink.data_header_bits`, /repo/src/rlcmac/coding_scheme.c:355-367, 380-384. -/
def hdrBitsUl (ht : Nat) : Nat := [0, 8, 24, 46, 37, 31].getD ht 0

/-- `hdr_type_info[ht].downlink.data_header_bits`, /repo/src/rlcmac/coding_scheme.c:355-367, 386-390. -/
def hdrBitsDl (ht : Nat) : Nat := [0, 8, 24, 40, 28, 31].getD ht 0

/-- `hdr_type_info[ht].data_block_header_bits`, /repo/src/rlcmac/coding_scheme.c:355-367, 392-396. -/
def blkHdrBits (ht : Nat) : Nat := [0, 0, 0, 2, 2, 2].getD ht 0

/-- `hdr_type_info[ht].num_blocks`, /repo/src/rlcmac/coding_scheme.c:355-367, 374-378. -/
def numBlocks (ht : Nat) : Nat := [0, 0, 1, 2, 1, 1].getD ht 0

/-- `gprs_rlcmac_mcs_is_valid`, /repo/src/rlcmac/coding_scheme.c:182-185. -/
def isValidCs (cs : Nat) : Bool := decide (1 ≤ cs) && decide (cs < 14)

/-- The members of `struct gprs_rlcmac_rlc_data_info` the copying uses, /repo/include/osmocom/gprs/rlcmac/rlc.h:95-113:
`num_data_blocks`, `data_offs_bits` and `block_info[].data_len` (the same for both). -/
structure DataInfo where
  n : Nat
  offs : Nat → Nat
  len : Nat

/-- `data_len` of `gprs_rlcmac_rlc_block_info_init`, /repo/src/rlcmac/rlc.c:26-41. -/
def blkDataLen (cs : Nat) (pad : Bool) : Nat := (info cs).dataBytes - if pad then optPadBits cs / 8 else 0

/-- `gprs_rlcmac_rlc_data_header_init`, /repo/src/rlcmac/rlc.c:43-74. -/
def dataHeaderInit (cs : Nat) (pad : Bool) (headerBits : Nat) : Res DataInfo :=
  let n := numBlocks (hdrType cs)
  if n ≤ 2 then
    .ok { n, len := blkDataLen cs pad,
          offs := fun i => headerBits + (if pad then optPadBits cs else 0) + (i + 1) * blkHdrBits (hdrType cs) +
            i * 8 * blkDataLen cs pad }
  else .ub .assertFail

/-- `gprs_rlcmac_rlc_data_info_init_ul` (`up`) and `gprs_rlcmac_rlc_data_info_init_dl`, /repo/src/rlcmac/rlc.c:76-99. -/
def dataInfoInit (up : Bool) (cs : Nat) (pad : Bool) : Res DataInfo :=
  if isValidCs cs then
    dataHeaderInit cs pad (if up then hdrBitsUl (hdrType cs) else hdrBitsDl (hdrType cs))
  else .ub .assertFail

/-! ## Payloads that are not octet aligned -/

/-- The loop of `gprs_rlcmac_rlc_copy_from_aligned_buffer`, /repo/src/rlcmac/rlcmac_enc.c:265-269, over the octets of
`src`; `k` is `extra_bits`. -/
def copyFromLoop (k : Nat) : Octets → Octets → Nat → UInt8 → Res (Octets × UInt8)
  | [], dst, _, last => .ok (dst, last)
  | c :: cs, dst, pos, last => do
    let d ← modAt dst pos (fun _ => (last >>> UInt8.ofNat (8 - k)) ||| (c <<< UInt8.ofNat k))
    copyFromLoop k cs d (pos + 1) c

/-- `gprs_rlcmac_rlc_copy_from_aligned_buffer`, /repo/src/rlcmac/rlcmac_enc.c:239-275.  The octets of `buffer` are read
before `dst` is written (they do not overlap). -/
def copyFromAligned (i : DataInfo) (idx : Nat) (dst buffer : Octets) : Res Octets :=
  if idx < i.n then do
    let hdr := i.offs idx / 8
    let k := i.offs idx % 8
    let src ← rdN buffer 0 i.len
    if k = 0 then copyTo dst hdr src
    else do
      let d0 ← rd dst hdr
      let (d, last) ← copyFromLoop k src dst hdr (UInt8.ofNat d0 <<< UInt8.ofNat (8 - k))
      modAt d (hdr + i.len) (fun x => (x &&& (0xff <<< UInt8.ofNat k)) ||| (last >>> UInt8.ofNat (8 - k)))
  else .ub .assertFail

/-- The loop of `gprs_rlcmac_rlc_copy_to_aligned_buffer`, /repo/src/rlcmac/rlcmac_dec.c:343-347: the octets produced
from the octets of `src` behind the first one. -/
def copyToLoop (k : Nat) : UInt8 → Octets → Octets
  | _, [] => []
  | last, c :: cs => ((last >>> UInt8.ofNat k) ||| (c <<< UInt8.ofNat (8 - k))) :: copyToLoop k c cs

/-- `gprs_rlcmac_rlc_copy_to_aligned_buffer`, /repo/src/rlcmac/rlcmac_dec.c:314-350.  The octets of `src` are read
before `buffer` is written (they do not overlap). -/
def copyToAligned (i : DataInfo) (idx : Nat) (src buffer : Octets) : Res Octets :=
  if idx < i.n then do
    let hdr := i.offs idx / 8
    let k := i.offs idx % 8
    if k = 0 then do
      let s ← rdN src hdr i.len
      copyTo buffer 0 s
    else do
      let c0 ← rd src hdr
      let s ← rdN src (hdr + 1) i.len
      copyTo buffer 0 (copyToLoop k (UInt8.ofNat c0) s)
  else .ub .assertFail

/-! ## Coding and puncturing scheme indication; puncturing -/

/-- `GPRS_RLCMAC_EGPRS_PS_INVALID`, /repo/include/osmocom/gprs/rlcmac/rlc.h; the schemes P1, P2, P3 are 0, 1, 2. -/
abbrev psInvalid : Nat := 3

/-- `gprs_rlcmac_rlc_mcs_cps`, /repo/src/rlcmac/rlc.c:132-199; `none` is the return value -1. -/
def mcsCps (cs p p2 : Nat) (pad : Bool) : Option Nat :=
  if mcs7 ≤ cs ∧ cs ≤ mcs9 ∧ p2 = psInvalid then none
  else if mcs1 ≤ cs ∧ cs ≤ mcs9 ∧ p = psInvalid then none
  else if cs = mcs1 then some (11 + p % 2)
  else if cs = mcs2 then some (9 + p % 2)
  else if cs = mcs3 then some ((if pad then 6 else 3) + p % 3)
  else if cs = mcs4 then some (0 + p % 3)
  else if cs = mcs5 then some (4 + p % 2)
  else if cs = mcs6 then some ((if pad then 2 else 0) + p % 2)
  else if cs = mcs7 then some (20 + 3 * (p % 3) + p2 % 3)
  else if cs = mcs8 then some (11 + 3 * (p % 3) + p2 % 3)
  else if cs = mcs9 then some (0 + 4 * (p % 3) + p2 % 3)
  else none

/-- `enum gprs_rlcmac_rlc_egprs_ul_spb`, /repo/include/osmocom/gprs/rlcmac/rlc.h:177-182. -/
inductive Spb where
  | noRetx | first10 | first6 | second
  deriving DecidableEq, Repr

/-- `gprs_rlcmac_get_punct_scheme`, /repo/src/rlcmac/rlc.c:201-247. -/
def getPunct (p cs cur : Nat) (spb : Spb) : Nat :=
  if spb = .second then p
  else if cs = mcs9 ∧ cur = mcs6 then
    (if p = 0 ∨ p = 2 then 0 else if p = 1 then 1 else psInvalid)
  else if cs = mcs6 ∧ cur = mcs9 then
    (if p = 0 then 2 else if p = 1 then 1 else psInvalid)
  else if cs = mcs7 ∧ cur = mcs5 then 0
  else if cs = mcs5 ∧ cur = mcs7 then 1
  else if cs ≠ cur then 0
  else p

/-- `gprs_rlcmac_update_punct_scheme`, /repo/src/rlcmac/rlc.c:249-271. -/
def updatePunct (p cs : Nat) : Nat :=
  if cs = mcs1 ∨ cs = mcs2 ∨ cs = mcs5 ∨ cs = mcs6 then (p + 1) % 2
  else if cs = mcs3 ∨ cs = mcs4 ∨ cs = mcs7 ∨ cs = mcs8 ∨ cs = mcs9 then (p + 1) % 3
  else p

/-! ## Transmission and retransmission of a block -/

/-- `enum gprs_rlcmac_rlc_egprs_ul_reseg_bsn_state`, /repo/include/osmocom/gprs/rlcmac/rlc.h:159-164. -/
inductive Seg where
  | default | firstSent | secondSent
  deriving DecidableEq, Repr

/-- `struct gprs_rlcmac_rlc_block`, /repo/include/osmocom/gprs/rlcmac/rlc.h:216-236, of an uplink TBF: `buf` (74
octets), `cs_init`, `cs_current_trans`, `cs_last`, `next_ps`, `spb_status.block_status_ul`. -/
structure EgBlk where
  buf : Octets
  init : Nat
  cur : Nat
  last : Nat
  ps : Nat
  seg : Seg
  deriving DecidableEq, Repr

/-- The block `create_new_bsn` leaves, /repo/src/rlcmac/tbf_ul.c:695-706 and `gprs_rlcmac_rlc_block_prepare`,
/repo/src/rlcmac/rlc.c:101-111, for coding scheme `cs` and payload `p`: the rest of the buffer is 0. -/
def EgBlk.new (cs : Nat) (p : Octets) : EgBlk :=
  { buf := p ++ List.replicate (74 - p.length) 0, init := cs, cur := cs, last := cs, ps := 0, seg := .default }

/-- `egprs_ul_get_data`, /repo/src/rlcmac/tbf_ul.c:922-977: where in `buf` the data to send starts, and the new
`block_status_ul`. -/
def EgBlk.getData (b : EgBlk) : Nat × Seg :=
  if hdrType b.cur = 5 then
    if b.seg = .firstSent then
      (if b.init = mcs6 ∨ b.init = mcs9 then 37
       else if b.init = mcs7 ∨ b.init = mcs5 then 28
       else if b.init = mcs8 then 31
       else if b.init = mcs4 then 22
       else 0, .secondSent)
    else if hdrType b.init = 3 ∨ hdrType b.init = 4 then (0, .firstSent)
    else if b.init = mcs4 ∧ b.cur = mcs1 then (0, .firstSent)
    else (0, .default)
  else (0, .default)

/-- `get_egprs_ul_spb`, /repo/src/rlcmac/tbf_ul.c:983-1016. -/
def EgBlk.spb (b : EgBlk) : Spb :=
  if hdrType b.cur = 5 then
    if b.seg = .firstSent then .second
    else if hdrType b.init = 3 ∨ hdrType b.init = 4 then .first6
    else if b.init = mcs4 ∧ b.cur = mcs1 then .first10
    else .noRetx
  else .noRetx

/-- `gprs_rlcmac_mcs_dec_to_single_block`, /repo/src/rlcmac/coding_scheme.c:327-348. -/
def decToSingle (cs : Nat) : Nat × Bool :=
  if cs = mcs7 then (mcs5, false) else if cs = mcs8 then (mcs6, true) else if cs = mcs9 then (mcs6, false)
  else (cs, false)

/-- What is sent of a block in one of the payload areas of a radio block: the coding scheme, the split block indicator,
the puncturing scheme and the octets. -/
structure Area where
  cs : Nat
  spb : Spb
  ps : Nat
  data : Octets
  deriving DecidableEq, Repr

/-- One round of the loop of `create_ul_acked_block`, /repo/src/rlcmac/tbf_ul.c:1112-1171: block `b` goes into an area
of `len` octets of a radio block sent with `cs`.  The octets are those `gprs_rlcmac_rlc_copy_from_aligned_buffer` copies.
(The marking of the window is not part of the block.) -/
def EgBlk.send (cs len : Nat) (spb : Spb) (b : EgBlk) : Res (EgBlk × Area) :=
  let ps := getPunct b.ps b.last cs spb
  if isEdge cs ∧ ¬ ps ≤ 2 then .ub .assertFail
  else do
    let (start, seg) := b.getData
    let d ← rdN b.buf start len
    .ok ({ b with seg, last := cs, ps := if spb = .first10 ∨ spb = .first6 then ps else updatePunct ps cs },
      { cs, spb, ps, data := d })

/-- The rounds of that loop for a single block: with `n` areas the block is sent `n` times. -/
def EgBlk.sendN (cs len : Nat) (spb : Spb) : Nat → EgBlk → Res (EgBlk × List Area)
  | 0, b => .ok (b, [])
  | n + 1, b => do
    let (b1, a) ← b.send cs len spb
    let (b2, as) ← b1.sendN cs len spb n
    .ok (b2, a :: as)

/-- A radio block sent: coding scheme, padded or not, `rlc.cps`, and the payload areas. -/
structure Radio where
  cs : Nat
  padded : Bool
  cps : Option Nat
  areas : List Area
  deriving DecidableEq, Repr

/-- `rlc.cps`, /repo/src/rlcmac/tbf_ul.c:1173-1175, with `punct[]` of lines 1040-1042. -/
def radioCps (cs : Nat) (pad : Bool) (as : List Area) : Option Nat :=
  mcsCps cs ((as.map (·.ps)).getD 0 psInvalid) ((as.map (·.ps)).getD 1 psInvalid) pad

/-- The coding scheme and padding of `create_ul_acked_block` for one block number,
/repo/src/rlcmac/tbf_ul.c:1053-1083. -/
def EgBlk.choose (b : EgBlk) : Nat × Bool :=
  if b.init = mcs8 ∧ (b.cur = mcs6 ∨ b.cur = mcs3) then (b.cur, decide (b.seg = .default ∨ b.seg = .secondSent))
  else if b.cur ≠ mcs8 then decToSingle b.cur
  else (b.cur, false)

/-- `create_ul_acked_block` for one block number (`index2 < 0`), /repo/src/rlcmac/tbf_ul.c:1018-1175. -/
def EgBlk.tx (b : EgBlk) : Res (EgBlk × Radio) := do
  let (cs, pad) := b.choose
  let spb := b.spb
  let i ← dataInfoInit true cs pad
  if i.n = 0 then .ub .assertFail
  else do
    let (b1, as) ← b.sendN cs i.len spb i.n
    .ok (b1, { cs, padded := pad, cps := radioCps cs pad as, areas := as })

/-- The choice of `cs_current_trans` for a retransmission in `take_next_bsn`, /repo/src/rlcmac/tbf_ul.c:843-862
(EGPRS); `reseg`: `cfg.egprs_arq_type` is `GPRS_RLCMAC_EGPRS_ARQ1`. -/
def EgBlk.retx (b : EgBlk) (cmd : Nat) (reseg : Bool) : Res EgBlk := do
  let m ← getRetxMcs b.init cmd reseg
  .ok { b with cur := if b.init = mcs8 then mcs8 else m }

/-- `create_ul_acked_block` for two block numbers, /repo/src/rlcmac/tbf_ul.c:1018-1175, the second being taken by the
second call of `take_next_bsn` (line 1217): the second block must have as many octets as the first
(lines 867-869) and the current scheme of the first must have two areas (line 915); otherwise the first goes alone. -/
def txPair (b1 b2 : EgBlk) : Res (EgBlk × EgBlk × Radio) := do
  let i ← dataInfoInit true b1.cur false
  let spb := b1.spb
  let (c1, a1) ← b1.send b1.cur i.len spb
  let (c2, a2) ← b2.send b1.cur i.len spb
  .ok (c1, c2, { cs := b1.cur, padded := false, cps := radioCps b1.cur false [a1, a2], areas := [a1, a2] })

/-- What can happen to a block: it is sent alone (again, with the same `cs_current_trans`), it is sent again alone after
the network commanded `cmd`, or it shares a radio block sent with scheme `cs`, as the first or the second. -/
inductive BlkEv where
  | same
  | again (cmd : Nat) (reseg : Bool)
  | pairFirst (cmd : Nat) (reseg : Bool)
  | pairSame
  | pairSecond (cs : Nat) (reseg : Bool)
  deriving DecidableEq, Repr

/-- A block sharing a radio block sent with scheme `cs` of header type 1: the round of the loop of
`create_ul_acked_block` that concerns it (`spb` is that of the first block, which is not split: line 1085). -/
def EgBlk.shared (b : EgBlk) (cs : Nat) : Res (EgBlk × List Area) := do
  let (c, a) ← b.send cs (blkDataLen cs false) .noRetx
  .ok (c, [a])

/-- The areas filled from a block when something happens to it.  A block can share a radio block as the first if its
current scheme has two areas (`may_combine`, /repo/src/rlcmac/tbf_ul.c:915; otherwise it goes alone); as the second if it
has the length of the first (lines 867-869), which is that of the scheme. -/
def EgBlk.step (b : EgBlk) : BlkEv → Res (EgBlk × List Area)
  | .same => do let (c, r) ← b.tx; .ok (c, r.areas)
  | .again cmd reseg => do
    let b1 ← b.retx cmd reseg
    let (c, r) ← b1.tx
    .ok (c, r.areas)
  | .pairSame => do
    if numBlocks (hdrType b.cur) > 1 then b.shared b.cur
    else do let (c, r) ← b.tx; .ok (c, r.areas)
  | .pairFirst cmd reseg => do
    let b1 ← b.retx cmd reseg
    if numBlocks (hdrType b1.cur) > 1 then b1.shared b1.cur
    else do let (c, r) ← b1.tx; .ok (c, r.areas)
  | .pairSecond cs reseg => do
    let b1 ← b.retx cs reseg
    if numBlocks (hdrType cs) > 1 ∧ (info b1.init).dataBytes = (info cs).dataBytes then b1.shared cs
    else .ok (b1, [])

/-- A history of a block: all the areas filled from it. -/
def EgBlk.run : EgBlk → List BlkEv → Res (EgBlk × List Area)
  | b, [] => .ok (b, [])
  | b, e :: es => do
    let (b1, as) ← b.step e
    let (b2, bs) ← b1.run es
    .ok (b2, as ++ bs)

/-! ## Length indicators -/

/-- The loop of `parse_extensions_egprs`, /repo/src/rlcmac/rlcmac_dec.c:43-109, with `chunks != NULL`; `mem` is the
memory from `data` on, `len` is `data_len`.  Every round returns, or adds a chunk (of which there are at most `size`), so
`size + 1` rounds suffice. -/
def parseEgprsLoop (mem : Octets) (len : Nat) (isLast : Bool) (size : Nat) :
    Nat → Nat → List Chunk → Res (Nat × List Chunk)
  | 0, _, _ => .err .enospc
  | f + 1, offs, acc =>
    if offs > len then .err .einval
    else do
      let o ← rd mem offs
      let li := o / 2
      let e := o % 2
      if acc.length = size then .err .enospc
      else if li = 127 ∧ e = 1 ∧ ¬ (li = 0 ∧ acc.length = 0) then .ok (offs + 1, acc)
      else if li = 0 ∧ acc.length ≠ 0 then .err .einval
      else
        let acc1 := acc ++ [{ length := li, complete := true }]
        if e = 1 then
          if acc1.length = size then .err .enospc
          else .ok (offs + 1, acc1 ++ [{ length := lengthToEnd, complete := isLast }])
        else parseEgprsLoop mem len isLast size f (offs + 1) acc1

/-- `gprs_rlcmac_rlc_data_from_dl_data`, /repo/src/rlcmac/rlcmac_dec.c:180-248, for an EGPRS block, with an array of
`size > 0` chunks. -/
def fromDlDataEgprs (e isLast : Bool) (mem : Octets) (len size : Nat) : Res (List Chunk) := do
  let (offs, pre) ←
    if e then Res.ok (0, [{ length := lengthToEnd, complete := isLast }])
    else parseEgprsLoop mem len isLast size (size + 1) 0 []
  layout len offs pre

end Verif.Rlc
