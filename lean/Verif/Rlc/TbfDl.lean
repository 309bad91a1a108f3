import Verif.Rlc.WindowDl
import Verif.Rlc.Dec

/-!
# Model of the reception of data blocks by a downlink TBF, /repo/src/rlcmac/tbf_dl.c

Simplifications: GPRS only, hence one RLC data block per radio block
(/repo/src/rlcmac/rlcmac_dec.c:264) and byte aligned payload; timers T3190/T3192 and the reservation of
the poll are modelled elsewhere; the primitive handed up is an output.
-/
namespace Verif.Rlc

/-- What is kept of a received block: `struct gprs_rlcmac_rlc_block` with its `block_info`,
/repo/include/osmocom/gprs/rlcmac/rlc.h:86-94, 220-251.  `fbi` stands for `cv == 0`
(/repo/src/rlcmac/rlcmac_dec.c:265); `data` is `buf[0 .. len)`. -/
structure Block where
  e : Bool
  fbi : Bool
  data : Octets
  deriving DecidableEq, Repr

/-- A block of the zero-initialised store (/repo/src/rlcmac/rlc.c:112-121): `len = 0`, `cv = 0`. -/
def Block.zero : Block := { e := false, fbi := true, data := [] }

/-- `struct gprs_rlcmac_dl_tbf` as far as reception needs it: window, block store, `llc_rx_msg`. -/
structure DlTbf where
  win : DlWin
  blkst : Nat → Block
  rx : Option Octets

/-- A freshly allocated TBF, /repo/src/rlcmac/tbf_dl.c:33-66. -/
def DlTbf.init : DlTbf := { win := .init, blkst := fun _ => .zero, rx := none }

/-- `GPRS_RLCMAC_LLC_PDU_MAX_LEN`, /repo/include/osmocom/gprs/rlcmac/rlcmac_private.h:22; exactly the
tail room of the message allocated at /repo/src/rlcmac/tbf_dl.c:246-248 (see
/repo/src/rlcmac/rlcmac_prim.c:135-147). -/
def llcPduMaxLen : Nat := 1543

/-- The loop of `gprs_rlcmac_dl_tbf_assemble_forward_llc`, /repo/src/rlcmac/tbf_dl.c:241-276.  Result:
`llc_rx_msg` and the frames handed up (GRR-UNITDATA.ind).  `msgb_put` aborts when the message is full. -/
def assembleLoop (data : Octets) : List Chunk → Option Octets → Res (Option Octets × List Octets)
  | [], rx => .ok (rx, [])
  | c :: cs, rx => do
    let cur := rx.getD []
    let seg ← rdN data c.offset c.length
    if cur.length + c.length > llcPduMaxLen then .ub .assertFail
    else
      let cur' := cur ++ seg
      if c.complete then
        let (rx', out) ← assembleLoop data cs none
        .ok (rx', cur' :: out)
      else assembleLoop data cs (some cur')

/-- `gprs_rlcmac_dl_tbf_assemble_forward_llc`, /repo/src/rlcmac/tbf_dl.c:224-279 (`frames[16]`).  When the
parser fails, `num_frames` is negative and nothing happens. -/
def assemble (b : Block) (rx : Option Octets) : Res (Option Octets × List Octets) :=
  match fromDlData b.e b.fbi b.data 16 with
  | .ok cs => assembleLoop b.data cs rx
  | .err _ => .ok (rx, [])
  | .ub f => .ub f

/-- The loop over the blocks taken out of the window, /repo/src/rlcmac/tbf_dl.c:350-353: `count` blocks
from `vqBeg + i` on. -/
def assembleAll (blkst : Nat → Block) (vqBeg : Nat) : Nat → Nat → Option Octets → Res (Option Octets × List Octets)
  | 0, _, rx => .ok (rx, [])
  | n + 1, i, rx => do
    let (rx1, o1) ← assemble (blkst (idx (modSns (vqBeg + i)))) rx
    let (rx2, o2) ← assembleAll blkst vqBeg n (i + 1) rx1
    .ok (rx2, o1 ++ o2)

/-- What one received block makes the TBF do. -/
structure RcvOut where
  /-- LLC frames handed up in GRR-UNITDATA.ind -/
  frames : List Octets
  /-- the event "last downlink data received" is sent to the TBF state machine -/
  last : Bool
  deriving DecidableEq, Repr

/-- `gprs_rlcmac_dl_tbf_rcv_data_block`, /repo/src/rlcmac/tbf_dl.c:281-372. -/
def DlTbf.rcv (t : DlTbf) (bsn : Nat) (b : Block) : Res (DlTbf × RcvOut) := do
  let t1 : DlTbf ←
    if ¬ t.win.isInWindow bsn then Res.ok t
    else if t.win.isReceivedVn bsn then Res.ok t
    else if b.data.length > 74 then Res.ub .assertFail
    else Res.ok { t with blkst := upd t.blkst (idx bsn) b, win := t.win.receiveBsn bsn }
  let vqBeg := t1.win.vq
  let (win2, count) := t1.win.raiseVq
  let (rx, frames) ← assembleAll t1.blkst vqBeg count 0 t1.rx
  let lastBlk := t1.blkst (idx (modSns (sub16 win2.vr 1)))
  let last := win2.vq = win2.vr ∧ lastBlk.data.length ≠ 0 ∧ lastBlk.fbi
  .ok ({ win := win2, blkst := t1.blkst, rx }, { frames, last := decide last })

/-- Reception of a sequence of blocks. -/
def DlTbf.run : DlTbf → List (Nat × Block) → Res (DlTbf × List RcvOut)
  | t, [] => .ok (t, [])
  | t, (bsn, b) :: l => do
    let (t1, o) ← t.rcv bsn b
    let (t2, os) ← run t1 l
    .ok (t2, o :: os)

end Verif.Rlc
