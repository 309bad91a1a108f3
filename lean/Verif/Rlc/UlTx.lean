import Verif.Rlc.WindowUl
import Verif.Rlc.Enc

/-!
# Model of an uplink TBF as a sender: window, block store and LLC data together

`gprs_rlcmac_ul_tbf_data_create` of /repo/src/rlcmac/tbf_ul.c with the block store of /repo/src/rlcmac/rlc.c.
GPRS coding schemes.  The coding scheme (block length), the countdown value and whether the TLLI is included
come with the request: they are modelled in `Verif.Rlc.Countdown`.
-/
namespace Verif.Rlc

/-- The parts of `struct gprs_rlcmac_ul_tbf` the data transfer uses: the window, the 1024 entries of the block
store (/repo/include/osmocom/gprs/rlcmac/rlc.h:258-260; `none`: still zero as allocated, so without a valid coding
scheme), the LLC data not yet sent, and whether the TBF is in state FINISHED. -/
structure UlTx where
  w : UlWin
  blks : Nat → Option UlBlock
  q : List Octets
  finished : Bool

/-- A TBF that has sent nothing: /repo/src/rlcmac/rlc.c:113-122, `UlWin.init`. -/
def UlTx.init (q : List Octets) : UlTx := { w := UlWin.init, blks := fun _ => none, q, finished := false }

/-- What a request for a block goes with: the payload octets of the current coding scheme, the countdown value,
the TLLI while in contention resolution, the `ul_tbf_preemptive_retransmission` setting. -/
structure UlTxReq where
  len : Nat
  cv : Nat
  tlli : Option Nat
  preemptive : Bool
  deriving DecidableEq, Repr

/-- `gprs_rlcmac_ul_tbf_data_create`, /repo/src/rlcmac/tbf_ul.c:1203-1223, with `take_next_bsn` (814-918),
`create_new_bsn` (673-785) and the part of `create_ul_acked_block` (1017-1201) that picks header fields and
payload from the block store and, for a block with CV 0, moves the TBF to FINISHED
(/repo/src/rlcmac/tbf_ul_fsm.c:229-232).  A block that was never composed has coding scheme 0 and fails
`OSMO_ASSERT(gprs_rlcmac_mcs_is_valid(cs))`, /repo/src/rlcmac/rlc.c:80.  The result: the TBF, the BSN and the
block sent, and why it is sent.  How the block is laid out in octets is not part of this function. -/
def UlTx.dataCreate (s : UlTx) (r : UlTxReq) : Res (UlTx × Nat × UlBlock × UlTxKind) :=
  match UlWin.takeNext ⟨s.finished, decide (s.q ≠ []), r.preemptive⟩ 2 s.w with
  | none => .ub .assertFail
  | some (w', bsn, .new) => do
    let (b, q') ← createBlock r.len r.cv r.tlli s.q
    .ok ({ w := w', blks := upd s.blks (idx bsn) (some b), q := q', finished := s.finished || decide (b.cv = 0) },
      bsn, b, .new)
  | some (w', bsn, k) =>
    match s.blks (idx bsn) with
    | none => .ub .assertFail
    | some b => .ok ({ s with w := w', finished := s.finished || decide (b.cv = 0) }, bsn, b, k)

/-- `gprs_rlcmac_ul_tbf_handle_pkt_ul_ack_nack`, /repo/src/rlcmac/tbf_ul.c:307-351; the boolean: the TBF is
FINISHED and the final ack indication moves it to RELEASING, /repo/src/rlcmac/tbf_ul_fsm.c:272-279. -/
def UlTx.ackNack (s : UlTx) (d : UlAckDesc) : UlTx × Bool :=
  ({ s with w := s.w.handleAckNack d }, s.finished && d.finalAck)

end Verif.Rlc
