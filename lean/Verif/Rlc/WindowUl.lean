import Verif.Rlc.Window
import Verif.Bits

/-!
# Model of the RLC uplink (transmit) window and of the choice of the next block to send

/repo/src/rlcmac/rlc_window_ul.c, the Ack/Nack decoding of /repo/src/rlcmac/rlcmac_dec.c and
`take_next_bsn`, `handle_pkt_ul_ack_nack` of /repo/src/rlcmac/tbf_ul.c (GPRS coding schemes, so no
combination of two blocks).
-/
namespace Verif.Rlc

/-- `enum gprs_rlcmac_rlc_ul_bsn_state`,
/repo/include/osmocom/gprs/rlcmac/rlc_window_ul.h:13-20. -/
inductive UlState where
  | invalid | nacked | acked | unacked | resend
  deriving DecidableEq, Repr

/-- `struct gprs_rlcmac_rlc_ul_window`, /repo/include/osmocom/gprs/rlcmac/rlc_window_ul.h:45-52 (the
back pointer and the constant SNS/WS left out).  `vb` is the array of 1024 states. -/
structure UlWin where
  vs : Nat
  va : Nat
  vb : Nat → UlState

/-- `gprs_rlcmac_rlc_ul_window_reset`, /repo/src/rlcmac/rlc_window_ul.c:40-45, 133-138. -/
def UlWin.init : UlWin := { vs := 0, va := 0, vb := fun _ => .invalid }

/-- `gprs_rlcmac_rlc_v_b_mark*`, /repo/src/rlcmac/rlc_window_ul.c:34-38, 78-101. -/
def UlWin.mark (w : UlWin) (bsn : Nat) (s : UlState) : UlWin := { w with vb := upd w.vb (idx bsn) s }

/-- `gprs_rlcmac_rlc_v_b_get_state`, `gprs_rlcmac_rlc_v_b_is_*`,
/repo/src/rlcmac/rlc_window_ul.c:28-32, 47-76. -/
def UlWin.state (w : UlWin) (bsn : Nat) : UlState := w.vb (idx bsn)

/-- `gprs_rlcmac_rlc_ul_window_window_stalled`, /repo/src/rlcmac/rlc_window_ul.c:140-146. -/
def UlWin.stalled (w : UlWin) : Bool := modSns (sub16 w.vs w.va) == ws

/-- `gprs_rlcmac_rlc_ul_window_window_empty`, /repo/src/rlcmac/rlc_window_ul.c:148-151. -/
def UlWin.empty (w : UlWin) : Bool := w.vs == w.va

/-- `gprs_rlcmac_rlc_ul_window_increment_send`, /repo/src/rlcmac/rlc_window_ul.c:153-158. -/
def UlWin.incrementSend (w : UlWin) : UlWin := { w with vs := modSns (w.vs + 1) }

/-- `gprs_rlcmac_rlc_ul_window_raise`, /repo/src/rlcmac/rlc_window_ul.c:160-165. -/
def UlWin.raise (w : UlWin) (moves : Nat) : UlWin := { w with va := modSns (w.va + moves) }

/-- `gprs_rlcmac_rlc_ul_window_distance`, /repo/src/rlcmac/rlc_window_ul.c:184-189. -/
def UlWin.distance (w : UlWin) : Nat := modSns (sub16 w.vs w.va)

/-- The loop of `gprs_rlcmac_rlc_ul_window_resend_needed`, /repo/src/rlcmac/rlc_window_ul.c:197-203.  The
loop variable walks through the 128 numbers, so it meets V(S) after at most 127 rounds; the first
argument bounds the rounds. -/
def UlWin.resendLoop (w : UlWin) : Nat → Nat → Option Nat
  | 0, _ => none
  | f + 1, bsn =>
    if bsn = w.vs then none
    else if w.state bsn = .nacked ∨ w.state bsn = .resend then some bsn
    else UlWin.resendLoop w f (modSns (bsn + 1))

/-- `gprs_rlcmac_rlc_ul_window_resend_needed`, /repo/src/rlcmac/rlc_window_ul.c:192-206 (`none` is
`-1`). -/
def UlWin.resendNeeded (w : UlWin) : Option Nat := w.resendLoop sns w.va

/-- The loop of `gprs_rlcmac_rlc_ul_window_mark_for_resend`, /repo/src/rlcmac/rlc_window_ul.c:214-222, with
the number of blocks marked. -/
def UlWin.markResendLoop : Nat → Nat → UlWin → UlWin × Nat
  | 0, _, w => (w, 0)
  | f + 1, bsn, w =>
    if bsn = w.vs then (w, 0)
    else if w.state bsn = .unacked then
      let (w', c) := UlWin.markResendLoop f (modSns (bsn + 1)) (w.mark bsn .resend)
      (w', c + 1)
    else UlWin.markResendLoop f (modSns (bsn + 1)) w

/-- `gprs_rlcmac_rlc_ul_window_mark_for_resend`, /repo/src/rlcmac/rlc_window_ul.c:208-225. -/
def UlWin.markForResend (w : UlWin) : UlWin × Nat := UlWin.markResendLoop sns w.va w

/-- The loop of `gprs_rlcmac_rlc_ul_window_update`, /repo/src/rlcmac/rlc_window_ul.c:269-288: `bits` are
the bits still to be handled, the first of them for `bsn`.  The counters of lost and received blocks are
left out (they are only logged). -/
def UlWin.updateLoop : List Bool → Nat → UlWin → UlWin
  | [], _, w => w
  | b :: rest, bsn, w =>
    if modSns bsn = modSns (sub16 w.va 1) then w
    else UlWin.updateLoop rest (bsn + 1) (w.mark (modSns bsn) (if b then .acked else .nacked))

/-- `gprs_rlcmac_rlc_ul_window_update`, /repo/src/rlcmac/rlc_window_ul.c:258-289; `rbb` are the
`rbb->cur_bit` bits of the vector. -/
def UlWin.update (w : UlWin) (rbb : List Bool) (firstBsn : Nat) : UlWin :=
  let dist := w.distance
  let numBlocks := if rbb.length > dist then dist else rbb.length
  UlWin.updateLoop (rbb.take numBlocks) firstBsn w

/-- The loop of `gprs_rlcmac_rlc_ul_window_move_window`, /repo/src/rlcmac/rlc_window_ul.c:297-304. -/
def UlWin.moveLoop : Nat → Nat → UlWin → UlWin × Nat
  | 0, _, w => (w, 0)
  | f + 1, bsn, w =>
    if bsn = w.vs then (w, 0)
    else if w.state bsn ≠ .acked then (w, 0)
    else
      let (w', c) := UlWin.moveLoop f (modSns (bsn + 1)) (w.mark bsn .invalid)
      (w', c + 1)

/-- `gprs_rlcmac_rlc_ul_window_move_window`, /repo/src/rlcmac/rlc_window_ul.c:291-307. -/
def UlWin.moveWindow (w : UlWin) : UlWin × Nat := UlWin.moveLoop sns w.va w

/-- `gprs_rlcmac_ul_tbf_update_window`, /repo/src/rlcmac/tbf_ul.c:255-287 (logging left out). -/
def UlWin.updateWindow (w : UlWin) (rbb : List Bool) (firstBsn : Nat) : UlWin :=
  let (w', c) := (w.update rbb firstBsn).moveWindow
  w'.raise c

/-- `Ack_Nack_Description_t`, /repo/include/osmocom/gprs/rlcmac/csn1_defs.h:79-84. -/
structure UlAckDesc where
  finalAck : Bool
  ssn : Nat
  /-- `RECEIVED_BLOCK_BITMAP[8]` -/
  rbb : Octets
  deriving DecidableEq, Repr

/-- `handle_final_ack`, /repo/src/rlcmac/rlcmac_dec.c:369-383: the bits written and the first BSN. -/
def UlWin.finalAckBits (w : UlWin) : List Bool × Nat :=
  (List.replicate (modSns (sub16 w.vs w.va)) true, w.va)

/-- `gprs_rlcmac_decode_gprs_acknack_bits`, /repo/src/rlcmac/rlcmac_dec.c:385-430: the bits written to
`bits` (none when `-EINVAL` is returned) and `*bsn_begin`. -/
def UlWin.decodeAckNack (w : UlWin) (d : UlAckDesc) : List Bool × Nat :=
  if d.finalAck then w.finalAckBits
  else
    let numBlocks := modSns (sub16 d.ssn w.va)
    if numBlocks > 64 then ([], w.va)
    else ((List.range numBlocks).map fun k => bitAt d.rbb (64 - (numBlocks - k)), w.va)

/-- What `gprs_rlcmac_ul_tbf_handle_pkt_ul_ack_nack` does to the window,
/repo/src/rlcmac/tbf_ul.c:307-351. -/
def UlWin.handleAckNack (w : UlWin) (d : UlAckDesc) : UlWin :=
  let (bits, bsnBegin) := w.decodeAckNack d
  let w' := w.updateWindow bits bsnBegin
  if d.finalAck then UlWin.init else w'

/-- What the sender knows when it is asked for a block: the TBF is in state FINISHED, there is LLC data
left (`gprs_rlcmac_ul_tbf_have_data`), and the `ul_tbf_preemptive_retransmission` setting. -/
structure UlTxCtx where
  finished : Bool
  haveData : Bool
  preemptive : Bool
  deriving DecidableEq, Repr

/-- Why a block is sent: for the first time, again because it was not acknowledged, or merely because
there is nothing else to send. -/
inductive UlTxKind where
  | new | retransmit | filler
  deriving DecidableEq, Repr

/-- `restart_bsn_cycle`, /repo/src/rlcmac/tbf_ul.c:787-812. -/
def UlWin.restartCycle (w : UlWin) : UlWin × Bool :=
  if w.empty then (w, false)
  else
    let (w', n) := w.markForResend
    if n = 0 then (w', false) else (w', true)

/-- "we just send final block again", /repo/src/rlcmac/tbf_ul.c:908-912. -/
def UlWin.fillerTx (w : UlWin) : UlWin × Nat × UlTxKind := (w, modSns (w.vs + 65536 - 1), .filler)

/-- What `create_new_bsn` does to the window, /repo/src/rlcmac/tbf_ul.c:675, 781-784. -/
def UlWin.newTx (w : UlWin) : UlWin × Nat × UlTxKind := ((w.mark w.vs .unacked).incrementSend, w.vs, .new)

/-- `take_next_bsn` for GPRS with `previous_bsn == -1`, /repo/src/rlcmac/tbf_ul.c:814-918: the BSN chosen and why.
The first argument bounds the depth of the recursion, `none` says it is exhausted. -/
def UlWin.takeNext (c : UlTxCtx) : Nat → UlWin → Option (UlWin × Nat × UlTxKind)
  | 0, _ => none
  | depth + 1, w =>
    match w.resendNeeded with
    | some bsn => some (w.mark bsn .unacked, bsn, .retransmit)
    | none =>
      if c.finished then
        match w.restartCycle with
        | (w', true) => UlWin.takeNext c depth w'
        | (w', false) => some w'.fillerTx
      else if w.stalled then
        match w.restartCycle with
        | (w', true) => UlWin.takeNext c depth w'
        | (w', false) => some w'.fillerTx
      else if c.haveData then some w.newTx
      else if c.preemptive && !w.empty then
        match w.restartCycle with
        | (w', true) => UlWin.takeNext c depth w'
        | (w', false) => some w'.fillerTx
      else some w.fillerTx

/-- What can happen to the transmit window: the sender is asked for a block, or a Packet Uplink Ack/Nack
arrives. -/
inductive UlEv where
  | rts (c : UlTxCtx)
  | ackNack (d : UlAckDesc)
  deriving DecidableEq, Repr

/-- One event; the result is the window and the block sent, `none` if the recursion did not end. -/
def UlWin.step (w : UlWin) : UlEv → Option (UlWin × Option (Nat × UlTxKind))
  | .rts c => (UlWin.takeNext c 2 w).map fun (w', b, k) => (w', some (b, k))
  | .ackNack d => some (w.handleAckNack d, none)

end Verif.Rlc
