import Verif.Rlc.Window
import Verif.Bits

/-!
# Model of the RLC downlink (receive) window, /repo/src/rlcmac/rlc_window_dl.c
-/
namespace Verif.Rlc

/-- `enum gprs_rlcmac_rlc_dl_bsn_state`,
/repo/include/osmocom/gprs/rlcmac/rlc_window_dl.h:13-18. -/
inductive DlState where
  | invalid | received | missing
  deriving DecidableEq, Repr

/-- `struct gprs_rlcmac_rlc_dl_window`, /repo/include/osmocom/gprs/rlcmac/rlc_window_dl.h:20-40 (the
back pointer and the constant SNS/WS left out).  `vn` is the array of 1024 states. -/
structure DlWin where
  vr : Nat
  vq : Nat
  vn : Nat → DlState

/-- `gprs_rlcmac_rlc_dl_window_reset`, /repo/src/rlcmac/rlc_window_dl.c:43-48, 105-115. -/
def DlWin.init : DlWin := { vr := 0, vq := 0, vn := fun _ => .invalid }

/-- `gprs_rlcmac_rlc_v_n_mark*`, /repo/src/rlcmac/rlc_window_dl.c:37-41, 61-75. -/
def DlWin.mark (w : DlWin) (bsn : Nat) (s : DlState) : DlWin := { w with vn := upd w.vn (idx bsn) s }

/-- `gprs_rlcmac_rlc_v_n_is_received`, /repo/src/rlcmac/rlc_window_dl.c:31-35, 50-54. -/
def DlWin.isReceivedVn (w : DlWin) (bsn : Nat) : Bool := w.vn (idx bsn) == .received

/-- `gprs_rlcmac_rlc_dl_window_is_in_window`, /repo/src/rlcmac/rlc_window_dl.c:137-147. -/
def DlWin.isInWindow (w : DlWin) (bsn : Nat) : Bool := modSns (sub16 bsn w.vq) < ws

/-- `gprs_rlcmac_rlc_dl_window_is_received`, /repo/src/rlcmac/rlc_window_dl.c:149-159. -/
def DlWin.isReceived (w : DlWin) (bsn : Nat) : Bool :=
  w.isInWindow bsn && w.isReceivedVn bsn && decide (modSns (sub16 w.vr (1 + bsn)) < ws)

/-- The loop of `gprs_rlcmac_rlc_dl_window_raise_v_r`, /repo/src/rlcmac/rlc_window_dl.c:227-237; the
argument is `offset_v_r`. -/
def DlWin.raiseVrLoop : Nat → DlWin → DlWin
  | 0, w => w
  | k + 1, w =>
    let w1 := w.mark (modSns (sub16 w.vr ws)) .invalid
    let w2 := if k ≠ 0 then w1.mark w.vr .missing else w1
    raiseVrLoop k { w2 with vr := modSns (w.vr + 1) }

/-- `gprs_rlcmac_rlc_dl_window_raise_v_r`, /repo/src/rlcmac/rlc_window_dl.c:218-240. -/
def DlWin.raiseVr (w : DlWin) (bsn : Nat) : DlWin :=
  let off := modSns (sub16 (bsn + 1) w.vr)
  if off < sns / 2 then w.raiseVrLoop off else w

/-- `gprs_rlcmac_rlc_dl_window_receive_bsn`, /repo/src/rlcmac/rlc_window_dl.c:264-268. -/
def DlWin.receiveBsn (w : DlWin) (bsn : Nat) : DlWin := (w.mark bsn .received).raiseVr bsn

/-- The loop of `gprs_rlcmac_rlc_dl_window_raise_v_q`, /repo/src/rlcmac/rlc_window_dl.c:251-259, with the
number of blocks taken out.  V(Q) walks through the 128 numbers, so it meets V(R) after at most 128
rounds; the first argument bounds the rounds. -/
def DlWin.raiseVqLoop : Nat → DlWin → DlWin × Nat
  | 0, w => (w, 0)
  | f + 1, w =>
    if w.vq = w.vr then (w, 0)
    else if w.isReceivedVn w.vq then
      let (w', c) := raiseVqLoop f { w with vq := modSns (w.vq + 1) }
      (w', c + 1)
    else (w, 0)

/-- `gprs_rlcmac_rlc_dl_window_raise_v_q`, /repo/src/rlcmac/rlc_window_dl.c:246-262. -/
def DlWin.raiseVq (w : DlWin) : DlWin × Nat := w.raiseVqLoop sns

/-- What the reception of one block does to the window: the checks, `receive_bsn` and `raise_v_q` of
`gprs_rlcmac_dl_tbf_rcv_data_block`, /repo/src/rlcmac/tbf_dl.c:312-321, 340, 347. -/
def DlWin.rcv (w : DlWin) (bsn : Nat) : DlWin × Nat :=
  if ¬ w.isInWindow bsn then w.raiseVq
  else if w.isReceivedVn bsn then w.raiseVq
  else (w.receiveBsn bsn).raiseVq

/-- `gprs_rlcmac_rlc_dl_window_update_rbb`, /repo/src/rlcmac/rlc_window_dl.c:161-176: entry `p` of the
result is `rbb[p]`, `true` for `'R'` and `false` for `'I'`. -/
def DlWin.rbb (w : DlWin) : List Bool :=
  (List.range ws).map fun p => w.isReceivedVn (modSns (sub16 w.vr (1 + (ws - 1 - p))))

/-- `Ack_Nack_Description_t`, /repo/include/osmocom/gprs/rlcmac/csn1_defs.h:79-84
(FINAL_ACK_INDICATION left out). -/
structure AckDesc where
  ssn : Nat
  /-- `RECEIVED_BLOCK_BITMAP[8]` -/
  rbb : Octets
  deriving DecidableEq, Repr

/-- `gprs_rlcmac_enc_prepare_pkt_ack_nack_desc_gprs`, /repo/src/rlcmac/rlcmac_enc.c:351-373: the 64 marks
are written in order with `bitvec_set_bit`. -/
def DlWin.ackDesc (w : DlWin) : AckDesc :=
  { ssn := w.vr, rbb := packBits 8 fun i => w.rbb.getD i false }

end Verif.Rlc
