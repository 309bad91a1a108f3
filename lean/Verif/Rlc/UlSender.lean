import Verif.Rlc.UlTx
import Verif.Rlc.Countdown
import Verif.Rlc.CodingScheme

/-!
# Model of an uplink TBF as a sender, with its countdown procedure, coding scheme and contention resolution

`Verif.Rlc.UlTx` together with `Verif.Rlc.Countdown`.  GPRS coding schemes.
-/
namespace Verif.Rlc

/-- The parts of `struct gprs_rlcmac_ul_tbf` the data transfer uses: window, block store and LLC data; the
`countdown_proc`; the payload size of the current coding scheme, the TLLI while in contention resolution, BS_CV_MAX and
the number of timeslots. -/
structure UlSnd where
  tx : UlTx
  active : Bool
  cv : Nat
  p : TxParams

/-- A TBF that has sent nothing (`talloc_zero`, /repo/src/rlcmac/tbf_ul.c:39). -/
def UlSnd.init (p : TxParams) (q : List Octets) : UlSnd := ⟨UlTx.init q, false, 0, p⟩

/-- The countdown procedure of the TBF. -/
def UlSnd.cd (s : UlSnd) : Cd := ⟨s.active, s.cv, s.tx.q⟩

/-- `gprs_rlcmac_ul_tbf_data_create`, /repo/src/rlcmac/tbf_ul.c:1203-1223, as `UlTx.dataCreate` does it, with the
countdown value that `create_new_bsn` (673-785) finds for a new block. -/
def UlSnd.dataCreate (s : UlSnd) (preemptive : Bool) : Res (UlSnd × Nat × UlBlock × UlTxKind) :=
  match UlWin.takeNext ⟨s.tx.finished, decide (s.tx.q ≠ []), preemptive⟩ 2 s.tx.w with
  | none => .ub .assertFail
  | some (w', bsn, .new) => do
    let (b, c) ← s.cd.newBlock s.p
    .ok ({ s with
        tx := { w := w', blks := upd s.tx.blks (idx bsn) (some b), q := c.q,
                finished := s.tx.finished || decide (b.cv = 0) },
        active := c.active, cv := c.cv }, bsn, b, .new)
  | some (w', bsn, k) =>
    match s.tx.blks (idx bsn) with
    | none => .ub .assertFail
    | some b => .ok ({ s with tx := { s.tx with w := w', finished := s.tx.finished || decide (b.cv = 0) } }, bsn, b, k)

/-- Other parameters, and a new countdown value if the countdown is running:
`gprs_rlcmac_ul_tbf_countdown_proc_update_cv`, /repo/src/rlcmac/tbf_ul.c:661-671. -/
def UlSnd.change (s : UlSnd) (p : TxParams) : Res UlSnd := do
  let c ← s.cd.updateCv p
  .ok { s with p, active := c.active, cv := c.cv }

/-- `_contention_resolution_succeeded`, /repo/src/rlcmac/tbf_ul_fsm.c:124-137, if in contention resolution (205-207,
249-250). -/
def UlSnd.resolve (s : UlSnd) : Res UlSnd :=
  if s.p.tlli.isSome then s.change { s.p with tlli := none } else .ok s

/-- `gprs_rlcmac_ul_tbf_update_tx_cs`, /repo/src/rlcmac/tbf_ul.c:289-305; `ccc` is CHANNEL_CODING_COMMAND.  The four
coding schemes have different payload sizes. -/
def UlSnd.updateTxCs (s : UlSnd) (ccc : Nat) : Res UlSnd :=
  if s.p.len = (info (ccc + cs1)).dataBytes then .ok s else s.change { s.p with len := (info (ccc + cs1)).dataBytes }

/-- `gprs_rlcmac_ul_tbf_handle_pkt_ul_ack_nack`, /repo/src/rlcmac/tbf_ul.c:307-351, for a TBF in state FLOW or FINISHED.
The boolean: the transfer is over. -/
def UlSnd.ackNack (s : UlSnd) (d : UlAckDesc) (ccc : Nat) : Res (UlSnd × Bool) := do
  let s2 ← UlSnd.resolve { s with tx := (s.tx.ackNack d).1 }
  let s3 ← s2.updateTxCs ccc
  .ok (s3, (s.tx.ackNack d).2)

end Verif.Rlc
