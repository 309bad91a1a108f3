import Verif.Rlc.TbfDl

/-!
# Model of a downlink TBF with its state machine and its reports

Simplifications: GPRS only; the TBF is in state FLOW from its creation on (the assignment completes it,
/repo/src/rlcmac/tbf_dl_fsm.c:57-68); timers T3190/T3192, which free the TBF, are modelled in `Verif.Rlc.Ctx`.
-/
namespace Verif.Rlc

/-- `struct gprs_rlcmac_dl_tbf` with the state of its state machine: `finished` is
`GPRS_RLCMAC_TBF_DL_ST_FINISHED`, /repo/include/osmocom/gprs/rlcmac/tbf_dl_fsm.h:17-21. -/
structure DlRx where
  t : DlTbf
  finished : Bool

/-- A freshly assigned TBF, /repo/src/rlcmac/tbf_dl.c:33-66. -/
def DlRx.init : DlRx := { t := .init, finished := false }

/-- `gprs_rlcmac_dl_tbf_rcv_data_block` with the event it sends to the state machine,
/repo/src/rlcmac/tbf_dl.c:281-372, /repo/src/rlcmac/tbf_dl_fsm.c:70-95.  Result: the frames handed up. -/
def DlRx.rcv (s : DlRx) (bsn : Nat) (b : Block) : Res (DlRx × List Octets) := do
  let (t, o) ← s.t.rcv bsn b
  .ok ({ t, finished := s.finished || o.last }, o.frames)

/-- `Ack_Nack_Description_t`, /repo/include/osmocom/gprs/rlcmac/csn1_defs.h:79-84. -/
structure DlReport where
  final : Bool
  desc : AckDesc
  deriving DecidableEq, Repr

/-- `gprs_rlcmac_enc_prepare_pkt_ack_nack_desc_gprs`, /repo/src/rlcmac/rlcmac_enc.c:351-373. -/
def DlRx.report (s : DlRx) : DlReport := { final := s.finished, desc := s.t.win.ackDesc }

end Verif.Rlc
