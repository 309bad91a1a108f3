import Verif.Csn1.Msg
import Verif.Csn1.Enc
import Verif.Rlc.Ctx
import Verif.Rlc.WindowUl

/-!
# From a downlink control block to the event of the context

What the handlers read from the decoded structure.
-/
namespace Verif.Csn1

open Rlc

/-- What a control block is to the station. -/
inductive DlCtrl where
  | dlAss (id : MsId) (m : DlAssMsg) (ctrlAck : Bool)
  | ulAss (id : MsId) (m : PktUlAss) (codingCommand : Nat)
  | ulAck (tfi : Nat) (desc : UlAckDesc) (tbfEst : Bool) (codingCommand : Nat)
  /-- ignored -/
  | other
  deriving DecidableEq, Repr

/-- `TBF_Starting_Frame_Number_to_fn` on the structure at `a`, /repo/src/rlcmac/rlcmac_dec.c:466-476 (the decoder
writes nothing but 0 and 1 into `UnionType`: C99, C122). -/
def memStart (m : Mem) (a : Nat) : StartTime :=
  if m a % 256 = 0 then .abs (m (a + 2) % 256) (m (a + 3) % 256) (m (a + 4) % 256) else .rel (getLe m (a + 2) 2)

/-- A present starting time: the flag of `w` octets at `e`. -/
def memStart? (m : Mem) (e w a : Nat) : Option StartTime := if getLe m e w ≠ 0 then some (memStart m a) else none

/-- The identity in the structure at `a`: `PacketDownlinkID_t`, `PacketUplinkID_t` and `Global_TFI_t`,
/repo/src/rlcmac/rlcmac.c:615-633, 654-666, 723-736. -/
def memId (m : Mem) (a : Nat) : MsId :=
  if m a % 256 = 0 then
    if m (a + 4) % 256 = 0 then .ulTfi (m (a + 5) % 256) else .dlTfi (m (a + 5) % 256)
  else if m a % 256 = 1 then .tlli (getLe m (a + 4) 4)
  else .other

/-- `(TIMESLOT_ALLOCATION >> (7 - i)) & 0x01`, /repo/src/rlcmac/tbf_dl_ass_fsm.c:113-117. -/
def memSlots (x : Nat) : List Bool := (List.range 8).map fun i => (x >>> (7 - i)) % 2 == 1

/-- `Packet_Downlink_Assignment_t`: /repo/src/rlcmac/rlcmac.c:654-666, 692, /repo/src/rlcmac/tbf_dl_ass_fsm.c:98-119. -/
def memDlAss (m : Mem) : DlCtrl :=
  .dlAss (memId m 12)
    (.pkt (if getLe m 72 4 ≠ 0 then some (m 76 % 256) else none) (memStart? m 104 4 108) (memSlots (m 23 % 256)))
    (m 22 % 256 != 0)

/-- A timeslot: the flag, the USF. -/
def memUsf (m : Mem) (e : Nat) : Option Nat := if m e % 256 ≠ 0 then some (m (e + 1) % 256) else none

/-- `handle_pkt_ul_ass`, /repo/src/rlcmac/tbf_ul_ass_fsm.c:211-258: `PUA_GPRS_t` starts at 20, `Dynamic_Allocation_t`
at 58. -/
def memPktUlAss (m : Mem) : PktUlAss :=
  if m 16 % 256 = 0 then
    if m 56 % 256 = 1 then
      .dynamic (if m 63 % 256 ≠ 0 then some (m 64 % 256) else none) (memStart? m 67 1 68)
        ((List.range 8).map fun i => if m 74 % 256 = 0 then memUsf m (75 + 2 * i) else memUsf m (76 + 3 * i))
    else .otherGprs
  else .egprs

/-- `Packet_Uplink_Assignment_t`: /repo/src/rlcmac/rlcmac.c:717-757. -/
def memUlAss (m : Mem) : DlCtrl := .ulAss (memId m 8) (memPktUlAss m) (m 20 % 256)

/-- `Packet_Uplink_Ack_Nack_t`: /repo/src/rlcmac/rlcmac.c:699-715, /repo/src/rlcmac/tbf_ul.c:308-352,
/repo/src/rlcmac/tbf_ul_fsm.c:249-279.  The handlers take the GPRS alternative without looking at `UnionType`. -/
def memUlAck (m : Mem) : DlCtrl :=
  .ulAck (m 2 % 256) ⟨m 5 % 256 != 0, m 6 % 256, (List.range 8).map fun i => UInt8.ofNat (m (7 + i))⟩
    (getLe m 20 4 != 0 && m 29 % 256 != 0) (m 4 % 256)

/-- The cases of `gprs_rlcmac_handle_gprs_dl_ctrl_block`, /repo/src/rlcmac/rlcmac.c:787-806. -/
def memCtrl (m : Mem) : DlCtrl :=
  if m 0 % 256 = 2 then memDlAss m
  else if m 0 % 256 = 9 then memUlAck m
  else if m 0 % 256 = 10 then memUlAss m
  else .other

/-- `if (dl_block->SP) … dl_block->RRBP`, /repo/src/rlcmac/rlcmac.c:679-680 and the other handlers. -/
def memPoll (m : Mem) : Option Nat :=
  if m (dlUnion + 2) % 256 ≠ 0 then some (m (dlUnion + 1) % 256) else none

/-- `gprs_rlcmac_handle_gprs_dl_ctrl_block` up to the handlers, /repo/src/rlcmac/rlcmac.c:759-806: the structure is
zeroed (`talloc_zero`) and decoded.  `.fail`: the block is dropped. -/
def readCtrl (v : List Bool) : CRes (DlCtrl × Option Nat) :=
  match decodeDownlink .member v (fun _ => 0) with
  | .ok s => .ok (memCtrl s.mem, memPoll s.mem)
  | .fail c => .fail c
  | .ub f => .ub f

end Verif.Csn1

namespace Verif.Rlc

open Csn1

/-- The handlers, /repo/src/rlcmac/rlcmac.c:787-806. -/
def Ctx.rxCtrl (env : UlEnv) (s : Ctx) (m : DlCtrl) (poll : Option Nat) (fn ts : Nat) : CtxR :=
  match m with
  | .dlAss id a c => s.rxPktDlAss env id a c poll fn ts
  | .ulAss id a _ => s.rxPktUlAss env id a poll fn ts
  | .ulAck tfi d est _ => s.rxUlAck tfi d.finalAck poll est fn ts
  | .other => .ok (s, [])

/-- A control block is received, /repo/src/rlcmac/rlcmac.c:759-812: a block that cannot be decoded is dropped.
(`talloc`ed memory is always there.) -/
def Ctx.rxCtrlBlock (env : UlEnv) (s : Ctx) (v : List Bool) (fn ts : Nat) : CtxR :=
  match readCtrl v with
  | .ok (m, poll) => s.rxCtrl env m poll fn ts
  | .fail _ => .ok (s, [])
  | .ub f => .ub f

end Verif.Rlc
