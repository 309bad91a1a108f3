import Verif.Csn1.Msg
import Verif.Spec.RlcControl

/-!
# EGPRS packet channel request
-/
namespace Verif.Csn1
open Verif

/-- The bits of the two octets into which the access information is unpacked, /repo/src/rlcmac/csn1_ts_44_060.c:5222-5224. -/
def chReqBits (ra : Nat) : List Bool := Spec.bitsOf [ra / 8 % 256, ra % 8 * 32]

/-- `osmo_gprs_rlcmac_decode_egprs_pkt_ch_req`, /repo/src/rlcmac/csn1_ts_44_060.c:5209-5236, of a 16 bit number into the
structure at address 0: `Type` at 0 and the content from 1 on, /repo/include/osmocom/gprs/rlcmac/csn1_defs.h:5329-5352. -/
def decodeChReq (p : Pol) (ra : Nat) (m : Mem) : CRes CSt :=
  decL (chReqBits ra) p 0 t_EGPRS_PacketChannelRequest {} { mem := m, rd := 0, bo := 0, rem := 11 }

end Verif.Csn1
