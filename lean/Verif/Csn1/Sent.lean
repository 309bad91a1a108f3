import Verif.Csn1.Enc
import Verif.Rlc.WindowDl

/-!
# The messages the station sends

The functions that fill in the structure of an uplink control message, before it is encoded.  Structures
are addressed as in the tables: `put a` stores the member at offset `a`.
-/
namespace Verif.Csn1

/-- `memset(block, 0, sizeof(*block))` -/
def zeroMem : Mem := fun _ => 0

/-- Message type, and payload type 1: no optional octets (`rlcmac_enc.c:287-290`). -/
def newBlock (mt : Nat) : Mem := ((zeroMem.put 0 mt).put 1 1).put 3 0

/-- `gprs_rlcmac_enc_prepare_pkt_ul_dummy_block` (`rlcmac_enc.c:280-293`). -/
def ulDummy (tlli : Nat) : Mem := (newBlock 3).putLe 4 4 tlli

/-- `gprs_rlcmac_enc_prepare_pkt_ctrl_ack` (`rlcmac_enc.c:408-420`). -/
def ctrlAck (tlli : Nat) : Mem := ((newBlock 1).putLe 4 4 tlli).put 8 0

/-- `Channel_Request_Description_t` at `a`: PEAK_THROUGHPUT_CLASS, RADIO_PRIORITY, RLC_MODE and
LLC_PDU_TYPE (both 0: acknowledged), RLC_OCTET_COUNT. -/
def chanReqDesc (m : Mem) (a peak prio octets : Nat) : Mem :=
  ((((m.put a peak).put (a + 1) prio).put (a + 2) 0).put (a + 3) 0).putLe (a + 4) 2 octets

/-- `gprs_rlcmac_enc_prepare_pkt_resource_req` (`rlcmac_enc.c:295-348`), with the two phase access type the
only caller gives (`tbf_ul_ass_fsm.c:92`): ACCESS_TYPE, TLLI, one MS RA capability left zero, the channel
request, no CHANGE_MARK, no SIGN_VAR. -/
def resourceReq (tlli octets : Nat) : Mem :=
  let m := ((newBlock 5).put 4 1).put 5 0
  let m := ((((m.put 8 1).putLe 12 4 tlli).put 16 1).put 17 1)
  let m := chanReqDesc m 778 1 3 octets
  ((m.put 784 0).put 786 0).put 856 0

/-- `gprs_rlcmac_enc_prepare_pkt_downlink_ack_nack` (`rlcmac_enc.c:381-405`): `req` is the radio priority
and the octet count of the channel request, if one is included.  The bitmap is that of
`gprs_rlcmac_enc_prepare_pkt_ack_nack_desc_gprs`, `DlWin.ackDesc`.  The channel quality report stays zero. -/
def dlAckNack (tfi : Nat) (final : Bool) (d : Rlc.AckDesc) (req : Option (Nat × Nat)) : Mem :=
  let m := (((newBlock 2).put 4 tfi).put 5 (if final then 1 else 0)).put 6 d.ssn
  let m : Mem := fun x => if 7 ≤ x ∧ x < 15 then (d.rbb.getD (x - 7) 0).toNat else m x
  match req with
  | some (prio, octets) => chanReqDesc (m.put 15 1) 16 0 prio octets
  | none => m.put 15 0

end Verif.Csn1
