import Verif.Rlc.LlcQueue

/-!
# The octet count requested from the network

Model of /repo/src/rlcmac/gre.c:262-284 and /repo/src/rlcmac/rlcmac_enc.c:326.
-/
namespace Verif.Rlc

/-- The loop of `gprs_rlcmac_entity_calculate_new_ul_tbf_rlc_octet_count`, /repo/src/rlcmac/gre.c:273-282, over the
messages of the queue in turn; the sum is below 65535 before each addition and cannot overflow its 32 bits. -/
def octetCountLoop (cnt : Nat) : List LlcFrame → Nat
  | [] => cnt
  | f :: fs => if cnt + (1 + f.data.length) ≥ 65535 then 65535 else octetCountLoop (cnt + (1 + f.data.length)) fs

/-- `gprs_rlcmac_entity_calculate_new_ul_tbf_rlc_octet_count`, /repo/src/rlcmac/gre.c:262-284: used in PACKET DOWNLINK
ACK/NACK (/repo/src/rlcmac/rlcmac_enc.c:397-400). -/
def LlcQ.octetCount (q : LlcQ) : Nat := octetCountLoop 0 ((List.range numPq).flatMap fun c => (q.pq c).frames)

/-- RLC_OCTET_COUNT of PACKET RESOURCE REQUEST, /repo/src/rlcmac/rlcmac_enc.c:326: a `guint16` field is set to the
`size_t` number of octets in the queue. -/
def LlcQ.resReqOctetCount (q : LlcQ) : Nat := q.octets % 65536

end Verif.Rlc
