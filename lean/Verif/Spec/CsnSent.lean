import Verif.Spec.CsnMsg

/-!
# The bits of the messages a station sends

Field by field in the order of 3GPP TS 44.060.
-/
namespace Verif.Spec

/-- Header: payload type 1 (no optional octets), spare, retry bit; then the message type (10.4.7, 11.2.0). -/
def msgHead (mt : Nat) : List Bool := natBits 2 1 ++ natBits 5 0 ++ natBits 1 0 ++ natBits 6 mt

/-- PACKET UPLINK DUMMY CONTROL BLOCK (11.2.8b): TLLI. -/
def ulDummyBits (tlli : Nat) : List Bool := msgHead 3 ++ natBits 32 tlli

/-- PACKET CONTROL ACKNOWLEDGEMENT (11.2.2): TLLI, CTRL_ACK, no additions. -/
def ctrlAckBits (tlli : Nat) : List Bool := msgHead 1 ++ natBits 32 tlli ++ natBits 2 0 ++ [false]

/-- Channel Request Description (12.7): peak throughput class, radio priority, RLC mode and LLC PDU type
(0: acknowledged), octet count. -/
def chanReqBits (peak prio octets : Nat) : List Bool :=
  natBits 4 peak ++ natBits 2 prio ++ natBits 1 0 ++ natBits 1 0 ++ natBits 16 octets

/-- PACKET DOWNLINK ACK/NACK (11.2.6): TFI; final ack indication, starting sequence number, bitmap;
channel request if any; channel quality report with C value, RXQUAL, SIGN_VAR (all zero) and no
interference levels; no additions. -/
def dlAckBits (tfi : Nat) (final : Bool) (ssn : Nat) (bitmap : List Bool) (req : Option (Nat × Nat)) : List Bool :=
  msgHead 2 ++ natBits 5 tfi ++ [final] ++ natBits 7 ssn ++ bitmap ++
  (match req with
   | some (prio, octets) => [true] ++ chanReqBits 0 prio octets
   | none => [false]) ++
  natBits 6 0 ++ natBits 3 0 ++ natBits 6 0 ++ List.replicate 8 false ++ [false]

/-- PACKET RESOURCE REQUEST (11.2.16) for two phase access: access type; TLLI; one MS RA capability of 47
zero bits; channel request with peak throughput class 1 and radio priority 4; no change mark; C value zero;
no SIGN_VAR, interference levels, additions. -/
def resourceReqBits (tlli octets : Nat) : List Bool :=
  msgHead 5 ++ [true] ++ natBits 2 0 ++ [true] ++ natBits 32 tlli ++ [true] ++ natBits 4 0 ++ natBits 7 47 ++
  List.replicate 47 false ++ [false] ++ chanReqBits 1 3 octets ++ [false] ++ natBits 6 0 ++ [false] ++
  List.replicate 8 false ++ [false]

end Verif.Spec
