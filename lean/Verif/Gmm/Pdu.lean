import Verif.Gsm.Tlv
import Verif.Gmm.Timer
/-!
# GMM messages

src/gmm/gmm_pdu.c.  The messages that the mobile station sends, octet by octet, and the table of
information elements used to parse the ones it receives.

Assumed of libosmocore: the values of the message types and element tags (TS 24.008); the layout of
`struct gsm48_attach_ack`, `gsm48_ra_upd_ack`, `gsm48_auth_ciph_req` and `gsm48_auth_ciph_resp`;
`osmo_mobile_identity_encode_msgb` and `osmo_mobile_identity_decode`; `bitvec_unhex` (returns 1 and zeroes
the buffer when the hexadecimal string does not fit; src/core/bitvec.c).  The examples of
Verif/Props/GmmPdu.lean compare the result with the messages recorded in tests/gmm/gmm_prim_ms_test.ok.
A routing area identification is kept in its coded form of six octets (`gsm48_parse_ra` and
`gsm48_encode_ra` are taken to be inverse).
-/
namespace Verif.Gmm
open Verif Verif.Gsm

/-- A 32-bit value in network order. -/
def be32 (n : Nat) : Octets :=
  [UInt8.ofNat (n / 0x1000000), UInt8.ofNat (n / 0x10000), UInt8.ofNat (n / 0x100), UInt8.ofNat n]

/-- `GSM_RESERVED_TMSI`. -/
def reservedTmsi : Nat := 0xffffffff
/-- `OSMO_GPRS_GMM_TLLI_UNASSIGNED`, include/osmocom/gprs/gmm/gmm.h. -/
def tlliUnassigned : Nat := 0xffffffff
/-- `GPRS_GMM_SESS_ID_UNASSIGNED`, gmm_private.h:22. -/
def sessUnassigned : Nat := 0xffffffff

/-- `gprs_gmm_att_tlvdef`, gmm_pdu.c:146-175. -/
def gmmIes (t : Nat) : IeType :=
  if t = 0x80 then .singleTv            -- GSM48_IE_GMM_CIPH_CKSN
  else if t = 0xe0 then .singleTv       -- GSM48_IE_GMM_PTMSI_TYPE
  else if t = 0xb0 then .singleTv       -- GSM48_IE_GMM_NET_FEAT_SUPPORT
  else if t = 0x17 then .tv             -- GSM48_IE_GMM_TIMER_READY
  else if t = 0x19 then .fixed 3        -- GSM48_IE_GMM_PTMSI_SIG
  else if t = 0x21 then .fixed 16       -- GSM48_IE_GMM_AUTH_RAND
  else if t = 0x22 then .fixed 4        -- GSM48_IE_GMM_AUTH_SRES
  else if t = 0x25 then .tv             -- GSM48_IE_GMM_CAUSE
  else if t = 0x27 then .fixed 2        -- GSM48_IE_GMM_DRX_PARAM
  else if t ∈ [0x10, 0x18, 0x1a, 0x1b, 0x23, 0x26, 0x28, 0x29, 0x2a, 0x30, 0x31, 0x32, 0x33, 0x35, 0x3a,
      0x58, 0x5d] then .tlv
  else .unknown

/-- `osmo_mobile_identity_encode_msgb` of a P-TMSI. -/
def miTmsi (t : Nat) : Octets := 0xf4 :: be32 t

/-- The octets after the first of a mobile identity made of digits: two digits each, the lower one
first, filled up with `f`. -/
def miPairs : List Nat → Octets
  | [] => []
  | [d] => [UInt8.ofNat (0xf0 + d)]
  | d :: e :: l => UInt8.ofNat (e * 16 + d) :: miPairs l

/-- `osmo_mobile_identity_encode_msgb` of an IMSI, IMEI or IMEISV given by its digits; fails when there
are none. -/
def miDigits (type : Nat) : List Nat → Option Octets
  | [] => none
  | d :: l => some (UInt8.ofNat (d * 16 + (if l.length % 2 = 0 then 8 else 0) + type) :: miPairs l)

/-- `osmo_mobile_identity_decode` followed by `mi.type != GSM_MI_TYPE_TMSI`. -/
def miDecodeTmsi : Octets → Option Nat
  | [t, a, b, c, d] =>
    if t.toNat / 16 = 15 ∧ t.toNat % 8 = 4 then some (a.toNat * 0x1000000 + b.toNat * 0x10000 + c.toNat * 0x100 + d.toNat) else none
  | _ => none

/-- `osmo_mobile_identity_decode` followed by `mi.type != GSM_MI_TYPE_IMEISV`: sixteen decimal digits. -/
def miIsImeisv (v : Octets) : Bool :=
  match v with
  | [] => false
  | t :: l =>
    l.length = 8 ∧ t.toNat % 16 = 3 ∧ t.toNat / 16 < 10 ∧
      (l.dropLast.all fun x => x.toNat % 16 < 10 ∧ x.toNat / 16 < 10) ∧
      (l.getLast?.all fun x => x.toNat % 16 < 10 ∧ x.toNat / 16 = 15)

/-- `bitvec_unhex` on a vector of `dataLen` octets; `none`: the string is too long. -/
def bitvecUnhex (src : Octets) (dataLen : Nat) : Option Octets :=
  if src.length ≤ dataLen then some src else none

/-- `GSM_MACBLOCK_LEN`. -/
def macblockLen : Nat := 23

/-- The hexadecimal string of gmm_pdu.c:209. -/
def raAccCapHex : Octets :=
  [0x17, 0x19, 0x33, 0x43, 0x2b, 0x37, 0x15, 0x9e, 0xf9, 0x88, 0x79, 0xcb, 0xa2, 0x8c, 0x66, 0x21, 0xe7,
   0x26, 0x88, 0xb1, 0x98, 0x87, 0x9c, 0x00]

/-- `encode_ms_ra_acc_cap`, gmm_pdu.c:197-213.  The bit vector starts where the length octet goes; the
length octet is written last and the octet after the string is still zero.  The return value 1 of
`bitvec_unhex` is not an error to the callers. -/
def encodeRaAccCap : Octets :=
  match bitvecUnhex raAccCapHex macblockLen with
  | some s => UInt8.ofNat s.length :: (s.drop 1 ++ [0])
  | none => [0]

/-- The hexadecimal string of gmm_pdu.c:191. -/
def netCapHex : Octets := [0xe5, 0xe0]

/-- `encode_ms_net_cap`, gmm_pdu.c:177-195.  The bit vector starts where the tag goes. -/
def encodeNetCap : Octets :=
  match bitvecUnhex netCapHex macblockLen with
  | some s => s.take 1 ++ [UInt8.ofNat s.length] ++ s.drop 2 ++ [0, 0]
  | none => [0, 0]

/-- `drx_param_def`, gmm_pdu.c:125-130. -/
def drxParam : Octets := [10, 0]

/-- `ms_net_cap_def`, gmm_pdu.c:74-106. -/
def msNetCapDef : Octets := [0x97, 0x07, 0x00, 0x00]

/-- A length octet and a value. -/
def lv (v : Octets) : Octets := UInt8.ofNat v.length :: v

/-- The P-TMSI signature element, gmm_pdu.c:278-281 and 370-373. -/
def sigIe (sig : Nat) : Octets :=
  [0x19, UInt8.ofNat (sig / 0x10000), UInt8.ofNat (sig / 0x100), UInt8.ofNat sig]

/-- `gprs_gmm_build_attach_req`, gmm_pdu.c:216-295.  `none`: error. -/
def buildAttachReq (attType : Nat) (withImsi : Bool) (ptmsi sig : Nat) (imsi : List Nat) (ra : Octets)
    (t3314 : Nat) : Option Octets :=
  match (if withImsi then miDigits 1 imsi else some (miTmsi ptmsi)) with
  | none => none
  | some mi => some
    ([0x08, 0x01] ++ lv msNetCapDef ++ [UInt8.ofNat (attType % 16)] ++ drxParam ++ lv mi ++ ra ++
      encodeRaAccCap ++
      (if withImsi = false ∧ ptmsi ≠ reservedTmsi then sigIe sig else []) ++
      [0x17, UInt8.ofNat (secsToTmr t3314)] ++ (if withImsi then [] else [0xe1]))

/-- `gprs_gmm_build_attach_compl`, gmm_pdu.c:298-308. -/
def attachCompl : Octets := [0x08, 0x03]
/-- `gprs_gmm_build_ptmsi_realloc_compl`, gmm_pdu.c:311-319. -/
def ptmsiReallCompl : Octets := [0x08, 0x11]
/-- `gprs_gmm_build_rau_compl`, gmm_pdu.c:532-547. -/
def rauCompl : Octets := [0x08, 0x0a]

/-- `gprs_gmm_build_auth_ciph_fail`, gmm_pdu.c:322-336: the message type is the one of P-TMSI
REALLOCATION COMPLETE. -/
def buildAuthFail (cause : Nat) : Octets := [0x08, 0x11, UInt8.ofNat cause]

/-- `gprs_gmm_build_rau_req`, gmm_pdu.c:340-399. -/
def buildRauReq (rauType keySeq sig : Nat) (ra : Octets) (t3314 : Nat) : Octets :=
  [0x08, 0x08] ++ [UInt8.ofNat (keySeq * 16 ||| rauType % 8)] ++ ra ++ encodeRaAccCap ++
    (if sig ≠ reservedTmsi then sigIe sig else []) ++ [0x17, UInt8.ofNat (secsToTmr t3314)] ++
    drxParam ++ encodeNetCap ++ [0xe1]

/-- `gprs_gmm_build_identity_resp`, gmm_pdu.c:402-454. -/
def buildIdResp (miType : Nat) (ptmsi : Nat) (imsi imei imeisv : List Nat) : Option Octets :=
  match (if miType = 1 then miDigits 1 imsi
    else if miType = 4 then some (miTmsi ptmsi)
    else if miType = 2 then miDigits 2 imei
    else if miType = 3 then miDigits 3 imeisv
    else none) with
  | none => none
  | some mi => some ([0x08, 0x16] ++ lv mi)

/-- `gprs_gmm_build_auth_ciph_resp`, gmm_pdu.c:457-491.  The A&C reference number is a field of four
bits. -/
def buildAuthResp (acRef : Nat) (sres : Option Octets) (imeisvReq : Bool) (imeisv : List Nat) :
    Option Octets :=
  let hd := [0x08, 0x13, UInt8.ofNat (acRef % 16)] ++
    (match sres with
     | some s => 0x22 :: s
     | none => [])
  if imeisvReq then
    match miDigits 3 imeisv with
    | some mi => some (hd ++ 0x23 :: lv mi)
    | none => none
  else some hd

/-- `gprs_gmm_build_detach_req`, gmm_pdu.c:493-530. -/
def buildDetachReq (detType poweroff ptmsi : Nat) : Octets :=
  [0x08, 0x05, UInt8.ofNat (detType % 8 * 32 ||| poweroff % 2 * 16)] ++ drxParam ++ lv (miTmsi ptmsi)

end Verif.Gmm
