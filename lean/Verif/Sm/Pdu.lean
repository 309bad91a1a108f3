import Verif.Gsm.Tlv
/-!
# Session management messages

src/sm/sm_pdu.c and the decoding half of src/sm/sm.c.
-/
namespace Verif.Sm
open Verif Verif.Gsm

/-- `OSMO_GPRS_SM_QOS_MAXLEN`, include/osmocom/gprs/sm/sm_prim.h. -/
def qosMax : Nat := 22
/-- `OSMO_GPRS_SM_PCO_MAXLEN`: the size of the `pco` array of every SMREG primitive. -/
def pcoPrimMax : Nat := 253
/-- `OSMO_GPRS_SM_MBIFORM_MAXLEN`: the size of the `pco` array of a PDP context
(sm_private.h:112). -/
def pcoCtxMax : Nat := 255

/-- `OSMO_GPRS_SM_PDP_ADDR_IETF_IPV4`. -/
def tyIpv4 : Nat := 0x21
/-- `OSMO_GPRS_SM_PDP_ADDR_IETF_IPV6`. -/
def tyIpv6 : Nat := 0x57
/-- `OSMO_GPRS_SM_PDP_ADDR_IETF_IPV4V6`. -/
def tyIpv4v6 : Nat := 0x8D

/-- `GSM48_IE_GSM_APN`, `GSM48_IE_GSM_PROTO_CONF_OPT` and `GSM48_IE_GSM_PDP_ADDR` (libosmocore,
gsm_04_08_gprs.h; TS 24.008 table 9.5.1 and 9.5.2). -/
def ieApn : Nat := 0x28
@[inherit_doc ieApn] def iePco : Nat := 0x27
@[inherit_doc ieApn] def iePdpAddr : Nat := 0x2b

/-- `gprs_sm_att_tlvdef`, sm_pdu.c:37-54; the tag numbers are those of libosmocore. -/
def smTlvDef (t : Nat) : IeType :=
  if t = 0x80 then .singleTv
  else if t = ieApn ∨ t = iePco ∨ t = iePdpAddr ∨ t = 0x30 ∨ t = 0x36 ∨ t = 0x34 ∨ t = 0x43 ∨ t = 0x45 ∨
    t = 0x48 then .tlv
  else if t = 0x29 ∨ t = 0x32 then .tv
  else if t = 0x46 then .fixed 1
  else if t = 0x47 then .fixed 7
  else .unknown

/-- A PDP address: its type and the IPv4 (4 octets) and IPv6 (16 octets) addresses that are present.
`none` stands for a `struct osmo_sockaddr` for which `osmo_sockaddr_is_any` does not return 0. -/
structure PdpAddr where
  ty : Nat
  v4 : Option Octets
  v6 : Option Octets
  deriving DecidableEq, Repr

/-- The octets after the two leading ones in `gprs_sm_pdp_addr_enc_ietf`, sm_pdu.c:69-97. -/
def encAddrTail (a : PdpAddr) : Octets :=
  if a.ty = tyIpv6 then a.v6.getD []
  else if a.ty = tyIpv4v6 then
    match a.v4, a.v6 with
    | some x, some y => x ++ y
    | some x, none => x
    | none, some y => y
    | none, none => []
  else a.v4.getD []

/-- `gprs_sm_pdp_addr_enc_ietf`, sm_pdu.c:57-99. -/
def encAddr (a : PdpAddr) : Octets := 1 :: UInt8.ofNat a.ty :: encAddrTail a

/-- The type dependent part of `gprs_sm_pdp_addr_dec`, sm_pdu.c:127-170: `len` is the length after the
16 bit subtraction of line 127, and the address starts at `ofs + 2`. -/
def decAddrTail (b : Octets) (ofs len ty : Nat) : Res PdpAddr :=
  if ty = tyIpv4 then
    if len = 4 then do .ok ⟨ty, some (← rdN b (ofs + 2) 4), none⟩
    else if len ≠ 0 then .err .einval
    else .ok ⟨ty, none, none⟩
  else if ty = tyIpv6 then
    if len = 16 then do .ok ⟨ty, none, some (← rdN b (ofs + 2) 16)⟩
    else if len ≠ 0 then .err .einval
    else .ok ⟨ty, none, none⟩
  else if ty = tyIpv4v6 then
    if len = 4 then do .ok ⟨ty, some (← rdN b (ofs + 2) 4), none⟩
    else if len = 16 then do .ok ⟨ty, none, some (← rdN b (ofs + 6) 16)⟩
    else if len = 20 then do
      let x ← rdN b (ofs + 2) 4
      .ok ⟨ty, some x, some (← rdN b (ofs + 6) 16)⟩
    else if len ≠ 0 then .err .einval
    else .ok ⟨ty, none, none⟩
  else .err .einval

/-- `gprs_sm_pdp_addr_dec`, sm_pdu.c:101-171: the element's value is at `ofs` of the message `b` and has
`len` octets.  Reads outside the message are undefined behaviour. -/
def decAddr (b : Octets) (ofs len : Nat) : Res PdpAddr := do
  let org ← rd b ofs
  if org % 16 ≠ 1 then .err .einval
  else do
    let ty ← rd b (ofs + 1)
    decAddrTail b ofs ((len % 65536 + 65536 - 2) % 65536) ty

/-- The states of `sm_ms_fsm` that can be reached: no event that leads to MODIFY_PENDING or
INACTIVE_PENDING is ever dispatched in /repo, so those two states are left out
(sm_ms_fsm.h:9-17). -/
inductive SmSt where
  | inactive | pending | active
  deriving DecidableEq, Repr

/-- What the timer of the state machine instance is running for. -/
inductive SmTimer where
  | off
  /-- T3380 -/
  | t3380
  /-- `TIMER_DELAY_FREE` -/
  | free
  deriving DecidableEq, Repr

/-- `struct gprs_sm_entity` (sm_private.h:94-118) with its `gprs_sm_ms_fsm_ctx`.  `qos` is the whole array
of 22 octets and `qosLen` the separate length field; `pco` is the valid part of the array (its length is
`pco_len`).  `apn` is the string without its end marker.  The field `ti` is never written after
`talloc_zero` and therefore 0 (sm.c:137-156). -/
structure Sme where
  sess : Nat
  nsapi : Nat
  sapi : Nat
  addr : PdpAddr
  radioPrio : Nat
  qos : Octets
  qosLen : Nat
  apn : Octets
  pco : Octets
  ti : Nat
  st : SmSt
  timer : SmTimer
  attempts : Nat
  deriving DecidableEq, Repr

/-- `osmo_apn_from_str` (libosmocore, src/gsm/apn.c): labels preceded by their lengths.  `cur` is the
label read so far. -/
def apnEncGo (cur : Octets) : Octets → Octets
  | [] => UInt8.ofNat cur.length :: cur
  | x :: s => if x = 0x2e then UInt8.ofNat cur.length :: cur ++ apnEncGo [] s else apnEncGo (cur ++ [x]) s

@[inherit_doc apnEncGo] def apnEnc (s : Octets) : Octets := apnEncGo [] s

/-- `gprs_sm_build_act_pdp_ctx_req`, sm_pdu.c:174-222.  `GSM48_PDISC_SM_GPRS` is 0x0a and
`GSM48_MT_GSM_ACT_PDP_REQ` 0x41.  The buffer has 2048 octets (sm_pdu.h:12) and the largest message 411, so
no `msgb_put` and no `osmo_apn_from_str` fails. -/
def buildActReq (s : Sme) : Octets :=
  [UInt8.ofNat (0x0a + 16 * (s.ti ^^^ 8)), 0x41, UInt8.ofNat s.nsapi, UInt8.ofNat s.sapi] ++
  (UInt8.ofNat s.qosLen :: s.qos.take s.qosLen) ++
  (UInt8.ofNat (encAddr s.addr).length :: encAddr s.addr) ++
  (if s.apn = [] then [] else UInt8.ofNat ieApn :: UInt8.ofNat (apnEnc s.apn).length :: apnEnc s.apn) ++
  (if s.pco.length > 0 then UInt8.ofNat iePco :: UInt8.ofNat s.pco.length :: s.pco else [])

/-- Read an octet and go on; a context changed so far stays changed. -/
def rdK {α : Type} (b : Octets) (i : Nat) (s : Sme) (k : Nat → Sme × Res α) : Sme × Res α :=
  match rd b i with
  | .ok v => k v
  | .err e => (s, .err e)
  | .ub f => (s, .ub f)

/-- The PCO element, sm.c:367-377 and 417-427. -/
def takePco (s : Sme) (b : Octets) (ies : List Ie) : Sme × Res Unit :=
  match ieGet ies iePco with
  | none => (s, .ok ())
  | some e =>
    if e.len > pcoCtxMax then (s, .err .einval)
    else
      match rdN b e.ofs e.len with
      | .ok v => ({ s with pco := v }, .ok ())
      | .err x => (s, .err x)
      | .ub f => (s, .ub f)

/-- The PDP address element, sm.c:357-365.  `gprs_sm_pdp_addr_dec` clears both addresses before it looks
at the element (sm_pdu.c:113-116) and sets the type only if it succeeds. -/
def takeAddr (s : Sme) (b : Octets) (ies : List Ie) : Sme × Res Unit :=
  match ieGet ies iePdpAddr with
  | none => (s, .ok ())
  | some e =>
    match decAddr b e.ofs e.len with
    | .ok a => ({ s with addr := a }, .ok ())
    | .err x => ({ s with addr := ⟨s.addr.ty, none, none⟩ }, .err x)
    | .ub f => (s, .ub f)

/-- The optional elements of ACTIVATE PDP CONTEXT ACCEPT, sm.c:350-378. -/
def ackTlvs (s : Sme) (b : Octets) (pos : Nat) : Sme × Res Unit :=
  match ieParse smTlvDef b pos with
  | .err e => (s, .err e)
  | .ub f => (s, .ub f)
  | .ok ies =>
    match takeAddr s b ies with
    | (s1, .ok _) => takePco s1 b ies
    | r => r

/-- `gprs_sm_rx_act_pdp_ack` up to the event, sm.c:314-378: the context afterwards, and whether the
message was understood.  `b` is the whole message with its two octet header. -/
def rxAckBody (s : Sme) (b : Octets) : Sme × Res Unit :=
  if b.length < 4 then (s, .err .einval)
  else
    rdK b 2 s fun sapi => rdK b 3 { s with sapi := sapi } fun ql =>
      if ql > qosMax then ({ s with sapi := sapi }, .err .einval)
      else if b.length < 4 + ql then ({ s with sapi := sapi }, .err .einval)
      else
        let s2 := { s with sapi := sapi, qos := (b.drop 4).take ql ++ s.qos.drop ql }
        if b.length < 4 + ql + 1 then (s2, .err .einval)
        else
          rdK b (4 + ql) s2 fun rp =>
            let s3 := { s2 with radioPrio := rp }
            if b.length > 5 + ql then ackTlvs s3 b (5 + ql) else (s3, .ok ())

/-- The optional elements of ACTIVATE PDP CONTEXT REJECT, sm.c:410-428. -/
def rejTlvs (s : Sme) (b : Octets) (pos : Nat) : Sme × Res Unit :=
  match ieParse smTlvDef b pos with
  | .err e => (s, .err e)
  | .ub f => (s, .ub f)
  | .ok ies => takePco s b ies

/-- `gprs_sm_rx_act_pdp_rej` up to the event, sm.c:392-428: the context afterwards and the cause. -/
def rxRejBody (s : Sme) (b : Octets) : Sme × Res Nat :=
  if b.length < 3 then (s, .err .einval)
  else
    rdK b 2 s fun cause =>
      if b.length > 3 then
        match rejTlvs s b 3 with
        | (s1, .ok _) => (s1, .ok cause)
        | (s1, .err e) => (s1, .err e)
        | (s1, .ub f) => (s1, .ub f)
      else (s, .ok cause)

end Verif.Sm
