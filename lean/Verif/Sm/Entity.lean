import Verif.Sm.Pdu
/-!
# Session management: PDP contexts, their state machine and the primitives

src/sm/sm.c, src/sm/sm_ms_fsm.c and src/sm/sm_prim.c.  Callbacks do not call back into the layer before
they return: an answer to a primitive is a later event.
-/
namespace Verif.Sm
open Verif Verif.Gsm

/-- What the layer hands to its neighbours. -/
inductive SmOut where
  /-- GMMSM-ESTABLISH.req: session, P-TMSI, P-TMSI signature, attach with IMSI -/
  | establishReq (sess ptmsi sig : Nat) (withImsi : Bool)
  /-- GMMSM-UNITDATA.req: the session identifier given to GMM and the message -/
  | unitdataReq (sess : Nat) (pdu : Octets)
  /-- SMREG-PDP-ACTIVATE.cnf with `accepted` set -/
  | actAcc (msId nsapi : Nat) (pco : Octets) (addr : PdpAddr) (radioPrio : Nat) (qos : Octets)
  /-- SMREG-PDP-ACTIVATE.cnf with `accepted` unset -/
  | actRej (msId nsapi : Nat) (pco : Octets) (cause : Nat)
  /-- SMREG-PDP-DEACTIVATE.ind -/
  | deactInd (msId nsapi cause : Nat) (pco : Octets)
  /-- SNSM-ACTIVATE.ind -/
  | snsmActInd (tlli nsapi sapi radioPrio : Nat) (qos : Octets)
  /-- SNSM-DEACTIVATE.ind -/
  | snsmDeactInd (tlli nsapi : Nat)
  deriving DecidableEq, Repr

/-- `struct gprs_sm_ms` (sm_private.h:121-137) without IMSI, IMEI and routing area, which the layer only
passes on. -/
structure SmMs where
  ptmsi : Nat
  ptmsiSig : Nat
  tlli : Nat
  /-- `pdp[16]` -/
  pdp : Nat → Option Sme

/-- `struct gprs_sm_ctx` (sm_private.h:70-89): the identifiers of the mobile stations in the order of
`ms_list`, what is known of each, and `next_sess_id`.  Mobile stations are only removed when the layer is
initialised again (sm.c:47-56). -/
structure SmCtx where
  order : List Nat
  ms : Nat → SmMs
  nextSess : Nat

/-- `talloc_zero(…, struct gprs_sm_ms)`, sm.c:85-98. -/
def freshMs : SmMs := ⟨0, 0, 0, fun _ => none⟩

/-- After `osmo_gprs_sm_init`, sm.c:58-83. -/
def smInit : SmCtx := ⟨[], fun _ => freshMs, 0⟩

/-- `GSM_RESERVED_TMSI`. -/
def reservedTmsi : Nat := 0xffffffff
/-- `GSM_CAUSE_SERV_OPT_TEMP_OOO`, TS 24.008 10.5.6.6. -/
def causeTempOoo : Nat := 34
/-- `GSM_CAUSE_REACT_RQD`, TS 24.008 10.5.6.6. -/
def causeReactRqd : Nat := 39

/-- `gprs_sm_submit_gmmsm_assign_req`, sm.c:186-204. -/
def establishOut (m : SmMs) (s : Sme) : SmOut :=
  .establishReq s.sess m.ptmsi m.ptmsiSig (m.ptmsi = reservedTmsi)

/-- The `memcpy` of the protocol configuration options into a primitive, sm.c:216-217 and 251-252: the
array has 253 octets. -/
def pcoToPrim (s : Sme) : Res Octets :=
  if s.pco.length ≤ pcoPrimMax then .ok s.pco else .ub .outOfBounds

/-- `gprs_sm_submit_smreg_pdp_act_cnf`, sm.c:206-237. -/
def actCnf (msId : Nat) (s : Sme) (cause : Nat) : Res SmOut := do
  let pco ← pcoToPrim s
  if cause = 0 then .ok (.actAcc msId s.nsapi pco s.addr s.radioPrio (s.qos.take s.qosLen))
  else .ok (.actRej msId s.nsapi pco cause)

/-- `gprs_sm_submit_smreg_pdp_deact_ind`, sm.c:239-256. -/
def deactOut (msId : Nat) (s : Sme) (cause : Nat) : Res SmOut := do
  let pco ← pcoToPrim s
  .ok (.deactInd msId s.nsapi cause pco)

/-- `gprs_sm_submit_snsm_act_ind`, sm.c:258-274. -/
def snsmActOut (m : SmMs) (s : Sme) : SmOut :=
  .snsmActInd m.tlli s.nsapi s.sapi s.radioPrio (s.qos.take s.qosLen)

/-- `gprs_sm_submit_snsm_deact_ind`, sm.c:276-286. -/
def snsmDeactOut (m : SmMs) (s : Sme) : SmOut := .snsmDeactInd m.tlli s.nsapi

/-- `gprs_sm_tx_act_pdp_ctx_req`, sm.c:289-311: the first argument of
`osmo_gprs_gmm_prim_alloc_gmmsm_unitdata_req` is the identifier of the mobile station. -/
def txActReq (msId : Nat) (s : Sme) : SmOut := .unitdataReq msId (buildActReq s)

/-- The events of `sm_ms_fsm` that are dispatched in /repo. -/
inductive SmEv where
  | txAct | estCnf | estRej | rxRej (cause : Nat) | rxAcc | nsapiActivated | release
  deriving DecidableEq, Repr

/-- `sm_ms_fsm_state_chg(fi, GPRS_SM_MS_ST_PDP_INACTIVE)`, sm_ms_fsm.c:46-55. -/
def toInactive (s : Sme) : Sme := { s with st := .inactive, timer := .free }
/-- `sm_ms_fsm_state_chg(fi, GPRS_SM_MS_ST_PDP_ACTIVE_PENDING)`, sm_ms_fsm.c:37, 68-73: the timer is
started and GMMSM-ESTABLISH.req submitted. -/
def toPending (m : SmMs) (s : Sme) : Sme × List SmOut :=
  ({ s with st := .pending, timer := .t3380 }, [establishOut m s])
/-- `sm_ms_fsm_state_chg(fi, GPRS_SM_MS_ST_PDP_ACTIVE)`, sm_ms_fsm.c:38. -/
def toActive (s : Sme) : Sme := { s with st := .active, timer := .off }

/-- What comes after the confirmation has been built. -/
def withCnf (s : Sme) (r : Res SmOut) : Res (Option (Sme × List SmOut)) :=
  match r with
  | .ok o => .ok (some (s, [o]))
  | .err e => .err e
  | .ub f => .ub f

/-- `osmo_fsm_inst_dispatch` on the instance of a PDP context: sm_ms_fsm.c:57-128 with the masks of
lines 200-238.  `none`: the event is not permitted in the state. -/
def smFsm (msId : Nat) (m : SmMs) (s : Sme) (ev : SmEv) : Res (Option (Sme × List SmOut)) :=
  match s.st, ev with
  | .inactive, .txAct => .ok (some (toPending m s))
  | .pending, .estCnf => .ok (some (s, [txActReq msId s]))
  | .pending, .estRej => .ok (some (toInactive s, []))
  | .pending, .rxRej cause => withCnf (toInactive s) (actCnf msId s cause)
  | .pending, .rxAcc => .ok (some (s, [snsmActOut m s]))
  | .pending, .nsapiActivated => withCnf (toActive s) (actCnf msId s 0)
  | .pending, .release => .ok (some (toInactive s, []))
  | .active, .release => .ok (some (toInactive s, []))
  | _, _ => .ok none

/-- `SMREG-PDP-ACTIVATE.req`.  The lengths of `qos` and `pco` are the length fields of the primitive. -/
structure ActReq where
  msId : Nat
  nsapi : Nat
  sapi : Nat
  addr : PdpAddr
  qos : Octets
  apn : Octets
  pco : Octets
  ptmsi : Nat
  ptmsiSig : Nat
  deriving DecidableEq, Repr

/-- The primitives the layer receives and the expiry of the timer of one PDP context. -/
inductive SmIn where
  | actReq (r : ActReq)
  /-- GMMSM-ESTABLISH.cnf with `accepted` set: session, P-TMSI, signature, TLLI -/
  | estAcc (sess ptmsi sig tlli : Nat)
  /-- GMMSM-ESTABLISH.cnf with `accepted` unset -/
  | estRej (sess : Nat)
  /-- GMMSM-RELEASE.ind -/
  | relInd (sess : Nat)
  /-- GMMSM-UNITDATA.ind -/
  | unitdataInd (sess : Nat) (pdu : Octets)
  /-- GMMSM-MODIFY.ind: session, P-TMSI, signature, TLLI, PDP context status if present (16 bits, the
  first octet in the low half) -/
  | modifyInd (sess ptmsi sig tlli : Nat) (status : Option Nat)
  /-- SNSM-ACTIVATE.rsp -/
  | snsmActRsp (tlli nsapi : Nat)
  /-- SNSM-DEACTIVATE.rsp -/
  | snsmDeactRsp (tlli nsapi : Nat)
  /-- the timer of the context of this mobile station and NSAPI expires -/
  | timeout (msId nsapi : Nat)
  deriving DecidableEq, Repr

/-- `gprs_sm_find_ms_by_id`, sm.c:115-124. -/
def SmCtx.hasMs (c : SmCtx) (id : Nat) : Bool := c.order.contains id

/-- `gprs_sm_find_ms_by_tlli`, sm.c:126-135: the first in the list. -/
def SmCtx.msByTlli (c : SmCtx) (tlli : Nat) : Option Nat := c.order.find? (fun id => (c.ms id).tlli = tlli)

/-- The inner loop of `gprs_sm_find_sme_by_sess_id`, sm.c:175-181. -/
def SmMs.slotOf (m : SmMs) (sess : Nat) : Option Nat :=
  (List.range 16).find? fun i =>
    match m.pdp i with
    | some s => s.sess = sess
    | none => false

/-- `gprs_sm_find_sme_by_sess_id`, sm.c:169-184: mobile station and place in its table. -/
def SmCtx.bySess (c : SmCtx) (sess : Nat) : Option (Nat × Nat) :=
  c.order.findSome? fun id => ((c.ms id).slotOf sess).map fun i => (id, i)

/-- Replace what is known of one mobile station. -/
def SmCtx.setMs (c : SmCtx) (id : Nat) (m : SmMs) : SmCtx :=
  { c with ms := fun x => if x = id then m else c.ms x }

/-- Replace one PDP context of a mobile station. -/
def SmMs.setPdp (m : SmMs) (i : Nat) (o : Option Sme) : SmMs :=
  { m with pdp := fun x => if x = i then o else m.pdp x }

/-- Replace one PDP context. -/
def SmCtx.put (c : SmCtx) (id i : Nat) (o : Option Sme) : SmCtx := c.setMs id ((c.ms id).setPdp i o)

/-- `gprs_sm_nsapi_is_valid`, sm_private.h:140-143. -/
def nsapiValid (n : Nat) : Bool := 5 ≤ n ∧ n ≤ 15

/-- Outcome of a primitive: the state afterwards, what was handed out, and the error returned. -/
abbrev SmRes := Res (SmCtx × List SmOut × Option Errno)

/-- Dispatch an event to a context and store the outcome; `osmo_fsm_inst_dispatch` returns -1 if the event
is not permitted. -/
def smDispatch (c : SmCtx) (id i : Nat) (s : Sme) (ev : SmEv) (pre : List SmOut) : SmRes :=
  match smFsm id (c.ms id) s ev with
  | .ok (some (s', o)) => .ok (c.put id i (some s'), pre ++ o, none)
  | .ok none => .ok (c.put id i (some s), pre, some .eperm)
  | .err e => .ok (c, pre, some e)
  | .ub f => .ub f

/-- The new context of `gprs_sm_prim_handle_smreg_pdp_act_req`, sm.c:137-156 and sm_prim.c:257-277. -/
def newSme (sess : Nat) (r : ActReq) : Sme :=
  { sess := sess, nsapi := r.nsapi, sapi := if r.sapi ≠ 0 then r.sapi else 3, addr := r.addr
    radioPrio := 0, qos := r.qos ++ List.replicate (qosMax - r.qos.length) 0, qosLen := r.qos.length
    apn := r.apn, pco := r.pco, ti := 0, st := .inactive, timer := .off, attempts := 0 }

/-- sm_prim.c:257-290: the context is created and the procedure started. -/
def startAct (c : SmCtx) (r : ActReq) : SmRes :=
  if r.nsapi ≥ 16 then .ub .outOfBounds
  else if ((c.ms r.msId).pdp r.nsapi).isSome then .ub .assertFail
  else
    smDispatch
      { (c.setMs r.msId { c.ms r.msId with ptmsi := r.ptmsi, ptmsiSig := r.ptmsiSig }) with
        nextSess := (c.nextSess + 1) % 2 ^ 32 }
      r.msId r.nsapi (newSme c.nextSess r) .txAct []

/-- `gprs_sm_prim_handle_smreg_pdp_act_req`, sm_prim.c:235-293. -/
def actReqStep (c : SmCtx) (r : ActReq) : SmRes :=
  if r.qos.length > qosMax then .ub .assertFail
  else if r.pco.length > pcoCtxMax then .ub .assertFail
  else if r.pco.length > pcoPrimMax then .ub .outOfBounds
  else if c.hasMs r.msId then
    if nsapiValid r.nsapi then
      match (c.ms r.msId).pdp r.nsapi with
      | some _ => .ok (c, [], some .einval)
      | none => startAct c r
    else .ub .assertFail
  else startAct { (c.setMs r.msId freshMs) with order := r.msId :: c.order } r

/-- `gprs_sm_rx`, sm.c:442-465, with the events of its two message handlers (sm.c:380-383, 430-433):
ACTIVATE PDP CONTEXT ACCEPT is message type 0x42, REJECT 0x43. -/
def smRx (c : SmCtx) (id i : Nat) (s : Sme) (b : Octets) : SmRes :=
  if b.length < 2 then .ok (c, [], some .einval)
  else
    match rd b 1 with
    | .err e => .ok (c, [], some e)
    | .ub f => .ub f
    | .ok ty =>
      if ty = 0x42 then
        match rxAckBody s b with
        | (s', .ok _) => smDispatch c id i s' .rxAcc []
        | (s', .err e) => .ok (c.put id i (some s'), [], some e)
        | (_, .ub f) => .ub f
      else if ty = 0x43 then
        match rxRejBody s b with
        | (s', .ok cause) => smDispatch c id i s' (.rxRej cause) []
        | (s', .err e) => .ok (c.put id i (some s'), [], some e)
        | (_, .ub f) => .ub f
      else .ok (c, [], some .einval)

/-- The test of `gprs_sm_handle_ie_pdp_ctx_status`, sm.c:483-485. -/
def statusInactive (status nsapi : Nat) : Bool :=
  if nsapi < 8 then !(status % 256).testBit nsapi else !(status / 256 % 256).testBit (nsapi - 8)

/-- `gprs_sm_handle_ie_pdp_ctx_status`, sm.c:467-494. -/
def statusOuts (m : SmMs) (status : Nat) : List SmOut :=
  (List.range 16).filterMap fun i =>
    match m.pdp i with
    | some s => if statusInactive status s.nsapi then some (snsmDeactOut m s) else none
    | none => none

/-- What GMM has allocated: sm_prim.c:522-528 and 591-597. -/
def withGmm (m : SmMs) (ptmsi sig tlli : Nat) : SmMs :=
  { m with ptmsi := if ptmsi ≠ reservedTmsi then ptmsi else m.ptmsi, ptmsiSig := sig, tlli := tlli }

/-- `sm_ms_fsm_timer_cb`, sm_ms_fsm.c:165-198; nothing happens if no timer is running. -/
def smTimeout (c : SmCtx) (id i : Nat) (s : Sme) : SmRes :=
  match s.timer with
  | .off => .ok (c, [], none)
  | .free => .ok (c.put id s.nsapi none, [], none)
  | .t3380 =>
    let s1 := { s with attempts := (s.attempts + 1) % 256 }
    if s.st ≠ .pending then .ub .assertFail
    else if s1.attempts = 4 then smDispatch c id i s1 (.rxRej causeTempOoo) []
    else .ok (c.put id i (some (toPending (c.ms id) s1).1), (toPending (c.ms id) s1).2, none)

/-- A context found by its session identifier. -/
def withSess (c : SmCtx) (sess : Nat) (k : Nat → Nat → Sme → SmRes) : SmRes :=
  match c.bySess sess with
  | none => .ok (c, [], some .einval)
  | some (id, i) =>
    match (c.ms id).pdp i with
    | none => .ok (c, [], some .einval)
    | some s => k id i s

/-- A context found by TLLI and NSAPI, sm_prim.c:357-370 and 383-396. -/
def withNsapi (c : SmCtx) (tlli nsapi : Nat) (k : Nat → Nat → Sme → SmRes) : SmRes :=
  match c.msByTlli tlli with
  | none => .ok (c, [], some .enoent)
  | some id =>
    if nsapiValid nsapi then
      match (c.ms id).pdp nsapi with
      | none => .ok (c, [], some .enoent)
      | some s => k id nsapi s
    else .ub .assertFail

/-- sm_prim.c:235-608 and the timer. -/
def smStep (c : SmCtx) : SmIn → SmRes
  | .actReq r => actReqStep c r
  -- sm_prim.c:509-535
  | .estAcc sess p g t => withSess c sess fun id i s =>
      smDispatch (c.setMs id (withGmm (c.ms id) p g t)) id i s .estCnf []
  | .estRej sess => withSess c sess fun id i s => smDispatch c id i s .estRej []
  -- sm_prim.c:538-552
  | .relInd sess => withSess c sess fun id i s => smDispatch c id i s .release []
  -- sm_prim.c:555-572
  | .unitdataInd sess b => withSess c sess fun id i s => smRx c id i s b
  -- sm_prim.c:575-608
  | .modifyInd sess p g t status => withSess c sess fun id _ _ =>
      let m := withGmm (c.ms id) p g t
      .ok (c.setMs id m, match status with
        | some st => statusOuts m st
        | none => [], none)
  -- sm_prim.c:351-374
  | .snsmActRsp tlli n => withNsapi c tlli n fun id i s => smDispatch c id i s .nsapiActivated []
  -- sm_prim.c:377-405
  | .snsmDeactRsp tlli n => withNsapi c tlli n fun id i s =>
      match deactOut id s causeReactRqd with
      | .ok o => smDispatch c id i s .release [o]
      | .err e => .ok (c, [], some e)
      | .ub f => .ub f
  | .timeout id i =>
    if c.hasMs id then
      match (c.ms id).pdp i with
      | some s => smTimeout c id i s
      | none => .ok (c, [], none)
    else .ok (c, [], none)

/-- One entry of a history: what came in, what went out, what was returned. -/
structure SmObs where
  ev : SmIn
  outs : List SmOut
  rc : Option Errno

/-- A history: the state at the end and what could be observed, oldest first. -/
def smRun (c : SmCtx) : List SmIn → Res (SmCtx × List SmObs)
  | [] => .ok (c, [])
  | e :: l =>
    match smStep c e with
    | .ok (c1, o, rc) =>
      match smRun c1 l with
      | .ok (c2, t) => .ok (c2, ⟨e, o, rc⟩ :: t)
      | .err x => .err x
      | .ub f => .ub f
    | .err x => .err x
    | .ub f => .ub f

end Verif.Sm
