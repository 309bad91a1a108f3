import Verif.Gmm.Pdu
/-!
# GMM: the entity of a mobile station, its state machine and the primitives

src/gmm/gmm.c, src/gmm/gmm_ms_fsm.c and src/gmm/gmm_prim.c.

Every primitive handed to a neighbour may be refused (a negative return value of the callback); the
argument `ok` of the functions below says which ones are accepted while one event is handled.  Callbacks do
not call back into the layer before they return.  The memory of primitives is not modelled here.

Not modelled: `radio_prio_sms`, `radio_prio_tom8`, `t3302`, `t3346` and the network names, which are
stored and never used; the state GMM-SERVICE-REQUEST-INITIATED and the events `SR_*`, which nothing
dispatches.
-/
namespace Verif.Gmm
open Verif Verif.Gsm

/-- `enum gprs_gmm_ms_fsm_states`, gmm_ms_fsm.h:24-32. -/
inductive GmmSt where
  | null | dereg | regInit | reg | deregInit | rauInit
  deriving DecidableEq, Repr

/-- What the layer hands to its neighbours. -/
inductive GmmOut where
  /-- LL-UNITDATA.req on the SAPI of GMM -/
  | llUnitdata (tlli : Nat) (pdu : Octets)
  /-- LLGMM-ASSIGN.req -/
  | llgmmAssign (oldTlli newTlli gea : Nat) (kc : Octets)
  /-- LLGMM-SUSPEND.req -/
  | llgmmSuspend (tlli : Nat)
  /-- LLGMM-RESUME.req -/
  | llgmmResume (tlli : Nat)
  /-- LLGMM-TRIGGER.req (page response) -/
  | llgmmTrigger (tlli : Nat)
  /-- GMMRR-ASSIGN.req -/
  | gmmrrAssign (oldTlli newTlli ptmsi : Nat)
  /-- GMMREG-ATTACH.cnf with `accepted` set -/
  | attachAcc (ptmsi sig tlli : Nat) (ra : Octets)
  /-- GMMREG-ATTACH.cnf with `accepted` unset -/
  | attachRej (cause : Nat)
  /-- GMMREG-DETACH.cnf -/
  | detachCnf (type : Nat)
  /-- GMMREG-SIM_AUTH.ind -/
  | simAuthInd (acRef keySeq : Nat) (rand : Octets)
  /-- GMMSM-ESTABLISH.cnf with `accepted` set -/
  | estAcc (sess ptmsi sig tlli : Nat) (ra : Octets)
  /-- GMMSM-ESTABLISH.cnf with `accepted` unset -/
  | estRej (sess cause : Nat)
  /-- GMMSM-RELEASE.ind -/
  | releaseInd (sess : Nat)
  /-- GMMSM-MODIFY.ind -/
  | modifyInd (sess ptmsi sig tlli : Nat) (ra : Octets) (pdpStatus : Option Octets) (npduPresent : Bool)
      (npdu : Octets)
  /-- GMMSM-UNITDATA.ind -/
  | smUnitdataInd (sess : Nat) (pdu : Octets)
  deriving DecidableEq, Repr

/-- `struct gprs_gmm_entity`, gmm_private.h:54-107, with its `struct gprs_gmm_ms_fsm_ctx`,
gmm_ms_fsm.h:63-96. -/
structure Gmme where
  st          : GmmSt
  attType     : Nat
  withImsi    : Bool
  explicitAtt : Bool
  implicitAtt : Bool
  attAttempts : Nat
  detType     : Nat
  rauType     : Nat
  rauAttempts : Nat
  sess        : Nat
  ptmsiSig    : Nat
  ptmsi       : Nat
  oldPtmsi    : Nat
  tlli        : Nat
  oldTlli     : Nat
  imsi        : List Nat
  imei        : List Nat
  imeisv      : List Nat
  ra          : Octets
  pdpStatus   : Option Octets
  npduPresent : Bool
  npdu        : Octets
  acRef       : Nat
  keySeq      : Nat
  rand        : Octets
  imeisvReq   : Bool
  gea         : Nat
  kc          : Octets
  run3314     : Bool
  t3314s      : Nat
  run3312     : Bool
  t3312s      : Nat
  run3316     : Bool
  deriving DecidableEq, Repr

/-- The configurable timers the layer reads: `osmo_tdef_get` of T3314 and T3316, in seconds. -/
structure GmmCfg where
  t3314 : Nat
  t3316 : Nat

/-- The defaults, gmm.c:42, 52, 60-78. -/
def defaultCfg : GmmCfg := ⟨44, 30⟩

/-- The coded form of a routing area identification that is all zero. -/
def zeroRa : Octets := [0x00, 0xf0, 0x00, 0x00, 0x00, 0x00]

/-- `gprs_tmsi2tlli(p_tmsi, TLLI_LOCAL)` of libosmocore. -/
def localTlli (ptmsi : Nat) : Nat := ptmsi % 0x40000000 + 0xc0000000
/-- `gprs_tmsi2tlli(p_tmsi, TLLI_FOREIGN)` of libosmocore. -/
def foreignTlli (ptmsi : Nat) : Nat := ptmsi % 0x40000000 + 0x80000000

/-- `gprs_gmm_gmme_alloc`, gmm.c:151-195, with the random TLLI drawn when there is no P-TMSI. -/
def gmmeAlloc (enabled : Bool) (ptmsi : Nat) (imsi : List Nat) (rnd : Nat) : Gmme :=
  { st := if enabled then .dereg else .null,
    attType := 0, withImsi := false, explicitAtt := false, implicitAtt := false, attAttempts := 0,
    detType := 0, rauType := 0, rauAttempts := 0, sess := sessUnassigned, ptmsiSig := reservedTmsi,
    ptmsi := ptmsi, oldPtmsi := reservedTmsi,
    tlli := if ptmsi = reservedTmsi then rnd else foreignTlli ptmsi,
    oldTlli := tlliUnassigned, imsi := imsi, imei := [], imeisv := [], ra := zeroRa,
    pdpStatus := none, npduPresent := false, npdu := [], acRef := 0xff, keySeq := 0,
    rand := List.replicate 16 0, imeisvReq := false, gea := 0, kc := List.replicate 16 0,
    run3314 := false, t3314s := 0, run3312 := false, t3312s := 0, run3316 := false }

/-- Hand primitives to neighbours one after the other and stop after the first one that is refused. -/
def submit (ok : GmmOut → Bool) : List GmmOut → List GmmOut × Bool
  | [] => ([], true)
  | o :: l => if ok o then (o :: (submit ok l).1, (submit ok l).2) else ([o], false)

/-! ## Timers -/

/-- `gprs_gmm_gmme_t3312_start`, gmm.c:354-361. -/
def t3312Start (g : Gmme) : Gmme := if g.t3312s = 0 then g else { g with run3312 := true }
/-- `gprs_gmm_gmme_t3312_stop`, gmm.c:364-371. -/
def t3312Stop (g : Gmme) : Gmme := { g with run3312 := false }
/-- `gprs_gmm_gmme_t3316_stop`, gmm.c:408-415. -/
def t3316Stop (g : Gmme) : Gmme := { g with run3316 := false }
/-- `gprs_gmm_gmme_t3316_start`, gmm.c:397-405. -/
def t3316Start (cfg : GmmCfg) (g : Gmme) : Gmme := if cfg.t3316 = 0 then g else { g with run3316 := true }
/-- `gprs_gmm_gmme_ready_timer_start`, gmm.c:307-317. -/
def readyStart (g : Gmme) : Gmme :=
  if g.t3314s = 0 then g else t3312Stop { g with run3314 := true }
/-- `gprs_gmm_gmme_ready_timer_stop`, gmm.c:320-331. -/
def readyStop (g : Gmme) : Gmme :=
  if g.run3314 then t3312Start { g with run3314 := false } else g

/-! ## Messages and primitives sent -/

/-- `gprs_gmm_tx_att_req`, gmm.c:632-665; `none`: the message cannot be built. -/
def txAttReq (cfg : GmmCfg) (g : Gmme) : Option GmmOut :=
  match buildAttachReq g.attType g.withImsi g.ptmsi g.ptmsiSig g.imsi g.ra cfg.t3314 with
  | some b => some (.llUnitdata g.tlli b)
  | none => none

/-- `gprs_gmm_tx_rau_req`, gmm.c:809-838. -/
def txRauReq (cfg : GmmCfg) (g : Gmme) : GmmOut :=
  .llUnitdata g.tlli (buildRauReq g.rauType g.keySeq g.ptmsiSig g.ra cfg.t3314)

/-- `gprs_gmm_submit_llgmm_assing_req`, gmm.c:538-550. -/
def assignOut (g : Gmme) : GmmOut := .llgmmAssign g.oldTlli g.tlli g.gea g.kc
/-- `gprs_gmm_submit_gmmrr_assing_req`, gmm.c:525-536. -/
def rrAssignOut (g : Gmme) : GmmOut := .gmmrrAssign g.oldTlli g.tlli g.ptmsi
/-- `gprs_gmm_submit_gmmreg_attach_cnf` when accepted, gmm.c:427-445. -/
def attachAccOut (g : Gmme) : GmmOut := .attachAcc g.ptmsi g.ptmsiSig g.tlli g.ra
/-- `gprs_gmm_submit_gmmsm_establish_cnf` when accepted, gmm.c:474-489. -/
def estAccOut (g : Gmme) : GmmOut := .estAcc g.sess g.ptmsi g.ptmsiSig g.tlli g.ra
/-- `gprs_gmm_submit_gmmsm_establish_cnf` when not accepted, gmm.c:474-489: the primitive says accepted
when the cause is zero, gmm_prim.c:422, and its other fields are zero. -/
def estRejOut (g : Gmme) (cause : Nat) : GmmOut :=
  if cause = 0 then .estAcc g.sess 0 0 0 zeroRa else .estRej g.sess cause
/-- `gprs_gmm_submit_gmmsm_modify_ind`, gmm.c:503-523. -/
def modifyOut (g : Gmme) : GmmOut :=
  .modifyInd g.sess g.ptmsi g.ptmsiSig g.tlli g.ra g.pdpStatus g.npduPresent g.npdu

/-! ## The state machine -/

/-- The events of `gmm_ms_fsm` that are dispatched in /repo, gmm_ms_fsm.h:43-59. -/
inductive FsmEv where
  | enable | disable | attachRequested | attachRejected (cause : Nat) | attachAccepted
  | detachRequested | detachPoweroff | detachAccepted
  | rauRequested | rauRejected (cause : Nat) | rauAccepted | lowLvlFail
  deriving DecidableEq, Repr

/-- `GMM_CAUSE_MAC_FAIL`. -/
def causeMacFail : Nat := 20

/-- Entering GMM-DEREGISTERED, gmm_ms_fsm.c:95-108. -/
def toDereg (g : Gmme) : Gmme × List GmmOut :=
  (t3316Stop (t3312Stop { g with
      st := .dereg, attType := 0, withImsi := false, explicitAtt := false, implicitAtt := false,
      attAttempts := 0 }),
   if g.st ≠ .null ∧ g.sess ≠ sessUnassigned then [.releaseInd g.sess] else [])

/-- Entering GMM-REGISTERED, gmm_ms_fsm.c:186-191. -/
def toReg (g : Gmme) : Gmme := { g with st := .reg, attAttempts := 0 }

/-- The attach procedure has failed, gmm_ms_fsm.c:143-164. -/
def attachFailed (ok : GmmOut → Bool) (g : Gmme) (cause : Nat) : Gmme × List GmmOut :=
  ((toDereg g).1, (toDereg g).2 ++ (submit ok
    ((if g.explicitAtt then [.attachRej cause] else []) ++
     (if g.implicitAtt then [estRejOut g cause] else []))).1)

/-- The attach procedure has succeeded, gmm_ms_fsm.c:165-180. -/
def attachDone (ok : GmmOut → Bool) (g : Gmme) : Gmme × List GmmOut :=
  (toReg g, (submit ok
    ((if g.explicitAtt then [attachAccOut g] else []) ++
     (if g.implicitAtt then [estAccOut g] else []))).1)

/-- `GPRS_GMM_MS_EV_ATTACH_REQUESTED` in GMM-DEREGISTERED, gmm_ms_fsm.c:119-126. -/
def startAttach (cfg : GmmCfg) (ok : GmmOut → Bool) (g : Gmme) : Gmme × List GmmOut :=
  match txAttReq cfg g with
  | none => (g, [])
  | some o => (if ok o then { g with st := .regInit } else g, [o])

/-- `GPRS_GMM_MS_EV_RAU_REQUESTED` in GMM-REGISTERED, gmm_ms_fsm.c:203-214: the result of
LLGMM-SUSPEND.req does not matter. -/
def startRau (cfg : GmmCfg) (ok : GmmOut → Bool) (g : Gmme) : Gmme × List GmmOut :=
  (if ok (txRauReq cfg g) then { g with st := .rauInit } else g,
   [.llgmmSuspend g.tlli, txRauReq cfg g])

/-- The causes after which a rejected mobile station stays registered, gmm_ms_fsm.c:251-255:
`GMM_CAUSE_ROAMING_NOTALLOWED`, `GMM_CAUSE_NO_SUIT_CELL_IN_LA` and `GMM_CAUSE_NOT_AUTH_FOR_CSG`. -/
def staysRegistered (cause : Nat) : Bool := cause = 13 ∨ cause = 15 ∨ cause = 25

/-- `GPRS_GMM_MS_EV_RAU_REJECTED`, gmm_ms_fsm.c:247-260. -/
def rauRejectedAct (g : Gmme) (cause : Nat) : Gmme × List GmmOut :=
  if staysRegistered cause then (toReg g, []) else toDereg g

/-- `GPRS_GMM_MS_EV_RAU_ACCEPTED` in GMM-ROUTING-AREA-UPDATING-INITIATED, gmm_ms_fsm.c:261-268. -/
def rauDone (g : Gmme) : Gmme × List GmmOut := (toReg (t3316Stop g), [.llgmmResume g.tlli])

/-- `osmo_fsm_inst_dispatch`: gmm_ms_fsm.c:76-302 with the masks of lines 304-386 and 450-451.
`none`: the event is not permitted in the state. -/
def gmmFsm (cfg : GmmCfg) (ok : GmmOut → Bool) (g : Gmme) (ev : FsmEv) : Option (Gmme × List GmmOut) :=
  match g.st, ev with
  | .null, .enable => some (toDereg g)
  | .dereg, .disable => some (t3316Stop { g with st := .null }, [])
  | .dereg, .attachRequested => some (startAttach cfg ok g)
  | .regInit, .attachRequested => some (g, (txAttReq cfg g).toList)
  | .regInit, .attachRejected c => some (attachFailed ok g c)
  | .regInit, .lowLvlFail => some (attachFailed ok g causeMacFail)
  | .regInit, .attachAccepted => some (attachDone ok g)
  | .regInit, .detachRequested => some (toDereg g)
  | .reg, .rauRequested => some (startRau cfg ok g)
  | .reg, .detachRequested => some ({ g with st := .deregInit }, [])
  | .deregInit, .detachAccepted => some (toDereg g)
  | .deregInit, .lowLvlFail => some (toDereg g)
  | .deregInit, .rauAccepted => some (toReg g, [])
  | .rauInit, .lowLvlFail => some (toReg g, [])
  | .rauInit, .rauRejected c => some (rauRejectedAct g c)
  | .rauInit, .rauAccepted => some (rauDone g)
  | _, .detachPoweroff => some (toDereg g)
  | _, _ => none

/-- What an event left behind: the entity, the primitives handed out in order, and the negative return
value if there is one. -/
structure GmmStep where
  g   : Gmme
  out : List GmmOut
  rc  : Option Errno
  deriving DecidableEq, Repr

/-- `rc = osmo_fsm_inst_dispatch(…)` after the primitives `pre`: `-EPERM` when the event is not
permitted. -/
def dispatch (cfg : GmmCfg) (ok : GmmOut → Bool) (g : Gmme) (pre : List GmmOut) (ev : FsmEv) : GmmStep :=
  match gmmFsm cfg ok g ev with
  | some (g', out) => ⟨g', pre ++ out, none⟩
  | none => ⟨g, pre, some .eperm⟩

/-- `gmm_ms_fsm_timer_cb`, gmm_ms_fsm.c:407-444: the timer of the state machine runs in
GMM-REGISTERED-INITIATED (T3310) and GMM-ROUTING-AREA-UPDATING-INITIATED (T3330) only, lines 33-42. -/
def fsmTimeout (cfg : GmmCfg) (ok : GmmOut → Bool) (g : Gmme) : GmmStep :=
  match g.st with
  | .regInit =>
    if (g.attAttempts + 1) % 256 = 4 then
      dispatch cfg ok { g with attAttempts := (g.attAttempts + 1) % 256 } [] .lowLvlFail
    else
      ⟨{ g with attAttempts := (g.attAttempts + 1) % 256 }, (txAttReq cfg g).toList, none⟩
  | .rauInit =>
    if (g.rauAttempts + 1) % 256 = 4 then
      dispatch cfg ok { g with rauAttempts := (g.rauAttempts + 1) % 256 } [] .lowLvlFail
    else
      ⟨{ g with rauAttempts := (g.rauAttempts + 1) % 256 }, [txRauReq cfg g], none⟩
  | _ => ⟨g, [], none⟩

/-! ## Messages received -/

/-- The value of an element. -/
def ieVal (b : Octets) (e : Ie) : Res Octets := rdN b e.ofs e.len

/-- The P-TMSI signature of three octets as the code puts it together, gmm.c:906, 1082 and 1301. -/
def sigOf (v : Octets) : Nat :=
  match v with
  | [a, b, c] => a.toNat * 0x100 ||| b.toNat * 0x10 ||| c.toNat
  | _ => 0

/-- The P-TMSI signature element or its absence, gmm.c:904-909, 1080-1085 and 1299-1304. -/
def applySig (b : Octets) (ies : List Ie) (g : Gmme) : Res Gmme :=
  match ieGet ies 0x19 with
  | some e => do
    let v ← ieVal b e
    .ok { g with ptmsiSig := sigOf v }
  | none => .ok { g with ptmsiSig := reservedTmsi }

/-- Once the READY timer value is known, gmm.c:920-926 and 1134-1140. -/
def readyNegotiated (g : Gmme) : Gmme := if g.t3314s = 0 then t3312Start (readyStop g) else g

/-- The negotiated READY timer element or its absence, gmm.c:911-926 and 1125-1140. -/
def applyReady (cfg : GmmCfg) (b : Octets) (ies : List Ie) (g : Gmme) : Res Gmme :=
  match ieGet ies 0x17 with
  | some e => do
    let t ← rd b e.ofs
    .ok (readyNegotiated { g with t3314s := tmrAssigned t })
  | none => .ok (readyNegotiated { g with t3314s := cfg.t3314 })

/-- `gprs_gmm_gmme_update_allocated_ptmsi`, gmm.c:552-561. -/
def updatePtmsi (g : Gmme) (p : Nat) : Gmme :=
  { g with oldPtmsi := g.ptmsi, ptmsi := p, oldTlli := g.tlli, tlli := localTlli p }

/-- The allocated P-TMSI element, gmm.c:928-937 and 1088-1097; `none`: not decodable. -/
def applyPtmsi (b : Octets) (ies : List Ie) (g : Gmme) : Res (Option Gmme) :=
  match ieGet ies 0x18 with
  | some e => do
    let v ← ieVal b e
    .ok ((miDecodeTmsi v).map (updatePtmsi g))
  | none => .ok (some g)

/-- The periodic update timer, force to standby and the routing area of ATTACH ACCEPT and ROUTING AREA
UPDATE ACCEPT, gmm.c:886-895 and 1064-1070. -/
def applyFixed (g : Gmme) (timer : Nat) (forceStandby : Bool) (ra : Octets) : Gmme :=
  { (if forceStandby then readyStop (if tmrAssigned timer = 0 then t3312Stop { g with t3312s := 0 }
      else { g with t3312s := tmrAssigned timer })
     else (if tmrAssigned timer = 0 then t3312Stop { g with t3312s := 0 }
      else { g with t3312s := tmrAssigned timer })) with ra := ra }

/-- `goto rejected` with `-EINVAL`. -/
def rejected (g : Gmme) (out : List GmmOut) : Res GmmStep := .ok ⟨g, out, some .einval⟩

/-- The end of the accept handlers: submit primitives in order, and dispatch when all are accepted. -/
def submitThen (cfg : GmmCfg) (ok : GmmOut → Bool) (g : Gmme) (outs : List GmmOut) (ev : FsmEv) :
    Res GmmStep :=
  if (submit ok outs).2 then .ok (dispatch cfg ok g (submit ok outs).1 ev)
  else rejected g (submit ok outs).1

/-- The optional part of ATTACH ACCEPT, gmm.c:897-941; `none`: rejected, with the entity as it is by
then. -/
def attAccIes (cfg : GmmCfg) (b : Octets) (g : Gmme) : Res (Gmme × Bool) :=
  if b.length > 11 then
    match ieParse gmmIes b 11 with
    | .err _ => .ok (g, false)
    | .ub f => .ub f
    | .ok ies => do
      let g1 ← applySig b ies g
      let g2 ← applyReady cfg b ies g1
      let r ← applyPtmsi b ies g2
      match r with
      | some g3 => .ok (g3, true)
      | none => .ok (g2, false)
  else .ok (g, true)

/-- After the elements of ATTACH ACCEPT, gmm.c:943-965. -/
def attAccEnd (cfg : GmmCfg) (ok : GmmOut → Bool) (r : Gmme × Bool) : Res GmmStep :=
  if r.2 then
    submitThen cfg ok r.1 [assignOut r.1, rrAssignOut r.1, .llUnitdata r.1.tlli attachCompl] .attachAccepted
  else rejected r.1 []

/-- `gprs_gmm_rx_att_ack`, gmm.c:873-965. -/
def rxAttAcc (cfg : GmmCfg) (ok : GmmOut → Bool) (g : Gmme) (b : Octets) : Res GmmStep :=
  if b.length < 11 then rejected g []
  else do
    let o ← rd b 2
    let timer ← rd b 3
    let ra ← rdN b 5 6
    let r ← attAccIes cfg b (applyFixed g timer (decide (o / 16 ≠ 0)) ra)
    attAccEnd cfg ok r

/-- `gprs_gmm_rx_att_rej`, gmm.c:968-1006. -/
def rxAttRej (cfg : GmmCfg) (ok : GmmOut → Bool) (g : Gmme) (b : Octets) : Res GmmStep :=
  if b.length < 3 then rejected g []
  else do
    let cause ← rd b 2
    match (if b.length > 3 then ieParse gmmIes b 3 else .ok []) with
    | .err _ => rejected g []
    | .ub f => .ub f
    | .ok _ => .ok (dispatch cfg ok g [] (.attachRejected cause))

/-- `gprs_gmm_rx_detach_accept`, gmm.c:1009-1043. -/
def rxDetachAcc (cfg : GmmCfg) (ok : GmmOut → Bool) (g : Gmme) (b : Octets) : Res GmmStep :=
  if b.length < 3 then rejected g []
  else do
    let o ← rd b 2
    let g1 := if o / 16 = 1 then readyStop g else g
    let g2 := { g1 with oldTlli := g1.tlli, tlli := tlliUnassigned }
    submitThen cfg ok g2 [assignOut g2, .detachCnf g2.detType] .detachAccepted

/-- The list of receive N-PDU numbers, gmm.c:1113-1123: at most 17 octets are kept; the length is not
reset when the element is absent. -/
def applyNpdu (b : Octets) (ies : List Ie) (g : Gmme) : Res Gmme :=
  match ieGetLen ies 0x26 2 with
  | some e => do
    let v ← rdN b e.ofs (min e.len 17)
    .ok { g with npduPresent := true, npdu := v }
  | none => .ok { g with npduPresent := false }

/-- The PDP context status, gmm.c:1150-1155. -/
def applyPdpStatus (b : Octets) (ies : List Ie) (g : Gmme) : Res Gmme :=
  match ieGetLen ies 0x32 2 with
  | some e => do
    let v ← rdN b e.ofs 2
    .ok { g with pdpStatus := some v }
  | none => .ok { g with pdpStatus := none }

/-- The MS identity, gmm.c:1100-1110: whether it is acceptable. -/
def imeisvOk (b : Octets) (ies : List Ie) : Res Bool :=
  match ieGet ies 0x23 with
  | some e => do
    let v ← ieVal b e
    .ok (miIsImeisv v)
  | none => .ok true

/-- The elements of ROUTING AREA UPDATE ACCEPT after the identities, gmm.c:1112-1156. -/
def rauAccRest (cfg : GmmCfg) (b : Octets) (ies : List Ie) (g : Gmme) : Res (Gmme × Bool) := do
  let g1 ← applyNpdu b ies g
  let g2 ← applyReady cfg b ies g1
  let g3 ← applyPdpStatus b ies g2
  .ok (g3, true)

/-- The optional part of ROUTING AREA UPDATE ACCEPT, gmm.c:1072-1157. -/
def rauAccIes (cfg : GmmCfg) (b : Octets) (g : Gmme) : Res (Gmme × Bool) :=
  if b.length > 10 then
    match ieParse gmmIes b 10 with
    | .err _ => .ok (g, false)
    | .ub f => .ub f
    | .ok ies => do
      let g1 ← applySig b ies g
      let r ← applyPtmsi b ies g1
      match r with
      | none => .ok (g1, false)
      | some g2 => do
        let im ← imeisvOk b ies
        if im then rauAccRest cfg b ies g2 else .ok (g2, false)
  else .ok (g, true)

/-- After the elements of ROUTING AREA UPDATE ACCEPT, gmm.c:1159-1185. -/
def rauAccEnd (cfg : GmmCfg) (ok : GmmOut → Bool) (r : Gmme × Bool) : Res GmmStep :=
  if r.2 then
    submitThen cfg ok r.1
      ([assignOut r.1, rrAssignOut r.1] ++ (if r.1.sess ≠ sessUnassigned then [modifyOut r.1] else []) ++
        [.llUnitdata r.1.tlli rauCompl]) .rauAccepted
  else rejected r.1 []

/-- `gprs_gmm_rx_rau_acc`, gmm.c:1046-1185. -/
def rxRauAcc (cfg : GmmCfg) (ok : GmmOut → Bool) (g : Gmme) (b : Octets) : Res GmmStep :=
  if b.length < 10 then rejected g []
  else do
    let o ← rd b 2
    let timer ← rd b 3
    let ra ← rdN b 4 6
    let r ← rauAccIes cfg b (applyFixed g timer (decide (o % 16 ≠ 0)) ra)
    rauAccEnd cfg ok r

/-- `GMM_CAUSE_SEM_INCORR_MSG`. -/
def causeSemIncorr : Nat := 95

/-- `gprs_gmm_rx_rau_rej`, gmm.c:1188-1228: the event is dispatched even for a message that cannot be
parsed, and the function always returns `-EINVAL`. -/
def rxRauRej (cfg : GmmCfg) (ok : GmmOut → Bool) (g : Gmme) (b : Octets) : Res GmmStep :=
  if b.length < 4 then
    .ok { dispatch cfg ok g [] (.rauRejected causeSemIncorr) with rc := some .einval }
  else do
    let cause ← rd b 2
    let o ← rd b 3
    let g1 := if o / 16 = 1 then readyStop g else g
    match (if b.length > 4 then ieParse gmmIes b 4 else .ok []) with
    | .ub f => .ub f
    | _ => .ok { dispatch cfg ok g1 [] (.rauRejected cause) with rc := some .einval }

/-- Hand out one primitive; the callback's error is passed on as `-EIO`. -/
def submitOne (ok : GmmOut → Bool) (g : Gmme) (pre : List GmmOut) (o : GmmOut) : GmmStep :=
  ⟨g, pre ++ [o], if ok o then none else some .eio⟩

/-- `gprs_gmm_rx_id_req` and `gprs_gmm_tx_id_resp`, gmm.c:1231-1254 and 564-595. -/
def rxIdReq (ok : GmmOut → Bool) (g : Gmme) (b : Octets) : Res GmmStep :=
  if b.length < 3 then rejected g []
  else do
    let o ← rd b 2
    let g1 := if o / 16 = 1 then readyStop g else g
    match buildIdResp (o % 16) g1.ptmsi g1.imsi g1.imei g1.imeisv with
    | none => .ok ⟨g1, [], some .ebadmsg⟩
    | some pdu => .ok (submitOne ok g1 [] (.llUnitdata g1.tlli pdu))

/-- The end of P-TMSI REALLOCATION COMMAND, gmm.c:1309-1320. -/
def ptmsiReallEnd (ok : GmmOut → Bool) (g : Gmme) : Res GmmStep :=
  if (submit ok [assignOut g, rrAssignOut g]).2 then
    .ok (submitOne ok g [assignOut g, rrAssignOut g] (.llUnitdata g.tlli ptmsiReallCompl))
  else rejected g (submit ok [assignOut g, rrAssignOut g]).1

/-- `gprs_gmm_rx_ptmsi_realloc_cmd`, gmm.c:1257-1323: the length has to be 15, so that lines 1290-1307,
which parse optional elements, are never reached. -/
def rxPtmsiReall (ok : GmmOut → Bool) (g : Gmme) (b : Octets) : Res GmmStep :=
  if b.length ≠ 15 then rejected g []
  else do
    let miLen ← rd b 2
    if miLen ≠ 5 then rejected g []
    else do
      let mi ← rdN b 3 5
      match miDecodeTmsi mi with
      | none => rejected g []
      | some p => do
        let ra ← rdN b 8 6
        let o ← rd b 14
        ptmsiReallEnd ok (if o / 16 = 1 then readyStop { updatePtmsi g p with ra := ra }
          else { updatePtmsi g p with ra := ra })

/-- `gprs_gmm_tx_auth_ciph_fail`, gmm.c:767-806: what it does to the entity and what it sends. -/
def authFail (g : Gmme) (cause : Nat) : Gmme × GmmOut :=
  (t3316Stop { g with acRef := 0xff }, .llUnitdata g.tlli (buildAuthFail cause))

/-- `gprs_gmm_tx_auth_ciph_resp` at the end of an authentication, and the invalidation of the reference,
gmm.c:1389-1393 and gmm_prim.c:583-586. -/
def authAnswer (ok : GmmOut → Bool) (g : Gmme) (sres : Option Octets) (pre : List GmmOut) : GmmStep :=
  match buildAuthResp g.acRef sres g.imeisvReq g.imeisv with
  | none => ⟨{ g with acRef := 0xff }, pre, some .ebadmsg⟩
  | some pdu => submitOne ok { g with acRef := 0xff } pre (.llUnitdata g.tlli pdu)

/-- LLGMM-ASSIGN.req and the answer, gmm.c:1380-1393 and gmm_prim.c:574-587. -/
def authFinish (ok : GmmOut → Bool) (g : Gmme) (sres : Option Octets) : GmmStep :=
  if ok (assignOut g) then authAnswer ok g sres [assignOut g]
  else ⟨(authFail { g with acRef := 0xff } 101).1, [assignOut g, (authFail g 101).2], some .eio⟩

/-- The random number and the key sequence number of the request, gmm.c:1342-1358: the latter counts only
together with the former. -/
def authIes (b : Octets) (ies : List Ie) : Res (Option (Octets × Nat)) :=
  match ieGet ies 0x21 with
  | none => .ok none
  | some e => do
    let r ← ieVal b e
    match ieGet ies 0x80 with
    | none => .ok (some (r, 0xff))
    | some k => do
      let c ← rd b k.ofs
      .ok (some (r, c % 16))

/-- What is stored of the request and what follows, gmm.c:1366-1395. -/
def authApply (ok : GmmOut → Bool) (g : Gmme) (o2 o3 : Nat) (r : Option (Octets × Nat)) : GmmStep :=
  let g1 := if o3 % 16 ≠ 0 then readyStop g else g
  match r with
  | some (rnd, k) =>
    let g2 := { g1 with gea := o2 % 16, acRef := o3 / 16, imeisvReq := decide (o2 / 16 ≠ 0), keySeq := k,
                        rand := rnd }
    if ok (.simAuthInd g2.acRef g2.keySeq g2.rand) then ⟨g2, [.simAuthInd g2.acRef g2.keySeq g2.rand], none⟩
    else ⟨(authFail g2 23).1, [.simAuthInd g2.acRef g2.keySeq g2.rand, (authFail g2 23).2], some .eio⟩
  | none =>
    authFinish ok { g1 with gea := o2 % 16, acRef := o3 / 16, imeisvReq := decide (o2 / 16 ≠ 0),
                            keySeq := 0xff } none

/-- `gprs_gmm_rx_auth_ciph_req`, gmm.c:1326-1396. -/
def rxAuthReq (ok : GmmOut → Bool) (g : Gmme) (b : Octets) : Res GmmStep :=
  if b.length < 4 then .ok ⟨(authFail g causeSemIncorr).1, [(authFail g causeSemIncorr).2], some .einval⟩
  else do
    let o2 ← rd b 2
    let o3 ← rd b 3
    match (if b.length > 4 then ieParse gmmIes b 4 else .ok []) with
    | .ub f => .ub f
    | .err _ => .ok ⟨(authFail g 100).1, [(authFail g 100).2], some .einval⟩
    | .ok ies => do
      let r ← authIes b ies
      .ok (authApply ok g o2 o3 r)

/-- `gprs_gmm_rx_information`, gmm.c:1429-1453, without the names. -/
def rxInfo (g : Gmme) (b : Octets) : Res GmmStep :=
  match (if b.length ≤ 2 then .ok [] else ieParse gmmIes b 2) with
  | .ub f => .ub f
  | .err _ => rejected g []
  | .ok _ => .ok ⟨g, [], none⟩

/-- `gprs_gmm_rx`, gmm.c:1456-1503. -/
def gmmRx (cfg : GmmCfg) (ok : GmmOut → Bool) (g : Gmme) (b : Octets) (msgType : Nat) : Res GmmStep :=
  if msgType = 0x02 then rxAttAcc cfg ok g b
  else if msgType = 0x04 then rxAttRej cfg ok g b
  else if msgType = 0x06 then rxDetachAcc cfg ok g b
  else if msgType = 0x09 then rxRauAcc cfg ok g b
  else if msgType = 0x0b then rxRauRej cfg ok g b
  else if msgType = 0x15 then rxIdReq ok g b
  else if msgType = 0x10 then rxPtmsiReall ok g b
  else if msgType = 0x12 then rxAuthReq ok g b
  else if msgType = 0x14 then .ok (dispatch cfg ok g [] (.attachRejected 23))
  else if msgType = 0x20 then (if b.length < 3 then rejected g [] else .ok ⟨g, [], none⟩)
  else if msgType = 0x21 then rxInfo g b
  else rejected g []

/-- `gprs_gmm_prim_handle_ll_unitdata_ind`, gmm_prim.c:914-953, once the entity is known. -/
def rxLlUnitdata (cfg : GmmCfg) (ok : GmmOut → Bool) (g : Gmme) (b : Octets) : Res GmmStep :=
  if b.length < 2 then rejected g []
  else do
    let pd ← rd b 0
    let mt ← rd b 1
    if pd % 16 = 8 then gmmRx cfg ok g b mt
    else if pd % 16 = 10 then .ok (submitOne ok g [] (.smUnitdataInd g.sess b))
    else .ub .assertFail

/-! ## Events -/

/-- The fields of GMMREG-ATTACH.req and GMMSM-ESTABLISH.req other than those that select the entity. -/
structure AttachPrm where
  attType  : Nat
  withImsi : Bool
  sig      : Nat
  imei     : List Nat
  imeisv   : List Nat
  ra       : Octets
  deriving DecidableEq, Repr

/-- What happens to an entity. -/
inductive GmmEv where
  /-- `osmo_gprs_gmm_enable_gprs` with a new value -/
  | enable (on : Bool)
  /-- GMMREG-ATTACH.req -/
  | attachReq (p : AttachPrm)
  /-- GMMREG-DETACH.req -/
  | detachReq (type : Nat) (poweroff : Bool)
  /-- GMMREG-SIM_AUTH.rsp -/
  | simAuthRsp (acRef keySeq : Nat) (rand sres kc : Octets)
  /-- GMMSM-ESTABLISH.req -/
  | establishReq (sess : Nat) (p : AttachPrm)
  /-- GMMSM-UNITDATA.req -/
  | smUnitdataReq (pdu : Octets)
  /-- GMMRR-PAGE.ind -/
  | pageInd
  /-- GMMRR-LLC_TRANSMITTED.ind -/
  | llcTransmitted
  /-- LL-UNITDATA.ind -/
  | rx (b : Octets)
  /-- T3310 or T3330 -/
  | fsmTimer
  /-- READY timer -/
  | t3314
  /-- periodic update timer -/
  | t3312
  | t3316
  deriving DecidableEq, Repr

/-- `if (imei[0] != '\0') OSMO_STRLCPY_ARRAY(…)`, gmm_prim.c:512-516 and 637-640. -/
def storeIdentities (g : Gmme) (p : AttachPrm) : Gmme :=
  { g with imei := if p.imei = [] then g.imei else p.imei,
           imeisv := if p.imeisv = [] then g.imeisv else p.imeisv, ra := p.ra }

/-- `gprs_gmm_ms_fsm_ctx_request_attach`, gmm_ms_fsm.c:486-503. -/
def requestAttach (cfg : GmmCfg) (ok : GmmOut → Bool) (g : Gmme) (attType : Nat) (withImsi expl : Bool) :
    GmmStep :=
  dispatch cfg ok
    { g with attType := attType, withImsi := withImsi,
             explicitAtt := g.explicitAtt || expl, implicitAtt := g.implicitAtt || !expl } []
    .attachRequested

/-- `gprs_gmm_prim_handle_gmmreg_attach_req`, gmm_prim.c:502-524, once the entity is known. -/
def attachReqAct (cfg : GmmCfg) (ok : GmmOut → Bool) (g : Gmme) (p : AttachPrm) : GmmStep :=
  requestAttach cfg ok { storeIdentities g p with ptmsiSig := p.sig } p.attType p.withImsi true

/-- `gprs_gmm_prim_handle_gmmsm_establish_req`, gmm_prim.c:613-644, once the entity is known. -/
def establishReqAct (cfg : GmmCfg) (ok : GmmOut → Bool) (g : Gmme) (sess : Nat) (p : AttachPrm) :
    GmmStep :=
  let g1 := { g with sess := sess, ptmsiSig := p.sig }
  if g.st = .reg then submitOne ok g1 [] (estAccOut g1)
  else requestAttach cfg ok (storeIdentities g1 p) p.attType p.withImsi false

/-- `gprs_gmm_ms_fsm_ctx_request_detach`, gmm_ms_fsm.c:505-530: DETACH REQUEST is sent whether or not the
event is permitted, and the result is that of sending it. -/
def detachReqAct (cfg : GmmCfg) (ok : GmmOut → Bool) (g : Gmme) (type : Nat) (poweroff : Bool) : GmmStep :=
  let r := dispatch cfg ok { g with detType := type } []
    (if poweroff then .detachPoweroff else .detachRequested)
  submitOne ok r.g r.out (.llUnitdata r.g.tlli (buildDetachReq type (if poweroff then 1 else 0) r.g.ptmsi))

/-- Whether GMMREG-SIM_AUTH.rsp answers the request of an entity, gmm_prim.c:552-559. -/
def simAuthMatches (g : Gmme) (acRef keySeq : Nat) (rand : Octets) : Bool :=
  g.acRef = acRef ∧ g.keySeq = keySeq ∧ g.rand = rand

/-- `gprs_gmm_prim_handle_gmmreg_sim_auth_resp`, gmm_prim.c:545-588, for an entity. -/
def simAuthRspAct (cfg : GmmCfg) (ok : GmmOut → Bool) (g : Gmme) (acRef keySeq : Nat)
    (rand sres kc : Octets) : GmmStep :=
  if simAuthMatches g acRef keySeq rand then
    authFinish ok (t3316Start cfg { g with kc := kc }) (some sres)
  else ⟨g, [], some .einval⟩

/-- `t3312_periodic_rau_timer_cb`, gmm.c:374-394, and `gprs_gmm_ms_fsm_ctx_request_rau`,
gmm_ms_fsm.c:532-541: the result of the request is ignored. -/
def periodicUpdate (cfg : GmmCfg) (ok : GmmOut → Bool) (g : Gmme) : GmmStep :=
  if g.run3312 then
    { dispatch cfg ok { g with run3312 := false, rauType := 3 } [] .rauRequested with rc := none }
  else ⟨g, [], none⟩

/-- One event.  A timer that does not run does not expire. -/
def gmmStep (cfg : GmmCfg) (ok : GmmOut → Bool) (g : Gmme) : GmmEv → Res GmmStep
  | .enable on => .ok (dispatch cfg ok g [] (if on then .enable else .disable))
  | .attachReq p => .ok (attachReqAct cfg ok g p)
  | .detachReq type poweroff => .ok (detachReqAct cfg ok g type poweroff)
  | .simAuthRsp r k rnd sres kc => .ok (simAuthRspAct cfg ok g r k rnd sres kc)
  | .establishReq sess p => .ok (establishReqAct cfg ok g sess p)
  | .smUnitdataReq pdu => .ok (submitOne ok g [] (.llUnitdata g.tlli pdu))
  | .pageInd => .ok (submitOne ok (readyStart g) [] (.llgmmTrigger g.tlli))
  | .llcTransmitted => .ok ⟨readyStart g, [], none⟩
  | .rx b => rxLlUnitdata cfg ok g b
  | .fsmTimer => .ok (fsmTimeout cfg ok g)
  -- gmm.c:339-352
  | .t3314 => .ok ⟨if g.run3314 then t3312Start { g with run3314 := false } else g, [], none⟩
  | .t3312 => .ok (periodicUpdate cfg ok g)
  -- gmm.c:418-425
  | .t3316 => .ok ⟨if g.run3316 then { g with run3316 := false, acRef := 0xff } else g, [], none⟩

end Verif.Gmm
