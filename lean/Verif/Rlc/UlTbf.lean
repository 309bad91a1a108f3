import Verif.Basic
import Verif.Rlc.FrameNumber
import Verif.Rlc.PollTree

/-!
# The uplink TBF and its two state machines

Model of /repo/src/rlcmac/tbf_ul_fsm.c, /repo/src/rlcmac/tbf_ul_ass_fsm.c and of the parts of
/repo/src/rlcmac/tbf_ul.c, gre.c, rlcmac.c and sched.c that drive them.

`osmo_fsm` is libosmocore: an event outside the `in_event_mask` of the state is refused without effect, a state change
outside the `out_state_mask` is refused without effect, a state change stops the timer of the machine and starts the
one given in the timeout table (unless `keep_timer` is set and it is running), then calls `onenter`.  A timer that
runs out is no longer pending; its number `T` stays.  All timer values are taken to be non-zero (defaults of
/repo/src/rlcmac/rlcmac.c:46-56).

Not modelled: the log, the RLC window and the LL-PDUs (modelled in `Rlc/WindowUl`, `Rlc/Segment`, `Rlc/LlcQueue`,
`Rlc/Countdown`), the coding scheme, failing allocations of memory, and return values of the lower layer other than
that of the random access request (no other one is looked at).
-/
namespace Verif.Rlc

/-- `struct gprs_rlcmac_ul_tbf_allocation`, /repo/include/osmocom/gprs/rlcmac/rlcmac_private.h:24-33: the eight timeslots, with
the USF if allocated. -/
structure UlAlloc where
  tfi : Nat
  numTs : Nat
  ts : List (Option Nat)
  deriving DecidableEq, Repr

/-- The zeroed allocation (`memset`). -/
def UlAlloc.zero : UlAlloc := ⟨0, 0, List.replicate 8 none⟩

/-- `ts[tn]`; `none` if not allocated. -/
def UlAlloc.usf (a : UlAlloc) (tn : Nat) : Option Nat := a.ts.getD tn none

/-- One timeslot set in a zeroed allocation. -/
def oneTs (tn usf : Nat) : List (Option Nat) := (List.replicate 8 none).set tn (some usf)

/-- `enum gprs_rlcmac_tbf_ul_fsm_states`, /repo/include/osmocom/gprs/rlcmac/tbf_ul_fsm.h:11-17. -/
inductive UlSt where
  | new | waitAssign | flow | finished | releasing
  deriving DecidableEq, Repr

/-- `enum gprs_rlcmac_tbf_ul_ass_fsm_states`, /repo/include/osmocom/gprs/rlcmac/tbf_ul_ass_fsm.h:20-28, without
`COMPL`, which is left again in its own `onenter`. -/
inductive AssSt where
  | idle | waitImmAss | waitStart1 | schedResReq | waitUlAss | waitStart2
  deriving DecidableEq, Repr

/-- The two access types in use, `enum gprs_rlcmac_tbf_ul_ass_type`. -/
inductive AssType where
  | onePhase | twoPhase
  deriving DecidableEq, Repr

/-- The state of an uplink TBF: `struct gprs_rlcmac_ul_tbf`, `gprs_rlcmac_tbf_ul_fsm_ctx`,
`gprs_rlcmac_tbf_ul_ass_fsm_ctx` and the timers.  `T`/`pending` are those of the state machine of the TBF;
`t3168` is the only timer of the assignment machine. -/
structure UlTbf where
  st : UlSt
  T : Nat
  pending : Bool
  /-- `pkt_acc_proc_attempts` -/
  accAttempts : Nat
  hasTbfEst : Bool
  ackFn : Nat
  ackTn : Nat
  ass : AssSt
  t3168 : Bool
  /-- `ul_ass_fsm.dl_tbf` is set -/
  fromDl : Bool
  assType : AssType
  p1 : UlAlloc
  p2 : UlAlloc
  sba : Bool
  startExists : Bool
  startFn : Nat
  /-- `pkt_res_req_proc_attempts` -/
  resReqAttempts : Nat
  /-- `cur_alloc` -/
  cur : UlAlloc
  n3104 : Nat
  t3180 : Bool
  deriving DecidableEq, Repr

/-- A new TBF: `gprs_rlcmac_ul_tbf_alloc`, /repo/src/rlcmac/tbf_ul.c:33-72 (zeroed memory, machines in their first
states without `onenter`). -/
def UlTbf.fresh : UlTbf :=
  ⟨.new, 0, false, 0, false, 0, 0, .idle, false, false, .onePhase, .zero, .zero, false, false, 0, 0, .zero, 0, false⟩

/-- What the mobile station sends (or reserves). -/
inductive UlOut where
  /-- L1CTL-RACH.req -/
  | rach
  /-- PACKET RESOURCE REQUEST -/
  | resReq
  /-- PACKET CONTROL ACKNOWLEDGEMENT created by the assignment machine -/
  | ctrlAck
  /-- an uplink RLC data block -/
  | data
  /-- PACKET UPLINK DUMMY CONTROL BLOCK -/
  | dummy
  /-- an uplink block reserved for the answer to a poll -/
  | poll (fn tn : Nat)
  deriving DecidableEq, Repr

/-- What is left of the TBF (`none`: freed) and what was sent, in order. -/
abbrev UlR := Res (Option UlTbf × List UlOut)

/-- What the TBF depends on: `gsm_rfn2fn` of libosmocore (any function; it aborts for 42432 and more, see C64), and
the `BS_CV_MAX` broadcast by the cell, 15 without it. -/
structure UlEnv where
  rfn2fn : Nat → Nat → Nat
  bsCvMax : Nat

/-- `gprs_rlcmac_ul_tbf_n3104_max`, /repo/src/rlcmac/tbf_ul.c:183-199. -/
def UlTbf.n3104Max (env : UlEnv) (t : UlTbf) : Nat :=
  3 * ((if env.bsCvMax = 0 then 1 else env.bsCvMax) + 3) * t.cur.numTs

/-- `gprs_rlcmac_ul_tbf_in_contention_resolution`, /repo/src/rlcmac/tbf_ul.c:157-181. -/
def UlTbf.inContention (t : UlTbf) : Bool :=
  match t.st with
  | .new | .waitAssign => true
  | .flow | .finished =>
    match t.assType with
    | .twoPhase => false
    | .onePhase => t.n3104 == 0 || (t.pending && (t.T == 3164 || t.T == 3166))
  | .releasing => false

/-- `out_state_mask` of the TBF machine, /repo/src/rlcmac/tbf_ul_fsm.c:318-366. -/
def UlSt.out : UlSt → List UlSt
  | .new => [.waitAssign, .flow]
  | .waitAssign => [.flow]
  | .flow => [.new, .finished]
  | .finished => [.new, .releasing]
  | .releasing => []

/-- `tbf_ul_fsm_state_chg`, /repo/src/rlcmac/tbf_ul_fsm.c:49-65, without `onenter`: only FLOW has a timer (T3164) and
FINISHED keeps the running one. -/
def UlTbf.chg (t : UlTbf) (s : UlSt) : UlTbf :=
  if s ∈ t.st.out then
    match s with
    | .flow => { t with st := .flow, T := 3164, pending := true }
    | .finished => { t with st := .finished, T := if t.pending then t.T else 0 }
    | s => { t with st := s, T := 0, pending := false }
  else t

/-- State change to NEW with `st_new_on_enter`, /repo/src/rlcmac/tbf_ul_fsm.c:140-154. -/
def UlTbf.enterNew (t : UlTbf) : UlTbf :=
  if UlSt.new ∈ t.st.out then { t.chg .new with cur := .zero, n3104 := 0 } else t

/-- Event UL_ASS_START, /repo/src/rlcmac/tbf_ul_fsm.c:156-166 and 318-321. -/
def UlTbf.evAssStart (t : UlTbf) : UlTbf :=
  match t.st with
  | .new => t.chg .waitAssign
  | _ => t

/-- Event UL_ASS_COMPL, /repo/src/rlcmac/tbf_ul_fsm.c:168-176. -/
def UlTbf.evAssCompl (t : UlTbf) : UlTbf :=
  match t.st with
  | .waitAssign => t.chg .flow
  | _ => t

/-- `out_state_mask` of the assignment machine, /repo/src/rlcmac/tbf_ul_ass_fsm.c:520-594; `none` is COMPL. -/
def AssSt.out : AssSt → List (Option AssSt)
  | .idle => [some .waitImmAss, some .schedResReq, some .waitUlAss]
  | .waitImmAss => [some .waitStart1, some .schedResReq, none]
  | .waitStart1 => [some .waitStart1, some .schedResReq, none]
  | .schedResReq => [some .waitUlAss]
  | .waitUlAss => [some .schedResReq, some .waitStart2, none]
  | .waitStart2 => [some .schedResReq, some .waitStart2, none]

/-- `tbf_ul_ass_fsm_state_chg`, /repo/src/rlcmac/tbf_ul_ass_fsm.c:54-71: only WAIT_PKT_UL_ASS has a timer.  The
`onenter` of the waiting states tells the lower layer the allocation (not modelled). -/
def UlTbf.assChg (t : UlTbf) (s : AssSt) : UlTbf :=
  if some s ∈ t.ass.out then { t with ass := s, t3168 := decide (s = .waitUlAss) } else t

/-- State change to COMPL with `st_compl_on_enter` and then `st_idle_on_enter`,
/repo/src/rlcmac/tbf_ul_ass_fsm.c:505-518 and 265-276. -/
def UlTbf.complete (t : UlTbf) : UlTbf :=
  if none ∈ t.ass.out then
    let t := { t with cur := match t.assType with | .onePhase => t.p1 | .twoPhase => t.p2 }
    let t := t.evAssCompl
    { t with ass := .idle, t3168 := false, fromDl := false, p1 := .zero, p2 := .zero, sba := false,
             startExists := false, startFn := 0 }
  else t

/-- Event START, /repo/src/rlcmac/tbf_ul_ass_fsm.c:283-293, with the access type in use everywhere (one phase).
`rachOk`: the lower layer takes the random access request.  `none`: the TBF was freed (UL_ASS_REJ). -/
def UlTbf.assStart (t : UlTbf) (rachOk : Bool) : Option (Option UlTbf × List UlOut) :=
  match t.ass with
  | .idle =>
    let t := { t.evAssStart with assType := .onePhase }
    if rachOk then some (some (t.assChg .waitImmAss), [.rach])
    else
      match t.st with
      | .waitAssign => some (none, [])
      | _ => some (some t, [])
  | _ => none

/-- `reinit_pkt_acces_procedure`, /repo/src/rlcmac/tbf_ul_fsm.c:84-95. -/
def UlTbf.reinit (t : UlTbf) (rachOk : Bool) : Option UlTbf × List UlOut :=
  match t.enterNew.assStart rachOk with
  | some r => r
  | none => (none, [])

/-- A TBF starting time: absolute (`T1'`, `T3`, `T2`) or relative (`k`). -/
inductive StartTime where
  | abs (t1p t3 t2 : Nat)
  | rel (k : Nat)
  deriving DecidableEq, Repr

/-- `TBF_StartingTime_to_fn` and `TBF_Starting_Frame_Number_to_fn`, /repo/src/rlcmac/rlcmac_dec.c:432-476. -/
def StartTime.toFn (env : UlEnv) (cur : Nat) : StartTime → Res Nat
  | .abs t1p t3 t2 =>
    if startingTimeRfn t1p t3 t2 < 42432 then .ok (env.rfn2fn (startingTimeRfn t1p t3 t2) cur) else .ub .assertFail
  | .rel k => kToFn k cur

/-- The same for an optional starting time: the frame number, if there is one. -/
def startFn? (env : UlEnv) (cur : Nat) : Option StartTime → Res (Option Nat)
  | none => .ok none
  | some s =>
    match s.toFn env cur with
    | .ok fn => .ok (some fn)
    | .err e => .err e
    | .ub f => .ub f

/-- The immediate assignments passed to the machine, /repo/src/rlcmac/rlcmac.c:330-366. -/
inductive ImmAss where
  | egprs
  | single (start : StartTime)
  | dynamic (tfi usf : Nat) (start : Option StartTime)
  | fixed (tfi : Nat) (start : Option StartTime)
  deriving DecidableEq, Repr

/-- The reset at the beginning of `handle_imm_ass`, /repo/src/rlcmac/tbf_ul_ass_fsm.c:131-135. -/
def UlTbf.resetP1 (t : UlTbf) : UlTbf :=
  { t with p1 := .zero, sba := false, startExists := false, startFn := 0 }

/-- `handle_imm_ass`, /repo/src/rlcmac/tbf_ul_ass_fsm.c:129-195; the flag: 0 returned. -/
def UlTbf.handleImmAss (env : UlEnv) (t : UlTbf) (fn tn : Nat) : ImmAss → Res (UlTbf × Bool)
  | .egprs => .ok (t.resetP1, false)
  | .single s =>
    match s.toFn env fn with
    | .ok sfn =>
      .ok ({ t.resetP1 with assType := .twoPhase, sba := true, startExists := true, startFn := sfn,
                            p1 := ⟨0, 1, oneTs tn 0⟩ }, true)
    | .err e => .err e
    | .ub f => .ub f
  | .dynamic tfi usf s =>
    match startFn? env fn s with
    | .ok sfn =>
      .ok ({ t.resetP1 with startExists := sfn.isSome, startFn := sfn.getD 0, p1 := ⟨tfi, 1, oneTs tn usf⟩ }, true)
    | .err e => .err e
    | .ub f => .ub f
  | .fixed tfi s =>
    match startFn? env fn s with
    | .ok sfn =>
      .ok ({ t.resetP1 with startExists := sfn.isSome, startFn := sfn.getD 0, p1 := { UlAlloc.zero with tfi := tfi } },
           false)
    | .err e => .err e
    | .ub f => .ub f

/-- Leaving the first phase, /repo/src/rlcmac/tbf_ul_ass_fsm.c:323-326 and 361-364. -/
def UlTbf.endPhase1 (t : UlTbf) : UlTbf :=
  match t.assType with
  | .onePhase => t.complete
  | .twoPhase => t.assChg .schedResReq

/-- An immediate assignment, /repo/src/rlcmac/rlcmac.c:207-231 (only a TBF that waits for one gets it) and
/repo/src/rlcmac/tbf_ul_ass_fsm.c:310-329. -/
def UlTbf.rxImmAss (env : UlEnv) (t : UlTbf) (m : ImmAss) (fn tn : Nat) : UlR :=
  match t.ass with
  | .waitImmAss =>
    match t.handleImmAss env fn tn m with
    | .ok (t, true) =>
      if t.startExists ∧ fncmp t.startFn fn > 0 then .ok (some (t.assChg .waitStart1), [])
      else .ok (some t.endPhase1, [])
    | .ok (t, false) => .ok (some t, [])
    | .err e => .err e
    | .ub f => .ub f
  | _ => .ok (some t, [])

/-- PACKET UPLINK ASSIGNMENT messages, as far as `handle_pkt_ul_ass` tells them apart. -/
inductive PktUlAss where
  /-- dynamic allocation: optional TFI, starting time, and for each timeslot the USF if it is assigned -/
  | dynamic (tfi : Option Nat) (start : Option StartTime) (ts : List (Option Nat))
  /-- single block or fixed allocation: not supported -/
  | otherGprs
  /-- EGPRS: not supported -/
  | egprs
  deriving DecidableEq, Repr

/-- The reset at the beginning of `handle_pkt_ul_ass`, /repo/src/rlcmac/tbf_ul_ass_fsm.c:205-209. -/
def UlTbf.resetP2 (t : UlTbf) : UlTbf :=
  { t with p2 := .zero, sba := false, startExists := false, startFn := 0 }

/-- `handle_pkt_ul_ass`, /repo/src/rlcmac/tbf_ul_ass_fsm.c:197-263; its return value is only logged. -/
def UlTbf.handlePktUlAss (env : UlEnv) (t : UlTbf) (fn : Nat) : PktUlAss → Res UlTbf
  | .dynamic tfi s ts =>
    match startFn? env fn s with
    | .ok sfn =>
      .ok { t.resetP2 with startExists := sfn.isSome, startFn := sfn.getD 0,
                           p2 := ⟨tfi.getD 0, (ts.take 8).countP Option.isSome, ts.take 8⟩ }
    | .err e => .err e
    | .ub f => .ub f
  | .otherGprs => .ok t.resetP2
  | .egprs => .ok t.resetP2

/-- `fn_next_block`, /repo/include/osmocom/gprs/rlcmac/sched.h:23-34. -/
def fnNextBlock (fn : Nat) : Nat :=
  (fn - fn % 52 + ((fn % 52 / 4 + 1) * 4 + (fn % 52 / 4 + 1) / 3)) % hyperframe

/-- The delay because of a poll, /repo/src/rlcmac/tbf_ul_ass_fsm.c:396-406 and 470-480. -/
def UlTbf.delayStart (t : UlTbf) (nextBlk : Nat) : UlTbf :=
  if !t.startExists || decide (fncmp t.startFn nextBlk < 0) then { t with startExists := true, startFn := nextBlk }
  else t

/-- The end of the handlers, /repo/src/rlcmac/tbf_ul_ass_fsm.c:409-414 and 482-487. -/
def UlTbf.endUlAss (t : UlTbf) (fn : Nat) : UlTbf :=
  if t.startExists ∧ fncmp t.startFn fn > 0 then t.assChg .waitStart2 else t.complete

/-- The common body of /repo/src/rlcmac/tbf_ul_ass_fsm.c:383-414 and 445-487.  `poll`: the RRBP field if it is valid
(`SP`). -/
def UlTbf.doPktUlAss (env : UlEnv) (t : UlTbf) (m : PktUlAss) (poll : Option Nat) (fn tn : Nat) : UlR :=
  match t.handlePktUlAss env fn m with
  | .ok t =>
    match poll with
    | none => .ok (some (t.endUlAss fn), [])
    | some rrbp =>
      match rrbp2fn fn rrbp with
      | .ok pfn => .ok (some ((t.delayStart (fnNextBlock (fnNextBlock pfn))).endUlAss fn), [.poll pfn tn])
      | .err e => .err e
      | .ub f => .ub f
  | .err e => .err e
  | .ub f => .ub f

/-- A PACKET UPLINK ASSIGNMENT for this TBF, /repo/src/rlcmac/tbf_ul.c:353-365. -/
def UlTbf.rxPktUlAss (env : UlEnv) (t : UlTbf) (m : PktUlAss) (poll : Option Nat) (fn tn : Nat) : UlR :=
  match t.ass with
  | .waitUlAss | .waitStart2 => t.doPktUlAss env m poll fn tn
  | _ => .ok (some t, [])

/-- `gprs_rlcmac_tbf_ul_ass_fn_tick`, /repo/src/rlcmac/tbf_ul_ass_fsm.c:730-761, as called by `rts_tick`,
/repo/src/rlcmac/sched.c:270-281 (only while waiting for the starting time); with the handlers of the event. -/
def UlTbf.tick (t : UlTbf) (fn tn : Nat) : UlR :=
  match t.ass with
  | .waitStart1 =>
    if !t.startExists then .ub .assertFail
    else if t.p1.numTs = 0 then .ub .assertFail
    else if t.p1.usf tn = none ∨ fncmp fn t.startFn < 0 then .ok (some t, [])
    else .ok (some t.endPhase1, [])
  | .waitStart2 =>
    if !t.startExists then .ub .assertFail
    else if t.p2.numTs = 0 then .ub .assertFail
    else if t.p2.usf tn = none ∨ fncmp fn t.startFn < 0 then .ok (some t, [])
    else .ok (some t.complete, [])
  | _ => .ok (some t, [])

/-- `gprs_rlcmac_tbf_ul_ass_rts`, /repo/src/rlcmac/tbf_ul_ass_fsm.c:769-784. -/
def UlTbf.assRts (t : UlTbf) (fn tn usf : Nat) : Bool :=
  match t.ass with
  | .schedResReq =>
    match t.p1.usf tn with
    | none => false
    | some u => if t.sba then !t.startExists || t.startFn == fn else u == usf
  | _ => false

/-- `gprs_rlcmac_tbf_ul_ass_create_rlcmac_msg`, /repo/src/rlcmac/tbf_ul_ass_fsm.c:786-802, and the handlers of the
event, 366-381 and 491-498.  `encOk`: the message could be encoded. -/
def UlTbf.createMsg (t : UlTbf) (encOk : Bool) : UlTbf × List UlOut :=
  match t.ass with
  | .schedResReq => if encOk then (t.assChg .waitUlAss, [.resReq]) else (t, [])
  | .waitStart2 => if encOk then (t, [.ctrlAck]) else (t, [])
  | _ => (t, [])

/-- `gprs_rlcmac_ul_tbf_dummy_rts`, /repo/src/rlcmac/tbf_ul.c:232-239. -/
def UlTbf.dummyRts (t : UlTbf) (tn usf : Nat) : Bool := t.cur.usf tn == some usf

/-- `gprs_rlcmac_ul_tbf_data_rts`, /repo/src/rlcmac/tbf_ul.c:243-253. -/
def UlTbf.dataRts (t : UlTbf) (tn usf : Nat) : Bool :=
  t.dummyRts tn usf && (t.st == .flow || t.st == .finished)

/-- Event FIRST_UL_DATA_SENT, /repo/src/rlcmac/tbf_ul_fsm.c:190-201; only FLOW takes it. -/
def UlTbf.evFirst (t : UlTbf) : Res UlTbf :=
  match t.st with
  | .flow =>
    if t.T = 3164 then
      match t.assType with
      | .onePhase => .ok { t with T := 3166, pending := true }
      | .twoPhase => .ok { t with pending := false }
    else .ub .assertFail
  | _ => .ok t

/-- `arm_T3182_if_needed`, /repo/src/rlcmac/tbf_ul_fsm.c:103-122. -/
def UlTbf.armT3182 (t : UlTbf) : Res UlTbf :=
  if t.inContention then
    if t.T = 3166 ∧ t.pending then .ok t else .ub .assertFail
  else if t.pending then
    if t.T = 3182 then .ok t else .ub .assertFail
  else .ok { t with T := 3182, pending := true }

/-- Event LAST_UL_DATA_SENT, /repo/src/rlcmac/tbf_ul_fsm.c:228-231 and 281-299. -/
def UlTbf.evLast (t : UlTbf) : Res UlTbf :=
  match t.st with
  | .flow =>
    match t.armT3182 with
    | .ok t => .ok (t.chg .finished)
    | .err e => .err e
    | .ub f => .ub f
  | .finished => t.armT3182
  | _ => .ok t

/-- The first event of `create_ul_acked_block`, /repo/src/rlcmac/tbf_ul.c:1183-1184. -/
def UlTbf.firstIf (t : UlTbf) : Res UlTbf := if t.n3104 = 0 then t.evFirst else .ok t

/-- The second one, /repo/src/rlcmac/tbf_ul.c:1185-1186. -/
def UlTbf.lastIf (t : UlTbf) (final : Bool) : Res UlTbf := if final then t.evLast else .ok t

/-- `n3104++` on an `unsigned int`, /repo/src/rlcmac/tbf_ul.c:1191. -/
def UlTbf.countBlock (t : UlTbf) : UlTbf := { t with n3104 := (t.n3104 + 1) % 4294967296 }

/-- The rest of `create_ul_acked_block` and of `gprs_rlcmac_ul_tbf_data_create`, /repo/src/rlcmac/tbf_ul.c:1191-1224:
N3104, then T3180 is started — of the freed TBF if the renewed access was refused by the lower layer. -/
def UlTbf.afterBlock (env : UlEnv) (t : UlTbf) (rachOk : Bool) : UlR :=
  if t.countBlock.inContention ∧ t.countBlock.n3104 ≥ t.countBlock.n3104Max env then
    match t.countBlock.reinit rachOk with
    | (some t', outs) => .ok (some { t' with t3180 := true }, .data :: outs)
    | (none, _) => .ub .useAfterFree
  else .ok (some { t.countBlock with t3180 := true }, [.data])

/-- `gprs_rlcmac_ul_tbf_data_create` with a block at hand, /repo/src/rlcmac/tbf_ul.c:1183-1224.  `final`: its CV is 0. -/
def UlTbf.sendData (env : UlEnv) (t : UlTbf) (final rachOk : Bool) : UlR :=
  match t.firstIf with
  | .ok t =>
    match t.lastIf final with
    | .ok t => t.afterBlock env rachOk
    | .err e => .err e
    | .ub f => .ub f
  | .err e => .err e
  | .ub f => .ub f

/-- `_contention_resolution_succeeded`, /repo/src/rlcmac/tbf_ul_fsm.c:124-136. -/
def UlTbf.contentionOk (t : UlTbf) : Res UlTbf :=
  if t.assType = .onePhase ∧ t.T = 3166 then .ok { t with T := 0, pending := false } else .ub .assertFail

/-- The beginning of the ACK handlers, /repo/src/rlcmac/tbf_ul_fsm.c:206-208 and 254-264. -/
def UlTbf.ackTimers (t : UlTbf) : Res UlTbf :=
  if t.inContention then t.contentionOk
  else if t.st = .finished ∧ t.T = 3182 ∧ t.pending then .ok { t with T := 0, pending := false }
  else .ok t

/-- The frame number of the reserved answer, if any. -/
def pollFn? (fn : Nat) : Option Nat → Res (Option Nat)
  | none => .ok none
  | some rrbp =>
    match rrbp2fn fn rrbp with
    | .ok p => .ok (some p)
    | .err e => .err e
    | .ub f => .ub f

/-- The end of the ACK handler in FINISHED, /repo/src/rlcmac/tbf_ul_fsm.c:272-279 (0xffffffff: no poll). -/
def UlTbf.finalAck (t : UlTbf) (final tbfEst : Bool) (pfn : Option Nat) (tn : Nat) : UlTbf :=
  if t.st = .finished ∧ final then
    { t with hasTbfEst := tbfEst, ackFn := pfn.getD 4294967295, ackTn := tn }.chg .releasing
  else t

/-- Event RX_UL_ACK_NACK, /repo/src/rlcmac/tbf_ul_fsm.c:205-227 and 244-280; FLOW and FINISHED take it. -/
def UlTbf.rxAck (t : UlTbf) (final : Bool) (poll : Option Nat) (tbfEst : Bool) (fn tn : Nat) : UlR :=
  if t.st = .flow ∨ t.st = .finished then
    match t.ackTimers with
    | .ok t =>
      match pollFn? fn poll with
      | .ok pfn => .ok (some (t.finalAck final tbfEst pfn tn), pfn.toList.map fun p => .poll p tn)
      | .err e => .err e
      | .ub f => .ub f
    | .err e => .err e
    | .ub f => .ub f
  else .ok (some t, [])

/-- The lower layer confirms a sent block: `gprs_rlcmac_ul_tbf_waiting_pkt_ctrl_ack_tx_confirmation`,
/repo/src/rlcmac/tbf_ul_fsm.c:460-470, and event TX_COMPL_PKT_CTRL_ACK, 305-315. -/
def UlTbf.txConf (t : UlTbf) (fn tn : Nat) : UlR :=
  if t.st = .releasing ∧ t.ackFn = fn ∧ t.ackTn = tn then .ok (none, []) else .ok (some t, [])

/-- `tbf_ul_fsm_timer_cb` for T3164 and T3166, /repo/src/rlcmac/tbf_ul_fsm.c:373-404, after the assertion. -/
def UlTbf.accessFailed (t : UlTbf) (rachOk : Bool) : Option UlTbf × List UlOut :=
  if t.accAttempts + 1 = 4 then (none, [])
  else { t with pending := false, accAttempts := t.accAttempts + 1 }.reinit rachOk

/-- `tbf_ul_fsm_timer_cb`, /repo/src/rlcmac/tbf_ul_fsm.c:369-411.  A timer that is not running cannot run out. -/
def UlTbf.timeout (t : UlTbf) (rachOk : Bool) : UlR :=
  if !t.pending then .ok (some t, [])
  else if t.T = 3164 then if t.st = .flow then .ok (t.accessFailed rachOk) else .ub .assertFail
  else if t.T = 3166 then
    if t.st = .flow ∨ t.st = .finished then .ok (t.accessFailed rachOk) else .ub .assertFail
  else if t.T = 3182 then .ok (none, [])
  else .ub .assertFail

/-- `tbf_ul_ass_fsm_timer_cb`, /repo/src/rlcmac/tbf_ul_ass_fsm.c:597-633 (T3168). -/
def UlTbf.assTimeout (t : UlTbf) : UlR :=
  if !t.t3168 then .ok (some t, [])
  else if t.fromDl then .ok (none, [])
  else if t.ass ≠ .waitUlAss then .ub .assertFail
  else if t.resReqAttempts + 1 = 4 then .ok (none, [])
  else .ok (some ({ t with t3168 := false, resReqAttempts := t.resReqAttempts + 1 }.assChg .schedResReq), [])

/-- What can happen to an uplink TBF after its start. -/
inductive TbfEv where
  /-- IMMEDIATE ASSIGNMENT on the CCCH -/
  | immAss (m : ImmAss) (fn tn : Nat)
  /-- PACKET UPLINK ASSIGNMENT; `poll`: RRBP if valid -/
  | pktUlAss (m : PktUlAss) (poll : Option Nat) (fn tn : Nat)
  /-- the scheduler is asked for a block -/
  | tick (fn tn : Nat)
  /-- the scheduler picks this TBF for its PACKET RESOURCE REQUEST (if it has one to send in this block) -/
  | sendResReq (fn tn usf : Nat) (encOk : Bool)
  /-- the scheduler answers a poll reserved for the assignment -/
  | pollAss (encOk : Bool)
  /-- the scheduler picks this TBF for a data block (if it may send one) and there is one -/
  | sendData (tn usf : Nat) (final rachOk : Bool)
  /-- the scheduler picks this TBF for a dummy block (if it may send one) -/
  | sendDummy (tn usf : Nat)
  /-- PACKET UPLINK ACK/NACK -/
  | ack (final : Bool) (poll : Option Nat) (tbfEst : Bool) (fn tn : Nat)
  /-- the lower layer confirms the transmission of a block -/
  | txConf (fn tn : Nat)
  /-- T3164, T3166 or T3182 runs out -/
  | timeout (rachOk : Bool)
  /-- T3168 runs out -/
  | t3168
  /-- T3180 runs out -/
  | t3180
  deriving DecidableEq, Repr

/-- One event.  The gates of the scheduler, /repo/src/rlcmac/sched.c:66-153, are part of the events. -/
def UlTbf.step (env : UlEnv) (t : UlTbf) : TbfEv → UlR
  | .immAss m fn tn => t.rxImmAss env m fn tn
  | .pktUlAss m poll fn tn => t.rxPktUlAss env m poll fn tn
  | .tick fn tn => t.tick fn tn
  | .sendResReq fn tn usf encOk =>
    if t.assRts fn tn usf then .ok (some (t.createMsg encOk).1, (t.createMsg encOk).2) else .ok (some t, [])
  | .pollAss encOk => .ok (some (t.createMsg encOk).1, (t.createMsg encOk).2)
  | .sendData tn usf final rachOk => if t.dataRts tn usf then t.sendData env final rachOk else .ok (some t, [])
  -- /repo/src/rlcmac/tbf_ul.c:367-412: sends a block and starts T3180
  | .sendDummy tn usf => if t.dummyRts tn usf then .ok (some { t with t3180 := true }, [.dummy]) else .ok (some t, [])
  | .ack final poll tbfEst fn tn => t.rxAck final poll tbfEst fn tn
  | .txConf fn tn => t.txConf fn tn
  | .timeout rachOk => t.timeout rachOk
  | .t3168 => t.assTimeout
  -- /repo/src/rlcmac/tbf_ul.c:111-118
  | .t3180 => if t.t3180 then .ok (none, []) else .ok (some t, [])

/-- How an uplink TBF comes to be. -/
inductive UlStart where
  /-- random access, /repo/src/rlcmac/gre.c:200-238 -/
  | access (rachOk : Bool)
  /-- from a TBF that is being released, /repo/src/rlcmac/tbf_ul_ass_fsm.c:675-686; its allocation -/
  | fromReleasing (old : UlAlloc)
  /-- requested in a PACKET DOWNLINK ACK/NACK, /repo/src/rlcmac/tbf_ul_ass_fsm.c:690-707 -/
  | fromDl (tn : Nat)
  deriving DecidableEq, Repr

/-- The TBF after its start, /repo/src/rlcmac/tbf_ul_ass_fsm.c:278-308. -/
def UlStart.run : UlStart → Option UlTbf × List UlOut
  | .access rachOk => (UlTbf.fresh.assStart rachOk).getD (none, [])
  | .fromReleasing old =>
    (some ({ UlTbf.fresh.evAssStart with p1 := old, assType := .twoPhase }.assChg .schedResReq), [])
  | .fromDl tn =>
    (some ({ UlTbf.fresh.evAssStart with fromDl := true, p1 := ⟨0, 1, oneTs tn 255⟩,
                                         assType := .twoPhase }.assChg .waitUlAss), [])

/-- A sequence of events; a freed TBF gets no more events. -/
def runUl (env : UlEnv) : Option UlTbf × List UlOut → List TbfEv → UlR
  | s, [] => .ok s
  | (none, outs), _ :: _ => .ok (none, outs)
  | (some t, outs), e :: es =>
    match t.step env e with
    | .ok (t', o) => runUl env (t', outs ++ o) es
    | .err e => .err e
    | .ub f => .ub f

end Verif.Rlc
