import Verif.Rlc.UlTbf
import Verif.Rlc.Directory

/-!
# The RLC/MAC context of a mobile station and its scheduler

Model of /repo/src/rlcmac/sched.c, gre.c, tbf_dl_ass_fsm.c, tbf_dl_fsm.c and of the parts of tbf_dl.c, tbf.c,
rlcmac.c and rlcmac_prim.c that tie the entities, their TBFs, the reserved polls and the lower layer together.

* TBFs have a serial number (the code has their addresses); the uplink TBF itself is `UlTbf`.
* The reservations of a timeslot are a list, looked up by frame number; C32 shows that the trees of the code do the
  same as long as the frame numbers in use lie within a quarter of a hyperframe.
* Received messages come decoded (the decoder is modelled in `Csn1`, the messages of the CCCH in `Rlc/Ccch`); the
  window and the contents of the blocks are modelled in `Rlc/WindowUl`, `Rlc/WindowDl`, `Rlc/TbfDl`.
* What the modelled part cannot know is a parameter of the event (`Avail`).
* Not modelled: the log, failing allocations of memory, return values, the duration of the timers.
-/
namespace Verif.Rlc
open Verif

/-- `struct gprs_rlcmac_dl_tbf_allocation`, /repo/include/osmocom/gprs/rlcmac/rlcmac_private.h:35-43. -/
structure DlAlloc where
  tfi : Nat
  numTs : Nat
  ts : List Bool
  deriving DecidableEq, Repr

/-- The zeroed allocation. -/
def DlAlloc.zero : DlAlloc := ⟨0, 0, List.replicate 8 false⟩

/-- `enum gprs_rlcmac_tbf_dl_fsm_states`, /repo/include/osmocom/gprs/rlcmac/tbf_dl_fsm.h; NEW is left as soon as the
TBF is made (/repo/src/rlcmac/tbf_dl_ass_fsm.c:236-237). -/
inductive DlSt where
  | flow | finished
  deriving DecidableEq, Repr

/-- `struct gprs_rlcmac_dl_tbf`: serial number, state, allocation, and which timers run. -/
structure DlLink where
  id : Nat
  st : DlSt
  alloc : DlAlloc
  t3190 : Bool
  t3192 : Bool
  deriving DecidableEq, Repr

/-- `struct gprs_rlcmac_tbf_dl_ass_fsm_ctx`, /repo/include/osmocom/gprs/rlcmac/tbf_dl_ass_fsm.h: whether it waits for
the starting time, the starting time, the timeslot it waits on (`ts_nr`), the allocation. -/
structure DlAss where
  waiting : Bool
  startExists : Bool
  startFn : Nat
  tsNr : Nat
  alloc : DlAlloc
  deriving DecidableEq, Repr

/-- Zeroed, or after `st_idle_on_enter`, /repo/src/rlcmac/tbf_dl_ass_fsm.c:119-128. -/
def DlAss.idle : DlAss := ⟨false, false, 0, 0, .zero⟩

/-- `struct gprs_rlcmac_entity`, /repo/include/osmocom/gprs/rlcmac/gre.h:21-60. -/
structure Gre where
  names : GreNames
  /-- `ul_tbf`, with its serial number -/
  ul : Option (Nat × UlTbf)
  /-- `dl_tbf` -/
  dl : Option DlLink
  /-- `dl_tbf_dl_ass_fsm` -/
  ass : DlAss
  /-- `defer_pkt_idle_timer` runs -/
  idle : Bool
  deriving DecidableEq, Repr

/-- Serial number of an entity. -/
abbrev Gre.n (g : Gre) : Nat := g.names.serial

/-- `g_rlcmac_ctx`: entities made so far, TBFs made so far, `gre_list`, `sched.ulc`. -/
structure Ctx where
  made : Nat
  tbfs : Nat
  es : List Gre
  polls : List (List PollNode)
  deriving DecidableEq, Repr

/-- `osmo_gprs_rlcmac_init`, /repo/src/rlcmac/rlcmac.c:68-118. -/
def Ctx.init : Ctx := ⟨0, 0, [], List.replicate 8 []⟩

/-- Uplink messages that are encoded when they are sent. -/
inductive MsgKind where
  | ctrlAck | resReq | dlAck | dummy
  deriving DecidableEq, Repr

/-- What the modelled part does not know: for each entity whether LL-PDUs are queued (`Rlc/LlcQueue`) and which block
its uplink TBF would send next (`none`: no block; else: its CV is 0); whether the lower layer takes random access
requests; whether the encoder succeeds. -/
structure Avail where
  queued : Nat → Bool
  block : Nat → Option Bool
  rachOk : Bool
  enc : MsgKind → Bool

/-- Blocks of an entity. -/
inductive UlBlk where
  | ctrlAck
  | resReq
  /-- PACKET DOWNLINK ACK/NACK: for a finished TBF; with a channel request -/
  | dlAck (final chanReq : Bool)
  | data
  | dummy
  deriving DecidableEq, Repr

/-- What is asked of the lower layer. -/
inductive CtxOut where
  /-- L1CTL-PDCH_DATA.req: timeslot, frame number, the entity and its block -/
  | block (ts fn n : Nat) (b : UlBlk)
  /-- L1CTL-RACH.req of an entity -/
  | rach (n : Nat)
  /-- L1CTL-CFG_DL_TBF.req of an entity -/
  | cfgDl (n : Nat) (a : DlAlloc)
  /-- L1CTL-PDCH_REL.req -/
  | pdchRel
  deriving DecidableEq, Repr

/-- The result of an event. -/
abbrev CtxR := Res (Ctx × List CtxOut)

/-- Entity with this serial number. -/
def Ctx.gre? (s : Ctx) (n : Nat) : Option Gre := s.es.find? fun g => g.n == n

/-- Change the entity with this serial number. -/
def Ctx.setGre (s : Ctx) (n : Nat) (f : Gre → Gre) : Ctx :=
  { s with es := s.es.map fun g => if g.n = n then f g else g }

/-- `gprs_rlcmac_tbf_destructor`, /repo/src/rlcmac/tbf.c:36-41 with `gprs_rlcmac_pdch_ulc_release_tbf` (C32). -/
def dropTbf (id : Nat) (p : List (List PollNode)) : List (List PollNode) :=
  p.map fun l => l.filter fun x => decide (x.owner ≠ .tbf id)

/-- `gprs_rlcmac_entity_ul_tbf_freed`, /repo/src/rlcmac/gre.c:136-169: the TBF of that number is gone. -/
def Gre.ulFreed (g : Gre) (id : Nat) : Gre :=
  match g.ul with
  | some (i, _) => if i = id then { g with ul := none, idle := g.idle || g.dl.isNone } else g
  | none => g

/-- `gprs_rlcmac_ul_tbf_free`, /repo/src/rlcmac/tbf_ul.c:76-109. -/
def Ctx.freeUl (s : Ctx) (n id : Nat) : Ctx :=
  { s.setGre n (·.ulFreed id) with polls := dropTbf id s.polls }

/-- `gprs_rlcmac_entity_dl_tbf_freed`, /repo/src/rlcmac/gre.c:99-132. -/
def Gre.dlFreed (g : Gre) (id : Nat) : Gre :=
  match g.dl with
  | some d => if d.id = id then { g with dl := none, idle := g.idle || g.ul.isNone } else g
  | none => g

/-- `gprs_rlcmac_dl_tbf_free`, /repo/src/rlcmac/tbf_dl.c:67-96. -/
def Ctx.freeDl (s : Ctx) (n id : Nat) : Ctx :=
  { s.setGre n (·.dlFreed id) with polls := dropTbf id s.polls }

/-- The uplink TBF after an event: changed or freed. -/
def Ctx.putUl (s : Ctx) (n id : Nat) : Option UlTbf → Ctx
  | some t => s.setGre n fun g => { g with ul := some (id, t) }
  | none => s.freeUl n id

/-- `gprs_rlcmac_pdch_ulc_reserve`, /repo/src/rlcmac/pdch_ul_controller.c:126-137, on `sched.ulc[ts]`; a frame number
already reserved is refused. -/
def Ctx.reserve (s : Ctx) (ts fn : Nat) (r : PollReason) (o : PollOwner) : Res Ctx :=
  match s.polls[ts]? with
  | none => .ub .outOfBounds
  | some l =>
    if l.any (fun x => x.fn == fn) then .ok s
    else .ok { s with polls := s.polls.set ts (l ++ [⟨fn, r, o⟩]) }

/-- The reservations among what a TBF did. -/
def Ctx.reserveAll (r : PollReason) (o : PollOwner) : Ctx → List UlOut → Res Ctx
  | s, [] => .ok s
  | s, .poll fn tn :: outs =>
    match s.reserve tn fn r o with
    | .ok s => s.reserveAll r o outs
    | .err e => .err e
    | .ub f => .ub f
  | s, _ :: outs => s.reserveAll r o outs

/-- The random access requests among what a TBF did. -/
def rachOuts (n : Nat) (outs : List UlOut) : List CtxOut :=
  outs.filterMap fun o => match o with | .rach => some (.rach n) | _ => none

/-- State change to COMPL of the downlink assignment, `st_compl_on_enter`,
/repo/src/rlcmac/tbf_dl_ass_fsm.c:215-240, with `st_new`, /repo/src/rlcmac/tbf_dl_fsm.c:54-69. -/
def Ctx.complDl (s : Ctx) (g : Gre) : Ctx × List CtxOut :=
  ({ s.setGre g.n fun g => { g with dl := some ⟨s.tbfs, .flow, g.ass.alloc, true, false⟩, ass := .idle } with
     tbfs := s.tbfs + 1
     polls := match g.dl with | some d => dropTbf d.id s.polls | none => s.polls },
   [.cfgDl g.n g.ass.alloc])

/-- The uplink half of `rts_tick` for one entity, /repo/src/rlcmac/sched.c:275-276. -/
def Ctx.tickUl (s : Ctx) (fn ts : Nat) (g : Gre) : Res Ctx :=
  match g.ul with
  | none => .ok s
  | some (id, t) =>
    match t.tick fn ts with
    | .ok (r, _) => .ok (s.putUl g.n id r)
    | .err e => .err e
    | .ub f => .ub f

/-- The downlink half, /repo/src/rlcmac/sched.c:277-278 and `gprs_rlcmac_tbf_start_fn_tick`,
/repo/src/rlcmac/tbf_dl_ass_fsm.c:330-339. -/
def Ctx.tickDl (s : Ctx) (fn ts : Nat) (g : Gre) : Ctx × List CtxOut :=
  if g.ass.waiting && g.ass.startFn == fn && g.ass.tsNr == ts then s.complDl g else (s, [])

/-- `rts_tick`, /repo/src/rlcmac/sched.c:270-281, over the entities with these serial numbers. -/
def Ctx.tickAll (fn ts : Nat) : List Nat → Ctx → CtxR
  | [], s => .ok (s, [])
  | n :: ns, s =>
    match s.gre? n with
    | none => s.tickAll fn ts ns
    | some g =>
      match s.tickUl fn ts g with
      | .ok s1 =>
        match (s1.tickDl fn ts g).1.tickAll fn ts ns with
        | .ok (s2, o2) => .ok (s2, (s1.tickDl fn ts g).2 ++ o2)
        | .err e => .err e
        | .ub f => .ub f
      | .err e => .err e
      | .ub f => .ub f

/-- `struct tbf_sched_ctrl_candidates`, /repo/src/rlcmac/sched.c:36-44: the one that comes from the reserved poll. -/
inductive Cand where
  | dlAckFinal (n id : Nat)
  | newUl (n id : Nat)
  | ulAck (n : Nat)
  | dlAss (n : Nat)
  | pollUlAss (n id : Nat)
  | dlAck (n id : Nat)
  deriving DecidableEq, Repr

/-- The entity whose uplink TBF has this number. -/
def Ctx.ulOwner (s : Ctx) (id : Nat) : Option Gre :=
  s.es.find? fun g => match g.ul with | some (i, _) => i == id | none => false

/-- The entity whose downlink TBF has this number. -/
def Ctx.dlOwner (s : Ctx) (id : Nat) : Option Gre :=
  s.es.find? fun g => match g.dl with | some d => d.id == id | none => false

/-- `gprs_rlcmac_ul_tbf_can_request_new_ul_tbf`, /repo/src/rlcmac/tbf_ul.c:201-228. -/
def Gre.canRequestNew (g : Gre) (o : Avail) : Bool :=
  match g.ul with
  | some (_, t) => t.st == .releasing && t.hasTbfEst && o.queued g.n && g.dl.isNone
  | none => false

/-- The poll part of `get_ctrl_msg_tbf_candidates`, /repo/src/rlcmac/sched.c:75-119.  A node whose TBF or entity is
gone is a read of freed memory. -/
def Ctx.pollCand (s : Ctx) (o : Avail) (x : PollNode) : Res (Option Cand) :=
  match x.reason, x.owner with
  | .ulAss, .tbf id =>
    match s.ulOwner id with
    | some g => .ok (some (.pollUlAss g.n id))
    | none => .ub .useAfterFree
  | .dlAss, .gre n =>
    match s.gre? n with
    | some g => .ok (some (.dlAss g.n))
    | none => .ub .useAfterFree
  | .ulAck, .tbf id =>
    match s.ulOwner id with
    | some g => .ok (some (if g.canRequestNew o then .newUl g.n id else .ulAck g.n))
    | none => .ub .useAfterFree
  | .dlAck, .tbf id =>
    match s.dlOwner id with
    | some g =>
      match g.dl with
      | some d => .ok (some (if d.st = .finished then .dlAckFinal g.n id else .dlAck g.n id))
      | none => .ub .useAfterFree
    | none => .ub .useAfterFree
  | .cellChgContinue, _ => .ok none
  -- never reserved like this
  | _, _ => .ub .useAfterFree

/-- `gprs_rlcmac_pdch_ulc_get_node`, /repo/src/rlcmac/pdch_ul_controller.c:56-74 (C32). -/
def Ctx.node? (s : Ctx) (ts fn : Nat) : Option PollNode := (s.polls.getD ts []).find? fun x => x.fn == fn

/-- `gprs_rlcmac_pdch_ulc_release_node`, /repo/src/rlcmac/pdch_ul_controller.c:139-143. -/
def Ctx.releaseNode (s : Ctx) (ts : Nat) (x : PollNode) : Ctx :=
  { s with polls := s.polls.set ts ((s.polls.getD ts []).erase x) }

/-- `get_ctrl_msg_tbf_candidates`, /repo/src/rlcmac/sched.c:66-121: the candidate of the poll, which is released. -/
def Ctx.takePoll (s : Ctx) (o : Avail) (ts fn : Nat) : Res (Ctx × Option Cand) :=
  match s.node? ts fn with
  | none => .ok (s, none)
  | some x =>
    match s.pollCand o x with
    | .ok c => .ok (s.releaseNode ts x, c)
    | .err e => .err e
    | .ub f => .ub f

/-- Whether an uplink TBF of an entity wants to send its PACKET RESOURCE REQUEST. -/
def Gre.assRts (g : Gre) (fn ts usf : Nat) : Bool :=
  match g.ul with | some (_, t) => t.assRts fn ts usf | none => false

/-- The loop over the entities, /repo/src/rlcmac/sched.c:124-130: the last one wins. -/
def Ctx.ulAssCand (s : Ctx) (fn ts usf : Nat) : Option Gre := s.es.reverse.find? fun g => g.assRts fn ts usf

/-- What the selection of a control message comes to: the entity and its block. -/
abbrev Sel := Res (Ctx × Option (Nat × UlBlk))

/-- The block among what the assignment machine did. -/
def msgOf (n : Nat) : List UlOut → Option (Nat × UlBlk)
  | .resReq :: _ => some (n, .resReq)
  | .ctrlAck :: _ => some (n, .ctrlAck)
  | _ => none

/-- `gprs_rlcmac_tbf_ul_ass_create_rlcmac_msg` for the uplink TBF of the entity, /repo/src/rlcmac/tbf_ul_ass_fsm.c:786-802. -/
def Ctx.ulAssMsg (s : Ctx) (o : Avail) (n : Nat) : Ctx × Option (Nat × UlBlk) :=
  match s.gre? n with
  | none => (s, none)
  | some g =>
    match g.ul with
    | none => (s, none)
    | some (id, t) =>
      let r := t.createMsg (o.enc (if t.ass = .schedResReq then .resReq else .ctrlAck))
      (s.putUl n id (some r.1), msgOf n r.2)

/-- Whether the entity asks for an uplink TBF in its PACKET DOWNLINK ACK/NACK, /repo/src/rlcmac/tbf_dl.c:180. -/
def Gre.wantsUl (g : Gre) (o : Avail) : Bool := g.ul.isNone && o.queued g.n

/-- The end of `gprs_rlcmac_dl_tbf_create_pkt_dl_ack_nack`, /repo/src/rlcmac/tbf_dl.c:208-211. -/
def DlLink.acked (d : DlLink) : DlLink :=
  match d.st with
  | .finished => { d with t3190 := false, t3192 := true }
  | .flow => d

/-- `gprs_rlcmac_dl_tbf_create_pkt_dl_ack_nack`, /repo/src/rlcmac/tbf_dl.c:161-217. -/
def Ctx.dlAckMsg (s : Ctx) (o : Avail) (n ts : Nat) : Ctx × Option (Nat × UlBlk) :=
  match s.gre? n with
  | none => (s, none)
  | some g =>
    match g.dl with
    | none => (s, none)
    | some d =>
      let s1 : Ctx :=
        if g.wantsUl o then { s.putUl n s.tbfs (UlStart.fromDl ts).run.1 with tbfs := s.tbfs + 1 } else s
      if o.enc .dlAck then
        (s1.setGre n fun g => { g with dl := some d.acked }, some (n, .dlAck (d.st = .finished) (g.wantsUl o)))
      else (s1, none)

/-- A new uplink TBF in the place of the one being released, /repo/src/rlcmac/sched.c:183-201. -/
def Ctx.newUlMsg (s : Ctx) (o : Avail) (n id fn ts usf : Nat) : Sel :=
  match s.gre? n with
  | none => .ub .useAfterFree
  | some g =>
    match g.ul with
    | none => .ub .assertFail
    | some (_, old) =>
      let s1 : Ctx := { s.putUl n s.tbfs (UlStart.fromReleasing old.cur).run.1 with
                        tbfs := s.tbfs + 1, polls := dropTbf id s.polls }
      if ((s1.gre? n).map fun g => g.assRts fn ts usf) = some true then .ok (s1.ulAssMsg o n) else .ub .assertFail

/-- The PACKET RESOURCE REQUEST of the last candidate, /repo/src/rlcmac/sched.c:228-232. -/
def Ctx.resReqMsg (s : Ctx) (o : Avail) : Option Gre → Ctx × Option (Nat × UlBlk)
  | none => (s, none)
  | some g => s.ulAssMsg o g.n

/-- A message if there is one, else what comes next. -/
def orNext (r : Ctx × Option (Nat × UlBlk)) (f : Ctx → Ctx × Option (Nat × UlBlk)) : Ctx × Option (Nat × UlBlk) :=
  match r with
  | (s, some m) => (s, some m)
  | (s, none) => f s

/-- `sched_select_ctrl_msg`, /repo/src/rlcmac/sched.c:160-245.  `ua`: the candidate for a PACKET RESOURCE REQUEST. -/
def Ctx.selectCtrl (s : Ctx) (o : Avail) (fn ts usf : Nat) (ua : Option Gre) : Option Cand → Sel
  | some (.dlAckFinal n _) => .ok (orNext (s.dlAckMsg o n ts) fun s => s.resReqMsg o ua)
  | some (.newUl n id) =>
    match s.newUlMsg o n id fn ts usf with
    | .ok r => .ok (orNext r fun s => s.resReqMsg o ua)
    | .err e => .err e
    | .ub f => .ub f
  -- this one returns whatever the encoder left
  | some (.ulAck n) => .ok (s, if o.enc .ctrlAck then some (n, .ctrlAck) else none)
  | some (.dlAss n) =>
    .ok (orNext (s, if o.enc .ctrlAck then some (n, .ctrlAck) else none) fun s => s.resReqMsg o ua)
  | some (.pollUlAss n _) => .ok (orNext (s.ulAssMsg o n) fun s => s.resReqMsg o ua)
  | some (.dlAck n _) => .ok (orNext (s.resReqMsg o ua) fun s => s.dlAckMsg o n ts)
  | none => .ok (s.resReqMsg o ua)

/-- Whether the uplink TBF of an entity may send data in this block. -/
def Gre.dataRts (g : Gre) (ts usf : Nat) : Bool :=
  match g.ul with | some (_, t) => t.dataRts ts usf | none => false

/-- Whether it may send a dummy block. -/
def Gre.dummyRts (g : Gre) (ts usf : Nat) : Bool :=
  match g.ul with | some (_, t) => t.dummyRts ts usf | none => false

/-- `sched_select_ul_data_msg`, /repo/src/rlcmac/sched.c:247-258 and 135-145; with the requests sent meanwhile. -/
def Ctx.selectData (env : UlEnv) (s : Ctx) (o : Avail) (ts usf : Nat) : Res (Ctx × Option (Nat × UlBlk) × List CtxOut) :=
  match s.es.find? fun g => g.dataRts ts usf with
  | none => .ok (s, none, [])
  | some g =>
    match g.ul, o.block g.n with
    | some (id, t), some final =>
      match t.sendData env final o.rachOk with
      | .ok (r, outs) => .ok (s.putUl g.n id r, some (g.n, .data), rachOuts g.n outs)
      | .err e => .err e
      | .ub f => .ub f
    | _, _ => .ok (s, none, [])

/-- `sched_select_ul_dummy_ctrl_blk`, /repo/src/rlcmac/sched.c:260-268 and 147-157, and
`gprs_rlcmac_ul_tbf_dummy_create`, /repo/src/rlcmac/tbf_ul.c:367-412. -/
def Ctx.selectDummy (s : Ctx) (o : Avail) (ts usf : Nat) : Ctx × Option (Nat × UlBlk) :=
  match s.es.find? fun g => g.dummyRts ts usf with
  | none => (s, none)
  | some g =>
    match g.ul with
    | none => (s, none)
    | some (id, t) =>
      if o.enc .dummy then (s.putUl g.n id (some { t with t3180 := true }), some (g.n, .dummy)) else (s, none)

/-- `gprs_rlcmac_pdch_ulc_expire_fn`, /repo/src/rlcmac/pdch_ul_controller.c:180-204 (C32). -/
def Ctx.expire (s : Ctx) (ts fn : Nat) : Ctx :=
  { s with polls := s.polls.set ts ((s.polls.getD ts []).filter fun x => decide (fncmp x.fn fn > 0)) }

/-- The L1CTL-PDCH_DATA.req, if there is a block, /repo/src/rlcmac/sched.c:310-317. -/
def blockOut (ts fn : Nat) : Option (Nat × UlBlk) → List CtxOut
  | some (n, b) => [.block ts fn n b]
  | none => []

/-- The three selections of `gprs_rlcmac_rcv_rts_block` in order, /repo/src/rlcmac/sched.c:295-305. -/
def Ctx.select (env : UlEnv) (s : Ctx) (o : Avail) (fn ts usf : Nat) (ua : Option Gre) (c : Option Cand) :
    Res (Ctx × Option (Nat × UlBlk) × List CtxOut) :=
  match s.selectCtrl o fn ts usf ua c with
  | .ok (s1, some m) => .ok (s1, some m, [])
  | .ok (s1, none) =>
    match s1.selectData env o ts usf with
    | .ok (s2, some m, ro) => .ok (s2, some m, ro)
    | .ok (s2, none, ro) => .ok ((s2.selectDummy o ts usf).1, (s2.selectDummy o ts usf).2, ro)
    | .err e => .err e
    | .ub f => .ub f
  | .err e => .err e
  | .ub f => .ub f

/-- `gprs_rlcmac_rcv_rts_block` after `rts_tick`, /repo/src/rlcmac/sched.c:293-322. -/
def Ctx.serve (env : UlEnv) (s : Ctx) (o : Avail) (fn ts usf : Nat) : CtxR :=
  match s.takePoll o ts fn with
  | .ok (s1, c) =>
    match s1.select env o fn ts usf (s1.ulAssCand fn ts usf) c with
    | .ok (s2, m, ro) => .ok (s2.expire ts fn, ro ++ blockOut ts fn m)
    | .err e => .err e
    | .ub f => .ub f
  | .err e => .err e
  | .ub f => .ub f

/-- L1CTL-PDCH_RTS.ind: `gprs_rlcmac_rcv_rts_block`, /repo/src/rlcmac/sched.c:283-323; eight timeslots. -/
def Ctx.rts (env : UlEnv) (s : Ctx) (o : Avail) (fn ts usf : Nat) : CtxR :=
  if 8 ≤ ts then .ub .outOfBounds
  else
    match s.tickAll fn ts (s.es.map Gre.n) with
    | .ok (s1, o1) =>
      match s1.serve env o fn ts usf with
      | .ok (s2, o2) => .ok (s2, o1 ++ o2)
      | .err e => .err e
      | .ub f => .ub f
    | .err e => .err e
    | .ub f => .ub f

/-- How a control message names the mobile station: Global TFI (uplink or downlink), TLLI, or something the code does
not look at. -/
inductive MsId where
  | ulTfi (tfi : Nat)
  | dlTfi (tfi : Nat)
  | tlli (tlli : Nat)
  | other
  deriving DecidableEq, Repr

/-- `gprs_rlcmac_find_ul_tbf_by_tfi`, /repo/src/rlcmac/rlcmac.c:181-193. -/
def Ctx.byUlTfi (s : Ctx) (tfi : Nat) : Option Gre :=
  s.es.find? fun g => match g.ul with | some (_, t) => t.cur.tfi == tfi | none => false

/-- `gprs_rlcmac_find_dl_tbf_by_tfi`, /repo/src/rlcmac/rlcmac.c:167-179. -/
def Ctx.byDlTfi (s : Ctx) (tfi : Nat) : Option Gre :=
  s.es.find? fun g => match g.dl with | some d => d.alloc.tfi == tfi | none => false

/-- `gprs_rlcmac_find_entity_by_tlli`, /repo/src/rlcmac/rlcmac.c:137-145. -/
def Ctx.byTlli (s : Ctx) (tlli : Nat) : Option Gre :=
  s.es.find? fun g => g.names.tlli == tlli || g.names.oldTlli == tlli

/-- The entity a message is for, /repo/src/rlcmac/rlcmac.c:600-641, 723-735. -/
def Ctx.byId (s : Ctx) : MsId → Option Gre
  | .ulTfi tfi => s.byUlTfi tfi
  | .dlTfi tfi => s.byDlTfi tfi
  | .tlli tlli => s.byTlli tlli
  | .other => none

/-- An event of the uplink TBF of an entity, with what it reserves and sends. -/
def Ctx.ulEvent (s : Ctx) (n id : Nat) (r : PollReason) : UlR → CtxR
  | .ok (t, outs) =>
    match (s.putUl n id t).reserveAll r (.tbf id) outs with
    | .ok s1 => .ok (s1, rachOuts n outs)
    | .err e => .err e
    | .ub f => .ub f
  | .err e => .err e
  | .ub f => .ub f

/-- PACKET UPLINK ASSIGNMENT: `gprs_rlcmac_handle_pkt_ul_ass`, /repo/src/rlcmac/rlcmac.c:717-757. -/
def Ctx.rxPktUlAss (env : UlEnv) (s : Ctx) (id : MsId) (m : PktUlAss) (poll : Option Nat) (fn ts : Nat) : CtxR :=
  match s.byId id with
  | none => .ok (s, [])
  | some g =>
    match g.ul with
    | none => .ok (s, [])
    | some (i, t) => s.ulEvent g.n i .ulAss (t.rxPktUlAss env m poll fn ts)

/-- PACKET UPLINK ACK/NACK: `gprs_rlcmac_handle_pkt_ul_ack_nack`, /repo/src/rlcmac/rlcmac.c:699-715. -/
def Ctx.rxUlAck (s : Ctx) (tfi : Nat) (final : Bool) (poll : Option Nat) (tbfEst : Bool) (fn ts : Nat) : CtxR :=
  match s.byUlTfi tfi with
  | none => .ok (s, [])
  | some g =>
    match g.ul with
    | none => .ok (s, [])
    | some (i, t) => s.ulEvent g.n i .ulAck (t.rxAck final poll tbfEst fn ts)

/-- A downlink assignment: on the CCCH (TFI, starting time, timeslot) or on the PACCH (optional TFI, starting time,
one flag for each timeslot). -/
inductive DlAssMsg where
  | imm (tfi : Nat) (start : Option StartTime) (tn : Nat)
  | pkt (tfi : Option Nat) (start : Option StartTime) (ts : List Bool)
  deriving DecidableEq, Repr

/-- `handle_imm_ass` and `handle_pkt_dl_ass` on the allocation, /repo/src/rlcmac/tbf_dl_ass_fsm.c:78-86 and 98-116. -/
def DlAssMsg.alloc (old : DlAlloc) : DlAssMsg → DlAlloc
  | .imm tfi _ tn => ⟨tfi, 1, old.ts.set tn true⟩
  | .pkt tfi _ ts => ⟨tfi.getD 255, (ts.take 8).countP id, ts.take 8⟩

/-- The starting time of an assignment. -/
def DlAssMsg.start : DlAssMsg → Option StartTime
  | .imm _ s _ => s
  | .pkt _ s _ => s

/-- The same two functions on the whole state, /repo/src/rlcmac/tbf_dl_ass_fsm.c:63-117: the starting time is kept
when there is none in the message, but then it does not count. -/
def DlAss.take (env : UlEnv) (a : DlAss) (m : DlAssMsg) (fn : Nat) : Res DlAss :=
  match startFn? env fn m.start with
  | .ok sfn => .ok { a with alloc := m.alloc a.alloc, startExists := sfn.isSome, startFn := sfn.getD a.startFn }
  | .err e => .err e
  | .ub f => .ub f

/-- The two assignment events in both states, /repo/src/rlcmac/tbf_dl_ass_fsm.c:130-213. -/
def Ctx.dlAssign (env : UlEnv) (s : Ctx) (g : Gre) (m : DlAssMsg) (fn : Nat) : CtxR :=
  match g.ass.take env m fn with
  | .ok a =>
    if a.startExists ∧ fncmp a.startFn fn > 0 then
      .ok (s.setGre g.n fun g => { g with ass := { a with waiting := true } }, [])
    else .ok ((s.setGre g.n fun g => { g with ass := a }).complDl { g with ass := a })
  | .err e => .err e
  | .ub f => .ub f

/-- The reservation for the answer, /repo/src/rlcmac/rlcmac.c:679-685. -/
def Ctx.dlAssPoll (s : Ctx) (n : Nat) (poll : Option Nat) (fn ts : Nat) : Res Ctx :=
  match pollFn? fn poll with
  | .ok none => .ok s
  | .ok (some p) => s.reserve ts p .dlAss (.gre n)
  | .err e => .err e
  | .ub f => .ub f

/-- The end of `gprs_rlcmac_handle_pkt_dl_ass`, /repo/src/rlcmac/rlcmac.c:692-695. -/
def Ctx.ctrlAckRelease (s : Ctx) (n : Nat) : Ctx :=
  match s.gre? n with
  | none => s
  | some g =>
    match g.dl with
    | none => s
    | some d => if d.t3192 then s.freeDl n d.id else s

/-- PACKET DOWNLINK ASSIGNMENT: `gprs_rlcmac_handle_pkt_dl_ass`, /repo/src/rlcmac/rlcmac.c:644-697. -/
def Ctx.rxPktDlAss (env : UlEnv) (s : Ctx) (id : MsId) (m : DlAssMsg) (ctrlAck : Bool) (poll : Option Nat)
    (fn ts : Nat) : CtxR :=
  match s.byId id with
  | none => .ok (s, [])
  | some g =>
    match s.dlAssign env g m fn with
    | .ok (s1, o1) =>
      match s1.dlAssPoll g.n poll fn ts with
      | .ok s2 => .ok (if ctrlAck then s2.ctrlAckRelease g.n else s2, o1)
      | .err e => .err e
      | .ub f => .ub f
    | .err e => .err e
    | .ub f => .ub f

/-- IMMEDIATE ASSIGNMENT of a downlink TBF, /repo/src/rlcmac/rlcmac.c:233-262. -/
def Ctx.rxImmAssDl (env : UlEnv) (s : Ctx) (tlli tfi : Nat) (start : Option StartTime) (fn ts : Nat) : CtxR :=
  match s.byTlli tlli with
  | none => .ok (s, [])
  | some g => s.dlAssign env g (.imm tfi start ts) fn

/-- IMMEDIATE ASSIGNMENT of an uplink TBF, /repo/src/rlcmac/rlcmac.c:207-231: the first entity that waits gets it. -/
def Ctx.rxImmAssUl (env : UlEnv) (s : Ctx) (m : ImmAss) (fn ts : Nat) : CtxR :=
  match s.es.find? fun g => match g.ul with | some (_, t) => t.ass == .waitImmAss | none => false with
  | none => .ok (s, [])
  | some g =>
    match g.ul with
    | none => .ok (s, [])
    | some (i, t) => s.ulEvent g.n i .ulAss (t.rxImmAss env m fn ts)

/-- A downlink data block: `gprs_rlcmac_handle_gprs_dl_data_block`, /repo/src/rlcmac/rlcmac.c:814-839 and
`gprs_rlcmac_dl_tbf_rcv_data_block`, /repo/src/rlcmac/tbf_dl.c:297-298, 360-385 (`last`: all data was received, see
`Rlc/TbfDl`). -/
def Ctx.rxDlData (s : Ctx) (tfi : Nat) (last : Bool) (poll : Option Nat) (fn ts : Nat) : CtxR :=
  match s.byDlTfi tfi with
  | none => .ok (s, [])
  | some g =>
    match g.dl with
    | none => .ok (s, [])
    | some d =>
      let s1 := s.setGre g.n fun g => { g with dl := some { d with t3190 := true, st := if last then .finished else d.st } }
      match pollFn? fn poll with
      | .ok none => .ok (s1, [])
      | .ok (some p) =>
        match s1.reserve ts p .dlAck (.tbf d.id) with
        | .ok s2 => .ok (s2, [])
        | .err e => .err e
        | .ub f => .ub f
      | .err e => .err e
      | .ub f => .ub f

/-- L1CTL-PDCH_DATA.cnf, /repo/src/rlcmac/rlcmac_prim.c:637-669. -/
def Ctx.txCnf (s : Ctx) (fn ts : Nat) : Ctx :=
  match s.es.find? fun g => match g.ul with
      | some (_, t) => t.st == .releasing && t.ackFn == fn && t.ackTn == ts
      | none => false with
  | none => s
  | some g => match g.ul with | some (i, _) => s.freeUl g.n i | none => s

/-- `gprs_rlcmac_entity_start_ul_tbf_pkt_acc_proc_if_needed`, /repo/src/rlcmac/gre.c:205-242. -/
def Ctx.startUl (s : Ctx) (o : Avail) (n : Nat) : Ctx × List CtxOut :=
  match s.gre? n with
  | none => (s, [])
  | some g =>
    if g.ul.isNone && g.dl.isNone && o.queued n then
      let s1 : Ctx := { s.setGre n fun g => { g with ul := some (s.tbfs, UlTbf.fresh) } with tbfs := s.tbfs + 1 }
      (s1.putUl n s.tbfs (UlStart.access o.rachOk).run.1, rachOuts n (UlStart.access o.rachOk).run.2)
    else (s, [])

/-- L1CTL-CCCH_READY.ind, /repo/src/rlcmac/rlcmac_prim.c:671-683, over the entities with these serial numbers. -/
def Ctx.ccchReady (o : Avail) : List Nat → Ctx → Ctx × List CtxOut
  | [], s => (s, [])
  | n :: ns, s => (((s.startUl o n).1.ccchReady o ns).1, (s.startUl o n).2 ++ ((s.startUl o n).1.ccchReady o ns).2)

/-- A new entity, `gprs_rlcmac_entity_alloc`, /repo/src/rlcmac/gre.c:45-77. -/
def Ctx.addGre (s : Ctx) (tlli ptmsi : Nat) (imsi : List Nat) : Ctx :=
  { s with made := s.made + 1, es := s.es ++ [⟨⟨s.made, tlli, noTlli, ptmsi, imsi⟩, none, none, .idle, false⟩] }

/-- The reservations of the TBFs of an entity. -/
def Gre.dropPolls (g : Gre) (p : List (List PollNode)) : List (List PollNode) :=
  let p := match g.dl with | some d => dropTbf d.id p | none => p
  match g.ul with | some (i, _) => dropTbf i p | none => p

/-- `gprs_rlcmac_entity_free`, /repo/src/rlcmac/gre.c:79-95. -/
def Ctx.freeGre (s : Ctx) (g : Gre) : Ctx :=
  { s with es := s.es.filter fun e => decide (e.n ≠ g.n), polls := g.dropPolls s.polls }

/-- GRR-UNITDATA.req: `rlcmac_prim_handle_grr_unitdata_req`, /repo/src/rlcmac/rlcmac_prim.c:390-424, with
`gprs_rlcmac_entity_llc_enqueue`, /repo/src/rlcmac/gre.c:244-262.  The queue is part of `Avail`. -/
def Ctx.unitdata (s : Ctx) (o : Avail) (tlli : Nat) : Ctx × List CtxOut :=
  match s.byTlli tlli with
  | some g => s.startUl o g.n
  | none => (s.addGre tlli 0xffffffff []).startUl o s.made

/-- GMMRR-ASSIGN.req: `rlcmac_prim_handle_gmmrr_assign_req`, /repo/src/rlcmac/rlcmac_prim.c:458-514. -/
def Ctx.assign (s : Ctx) (old new ptmsi : Nat) (imsi : List Nat) : Ctx :=
  if old = noTlli then
    if new = noTlli then s
    else if (s.byTlli new).isSome then s
    else s.addGre new ptmsi imsi
  else
    match s.byTlli old with
    | none => s
    | some g =>
      if new = noTlli then s.freeGre g
      else s.setGre g.n fun g =>
        { g with names := { g.names with tlli := new, oldTlli := old, ptmsi := ptmsi, imsi := imsi } }

/-- The timers of an uplink TBF. -/
inductive UlTimer where
  /-- T3164, T3166, T3182 -/
  | tbf
  | t3168
  | t3180
  deriving DecidableEq, Repr

/-- A timer of the uplink TBF of an entity runs out. -/
def Ctx.ulTimer (s : Ctx) (o : Avail) (n : Nat) (k : UlTimer) : CtxR :=
  match s.gre? n with
  | none => .ok (s, [])
  | some g =>
    match g.ul with
    | none => .ok (s, [])
    | some (i, t) =>
      s.ulEvent n i .ulAss
        (match k with
         | .tbf => t.timeout o.rachOk
         | .t3168 => t.assTimeout
         -- /repo/src/rlcmac/tbf_ul.c:111-118
         | .t3180 => if t.t3180 then .ok (none, []) else .ok (some t, []))

/-- T3190 or T3192 (`true`) of the downlink TBF of an entity runs out, /repo/src/rlcmac/tbf_dl.c:98-105, 114-127.  One
that does not run cannot run out. -/
def Ctx.dlTimer (s : Ctx) (n : Nat) (t3192 : Bool) : Ctx :=
  match s.gre? n with
  | none => s
  | some g =>
    match g.dl with
    | none => s
    | some d => if (if t3192 then d.t3192 else d.t3190) then s.freeDl n d.id else s

/-- `_defer_pkt_idle_timer_cb`, /repo/src/rlcmac/gre.c:36-43. -/
def Ctx.idleTimer (s : Ctx) (n : Nat) : Ctx × List CtxOut :=
  match s.gre? n with
  | none => (s, [])
  | some g => if g.idle then (s.setGre n fun g => { g with idle := false }, [.pdchRel]) else (s, [])

/-- What can happen. -/
inductive CtxEv where
  /-- L1CTL-PDCH_RTS.ind -/
  | rts (o : Avail) (fn ts usf : Nat)
  /-- L1CTL-PDCH_DATA.cnf -/
  | cnf (fn ts : Nat)
  /-- PACKET UPLINK ASSIGNMENT -/
  | pktUlAss (id : MsId) (m : PktUlAss) (poll : Option Nat) (fn ts : Nat)
  /-- PACKET UPLINK ACK/NACK -/
  | ulAck (tfi : Nat) (final : Bool) (poll : Option Nat) (tbfEst : Bool) (fn ts : Nat)
  /-- PACKET DOWNLINK ASSIGNMENT -/
  | pktDlAss (id : MsId) (tfi : Option Nat) (start : Option StartTime) (mask : List Bool) (ctrlAck : Bool)
      (poll : Option Nat) (fn ts : Nat)
  /-- a downlink data block; `last`: with it all data was received -/
  | dlData (tfi : Nat) (last : Bool) (poll : Option Nat) (fn ts : Nat)
  /-- IMMEDIATE ASSIGNMENT of an uplink TBF -/
  | immAssUl (m : ImmAss) (fn ts : Nat)
  /-- IMMEDIATE ASSIGNMENT of a downlink TBF -/
  | immAssDl (tlli tfi : Nat) (start : Option StartTime) (fn ts : Nat)
  /-- L1CTL-CCCH_READY.ind -/
  | ccchReady (o : Avail)
  /-- GRR-UNITDATA.req -/
  | unitdata (o : Avail) (tlli : Nat)
  /-- GMMRR-ASSIGN.req -/
  | assign (old new ptmsi : Nat) (imsi : List Nat)
  /-- timers -/
  | ulTimer (o : Avail) (n : Nat) (k : UlTimer)
  | t3190 (n : Nat)
  | t3192 (n : Nat)
  | idleTimer (n : Nat)

/-- One event. -/
def Ctx.step (env : UlEnv) (s : Ctx) : CtxEv → CtxR
  | .rts o fn ts usf => s.rts env o fn ts usf
  | .cnf fn ts => .ok (s.txCnf fn ts, [])
  | .pktUlAss id m poll fn ts => s.rxPktUlAss env id m poll fn ts
  | .ulAck tfi final poll tbfEst fn ts => s.rxUlAck tfi final poll tbfEst fn ts
  | .pktDlAss id tfi start mask ctrlAck poll fn ts => s.rxPktDlAss env id (.pkt tfi start mask) ctrlAck poll fn ts
  | .dlData tfi last poll fn ts => s.rxDlData tfi last poll fn ts
  | .immAssUl m fn ts => s.rxImmAssUl env m fn ts
  | .immAssDl tlli tfi start fn ts => s.rxImmAssDl env tlli tfi start fn ts
  | .ccchReady o => .ok (Ctx.ccchReady o (s.es.map Gre.n) s)
  | .unitdata o tlli => .ok (s.unitdata o tlli)
  | .assign old new ptmsi imsi => .ok (s.assign old new ptmsi imsi, [])
  | .ulTimer o n k => s.ulTimer o n k
  | .t3190 n => .ok (s.dlTimer n false, [])
  | .t3192 n => .ok (s.dlTimer n true, [])
  | .idleTimer n => .ok (s.idleTimer n)

/-- A history, with all that was asked of the lower layer. -/
def Ctx.run (env : UlEnv) : Ctx → List CtxEv → CtxR
  | s, [] => .ok (s, [])
  | s, e :: es =>
    match s.step env e with
    | .ok (s1, o1) =>
      match s1.run env es with
      | .ok (s2, o2) => .ok (s2, o1 ++ o2)
      | .err e => .err e
      | .ub f => .ub f
    | .err e => .err e
    | .ub f => .ub f

end Verif.Rlc
