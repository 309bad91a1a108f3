import Verif.Rlc.Enc

/-!
# The countdown procedure of the uplink TBF

Model of /repo/src/rlcmac/tbf_ul.c:470-671 and of the countdown part of `create_new_bsn`
(/repo/src/rlcmac/tbf_ul.c:673-728).  GPRS coding schemes; the LLC queue is taken as the list of frames it will
yield.
-/
namespace Verif.Rlc

/-- `struct blk_count_state`, /repo/src/rlcmac/tbf_ul.c:471-481. -/
structure BlkSt where
  dataLen : Nat
  bsCvMax : Nat
  ntsK : Nat
  count : Nat
  offset : Nat
  extra : Bool
  deriving DecidableEq, Repr

/-- `blk_count_to_x`, /repo/src/rlcmac/tbf_ul.c:509-514. -/
def BlkSt.toX (st : BlkSt) : Nat := if st.count = 0 then 0 else (st.count + (st.ntsK - 1) - 1) / st.ntsK

/-- `blk_count_append_llc`, /repo/src/rlcmac/tbf_ul.c:516-552.  The first argument bounds the depth of the
recursion (a run out of it stands for exhaustion of the stack). -/
def BlkSt.append : Nat → BlkSt → Nat → Res BlkSt
  | 0, _, _ => .ub .assertFail
  | fuel + 1, st, chunk =>
    let space := st.dataLen - st.offset
    if ¬ st.offset < st.dataLen then .ub .assertFail
    else if chunk = 0 then .ok st
    else if chunk > space then
      BlkSt.append fuel { st with extra := false, count := st.count + 1, offset := 0 } (chunk - space)
    else if chunk = space then do
      let st ← BlkSt.append fuel { st with extra := false, count := st.count + 1, offset := 0 } (chunk - (space - 1))
      .ok { st with extra := true }
    else
      let st := { st with extra := false, offset := st.offset + 1 + chunk }
      .ok (if st.dataLen - st.offset = 0 then { st with count := st.count + 1, offset := 0 } else st)

/-- `BLK_COUNT_EARLY_CHECK_TOOMANY`, /repo/src/rlcmac/tbf_ul.c:557. -/
def BlkSt.tooMany (st : BlkSt) : Bool := !st.extra && decide (st.toX > st.bsCvMax)

/-- The frames in turn until there are too many blocks: /repo/src/rlcmac/tbf_ul.c:559-570, 593-609. -/
def BlkSt.appendAll (st : BlkSt) : List Octets → Res BlkSt
  | [] => .ok st
  | f :: q => do
    let st ← st.append (f.length + 2) f.length
    if st.tooMany then .ok st else st.appendAll q

/-- The end of `gprs_rlcmac_ul_tbf_calculate_cv`, /repo/src/rlcmac/tbf_ul.c:611-623. -/
def BlkSt.toCv (st : BlkSt) : Res Nat :=
  if st.extra ∧ st.offset ≠ 2 then .ub .assertFail
  else
    let offset := if st.extra then st.offset - 2 else st.offset
    let st := if offset > 0 then { st with count := st.count + 1 } else st
    .ok (if st.toX ≤ st.bsCvMax then st.toX else 15)

/-- What the block creation depends on: octets of payload per block, the TLLI while in contention resolution,
BS_CV_MAX, the number of timeslots times the number of blocks per radio block. -/
structure TxParams where
  len : Nat
  tlli : Option Nat
  bsCvMax : Nat
  ntsK : Nat
  deriving DecidableEq, Repr

/-- `gprs_rlcmac_ul_tbf_calculate_cv`, /repo/src/rlcmac/tbf_ul.c:574-624, with `blk_count_state_init`, 482-507. -/
def TxParams.calculateCv (p : TxParams) (q : List Octets) : Res Nat :=
  if p.ntsK = 0 then .ub .assertFail
  else do
    let dataLen := if p.tlli.isSome then p.len - 4 else p.len
    let st ← BlkSt.appendAll ⟨dataLen, p.bsCvMax, p.ntsK, 0, 0, false⟩ q
    st.toCv

/-- `ul_tbf->countdown_proc` and the LLC data the TBF will send: the rest of `llc_tx_msg` and the frames of the
queue in use, in the order the queue yields them. -/
structure Cd where
  active : Bool
  cv : Nat
  q : List Octets
  deriving DecidableEq, Repr

/-- `gprs_rlcmac_ul_tbf_countdown_proc_check_enter`, /repo/src/rlcmac/tbf_ul.c:633-659
(`gprs_rlcmac_ul_tbf_shall_keep_open` is always false, 424-434). -/
def Cd.checkEnter (s : Cd) (p : TxParams) : Res Cd :=
  if s.active then
    if s.cv = 15 then do
      let cv ← p.calculateCv s.q
      .ok { s with cv }
    else .ok s
  else do
    let cv ← p.calculateCv s.q
    .ok { s with cv, active := decide (cv < 15) }

/-- `gprs_rlcmac_ul_tbf_countdown_proc_update_cv`, /repo/src/rlcmac/tbf_ul.c:661-671. -/
def Cd.updateCv (s : Cd) (p : TxParams) : Res Cd :=
  if s.active then do
    let cv ← p.calculateCv s.q
    .ok { s with cv }
  else .ok s

/-- `create_new_bsn` as far as the countdown goes, /repo/src/rlcmac/tbf_ul.c:683-728: `cv` is a `uint8_t`. -/
def Cd.newBlock (s : Cd) (p : TxParams) : Res (UlBlock × Cd) := do
  let s ← s.checkEnter p
  let r ← createBlock p.len s.cv p.tlli s.q
  .ok (r.1, { s with cv := if s.cv < 15 then (s.cv + 255) % 256 else s.cv, q := r.2 })

/-- The countdown value in the header of a block: a field of 4 bits,
/repo/include/osmocom/gprs/rlcmac/rlc.h:30-37, /repo/src/rlcmac/rlcmac_enc.c:41. -/
def UlBlock.cvOnAir (b : UlBlock) : Nat := b.cv % 16

/-- What happens to a TBF. -/
inductive CdEv where
  /-- a new LLC frame takes its place in the queue (position `i` among the frames not yet sent) -/
  | enq (i : Nat) (f : Octets)
  /-- the network commands another coding scheme (tbf_ul.c:289-305) or the contention is resolved
  (tbf_ul_fsm.c:124-136) -/
  | change (len : Nat) (tlli : Option Nat)
  /-- a new block is sent, if there is data left (`gprs_rlcmac_ul_tbf_have_data`) -/
  | block
  deriving DecidableEq, Repr

/-- One event; once the countdown is active new frames go to another queue,
/repo/src/rlcmac/tbf_ul.c:404-422, 626-630. -/
def Cd.step (sp : Cd × TxParams) : CdEv → Res (Option UlBlock × Cd × TxParams)
  | .enq i f => .ok (none, if sp.1.active then sp.1 else { sp.1 with q := sp.1.q.insertIdx i f }, sp.2)
  | .change len tlli => do
    let p := { sp.2 with len, tlli }
    let s ← sp.1.updateCv p
    .ok (none, s, p)
  | .block =>
    if sp.1.q = [] then .ok (none, sp)
    else do
      let r ← sp.1.newBlock sp.2
      .ok (some r.1, r.2, sp.2)

end Verif.Rlc
