import Verif.Basic
import Verif.Rlc.Codel

/-!
# The queue of LLC frames waiting for the uplink

Model of /repo/src/rlcmac/llc_queue.c and of the way the uplink TBF uses it
(/repo/src/rlcmac/tbf_ul.c:74-91, 404-411, 436-453, 626-659).
Times are nanoseconds of the monotonic clock.
-/
namespace Verif.Rlc

/-- A queued message: `struct llc_queue_entry_hdr` and the LL-PDU, /repo/src/rlcmac/llc_queue.c:30-32, 101-113. -/
structure LlcFrame where
  data : Octets
  recv : Int
  deriving DecidableEq, Repr

/-- `struct gprs_llc_prio_queue`, /repo/include/osmocom/gprs/rlcmac/llc_queue.h:28-33.  Its fields `radio_prio`
and `sapi` only depend on its place in the array and are left out. -/
structure PrioQ where
  frames : List LlcFrame
  codel : Codel
  deriving Repr

/-- `struct gprs_rlcmac_llc_queue`, /repo/include/osmocom/gprs/rlcmac/llc_queue.h:35-42.  `pq (3 * i + j)` is
`pq[i][j]`; `avg_queue_delay` (written only) is left out. -/
structure LlcQ where
  size : Nat
  octets : Nat
  useCodel : Bool
  pq : Nat → PrioQ

/-- `ARRAY_SIZE(q->pq) * ARRAY_SIZE(q->pq[i])`, /repo/include/osmocom/gprs/rlcmac/llc_queue.h:19-26, 41. -/
def numPq : Nat := 12

/-- Subtraction of `size_t` values, which wraps around. -/
def sizeSub (a b : Nat) : Nat := if b ≤ a then a - b else a + 2 ^ 64 - b

/-- `gprs_rlcmac_llc_queue_alloc`, /repo/src/rlcmac/llc_queue.c:34-58. -/
def LlcQ.alloc : LlcQ := ⟨0, 0, false, fun _ => ⟨[], Codel.init⟩⟩

/-- `gprs_rlcmac_llc_queue_set_codel_params`, /repo/src/rlcmac/llc_queue.c:66-78. -/
def LlcQ.setCodel (q : LlcQ) (use : Bool) (ms : Int) : LlcQ :=
  if use then { q with useCodel := true, pq := fun c => { q.pq c with codel := (q.pq c).codel.setInterval ms } }
  else { q with useCodel := false }

/-- `gprs_rlcmac_llc_sapi2prio`, /repo/src/rlcmac/llc_queue.c:80-92; SAPI values of
/repo/include/osmocom/gprs/rlcmac/types.h:20-29. -/
def sapi2prio (sapi : Nat) : Nat :=
  if sapi = 1 then 0
  else if sapi = 2 then 1
  else if sapi = 7 then 1
  else if sapi = 8 then 1
  else 2

/-- The radio priority of GRR-UNITDATA.req, trimmed to 0..3, /repo/src/rlcmac/rlcmac_prim.c:404-415. -/
def trimRadioPrio (p : Nat) : Nat := if p < 1 then 0 else if p > 4 then 3 else p - 1

/-- Replace one sub-queue (modelling helper). -/
def LlcQ.setPq (q : LlcQ) (c : Nat) (fs : List LlcFrame) : Nat → PrioQ :=
  fun k => if k = c then { q.pq k with frames := fs } else q.pq k

/-- `gprs_rlcmac_llc_queue_enqueue`, /repo/src/rlcmac/llc_queue.c:94-121.  The counters cannot overflow, as they
count octets of allocated memory. -/
def LlcQ.enqueue (q : LlcQ) (data : Octets) (sapi radioPrio : Nat) (now : Int) : LlcQ :=
  let c := 3 * radioPrio + sapi2prio sapi
  { q with pq := q.setPq c ((q.pq c).frames ++ [⟨data, now⟩])
           size := q.size + 1
           octets := q.octets + data.length }

/-- `gprs_rlcmac_llc_queue_clear`, /repo/src/rlcmac/llc_queue.c:123-137. -/
def LlcQ.clear (q : LlcQ) : LlcQ := { q with size := 0, octets := 0, pq := fun c => { q.pq c with frames := [] } }

/-- `gprs_rlcmac_llc_queue_find_msg`, /repo/src/rlcmac/llc_queue.c:141-152. -/
def LlcQ.findMsg (q : LlcQ) : Option Nat := (List.range numPq).find? fun c => !(q.pq c).frames.isEmpty

/-- `gprs_rlcmac_llc_queue_pick_msg`, /repo/src/rlcmac/llc_queue.c:154-178, without the average delay.  The
message of an empty LL-PDU has no Layer-2 header: `msgb_l2len` subtracts a null pointer (undefined). -/
def LlcQ.pickMsg (q : LlcQ) : Res (LlcQ × Option (LlcFrame × Nat)) :=
  match q.findMsg with
  | none => .ok (q, none)
  | some c =>
    match (q.pq c).frames with
    | [] => .ok (q, none)
    | f :: fs =>
      if f.data = [] then .ub .outOfBounds
      else .ok ({ q with pq := q.setPq c fs
                         size := sizeSub q.size 1
                         octets := sizeSub q.octets f.data.length }, some (f, c))

/-- The CoDel decision about a picked message, /repo/src/rlcmac/llc_queue.c:190-201. -/
def LlcQ.codelDecision (q : LlcQ) (f : LlcFrame) (c : Nat) (now : Int) (canDiscard : Bool) : LlcQ × Bool :=
  if canDiscard && q.useCodel then
    let r := (q.pq c).codel.control f.recv now q.octets
    ({ q with pq := fun k => if k = c then { q.pq k with codel := r.1 } else q.pq k }, r.2)
  else (q, false)

/-- `gprs_rlcmac_llc_queue_dequeue`, /repo/src/rlcmac/llc_queue.c:180-217.  A message that CoDel drops is freed,
then `msgb_pull_to_l2` works on it and it is returned (line 215-216).  The number of the sub-queue is returned for
the observer's benefit only. -/
def LlcQ.dequeue (q : LlcQ) (now : Int) (canDiscard : Bool) : Res (LlcQ × Option (Octets × Nat)) := do
  let r ← q.pickMsg
  match r.2 with
  | none => .ok (r.1, none)
  | some (f, c) =>
    let d := r.1.codelDecision f c now canDiscard
    if d.2 then .ub .useAfterFree else .ok (d.1, some (f.data, c))

/-- The loop `while ((it = old_pq->next) != old_pq) llist_move(it, pq)`, /repo/src/rlcmac/llc_queue.c:250-251:
each element of `old` in turn goes to the head of `new`. -/
def moveAll : (old new : List LlcFrame) → List LlcFrame
  | [], new => new
  | it :: old, new => moveAll old (it :: new)

/-- `gprs_rlcmac_llc_queue_merge_prepend`, /repo/src/rlcmac/llc_queue.c:234-260. -/
def LlcQ.mergePrepend (q old : LlcQ) : LlcQ :=
  if old.size = 0 then q
  else { q with pq := fun c => if c < numPq then { q.pq c with frames := moveAll (old.pq c).frames (q.pq c).frames } else q.pq c
                size := q.size + old.size
                octets := q.octets + old.octets }

/-- The queues of one mobile station: `gre->llc_queue` and `ul_tbf->countdown_proc.llc_queue`.  The latter is there
exactly while `countdown_proc.active` is set, /repo/src/rlcmac/tbf_ul.c:626-630, 656-657. -/
structure UlQueues where
  gre : LlcQ
  frozen : Option LlcQ

/-- What happens to the queues. -/
inductive QEv where
  /-- GRR-UNITDATA.req -/
  | enq (data : Octets) (sapi radioPrio : Nat) (now : Int)
  /-- the uplink TBF needs the next LLC frame -/
  | deq (now : Int)
  /-- the uplink TBF enters the countdown procedure -/
  | countdown
  /-- the uplink TBF is freed -/
  | tbfFreed
  /-- the queue of the entity is cleared, after its TBF was freed -/
  | clear
  deriving DecidableEq, Repr

/-- Freeing the uplink TBF gives the frozen queue back, /repo/src/rlcmac/tbf_ul.c:87-92. -/
def UlQueues.release (s : UlQueues) : UlQueues :=
  match s.frozen with
  | some old => ⟨s.gre.mergePrepend old, none⟩
  | none => s

/-- One event: /repo/src/rlcmac/rlcmac_prim.c:390-424 and gre.c:250; tbf_ul.c:436-453 (the frozen queue is used
once there is one, without discarding); tbf_ul.c:626-659; tbf_ul.c:87-92; gre.c:90-92. -/
def UlQueues.step (s : UlQueues) : QEv → Res (UlQueues × Option (Octets × Nat))
  | .enq data sapi prio now => .ok ({ s with gre := s.gre.enqueue data sapi (trimRadioPrio prio) now }, none)
  | .deq now =>
    match s.frozen with
    | some old => do
      let r ← old.dequeue now false
      .ok ({ s with frozen := some r.1 }, r.2)
    | none => do
      let r ← s.gre.dequeue now true
      .ok ({ s with gre := r.1 }, r.2)
  | .countdown =>
    match s.frozen with
    | some _ => .ok (s, none)
    | none => .ok (⟨LlcQ.alloc, some s.gre⟩, none)
  | .tbfFreed => .ok (s.release, none)
  | .clear => .ok ({ s.release with gre := s.release.gre.clear }, none)

/-- The queues of a new entity, /repo/src/rlcmac/gre.c:57-62. -/
def UlQueues.init (useCodel : Bool) (ms : Int) : UlQueues := ⟨LlcQ.alloc.setCodel useCodel ms, none⟩

end Verif.Rlc
