import Verif.Rlc.UlTx
import Verif.Spec.RlcBlock

/-!
# Specification: an uplink TBF, the radio link and the network's receiver

The network numbers the blocks without bound and works as in 3GPP TS 44.060, 9.1.  The radio link delays and
loses blocks and reports at will, but does not change their order.
-/
namespace Verif.Spec

open Verif.Rlc

/-- The receiver in the network: the blocks received, by number, and the receive state variable V(R), one more
than the highest number received. -/
structure UlNet where
  got : Nat → Option UlBlock
  vr : Nat

/-- V(Q): the lowest number not received (9.1.5). -/
def UlNet.vq (s : UlNet) : Nat := ((List.range s.vr).takeWhile fun n => (s.got n).isSome).length

/-- A block arrives: its BSN stands for the number at or above V(Q) that agrees with it modulo 128; within the
window of 64 from V(Q) on (9.1.9) the block is taken, unless there already; others are ignored. -/
def UlNet.take (s : UlNet) (bsn : Nat) (b : UlBlock) : UlNet :=
  let n := s.vq + (bsn + 128 - s.vq % 128) % 128
  if n < s.vq + 64 ∧ s.got n = none then
    { got := fun k => if k = n then some b else s.got k, vr := max s.vr (n + 1) }
  else s

/-- Everything has been received: a block with countdown value 0 and all before it (9.3.2.4). -/
def UlNet.Complete (s : UlNet) : Prop := ∃ n b, s.got n = some b ∧ b.cv = 0 ∧ ∀ k, k < n → (s.got k).isSome

/-- A report says what the network has received (9.1.8, 12.3): SSN is V(R), bit `k` of the bitmap counted 1 to 64
from its end tells of block V(R) - k; final only when everything has been received. -/
structure UlNet.Truthful (s : UlNet) (d : UlAckDesc) : Prop where
  ssn : d.ssn = s.vr % 128
  bits : ∀ k, 1 ≤ k → k ≤ 64 → k ≤ s.vr → bitAt d.rbb (64 - k) = (s.got (s.vr - k)).isSome
  final : d.finalAck = true → s.Complete

/-- The blocks received without a gap, in order. -/
def UlNet.blocks (s : UlNet) : List UlBlock := (List.range s.vq).filterMap s.got

/-- The frames the network has put together from them so far. -/
def UlNet.recovered (s : UlNet) : Option (List Octets) :=
  (s.blocks.mapM fun b => pieces b.ti b.e (b.cv = 0) b.data).map fun ps => (reassemble [] ps.flatten).1

/-- The whole: the TBF, blocks under way to the network, the network, reports under way to the mobile station;
and on record, for the theorems only: every block the mobile station has composed, every frame it was given, and
whether it has been told that the transfer is complete. -/
structure UlLink where
  tx : UlTx
  up : List (Nat × UlBlock)
  net : UlNet
  down : List UlAckDesc
  composed : List UlBlock
  offered : List Octets
  done : Bool

def UlLink.init (q : List Octets) : UlLink where
  tx := UlTx.init q
  up := []
  net := { got := fun _ => none, vr := 0 }
  down := []
  composed := []
  offered := q
  done := false

/-- What happens. -/
inductive UlLinkEv where
  /-- the mobile station has to send a block -/
  | send (r : UlTxReq)
  /-- the mobile station is given a further frame -/
  | frame (f : Octets)
  /-- the oldest block under way arrives / is lost -/
  | upArrives | upLost
  /-- the network reports -/
  | report (d : UlAckDesc)
  /-- the oldest report under way arrives / is lost -/
  | downArrives | downLost

/-- One event. -/
def UlLink.step (s : UlLink) : UlLinkEv → Res UlLink
  | .send r => do
    let (tx, bsn, b, k) ← s.tx.dataCreate r
    .ok { s with tx, up := s.up ++ [(bsn, b)], composed := if k = .new then s.composed ++ [b] else s.composed }
  | .frame f => .ok { s with tx := { s.tx with q := s.tx.q ++ [f] }, offered := s.offered ++ [f] }
  | .upArrives =>
    match s.up with
    | [] => .ok s
    | (bsn, b) :: up => .ok { s with up, net := s.net.take bsn b }
  | .upLost => .ok { s with up := s.up.drop 1 }
  | .report d => .ok { s with down := s.down ++ [d] }
  | .downArrives =>
    match s.down with
    | [] => .ok s
    | d :: down => .ok { s with down, tx := (s.tx.ackNack d).1, done := s.done || (s.tx.ackNack d).2 }
  | .downLost => .ok { s with down := s.down.drop 1 }

/-- What is asked of the surroundings: the transfer is not over; the mobile station is asked for a block only
once it has been given data, and a block has room for the TLLI and more than one octet and is shorter than 64
octets (CS-1 to CS-4: 20 to 50); frames are not empty and come before the last block is composed; reports are truthful. -/
def UlLink.Allowed (s : UlLink) (e : UlLinkEv) : Prop :=
  s.done = false ∧
  match e with
  | .send r => (s.offered ≠ []) ∧ (if r.tlli.isSome then 4 else 0) + 1 < r.len ∧ r.len < 64
  | .frame f => f ≠ [] ∧ s.tx.finished = false
  | .report d => s.net.Truthful d
  | _ => True

/-- The states a transfer can get into. -/
inductive UlLink.Reached (P : UlLink → UlLinkEv → Prop) : UlLink → Prop
  | init (q : List Octets) : (∀ f ∈ q, f ≠ []) → UlLink.Reached P (UlLink.init q)
  | step {s s' : UlLink} {e : UlLinkEv} : UlLink.Reached P s → s.Allowed e → P s e → s.step e = .ok s' →
      UlLink.Reached P s'

/-- The countdown value of a new block is right: 0 exactly in the block that takes the last of the data. -/
def RightCv (s : UlLink) : UlLinkEv → Prop
  | .send r => ∀ b q', createBlock r.len r.cv r.tlli s.tx.q = .ok (b, q') → (r.cv = 0 ↔ q' = [])
  | _ => True

/-- Several events. -/
def UlLink.run : List UlLinkEv → UlLink → Res UlLink
  | [], s => .ok s
  | e :: es, s => do
    let s' ← s.step e
    UlLink.run es s'

/-- A block is sent; it and all blocks under way before it arrive. -/
def UlLink.sendRound (s : UlLink) (r : UlTxReq) : List UlLinkEv :=
  .send r :: List.replicate (s.up.length + 1) .upArrives

/-- The network reports; the report and all reports under way before it arrive. -/
def UlLink.reportRound (s : UlLink) (d : UlAckDesc) : List UlLinkEv :=
  .report d :: List.replicate (s.down.length + 1) .downArrives

/-- A full report: truthful, and final as soon as all has been received. -/
def UlNet.FullReport (t : UlNet) (d : UlAckDesc) : Prop := t.Truthful d ∧ (t.Complete → d.finalAck = true)

/-- A round in which nothing gets lost. -/
def UlLink.CalmRound (s s' : UlLink) : Prop :=
  ∃ r s1 d, s.Allowed (.send r) ∧ RightCv s (.send r) ∧ UlLink.run (s.sendRound r) s = .ok s1 ∧ s1.net.FullReport d ∧
    UlLink.run (s1.reportRound d) s1 = .ok s'

/-- No such round fails. -/
def UlLink.RoundsGoThrough (s : UlLink) : Prop :=
  ∀ r, s.Allowed (.send r) → RightCv s (.send r) → ∃ s1, UlLink.run (s.sendRound r) s = .ok s1 ∧
    ∀ d, s1.net.FullReport d → ∃ s', UlLink.run (s1.reportRound d) s1 = .ok s'

/-- The transfer comes to its end after finitely many rounds in which nothing gets lost and no further frame is
added, whatever coding schemes are used: it is over, or no next round fails and each leads to a state of which the
same holds. -/
inductive UlLink.Completes : UlLink → Prop
  | over {s : UlLink} : s.done = true → UlLink.Completes s
  | round {s : UlLink} : s.RoundsGoThrough → (∀ s', s.CalmRound s' → UlLink.Completes s') → UlLink.Completes s

end Verif.Spec
