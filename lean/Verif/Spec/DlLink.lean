import Verif.Rlc.DlRx

/-!
# Specification: the network's sender, the radio link and a downlink TBF

The network numbers the blocks of a transfer 0, 1, ..., `total` - 1, without bound, and works as in 3GPP TS 44.060,
9.1.  The radio link delays and loses blocks and reports at will, but does not change their order.
-/
namespace Verif.Spec

open Verif.Rlc

/-- The sender in the network: V(A), the lowest number not acknowledged; V(S), the next new number; the numbers
reported as received; and whether it has been told that all has been received. -/
structure DlNet where
  va : Nat
  vs : Nat
  acked : Nat → Bool
  done : Bool

/-- The lowest number from `a` on (at most `k` further) that is not acknowledged. -/
def lowestUnacked (acked : Nat → Bool) : Nat → Nat → Nat
  | 0, a => a
  | k + 1, a => if acked a then lowestUnacked acked k (a + 1) else a

/-- What a report says of block `n` (9.1.8, 12.3): bit `k` of the bitmap counted 1 to 64 from its end is about the
block numbered SSN - `k` modulo 128. -/
def reportedReceived (d : AckDesc) (n : Nat) : Bool :=
  let k := (d.ssn + 128 - n % 128) % 128
  decide (1 ≤ k) && decide (k ≤ 64) && bitAt d.rbb (64 - k)

/-- A report arrives (9.1.3, 9.1.8): the blocks under way it reports as received are acknowledged; if it is final,
all are. -/
def DlNet.hear (s : DlNet) (d : DlReport) : DlNet :=
  let acked := fun n =>
    s.acked n || (decide (s.va ≤ n) && decide (n < s.vs) && (d.final || reportedReceived d.desc n))
  { va := lowestUnacked acked (s.vs - s.va) s.va, vs := s.vs, acked, done := s.done || d.final }

/-- The whole: the network, blocks under way to the mobile station (BSN and contents), the mobile station, reports
under way to the network; and on record the LLC frames the mobile station has handed up. -/
structure DlLink where
  net : DlNet
  down : List (Nat × Block)
  ms : DlRx
  up : List DlReport
  given : List Octets

def DlLink.init : DlLink where
  net := { va := 0, vs := 0, acked := fun _ => false, done := false }
  down := []
  ms := .init
  up := []
  given := []

/-- What happens. -/
inductive DlLinkEv where
  /-- the network sends block number `n`, for the first time or again -/
  | send (n : Nat)
  /-- the oldest block under way arrives / is lost -/
  | downArrives | downLost
  /-- the mobile station, polled, reports -/
  | report
  /-- the oldest report under way arrives / is lost -/
  | upArrives | upLost

/-- One event; `blk n` is what block number `n` carries. -/
def DlLink.step (blk : Nat → Block) (s : DlLink) : DlLinkEv → Res DlLink
  | .send n => .ok { s with net := { s.net with vs := max s.net.vs (n + 1) }, down := s.down ++ [(n % 128, blk n)] }
  | .downArrives =>
    match s.down with
    | [] => .ok s
    | (bsn, b) :: down => do
      let (ms, frames) ← s.ms.rcv bsn b
      .ok { s with ms, down, given := s.given ++ frames }
  | .downLost => .ok { s with down := s.down.drop 1 }
  | .report => .ok { s with up := s.up ++ [s.ms.report] }
  | .upArrives =>
    match s.up with
    | [] => .ok s
    | d :: up => .ok { s with up, net := s.net.hear d }
  | .upLost => .ok { s with up := s.up.drop 1 }

/-- What the network keeps to: it sends only until told that all has been received; new blocks in order, no block
`window` or more above the lowest one not acknowledged (9.1.3: the window size is 64), none below that. -/
def DlLink.Allowed (window total : Nat) (s : DlLink) : DlLinkEv → Prop
  | .send n => s.net.done = false ∧ n < total ∧ n ≤ s.net.vs ∧ s.net.va ≤ n ∧ n < s.net.va + window
  | _ => True

/-- The states a transfer can get into. -/
inductive DlLink.Reached (blk : Nat → Block) (window total : Nat) : DlLink → Prop
  | init : DlLink.Reached blk window total DlLink.init
  | step {s s' : DlLink} {e : DlLinkEv} : DlLink.Reached blk window total s → s.Allowed window total e →
      s.step blk e = .ok s' → DlLink.Reached blk window total s'

/-- Several events. -/
def DlLink.run (blk : Nat → Block) : List DlLinkEv → DlLink → Res DlLink
  | [], s => .ok s
  | e :: es, s => do
    let s' ← s.step blk e
    DlLink.run blk es s'

/-- A round in which nothing gets lost: the network sends the lowest block not acknowledged; it and all blocks under
way before it arrive; the mobile station reports; the report and all reports under way before it arrive. -/
def DlLink.round (s : DlLink) : List DlLinkEv :=
  .send s.net.va :: (List.replicate (s.down.length + 1) .downArrives ++
    .report :: List.replicate (s.up.length + 1) .upArrives)

/-- The transfer comes to its end within `k` such rounds. -/
inductive DlLink.EndsWithin (blk : Nat → Block) : Nat → DlLink → Prop
  | over {k : Nat} {s : DlLink} : s.net.done = true → DlLink.EndsWithin blk k s
  | round {k : Nat} {s s' : DlLink} : DlLink.run blk s.round s = .ok s' → DlLink.EndsWithin blk k s' →
      DlLink.EndsWithin blk (k + 1) s

end Verif.Spec
