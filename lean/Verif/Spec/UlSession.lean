import Verif.Rlc.UlSender
import Verif.Spec.UlLink
import Verif.Spec.Countdown

/-!
# Specification: a mobile station that sends frames in one uplink TBF after the other

The mobile station is handed frames at any time.  A TBF takes those that come before its countdown; the others wait
for the next TBF.  Radio link and network are those of `Verif.Spec.UlLink`; the network also commands coding schemes.
-/
namespace Verif.Spec

open Verif.Rlc

/-- The TBF with blocks and reports (with the coding scheme commanded) under way and the receiver in the network; the
frames waiting for the next TBF; and on record: the blocks composed and the frames taken by this TBF, whether it
is over, the transfers before it, and all frames in the order in which they were handed over. -/
structure Session where
  snd : UlSnd
  up : List (Nat × UlBlock)
  net : UlNet
  down : List (UlAckDesc × Nat)
  composed : List UlBlock
  offered : List Octets
  done : Bool
  later : List Octets
  past : List UlLink
  arrived : List Octets

/-- The TBF as a transfer in the sense of `Verif.Spec.UlLink`. -/
def Session.cur (s : Session) : UlLink where
  tx := s.snd.tx
  up := s.up
  net := s.net
  down := s.down.map Prod.fst
  composed := s.composed
  offered := s.offered
  done := s.done

/-- The first TBF starts, with frames `q`. -/
def Session.init (p : TxParams) (q : List Octets) : Session where
  snd := UlSnd.init p q
  up := []
  net := { got := fun _ => none, vr := 0 }
  down := []
  composed := []
  offered := q
  done := false
  later := []
  past := []
  arrived := q

/-- What happens. -/
inductive SessionEv where
  /-- the mobile station has to send a block; with or without preemptive retransmission -/
  | send (preemptive : Bool)
  /-- the mobile station is given a further frame -/
  | frame (f : Octets)
  /-- the oldest block under way arrives / is lost -/
  | upArrives | upLost
  /-- the network reports, and commands a coding scheme -/
  | report (d : UlAckDesc) (ccc : Nat)
  /-- the oldest report under way arrives / is lost -/
  | downArrives | downLost
  /-- the next TBF starts -/
  | next (p : TxParams)

/-- One event. -/
def Session.step (s : Session) : SessionEv → Res Session
  | .send pre => do
    let (snd, bsn, b, k) ← s.snd.dataCreate pre
    .ok { s with snd, up := s.up ++ [(bsn, b)], composed := if k = .new then s.composed ++ [b] else s.composed }
  | .frame f =>
    if s.snd.active then .ok { s with later := s.later ++ [f], arrived := s.arrived ++ [f] }
    else .ok { s with snd := { s.snd with tx := { s.snd.tx with q := s.snd.tx.q ++ [f] } },
                      offered := s.offered ++ [f], arrived := s.arrived ++ [f] }
  | .upArrives =>
    match s.up with
    | [] => .ok s
    | (bsn, b) :: up => .ok { s with up, net := s.net.take bsn b }
  | .upLost => .ok { s with up := s.up.drop 1 }
  | .report d ccc => .ok { s with down := s.down ++ [(d, ccc)] }
  | .downArrives =>
    match s.down with
    | [] => .ok s
    | (d, ccc) :: down => do
      let (snd, fin) ← s.snd.ackNack d ccc
      .ok { s with down, snd, done := s.done || fin }
  | .downLost => .ok { s with down := s.down.drop 1 }
  | .next p => .ok { Session.init p s.later with past := s.past ++ [s.cur], arrived := s.arrived }

/-- The parameters of a TBF: GPRS coding schemes (20 to 50 octets), BS_CV_MAX of four bits, at least one timeslot. -/
def ParamsOk (p : TxParams) : Prop := SizeOk p.len p.tlli ∧ p.bsCvMax ≤ 15 ∧ 1 ≤ p.ntsK

/-- What is asked of the surroundings: frames are not empty; reports are truthful; blocks are asked for only after
the first frame; the next TBF starts after the one before is over, and if there is something to send. -/
def Session.Allowed (s : Session) : SessionEv → Prop
  | .frame f => f ≠ []
  | .next p => s.done = true ∧ s.later ≠ [] ∧ ParamsOk p
  | .send _ => s.done = false ∧ s.offered ≠ []
  | .report d ccc => s.done = false ∧ s.net.Truthful d ∧ ccc < 4
  | _ => s.done = false

/-- The states a session can get into, with TBFs whose parameters satisfy `K` and events that satisfy `P`. -/
inductive Session.Reached (K : TxParams → Prop) (P : Session → SessionEv → Prop) : Session → Prop
  | init (p : TxParams) (q : List Octets) : ParamsOk p → K p → (∀ f ∈ q, f ≠ []) → Session.Reached K P (Session.init p q)
  | step {s s' : Session} {e : SessionEv} : Session.Reached K P s → s.Allowed e → P s e → (∀ p, e = .next p → K p) →
      s.step e = .ok s' → Session.Reached K P s'

/-- All frames the network has put together, of all transfers. -/
def Session.recovered (s : Session) : Option (List Octets) :=
  ((s.past ++ [s.cur]).mapM fun (l : UlLink) => l.net.recovered).map List.flatten

/-- Several events. -/
def Session.run : List SessionEv → Session → Res Session
  | [], s => .ok s
  | e :: es, s => do
    let s' ← s.step e
    Session.run es s'

/-- A block is sent; it and all blocks under way before it arrive. -/
def Session.sendRound (s : Session) (pre : Bool) : List SessionEv :=
  .send pre :: List.replicate (s.up.length + 1) .upArrives

/-- The network reports; the report and all reports under way before it arrive. -/
def Session.reportRound (s : Session) (d : UlAckDesc) (ccc : Nat) : List SessionEv :=
  .report d ccc :: List.replicate (s.down.length + 1) .downArrives

/-- A round in which nothing gets lost. -/
def Session.CalmRound (s s' : Session) : Prop :=
  ∃ pre s1 d ccc, s.Allowed (.send pre) ∧ Session.run (s.sendRound pre) s = .ok s1 ∧ s1.net.FullReport d ∧ ccc < 4 ∧
    Session.run (s1.reportRound d ccc) s1 = .ok s'

/-- No such round fails. -/
def Session.RoundsGoThrough (s : Session) : Prop :=
  ∀ pre, s.Allowed (.send pre) → ∃ s1, Session.run (s.sendRound pre) s = .ok s1 ∧
    ∀ d ccc, s1.net.FullReport d → ccc < 4 → ∃ s', Session.run (s1.reportRound d ccc) s1 = .ok s'

/-- The TBF comes to its end after finitely many rounds in which nothing gets lost and no further frame is added,
whatever coding schemes the network commands. -/
inductive Session.Completes : Session → Prop
  | over {s : Session} : s.done = true → Session.Completes s
  | round {s : Session} : s.RoundsGoThrough → (∀ s', s.CalmRound s' → Session.Completes s') → Session.Completes s

end Verif.Spec
