import Verif.Rlc.WindowUl

/-!
# Specification: what an observer of the uplink notes, with unbounded block numbers

The observer numbers the blocks of the TBF 0, 1, 2, ... in the order they are sent for the first time
(block `n` carries BSN `n mod 128`) and writes down, for each of them, the latest news: sent, reported as
received, or reported as missing.  The observer sees the requests to send, the block that is sent and why,
and the Packet Uplink Ack/Nack messages; nothing else of the sender.
-/
namespace Verif.Spec

open Verif.Rlc

/-- The latest news about a block. -/
inductive News where
  | sent | acked | missing
  deriving DecidableEq, Repr

/-- The observer's notes: the number of different blocks sent so far (since the last final ack), and the
latest news about each. -/
structure UlNotes where
  sent : Nat
  news : Nat → News

/-- The oldest block that is not acknowledged, or `sent` if all are. -/
def UlNotes.base (h : UlNotes) : Nat :=
  ((List.range h.sent).takeWhile fun n => decide (h.news n = .acked)).length

/-- What a Packet Uplink Ack/Nack says about block `n` (3GPP TS 44.060, 12.3): its SSN stands for the block
number `S`, `base ≤ S < base + 128`, with `S mod 128 = SSN`; if `S` is not more than 64 above `base`, bit
number `S - n` of the bitmap, counted 1 to 64 from the end, speaks of block `n`, for all blocks from `base`
on that have been sent. -/
def UlNotes.reported (h : UlNotes) (d : UlAckDesc) (n : Nat) : Option Bool :=
  let S := h.base + (d.ssn + 128 - h.base % 128) % 128
  if S ≤ h.base + 64 ∧ h.base ≤ n ∧ n < S ∧ n < h.sent then some (bitAt d.rbb (64 - (S - n))) else none

/-- The block at or above `base` that carries `bsn`. -/
def UlNotes.blockOf (h : UlNotes) (bsn : Nat) : Nat := h.base + (bsn + 128 - h.base % 128) % 128

/-- The notes after an event.  A block repeated only because there is nothing else to send is no news. -/
def UlNotes.note (h : UlNotes) : UlEv → Option (Nat × UlTxKind) → UlNotes
  | .rts _, some (_, .new) => { sent := h.sent + 1, news := fun n => if n = h.sent then .sent else h.news n }
  | .rts _, some (bsn, .retransmit) =>
    { h with news := fun n => if n = h.blockOf bsn then .sent else h.news n }
  | .rts _, _ => h
  | .ackNack d, _ =>
    if d.finalAck then { sent := 0, news := fun _ => .sent }
    else { h with news := fun n => match h.reported d n with
                                   | some true => .acked
                                   | some false => .missing
                                   | none => h.news n }

/-- Notes before anything is sent. -/
def UlNotes.init : UlNotes := { sent := 0, news := fun _ => .sent }

/-- The sender and the observer over a history of events; `none` if the sender ever fails to answer. -/
def observe : List UlEv → UlWin × UlNotes → Option (UlWin × UlNotes)
  | [], s => some s
  | e :: es, (w, h) =>
    match w.step e with
    | none => none
    | some (w', o) => observe es (w', h.note e o)

/-- The SSN of a Packet Uplink Ack/Nack has 7 bits. -/
def WfUlEv : UlEv → Prop
  | .rts _ => True
  | .ackNack d => d.ssn < 128

end Verif.Spec
