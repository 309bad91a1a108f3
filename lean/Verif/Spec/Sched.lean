import Verif.Rlc.Ctx
import Verif.Spec.UlTbf

/-!
# Specification: what a ready-to-send indication should come to

Stated on the state of the context in which the block is to be chosen.
-/
namespace Verif.Spec
open Verif Verif.Rlc

/-- The uplink blocks handed to the lower layer: timeslot, frame number, entity and kind. -/
def blocksIn (outs : List CtxOut) : List (Nat × Nat × Nat × UlBlk) :=
  outs.filterMap fun o => match o with | .block ts fn n b => some (ts, fn, n, b) | _ => none

/-- The uplink block announced with `usf` in timeslot `ts` belongs to the uplink TBF of the entity. -/
def OwnsBlock (g : Gre) (ts usf : Nat) : Prop := ∃ id t, g.ul = some (id, t) ∧ MaySend t ts usf

/-- The uplink TBF of the entity is transferring data: assigned, and not being released. -/
def Transfers (g : Gre) : Prop := ∃ id t, g.ul = some (id, t) ∧ (t.st = .flow ∨ t.st = .finished)

/-- Entity `n` has a data block to send in this uplink block. -/
def DataDue (s : Ctx) (o : Avail) (ts usf n : Nat) : Prop :=
  ∃ g ∈ s.es, g.n = n ∧ OwnsBlock g ts usf ∧ Transfers g ∧ o.block n ≠ none

/-- At most one uplink TBF was given this uplink block by the network. -/
def OneOwner (s : Ctx) (ts usf : Nat) : Prop :=
  ∀ g ∈ s.es, ∀ g' ∈ s.es, OwnsBlock g ts usf → OwnsBlock g' ts usf → g = g'

/-- Entity `n` has to send a PACKET RESOURCE REQUEST, and this uplink block is the one it was given for it: on the
timeslot of the first assignment, at its starting time if it was a single block, else announced with its USF. -/
def ResReqDue (s : Ctx) (fn ts usf n : Nat) : Prop :=
  ∃ g ∈ s.es, g.n = n ∧ ∃ id t, g.ul = some (id, t) ∧ t.ass = .schedResReq ∧
    ∃ u, t.p1.usf ts = some u ∧
      (t.sba = true ∧ (t.startExists = true → t.startFn = fn) ∨ t.sba = false ∧ u = usf)

/-- This uplink block was reserved by a poll for entity `n`: with an uplink assignment it still waits to begin, with a
downlink assignment, in an acknowledgement of its data, or in a downlink data block. -/
def PollDue (s : Ctx) (fn ts n : Nat) : Prop :=
  ∃ x ∈ s.polls.getD ts [], x.fn = fn ∧ ∃ g ∈ s.es, g.n = n ∧
    (x.reason = .ulAss ∧ (∃ id t, x.owner = .tbf id ∧ g.ul = some (id, t) ∧ t.ass = .waitStart2) ∨
     x.reason = .ulAck ∧ (∃ id t, x.owner = .tbf id ∧ g.ul = some (id, t)) ∨
     x.reason = .dlAss ∧ x.owner = .gre n ∨
     x.reason = .dlAck ∧ (∃ d, x.owner = .tbf d.id ∧ g.dl = some d))

/-- Some control message is due in this uplink block. -/
def CtrlDue (s : Ctx) (fn ts usf : Nat) : Prop := ∃ n, PollDue s fn ts n ∨ ResReqDue s fn ts usf n

/-- The kind of a block is neither data nor dummy. -/
def IsCtrl (b : UlBlk) : Prop := b ≠ .data ∧ b ≠ .dummy

/-- What one ready-to-send indication may come to, when the block is chosen in state `s1`. -/
structure GoodRts (s1 : Ctx) (o : Avail) (fn ts usf : Nat) (outs : List CtxOut) : Prop where
  /-- at most one block, for this very timeslot and frame number -/
  one : blocksIn outs = [] ∨ ∃ n b, blocksIn outs = [(ts, fn, n, b)]
  /-- data only of a TBF that has data and that the block belongs to -/
  data : ∀ n, (ts, fn, n, .data) ∈ blocksIn outs → DataDue s1 o ts usf n
  /-- a dummy block only of a TBF that the block belongs to and that has no data -/
  dummy : ∀ n, (ts, fn, n, .dummy) ∈ blocksIn outs →
    (∃ g ∈ s1.es, g.n = n ∧ OwnsBlock g ts usf) ∧ ¬ DataDue s1 o ts usf n
  /-- neither data nor dummy as long as a control message is due (and can be encoded) -/
  ctrlFirst : (∀ k, o.enc k = true) → CtrlDue s1 fn ts usf → ∃ n b, (ts, fn, n, b) ∈ blocksIn outs ∧ IsCtrl b
  /-- nothing is left out: a block that belongs to a TBF is used -/
  used : (∀ k, o.enc k = true) → (∃ g ∈ s1.es, OwnsBlock g ts usf) → blocksIn outs ≠ []

/-- No dummy block is sent as long as any TBF the block belongs to has data. -/
def DataFirst (s1 : Ctx) (o : Avail) (fn ts usf : Nat) (outs : List CtxOut) : Prop :=
  ∀ n, (ts, fn, n, .dummy) ∈ blocksIn outs → ∀ m, ¬ DataDue s1 o ts usf m

/-- The answer to a poll: which kind of block entity `n` has to send (`g`: its state). -/
def AnswerTo (x : PollNode) (g : Gre) (o : Avail) (b : UlBlk) : Prop :=
  match x.reason with
  | .ulAck => b = if g.ul.any (fun u => u.2.st == .releasing && u.2.hasTbfEst) && o.queued g.n && g.dl.isNone
      then .resReq else .ctrlAck
  | .ulAss => b = .ctrlAck
  | .dlAss => b = .ctrlAck
  | .dlAck => b = .dlAck (g.dl.any fun d => d.st == .finished) (g.ul.isNone && o.queued g.n)
  | .cellChgContinue => False

/-- The entity that was polled. -/
def Polled (x : PollNode) (g : Gre) : Prop :=
  match x.owner with
  | .tbf i => (∃ t, g.ul = some (i, t)) ∨ ∃ d, g.dl = some d ∧ d.id = i
  | .gre n => g.n = n

/-- The one who was polled is there: the uplink TBF, the downlink TBF or the entity, as the reason for the poll has it. -/
def PolledLives (s : Ctx) (x : PollNode) : Prop :=
  match x.reason with
  | .ulAss | .ulAck => ∃ g ∈ s.es, ∃ i t, x.owner = .tbf i ∧ g.ul = some (i, t)
  | .dlAck => ∃ g ∈ s.es, ∃ d, x.owner = .tbf d.id ∧ g.dl = some d
  | .dlAss => ∃ g ∈ s.es, x.owner = .gre g.n
  | .cellChgContinue => False

/-- What a well-formed message or a working lower layer can bring, whatever the state: eight timeslots, downlink blocks
at their place in the frame structure, two bits of RRBP, valid starting times, uplink assignments with a dynamic
allocation of at least one timeslot, a lower layer that takes random access requests. -/
def WellFormed : CtxEv → Prop
  | .rts o _ ts _ => ts < 8 ∧ o.rachOk = true
  | .pktUlAss _ m poll fn ts => ts < 8 ∧ ValidPktUlAss m ∧ ValidPoll poll ∧ BlockStart fn
  | .ulAck _ _ poll _ fn ts => ts < 8 ∧ ValidPoll poll ∧ BlockStart fn
  | .pktDlAss _ _ start _ _ poll fn ts => ts < 8 ∧ ValidStart? start ∧ ValidPoll poll ∧ BlockStart fn
  | .dlData _ _ poll fn ts => ts < 8 ∧ ValidPoll poll ∧ BlockStart fn
  | .immAssUl m _ _ => ValidImmAss m
  | .immAssDl _ _ start _ _ => ValidStart? start ∧ ∀ k, start ≠ some (.rel k)
  | _ => True

/-- What is expected besides, in state `s`: no acknowledgement reaches a TBF in contention resolution that has not sent a
block (C27); when a TBF being released may ask for a new one in the block it is polled in, that block belongs to it; and
no entity is given up while an answer of it is outstanding. -/
def InTurn (s : Ctx) : CtxEv → Prop
  | .rts o fn ts usf =>
    ∀ x ∈ s.polls.getD ts [], x.fn = fn → x.reason = .ulAck → ∀ i, x.owner = .tbf i →
      ∀ g ∈ s.es, ∀ t, g.ul = some (i, t) → t.st = .releasing → t.hasTbfEst = true → o.queued g.n = true →
        g.dl = none → MaySend t ts usf
  | .ulAck tfi _ _ _ _ _ => ∀ g ∈ s.es, ∀ i t, g.ul = some (i, t) → t.cur.tfi = tfi → ¬ BeforeFirstBlock t
  | .assign old new _ _ =>
    old ≠ noTlli → new = noTlli → ∀ g ∈ s.es, (g.names.tlli = old ∨ g.names.oldTlli = old) →
      ∀ l ∈ s.polls, ∀ x ∈ l, x.owner ≠ .gre g.n
  | _ => True

/-- All events of a history are well-formed and in turn. -/
def CtxAsExpected (env : UlEnv) : Ctx → List CtxEv → Prop
  | _, [] => True
  | s, e :: es => WellFormed e ∧ InTurn s e ∧ ∀ s' o, s.step env e = .ok (s', o) → CtxAsExpected env s' es

end Verif.Spec
