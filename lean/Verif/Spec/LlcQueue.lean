import Verif.Rlc.LlcQueue

/-!
# Specification: the queue of LLC frames waiting for the uplink

Frames are sorted into twelve classes, served in the order of their number: by radio priority 1 to 4, and within
it GMM (SAPI 1) before TOM and SMS (SAPI 2, 7, 8) before everything else.
-/
namespace Verif.Spec

open Verif.Rlc

/-- Radio priorities outside of 1..4 count as the nearest one. -/
def classOf (sapi radioPrio : Nat) : Nat :=
  (min (max radioPrio 1) 4 - 1) * 3 + (if sapi = 1 then 0 else if sapi ∈ [2, 7, 8] then 1 else 2)

/-- What was handed in and what came out since the queue was last cleared, for each class. -/
structure QLog where
  accepted : Nat → List Octets
  delivered : Nat → List Octets

/-- An empty log. -/
def QLog.init : QLog := ⟨fun _ => [], fun _ => []⟩

/-- The log after an event and what came out. -/
def QLog.note (l : QLog) : QEv → Option (Octets × Nat) → QLog
  | .enq data sapi prio _, _ =>
    { l with accepted := fun c => if c = classOf sapi prio then l.accepted c ++ [data] else l.accepted c }
  | .deq _, some (data, k) => { l with delivered := fun c => if c = k then l.delivered c ++ [data] else l.delivered c }
  | .clear, _ => QLog.init
  | _, _ => l

/-- A history of events. -/
def qrun : List QEv → UlQueues × QLog → Res (UlQueues × QLog)
  | [], s => .ok s
  | e :: es, (s, l) =>
    match s.step e with
    | .ok (s', out) => qrun es (s', l.note e out)
    | .err x => .err x
    | .ub f => .ub f

/-- The frames of a class in a queue. -/
def inQueue (q : LlcQ) (c : Nat) : List Octets := (q.pq c).frames.map (·.data)

/-- The frames of a class in the frozen queue of the TBF. -/
def inFrozen (s : UlQueues) (c : Nat) : List Octets :=
  match s.frozen with
  | some q => inQueue q c
  | none => []

/-- All frames waiting, those frozen first. -/
def waiting (s : UlQueues) (c : Nat) : List Octets := inFrozen s c ++ inQueue s.gre c

/-- The queue frames are taken from: the frozen one once there is one. -/
def serving (s : UlQueues) : LlcQ := s.frozen.getD s.gre

/-- The counters of a queue tell the number of its frames and of their octets. -/
def CountersRight (q : LlcQ) : Prop :=
  q.size = ((List.range 12).map fun c => (inQueue q c).length).sum ∧
  q.octets = ((List.range 12).map fun c => ((inQueue q c).map List.length).sum).sum

/-- Events with a frame hand in a frame that is not empty. -/
def NonEmpty : QEv → Prop
  | .enq data _ _ _ => data ≠ []
  | _ => True

/-- In this history, whenever the TBF is freed, at most one frame of each class is frozen. -/
def GentleMerges : List QEv → UlQueues → Prop
  | [], _ => True
  | e :: es, s => (e = .tbfFreed → ∀ c, (inFrozen s c).length ≤ 1) ∧
    match s.step e with
    | .ok (s', _) => GentleMerges es s'
    | _ => True

/-- TS 44.060, table 12.7.2: the octets of all frames and a length octet for each, over all classes. -/
def requestedOctets (q : LlcQ) : Nat :=
  (((List.range 12).map fun c => ((inQueue q c).map fun d => d.length + 1).sum)).sum

end Verif.Spec
