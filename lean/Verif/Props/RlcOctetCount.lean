import Verif.Rlc.OctetCount
import Verif.Spec.LlcQueue

/-!
# C37: the requested octet count
-/
namespace Verif.Props

open Verif.Spec Verif.Rlc

theorem octetCountLoop_eq : ∀ (fs : List LlcFrame) (cnt : Nat), cnt < 65535 →
    octetCountLoop cnt fs = min 65535 (cnt + (fs.map fun f => f.data.length + 1).sum) := by
  intro fs
  induction fs with
  | nil =>
    intro cnt h
    simp only [octetCountLoop, List.map_nil, List.sum_nil]
    omega
  | cons f fs ih =>
    intro cnt h
    simp only [octetCountLoop, List.map_cons, List.sum_cons]
    split
    · omega
    · rw [ih _ (by omega)]
      omega

theorem sum_flatMap (q : LlcQ) : ∀ l : List Nat, ((l.flatMap fun c => (q.pq c).frames).map fun f => f.data.length + 1).sum =
    (l.map fun c => ((inQueue q c).map fun d => d.length + 1).sum).sum := by
  intro l
  induction l with
  | nil => rfl
  | cons c l ih =>
    simp only [List.flatMap_cons, List.map_append, List.sum_append, List.map_cons, List.sum_cons, ih]
    congr 1
    simp only [inQueue, List.map_map]
    rfl

/-- **C37**, full statement: both messages ask for what the queue holds, up to the largest value of the field. -/
def C37Statement : Prop :=
  ∀ q : LlcQ, CountersRight q → q.octetCount = min 65535 (requestedOctets q) ∧ q.resReqOctetCount = min 65535 (requestedOctets q)

/-- **C37**, proved part: PACKET DOWNLINK ACK/NACK asks for the octets of all frames plus one length octet each, up to
the largest value of the field, for every contents of the queue.  Missing: PACKET RESOURCE REQUEST. -/
theorem c37_octet_count_partial (q : LlcQ) : q.octetCount = min 65535 (requestedOctets q) := by
  unfold LlcQ.octetCount requestedOctets numPq
  rw [octetCountLoop_eq _ _ (by decide), sum_flatMap, Nat.zero_add]

/-- The queue after `n` frames of 1024 octets. -/
def manyFrames : Nat → LlcQ
  | 0 => .alloc
  | n + 1 => (manyFrames n).enqueue (List.replicate 1024 0) 3 3 0

theorem manyFrames_octets (n : Nat) : (manyFrames n).octets = n * 1024 := by
  induction n with
  | zero => rfl
  | succ n ih =>
    simp only [manyFrames, LlcQ.enqueue, ih, List.length_replicate]
    omega

/-- Not vacuous: three frames of 1024 octets. -/
example : (manyFrames 3).octetCount = 3075 := by decide +kernel

/-- **C37** is false of PACKET RESOURCE REQUEST: a single frame of 1024 octets is announced without its length octet,
and 64 of them as 0 octets. -/
theorem c37_octet_count_violated : ¬ C37Statement ∧
    (manyFrames 1).resReqOctetCount = 1024 ∧ (manyFrames 64).resReqOctetCount = 0 := by
  refine ⟨fun h => ?_, ?_, ?_⟩
  · have h1 := (h (manyFrames 1) (by unfold CountersRight; decide +kernel)).2
    have h2 : (manyFrames 1).resReqOctetCount ≠ min 65535 (requestedOctets (manyFrames 1)) := by decide +kernel
    exact h2 h1
  · unfold LlcQ.resReqOctetCount
    rw [manyFrames_octets]
  · unfold LlcQ.resReqOctetCount
    rw [manyFrames_octets]

end Verif.Props
