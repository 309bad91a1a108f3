import Verif.Rlc.TbfDl

/-!
# Specification: an ideal RLC receiver with unbounded block numbers (3GPP TS 44.060, 9.1.5-9.1.7)

The sender numbers its blocks 0, 1, 2, ... without wrap-around; block `n` carries BSN `n mod 128` on the
air.  A history is the list of the numbers of the blocks in the order they arrive, with losses,
retransmissions and reordering.
-/
namespace Verif.Spec

/-- `q` is the lowest block number that has not arrived. -/
def LowestMissing (h : List Nat) (q : Nat) : Prop := q ∉ h ∧ ∀ n, n < q → n ∈ h

/-- `r` is one above the highest block number that has arrived (0 if none has). -/
def OneAboveHighest (h : List Nat) (r : Nat) : Prop := (∀ n ∈ h, n < r) ∧ (r = 0 ∨ r - 1 ∈ h)

/-- The sender keeps to its window of 64 blocks: every block that arrives is at most 63 above, and at most
64 below, the lowest number missing so far. -/
def RespectsWindow (h : List Nat) : Prop :=
  ∀ p n s, h = p ++ n :: s → ∀ q, LowestMissing p q → n < q + 64 ∧ q ≤ n + 64

end Verif.Spec
