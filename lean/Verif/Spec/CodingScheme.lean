/-!
# Specification: retransmission of EGPRS blocks

TS 44.060, tables 8.1.1.1 and 8.1.1.2: a block is retransmitted with the fastest scheme in question for it that is not
above the commanded one, or with the slowest in question if all are above.  Schemes are the numbers of MCS-1 … MCS-9.
-/
namespace Verif.Spec

/-- The schemes a block first sent with MCS-`i` may be sent again with, resegmentation allowed (in ascending order). -/
def retxChoices : Nat → List Nat
  | 1 => [1]
  | 2 => [2]
  | 3 => [3]
  | 4 => [1, 4]
  | 5 => [2, 5, 7]
  | 6 => [3, 6, 9]
  | 7 => [2, 5, 7]
  | 8 => [3, 6, 8]
  | 9 => [3, 6, 9]
  | _ => []

/-- Without resegmentation, the payload of the block must not be split: the schemes with half the payload are out. -/
def retxChoicesWhole : Nat → List Nat
  | 1 => [1]
  | 2 => [2]
  | 3 => [3]
  | 4 => [4]
  | 5 => [5, 7]
  | 6 => [6, 9]
  | 7 => [5, 7]
  | 8 => [6, 8]
  | 9 => [6, 9]
  | _ => []

/-- The numbers of the first and the last scheme of a kind: CS-1 … CS-4 are 1 … 4,
MCS-1 … MCS-9 are 5 … 13, of which MCS-1 … MCS-4 use GMSK. -/
structure KindRange where
  first : Nat
  last : Nat

/-- CS-1 … CS-4. -/
def gprsRange : KindRange := ⟨1, 4⟩
/-- MCS-1 … MCS-4. -/
def egprsGmskRange : KindRange := ⟨5, 8⟩
/-- MCS-1 … MCS-9. -/
def egprsRange : KindRange := ⟨5, 13⟩

/-- `m` is the right choice among `l` for commanded scheme `c`. -/
def RightChoice (l : List Nat) (c m : Nat) : Prop :=
  m ∈ l ∧ (m ≤ c ∧ (∀ x ∈ l, x ≤ c → x ≤ m) ∨ (∀ x ∈ l, c < x) ∧ ∀ x ∈ l, m ≤ x)

end Verif.Spec
