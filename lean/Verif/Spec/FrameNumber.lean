/-!
# Specification: radio blocks and frame numbers

TS 45.002: a hyperframe has 2715648 frames.  Three radio blocks of four frames and an idle frame make 13 frames, so
radio block number `n` of a hyperframe begins with frame `13 * (n / 3) + 4 * (n % 3)`, and there are 626688 blocks.
-/
namespace Verif.Spec

/-- First frame of radio block `n` since the start of the hyperframe, not wrapped around. -/
def blockFn (n : Nat) : Nat := 13 * (n / 3) + 4 * (n % 3)

/-- Radio blocks per hyperframe. -/
def blocksPerHyperframe : Nat := 626688

/-- Frames per hyperframe. -/
def framesPerHyperframe : Nat := 2048 * 26 * 51

/-- TS 44.060, table 10.4.5.1: the distance in frames announced by an RRBP value, in two cases an alternative. -/
def RrbpDistance : Nat → Nat → Prop
  | 0, d => d = 13
  | 1, d => d = 17 ∨ d = 18
  | 2, d => d = 21 ∨ d = 22
  | 3, d => d = 26
  | _, _ => False

/-- TS 44.060, 10.4.5: the radio blocks by which the poll response follows, equivalently: 3, 4, 5 and 6 blocks. -/
def rrbpBlocks (rrbp : Nat) : Nat := rrbp + 3

end Verif.Spec
