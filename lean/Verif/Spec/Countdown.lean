import Verif.Rlc.Countdown

/-!
# Specification: the countdown value

TS 44.060, 9.3.1.1: with a single timeslot, a block carries the number of blocks of the TBF that follow it as its
countdown value if this number is not above BS_CV_MAX, and 15 otherwise.  The block with countdown value 0 is the
last one.
-/
namespace Verif.Spec

open Verif.Rlc

/-- The data `q` is sent completely in `n` blocks of `len` octets of payload, the last of them with countdown value
0, the others with another one (the block encoder distinguishes no others). -/
def Drains (len : Nat) (tlli : Option Nat) : Nat → List Octets → Prop
  | 0, q => q = []
  | 1, q => ∃ b, createBlock len 0 tlli q = .ok (b, [])
  | n + 2, q => ∃ b q', createBlock len 1 tlli q = .ok (b, q') ∧ Drains len tlli (n + 1) q'

/-- A history of events of one TBF, with the blocks it sends. -/
def cdRun : List CdEv → Cd × TxParams → Res (List UlBlock × Cd × TxParams)
  | [], sp => .ok ([], sp)
  | e :: es, sp =>
    match Cd.step sp e with
    | .ok (b, sp') =>
      match cdRun es sp' with
      | .ok (bs, sp'') => .ok (b.toList ++ bs, sp'')
      | .err x => .err x
      | .ub f => .ub f
    | .err x => .err x
    | .ub f => .ub f

/-- The payload sizes in question: at least three octets besides the TLLI (CS-1 leaves 16), fewer than 64. -/
def SizeOk (len : Nat) (tlli : Option Nat) : Prop := (if tlli.isSome then 4 else 0) + 3 ≤ len ∧ len < 64

/-- Frames are not empty; sizes are possible ones. -/
def CdEvOk : CdEv → Prop
  | .enq _ f => f ≠ []
  | .change len tlli => SizeOk len tlli
  | .block => True

/-- A new TBF. -/
def Cd.init : Cd := ⟨false, 0, []⟩

end Verif.Spec
