import Mathlib.Algebra.Polynomial.Div
import Mathlib.Data.ZMod.Defs
import Mathlib.Algebra.Field.ZMod

/-!
# Specification: the frame check sequence of 3GPP TS 44.064 section 5.5

Independent of the model: bit strings are polynomials over GF(2), the FCS is defined by polynomial
division.
-/
namespace Verif.Spec

open Polynomial

/-- The generator polynomial of TS 44.064 section 5.5. -/
noncomputable def crc24Gen : (ZMod 2)[X] :=
  X^24 + X^23 + X^21 + X^20 + X^19 + X^17 + X^16 + X^15 + X^13 + X^8 + X^7 + X^5 + X^4 + X^2 + 1

/-- A bit as an element of GF(2). -/
def gf2 (b : Bool) : ZMod 2 := if b then 1 else 0

/-- A bit string in order of transmission as a polynomial: the first transmitted bit is the
coefficient of the highest power. -/
noncomputable def bitsPoly : List Bool → (ZMod 2)[X]
  | [] => 0
  | b :: bs => C (gf2 b) * X ^ bs.length + bitsPoly bs

/-- The bits of an octet in order of transmission (least significant bit first). -/
def octetBits (b : UInt8) : List Bool := (List.range 8).map fun i => b.toNat.testBit i

/-- The bits of a frame in order of transmission. -/
def frameBits (l : List UInt8) : List Bool := l.flatMap octetBits

/-- The 24 bits of an FCS value in order of transmission (least significant bit first). -/
def fcsBits (f : Nat) : List Bool := (List.range 24).map fun i => f.testBit i

/-- `x^23 + x^22 + ... + 1`. -/
noncomputable def ones24 : (ZMod 2)[X] := bitsPoly (List.replicate 24 true)

/-- `f` is the FCS of the bit string `bits` (TS 44.064 section 5.5): a 24-bit number which is the ones
complement of the sum of the remainder of `x^k (x^23 + ... + 1)` and the remainder of `x^24 D(x)`
upon division by the generator, where `k` is the number of bits and `D` their polynomial. -/
def IsFcs (bits : List Bool) (f : Nat) : Prop :=
  f < 2 ^ 24 ∧
  bitsPoly (fcsBits f) =
    ones24 + ((X ^ bits.length * ones24) %ₘ crc24Gen + (X ^ 24 * bitsPoly bits) %ₘ crc24Gen)

end Verif.Spec
