import Verif.Basic

/-!
# Bit vectors

libosmocore's `struct bitvec` (not part of /repo) writes bit `i` of a vector into octet `i / 8`, most
significant bit first (`bitvec_set_bit`, `bitvec_get_bit_pos`).
-/
namespace Verif

/-- Octet made of eight bits, most significant first. -/
def octetOfBits (b : Nat → Bool) : UInt8 :=
  UInt8.ofNat ((b 0).toNat * 128 + (b 1).toNat * 64 + (b 2).toNat * 32 + (b 3).toNat * 16 +
    (b 4).toNat * 8 + (b 5).toNat * 4 + (b 6).toNat * 2 + (b 7).toNat)

/-- `n` octets filled by writing the bits `b 0`, `b 1`, ... with `bitvec_set_bit`. -/
def packBits (n : Nat) (b : Nat → Bool) : Octets :=
  (List.range n).map fun j => octetOfBits fun i => b (8 * j + i)

/-- Bit `i` of an octet string, most significant bit of the first octet first (`bitvec_get_bit_pos`);
`false` outside. -/
def bitAt (o : Octets) (i : Nat) : Bool :=
  match o[i / 8]? with
  | some x => x.toNat / 2 ^ (7 - i % 8) % 2 == 1
  | none => false

theorem octetOfBits_bit (b : Nat → Bool) (i : Nat) (h : i < 8) :
    ((octetOfBits b).toNat / 2 ^ (7 - i) % 2 == 1) = b i := by
  have key : ∀ b0 b1 b2 b3 b4 b5 b6 b7 : Bool,
      let x := (UInt8.ofNat (b0.toNat * 128 + b1.toNat * 64 + b2.toNat * 32 + b3.toNat * 16 +
        b4.toNat * 8 + b5.toNat * 4 + b6.toNat * 2 + b7.toNat)).toNat
      (x / 128 % 2 == 1) = b0 ∧ (x / 64 % 2 == 1) = b1 ∧ (x / 32 % 2 == 1) = b2 ∧ (x / 16 % 2 == 1) = b3 ∧
      (x / 8 % 2 == 1) = b4 ∧ (x / 4 % 2 == 1) = b5 ∧ (x / 2 % 2 == 1) = b6 ∧ (x / 1 % 2 == 1) = b7 := by
    decide +kernel
  have k := key (b 0) (b 1) (b 2) (b 3) (b 4) (b 5) (b 6) (b 7)
  unfold octetOfBits
  rcases i with _ | _ | _ | _ | _ | _ | _ | _ | i
  · exact k.1
  · exact k.2.1
  · exact k.2.2.1
  · exact k.2.2.2.1
  · exact k.2.2.2.2.1
  · exact k.2.2.2.2.2.1
  · exact k.2.2.2.2.2.2.1
  · exact k.2.2.2.2.2.2.2
  · omega

theorem bitAt_packBits (n : Nat) (b : Nat → Bool) (i : Nat) (h : i < 8 * n) : bitAt (packBits n b) i = b i := by
  have hj : i / 8 < n := by omega
  simp only [bitAt, packBits, List.getElem?_map, List.getElem?_range hj, Option.map_some]
  rw [octetOfBits_bit _ _ (Nat.mod_lt _ (by omega))]
  congr 1
  omega

theorem packBits_length (n : Nat) (b : Nat → Bool) : (packBits n b).length = n := by simp [packBits]

end Verif
