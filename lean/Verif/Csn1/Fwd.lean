import Verif.Csn1.Step

/-!
# Decoding forward, line by line

Equations for lines of a table met with enough bits left and a member that may be stored to.
-/
namespace Verif.Csn1

/-- The padding pattern 0x2B repeated. -/
def padAt (i : Nat) : Nat := bitAt [false, false, true, false, true, false, true, true] (i % 8)

/-- A bit relative to the padding pattern: 0 for L, 1 for H. -/
def lhAt (v : List Bool) (i : Nat) : Nat := if bitAt v i = padAt i then 0 else 1

theorem masked8_one (v : List Bool) (rd bo : Nat) (h : bo % 8 = rd % 8) : masked8 v rd bo 1 = (lhAt v rd, rd + 1) := by
  have hfin : ∀ (r : Fin 8) (a b c d e f g i : Fin 2),
      ((43 ^^^ (a.val * 2 ^ 7 + (b.val * 2 ^ 6 + (c.val * 2 ^ 5 + (d.val * 2 ^ 4 + (e.val * 2 ^ 3 + (f.val * 2 ^ 2 +
      (g.val * 2 ^ 1 + i.val)))))))) >>> (8 - r.val - 1)) &&& 1 =
      if [a, b, c, d, e, f, g, i].getD r.val 0 = padAt r.val then 0 else 1 := by decide +kernel
  have hb : ∀ i, bitAt v i < 2 := fun i => Nat.lt_succ_of_le (bitAt_le v i)
  have hr : rd % 8 < 8 := Nat.mod_lt _ (by decide)
  unfold masked8
  rw [h]
  simp only
  rw [if_pos (by omega)]
  refine Prod.ext ?_ (by dsimp only; omega)
  dsimp only
  have hp : rd = rd - rd % 8 + rd % 8 := by omega
  generalize hq : rd - rd % 8 = q at hp
  have := hfin ⟨_, hr⟩ ⟨_, hb q⟩ ⟨_, hb (q + 1)⟩ ⟨_, hb (q + 2)⟩ ⟨_, hb (q + 3)⟩ ⟨_, hb (q + 4)⟩ ⟨_, hb (q + 5)⟩
    ⟨_, hb (q + 6)⟩ ⟨_, hb (q + 7)⟩
  have e8 : bitsVal v q 8 = bitAt v q * 2 ^ 7 + (bitAt v (q + 1) * 2 ^ 6 + (bitAt v (q + 2) * 2 ^ 5 +
      (bitAt v (q + 3) * 2 ^ 4 + (bitAt v (q + 4) * 2 ^ 3 + (bitAt v (q + 5) * 2 ^ 2 + (bitAt v (q + 6) * 2 ^ 1 +
      bitAt v (q + 7))))))) := by
    simp [bitsVal, Nat.add_assoc]
  rw [e8]
  dsimp only at this
  rw [show 2 ^ 1 - 1 = 1 from rfl, this]
  unfold lhAt
  have hpad : padAt (rd % 8) = padAt rd := by unfold padAt; rw [Nat.mod_mod]
  rw [hpad]
  congr 2
  clear this hpad e8 hfin
  conv => rhs; rw [hp]
  generalize rd % 8 = r at hr
  have hcases : r = 0 ∨ r = 1 ∨ r = 2 ∨ r = 3 ∨ r = 4 ∨ r = 5 ∨ r = 6 ∨ r = 7 := by omega
  rcases hcases with rfl | rfl | rfl | rfl | rfl | rfl | rfl | rfl <;> rfl

theorem putLe_one_ne {m : Mem} {a x b : Nat} (h : b ≠ a) : m.putLe a 1 x b = m b := by
  rcases Nat.lt_or_gt_of_ne h with hlt | hgt
  · exact putLe_lo _ _ _ _ _ hlt
  · exact putLe_hi _ _ _ _ _ (by omega)

/-- The state after one octet member is stored and `n` bits are read. -/
def CSt.put1 (s : CSt) (a x n : Nat) : CSt := ⟨s.mem.putLe a 1 x, s.rd + n, s.bo + n, s.rem - n⟩

@[simp] theorem put1_rd (s : CSt) (a x n : Nat) : (s.put1 a x n).rd = s.rd + n := rfl
@[simp] theorem put1_bo (s : CSt) (a x n : Nat) : (s.put1 a x n).bo = s.bo + n := rfl
@[simp] theorem put1_rem (s : CSt) (a x n : Nat) : (s.put1 a x n).rem = s.rem - n := rfl

theorem put1_byte_ne {s : CSt} {a x n b : Nat} (h : b ≠ a) : (s.put1 a x n).byte b = s.byte b := by
  unfold CSt.byte CSt.put1; dsimp only; rw [putLe_one_ne h]

theorem put1_byte_eq {s : CSt} {a x n : Nat} (h : x < 256) : (s.put1 a x n).byte a = x := by
  unfold CSt.byte CSt.put1; dsimp only; rw [putLe_one, Nat.mod_mod, Nat.mod_eq_of_lt h]

theorem uint_fwd {v p base off sz ds} {bits : Nat} {s : CSt} (hb : bits ≤ 8) (hr : (bits : Int) ≤ s.rem)
    (hs : p.store base off sz 0 1 = true) :
    decL v p base (.uint off sz bits false :: ds) {} s =
      decL v p base ds {} (s.put1 (base + off) (bitsVal v s.rd bits) bits) := by
  conv => lhs; unfold decL
  simp only [ne_eq, not_true_eq_false, ite_false]
  rw [if_neg (by omega)]
  unfold decD
  rw [if_pos hr, if_pos (by omega), uintW_le8 hb]
  unfold wr
  rw [if_pos hs]
  rfl

theorem uintLh1_fwd {v p base off sz ds s} (ha : s.bo % 8 = s.rd % 8) (hr : 1 ≤ s.rem)
    (hs : p.store base off sz 0 1 = true) :
    decL v p base (.uintLh off sz 1 :: ds) {} s = decL v p base ds {} (s.put1 (base + off) (lhAt v s.rd) 1) := by
  conv => lhs; unfold decL
  simp only [ne_eq, not_true_eq_false, ite_false]
  rw [if_neg (by omega)]
  unfold decD
  rw [if_pos (by simpa using hr), if_pos (by omega), masked8_one _ _ _ ha]
  dsimp only
  unfold wr
  rw [if_pos hs]
  rfl

theorem nextLh_fwd {v p base off sz n ds s} (ha : s.bo % 8 = s.rd % 8) (hr : 2 ≤ s.rem)
    (hs : p.store base off sz 0 1 = true) :
    decL v p base (.nextExist true off sz n false :: ds) {} s =
      decL v p base ds { skip := if lhAt v s.rd = 0 then n else 0 } (s.put1 (base + off) (lhAt v s.rd) 1) := by
  conv => lhs; unfold decL
  simp only [ne_eq, not_true_eq_false, ite_false, Bool.false_and, Bool.false_eq_true, ite_true]
  rw [if_neg (by omega), masked8_one _ _ _ ha]
  dsimp only
  have hx : (s.rem == 1) = false := by
    rw [beq_eq_false_iff_ne]; omega
  rw [hx, Bool.false_and, Bool.or_false]
  unfold wr
  rw [if_pos hs]
  have h01 : lhAt v s.rd = 0 ∨ lhAt v s.rd = 1 := by unfold lhAt; split <;> simp
  rcases h01 with h | h <;> rw [h] <;> rfl

theorem next_fwd {v p base off sz n ds s} (hr : 2 ≤ s.rem)
    (hs : p.store base off sz 0 1 = true) :
    decL v p base (.nextExist false off sz n false :: ds) {} s =
      decL v p base ds { skip := if bitAt v s.rd = 0 then n else 0 } (s.put1 (base + off) (bitAt v s.rd) 1) := by
  conv => lhs; unfold decL
  simp only [ne_eq, not_true_eq_false, ite_false, Bool.false_and, Bool.false_eq_true]
  rw [if_neg (by omega)]
  have hx : (s.rem == 1) = false := by
    rw [beq_eq_false_iff_ne]; omega
  rw [hx, Bool.false_and, Bool.or_false]
  unfold wr
  rw [if_pos hs]
  have hbv : bitsVal v s.rd 1 = bitAt v s.rd := by simp [bitsVal]
  rw [hbv]
  have h01 : bitAt v s.rd = 0 ∨ bitAt v s.rd = 1 := by have := bitAt_le v s.rd; omega
  rcases h01 with h | h <;> rw [h] <;> rfl

theorem byte_congr {s t : CSt} (h : t.mem = s.mem) (a : Nat) : t.byte a = s.byte a := by
  unfold CSt.byte; rw [h]

theorem padding_fwd {v p base s} (hr : 0 ≤ s.rem) :
    ∃ t, decL v p base [.padding] {} s = .ok t ∧ t.mem = s.mem := by
  refine ⟨{ s with bo := s.bo + s.rem.toNat, rem := 0 }, ?_, rfl⟩
  unfold decL
  simp only [ne_eq, not_true_eq_false, ite_false]
  rw [if_neg (by omega)]
  unfold decD
  rw [if_neg (by simp), if_neg (by omega)]
  dsimp only [CRes.bind_ok]
  unfold decL
  simp

end Verif.Csn1
