import Verif.Llc.Crc
import Verif.Spec.Crc
import Mathlib.Tactic.LinearCombination
import Mathlib.Tactic.Ring
import Mathlib.Tactic.ComputeDegree

/-!
# Lemmas about the LLC frame check sequence (proof machinery for C01, C02)
-/
namespace Verif.Llc

open Verif.Spec

/-- Bit-serial register step (used only in proofs). -/
def bitStep (s : Nat) (b : Bool) : Nat :=
  (s >>> 1) ^^^ (if (s.testBit 0) != b then 0xAD85DD else 0)

def bitRun (s : Nat) (bs : List Bool) : Nat := bs.foldl bitStep s

/-- Zero-input step. -/
def zStep (s : Nat) : Nat := bitStep s false

def zIter : Nat → Nat → Nat
  | 0, s => s
  | n + 1, s => zIter n (zStep s)

theorem bitRun_append (s : Nat) (a b : List Bool) : bitRun s (a ++ b) = bitRun (bitRun s a) b := by
  simp [bitRun]

theorem zStep_xor (a b : Nat) : zStep (a ^^^ b) = zStep a ^^^ zStep b := by
  unfold zStep bitStep
  rw [Nat.shiftRight_xor_distrib, Nat.testBit_xor]
  generalize a >>> 1 = x, b >>> 1 = y
  cases a.testBit 0 <;> cases b.testBit 0 <;> simp
  · rw [← Nat.xor_assoc]
  · rw [Nat.xor_assoc, Nat.xor_comm y, ← Nat.xor_assoc]
  · rw [Nat.xor_assoc, Nat.xor_comm y, ← Nat.xor_assoc 11371997, Nat.xor_self, Nat.zero_xor]

theorem zIter_xor (n a b : Nat) : zIter n (a ^^^ b) = zIter n a ^^^ zIter n b := by
  induction n generalizing a b with
  | zero => rfl
  | succ n ih => simp [zIter, zStep_xor, ih]

theorem zStep_shl (c : Nat) : zStep (c <<< 1) = c := by
  unfold zStep bitStep
  have h : (c <<< 1).testBit 0 = false := by simp
  rw [h]; simp [Nat.shiftLeft_shiftRight]

theorem zIter_shl (n c : Nat) : zIter n (c <<< n) = c := by
  induction n generalizing c with
  | zero => rfl
  | succ n ih =>
    have : c <<< (n + 1) = (c <<< n) <<< 1 := by rw [← Nat.shiftLeft_add]
    rw [zIter, this, zStep_shl, ih]

theorem zIter_zero (n : Nat) : zIter n 0 = 0 := by
  have := zIter_shl n 0
  simpa using this

def bitsVal : List Bool → Nat
  | [] => 0
  | b :: bs => b.toNat ^^^ (bitsVal bs <<< 1)

theorem bitStep_eq (s : Nat) (b : Bool) : bitStep s b = zStep (s ^^^ b.toNat) := by
  cases b
  · simp [zStep]
  · unfold zStep bitStep
    rw [Nat.shiftRight_xor_distrib, Nat.testBit_xor]
    simp

theorem bitRun_eq (s : Nat) (bs : List Bool) :
    bitRun s bs = zIter bs.length (s ^^^ bitsVal bs) := by
  induction bs generalizing s with
  | nil => simp [bitRun, zIter, bitsVal]
  | cons b bs ih =>
    have h1 : bitRun s (b :: bs) = bitRun (bitStep s b) bs := rfl
    rw [h1, ih, bitStep_eq, List.length_cons, zIter, bitsVal, ← Nat.xor_assoc, zStep_xor _ (_ <<< 1),
      zStep_shl]

theorem octetVal : ∀ n < 256, bitsVal (octetBits (UInt8.ofNat n)) = n := by decide +kernel

theorem bitsVal_octet (b : UInt8) : bitsVal (octetBits b) = b.toNat := by
  have := octetVal b.toNat b.toNat_lt
  simpa using this

theorem tbl_spec : ∀ n < 256, tblAt n = zIter 8 n := by decide +kernel

theorem tblCrc24_length : tblCrc24.length = 256 := by decide +kernel

theorem split8 (x : Nat) : x = ((x >>> 8) <<< 8) ^^^ (x &&& 0xff) := by
  apply Nat.eq_of_testBit_eq
  intro i
  rw [Nat.testBit_xor, Nat.testBit_shiftLeft, Nat.testBit_shiftRight, Nat.testBit_and,
    show (0xff : Nat) = 2 ^ 8 - 1 by rfl, Nat.testBit_two_pow_sub_one]
  by_cases h : 8 ≤ i
  · have : ¬ i < 8 := by omega
    simp [h, this, show 8 + (i - 8) = i by omega]
  · have : i < 8 := by omega
    simp [h, this]

theorem crcStep_eq (s : Nat) (b : UInt8) : crcStep s b = bitRun s (octetBits b) := by
  have hb : b.toNat < 256 := b.toNat_lt
  rw [bitRun_eq, bitsVal_octet, crcStep]
  have hl : (octetBits b).length = 8 := by simp [octetBits]
  rw [hl]
  have hx := split8 (s ^^^ b.toNat)
  have hs : (s ^^^ b.toNat) >>> 8 = s >>> 8 := by
    rw [Nat.shiftRight_xor_distrib]
    have : b.toNat >>> 8 = 0 := by rw [Nat.shiftRight_eq_div_pow]; omega
    rw [this, Nat.xor_zero]
  have hm : (s ^^^ b.toNat) &&& 0xff < 256 := Nat.lt_of_le_of_lt Nat.and_le_right (by omega)
  rw [tbl_spec _ hm]
  conv_rhs => rw [hx]
  rw [zIter_xor, zIter_shl, hs]

theorem crcCalc_eq (s : Nat) (data : Octets) : crcCalc s data = bitRun s (frameBits data) := by
  induction data generalizing s with
  | nil => rfl
  | cons b bs ih =>
    have : crcCalc s (b :: bs) = crcCalc (crcStep s b) bs := rfl
    rw [this, ih, crcStep_eq, ← bitRun_append]
    simp [frameBits]

theorem bitStep_lt {s : Nat} (h : s < 2 ^ 24) (b : Bool) : bitStep s b < 2 ^ 24 := by
  unfold bitStep
  apply Nat.xor_lt_two_pow
  · rw [Nat.shiftRight_eq_div_pow]; omega
  · split <;> omega

theorem bitRun_lt {s : Nat} (h : s < 2 ^ 24) (bs : List Bool) : bitRun s bs < 2 ^ 24 := by
  induction bs generalizing s with
  | nil => exact h
  | cons b bs ih => exact ih (bitStep_lt h b)

theorem crcCalc_lt {s : Nat} (h : s < 2 ^ 24) (data : Octets) : crcCalc s data < 2 ^ 24 := by
  rw [crcCalc_eq]; exact bitRun_lt h _

theorem fcs_eq (data : Octets) : fcs data = crcCalc 0xffffff data ^^^ 0xffffff := by
  have h := crcCalc_lt (s := 0xffffff) (by decide) data
  unfold fcs
  apply Nat.eq_of_testBit_eq
  intro i
  rw [Nat.testBit_and, Nat.testBit_xor, Nat.testBit_xor, show (0xffffff : Nat) = 2 ^ 24 - 1 by rfl,
    show (0xffffffff : Nat) = 2 ^ 32 - 1 by rfl, Nat.testBit_two_pow_sub_one,
    Nat.testBit_two_pow_sub_one]
  by_cases hi : i < 24
  · simp [hi, show i < 32 by omega]
  · have : (crcCalc (2 ^ 24 - 1) data).testBit i = false :=
      Nat.testBit_lt_two_pow (Nat.lt_of_lt_of_le h (Nat.pow_le_pow_right (by omega) (by omega)))
    simp only [Nat.reducePow, Nat.reduceSub] at this
    simp [hi, this]

theorem fcs_lt (data : Octets) : fcs data < 2 ^ 24 := by
  rw [fcs_eq]; exact Nat.xor_lt_two_pow (crcCalc_lt (by decide) _) (by decide)

/-! ## Polynomial reading of the register -/
open Polynomial

theorem bitsPoly_append (a b : List Bool) :
    bitsPoly (a ++ b) = bitsPoly a * X ^ b.length + bitsPoly b := by
  induction a with
  | nil => simp [bitsPoly]
  | cons x xs ih => simp [bitsPoly, ih, pow_add]; ring

/-- Register contents as a polynomial. -/
noncomputable def regPoly (s : Nat) : (ZMod 2)[X] := bitsPoly (fcsBits s)

theorem fcsBits_length (s : Nat) : (fcsBits s).length = 24 := by simp [fcsBits]

theorem gf2_xor (a b : Bool) : gf2 (a ^^ b) = gf2 a + gf2 b := by
  cases a <;> cases b <;> decide

theorem bitsPoly_map_xor (l : List Nat) (f g : Nat → Bool) :
    bitsPoly (l.map fun i => (f i ^^ g i)) = bitsPoly (l.map f) + bitsPoly (l.map g) := by
  induction l with
  | nil => simp [bitsPoly]
  | cons x xs ih => simp [bitsPoly, ih, gf2_xor]; ring

theorem regPoly_xor (a b : Nat) : regPoly (a ^^^ b) = regPoly a + regPoly b := by
  unfold regPoly fcsBits
  rw [← bitsPoly_map_xor]
  simp [Nat.testBit_xor]

theorem two_zero : (2 : (ZMod 2)[X]) = 0 := by
  have : (2 : ZMod 2) = 0 := rfl
  calc (2 : (ZMod 2)[X]) = C 2 := rfl
    _ = 0 := by rw [this, C_0]

theorem add_self (p : (ZMod 2)[X]) : p + p = 0 := by
  rw [← two_mul, two_zero, zero_mul]

theorem regPoly_shr {s : Nat} (h : s < 2 ^ 24) :
    regPoly (s >>> 1) = X * regPoly s + C (gf2 (s.testBit 0)) * X ^ 24 := by
  have h24 : s.testBit 24 = false := Nat.testBit_lt_two_pow h
  have e1 : fcsBits s = s.testBit 0 :: (List.range 23).map (fun i => s.testBit (i + 1)) := by
    unfold fcsBits
    rw [show (24 : Nat) = 23 + 1 from rfl, List.range_succ_eq_map]
    simp
  have e2 : fcsBits (s >>> 1) = (List.range 23).map (fun i => s.testBit (i + 1)) ++ [false] := by
    unfold fcsBits
    rw [show (24 : Nat) = 23 + 1 from rfl, List.range_succ]
    simp [Nat.testBit_shiftRight, Nat.add_comm, h24]
  unfold regPoly
  rw [e1, e2, bitsPoly_append]
  simp only [bitsPoly, List.length_map, List.length_range, List.length_cons, List.length_nil]
  have : gf2 false = 0 := rfl
  rw [this]
  generalize bitsPoly (List.map (fun i => s.testBit (i + 1)) (List.range 23)) = q
  generalize gf2 (s.testBit 0) = c
  have : X * (C c * X ^ 23 + q) + C c * X ^ 24 = X * q + (C c * X ^ 24 + C c * X ^ 24) := by ring
  rw [this, add_self]
  simp [mul_comm]

theorem regPoly_gen : regPoly 0xAD85DD = crc24Gen + X ^ 24 := by
  have e : fcsBits 0xAD85DD = [true, false, true, true, true, false, true, true, true, false, true,
      false, false, false, false, true, true, false, true, true, false, true, false, true] := by
    decide +kernel
  unfold regPoly
  rw [e]
  have h1 : gf2 true = 1 := rfl
  have h0 : gf2 false = 0 := rfl
  simp only [bitsPoly, h1, h0, C_1, C_0, List.length_cons, List.length_nil, crc24Gen]
  have := add_self (X ^ 24 : (ZMod 2)[X])
  linear_combination -this

theorem regPoly_zero : regPoly 0 = 0 := by
  have := regPoly_xor 0 0
  simp only [Nat.xor_self] at this
  rw [this, add_self] 

theorem regPoly_bitStep {s : Nat} (h : s < 2 ^ 24) (b : Bool) :
    ∃ c, regPoly (bitStep s b) = X * regPoly s + C (gf2 b) * X ^ 24 + crc24Gen * C c := by
  refine ⟨gf2 (s.testBit 0 ^^ b), ?_⟩
  unfold bitStep
  rw [regPoly_xor, regPoly_shr h, gf2_xor]
  have hx := add_self (C (gf2 b) * X ^ 24 : (ZMod 2)[X])
  have hy := add_self (C (gf2 (s.testBit 0)) * X ^ 24 : (ZMod 2)[X])
  have key : regPoly (if (s.testBit 0 != b) = true then 0xAD85DD else 0) =
      (C (gf2 (s.testBit 0)) + C (gf2 b)) * (crc24Gen + X ^ 24) := by
    rw [← C_add, ← gf2_xor]
    cases s.testBit 0 <;> cases b <;> simp [regPoly_gen, regPoly_zero, gf2]
  rw [key]
  simp only [C_add]
  linear_combination hy

theorem crc24Gen_monic : crc24Gen.Monic := by
  unfold crc24Gen; monicity!

theorem crc24Gen_degree : crc24Gen.degree = 24 := by
  unfold crc24Gen; compute_degree!

theorem bitsPoly_degree_lt (l : List Bool) : (bitsPoly l).degree < (l.length : WithBot ℕ) := by
  induction l with
  | nil => simp [bitsPoly]
  | cons b bs ih =>
    simp only [bitsPoly, List.length_cons]
    refine lt_of_le_of_lt (degree_add_le _ _) (max_lt ?_ ?_)
    · refine lt_of_le_of_lt (degree_C_mul_X_pow_le _ _) ?_
      exact_mod_cast Nat.lt_succ_self _
    · refine lt_trans ih ?_
      exact_mod_cast Nat.lt_succ_self _

theorem regPoly_degree (s : Nat) : (regPoly s).degree < crc24Gen.degree := by
  have := bitsPoly_degree_lt (fcsBits s)
  rw [fcsBits_length] at this
  rw [crc24Gen_degree]
  exact this

theorem regPoly_run {s : Nat} (h : s < 2 ^ 24) (bs : List Bool) :
    ∃ q, regPoly (bitRun s bs) =
      X ^ bs.length * regPoly s + X ^ 24 * bitsPoly bs + crc24Gen * q := by
  induction bs generalizing s with
  | nil => exact ⟨0, by simp [bitRun, bitsPoly]⟩
  | cons b bs ih =>
    obtain ⟨c, hc⟩ := regPoly_bitStep h b
    obtain ⟨q, hq⟩ := ih (bitStep_lt h b)
    refine ⟨X ^ bs.length * C c + q, ?_⟩
    have : bitRun s (b :: bs) = bitRun (bitStep s b) bs := rfl
    rw [this, hq, hc]
    simp only [bitsPoly, List.length_cons]
    ring

theorem regPoly_run_mod {s : Nat} (h : s < 2 ^ 24) (bs : List Bool) :
    regPoly (bitRun s bs) =
      (X ^ bs.length * regPoly s) %ₘ crc24Gen + (X ^ 24 * bitsPoly bs) %ₘ crc24Gen := by
  obtain ⟨q, hq⟩ := regPoly_run h bs
  rw [← add_modByMonic]
  have hq' : regPoly (bitRun s bs) + crc24Gen * q =
      X ^ bs.length * regPoly s + X ^ 24 * bitsPoly bs := by
    rw [hq]
    have := add_self (crc24Gen * q)
    linear_combination this
  exact ((div_modByMonic_unique q (regPoly (bitRun s bs)) crc24Gen_monic
    ⟨hq', regPoly_degree _⟩).2).symm

theorem fcsBits_ones : fcsBits 0xffffff = List.replicate 24 true := by decide +kernel

theorem isFcs_fcs (data : Octets) : IsFcs (frameBits data) (fcs data) := by
  refine ⟨fcs_lt data, ?_⟩
  have h : bitsPoly (fcsBits (fcs data)) = regPoly (crcCalc 0xffffff data ^^^ 0xffffff) := by
    rw [fcs_eq]; rfl
  have h1 : regPoly 0xffffff = ones24 := by
    unfold regPoly ones24; rw [fcsBits_ones]
  rw [h, regPoly_xor, crcCalc_eq, regPoly_run_mod (by decide), h1, add_comm]

theorem bitsPoly_inj (a b : List Bool) (hl : a.length = b.length)
    (h : bitsPoly a = bitsPoly b) : a = b := by
  induction a generalizing b with
  | nil => cases b with
    | nil => rfl
    | cons => simp at hl
  | cons x xs ih =>
    cases b with
    | nil => simp at hl
    | cons y ys =>
      have hl' : xs.length = ys.length := by simpa using hl
      have hx : (bitsPoly xs).coeff xs.length = 0 :=
        coeff_eq_zero_of_degree_lt (bitsPoly_degree_lt xs)
      have hy : (bitsPoly ys).coeff xs.length = 0 := by
        rw [hl']; exact coeff_eq_zero_of_degree_lt (bitsPoly_degree_lt ys)
      have hc := congrArg (fun p => p.coeff xs.length) h
      simp only [bitsPoly, coeff_add, hx, hy, coeff_C_mul, ← hl', coeff_X_pow_self] at hc
      have hxy : x = y := by
        revert hc; cases x <;> cases y <;> simp [gf2]
      subst hxy
      have : bitsPoly xs = bitsPoly ys := by
        simpa [bitsPoly, hl'] using h
      rw [ih ys hl' this]

theorem fcsBits_inj {a b : Nat} (ha : a < 2 ^ 24) (hb : b < 2 ^ 24)
    (h : fcsBits a = fcsBits b) : a = b := by
  apply Nat.eq_of_testBit_eq
  intro i
  by_cases hi : i < 24
  · have := congrArg (fun l => l[i]?) h
    simpa [fcsBits, hi] using this
  · have h2 : (2 : Nat) ^ 24 ≤ 2 ^ i := Nat.pow_le_pow_right (by omega) (by omega)
    rw [Nat.testBit_lt_two_pow (Nat.lt_of_lt_of_le ha h2),
      Nat.testBit_lt_two_pow (Nat.lt_of_lt_of_le hb h2)]

/-! ## Burst errors -/

theorem testBit_top {s : Nat} (h : s < 2 ^ 24) (b : Bool) :
    (bitStep s b).testBit 23 = (s.testBit 0 != b) := by
  have h24 : s.testBit 24 = false := Nat.testBit_lt_two_pow h
  unfold bitStep
  rw [Nat.testBit_xor, Nat.testBit_shiftRight, h24]
  cases s.testBit 0 <;> cases b <;> simp <;> decide

/-- Agreement of two registers on all bits from `k` up. -/
def Agree (k a b : Nat) : Prop := ∀ i, k ≤ i → a.testBit i = b.testBit i

theorem agree_back {k s t : Nat} {b c : Bool} (hs : s < 2 ^ 24) (ht : t < 2 ^ 24) (hk : k < 24)
    (h : Agree k (bitStep s b) (bitStep t c)) :
    (s.testBit 0 != b) = (t.testBit 0 != c) ∧ Agree (k + 1) s t := by
  have hf : (s.testBit 0 != b) = (t.testBit 0 != c) := by
    rw [← testBit_top hs, ← testBit_top ht]; exact h 23 (by omega)
  refine ⟨hf, fun i hi => ?_⟩
  have := h (i - 1) (by omega)
  unfold bitStep at this
  rw [Nat.testBit_xor, Nat.testBit_xor, Nat.testBit_shiftRight, Nat.testBit_shiftRight, hf,
    show 1 + (i - 1) = i by omega] at this
  simpa using this

theorem run_inj_agree (n : Nat) : ∀ (k s : Nat) (bs cs : List Bool), s < 2 ^ 24 →
    bs.length = n → cs.length = n → k + n ≤ 24 → Agree k (bitRun s bs) (bitRun s cs) → bs = cs := by
  induction n with
  | zero =>
    intro k s bs cs _ h1 h2 _ _
    rw [List.length_eq_zero_iff.1 h1, List.length_eq_zero_iff.1 h2]
  | succ n ih =>
    intro k s bs cs hs h1 h2 hk h
    rcases List.eq_nil_or_concat bs with rfl | ⟨bs', b, rfl⟩
    · simp at h1
    rcases List.eq_nil_or_concat cs with rfl | ⟨cs', c, rfl⟩
    · simp at h2
    simp only [List.concat_eq_append, List.length_append, List.length_cons, List.length_nil] at h1 h2
    simp only [List.concat_eq_append, bitRun_append] at h
    have hb := bitRun_lt hs bs'
    have hc := bitRun_lt hs cs'
    obtain ⟨hf, ha⟩ := agree_back (b := b) (c := c) hb hc (by omega) h
    have := ih (k + 1) s bs' cs' hs (by omega) (by omega) (by omega) ha
    subst this
    have : b = c := by revert hf; cases (bitRun s bs').testBit 0 <;> cases b <;> cases c <;> simp
    rw [this]

/-- A register step is injective in the register. -/
theorem bitStep_inj {s t : Nat} {b : Bool} (hs : s < 2 ^ 24) (ht : t < 2 ^ 24)
    (h : bitStep s b = bitStep t b) : s = t := by
  obtain ⟨hf, ha⟩ := agree_back (k := 0) (b := b) (c := b) hs ht (by omega)
    (fun i _ => by rw [h])
  apply Nat.eq_of_testBit_eq
  intro i
  cases i with
  | zero => revert hf; cases s.testBit 0 <;> cases t.testBit 0 <;> cases b <;> simp
  | succ i => exact ha (i + 1) (by omega)

theorem bitRun_inj {s t : Nat} (bs : List Bool) (hs : s < 2 ^ 24) (ht : t < 2 ^ 24)
    (h : bitRun s bs = bitRun t bs) : s = t := by
  induction bs generalizing s t with
  | nil => exact h
  | cons b bs ih => exact bitStep_inj hs ht (ih (bitStep_lt hs b) (bitStep_lt ht b) h)

/-- Two bit strings that differ only inside a window of at most 24 bits drive the register to
different values. -/
theorem burst_detected {s : Nat} (hs : s < 2 ^ 24) (pre e1 e2 post : List Bool)
    (hl : e1.length = e2.length) (h24 : e1.length ≤ 24)
    (h : bitRun s (pre ++ e1 ++ post) = bitRun s (pre ++ e2 ++ post)) : e1 = e2 := by
  simp only [bitRun_append] at h
  have hp := bitRun_lt hs pre
  have := bitRun_inj post (bitRun_lt hp e1) (bitRun_lt hp e2) h
  exact run_inj_agree e1.length 0 _ e1 e2 hp rfl hl.symm (by omega) (fun i _ => by rw [this])

theorem bitsVal_fcsBits_aux (s : Nat) : ∀ n k, bitsVal ((List.range' k n).map fun i => s.testBit i)
    = (s >>> k) % 2 ^ n := by
  intro n
  induction n with
  | zero => intro k; simp [bitsVal, Nat.mod_one]
  | succ n ih =>
    intro k
    rw [List.range'_succ, List.map_cons, bitsVal, ih (k + 1)]
    apply Nat.eq_of_testBit_eq
    intro i
    rw [Nat.testBit_xor, Nat.testBit_shiftLeft, Nat.testBit_mod_two_pow, Nat.testBit_mod_two_pow,
      Nat.testBit_shiftRight, Nat.testBit_shiftRight]
    cases i with
    | zero => cases h : s.testBit k <;> simp [h]
    | succ i =>
      have : (s.testBit k).toNat.testBit (i + 1) = false := by
        cases s.testBit k <;> simp [Nat.testBit_succ]
      rw [this]
      simp [show k + 1 + i = k + (i + 1) by omega]

theorem bitsVal_fcsBits {s : Nat} (h : s < 2 ^ 24) : bitsVal (fcsBits s) = s := by
  have := bitsVal_fcsBits_aux s 24 0
  rw [← List.range_eq_range'] at this
  unfold fcsBits
  rw [this]
  simpa using Nat.mod_eq_of_lt h

theorem xor_ones_iff (a b : Nat) : a ^^^ b = 0xffffff ↔ b = a ^^^ 0xffffff := by
  constructor
  · intro h; rw [← h, ← Nat.xor_assoc, Nat.xor_self, Nat.zero_xor]
  · intro h; rw [h, ← Nat.xor_assoc, Nat.xor_self, Nat.zero_xor]

/-- Code-word property: the register after the frame followed by a received FCS field has one fixed
value exactly if the FCS field is right. -/
theorem fcs_codeword (data : Octets) {f : Nat} (hf : f < 2 ^ 24) :
    f = fcs data ↔ bitRun 0xffffff (frameBits data ++ fcsBits f) = zIter 24 0xffffff := by
  have hs := crcCalc_lt (s := 0xffffff) (by decide) data
  rw [bitRun_append, ← crcCalc_eq, bitRun_eq, fcsBits_length, bitsVal_fcsBits hf, fcs_eq]
  generalize crcCalc 0xffffff data = s at hs
  have hz : ∀ x, zIter 24 x = bitRun x (List.replicate 24 false) := by
    intro x
    have h0 : bitsVal (List.replicate 24 false) = 0 := by decide +kernel
    rw [bitRun_eq, h0, Nat.xor_zero]; rfl
  constructor
  · intro h
    rw [(xor_ones_iff s f).2 h]
  · intro h
    rw [hz, hz] at h
    have := bitRun_inj _ (Nat.xor_lt_two_pow hs hf) (by decide) h
    exact (xor_ones_iff s f).1 this

theorem frameBits_append (a b : Octets) : frameBits (a ++ b) = frameBits a ++ frameBits b := by
  simp [frameBits]

theorem octetBits_inj {a b : UInt8} (h : octetBits a = octetBits b) : a = b := by
  have := congrArg bitsVal h
  rw [bitsVal_octet, bitsVal_octet] at this
  exact UInt8.toNat_inj.1 this

end Verif.Llc
