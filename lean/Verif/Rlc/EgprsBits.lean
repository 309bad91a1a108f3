import Verif.Rlc.Egprs
import Verif.Spec.Egprs

/-!
# Lemmas: copying payloads that are not octet aligned
-/
namespace Verif.Rlc
open Verif.Spec

/-- Octet `i` of a buffer, 0 behind its end. -/
def oct (b : Octets) (i : Nat) : UInt8 := (b[i]?).getD 0

theorem bitAt_oct (b : Octets) (i j : Nat) (hj : j < 8) : bitAt b (8 * i + j) = (oct b i).toNat.testBit j := by
  have h1 : (8 * i + j) / 8 = i := by omega
  have h2 : (8 * i + j) % 8 = j := by omega
  simp [bitAt, oct, h1, h2]

theorem tb_shr (c : UInt8) (k j : Nat) (hk : k < 8) :
    (c >>> UInt8.ofNat k).toNat.testBit j = c.toNat.testBit (j + k) := by
  have : k % 256 % 8 = k := by omega
  simp only [UInt8.toNat_shiftRight, UInt8.toNat_ofNat', Nat.testBit_shiftRight, Nat.reducePow]
  rw [this, Nat.add_comm]

theorem tb_shl (c : UInt8) (k j : Nat) (hk : k < 8) (hj : j < 8) :
    (c <<< UInt8.ofNat k).toNat.testBit j = (decide (k ≤ j) && c.toNat.testBit (j - k)) := by
  have : k % 256 % 8 = k := by omega
  simp only [UInt8.toNat_shiftLeft, UInt8.toNat_ofNat', Nat.testBit_mod_two_pow, Nat.testBit_shiftLeft, Nat.reducePow]
  rw [this, show (256 : Nat) = 2 ^ 8 from rfl, Nat.testBit_mod_two_pow, Nat.testBit_shiftLeft]
  simp [hj]

theorem tb_or (a b : UInt8) (j : Nat) : (a ||| b).toNat.testBit j = (a.toNat.testBit j || b.toNat.testBit j) := by
  simp [UInt8.toNat_or, Nat.testBit_or]

theorem tb_and (a b : UInt8) (j : Nat) : (a &&& b).toNat.testBit j = (a.toNat.testBit j && b.toNat.testBit j) := by
  simp [UInt8.toNat_and, Nat.testBit_and]

theorem tb_high (a : UInt8) (j : Nat) (hj : 8 ≤ j) : a.toNat.testBit j = false := by
  apply Nat.testBit_lt_two_pow
  have := a.toNat_lt
  calc a.toNat < 2 ^ 8 := this
    _ ≤ 2 ^ j := Nat.pow_le_pow_right (by omega) hj

theorem tb_ff (j : Nat) (hj : j < 8) : (0xff : UInt8).toNat.testBit j = true := by
  have : ∀ j : Fin 8, (0xff : UInt8).toNat.testBit j.1 = true := by decide
  exact this ⟨j, hj⟩

theorem octet_ext {a b : UInt8} (h : ∀ j < 8, a.toNat.testBit j = b.toNat.testBit j) : a = b := by
  apply UInt8.toNat_inj.mp
  apply Nat.eq_of_testBit_eq
  intro j
  by_cases hj : j < 8
  · exact h j hj
  · rw [tb_high a j (by omega), tb_high b j (by omega)]

theorem octets_ext {a b : Octets} (hl : a.length = b.length) (h : ∀ i < 8 * a.length, bitAt a i = bitAt b i) : a = b := by
  apply List.ext_getElem hl
  intro i h1 h2
  apply octet_ext
  intro j hj
  have := h (8 * i + j) (by omega)
  rw [bitAt_oct _ _ _ hj, bitAt_oct _ _ _ hj] at this
  simpa [oct, h1, h2] using this

/-- The loop writes one octet after the other: octet `j` holds the upper bits of the previous source octet and the lower
bits of source octet `j`. -/
theorem copyFromLoop_ok (k : Nat) : ∀ (src dst : Octets) (pos : Nat) (last : UInt8), pos + src.length ≤ dst.length →
    ∃ d, copyFromLoop k src dst pos last = .ok (d, (last :: src).getLast (by simp)) ∧ d.length = dst.length ∧
      ∀ i, oct d i = if pos ≤ i ∧ i < pos + src.length then
        (oct (last :: src) (i - pos) >>> UInt8.ofNat (8 - k)) ||| (oct src (i - pos) <<< UInt8.ofNat k)
        else oct dst i
  | [], dst, pos, last, _ => by
      refine ⟨dst, rfl, rfl, fun i => ?_⟩
      rw [if_neg]; simp
  | c :: cs, dst, pos, last, h => by
      simp only [List.length_cons] at h
      have hp : pos < dst.length := by omega
      have hm : modAt dst pos (fun _ => (last >>> UInt8.ofNat (8 - k)) ||| (c <<< UInt8.ofNat k)) =
          .ok (dst.set pos ((last >>> UInt8.ofNat (8 - k)) ||| (c <<< UInt8.ofNat k))) := by
        simp [modAt, hp]
      obtain ⟨d, hd, hl, hb⟩ := copyFromLoop_ok k cs
        (dst.set pos ((last >>> UInt8.ofNat (8 - k)) ||| (c <<< UInt8.ofNat k))) (pos + 1) c (by simp; omega)
      refine ⟨d, ?_, by simpa using hl, fun i => ?_⟩
      · rw [copyFromLoop, hm, Res.bind_ok, hd]
        simp
      · rw [hb i]
        by_cases h1 : pos + 1 ≤ i ∧ i < pos + 1 + cs.length
        · rw [if_pos h1, if_pos (by simp only [List.length_cons]; omega)]
          have : i - pos = (i - (pos + 1)) + 1 := by omega
          rw [this]; simp [oct]
        · rw [if_neg h1]
          by_cases h2 : i = pos
          · subst h2
            rw [if_pos (by simp)]
            simp [oct, hp]
          · rw [if_neg (by simp only [List.length_cons]; omega)]
            simp only [oct, List.getElem?_set]
            rw [if_neg (by omega)]

theorem oct_getLast (a : UInt8) (l : Octets) : (a :: l).getLast (by simp) = oct (a :: l) l.length := by
  rw [List.getLast_eq_getElem]
  simp [oct]

/-- Writing a payload: its bits arrive, all others keep their value. -/
theorem copyFrom_ok (i : DataInfo) (idx : Nat) (hn : idx < i.n) (dst p : Octets) (hp : i.len ≤ p.length)
    (hd : i.offs idx + 8 * i.len ≤ 8 * dst.length) :
    ∃ d, copyFromAligned i idx dst p = .ok d ∧ d.length = dst.length ∧
      ∀ b, bitAt d b = if i.offs idx ≤ b ∧ b < i.offs idx + 8 * i.len then bitAt p (b - i.offs idx)
        else bitAt dst b := by
  generalize hoff : i.offs idx = off at *
  have hk8 : off % 8 < 8 := Nat.mod_lt _ (by omega)
  have hoff' : off = 8 * (off / 8) + off % 8 := by omega
  by_cases hlen0 : i.len = 0 ∧ off % 8 ≠ 0 ∧ off / 8 ≥ dst.length
  · omega
  have hsrc : rdN p 0 i.len = .ok (p.take i.len) := by rw [rdN_of_le (by omega)]; simp
  have hsl : (p.take i.len).length = i.len := by simp; omega
  have hso : ∀ j, j < i.len → oct (p.take i.len) j = oct p j := by
    intro j hj; simp [oct, List.getElem?_take, hj]
  simp only [copyFromAligned, hn, if_true, hsrc, Res.bind_ok, hoff]
  by_cases hk : off % 8 = 0
  · rw [if_pos hk]
    have hfit : off / 8 + (p.take i.len).length ≤ dst.length := by omega
    refine ⟨_, by rw [copyTo, if_pos hfit], by simp; omega, ?_⟩
    intro b
    have hb8 : b % 8 < 8 := Nat.mod_lt _ (by omega)
    have hbd : b = 8 * (b / 8) + b % 8 := by omega
    generalize hq : b / 8 = q at *
    generalize hr : b % 8 = r at *
    subst hbd
    rw [bitAt_oct _ _ _ hb8, bitAt_oct dst _ _ hb8]
    by_cases hin : off ≤ 8 * q + r ∧ 8 * q + r < off + 8 * i.len
    · rw [if_pos hin]
      have : 8 * q + r - off = 8 * (q - off / 8) + r := by omega
      rw [this, bitAt_oct _ _ _ hb8]
      congr 2
      have hq1 : off / 8 ≤ q := by omega
      have hq2 : q - off / 8 < i.len := by omega
      rw [← hso _ hq2]
      simp only [oct]
      rw [List.append_assoc, List.getElem?_append_right (by simp; omega), List.getElem?_append_left (by simp; omega)]
      congr 2
      simp; omega
    · rw [if_neg hin]
      congr 2
      simp only [oct]
      by_cases hlt : q < off / 8
      · rw [List.append_assoc, List.getElem?_append_left (by simp; omega)]
        simp [hlt]
      · rw [List.getElem?_append_right (by simp; omega)]
        rw [List.getElem?_drop]
        congr 2
        simp; omega
  · rw [if_neg hk]
    have hlt : off / 8 + i.len < dst.length := by omega
    have hr0 : rd dst (off / 8) = .ok (oct dst (off / 8)).toNat := by
      rw [rd_of_lt (by omega)]; simp [oct, show off / 8 < dst.length by omega]
    generalize hkk : off % 8 = k at *
    generalize hh : off / 8 = h at *
    obtain ⟨d, hd1, hdl, hdb⟩ := copyFromLoop_ok k (p.take i.len) dst h
      (UInt8.ofNat (oct dst h).toNat <<< UInt8.ofNat (8 - k)) (by omega)
    rw [hr0, Res.bind_ok, hd1, Res.bind_ok]
    dsimp only
    have hm : h + i.len < d.length := by omega
    refine ⟨_, by rw [modAt, List.getElem?_eq_getElem hm], by simpa using hdl, ?_⟩
    intro b
    have hb8 : b % 8 < 8 := Nat.mod_lt _ (by omega)
    have hbd : b = 8 * (b / 8) + b % 8 := by omega
    generalize hq : b / 8 = q at *
    generalize hr : b % 8 = r at *
    subst hbd
    rw [bitAt_oct _ _ _ hb8, bitAt_oct dst _ _ hb8]
    -- the previous source octet, shifted
    have hprev : ∀ j, j ≤ i.len → ∀ r < 8, (oct ((UInt8.ofNat (oct dst h).toNat <<< UInt8.ofNat (8 - k)) ::
        p.take i.len) j >>> UInt8.ofNat (8 - k)).toNat.testBit r =
        if r < k then (if j = 0 then (oct dst h).toNat.testBit r else (oct p (j - 1)).toNat.testBit (r + (8 - k)))
        else false := by
      intro j hj r hr
      rw [tb_shr _ _ _ (by omega)]
      cases j with
      | zero =>
        simp only [oct, List.getElem?_cons_zero, Option.getD_some, if_true]
        by_cases hrk : r < k
        · rw [if_pos hrk, tb_shl _ _ _ (by omega) (by omega)]
          simp
        · rw [if_neg hrk, tb_high _ _ (by omega)]
      | succ j =>
        have : oct ((UInt8.ofNat (oct dst h).toNat <<< UInt8.ofNat (8 - k)) :: p.take i.len) (j + 1) = oct p j := by
          rw [← hso j (by omega)]; simp [oct]
        rw [this]
        by_cases hrk : r < k
        · rw [if_pos hrk]; simp
        · rw [if_neg hrk, tb_high _ _ (by omega)]
    by_cases hqe : q = h + i.len
    · subst hqe
      have e1 : oct (d.set (h + i.len) ((d[h + i.len] &&& 255 <<< UInt8.ofNat k) |||
          ((UInt8.ofNat (oct dst h).toNat <<< UInt8.ofNat (8 - k)) :: p.take i.len).getLast (by simp) >>>
            UInt8.ofNat (8 - k))) (h + i.len) = (oct d (h + i.len) &&& 255 <<< UInt8.ofNat k) |||
          (oct ((UInt8.ofNat (oct dst h).toNat <<< UInt8.ofNat (8 - k)) :: p.take i.len) i.len >>>
            UInt8.ofNat (8 - k)) := by
        rw [oct_getLast, hsl]
        simp [oct, hm]
      rw [e1, tb_or, tb_and, tb_shl _ _ _ (by omega) hb8, hprev _ (Nat.le_refl _) _ hb8]
      rw [hdb (h + i.len), if_neg (by omega)]
      by_cases hrk : r < k
      · rw [if_pos hrk]
        have : ¬ k ≤ r := by omega
        simp only [this, decide_false, Bool.false_and, Bool.and_false, Bool.false_or]
        by_cases hl0 : i.len = 0
        · rw [if_pos hl0, if_neg (by omega)]
          simp [hl0]
        · rw [if_neg hl0, if_pos (by omega)]
          have : 8 * (h + i.len) + r - off = 8 * (i.len - 1) + (r + (8 - k)) := by omega
          rw [this, bitAt_oct _ _ _ (by omega)]
      · rw [if_neg hrk, if_neg (by omega)]
        have : k ≤ r := by omega
        rw [tb_ff _ (by omega)]
        simp [this]
    · have e2 : oct (d.set (h + i.len) ((d[h + i.len] &&& 255 <<< UInt8.ofNat k) |||
          ((UInt8.ofNat (oct dst h).toNat <<< UInt8.ofNat (8 - k)) :: p.take i.len).getLast (by simp) >>>
            UInt8.ofNat (8 - k))) q = oct d q := by
        simp only [oct, List.getElem?_set]
        rw [if_neg (by omega)]
      rw [e2, hdb q]
      by_cases hin : h ≤ q ∧ q < h + (p.take i.len).length
      · rw [if_pos hin, tb_or, hprev _ (by omega) _ hb8, tb_shl _ _ _ (by omega) hb8]
        rw [hso _ (by omega)]
        by_cases hrk : r < k
        · have : ¬ k ≤ r := by omega
          simp only [hrk, if_true, this, decide_false, Bool.false_and, Bool.or_false]
          by_cases hq0 : q - h = 0
          · rw [if_pos hq0, if_neg (by omega)]
            have : q = h := by omega
            rw [this]
          · rw [if_neg hq0, if_pos (by omega)]
            have : 8 * q + r - off = 8 * (q - h - 1) + (r + (8 - k)) := by omega
            rw [this, bitAt_oct _ _ _ (by omega)]
        · have hkr : k ≤ r := by omega
          rw [if_neg hrk, if_pos (by omega)]
          have : 8 * q + r - off = 8 * (q - h) + (r - k) := by omega
          rw [this, bitAt_oct _ _ _ (by omega)]
          simp [hkr]
      · rw [if_neg hin, if_neg (by omega)]

theorem copyToLoop_ok (k : Nat) : ∀ (src : Octets) (last : UInt8), (copyToLoop k last src).length = src.length ∧
    ∀ j, j < src.length → oct (copyToLoop k last src) j =
      (oct (last :: src) j >>> UInt8.ofNat k) ||| (oct src j <<< UInt8.ofNat (8 - k))
  | [], _ => by simp [copyToLoop]
  | c :: cs, last => by
      obtain ⟨h1, h2⟩ := copyToLoop_ok k cs c
      refine ⟨by simp [copyToLoop, h1], fun j hj => ?_⟩
      cases j with
      | zero => simp [copyToLoop, oct]
      | succ j =>
        have := h2 j (by simpa using hj)
        simpa [copyToLoop, oct] using this

/-- Reading a payload: its bits. -/
theorem copyTo_ok (i : DataInfo) (idx : Nat) (hn : idx < i.n) (src buf : Octets) (hb : i.len ≤ buf.length)
    (hs : i.offs idx + 8 * i.len ≤ 8 * src.length) (h0 : 0 < i.len) :
    ∃ p, copyToAligned i idx src buf = .ok (p ++ buf.drop i.len) ∧ p.length = i.len ∧
      ∀ b, b < 8 * i.len → bitAt p b = bitAt src (i.offs idx + b) := by
  generalize hoff : i.offs idx = off at *
  have hk8 : off % 8 < 8 := Nat.mod_lt _ (by omega)
  have hoff' : off = 8 * (off / 8) + off % 8 := by omega
  simp only [copyToAligned, hn, if_true, hoff]
  by_cases hk : off % 8 = 0
  · rw [if_pos hk, rdN_of_le (by omega), Res.bind_ok]
    have hl : (List.take i.len (List.drop (off / 8) src)).length = i.len := by simp; omega
    refine ⟨(src.drop (off / 8)).take i.len, ?_, hl, ?_⟩
    · rw [copyTo, if_pos (by omega), hl]; simp
    · intro b hb
      have hb8 : b % 8 < 8 := Nat.mod_lt _ (by omega)
      have hbd : b = 8 * (b / 8) + b % 8 := by omega
      generalize hq : b / 8 = q at *
      generalize hr : b % 8 = r at *
      subst hbd
      have : off + (8 * q + r) = 8 * (off / 8 + q) + r := by omega
      rw [this, bitAt_oct _ _ _ hb8, bitAt_oct _ _ _ hb8]
      congr 2
      simp only [oct, List.getElem?_take, List.getElem?_drop]
      rw [if_pos (by omega)]
  · rw [if_neg hk]
    have hr0 : rd src (off / 8) = .ok (oct src (off / 8)).toNat := by
      rw [rd_of_lt (by omega)]; simp [oct, show off / 8 < src.length by omega]
    rw [hr0, Res.bind_ok, rdN_of_le (by omega), Res.bind_ok]
    have hl : (List.take i.len (List.drop (off / 8 + 1) src)).length = i.len := by simp; omega
    obtain ⟨h1, h2⟩ := copyToLoop_ok (off % 8) ((src.drop (off / 8 + 1)).take i.len)
      (UInt8.ofNat (oct src (off / 8)).toNat)
    rw [hl] at h1
    refine ⟨_, by rw [copyTo, if_pos (by omega), h1]; simp, h1, ?_⟩
    intro b hb
    have hb8 : b % 8 < 8 := Nat.mod_lt _ (by omega)
    have hbd : b = 8 * (b / 8) + b % 8 := by omega
    generalize hq : b / 8 = q at *
    generalize hr : b % 8 = r at *
    subst hbd
    rw [bitAt_oct _ _ _ hb8, h2 q (by omega), tb_or, tb_shr _ _ _ hk8, tb_shl _ _ _ (by omega) hb8]
    have e1 : oct (UInt8.ofNat (oct src (off / 8)).toNat :: (src.drop (off / 8 + 1)).take i.len) q =
        oct src (off / 8 + q) := by
      cases q with
      | zero => simp [oct]
      | succ q =>
        simp only [oct, List.getElem?_cons_succ, List.getElem?_take, List.getElem?_drop]
        rw [if_pos (by omega)]
        congr 2; omega
    have e2 : oct ((src.drop (off / 8 + 1)).take i.len) q = oct src (off / 8 + q + 1) := by
      simp only [oct, List.getElem?_take, List.getElem?_drop]
      rw [if_pos (by omega)]
      congr 2; omega
    rw [e1, e2]
    by_cases hc : r + off % 8 < 8
    · have : ¬ 8 - off % 8 ≤ r := by omega
      rw [show off + (8 * q + r) = 8 * (off / 8 + q) + (r + off % 8) by omega, bitAt_oct _ _ _ hc]
      simp [this]
    · have : 8 - off % 8 ≤ r := by omega
      rw [show off + (8 * q + r) = 8 * (off / 8 + q + 1) + (r - (8 - off % 8)) by omega, bitAt_oct _ _ _ (by omega)]
      rw [tb_high _ _ (by omega)]
      simp [this]

end Verif.Rlc
