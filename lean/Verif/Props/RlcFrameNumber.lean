import Verif.Rlc.FrameNumber
import Verif.Spec.FrameNumber

/-!
# C33, C34, C64: frame numbers of polls and starting times
-/
namespace Verif.Props

open Verif.Spec Verif.Rlc

theorem blockFn_lt (n : Nat) (h : n < blocksPerHyperframe) : blockFn n < framesPerHyperframe := by
  unfold blocksPerHyperframe at h
  unfold blockFn framesPerHyperframe
  omega

theorem blockFn_wrap (m : Nat) : blockFn (m % 626688) = blockFn m % 2715648 := by
  have hm := Nat.div_add_mod m 626688
  generalize m / 626688 = q at hm
  have hr : m % 626688 < 626688 := Nat.mod_lt _ (by decide)
  generalize m % 626688 = r at hm hr
  subst hm
  have e : blockFn (626688 * q + r) = 2715648 * q + blockFn r := by
    unfold blockFn
    omega
  rw [e, Nat.mul_add_mod, Nat.mod_eq_of_lt]
  unfold blockFn
  omega

theorem fnValid_sum (a b : Nat) : fnValid (fnSum a b) = fnValid (a + b) := by
  unfold fnValid fnSum hyperframe
  rw [Nat.mod_mod_of_dvd _ (by decide)]

theorem fnInc_sum (a b : Nat) : fnInc (fnSum a b) = fnSum a (b + 1) := by
  unfold fnInc fnSum
  rw [Nat.mod_add_mod]
  rfl

theorem fnValid_iff (a : Nat) : fnValid a = true ↔ (a % 13 = 0 ∨ a % 13 = 4 ∨ a % 13 = 8) := by
  simp [fnValid, or_assoc]

theorem blockFn_res (n : Nat) : blockFn n % 13 = 4 * (n % 3) := by
  unfold blockFn
  rw [Nat.mul_add_mod, Nat.mod_eq_of_lt]
  omega

theorem blockFn_valid (n : Nat) : blockFn n % 13 = 0 ∨ blockFn n % 13 = 4 ∨ blockFn n % 13 = 8 := by
  rw [blockFn_res]
  omega

/-- The distance to the poll for a given residue. -/
theorem rrbp2fn_dist (fn rrbp : Nat) (hv : fn % 13 = 0 ∨ fn % 13 = 4 ∨ fn % 13 = 8) (hr : rrbp < 4) :
    ∃ d, RrbpDistance rrbp d ∧ fnValid (fn + d) = true ∧ rrbp2fn fn rrbp = .ok (fnSum fn d) := by
  have one : ∀ off, rrbpList[rrbp]? = some off → fnValid (fn + off) = true → RrbpDistance rrbp off →
      ∃ d, RrbpDistance rrbp d ∧ fnValid (fn + d) = true ∧ rrbp2fn fn rrbp = .ok (fnSum fn d) := by
    intro off ho hval hd
    refine ⟨off, hd, hval, ?_⟩
    unfold rrbp2fn
    simp only [ho]
    rw [fnValid_sum, if_pos hval]
  have two : ∀ off, rrbpList[rrbp]? = some off → ¬ fnValid (fn + off) = true → fnValid (fn + (off + 1)) = true →
      RrbpDistance rrbp (off + 1) →
      ∃ d, RrbpDistance rrbp d ∧ fnValid (fn + d) = true ∧ rrbp2fn fn rrbp = .ok (fnSum fn d) := by
    intro off ho hval hval2 hd
    refine ⟨off + 1, hd, hval2, ?_⟩
    unfold rrbp2fn
    simp only [ho]
    rw [fnValid_sum, if_neg hval, fnInc_sum, fnValid_sum, if_pos hval2]
  have hc : rrbp = 0 ∨ rrbp = 1 ∨ rrbp = 2 ∨ rrbp = 3 := by omega
  rcases hc with rfl | rfl | rfl | rfl
  · exact one 13 rfl ((fnValid_iff _).2 (by omega)) rfl
  · by_cases h : fn % 13 = 8
    · exact two 17 rfl (fun hx => by rw [fnValid_iff] at hx; omega) ((fnValid_iff _).2 (by omega)) (Or.inr rfl)
    · exact one 17 rfl ((fnValid_iff _).2 (by omega)) (Or.inl rfl)
  · by_cases h : fn % 13 = 0
    · exact one 21 rfl ((fnValid_iff _).2 (by omega)) (Or.inl rfl)
    · exact two 21 rfl (fun hx => by rw [fnValid_iff] at hx; omega) ((fnValid_iff _).2 (by omega)) (Or.inr rfl)
  · exact one 26 rfl ((fnValid_iff _).2 (by omega)) rfl

/-- **C33**: the frame number of the poll lies the announced number of frames ahead and starts a radio block, for
every frame number that starts one. -/
theorem c33_poll_fn (fn rrbp : Nat) (hv : fn % 13 = 0 ∨ fn % 13 = 4 ∨ fn % 13 = 8) (hr : rrbp < 4) :
    ∃ p d, rrbp2fn fn rrbp = .ok p ∧ p < framesPerHyperframe ∧ (p % 13 = 0 ∨ p % 13 = 4 ∨ p % 13 = 8) ∧
      RrbpDistance rrbp d ∧ p = (fn + d) % framesPerHyperframe := by
  obtain ⟨d, hd, hval, he⟩ := rrbp2fn_dist fn rrbp hv hr
  refine ⟨_, d, he, Nat.mod_lt _ (by decide), ?_, hd, rfl⟩
  rw [← fnValid_iff, fnValid_sum]
  exact hval

/-- **C33**: for every radio block `n` and every RRBP value, the poll is answered in the radio block 3, 4, 5 or 6
blocks later, counted around the end of the hyperframe. -/
theorem c33_poll_block (n rrbp : Nat) (hr : rrbp < 4) :
    rrbp2fn (blockFn n) rrbp = .ok (blockFn ((n + rrbpBlocks rrbp) % blocksPerHyperframe)) := by
  obtain ⟨d, hd, hval, he⟩ := rrbp2fn_dist (blockFn n) rrbp (blockFn_valid n) hr
  rw [he]
  unfold blocksPerHyperframe
  rw [blockFn_wrap]
  unfold fnSum hyperframe
  have e : blockFn n + d = blockFn (n + rrbpBlocks rrbp) := by
    rw [fnValid_iff] at hval
    have hc : rrbp = 0 ∨ rrbp = 1 ∨ rrbp = 2 ∨ rrbp = 3 := by omega
    unfold blockFn at hval ⊢
    unfold rrbpBlocks
    rcases hc with rfl | rfl | rfl | rfl <;> simp only [RrbpDistance] at hd <;> omega
  rw [e]

/-- Not vacuous, with the wrap-around: the last radio block of the hyperframe. -/
example : blockFn 626687 = 2715643 ∧ rrbp2fn 2715643 1 = .ok 13 := by decide +kernel

/-- **C34**: the starting time with relative frame number `k`, received in radio block `n`, is radio block
`n + k + 1`, counted around the end of the hyperframe; the check in the code never fails. -/
theorem c34_starting_block (n k : Nat) :
    kToFn k (blockFn n) = .ok (blockFn ((n + k + 1) % blocksPerHyperframe)) := by
  have key : ∃ d, kToFnRaw k (blockFn n) = fnSum (blockFn n) d ∧ blockFn n + d = blockFn (n + k + 1) := by
    unfold kToFnRaw
    by_cases h : k % 3 = 2
    · rw [if_pos h]
      refine ⟨_, rfl, ?_⟩
      unfold blockFn
      omega
    · rw [if_neg h]
      simp only
      rw [fnValid_sum]
      have hres := blockFn_res n
      have e : (blockFn n + (4 + 4 * k + k / 3)) % 13 = (blockFn n % 13 + 4 + 4 * (k % 3)) % 13 := by omega
      by_cases hv : fnValid (blockFn n + (4 + 4 * k + k / 3)) = true
      · rw [if_pos hv]
        refine ⟨_, rfl, ?_⟩
        rw [fnValid_iff, e, hres] at hv
        unfold blockFn
        omega
      · rw [if_neg hv, fnInc_sum]
        refine ⟨_, rfl, ?_⟩
        rw [fnValid_iff, e, hres] at hv
        clear e hres
        have hn3 : n % 3 = 0 ∨ n % 3 = 1 ∨ n % 3 = 2 := by omega
        have hk3 : k % 3 = 0 ∨ k % 3 = 1 := by omega
        unfold blockFn
        rcases hn3 with hn3 | hn3 | hn3 <;> rcases hk3 with hk3 | hk3 <;> rw [hn3, hk3] at hv <;> simp at hv <;> omega
  obtain ⟨d, hd, he⟩ := key
  unfold kToFn blocksPerHyperframe
  rw [hd, fnValid_sum, he, if_pos ((fnValid_iff _).2 (blockFn_valid _)), blockFn_wrap, ← he]
  rfl

/-- Not vacuous: three cases of `k`, one of them across the end of the hyperframe. -/
example : kToFn 0 (blockFn 2) = .ok 13 ∧ kToFn 5 0 = .ok 26 ∧ kToFn 8191 (blockFn 626687) = .ok (blockFn 8191) := by
  decide +kernel

/-- **C64**: the relative frame number computed from a starting time with T1', T3 and T2 within their ranges is below
42432 and is the one frame number with these T1', T3 and T2. -/
theorem c64_starting_time_rfn_partial (t1p t3 t2 : Nat) (h1 : t1p < 32) (h3 : t3 < 51) (h2 : t2 < 26) :
    startingTimeRfn t1p t3 t2 < 42432 ∧
    ∀ r, r < 42432 → (r = startingTimeRfn t1p t3 t2 ↔ r / (26 * 51) = t1p ∧ r % 51 = t3 ∧ r % 26 = t2) := by
  unfold startingTimeRfn
  have e : ∃ x : Nat, (((t3 : Int) - t2) % 26).toNat = x ∧ x < 26 ∧ (t2 + x) % 26 = t3 % 26 := by
    refine ⟨_, rfl, by omega, ?_⟩
    omega
  obtain ⟨x, hx, hx1, hx2⟩ := e
  rw [hx, Nat.mod_eq_of_lt (by omega)]
  refine ⟨by omega, ?_⟩
  intro r hr
  constructor
  · intro h
    subst h
    refine ⟨by omega, by omega, ?_⟩
    have e : 51 * x + t3 + 51 * 26 * t1p = 26 * (2 * x + 51 * t1p) + t3 - x := by omega
    omega
  · rintro ⟨a1, a2, a3⟩
    have hd := Nat.div_add_mod r 1326
    have e1 : r % 1326 % 51 = t3 := by rw [Nat.mod_mod_of_dvd _ (by decide), a2]
    have e2 : r % 1326 % 26 = t2 := by rw [Nat.mod_mod_of_dvd _ (by decide), a3]
    have hl : r % 1326 < 1326 := Nat.mod_lt _ (by decide)
    generalize r % 1326 = y at hd e1 e2 hl
    have hy := Nat.div_add_mod y 51
    have hyx : y / 51 = x := by omega
    omega

/-- **C64**, full statement: whatever the message contains (T1' of 5 bits, T3 of 6 bits, T2 of 5 bits), the relative
frame number handed on is below 42432, as `gsm_rfn2fn` demands. -/
def C64Statement : Prop := ∀ t1p t3 t2, t1p < 32 → t3 < 64 → t2 < 32 → startingTimeRfn t1p t3 t2 < 42432

/-- The full statement is false of the code: T3 is not checked. -/
theorem c64_starting_time_range_violated : ¬ C64Statement := by
  intro h
  exact absurd (h 31 63 12 (by decide) (by decide) (by decide)) (by decide +kernel)

end Verif.Props
