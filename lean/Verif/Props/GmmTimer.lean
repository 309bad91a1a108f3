import Verif.Gmm.Timer
import Verif.Spec.Gmm
/-!
# C85: GPRS timer values
-/
namespace Verif.Props
open Verif Verif.Gmm Verif.Spec.Gmm

/-- C85: a received GPRS timer octet means what the table of TS 24.008 says. -/
theorem c85_decode (t : UInt8) :
    tmrToSecs t.toNat = match gprsTimer (t.toNat / 32) (t.toNat % 32) with
      | some s => (s : Int)
      | none => -1 := by
  have h : ∀ t : Fin 256, tmrToSecs t.val = match gprsTimer (t.val / 32) (t.val % 32) with
      | some s => (s : Int)
      | none => -1 := by decide +kernel
  exact h ⟨t.toNat, t.toNat_lt⟩

/-- The intervals of the encoder, without the bit operations. -/
theorem tmrToSecs_secsToTmr (s : Nat) :
    tmrToSecs (secsToTmr s) =
      if s < 64 then 2 * ((s / 2 : Nat) : Int)
      else if s < 120 then 62
      else if s < 1920 then 60 * ((s / 60 : Nat) : Int)
      else if s < 2160 then 1860
      else if s < 11520 then 360 * ((s / 360 : Nat) : Int)
      else 11160 := by
  unfold secsToTmr
  rw [if_neg (by omega)]
  have k2 : ∀ k : Fin 32, tmrToSecs (tmr2Seconds ||| k.val) = 2 * (k.val : Int) := by decide +kernel
  have k60 : ∀ k : Fin 32, tmrToSecs (tmrMinute ||| k.val) = 60 * (k.val : Int) := by decide +kernel
  have k360 : ∀ k : Fin 32, tmrToSecs (tmr6Minute ||| k.val) = 360 * (k.val : Int) := by decide +kernel
  simp only [Int.toNat_natCast]
  by_cases h1 : s < 64
  · rw [if_pos (by omega), if_pos h1]
    exact k2 ⟨s / 2, by omega⟩
  rw [if_neg (by omega), if_neg h1]
  by_cases h2 : s < 120
  · rw [if_pos (by omega), if_pos h2]; decide +kernel
  rw [if_neg (by omega), if_neg h2]
  by_cases h3 : s < 1920
  · rw [if_pos (by omega), if_pos h3]
    exact k60 ⟨s / 60, by omega⟩
  rw [if_neg (by omega), if_neg h3]
  by_cases h4 : s < 2160
  · rw [if_pos (by omega), if_pos h4]; decide +kernel
  rw [if_neg (by omega), if_neg h4]
  by_cases h5 : s < 11520
  · rw [if_pos (by omega), if_pos h5]
    exact k360 ⟨s / 360, by omega⟩
  rw [if_neg (by omega), if_neg h5]
  decide +kernel

/-- C85: the octet chosen for a duration fits in an octet and expresses the longest duration that is
not longer than the one asked for and that an octet can express. -/
theorem c85_floor (s : Nat) :
    secsToTmr s < 256 ∧
    ∃ f : Nat, tmrToSecs (secsToTmr s) = f ∧ Expressible f ∧ f ≤ s ∧
      ∀ e, Expressible e → e ≤ s → e ≤ f := by
  constructor
  · unfold secsToTmr
    have k : ∀ k : Fin 32, tmr2Seconds ||| k.val < 256 ∧ tmrMinute ||| k.val < 256 ∧
        tmr6Minute ||| k.val < 256 := by decide +kernel
    simp only [Int.toNat_natCast]
    split
    · decide
    split
    · exact (k ⟨s / 2, by omega⟩).1
    split
    · decide
    split
    · exact (k ⟨s / 60, by omega⟩).2.1
    split
    · decide
    split
    · exact (k ⟨s / 360, by omega⟩).2.2
    · decide
  · rw [tmrToSecs_secsToTmr]
    split
    · refine ⟨2 * (s / 2), by omega, ⟨s / 2, by omega, .inl rfl⟩, by omega, ?_⟩
      rintro e ⟨v, hv, h | h | h⟩ he <;> omega
    split
    · refine ⟨62, rfl, ⟨31, by omega, .inl rfl⟩, by omega, ?_⟩
      rintro e ⟨v, hv, h | h | h⟩ he <;> omega
    split
    · refine ⟨60 * (s / 60), by omega, ⟨s / 60, by omega, .inr (.inl rfl)⟩, by omega, ?_⟩
      rintro e ⟨v, hv, h | h | h⟩ he <;> omega
    split
    · refine ⟨1860, rfl, ⟨31, by omega, .inr (.inl rfl)⟩, by omega, ?_⟩
      rintro e ⟨v, hv, h | h | h⟩ he <;> omega
    split
    · refine ⟨360 * (s / 360), by omega, ⟨s / 360, by omega, .inr (.inr rfl)⟩, by omega, ?_⟩
      rintro e ⟨v, hv, h | h | h⟩ he <;> omega
    · refine ⟨11160, rfl, ⟨31, by omega, .inr (.inr rfl)⟩, by omega, ?_⟩
      rintro e ⟨v, hv, h | h | h⟩ he <;> omega

/-- C85: a longer duration is never encoded as a shorter one, and a negative one deactivates the
timer. -/
theorem c85_monotone (s s' : Int) (h : s ≤ s') :
    tmrToSecs (secsToTmr s) ≤ tmrToSecs (secsToTmr s') ∧
    (s < 0 → tmrToSecs (secsToTmr s) = -1) := by
  have hneg : ∀ s : Int, s < 0 → tmrToSecs (secsToTmr s) = -1 := by
    intro s hs
    unfold secsToTmr
    rw [if_pos hs]; decide +kernel
  refine ⟨?_, hneg s⟩
  by_cases hs : s < 0
  · rw [hneg s hs]
    by_cases hs' : s' < 0
    · rw [hneg s' hs']; omega
    · obtain ⟨n, rfl⟩ := Int.eq_ofNat_of_zero_le (by omega : 0 ≤ s')
      obtain ⟨_, f, hf, _⟩ := c85_floor n
      rw [hf]; omega
  · obtain ⟨n, rfl⟩ := Int.eq_ofNat_of_zero_le (by omega : 0 ≤ s)
    obtain ⟨m, rfl⟩ := Int.eq_ofNat_of_zero_le (by omega : 0 ≤ s')
    obtain ⟨_, f, hf, he, hle, _⟩ := c85_floor n
    obtain ⟨_, f', hf', _, _, hmax⟩ := c85_floor m
    rw [hf, hf']
    exact Int.ofNat_le.2 (hmax f he (by omega))

/-- C85: a duration that an octet can express survives encoding and decoding. -/
theorem c85_exact (s : Nat) (h : Expressible s) : tmrToSecs (secsToTmr s) = s := by
  obtain ⟨_, f, hf, _, hle, hmax⟩ := c85_floor s
  rw [hf, Nat.le_antisymm hle (hmax s h (Nat.le_refl s))]

/-- The default READY timer of 44 seconds is `0x16`; 100 seconds are rounded down to 62. -/
example : secsToTmr 44 = 0x16 ∧ tmrToSecs 0x16 = 44 ∧ tmrToSecs (secsToTmr 100) = 62 ∧
    Expressible 44 :=
  ⟨by decide +kernel, by decide +kernel, by decide +kernel, 22, by omega, .inl rfl⟩

end Verif.Props
