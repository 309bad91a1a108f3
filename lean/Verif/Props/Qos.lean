import Verif.Common.Qos
import Verif.Spec.Qos
/-!
# C55, C73, C74: quality of service values
-/
namespace Verif.Props
open Verif Verif.Qos Verif.Spec.Qos

/-! ## Bit rates -/

/-- The rates the encoder gets right. -/
def EncGood (x : Nat) : Prop :=
  x < 16100 ∨ (17000 ≤ x ∧ x < 129000) ∨ (130000 ≤ x ∧ x < 258000) ∨
  (260000 ≤ x ∧ x < 504000) ∨ 1600000 ≤ x

/-- What the standard makes of the octets the encoder stores. -/
def sent (x : Nat) : Option Nat := meaning (encMbr x).m (encMbr x).e1 (encMbr x).e2

/-- The largest expressible rate that is not above `x`, as a function. -/
def bestRate (x : Nat) : Nat :=
  if x ≥ 10000000 then 10000000
  else if x ≥ 1600000 then 1500000 + (x - 1500000) / 100000 * 100000
  else if x ≥ 1500000 then 1500000
  else if x ≥ 510000 then 500000 + (x - 500000) / 10000 * 10000
  else if x ≥ 500000 then 500000
  else if x ≥ 260000 then 256000 + (x - 256000) / 4000 * 4000
  else if x ≥ 256000 then 256000
  else if x ≥ 130000 then 128000 + (x - 128000) / 2000 * 2000
  else if x ≥ 128000 then 128000
  else if x ≥ 17000 then 16000 + (x - 16000) / 1000 * 1000
  else if x ≥ 16000 then 16000
  else if x ≥ 8700 then 8600 + (x - 8600) / 100 * 100
  else if x ≥ 8640 then 8640
  else if x ≥ 576 then 576 + (x - 576) / 64 * 64
  else if x ≥ 568 then 568
  else if x ≥ 64 then 64 + (x - 64) / 8 * 8
  else x

theorem ite_elim {α : Type} {p : α → Prop} {c : Prop} [Decidable c] {a b : α} (h1 : c → p a)
    (h2 : ¬ c → p b) : p (if c then a else b) := by
  by_cases h : c
  · rw [if_pos h]; exact h1 h
  · rw [if_neg h]; exact h2 h

theorem bestRate_rate (x : Nat) : Rate (bestRate x) := by
  unfold bestRate
  repeat' refine ite_elim (p := Rate) (fun _ => ?_) (fun _ => ?_)
  · exact Or.inr (Or.inr (Or.inr (Or.inr (Or.inr (Or.inr (Or.inr (Or.inr ⟨85, by omega, by omega, by omega⟩)))))))
  · exact Or.inr (Or.inr (Or.inr (Or.inr (Or.inr (Or.inr (Or.inr (Or.inr
      ⟨(x - 1500000) / 100000, by omega, by omega, by omega⟩)))))))
  · exact Or.inr (Or.inr (Or.inr (Or.inr (Or.inr (Or.inr (Or.inr (Or.inl ⟨100, by omega, by omega, by omega⟩)))))))
  · exact Or.inr (Or.inr (Or.inr (Or.inr (Or.inr (Or.inr (Or.inr (Or.inl
      ⟨(x - 500000) / 10000, by omega, by omega, by omega⟩)))))))
  · exact Or.inr (Or.inr (Or.inr (Or.inr (Or.inr (Or.inr (Or.inl ⟨61, by omega, by omega, by omega⟩))))))
  · exact Or.inr (Or.inr (Or.inr (Or.inr (Or.inr (Or.inr (Or.inl
      ⟨(x - 256000) / 4000, by omega, by omega, by omega⟩))))))
  · exact Or.inr (Or.inr (Or.inr (Or.inr (Or.inr (Or.inl ⟨64, by omega, by omega, by omega⟩)))))
  · exact Or.inr (Or.inr (Or.inr (Or.inr (Or.inr (Or.inl
      ⟨(x - 128000) / 2000, by omega, by omega, by omega⟩)))))
  · exact Or.inr (Or.inr (Or.inr (Or.inr (Or.inl ⟨112, by omega, by omega, by omega⟩))))
  · exact Or.inr (Or.inr (Or.inr (Or.inr (Or.inl
      ⟨(x - 16000) / 1000, by omega, by omega, by omega⟩))))
  · exact Or.inr (Or.inr (Or.inr (Or.inl ⟨74, by omega, by omega, by omega⟩)))
  · exact Or.inr (Or.inr (Or.inr (Or.inl ⟨(x - 8600) / 100, by omega, by omega, by omega⟩)))
  · exact Or.inr (Or.inr (Or.inl ⟨126, by omega, by omega⟩))
  · exact Or.inr (Or.inr (Or.inl ⟨(x - 576) / 64, by omega, by omega⟩))
  · exact Or.inr (Or.inl ⟨63, by omega, by omega⟩)
  · exact Or.inr (Or.inl ⟨(x - 64) / 8, by omega, by omega⟩)
  · exact Or.inl (by omega)

theorem bestRate_le (x : Nat) : bestRate x ≤ x := by
  unfold bestRate
  repeat' refine ite_elim (p := fun v => v ≤ x) (fun _ => ?_) (fun _ => ?_)
  all_goals omega

theorem bestRate_best (x w : Nat) (hw : Rate w) (hx : w ≤ x) : w ≤ bestRate x := by
  unfold bestRate
  rcases hw with h | ⟨k, h, h'⟩ | ⟨k, h, h'⟩ | ⟨k, h, h1, h'⟩ | ⟨k, h, h1, h'⟩ | ⟨k, h, h1, h'⟩ |
    ⟨k, h, h1, h'⟩ | ⟨k, h, h1, h'⟩ | ⟨k, h, h1, h'⟩ <;>
    (repeat' refine ite_elim (p := fun v => w ≤ v) (fun _ => ?_) (fun _ => ?_)) <;> omega

theorem best_iff (x v : Nat) : BestRate x v ↔ v = bestRate x := by
  constructor
  · rintro ⟨h1, h2, h3⟩
    exact Nat.le_antisymm (bestRate_best x v h1 h2) (h3 _ (bestRate_rate x) (bestRate_le x))
  · rintro rfl
    exact ⟨bestRate_rate x, bestRate_le x, bestRate_best x⟩

/-- One branch of the encoder: the meaning of the octets is the best rate exactly if … -/
def Right (x : Nat) (c : Coded) : Prop := meaning c.m c.e1 c.e2 = some (bestRate x)

theorem right_ext2 (x e2 : Nat) (h0 : 0 < e2) :
    Right x ⟨2, 0xfe, 0xfa, e2⟩ ↔
      (e2 ≤ 0x3d ∧ 256000 + e2 * 4000 = bestRate x ∨
       0x3d < e2 ∧ e2 ≤ 0xa1 ∧ 500000 + (e2 - 0x3d) * 10000 = bestRate x ∨
       0xa1 < e2 ∧ e2 ≤ 0xf6 ∧ 1500000 + (e2 - 0xa1) * 100000 = bestRate x) := by
  unfold Right meaning
  simp only [show ¬ (254 : Nat) = 0 by decide, show ¬ (254 : Nat) ≤ 63 by decide,
    show ¬ (254 : Nat) ≤ 127 by decide, show ¬ (254 : Nat) ≤ 253 by decide,
    show ¬ (254 : Nat) = 255 by decide, show ¬ (250 : Nat) = 0 by decide,
    show ¬ (250 : Nat) ≤ 74 by decide, show ¬ (250 : Nat) ≤ 186 by decide,
    show ¬ (250 : Nat) < 250 by decide, if_false, show ¬ e2 = 0 by omega]
  generalize bestRate x = r
  by_cases h1 : e2 ≤ 61
  · rw [if_pos h1]; simp only [Option.some.injEq]; omega
  · rw [if_neg h1]
    by_cases h2 : e2 ≤ 161
    · rw [if_pos h2]; simp only [Option.some.injEq]; omega
    · rw [if_neg h2]
      by_cases h3 : e2 ≤ 246
      · rw [if_pos h3]; simp only [Option.some.injEq]; omega
      · rw [if_neg h3]; simp only [reduceCtorEq, false_iff]; omega

theorem right_ext1 (x e1 : Nat) (h0 : 0 < e1) :
    Right x ⟨1, 0xfe, e1, 0⟩ ↔
      (e1 ≤ 0x4a ∧ 8600 + e1 * 100 = bestRate x ∨
       0x4a < e1 ∧ e1 ≤ 0xba ∧ 16000 + (e1 - 0x4a) * 1000 = bestRate x ∨
       0xba < e1 ∧ e1 ≤ 0xfa ∧ 128000 + (e1 - 0xba) * 2000 = bestRate x) := by
  unfold Right meaning
  simp only [show ¬ (254 : Nat) = 0 by decide, show ¬ (254 : Nat) ≤ 63 by decide,
    show ¬ (254 : Nat) ≤ 127 by decide, show ¬ (254 : Nat) ≤ 253 by decide,
    show ¬ (254 : Nat) = 255 by decide, if_false, gt_iff_lt, show ¬ e1 = 0 by omega]
  generalize bestRate x = r
  by_cases h1 : e1 ≤ 74
  · rw [if_pos h1]; simp only [Option.some.injEq]; omega
  · rw [if_neg h1]
    by_cases h2 : e1 ≤ 186
    · rw [if_pos h2]; simp only [Option.some.injEq]; omega
    · rw [if_neg h2]
      by_cases h3 : e1 < 250
      · rw [if_pos h3]; simp only [Option.some.injEq]; omega
      · rw [if_neg h3]
        by_cases h4 : 250 < e1
        · rw [if_pos h4]; simp only [reduceCtorEq, false_iff]; omega
        · rw [if_neg h4, if_pos True.intro]; simp only [Option.some.injEq]; omega

theorem right_plain (x m : Nat) (h0 : 0 < m) (h1 : m < 255) :
    Right x ⟨0, m, 0, 0⟩ ↔
      (m ≤ 0x3f ∧ m = bestRate x ∨
       0x3f < m ∧ m ≤ 0x7f ∧ 64 + (m - 0x40) * 8 = bestRate x ∨
       0x7f < m ∧ m ≤ 0xfe ∧ 576 + (m - 0x80) * 64 = bestRate x) := by
  unfold Right meaning
  simp only [show ¬ m = 0 by omega, show ¬ m = 255 by omega, if_false]
  generalize bestRate x = r
  by_cases h1 : m ≤ 63
  · rw [if_pos h1]; simp only [Option.some.injEq]; omega
  · rw [if_neg h1]
    by_cases h2 : m ≤ 127
    · rw [if_pos h2]; simp only [Option.some.injEq]; omega
    · rw [if_neg h2]
      by_cases h3 : m ≤ 253
      · rw [if_pos h3]; simp only [Option.some.injEq]; omega
      · rw [if_neg h3, if_pos True.intro]; simp only [Option.some.injEq]; omega

/-- `bestRate` by ranges. -/
def BestIs (x v : Nat) : Prop :=
  (10000000 ≤ x → v = 10000000) ∧
  (1600000 ≤ x → x < 10000000 → v = 1500000 + (x - 1500000) / 100000 * 100000) ∧
  (1500000 ≤ x → x < 1600000 → v = 1500000) ∧
  (510000 ≤ x → x < 1500000 → v = 500000 + (x - 500000) / 10000 * 10000) ∧
  (500000 ≤ x → x < 510000 → v = 500000) ∧
  (260000 ≤ x → x < 500000 → v = 256000 + (x - 256000) / 4000 * 4000) ∧
  (256000 ≤ x → x < 260000 → v = 256000) ∧
  (130000 ≤ x → x < 256000 → v = 128000 + (x - 128000) / 2000 * 2000) ∧
  (128000 ≤ x → x < 130000 → v = 128000) ∧
  (17000 ≤ x → x < 128000 → v = 16000 + (x - 16000) / 1000 * 1000) ∧
  (16000 ≤ x → x < 17000 → v = 16000) ∧
  (8700 ≤ x → x < 16000 → v = 8600 + (x - 8600) / 100 * 100) ∧
  (8640 ≤ x → x < 8700 → v = 8640) ∧
  (576 ≤ x → x < 8640 → v = 576 + (x - 576) / 64 * 64) ∧
  (568 ≤ x → x < 576 → v = 568) ∧
  (64 ≤ x → x < 568 → v = 64 + (x - 64) / 8 * 8) ∧
  (0 ≤ x → x < 64 → v = x)

theorem bestRate_is (x : Nat) : BestIs x (bestRate x) := by
  unfold bestRate
  repeat' refine ite_elim (p := BestIs x) (fun _ => ?_) (fun _ => ?_)
  all_goals
    unfold BestIs
    refine ⟨?_, ?_, ?_, ?_, ?_, ?_, ?_, ?_, ?_, ?_, ?_, ?_, ?_, ?_, ?_, ?_, ?_⟩ <;> intros <;> omega

theorem encMbr_right (x : Nat) : Right x (encMbr x) ↔ EncGood x := by
  have hb := bestRate_is x
  unfold encMbr
  refine ite_elim (p := fun c => Right x c ↔ EncGood x) (fun h0 => ?_) (fun h0 => ?_)
  · rw [right_ext2 _ _ (by omega)]
    unfold EncGood
    rw [hb.1 (by omega)]
    clear hb
    omega
  refine ite_elim (p := fun c => Right x c ↔ EncGood x) (fun h1 => ?_) (fun h1 => ?_)
  · rw [right_ext2 _ _ (by omega)]
    unfold EncGood
    by_cases hx : x < 10000000
    · rw [hb.2.1 (by omega) (by omega)]
      clear hb
      omega
    · rw [hb.1 (by omega)]
      clear hb
      omega
  refine ite_elim (p := fun c => Right x c ↔ EncGood x) (fun h2 => ?_) (fun h2 => ?_)
  · rw [right_ext2 _ _ (by omega)]
    unfold EncGood
    by_cases hx : x < 1500000
    · rw [hb.2.2.2.1 (by omega) (by omega)]
      clear hb
      have hq : (x - 500 * 1000) / (10 * 1000) < 100 := by omega
      have hg : ¬ (x < 16100 ∨ (17000 ≤ x ∧ x < 129000) ∨ (130000 ≤ x ∧ x < 258000) ∨
        (260000 ≤ x ∧ x < 504000) ∨ 1600000 ≤ x) := by omega
      refine iff_of_false ?_ hg
      clear hg
      rw [show 500000 + (x - 500000) / 10000 * 10000 =
        500000 + (x - 500 * 1000) / (10 * 1000) * 10000 from rfl]
      revert hq
      generalize (x - 500 * 1000) / (10 * 1000) = q
      clear hx h0 h1 h2
      intro hq
      rw [Nat.mod_eq_of_lt (show 45 + q < 256 by omega)]
      omega
    · rw [hb.2.2.1 (by omega) (by omega)]
      clear hb
      omega
  refine ite_elim (p := fun c => Right x c ↔ EncGood x) (fun h3 => ?_) (fun h3 => ?_)
  · rw [right_ext2 _ _ (by omega)]
    unfold EncGood
    by_cases hx : x < 500000
    · rw [hb.2.2.2.2.2.1 (by omega) (by omega)]
      clear hb
      omega
    · rw [hb.2.2.2.2.1 (by omega) (by omega)]
      clear hb
      omega
  refine ite_elim (p := fun c => Right x c ↔ EncGood x) (fun h4 => ?_) (fun h4 => ?_)
  · rw [right_ext1 _ _ (by omega)]
    unfold EncGood
    by_cases hx : x < 256000
    · rw [hb.2.2.2.2.2.2.2.1 (by omega) (by omega)]
      clear hb
      omega
    · rw [hb.2.2.2.2.2.2.1 (by omega) (by omega)]
      clear hb
      omega
  refine ite_elim (p := fun c => Right x c ↔ EncGood x) (fun h5 => ?_) (fun h5 => ?_)
  · rw [right_ext1 _ _ (by omega)]
    unfold EncGood
    by_cases hx : x < 128000
    · rw [hb.2.2.2.2.2.2.2.2.2.1 (by omega) (by omega)]
      clear hb
      omega
    · rw [hb.2.2.2.2.2.2.2.2.1 (by omega) (by omega)]
      clear hb
      omega
  refine ite_elim (p := fun c => Right x c ↔ EncGood x) (fun h6 => ?_) (fun h6 => ?_)
  · rw [right_ext1 _ _ (by omega)]
    unfold EncGood
    by_cases hx : x < 16000
    · rw [hb.2.2.2.2.2.2.2.2.2.2.2.1 (by omega) (by omega)]
      clear hb
      omega
    · rw [hb.2.2.2.2.2.2.2.2.2.2.1 (by omega) (by omega)]
      clear hb
      omega
  refine ite_elim (p := fun c => Right x c ↔ EncGood x) (fun h7 => ?_) (fun h7 => ?_)
  · rw [right_plain _ _ (by omega) (by omega)]
    unfold EncGood
    by_cases hx : x < 8640
    · rw [hb.2.2.2.2.2.2.2.2.2.2.2.2.2.1 (by omega) (by omega)]
      clear hb
      omega
    · rw [hb.2.2.2.2.2.2.2.2.2.2.2.2.1 (by omega) (by omega)]
      clear hb
      omega
  refine ite_elim (p := fun c => Right x c ↔ EncGood x) (fun h8 => ?_) (fun h8 => ?_)
  · rw [right_plain _ _ (by omega) (by omega)]
    unfold EncGood
    by_cases hx : x < 568
    · rw [hb.2.2.2.2.2.2.2.2.2.2.2.2.2.2.2.1 (by omega) (by omega)]
      clear hb
      omega
    · rw [hb.2.2.2.2.2.2.2.2.2.2.2.2.2.2.1 (by omega) (by omega)]
      clear hb
      omega
  refine ite_elim (p := fun c => Right x c ↔ EncGood x) (fun h9 => ?_) (fun h9 => ?_)
  · rw [right_plain _ _ (by omega) (by omega)]
    unfold EncGood
    rw [hb.2.2.2.2.2.2.2.2.2.2.2.2.2.2.2.2 (by omega) (by omega)]
    clear hb
    omega
  have hx0 : x = 0 := by omega
  subst hx0
  have h1 : meaning 255 0 0 = some 0 := by decide +kernel
  have h2 : bestRate 0 = 0 := by decide +kernel
  simp [Right, EncGood, h1, h2]

/-- **C55**, full statement: the octets sent for a bit rate mean, by the standard, the largest
expressible rate that is not above it. -/
def C55Statement : Prop := ∀ x, ∃ v, sent x = some v ∧ BestRate x v

/-- **C55**, proved part, with the exact set of rates for which it holds.  Missing: the rest, which
is refuted. -/
theorem c55_encoder_partial (x : Nat) :
    (∃ v, sent x = some v ∧ BestRate x v) ↔ EncGood x := by
  rw [← encMbr_right]
  constructor
  · rintro ⟨v, h1, h2⟩
    rw [(best_iff x v).mp h2] at h1
    exact h1
  · intro h
    exact ⟨_, h, (best_iff x _).mpr rfl⟩

example : EncGood 16 ∧ EncGood 100000 ∧ EncGood 2000000 ∧ ¬ EncGood 1000000 ∧
    sent 100000 = some 100000 := by
  refine ⟨?_, ?_, ?_, ?_, by decide +kernel⟩ <;> unfold EncGood <;> omega

/-- C55 is violated: 1 Gbit/s is sent as 840 Mbit/s, 16.5 Mbit/s as 21 Mbit/s, 505 Mbit/s as
510 Mbit/s. -/
theorem c55_encoder_violated : ¬ C55Statement ∧ sent 1000000 = some 840000 ∧
    sent 16500 = some 21000 ∧ sent 505000 = some 510000 := by
  refine ⟨fun h => ?_, by decide +kernel, by decide +kernel, by decide +kernel⟩
  have := (c55_encoder_partial 1000000).mp (h 1000000)
  revert this
  unfold EncGood
  omega

/-- The first octets the decoder reads as the standard says. -/
def DecGood (m : Nat) : Prop := m ≤ 0x7f ∨ m = 0xfe

/-- **C73**, full statement: the decoder gives every coded rate its meaning by the standard, taking
absent extension octets as zero. -/
def C73Statement : Prop :=
  ∀ m e1 e2 v, m < 256 → e1 < 256 → e2 < 256 → meaning m e1 e2 = some v →
    decMbr m (some e1) (some e2) = v

/-- **C73**, proved part: exactly the rates up to 568 kbit/s and those with extension octets.  Missing: the
first octets 0x80 to 0xfd and 0xff. -/
theorem c73_decoder_partial (m e1 e2 v : Nat) (hm : m < 256)
    (hv : meaning m e1 e2 = some v) : decMbr m (some e1) (some e2) = v ↔ DecGood m := by
  revert hv
  unfold meaning DecGood decMbr decExt1 decExt2 uint32Max
  refine ite_elim (p := fun o => o = some v → _) (fun h => by simp) (fun h => ?_)
  rw [if_neg h]
  refine ite_elim (p := fun o => o = some v → _) (fun h1 => ?_) (fun h1 => ?_)
  · rw [if_neg (by omega), if_neg (by omega), if_neg (by omega), if_neg (by omega)]
    simp only [Option.some.injEq]; omega
  refine ite_elim (p := fun o => o = some v → _) (fun h2 => ?_) (fun h2 => ?_)
  · rw [if_neg (by omega), if_neg (by omega), if_neg (by omega), if_pos (by omega)]
    simp only [Option.some.injEq]; omega
  refine ite_elim (p := fun o => o = some v → _) (fun h3 => ?_) (fun h3 => ?_)
  · rw [if_neg (by omega), if_neg (by omega), if_pos (by omega)]
    simp only [Option.some.injEq]; omega
  refine ite_elim (p := fun o => o = some v → _) (fun h4 => ?_) (fun h4 => ?_)
  · rw [if_pos h4]
    simp only [Option.some.injEq]; omega
  have hm4 : m = 254 := by omega
  rw [if_neg h4]
  simp only [hm4, if_true]
  simp only [or_true, iff_true]
  refine ite_elim (p := fun o => o = some v → _) (fun h5 => ?_) (fun h5 => ?_)
  · simp [h5]
  rw [if_neg h5]
  refine ite_elim (p := fun o => o = some v → _) (fun h6 => ?_) (fun h6 => ?_)
  · rw [if_neg (by omega), if_neg (by omega), if_neg (by omega)]
    simp only [Option.some.injEq]; omega
  refine ite_elim (p := fun o => o = some v → _) (fun h7 => ?_) (fun h7 => ?_)
  · rw [if_neg (by omega), if_neg (by omega), if_pos (by omega)]
    simp only [Option.some.injEq]; omega
  refine ite_elim (p := fun o => o = some v → _) (fun h8 => ?_) (fun h8 => ?_)
  · rw [if_neg (by omega), if_pos (by omega)]
    simp only [Option.some.injEq]; omega
  refine ite_elim (p := fun o => o = some v → _) (fun h9 => by simp) (fun h9 => ?_)
  have he1 : e1 = 250 := by omega
  simp only [he1, if_true]
  refine ite_elim (p := fun o => o = some v → _) (fun h10 => ?_) (fun h10 => ?_)
  · simp [h10]
  rw [if_neg h10]
  refine ite_elim (p := fun o => o = some v → _) (fun h11 => ?_) (fun h11 => ?_)
  · rw [if_neg (by omega), if_neg (by omega), if_neg (by omega)]
    simp only [Option.some.injEq]; omega
  refine ite_elim (p := fun o => o = some v → _) (fun h12 => ?_) (fun h12 => ?_)
  · rw [if_neg (by omega), if_neg (by omega), if_pos (by omega)]
    simp only [Option.some.injEq]; omega
  refine ite_elim (p := fun o => o = some v → _) (fun h13 => ?_) (fun h13 => by simp)
  by_cases h14 : e2 = 246
  · rw [if_pos h14]
    simp only [Option.some.injEq]; omega
  · rw [if_neg h14, if_pos (by omega)]
    simp only [Option.some.injEq]; omega

/-- An absent extension octet is read as zero. -/
theorem c73_absent (m e1 : Nat) :
    decMbr m none none = decMbr m (some 0) (some 0) ∧
    decMbr m (some e1) none = decMbr m (some e1) (some 0) := by
  constructor <;> simp [decMbr, decExt1, decExt2]

example : meaning 0x7f 0 0 = some 568 ∧ DecGood 0x7f ∧ meaning 0xfe 0xfa 0xf6 = some 10000000 :=
  ⟨by decide +kernel, Or.inl (by omega), by decide +kernel⟩

/-- C73 is violated: the octet for 1 Mbit/s is read as 9.2 Mbit/s, the octet for 0 kbit/s as
4294967295 kbit/s. -/
theorem c73_decoder_violated : ¬ C73Statement ∧
    meaning 0x86 0 0 = some 960 ∧ decMbr 0x86 none none = 9152 ∧
    meaning 0xff 0 0 = some 0 ∧ decMbr 0xff none none = 4294967295 := by
  refine ⟨fun h => ?_, by decide +kernel, by decide +kernel, by decide +kernel, by decide +kernel⟩
  have := h 0x86 0 0 960 (by decide) (by decide) (by decide) (by decide +kernel)
  revert this
  decide +kernel

/-! ## Transfer delay -/

/-- **C74**, full statement: the six bits sent for a transfer delay mean the largest expressible delay
that is not above it, and the decoder gives it back. -/
def C74Statement : Prop :=
  ∀ d, 10 ≤ d → (∃ v, delayMeaning (encDelay d) = some v ∧ BestDelay d v) ∧
    BestDelay d (decDelay (encDelay d))

theorem bestDelay_of (d v : Nat) (hv : Delay v) (hle : v ≤ d)
    (h : ∀ w, Delay w → w ≤ d → w ≤ v) : BestDelay d v := ⟨hv, hle, h⟩

/-- The encoder is right for every delay an element can express or exceed. -/
theorem c74_encoder (d : Nat) (h : 10 ≤ d) :
    ∃ v, delayMeaning (encDelay d) = some v ∧ BestDelay d v := by
  unfold encDelay delayMeaning
  by_cases h1 : d ≥ 4000
  · refine ⟨4000, by rw [if_pos h1]; rfl, Or.inr (Or.inr ⟨30, by omega, by omega⟩), h1, ?_⟩
    rintro w (⟨k, a, b, rfl⟩ | ⟨k, a, rfl⟩ | ⟨k, a, rfl⟩) hw <;> omega
  rw [if_neg h1]
  by_cases h2 : d ≥ 1000
  · rw [if_pos h2]
    refine ⟨1000 + 100 * ((d - 1000) / 100), ?_, Or.inr (Or.inr ⟨_, by omega, rfl⟩), by omega, ?_⟩
    · rw [if_neg (by omega), if_neg (by omega), if_neg (by omega), if_pos (by omega)]
      congr 1; omega
    · rintro w (⟨k, a, b, rfl⟩ | ⟨k, a, rfl⟩ | ⟨k, a, rfl⟩) hw <;> omega
  rw [if_neg h2]
  by_cases h3 : d ≥ 200
  · rw [if_pos h3]
    refine ⟨200 + 50 * ((d - 200) / 50), ?_, Or.inr (Or.inl ⟨_, by omega, rfl⟩), by omega, ?_⟩
    · rw [if_neg (by omega), if_neg (by omega), if_pos (by omega)]
      congr 1; omega
    · rintro w (⟨k, a, b, rfl⟩ | ⟨k, a, rfl⟩ | ⟨k, a, rfl⟩) hw <;> omega
  rw [if_neg h3]
  by_cases h4 : d > 150
  · simp only [h4, if_true]
    refine ⟨150, by decide, Or.inl ⟨15, by omega, by omega, by omega⟩, by omega, ?_⟩
    rintro w (⟨k, a, b, rfl⟩ | ⟨k, a, rfl⟩ | ⟨k, a, rfl⟩) hw <;> omega
  · simp only [h4, if_false]
    rw [if_pos (show d ≥ 10 from h)]
    refine ⟨10 * (d / 10), ?_, Or.inl ⟨d / 10, by omega, by omega, rfl⟩, by omega, ?_⟩
    · rw [if_neg (by omega), if_pos (by omega)]
    · rintro w (⟨k, a, b, rfl⟩ | ⟨k, a, rfl⟩ | ⟨k, a, rfl⟩) hw <;> omega

/-- **C74**, proved part: what is sent is right from 10 ms on; what is received from 200 ms on.  Missing: the
decoder below 200 ms. -/
theorem c74_delay_partial (d : Nat) (h : 10 ≤ d) :
    (∃ v, delayMeaning (encDelay d) = some v ∧ BestDelay d v) ∧
    (200 ≤ d → BestDelay d (decDelay (encDelay d))) := by
  refine ⟨c74_encoder d h, fun h2 => ?_⟩
  obtain ⟨v, hv, hb⟩ := c74_encoder d h
  have he : 0x10 ≤ encDelay d ∧ encDelay d < 64 := by
    unfold encDelay
    by_cases h1 : d ≥ 4000
    · rw [if_pos h1]; omega
    rw [if_neg h1]
    by_cases h2 : d ≥ 1000
    · rw [if_pos h2]; omega
    rw [if_neg h2, if_pos (by omega)]
    omega
  have : decDelay (encDelay d) = v := by
    revert hv he
    generalize encDelay d = t
    intro hv he
    unfold delayMeaning at hv
    unfold decDelay
    simp only [Nat.mod_eq_of_lt he.2]
    rw [if_neg (by omega)] at hv ⊢
    rw [if_neg (by omega)] at hv
    by_cases h3 : t ≤ 0x1f
    · rw [if_pos h3] at hv ⊢; simpa using hv
    · rw [if_neg h3] at hv ⊢
      by_cases h4 : t ≤ 0x3e
      · rw [if_pos h4] at hv; simpa using hv
      · rw [if_neg h4] at hv; cases hv
  rw [this]
  exact hb

example : encDelay 237 = 0x10 ∧ decDelay 0x10 = 200 := by decide

/-- C74 is violated: 100 ms is read back as 10 ms. -/
theorem c74_delay_violated : ¬ C74Statement ∧ delayMeaning (encDelay 100) = some 100 ∧
    decDelay (encDelay 100) = 10 := by
  refine ⟨fun h => ?_, by decide, by decide⟩
  have h1 := (h 100 (by decide)).2
  have h2 : decDelay (encDelay 100) = 10 := by decide
  rw [h2] at h1
  have := h1.2.2 100 (Or.inl ⟨10, by decide, by decide, rfl⟩) (by decide)
  omega

end Verif.Props
