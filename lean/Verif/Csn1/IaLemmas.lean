import Verif.Csn1.Fwd
import Verif.Rlc.CcchLemmas

/-!
# Decoding the rest octets of an immediate assignment
-/
namespace Verif.Csn1
open Verif.Spec Verif.Rlc

/-- A tag announcing lines at least one of which may not be left out. -/
theorem nextExist_byte {v p base off sz n ds s t}
    (h : decL v p base (.nextExist false off sz n false :: ds) {} s = .ok t)
    (hn : (ds.take n).all Csn.mayBeNull = false) :
    ∃ s1 : CSt, decL v p base ds { skip := if bitAt v s.rd = 1 then 0 else n } s1 = .ok t ∧ s1.rd = s.rd + 1 ∧
      s1.byte (base + off) = bitAt v s.rd ∧ ∀ a, a ≠ base + off → s1.mem a = s.mem a := by
  unfold decL at h
  simp only [ne_eq, not_true_eq_false, ite_false, Bool.false_and, Bool.false_eq_true] at h
  split at h
  · cases h
  · obtain ⟨s1, h1, h2⟩ := CRes.bind_eq_ok h
    obtain ⟨rfl, _⟩ := wr_eq_ok h1
    have hbv : bitsVal v s.rd 1 = bitAt v s.rd := by simp [bitsVal]
    simp only [hn, Bool.and_false, Bool.or_false, beq_iff_eq, hbv] at h2
    have hle := bitAt_le v s.rd
    have h01 : bitAt v s.rd = 0 ∨ bitAt v s.rd = 1 := by omega
    refine ⟨⟨s.mem.putLe (base + off) 1 (bitAt v s.rd), s.rd + 1, s.bo + 1, s.rem - 1⟩, ?_, rfl, ?_, ?_⟩
    · rcases h01 with h0 | h0 <;> rw [h0] at h2 ⊢ <;> exact h2
    · show (s.mem.putLe (base + off) 1 _) (base + off) % 256 = _
      rw [putLe_one, Nat.mod_mod]; omega
    · intro a ha
      exact putLe_one_ne ha

/-- A union with a choice of four, selected relative to the padding pattern: the last alternative. -/
theorem union4_step {v p base off sz t1 t2 t3 o4 t4 ds s t} (ha : s.bo % 8 = s.rd % 8) (h0 : lhAt v s.rd = 1)
    (h1 : lhAt v (s.rd + 1) = 1)
    (h : decL v p base (.union true off sz 4 :: t1 :: t2 :: t3 :: .typ o4 false t4 :: ds) {} s = .ok t) :
    ∃ s1 s2 : CSt, s1.rd = s.rd + 2 ∧ s1.byte (base + off) = 3 ∧
      (∀ a, a ≠ base + off → s1.mem a = s.mem a) ∧
      decL v p (base + o4) t4 {} s1 = .ok s2 ∧ decL v p base ds {} s2 = .ok t := by
  unfold decL at h
  simp only [ne_eq, not_true_eq_false, ite_false] at h
  split at h
  · cases h
  · rw [if_neg (by omega)] at h
    have hi : unionIdx v true (ixBits 4) 0 s =
        (3, { s with rd := s.rd + 2, bo := s.bo + 2, rem := s.rem - 1 - 1 }) := by
      show unionIdx v true 2 0 s = _
      unfold unionIdx
      simp only [ite_true]
      rw [masked8_one _ _ _ ha]
      dsimp only
      unfold unionIdx
      simp only [ite_true]
      rw [masked8_one _ _ _ (by omega)]
      dsimp only
      unfold unionIdx
      rw [h0, h1]
    rw [hi] at h
    obtain ⟨s1, h1, h2⟩ := CRes.bind_eq_ok h
    obtain ⟨rfl, _⟩ := wr_eq_ok h1
    rw [show min (3 + 1) 4 - 1 = 3 from rfl, show 4 - min (3 + 1) 4 = 0 from rfl] at h2
    unfold decL at h2
    simp only [ne_eq, Nat.reduceEqDiff, not_false_eq_true, ite_true, Nat.reduceSub] at h2
    unfold decL at h2
    simp only [ne_eq, Nat.reduceEqDiff, not_false_eq_true, ite_true, Nat.reduceSub] at h2
    unfold decL at h2
    simp only [ne_eq, Nat.reduceEqDiff, not_false_eq_true, ite_true, Nat.reduceSub] at h2
    unfold decL at h2
    simp only [ne_eq, not_true_eq_false, ite_false] at h2
    obtain ⟨s2, h3, h4⟩ := CRes.bind_eq_ok h2
    unfold decD at h3
    rw [if_neg (by simp)] at h3
    split at h4
    · cases h4
    · refine ⟨_, s2, ?_, ?_, ?_, h3, h4⟩
      · rfl
      · show (s.mem.putLe (base + off) 1 _) (base + off) % 256 = _
        rw [putLe_one, Nat.mod_mod]
      · intro a ha
        exact putLe_one_ne ha

/-- An optional group of one integer. -/
theorem optUint_step {v p base off sz o1 z1 b1 ds s t}
    (h : decL v p base (.nextExist false off sz 1 false :: .uint o1 z1 b1 false :: ds) {} s = .ok t) (hb : b1 ≤ 8) :
    ∃ s' : CSt, decL v p base ds {} s' = .ok t ∧ s'.rd = optBit v b1 s.rd ∧
      ∀ a, a ≠ base + off → a ≠ base + o1 → s'.mem a = s.mem a := by
  obtain ⟨s1, h1, r1, -, m1⟩ := nextExist_byte h rfl
  unfold optBit
  by_cases hx : bitAt v s.rd = 1
  · rw [if_pos hx] at h1 ⊢
    obtain ⟨s2, h2, r2, -, -, -, m2⟩ := uint_step h1 hb
    exact ⟨s2, h2, by omega, fun a ha ha' => by rw [m2 a ha', m1 a ha]⟩
  · rw [if_neg hx] at h1 ⊢
    rw [show (1 : Nat) = 0 + 1 from rfl, decL_skip] at h1
    exact ⟨s1, h1, by omega, fun a ha _ => m1 a ha⟩

/-- An optional group of two integers. -/
theorem optUint2_step {v p base off sz o1 z1 b1 o2 z2 b2 ds s t}
    (h : decL v p base (.nextExist false off sz 2 false :: .uint o1 z1 b1 false :: .uint o2 z2 b2 false :: ds) {} s = .ok t)
    (hb : b1 ≤ 8) (hb2 : b2 ≤ 8) :
    ∃ s' : CSt, decL v p base ds {} s' = .ok t ∧ s'.rd = optBit v (b1 + b2) s.rd ∧
      ∀ a, a ≠ base + off → a ≠ base + o1 → a ≠ base + o2 → s'.mem a = s.mem a := by
  obtain ⟨s1, h1, r1, -, m1⟩ := nextExist_byte h rfl
  unfold optBit
  by_cases hx : bitAt v s.rd = 1
  · rw [if_pos hx] at h1 ⊢
    obtain ⟨s2, h2, r2, -, -, -, m2⟩ := uint_step h1 hb
    obtain ⟨s3, h3, r3, -, -, -, m3⟩ := uint_step h2 hb2
    exact ⟨s3, h3, by omega, fun a ha ha' ha'' => by rw [m3 a ha'', m2 a ha', m1 a ha]⟩
  · rw [if_neg hx] at h1 ⊢
    rw [show (2 : Nat) = 1 + 1 from rfl, decL_skip, show (1 : Nat) = 0 + 1 from rfl, decL_skip] at h1
    exact ⟨s1, h1, by omega, fun a ha _ _ => m1 a ha⟩

/-- The end of a table. -/
theorem nil_step {v p base s t} (h : decL v p base [] {} s = .ok t) : s = t := by
  unfold decL at h
  rw [if_pos rfl] at h
  split at h
  · cases h
  · cases h; rfl

/-- A starting time. -/
theorem startingTime_step {v p base s t} (h : decL v p base t_StartingTime {} s = .ok t) :
    startAt t base = startingTime v s.rd ∧ t.rd = s.rd + 16 ∧
      ∀ a, a ≠ base → a ≠ base + 1 → a ≠ base + 2 → t.mem a = s.mem a := by
  unfold t_StartingTime at h
  obtain ⟨s1, h, r1, -, -, b1, m1⟩ := uint_step h (by decide)
  obtain ⟨s2, h, r2, -, -, b2, m2⟩ := uint_step h (by decide)
  obtain ⟨s3, h, r3, -, -, b3, m3⟩ := uint_step h (by decide)
  obtain rfl := (nil_step h).symm
  refine ⟨?_, by omega, fun a h0 h1 h2 => by rw [m3 a h2, m2 a h1, m1 a (by omega)]⟩
  unfold startAt startingTime
  have e1 : t.byte base = bitsVal v s.rd 5 := by
    rw [← b1, Nat.add_zero]
    unfold CSt.byte; rw [m3 _ (by omega), m2 _ (by omega)]
  have e2 : t.byte (base + 1) = bitsVal v (s.rd + 5) 6 := by
    rw [← r1, ← b2]
    unfold CSt.byte; rw [m3 _ (by omega)]
  have e3 : t.byte (base + 2) = bitsVal v (s.rd + 11) 5 := by
    rw [b3]; congr 1; omega
  rw [e1, e2, e3]

theorem padding_step {v p base s t} (h : decL v p base [.padding] {} s = .ok t) : t.mem = s.mem := by
  unfold decL at h
  simp only [ne_eq, not_true_eq_false, ite_false] at h
  split at h
  · cases h
  · obtain ⟨s1, h1, h2⟩ := CRes.bind_eq_ok h
    cases nil_step h2
    exact silent_mem rfl h1

theorem fixed_step {v p base bits value ds s t} (h : decL v p base (.fixed bits value :: ds) {} s = .ok t) :
    ∃ s1 : CSt, decL v p base ds {} s1 = .ok t ∧ s1.rd = s.rd + bits ∧ s1.mem = s.mem := by
  unfold decL at h
  simp only [ne_eq, not_true_eq_false, ite_false] at h
  split at h
  · cases h
  · obtain ⟨s1, h1, h2⟩ := CRes.bind_eq_ok h
    unfold decD at h1
    rw [if_neg (by simp)] at h1
    split at h1
    · cases h1
    · cases h1
      exact ⟨_, h2, rfl, rfl⟩

/-- A choice of which only the first alternative can be decoded. -/
theorem unionTrap_step {v p base off sz o1 t1 code ds s t}
    (h : decL v p base (.union false off sz 2 :: .typ o1 false t1 :: .trap code :: ds) {} s = .ok t) :
    bitAt v s.rd = 0 ∧ ∃ s1 s2 : CSt, s1.rd = s.rd + 1 ∧ s1.byte (base + off) = 0 ∧
      (∀ a, a ≠ base + off → s1.mem a = s.mem a) ∧ decL v p (base + o1) t1 {} s1 = .ok s2 ∧
      decL v p base ds {} s2 = .ok t := by
  unfold decL at h
  simp only [ne_eq, not_true_eq_false, ite_false] at h
  split at h
  · cases h
  · rw [if_neg (by omega)] at h
    have hi : unionIdx v false (ixBits 2) 0 s =
        (bitAt v s.rd, { s with rd := s.rd + 1, bo := s.bo + 1, rem := s.rem - 1 }) := by
      show unionIdx v false 1 0 s = _
      simp [unionIdx, bitsVal]
    rw [hi] at h
    obtain ⟨s1, h1, h2⟩ := CRes.bind_eq_ok h
    obtain ⟨rfl, _⟩ := wr_eq_ok h1
    have hle := bitAt_le v s.rd
    have hcase : bitAt v s.rd = 0 ∨ bitAt v s.rd = 1 := by omega
    rcases hcase with hx | hx
    · refine ⟨hx, ?_⟩
      simp only [hx] at h2
      rw [show min (0 + 1) 2 - 1 = 0 from rfl, show 2 - min (0 + 1) 2 = 1 from rfl] at h2
      unfold decL at h2
      simp only [ne_eq, not_true_eq_false, ite_false] at h2
      obtain ⟨s2, h3, h4⟩ := CRes.bind_eq_ok h2
      unfold decD at h3
      rw [if_neg (by simp)] at h3
      split at h4
      · cases h4
      · rw [show (1 : Nat) = 0 + 1 from rfl, decL_skip] at h4
        refine ⟨⟨s.mem.putLe (base + off) 1 0, s.rd + 1, s.bo + 1, s.rem - 1⟩, s2, rfl, ?_, ?_, h3, h4⟩
        · show (s.mem.putLe (base + off) 1 _) (base + off) % 256 = _
          rw [putLe_one, Nat.mod_mod]
        · intro a ha
          exact putLe_one_ne ha
    · simp only [hx] at h2
      rw [show min (1 + 1) 2 - 1 = 0 + 1 from rfl, show 2 - min (1 + 1) 2 = 0 from rfl] at h2
      unfold decL at h2
      simp only [Nat.zero_add, ne_eq, Nat.one_ne_zero, not_false_eq_true, ite_true, Nat.sub_self] at h2
      unfold decL at h2
      simp only [ne_eq, not_true_eq_false, ite_false] at h2
      obtain ⟨s2, h3, h4⟩ := CRes.bind_eq_ok h2
      unfold decD at h3
      rw [if_pos rfl] at h3
      cases h3

/-- The dynamic allocation. -/
theorem iaDyn_step {v p b s t} (h : decL v p b t_GPRS_DynamicOrFixedAllocation {} s = .ok t) (hr : s.rd = 5) :
    t.byte b = bitsVal v 5 5 ∧ t.byte (b + 2) = 0 ∧ t.byte (b + 3) = bitsVal v 12 3 ∧
    t.byte (b + 15) = bitAt v (dynStartAt v) ∧
    (bitAt v (dynStartAt v) = 1 → startAt t (b + 16) = startingTime v (dynStartAt v + 1)) ∧
    ∀ a, a < b → t.mem a = s.mem a := by
  unfold t_GPRS_DynamicOrFixedAllocation at h
  obtain ⟨s1, h, r1, -, -, b1, m1⟩ := uint_step h (by decide)
  obtain ⟨s2, h, r2, -, -, b2, m2⟩ := uint_step h (by decide)
  obtain ⟨-, s3, s4, r3, b3, m3, hd, h⟩ := unionTrap_step h
  unfold t_DynamicAllocation at hd
  obtain ⟨d1, hd, rd1, -, -, bd1, md1⟩ := uint_step hd (by decide)
  obtain ⟨d2, hd, rd2, -, -, -, md2⟩ := uint_step hd (by decide)
  obtain ⟨d3, hd, rd3, md3⟩ := optUint2_step hd (by decide) (by decide)
  obtain rfl := (nil_step hd).symm
  obtain ⟨s5, h, r5, -, -, -, m5⟩ := uint_step h (by decide)
  obtain ⟨s6, h, r6, -, -, -, m6⟩ := uint_step h (by decide)
  obtain ⟨s7, h, r7, m7⟩ := optUint_step h (by decide)
  obtain ⟨s8, h, r8, -, -, -, m8⟩ := uint_step h (by decide)
  obtain ⟨s9, h, r9, m9⟩ := optUint_step h (by decide)
  obtain ⟨s10, h, r10, b10, m10⟩ := nextExist_byte h rfl
  have p9 : s9.rd = dynStartAt v := by
    unfold dynStartAt
    have e16 : d2.rd = 16 := by omega
    rw [e16] at rd3
    rw [r9, r8, r7, r6, r5, rd3]
  rw [p9] at h b10 r10
  -- everything from `s4` on stores behind offset 8
  have hmem : ∀ a, a < b + 8 → s10.mem a = s4.mem a := by
    intro a ha
    rw [m10 a (by omega), m9 a (by omega) (by omega), m8 a (by omega), m7 a (by omega) (by omega), m6 a (by omega),
      m5 a (by omega)]
  have e0 : s10.byte b = bitsVal v 5 5 := by
    rw [hr] at b1
    rw [← b1, Nat.add_zero]
    unfold CSt.byte
    rw [hmem _ (by omega), md3 _ (by omega) (by omega) (by omega), md2 _ (by omega), md1 _ (by omega), m3 _ (by omega),
      m2 _ (by omega)]
  have e2 : s10.byte (b + 2) = 0 := by
    rw [← b3]
    unfold CSt.byte
    rw [hmem _ (by omega), md3 _ (by omega) (by omega) (by omega), md2 _ (by omega), md1 _ (by omega)]
  have e3 : s10.byte (b + 3) = bitsVal v 12 3 := by
    have : bitsVal v 12 3 = d1.byte (b + 3) := by
      rw [show b + 3 = b + 3 + 0 from rfl, bd1]; congr 1; omega
    rw [this]
    unfold CSt.byte
    rw [hmem _ (by omega), md3 _ (by omega) (by omega) (by omega), md2 _ (by omega)]
  have elow : ∀ a, a < b → s10.mem a = s.mem a := by
    intro a ha
    rw [hmem a (by omega), md3 _ (by omega) (by omega) (by omega), md2 _ (by omega), md1 _ (by omega), m3 _ (by omega),
      m2 _ (by omega), m1 _ (by omega)]
  by_cases hx : bitAt v (dynStartAt v) = 1
  · rw [if_pos hx] at h
    obtain ⟨s11, h11, h⟩ := typ_step h
    obtain rfl := (nil_step h).symm
    obtain ⟨st, -, mt⟩ := startingTime_step h11
    have mt' : ∀ a, a < b + 16 → t.mem a = s10.mem a := fun a ha => mt a (by omega) (by omega) (by omega)
    have bt : ∀ a, a < b + 16 → t.byte a = s10.byte a := fun a ha => by unfold CSt.byte; rw [mt' a ha]
    refine ⟨?_, ?_, ?_, ?_, fun _ => ?_, fun a ha => ?_⟩
    · rw [bt _ (by omega), e0]
    · rw [bt _ (by omega), e2]
    · rw [bt _ (by omega), e3]
    · rw [bt _ (by omega), b10]
    · rw [st, r10]
    · rw [mt' _ (by omega), elow a ha]
  · rw [if_neg hx, show (1 : Nat) = 0 + 1 from rfl, decL_skip] at h
    obtain rfl := (nil_step h).symm
    exact ⟨e0, e2, e3, b10, fun h => absurd h hx, elow⟩

/-- The single block. -/
theorem iaSingle_step {v p b s t} (h : decL v p b t_GPRS_SingleBlockAllocation {} s = .ok t) (hr : s.rd = 5) :
    startAt t (b + 7) = startingTime v (optBit v 4 5 + 5 + 2) ∧ ∀ a, a < b → t.mem a = s.mem a := by
  unfold t_GPRS_SingleBlockAllocation at h
  obtain ⟨s1, h, r1, m1⟩ := optUint_step h (by decide)
  obtain ⟨s2, h, r2, -, -, -, m2⟩ := uint_step h (by decide)
  obtain ⟨s3, h, r3, m3⟩ := fixed_step h
  obtain ⟨s4, h4, h⟩ := typ_step h
  obtain ⟨st, -, m4⟩ := startingTime_step h4
  have hl := decL_lo (l := 12) _ _ _ (by rfl) t h
  refine ⟨?_, fun a ha => ?_⟩
  · have e : startAt t (b + 7) = startAt s4 (b + 7) := by
      unfold startAt CSt.byte
      rw [hl _ (by omega), hl _ (by omega), hl _ (by omega)]
    rw [e, st, r3, r2, r1, hr]
  · rw [hl _ (by omega), m4 _ (by omega) (by omega) (by omega), m3, m2 _ (by omega), m1 _ (by omega) (by omega)]

/-- The rest octets of an uplink assignment, when they are accepted, are understood as the standard has them. -/
theorem ia_uplink {v m t n} (h : decodeRest (.object 80) t_IA_RestOctets v n m = .ok t) (hu : IsUplinkAssignment v) :
    iaKind t = .ul (uplinkAssignment v) := by
  obtain ⟨u0, u1, u2, u3⟩ := hu
  unfold decodeRest t_IA_RestOctets at h
  obtain ⟨s1, s2, r1, b1, m1, hh, h⟩ := union4_step (by rfl) (by rw [lhAt_isH, u0]; rfl) (by
    show lhAt v 1 = 1
    rw [lhAt_isH, u1]; rfl) h
  have mt := padding_step h
  dsimp only at r1 b1
  unfold t_IA_RestOctetsHH at hh
  obtain ⟨s3, s4, r3, -, -, b3, m3, hc, hrest⟩ := union2_step hh
  have hl4 := decL_lo (l := 48) _ _ _ (by rfl) s2 hrest
  have v2 : bitsVal v s1.rd 1 = 0 := by rw [r1]; simp [bitsVal, u2]
  rw [v2] at b3 hc
  rcases hc with ⟨-, hc⟩ | ⟨h1, -⟩
  case inr => cases h1
  unfold t_IA_PacketAssignment_UL_DL at hc
  obtain ⟨s5, s6, r5, -, -, b5, m5, hc, hrest⟩ := union2_step hc
  obtain rfl := (nil_step hrest).symm
  have v3 : bitsVal v s3.rd 1 = 0 := by rw [r3, r1]; simp [bitsVal, u3]
  rw [v3] at b5 hc
  rcases hc with ⟨-, hc⟩ | ⟨h1, -⟩
  case inr => cases h1
  unfold t_Packet_Uplink_ImmAssignment at hc
  obtain ⟨s7, s8, r7, -, -, b7, m7, hc, hrest⟩ := union2_step hc
  have hl8 := decL_lo (l := 24) _ _ _ (by rfl) s4 hrest
  have v4 : bitsVal v s5.rd 1 = bitAt v 4 := by rw [r5, r3, r1]; simp [bitsVal]
  have r7' : s7.rd = 5 := by omega
  rw [v4] at b7 hc
  simp only [Nat.zero_add, Nat.reduceAdd] at *
  have bt : ∀ a, a < 36 → t.byte a = s8.byte a := by
    intro a ha; unfold CSt.byte; rw [mt, hl4 a (by omega), hl8 a (by omega)]
  have low : ∀ a, a < 16 → (∀ a, a < 16 → s8.mem a = s7.mem a) → t.byte a = s7.byte a := by
    intro a ha hx; rw [bt a (by omega)]; unfold CSt.byte; rw [hx a ha]
  have f0 : (∀ a, a < 16 → s8.mem a = s7.mem a) → t.byte 0 = 3 := by
    intro hx; rw [low 0 (by omega) hx, ← b1]; unfold CSt.byte
    rw [m7 0 (by omega), m5 0 (by omega), m3 0 (by omega)]
  have f4 : (∀ a, a < 16 → s8.mem a = s7.mem a) → t.byte 4 = 0 := by
    intro hx; rw [low 4 (by omega) hx, ← b3]; unfold CSt.byte
    rw [m7 4 (by omega), m5 4 (by omega)]
  have f8 : (∀ a, a < 16 → s8.mem a = s7.mem a) → t.byte 8 = 0 := by
    intro hx; rw [low 8 (by omega) hx, ← b5]; unfold CSt.byte
    rw [m7 8 (by omega)]
  have f12 : (∀ a, a < 16 → s8.mem a = s7.mem a) → t.byte 12 = bitAt v 4 := by
    intro hx; rw [low 12 (by omega) hx, b7]
  unfold iaKind uplinkAssignment
  rcases hc with ⟨hb4, hc⟩ | ⟨hb4, hc⟩
  · obtain ⟨st, hx⟩ := iaSingle_step hc r7'
    rw [f0 hx, f4 hx, f8 hx, f12 hx, hb4]
    simp only [Nat.reduceEqDiff, ite_false, ite_true, Nat.reduceAdd, show ((0 : Nat) = 1) = False from by simp] at st ⊢
    have e : startAt t 23 = startAt s8 23 := by
      unfold startAt; rw [bt _ (by omega), bt _ (by omega), bt _ (by omega)]
    rw [e, st]
  · obtain ⟨e0, e2, e3, e15, est, hx⟩ := iaDyn_step hc r7'
    rw [f0 hx, f4 hx, f8 hx, f12 hx, hb4]
    simp only [Nat.reduceEqDiff, ite_false, ite_true, Nat.reduceAdd, show ((1 : Nat) = 0) = False from by simp] at e2 e3 e15 est ⊢
    rw [bt 18 (by omega), e2]
    simp only [true_or, ite_true]
    unfold iaDynamic
    rw [bt 16 (by omega), bt 18 (by omega), bt 19 (by omega), bt 31 (by omega), e0, e2, e3, e15]
    simp only [ite_true]
    have hle := bitAt_le v (dynStartAt v)
    by_cases hq : bitAt v (dynStartAt v) = 1
    · rw [if_neg (by omega), if_pos hq]
      have e : startAt t 32 = startAt s8 32 := by
        unfold startAt; rw [bt _ (by omega), bt _ (by omega), bt _ (by omega)]
      rw [e, est hq]
    · rw [if_pos (by omega), if_neg hq]

end Verif.Csn1
