import Verif.Csn1.Step
import Verif.Csn1.Si13
import Verif.Spec.Si13

/-!
# Decoding system information type 13
-/
namespace Verif.Csn1

theorem byte_of_mem {s t : CSt} {a : Nat} (h : t.mem a = s.mem a) : t.byte a = s.byte a := by
  unfold CSt.byte; rw [h]

theorem cellOptions_timers {v p b s t} (h : decL v p b t_GPRS_Cell_Options {} s = .ok t) :
    t.byte (b + 1) = bitsVal v (s.rd + 2) 3 ∧ t.byte (b + 2) = bitsVal v (s.rd + 5) 3 ∧
      ∀ a, a < b → t.mem a = s.mem a := by
  unfold t_GPRS_Cell_Options at h
  obtain ⟨s1, h, r1, -, -, -, m1⟩ := uint_step h (by decide)
  obtain ⟨s2, h, r2, -, -, b2, m2⟩ := uint_step h (by decide)
  obtain ⟨s3, h, r3, -, -, b3, m3⟩ := uint_step h (by decide)
  have hl := decL_lo (l := 3) _ _ _ (by rfl) t h
  refine ⟨?_, ?_, fun a ha => ?_⟩
  · rw [byte_of_mem (hl _ (by omega)), byte_of_mem (m3 _ (by omega)), b2, r1]
  · rw [byte_of_mem (hl _ (by omega)), b3, r2, r1, Nat.add_assoc]
  · rw [hl _ (by omega), m3 _ (by omega), m2 _ (by omega), m1 _ (by omega)]

theorem notPresent_timers {v p b s t} (h : decL v p b t_PBCCH_Not_present {} s = .ok t) :
    t.byte (b + 5) = bitsVal v (s.rd + 16) 3 ∧ t.byte (b + 6) = bitsVal v (s.rd + 19) 3 ∧
      ∀ a, a < b → t.mem a = s.mem a := by
  unfold t_PBCCH_Not_present at h
  obtain ⟨s1, h, r1, -, -, -, m1⟩ := uint_step h (by decide)
  obtain ⟨s2, h, r2, -, -, -, m2⟩ := uint_step h (by decide)
  obtain ⟨s3, h, r3, -, -, -, m3⟩ := uint_step h (by decide)
  obtain ⟨s4, h, r4, -, -, -, m4⟩ := uint_step h (by decide)
  obtain ⟨s5, h5, h⟩ := typ_step h
  obtain ⟨b1, b2, m5⟩ := cellOptions_timers h5
  have hl := decL_lo (l := 25) _ _ _ (by rfl) t h
  refine ⟨?_, ?_, fun a ha => ?_⟩
  · rw [byte_of_mem (hl _ (by omega)), show b + 5 = b + 4 + 1 from rfl, b1, r4, r3, r2, r1]
  · rw [byte_of_mem (hl _ (by omega)), show b + 6 = b + 4 + 2 from rfl, b2, r4, r3, r2, r1]
  · rw [hl _ (by omega), m5 _ (by omega), m4 _ (by omega), m3 _ (by omega), m2 _ (by omega), m1 _ (by omega)]

/-- The lines of `SI13_RestOctets_t` from the union on. -/
def si13Tail : List Csn := [
  .union false 31 1 2,
  .typ 32 false t_PBCCH_Not_present,
  .typ 32 false t_PBCCH_present,
  .nextExist true 64 4 1 true,
  .typ 68 false t_SI13_AdditionR99,
  .padding]

theorem si13Tail_post {v p s t} (h : decL v p 0 si13Tail {} s = .ok t) :
    t.byte 31 = bitsVal v s.rd 1 ∧
    (bitsVal v s.rd 1 = 0 → t.byte 37 = bitsVal v (s.rd + 17) 3 ∧ t.byte 38 = bitsVal v (s.rd + 20) 3) := by
  unfold si13Tail at h
  obtain ⟨s1, s2, r1, -, -, b1, m1, hu, h⟩ := union2_step h
  have hl := decL_lo (l := 64) _ _ _ (by rfl) t h
  rw [Nat.zero_add] at *
  rcases hu with ⟨h0, hu⟩ | ⟨h1, hu⟩
  · obtain ⟨c1, c2, c3⟩ := notPresent_timers hu
    refine ⟨?_, fun _ => ⟨?_, ?_⟩⟩
    · rw [byte_of_mem (hl _ (by omega)), byte_of_mem (c3 _ (by omega)), b1]
    · rw [byte_of_mem (hl _ (by omega)), show (37 : Nat) = 32 + 5 from rfl, c1, r1]
    · rw [byte_of_mem (hl _ (by omega)), show (38 : Nat) = 32 + 6 from rfl, c2, r1]
  · have c3 := (decL_post v p 32 t_PBCCH_present 32 {} s1 (by omega) s2 hu).2
    refine ⟨?_, fun h0 => by omega⟩
    rw [byte_of_mem (hl _ (by omega)), byte_of_mem (c3 _ (by omega)), b1]

/-- The first bit of the rest octets, relative to the padding pattern. -/
theorem masked_first (v : List Bool) : masked8 v 0 0 1 = (bitAt v 0, 1) := by
  have h : ∀ a b c d e f g i : Fin 2, (43 ^^^ (a.val * 2 ^ 7 + (b.val * 2 ^ 6 + (c.val * 2 ^ 5 + (d.val * 2 ^ 4 +
      (e.val * 2 ^ 3 + (f.val * 2 ^ 2 + (g.val * 2 ^ 1 + i.val)))))))) >>> 7 &&& 1 = a.val := by decide +kernel
  have hb : ∀ i, bitAt v i < 2 := fun i => Nat.lt_succ_of_le (bitAt_le v i)
  unfold masked8
  simp only [Nat.zero_mod, Nat.zero_add, Nat.reduceLeDiff, ite_true, Nat.sub_zero, Nat.reduceSub, Nat.reducePow]
  refine Prod.ext ?_ rfl
  dsimp only
  have := h ⟨_, hb 0⟩ ⟨_, hb 1⟩ ⟨_, hb 2⟩ ⟨_, hb 3⟩ ⟨_, hb 4⟩ ⟨_, hb 5⟩ ⟨_, hb 6⟩ ⟨_, hb 7⟩
  simp only [bitsVal]
  simpa using this

/-- The list reader of the decoder stops where the list ends. -/
theorem recArrLoop_rd {v p base off sz bits} : ∀ (fuel k : Nat) (s : CSt) (n : Nat) (t : CSt),
    recArrLoop v p base off sz bits fuel k s = .ok (n, t) → t.rd = Spec.listEnd v bits fuel s.rd := by
  intro fuel
  induction fuel with
  | zero => intro k s n t h; cases h; rfl
  | succ fuel ih =>
    intro k s n t h
    unfold recArrLoop at h
    unfold Spec.listEnd
    by_cases ht : tagSet v s.rd = true
    · rw [if_pos ht] at h
      have hb : bitAt v s.rd = 1 := by
        unfold tagSet at ht; unfold bitAt; rw [if_pos (by simpa using ht)]
      rw [if_pos hb]
      obtain ⟨s1, h1, h2⟩ := CRes.bind_eq_ok h
      obtain ⟨rfl, _⟩ := wr_eq_ok h1
      dsimp only at h2
      split at h2
      · cases h2
      · exact ih _ _ n t h2
    · rw [if_neg ht] at h
      have hb : ¬ bitAt v s.rd = 1 := by
        unfold tagSet at ht; unfold bitAt; rw [if_neg (by simpa using ht)]; decide
      rw [if_neg hb]
      cases h; rfl

/-- A list of integers. -/
theorem recArr_step {v p base off sz cnt bits ds s t}
    (h : decL v p base (.recArr off sz cnt bits :: ds) {} s = .ok t) :
    ∃ s1, decL v p base ds {} s1 = .ok t ∧ s1.rd = Spec.listEnd v bits (v.length - s.rd) s.rd := by
  unfold decL at h
  simp only [ne_eq, not_true_eq_false, ite_false] at h
  split at h
  · cases h
  · obtain ⟨s1, h1, h2⟩ := CRes.bind_eq_ok h
    unfold decD at h1
    rw [if_neg (by simp)] at h1
    obtain ⟨⟨n, s2⟩, h3, h4⟩ := CRes.bind_eq_ok h1
    have hr := recArrLoop_rd _ _ _ _ _ h3
    dsimp only at h4
    obtain ⟨s3, h5, h6⟩ := CRes.bind_eq_ok h4
    obtain ⟨rfl, _⟩ := wr_eq_ok h5
    cases h6
    exact ⟨_, h2, hr⟩

theorem rdArr_rd {v p base off sz bits w} : ∀ (n k : Nat) (s t : CSt),
    rdArr v p base off sz bits w n k s = .ok t → t.rd = s.rd + n * bits := by
  intro n
  induction n with
  | zero => intro k s t h; cases h; simp
  | succ n ih =>
    intro k s t h
    unfold rdArr at h
    obtain ⟨s1, h1, h2⟩ := CRes.bind_eq_ok h
    obtain ⟨rfl, _⟩ := wr_eq_ok h1
    rw [ih _ _ _ h2, Nat.add_mul]
    dsimp only
    omega

/-- An integer stored with an offset. -/
theorem uintOfs_step {v p base off sz bits x ds s t} (h : decL v p base (.uintOfs off sz bits x :: ds) {} s = .ok t)
    (hb : bits ≤ 8) (hx : 2 ^ bits + x ≤ 256) : ∃ s1, decL v p base ds {} s1 = .ok t ∧ s1.rd = s.rd + bits ∧
      s1.byte (base + off) = bitsVal v s.rd bits + x := by
  unfold decL at h
  simp only [ne_eq, not_true_eq_false, ite_false] at h
  split at h
  · cases h
  · obtain ⟨s1, h1, h2⟩ := CRes.bind_eq_ok h
    unfold decD at h1
    split at h1
    · rw [if_pos (by omega)] at h1
      obtain ⟨s2, h3, h4⟩ := CRes.bind_eq_ok h1
      cases h4
      obtain ⟨rfl, _⟩ := wr_eq_ok h3
      refine ⟨_, h2, rfl, ?_⟩
      show (s.mem.putLe (base + off + 0) (uintW bits) _) (base + off) % 256 = _
      rw [uintW_le8 hb, Nat.add_zero, putLe_one, Nat.mod_mod]
      have := bitsVal_lt v bits s.rd
      exact Nat.mod_eq_of_lt (by omega)
    · cases h1

/-- A bitmap whose length was decoded before. -/
theorem varBmp_step {v p base off sz cnt ds s t} (h : decL v p base (.varBmp off sz cnt 0 :: ds) {} s = .ok t) :
    ∃ s1, decL v p base ds {} s1 = .ok t ∧ s1.rd = s.rd + s.byte (base + cnt) := by
  unfold decL at h
  simp only [ne_eq, not_true_eq_false, ite_false] at h
  split at h
  · cases h
  · obtain ⟨s1, h1, h2⟩ := CRes.bind_eq_ok h
    unfold decD at h1
    rw [if_neg (by simp)] at h1
    dsimp only at h1
    rw [Nat.add_zero] at h1
    generalize hn : s.byte (base + cnt) = n at h1 ⊢
    by_cases h0 : n = 0
    · rw [if_pos h0] at h1
      cases h1
      exact ⟨_, h2, by omega⟩
    · rw [if_neg h0] at h1
      split at h1
      · cases h1
      · by_cases h8 : 0 < n % 8
        · rw [if_pos h8] at h1
          obtain ⟨s2, h3, h4⟩ := CRes.bind_eq_ok h1
          obtain ⟨rfl, _⟩ := wr_eq_ok h3
          obtain ⟨s3, h5, h6⟩ := CRes.bind_eq_ok h4
          have := rdArr_rd _ _ _ _ h5
          cases h6
          refine ⟨_, h2, ?_⟩
          dsimp only at this ⊢
          omega
        · rw [if_neg h8] at h1
          obtain ⟨s3, h5, h6⟩ := CRes.bind_eq_ok h1
          have := rdArr_rd _ _ _ _ h5
          cases h6
          refine ⟨_, h2, ?_⟩
          dsimp only at this ⊢
          omega

theorem decL_nil {v p base s t} (h : decL v p base [] {} s = .ok t) : s = t := by
  unfold decL at h
  rw [if_pos rfl] at h
  split at h
  · cases h
  · injection h

/-- Decoding a mobile allocation ends where the mobile allocation ends. -/
theorem mobileAllocation_rd {v p base s t} (h : decL v p base t_GPRS_Mobile_Allocation {} s = .ok t) :
    t.rd = Spec.mobileAllocationEnd v s.rd := by
  unfold t_GPRS_Mobile_Allocation at h
  obtain ⟨s1, h, r1, -⟩ := uint_step h (by decide)
  obtain ⟨s2, h, r2⟩ := recArr_step h
  obtain ⟨s3, s4, r3, -, -, -, -, hu, h⟩ := union2_step h
  have e := decL_nil h
  subst e
  rw [r1] at r2
  unfold Spec.mobileAllocationEnd
  dsimp only
  rw [← r2]
  have hb : bitsVal v s2.rd 1 = bitAt v s2.rd := by simp [bitsVal]
  rw [hb] at hu
  rcases hu with ⟨h0, hu⟩ | ⟨h1, hu⟩
  · rw [if_pos h0]
    unfold t_MobileAllocation at hu
    obtain ⟨s5, hu, r5, b5⟩ := uintOfs_step hu (by decide) (by decide)
    obtain ⟨s6, hu, r6⟩ := varBmp_step hu
    have e := decL_nil hu
    subst e
    rw [r6, b5, r5, r3]
  · rw [if_neg (by omega)]
    unfold t_ARFCN_index_list at hu
    obtain ⟨s5, hu, r5⟩ := recArr_step hu
    have e := decL_nil hu
    subst e
    rw [r5, r3]

/-- Decoding the rest octets: absent (the structure is left as it was but for its first octet), or the
union is decoded from where the bit for the PBCCH is. -/
theorem si13_split {v p m t} (h : decodeRest p t_SI13_RestOctets v 20 m = .ok t) :
    (bitAt v 0 = 0 ∧ ∀ a, a ≠ 0 → t.mem a = m a) ∨
    (bitAt v 0 = 1 ∧ ∃ s, decL v p 0 si13Tail {} s = .ok t ∧ s.rd = Spec.pbcchBit v) := by
  unfold decodeRest t_SI13_RestOctets at h
  obtain ⟨s1, r1, o1, q1, m1, hc⟩ := existLh_step h
  dsimp only at r1 o1 q1 m1 hc
  rw [masked_first] at r1 hc
  dsimp only at r1 hc
  have hle := bitAt_le v 0
  rcases hc with ⟨h0, rfl⟩ | ⟨h1, h⟩
  · exact Or.inl ⟨h0, fun a ha => m1 a (by omega)⟩
  · refine Or.inr ⟨by omega, ?_⟩
    obtain ⟨s2, h, r2, -, q2, -, -⟩ := uint_step h (by decide)
    obtain ⟨s3, h, r3, -, q3, -, -⟩ := uint_step h (by decide)
    obtain ⟨s4, h, r4, -, q4, -⟩ := nextExist_step h (by omega)
    have e8 : bitsVal v s3.rd 1 = bitAt v 8 := by
      rw [r3, r2, r1]; simp [bitsVal]
    rw [e8] at h
    by_cases h8 : bitAt v 8 = 0
    · rw [if_pos h8, decL_skip, decL_skip] at h
      exact ⟨s4, h, by unfold Spec.pbcchBit; rw [if_pos h8]; omega⟩
    · rw [if_neg h8] at h
      obtain ⟨s5, h, r5, -⟩ := uint_step h (by decide)
      obtain ⟨s6, hm, h⟩ := typ_step h
      refine ⟨s6, h, ?_⟩
      unfold Spec.pbcchBit
      rw [if_neg h8, mobileAllocation_rd hm]
      congr 1
      omega

end Verif.Csn1
