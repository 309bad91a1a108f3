import Verif.Csn1.CheckLemmas

/-!
# Following a successful decoding line by line
-/
namespace Verif.Csn1

/-- Lines that store nothing. -/
def silent : Csn → Bool
  | .null _ | .padding | .fixed .. | .cbTddCells _ | .trap _ => true
  | _ => false

theorem silent_mem {v p u base d s t} (hd : silent d = true) (h : decD v p u base d s = .ok t) :
    t.mem = s.mem := by
  cases d <;> simp only [silent, Bool.false_eq_true] at hd
  · unfold decD at h; cases h; rfl
  · unfold decD at h
    split at h
    · cases h
    · split at h
      · cases h
      · cases h; rfl
  · unfold decD at h
    split at h
    · cases h
    · split at h
      · cases h
      · cases h; rfl
  · unfold decD at h
    split at h
    · cases h
    · obtain ⟨c, _, h⟩ := CRes.bind_eq_ok h
      cases h; rfl
  · unfold decD at h
    split at h <;> cases h

/-- Every line of the table is silent or stores from offset `l` on only. -/
def lowL (l : Nat) (ds : List Csn) : Bool := ds.all fun d => silent d || l ≤ lowD d

/-- Memory below `L` is not changed. -/
def Lo (L : Nat) (s : CSt) (r : CRes CSt) : Prop := ∀ t, r = .ok t → ∀ a, a < L → t.mem a = s.mem a

theorem Lo.bind {L : Nat} {s : CSt} {r : CRes CSt} {f : CSt → CRes CSt} (h : Lo L s r)
    (hf : ∀ t, Lo L t (f t)) : Lo L s (r >>= f) := by
  intro u hu a ha
  obtain ⟨t, h1, h2⟩ := CRes.bind_eq_ok hu
  exact (hf t u h2 a ha).trans (h t h1 a ha)

theorem Lo.from {L : Nat} {s s' : CSt} {r : CRes CSt} (h : Lo L s' r) (hm : s'.mem = s.mem) : Lo L s r := by
  intro t ht a ha; rw [h t ht a ha, hm]

theorem Lo.fail {L s c} : Lo L s (.fail c) := fun _ h => by cases h
theorem Lo.ub {L s f} : Lo L s (.ub f) := fun _ h => by cases h
theorem Lo.mk {L : Nat} {s t : CSt} (hm : t.mem = s.mem) : Lo L s (.ok t) := by
  intro t' h; cases h; intro a _; rw [hm]

theorem decD_lo {v p u base d s l} (h : (silent d || decide (l ≤ lowD d)) = true) :
    Lo (base + l) s (decD v p u base d s) := by
  intro t ht a ha
  rw [Bool.or_eq_true] at h
  rcases h with h | h
  · rw [silent_mem h ht]
  · exact ((decD_post v p u base (base + l) d s
      (by have := of_decide_eq_true h; omega)) t ht).2 a ha

theorem wr_lo {L p base off sz k w x s} (hl : L ≤ base + off) : Lo L s (wr p base off sz k w x s) :=
  fun t ht => (wr_post hl t ht).2

/-- A table that stores from `l` on only leaves what is below alone. -/
theorem decL_lo {v p base l} : ∀ (ds : List Csn) (c : Ctl) (s : CSt), lowL l ds = true →
    Lo (base + l) s (decL v p base ds c s)
  | [], c, s, _ => by
    unfold decL
    split
    · split
      · exact Lo.fail
      · exact Lo.mk rfl
    · exact Lo.ub
  | d :: ds, c, s, h => by
    have ⟨h1, h2⟩ : (silent d || decide (l ≤ lowD d)) = true ∧ lowL l ds = true := by
      unfold lowL at h ⊢
      rw [List.all_cons, Bool.and_eq_true] at h
      exact h
    unfold decL
    split
    · exact decL_lo ds _ s h2
    · split
      · refine Lo.bind (decD_lo h1) fun t => ?_
        split
        · exact Lo.fail
        · exact decL_lo ds _ t h2
      · split
        · exact Lo.fail
        · split
          · split
            · exact Lo.fail
            · dsimp only
              obtain ⟨hr, hm⟩ := unionIdx_post v _ (ixBits _) 0 s
              have hd : l ≤ lowD _ := of_decide_eq_true h1
              unfold lowD at hd
              refine Lo.from (Lo.bind (wr_lo (by omega)) fun t => ?_) hm
              exact decL_lo ds _ t h2
          · have hd : l ≤ lowD _ := of_decide_eq_true h1
            unfold lowD at hd
            refine Lo.bind (wr_lo (by omega)) fun t => ?_
            dsimp only
            split
            · split
              · exact Lo.fail
              · exact Lo.mk rfl
            · exact Lo.from (decL_lo ds _ _ h2) rfl
          · have hd : l ≤ lowD _ := of_decide_eq_true h1
            unfold lowD at hd
            split
            · exact Lo.bind (wr_lo (by omega)) fun t => decL_lo ds _ _ h2
            · refine Lo.bind (wr_lo (by omega)) fun t => ?_
              exact Lo.from (decL_lo ds _ _ h2) rfl
          · exact Lo.bind (decD_lo h1) fun t => decL_lo ds _ t h2

/-- Skipping lines. -/
theorem decL_skip {v p base d ds k s} : decL v p base (d :: ds) ⟨k + 1, none⟩ s = decL v p base ds ⟨k, none⟩ s := by
  conv => lhs; unfold decL
  simp only [Nat.add_one_ne_zero, ne_eq, not_false_eq_true, ite_true, Nat.add_sub_cancel]

/-- An integer field of at most eight bits. -/
theorem uint_step {v p base off sz bits ds s t} (h : decL v p base (.uint off sz bits false :: ds) {} s = .ok t)
    (hb : bits ≤ 8) : ∃ s1, decL v p base ds {} s1 = .ok t ∧ s1.rd = s.rd + bits ∧ s1.bo = s.bo + bits ∧
      s1.rem = s.rem - bits ∧ s1.byte (base + off) = bitsVal v s.rd bits ∧
      ∀ a, a ≠ base + off → s1.mem a = s.mem a := by
  unfold decL at h
  simp only [ne_eq, not_true_eq_false, ite_false] at h
  split at h
  · cases h
  · obtain ⟨s1, h1, h2⟩ := CRes.bind_eq_ok h
    unfold decD at h1
    split at h1
    · rw [if_pos (by omega)] at h1
      obtain ⟨s2, h3, h4⟩ := CRes.bind_eq_ok h1
      cases h4
      obtain ⟨rfl, _⟩ := wr_eq_ok h3
      refine ⟨_, h2, rfl, rfl, rfl, ?_, ?_⟩
      · show (s.mem.putLe (base + off + 0) (uintW bits) _) (base + off) % 256 = _
        rw [uintW_le8 hb, Nat.add_zero, putLe_one, Nat.mod_mod]
        refine Nat.mod_eq_of_lt (Nat.lt_of_lt_of_le (bitsVal_lt v bits s.rd) ?_)
        calc 2 ^ bits ≤ 2 ^ 8 := Nat.pow_le_pow_right (by decide) hb
          _ = 256 := rfl
      · intro a ha
        show (s.mem.putLe (base + off + 0) (uintW bits) _) a = _
        rw [uintW_le8 hb, Nat.add_zero]
        rcases Nat.lt_or_gt_of_ne ha with hlt | hgt
        · exact putLe_lo _ _ _ _ _ hlt
        · exact putLe_hi _ _ _ _ _ (by omega)
    · rw [if_neg (by decide), if_neg (by decide)] at h1
      cases h1

/-- A structure. -/
theorem typ_step {v p base off sub ds s t} (h : decL v p base (.typ off false sub :: ds) {} s = .ok t) :
    ∃ s1, decL v p (base + off) sub {} s = .ok s1 ∧ decL v p base ds {} s1 = .ok t := by
  unfold decL at h
  simp only [ne_eq, not_true_eq_false, ite_false] at h
  split at h
  · cases h
  · obtain ⟨s1, h1, h2⟩ := CRes.bind_eq_ok h
    unfold decD at h1
    rw [if_neg (by simp)] at h1
    exact ⟨s1, h1, h2⟩

/-- A tag announcing lines; not the last bit. -/
theorem nextExist_step {v p base off sz n ds s t}
    (h : decL v p base (.nextExist false off sz n false :: ds) {} s = .ok t) (hr : s.rem ≠ 1) :
    ∃ s1, decL v p base ds { skip := if bitsVal v s.rd 1 = 0 then n else 0 } s1 = .ok t ∧ s1.rd = s.rd + 1 ∧
      s1.bo = s.bo + 1 ∧ s1.rem = s.rem - 1 ∧ ∀ a, a ≠ base + off → s1.mem a = s.mem a := by
  unfold decL at h
  simp only [ne_eq, not_true_eq_false, ite_false, Bool.false_and, Bool.false_eq_true] at h
  split at h
  · cases h
  · obtain ⟨s1, h1, h2⟩ := CRes.bind_eq_ok h
    obtain ⟨rfl, _⟩ := wr_eq_ok h1
    have hx : (s.rem == 1) = false := by simpa using hr
    simp only [hx, Bool.false_and, Bool.or_false, beq_iff_eq] at h2
    refine ⟨_, h2, rfl, rfl, rfl, ?_⟩
    intro a ha
    show (s.mem.putLe (base + off + 0) 1 _) a = _
    rw [Nat.add_zero]
    rcases Nat.lt_or_gt_of_ne ha with hlt | hgt
    · exact putLe_lo _ _ _ _ _ hlt
    · exact putLe_hi _ _ _ _ _ (by omega)

/-- A tag announcing the whole structure. -/
theorem existLh_step {v p base off sz ds s t} (h : decL v p base (.exist true off sz :: ds) {} s = .ok t) :
    ∃ s1 : CSt, s1.rd = (masked8 v s.rd s.bo 1).2 ∧ s1.bo = s.bo + 1 ∧ s1.rem = s.rem - 1 ∧
      (∀ a, a ≠ base + off → s1.mem a = s.mem a) ∧
      (((masked8 v s.rd s.bo 1).1 = 0 ∧ s1 = t) ∨
       ((masked8 v s.rd s.bo 1).1 ≠ 0 ∧ decL v p base ds {} s1 = .ok t)) := by
  unfold decL at h
  simp only [ne_eq, not_true_eq_false, ite_false, ite_true] at h
  split at h
  · cases h
  · obtain ⟨s1, h1, h2⟩ := CRes.bind_eq_ok h
    obtain ⟨rfl, _⟩ := wr_eq_ok h1
    refine ⟨{ mem := s.mem.putLe (base + off + 0) 1 (masked8 v s.rd s.bo 1).1, rd := (masked8 v s.rd s.bo 1).2,
              bo := s.bo + 1, rem := s.rem - 1 }, rfl, rfl, rfl, ?_, ?_⟩
    · intro a ha
      show (s.mem.putLe (base + off + 0) 1 _) a = _
      rw [Nat.add_zero]
      rcases Nat.lt_or_gt_of_ne ha with hlt | hgt
      · exact putLe_lo _ _ _ _ _ hlt
      · exact putLe_hi _ _ _ _ _ (by omega)
    · split at h2
      · split at h2
        · cases h2
        · exact Or.inl ⟨by assumption, by injection h2⟩
      · exact Or.inr ⟨by assumption, h2⟩

/-- A union of two structures. -/
theorem union2_step {v p base off sz o1 o2 t1 t2 ds s t}
    (h : decL v p base (.union false off sz 2 :: .typ o1 false t1 :: .typ o2 false t2 :: ds) {} s = .ok t) :
    ∃ s1 s2 : CSt, s1.rd = s.rd + 1 ∧ s1.bo = s.bo + 1 ∧ s1.rem = s.rem - 1 ∧
      s1.byte (base + off) = bitsVal v s.rd 1 ∧ (∀ a, a ≠ base + off → s1.mem a = s.mem a) ∧
      ((bitsVal v s.rd 1 = 0 ∧ decL v p (base + o1) t1 {} s1 = .ok s2) ∨
       (bitsVal v s.rd 1 = 1 ∧ decL v p (base + o2) t2 {} s1 = .ok s2)) ∧
      decL v p base ds {} s2 = .ok t := by
  unfold decL at h
  simp only [ne_eq, not_true_eq_false, ite_false] at h
  split at h
  · cases h
  · rw [if_neg (by omega)] at h
    have hi : unionIdx v false (ixBits 2) 0 s =
        (bitsVal v s.rd 1, { s with rd := s.rd + 1, bo := s.bo + 1, rem := s.rem - 1 }) := by
      show unionIdx v false 1 0 s = _
      simp [unionIdx]
    rw [hi] at h
    obtain ⟨s1, h1, h2⟩ := CRes.bind_eq_ok h
    obtain ⟨rfl, _⟩ := wr_eq_ok h1
    have hlt : bitsVal v s.rd 1 < 2 := bitsVal_lt v 1 s.rd
    have hm : ∀ a, a ≠ base + off →
        (s.mem.putLe (base + off + 0) 1 (bitsVal v s.rd 1)) a = s.mem a := by
      intro a ha
      rw [Nat.add_zero]
      rcases Nat.lt_or_gt_of_ne ha with hlt | hgt
      · exact putLe_lo _ _ _ _ _ hlt
      · exact putLe_hi _ _ _ _ _ (by omega)
    have hb : (s.mem.putLe (base + off + 0) 1 (bitsVal v s.rd 1)) (base + off) % 256 = bitsVal v s.rd 1 := by
      rw [Nat.add_zero, putLe_one, Nat.mod_mod]; exact Nat.mod_eq_of_lt (by omega)
    have hcase : bitsVal v s.rd 1 = 0 ∨ bitsVal v s.rd 1 = 1 := by omega
    rcases hcase with hx | hx
    · simp only [hx] at h2 hm hb ⊢
      rw [show min (0 + 1) 2 - 1 = 0 from rfl, show 2 - min (0 + 1) 2 = 1 from rfl] at h2
      unfold decL at h2
      simp only [ne_eq, not_true_eq_false, ite_false] at h2
      obtain ⟨s2, h3, h4⟩ := CRes.bind_eq_ok h2
      unfold decD at h3
      rw [if_neg (by simp)] at h3
      split at h4
      · cases h4
      · rw [show (1 : Nat) = 0 + 1 from rfl, decL_skip] at h4
        exact ⟨{ mem := s.mem.putLe (base + off + 0) 1 0, rd := _, bo := _, rem := _ }, s2, rfl, rfl, rfl, hb, hm, Or.inl ⟨trivial, h3⟩, h4⟩
    · simp only [hx] at h2 hm hb ⊢
      rw [show min (1 + 1) 2 - 1 = 0 + 1 from rfl, show 2 - min (1 + 1) 2 = 0 from rfl] at h2
      unfold decL at h2
      simp only [Nat.zero_add, ne_eq, Nat.one_ne_zero, not_false_eq_true, ite_true, Nat.sub_self] at h2
      unfold decL at h2
      simp only [ne_eq, not_true_eq_false, ite_false] at h2
      obtain ⟨s2, h3, h4⟩ := CRes.bind_eq_ok h2
      unfold decD at h3
      rw [if_neg (by simp)] at h3
      split at h4
      · cases h4
      · exact ⟨{ mem := s.mem.putLe (base + off + 0) 1 1, rd := _, bo := _, rem := _ }, s2, rfl, rfl, rfl, hb, hm, Or.inr ⟨trivial, h3⟩, h4⟩

end Verif.Csn1
