import Verif.Csn1.CheckLemmas

/-!
# A table that passes the check is decoded without undefined behaviour
-/
namespace Verif.Csn1

theorem safe_bind {α β : Type} {r : CRes α} {f : α → CRes β} (h : r.Safe)
    (hf : ∀ a, r = .ok a → (f a).Safe) : (r >>= f).Safe := by
  cases r with
  | ok a => exact hf a rfl
  | fail c => exact CRes.safe_fail c
  | ub u => exact absurd rfl (h u)

theorem store_mono {p : Pol} {B base off sz k w len : Nat} (h : ckW p B off sz len = true) (hb : base ≤ B)
    (hk : k + w ≤ len) : p.store base off sz k w = true := by
  unfold ckW Pol.store at h
  unfold Pol.store
  cases p with
  | member => simp only [decide_eq_true_eq] at h ⊢; omega
  | object n => simp only [decide_eq_true_eq] at h ⊢; omega

theorem elem_mono {p : Pol} {sz esz n i : Nat} (h : ckE p sz esz n = true) (hi : i < n) :
    p.elem sz esz i = true := by
  unfold ckE at h
  unfold Pol.elem
  cases p with
  | member =>
    simp only [decide_eq_true_eq] at h ⊢
    exact Nat.le_trans (Nat.mul_le_mul_right _ hi) h
  | object n => rfl

theorem rdArr_safe {v p B base off sz bits w len} (hw : ckW p B off sz len = true) (hb : base ≤ B) :
    ∀ (n k : Nat) (s : CSt), k + n * w ≤ len → (rdArr v p base off sz bits w n k s).Safe := by
  intro n
  induction n with
  | zero => intro k s _; exact CRes.safe_ok _
  | succ n ih =>
    intro k s h
    rw [Nat.succ_mul] at h
    refine safe_bind (wr_safe (store_mono hw hb (by omega))) fun t _ => ?_
    exact ih _ _ (by omega)

theorem iter_safe {f : Nat → CSt → CRes CSt} {I : CSt → Prop} (m : Nat)
    (hs : ∀ i s, i < m → I s → (f i s).Safe) (hi : ∀ i s t, I s → f i s = .ok t → I t) :
    ∀ (n i : Nat) (s : CSt), i + n ≤ m → I s → (iter f n i s).Safe := by
  intro n
  induction n with
  | zero => intro i s _ _; exact CRes.safe_ok _
  | succ n ih =>
    intro i s h hI
    exact safe_bind (hs i s (by omega) hI) fun t ht => ih _ _ (by omega) (hi _ _ _ hI ht)

theorem recArr_safe {v p B base off sz bits R} (hw : ckW p B off sz (R / (1 + bits) + 1) = true)
    (hb : base ≤ B) : ∀ (n k : Nat) (s : CSt), (k = 0 ∨ 0 ≤ s.rem) →
      ((k * (1 + bits) : Nat) : Int) + s.rem ≤ R → (recArrLoop v p base off sz bits n k s).Safe := by
  intro n
  induction n with
  | zero => intro k s _ _; exact CRes.safe_ok _
  | succ n ih =>
    intro k s h0 hR
    unfold recArrLoop
    split
    · have hk : k ≤ R / (1 + bits) := by
        rcases h0 with rfl | h0
        · exact Nat.zero_le _
        · rw [Nat.le_div_iff_mul_le (by omega)]; omega
      refine safe_bind (wr_safe (store_mono hw hb (by omega))) fun t ht => ?_
      obtain ⟨rfl, _⟩ := wr_eq_ok ht
      dsimp only
      split
      · exact CRes.safe_fail _
      · next hn =>
        refine ih _ _ (Or.inr (by dsimp only; omega)) ?_
        dsimp only
        rw [Nat.succ_mul]
        push_cast at hR ⊢
        omega
    · exact CRes.safe_ok _

theorem recTArr_safe {v : List Bool} {f : Nat → CSt → CRes CSt} {R : Int} (m : Nat)
    (hs : ∀ i s, i < m → s.rem ≤ R → (f i s).Safe) (hp : ∀ i s t, f i s = .ok t → t.rem ≤ s.rem) :
    ∀ (n i : Nat) (s : CSt), i + n ≤ m → s.rem ≤ R → (recTArrLoop v f n i s).Safe := by
  intro n
  induction n with
  | zero => intro i s _ _; unfold recTArrLoop; split <;> simp
  | succ n ih =>
    intro i s h hR
    unfold recTArrLoop
    split
    · refine safe_bind (hs i _ (by omega) (by dsimp only; omega)) fun t ht => ?_
      have := hp _ _ _ ht
      dsimp only at this
      split
      · exact CRes.safe_fail _
      · exact ih _ _ (by omega) (by omega)
    · exact CRes.safe_ok _

theorem recTArr1_safe {v : List Bool} {f : Nat → CSt → CRes CSt} {R : Int} (m : Nat)
    (hs : ∀ i s, i < m → s.rem ≤ R → (f i s).Safe) (hp : ∀ i s t, f i s = .ok t → t.rem ≤ s.rem) :
    ∀ (n i : Nat) (s : CSt), i + n ≤ m → s.rem ≤ R → (recTArr1Loop v f n i s).Safe := by
  intro n
  induction n with
  | zero => intro i s _ _; exact CRes.safe_fail _
  | succ n ih =>
    intro i s h hR
    unfold recTArr1Loop
    refine safe_bind (hs i _ (by omega) hR) fun t ht => ?_
    have := hp _ _ _ ht
    split
    · exact CRes.safe_fail _
    · dsimp only
      split
      · exact ih _ _ (by omega) (by dsimp only; omega)
      · exact CRes.safe_ok _

/-- Step of the search in `tdd_safe`: which row of the table of widths the walk is in. -/
def TddInv (idx : Int) (wsize nwi jwi : Nat) : Prop :=
  (nwi = 1 ∧ wsize = 10 ∧ idx + jwi * 10 ≤ 255) ∨ (nwi = 2 ∧ wsize = 9 ∧ idx + jwi * 9 ≤ 245) ∨
    (nwi = 4 ∧ wsize = 8 ∧ idx + jwi * 8 ≤ 227) ∨ (nwi = 8 ∧ wsize = 7 ∧ idx + jwi * 7 ≤ 195) ∨
    (nwi = 16 ∧ wsize = 6 ∧ idx + jwi * 6 ≤ 139) ∨ (nwi = 32 ∧ wsize = 5 ∧ idx + jwi * 5 ≤ 43) ∨
    (nwi = 64 ∧ idx ≤ 0)

theorem TddInv.lt {idx : Int} {wsize nwi jwi : Nat} (h : TddInv idx wsize nwi jwi) (hj : jwi < nwi)
    (hp : 0 < idx) : nwi + jwi < 64 := by
  rcases h with ⟨h, -⟩ | ⟨h, -⟩ | ⟨h, -⟩ | ⟨h, -⟩ | ⟨h, -⟩ | ⟨h, -⟩ | ⟨h, h'⟩ <;> omega

theorem TddInv.next {idx : Int} {wsize nwi jwi : Nat} (h : TddInv idx wsize nwi jwi) (hj : jwi + 1 < nwi)
    (hp : 0 < idx) : TddInv (idx - wsize) wsize nwi (jwi + 1) := by
  unfold TddInv
  rcases h with ⟨rfl, rfl, h⟩ | ⟨rfl, rfl, h⟩ | ⟨rfl, rfl, h⟩ | ⟨rfl, rfl, h⟩ | ⟨rfl, rfl, h⟩ |
    ⟨rfl, rfl, h⟩ | ⟨h, h'⟩
  · omega
  · refine Or.inr (Or.inl ⟨rfl, rfl, ?_⟩); push_cast; omega
  · refine Or.inr (Or.inr (Or.inl ⟨rfl, rfl, ?_⟩)); push_cast; omega
  · refine Or.inr (Or.inr (Or.inr (Or.inl ⟨rfl, rfl, ?_⟩))); push_cast; omega
  · refine Or.inr (Or.inr (Or.inr (Or.inr (Or.inl ⟨rfl, rfl, ?_⟩)))); push_cast; omega
  · refine Or.inr (Or.inr (Or.inr (Or.inr (Or.inr (Or.inl ⟨rfl, rfl, ?_⟩))))); push_cast; omega
  · omega

theorem TddInv.row {idx : Int} {wsize nwi jwi : Nat} (h : TddInv idx wsize nwi jwi) (hj : jwi + 1 = nwi)
    (hp : 0 < idx) : TddInv (idx - wsize) (wsize - 1) (nwi * 2) 0 := by
  unfold TddInv
  rcases h with ⟨rfl, rfl, h⟩ | ⟨rfl, rfl, h⟩ | ⟨rfl, rfl, h⟩ | ⟨rfl, rfl, h⟩ | ⟨rfl, rfl, h⟩ |
    ⟨rfl, rfl, h⟩ | ⟨h, h'⟩
  · refine Or.inr (Or.inl ⟨rfl, rfl, ?_⟩); push_cast; omega
  · refine Or.inr (Or.inr (Or.inl ⟨rfl, rfl, ?_⟩)); push_cast; omega
  · refine Or.inr (Or.inr (Or.inr (Or.inl ⟨rfl, rfl, ?_⟩))); push_cast; omega
  · refine Or.inr (Or.inr (Or.inr (Or.inr (Or.inl ⟨rfl, rfl, ?_⟩)))); push_cast; omega
  · refine Or.inr (Or.inr (Or.inr (Or.inr (Or.inr (Or.inl ⟨rfl, rfl, ?_⟩))))); push_cast; omega
  · refine Or.inr (Or.inr (Or.inr (Or.inr (Or.inr (Or.inr ⟨rfl, ?_⟩))))); push_cast; omega
  · omega

theorem tdd_safe (v : List Bool) : ∀ (f : Nat) (idx : Int) (wsize nwi jwi i cur : Nat),
    i = nwi + jwi → jwi < nwi → TddInv idx wsize nwi jwi → (tddLoop v f idx wsize nwi jwi i cur).Safe := by
  intro f
  induction f with
  | zero => intros; exact CRes.safe_ok _
  | succ f ih =>
    intro idx wsize nwi jwi i cur hi hj h
    unfold tddLoop
    split
    · next hpos =>
      split
      · have := h.lt hj hpos; omega
      · dsimp only
        split
        · exact CRes.safe_ok _
        · split
          · next hr => exact ih _ _ _ _ _ _ (by omega) (by omega) (h.row hr hpos)
          · exact ih _ _ _ _ _ _ (by omega) (by omega) (h.next (by omega) hpos)
    · exact CRes.safe_ok _

theorem unionIdx_rem (v : List Bool) (lh : Bool) : ∀ (n idx : Nat) (s : CSt),
    (unionIdx v lh n idx s).2.rem = s.rem - n := by
  intro n
  induction n with
  | zero => intro idx s; show s.rem = _; omega
  | succ n ih =>
    intro idx s
    unfold unionIdx
    dsimp only
    rw [ih]
    dsimp only
    omega

mutual

theorem minD_sound (v : List Bool) (p : Pol) : ∀ (d : Csn) (u : Bool) (base : Nat) (s t : CSt),
    decD v p u base d s = .ok t → t.rem + minD d ≤ s.rem
  | .uint off sz bits orNull, u, base, s, t, h => by
    have hp := (decD_post v p u base 0 _ s (Nat.zero_le _) t h).1
    unfold minD
    cases orNull with
    | true => rw [if_pos rfl]; omega
    | false =>
      rw [if_neg (by decide)]
      unfold decD at h
      split at h
      · split at h
        · obtain ⟨t1, h1, h2⟩ := CRes.bind_eq_ok h
          obtain ⟨rfl, _⟩ := wr_eq_ok h1
          cases h2
          unfold CSt.take
          dsimp only
          omega
        · cases h
      · split at h
        · cases h
        · split at h
          · next hc => simp at hc
          · cases h
  | .typ off orNull sub, u, base, s, t, h => by
    have hp := (decD_post v p u base 0 _ s (Nat.zero_le _) t h).1
    unfold minD
    cases orNull with
    | true => rw [if_pos rfl]; omega
    | false =>
      rw [if_neg (by decide)]
      unfold decD at h
      split at h
      · next hc => simp at hc
      · exact minL_sound v p sub (base + off) s t h
  | .bit off sz b, u, base, s, t, h => by
    have hp := (decD_post v p u base 0 _ s (Nat.zero_le _) t h).1; unfold minD; omega
  | .null i, u, base, s, t, h => by
    have hp := (decD_post v p u base 0 _ s (Nat.zero_le _) t h).1; unfold minD; omega
  | .uintOfs off sz b x, u, base, s, t, h => by
    have hp := (decD_post v p u base 0 _ s (Nat.zero_le _) t h).1; unfold minD; omega
  | .uintLh off sz b, u, base, s, t, h => by
    have hp := (decD_post v p u base 0 _ s (Nat.zero_le _) t h).1; unfold minD; omega
  | .uintArr off sz b c, u, base, s, t, h => by
    have hp := (decD_post v p u base 0 _ s (Nat.zero_le _) t h).1; unfold minD; omega
  | .tarr off sz esz c sub, u, base, s, t, h => by
    have hp := (decD_post v p u base 0 _ s (Nat.zero_le _) t h).1; unfold minD; omega
  | .vtarr ofs off sz esz c sub, u, base, s, t, h => by
    have hp := (decD_post v p u base 0 _ s (Nat.zero_le _) t h).1; unfold minD; omega
  | .bitmap off sz b, u, base, s, t, h => by
    have hp := (decD_post v p u base 0 _ s (Nat.zero_le _) t h).1; unfold minD; omega
  | .choice off sz sel subs, u, base, s, t, h => by
    have hp := (decD_post v p u base 0 _ s (Nat.zero_le _) t h).1; unfold minD; omega
  | .serialize off l sub, u, base, s, t, h => by
    have hp := (decD_post v p u base 0 _ s (Nat.zero_le _) t h).1; unfold minD; omega
  | .union l off sz c, u, base, s, t, h => by
    have hp := (decD_post v p u base 0 _ s (Nat.zero_le _) t h).1; unfold minD; omega
  | .exist l off sz, u, base, s, t, h => by
    have hp := (decD_post v p u base 0 _ s (Nat.zero_le _) t h).1; unfold minD; omega
  | .nextExist l off sz n o, u, base, s, t, h => by
    have hp := (decD_post v p u base 0 _ s (Nat.zero_le _) t h).1; unfold minD; omega
  | .varBmp off sz c a, u, base, s, t, h => by
    have hp := (decD_post v p u base 0 _ s (Nat.zero_le _) t h).1; unfold minD; omega
  | .leftBmp e off sz c a, u, base, s, t, h => by
    have hp := (decD_post v p u base 0 _ s (Nat.zero_le _) t h).1; unfold minD; omega
  | .padding, u, base, s, t, h => by
    have hp := (decD_post v p u base 0 _ s (Nat.zero_le _) t h).1; unfold minD; omega
  | .varArr off sz c a, u, base, s, t, h => by
    have hp := (decD_post v p u base 0 _ s (Nat.zero_le _) t h).1; unfold minD; omega
  | .recArr off sz c b, u, base, s, t, h => by
    have hp := (decD_post v p u base 0 _ s (Nat.zero_le _) t h).1; unfold minD; omega
  | .recTArr off sz esz cap c sub, u, base, s, t, h => by
    have hp := (decD_post v p u base 0 _ s (Nat.zero_le _) t h).1; unfold minD; omega
  | .recTArr1 off sz esz cap c sub, u, base, s, t, h => by
    have hp := (decD_post v p u base 0 _ s (Nat.zero_le _) t h).1; unfold minD; omega
  | .fixed b x, u, base, s, t, h => by
    have hp := (decD_post v p u base 0 _ s (Nat.zero_le _) t h).1; unfold minD; omega
  | .cbCopy a b c e, u, base, s, t, h => by
    have hp := (decD_post v p u base 0 _ s (Nat.zero_le _) t h).1; unfold minD; omega
  | .cbTddMap a b, u, base, s, t, h => by
    have hp := (decD_post v p u base 0 _ s (Nat.zero_le _) t h).1; unfold minD; omega
  | .cbTddCells a, u, base, s, t, h => by
    have hp := (decD_post v p u base 0 _ s (Nat.zero_le _) t h).1; unfold minD; omega
  | .trap c, u, base, s, t, h => by
    have hp := (decD_post v p u base 0 _ s (Nat.zero_le _) t h).1; unfold minD; omega

theorem minL_sound (v : List Bool) (p : Pol) : ∀ (ds : List Csn) (base : Nat) (s t : CSt),
    decL v p base ds {} s = .ok t → t.rem + minL ds ≤ s.rem
  | [], base, s, t, h => by
    have hp := (decL_post v p 0 _ base {} s (Nat.zero_le _) t h).1
    unfold minL; omega
  | d :: ds, base, s, t, h => by
    have hD : ∀ u s t, decD v p u base d s = .ok t → t.rem + minD d ≤ s.rem :=
      fun u s t => minD_sound v p d u base s t
    have hL : ∀ s t, decL v p base ds {} s = .ok t → t.rem + minL ds ≤ s.rem :=
      fun s t => minL_sound v p ds base s t
    have hA : ∀ n k r s t, k + 1 + r = n → decL v p base ds { skip := k, pick := some r } s = .ok t →
        t.rem + minAlt n ds ≤ s.rem := fun n k r s t => minAlt_sound v p ds n k r base s t
    have hp := (decL_post v p 0 _ base {} s (Nat.zero_le _) t h).1
    cases d with
    | union lh off sz count =>
      unfold minL
      unfold decL at h
      dsimp only at h
      rw [if_neg (by simp)] at h
      split at h
      · cases h
      · split at h
        · cases h
        · have hr := unionIdx_rem v lh (ixBits count) 0 s
          generalize unionIdx v lh (ixBits count) 0 s = is at h hr
          obtain ⟨idx, s1⟩ := is
          obtain ⟨s2, h1, h2⟩ := CRes.bind_eq_ok h
          obtain ⟨rfl, _⟩ := wr_eq_ok h1
          have := hA count _ _ _ _ (by omega) h2
          dsimp only at this hr
          dsimp only
          push_cast
          omega
    | nextExist lh off sz n orNull =>
      unfold minL
      dsimp only
      cases orNull with
      | true => rw [if_pos rfl]; omega
      | false =>
        rw [if_neg (by decide)]
        unfold decL at h
        dsimp only at h
        rw [if_neg (by simp)] at h
        split at h
        · cases h
        · rw [if_neg (by simp)] at h
          obtain ⟨s2, h1, h2⟩ := CRes.bind_eq_ok h
          obtain ⟨rfl, _⟩ := wr_eq_ok h1
          have := (decL_post v p 0 _ base _ _ (Nat.zero_le _) t h2).1
          dsimp only at this
          omega
    | exist lh off sz => unfold minL; dsimp only; omega
    | _ =>
      unfold minL
      unfold decL at h
      dsimp only at h ⊢
      rw [if_neg (by simp)] at h
      split at h
      · cases h
      · obtain ⟨s2, h1, h2⟩ := CRes.bind_eq_ok h
        have e1 := hD _ _ _ h1
        have e2 := hL _ _ h2
        push_cast
        omega

theorem minAlt_sound (v : List Bool) (p : Pol) : ∀ (ds : List Csn) (n k r base : Nat) (s t : CSt),
    k + 1 + r = n → decL v p base ds { skip := k, pick := some r } s = .ok t → t.rem + minAlt n ds ≤ s.rem
  | [], n, k, r, base, s, t, hn, h => by
    have hp := (decL_post v p 0 _ base _ s (Nat.zero_le _) t h).1
    unfold minAlt; omega
  | d :: ds, n, k, r, base, s, t, hn, h => by
    have hD : ∀ u s t, decD v p u base d s = .ok t → t.rem + minD d ≤ s.rem :=
      fun u s t => minD_sound v p d u base s t
    have hA : ∀ n k r s t, k + 1 + r = n → decL v p base ds { skip := k, pick := some r } s = .ok t →
        t.rem + minAlt n ds ≤ s.rem := fun n k r s t => minAlt_sound v p ds n k r base s t
    unfold minAlt
    rw [if_neg (by omega)]
    unfold decL at h
    dsimp only at h
    by_cases hk : k = 0
    · subst hk
      rw [if_neg (by simp)] at h
      obtain ⟨s2, h1, h2⟩ := CRes.bind_eq_ok h
      have e1 := hD _ _ _ h1
      split at h2
      · cases h2
      · have := (decL_post v p 0 _ base _ _ (Nat.zero_le _) t h2).1
        split
        · omega
        · omega
    · rw [if_pos hk] at h
      have := hA (n - 1) _ _ _ _ (by omega) h
      rw [if_neg (by omega)]
      omega

end

theorem eat_le {b : Bool} {n R : Nat} {r r' : Int} (h : r ≤ R) (h' : r' + (if b then n else 0) ≤ r) :
    r' ≤ (eat b n R : Nat) := by
  unfold eat
  split
  · next hb => rw [if_pos hb] at h'; omega
  · next hb => rw [if_neg hb] at h'; omega

theorem eat_of_le {b : Bool} {n R : Nat} {r r' : Int} (h : r ≤ R) (h' : r' + n ≤ r) :
    r' ≤ (eat b n R : Nat) := by
  unfold eat
  split <;> omega

/-- How the walk through a table can stand at a line: `un` lines are alternatives of a union, `G` the
numbers of lines to the ends of the parts that may be skipped. -/
def CtlOk (c : Ctl) (un : Nat) (G : List Nat) : Prop :=
  match c.pick with
  | some r => c.skip + 1 + r = un
  | none => c.skip = un ∨ (c.skip ∈ G ∧ un ≤ c.skip ∧ c.skip ≠ 0)

theorem CtlOk.sure {c : Ctl} {un : Nat} {G : List Nat} (h : CtlOk c un G) (hc : c.skip ≠ 0) :
    (G.all (· = 0) && decide (un = 0)) = false := by
  cases hs : (G.all (· = 0) && decide (un = 0)) with
  | false => rfl
  | true =>
    simp only [Bool.and_eq_true, List.all_eq_true, decide_eq_true_eq] at hs
    unfold CtlOk at h
    split at h
    · omega
    · rcases h with h | h
      · omega
      · exact absurd (hs.1 _ h.1) hc

theorem mem_fm {G : List Nat} {k : Nat} (h : k ∈ G) (hk : k ≠ 0) :
    k - 1 ∈ (G.filter (· ≠ 0)).map (· - 1) :=
  List.mem_map.mpr ⟨k, List.mem_filter.mpr ⟨h, by simpa using hk⟩, rfl⟩

/-- Going over a line that is skipped. -/
theorem skip_facts {base k : Nat} {s : CSt} {F : List Fact} {d : Csn} (hF : Facts base F k s) :
    Facts base (tick (after none d F)) (k - 1) s := by
  refine Facts.tick (j := k) (hF.sub fun f hf => ?_) (by omega)
  rcases mem_after hf with h | ⟨l, h, _⟩
  · exact h
  · cases h

theorem skip_facts_mk {base k : Nat} {s : CSt} {F : List Fact} {d : Csn} {G' : List Nat}
    (hF : Facts base F k s) (hG : k - 1 ∈ G') :
    Facts base (after (some (shortest G')) d (tick F)) (k - 1) s := by
  intro f hf hl
  rcases mem_after hf with h | ⟨l, h, hfl⟩
  · exact hF.tick (by omega) f h hl
  · obtain ⟨m, hm, hmk⟩ := shortest_le hG
    cases h
    have := hl m (by rw [hfl, hm])
    omega

/-- Lines other than EXIST, NEXT_EXIST and UNION. -/
theorem plain_step {v : List Bool} {p : Pol} {R B base : Nat} {F : List Fact} {G : List Nat} {un : Nat}
    {c : Ctl} {s : CSt} {d : Csn} {ds : List Csn}
    (hD : ∀ u, ckD p R u B F d = true → Facts base F 0 s →
      (decD v p u base d s).Safe)
    (hL : ∀ (R : Nat) F G un c (t : CSt), ckL p R B F G un ds = true → t.rem ≤ R → CtlOk c un G →
      Facts base F c.skip t → (decL v p base ds c t).Safe)
    (h1 : ckD p R (un ≠ 0) B F d = true)
    (h2 : ckL p (eat (G.all (· = 0) && decide (un = 0)) (minD d) R) B (if un ≠ 0 then tick (after none d F)
      else after (some (shortest ((G.filter (· ≠ 0)).map (· - 1)))) d (tick F))
      ((G.filter (· ≠ 0)).map (· - 1)) (un - 1) ds = true)
    (hR : s.rem ≤ R) (hC : CtlOk c un G) (hF : Facts base F c.skip s) :
    (if c.skip ≠ 0 then decL v p base ds { c with skip := c.skip - 1 } s
      else match c.pick with
      | some r => (do
        let s ← decD v p true base d s
        if s.rem < 0 then CRes.fail errBits else decL v p base ds { skip := r } s)
      | none =>
        if s.rem < 0 then CRes.fail errBits
        else (do
          let s ← decD v p false base d s
          decL v p base ds {} s)).Safe := by
  obtain ⟨k, pick⟩ := c
  have hsure := hC.sure
  unfold CtlOk at hC
  dsimp only at hC hF hsure ⊢
  by_cases hk : k = 0
  · subst hk
    rw [if_neg (by simp)]
    cases pick with
    | some r =>
      dsimp only at hC ⊢
      have hun : un ≠ 0 := by omega
      rw [if_pos hun] at h2
      have hu : (decide (un ≠ 0)) = true := by simpa using hun
      rw [hu] at h1
      refine safe_bind (hD true h1 hF) fun t ht => ?_
      have hp := minD_sound v p d true base s t ht
      split
      · exact CRes.safe_fail _
      · refine hL _ _ _ _ _ t h2 (eat_of_le hR hp) ?_ ((after_sound none ht hF).tick (Nat.zero_le _))
        exact Or.inl (show r = un - 1 by omega)
    | none =>
      dsimp only at hC ⊢
      have hun : un = 0 := by
        rcases hC with h | ⟨_, _, h⟩
        · exact h.symm
        · exact absurd rfl h
      subst hun
      rw [if_neg (by simp)] at h2
      split
      · exact CRes.safe_fail _
      · refine safe_bind (hD false h1 hF) fun t ht => ?_
        have hp := minD_sound v p d false base s t ht
        exact hL _ _ _ _ _ t h2 (eat_of_le hR hp) (Or.inl rfl) (after_sound _ ht (hF.tick (Nat.zero_le _)))
  · rw [if_pos hk]
    rw [hsure hk] at h2
    by_cases hun : un = 0
    · subst hun
      rw [if_neg (by simp)] at h2
      cases pick with
      | some r => dsimp only at hC; omega
      | none =>
        dsimp only at hC
        have hG : k ∈ G := by
          rcases hC with h | h
          · exact absurd h hk
          · exact h.1
        refine hL _ _ _ _ _ s h2 hR ?_ (skip_facts_mk hF (mem_fm hG hk))
        unfold CtlOk
        dsimp only
        by_cases hz : k - 1 = 0
        · exact Or.inl hz
        · exact Or.inr ⟨mem_fm hG hk, by omega, hz⟩
    · rw [if_pos hun] at h2
      refine hL _ _ _ _ _ s h2 hR ?_ (skip_facts hF)
      unfold CtlOk
      cases pick with
      | some r => dsimp only at hC ⊢; omega
      | none =>
        dsimp only at hC ⊢
        rcases hC with h | ⟨hG, hle, _⟩
        · exact Or.inl (by omega)
        · by_cases hz : k - 1 = 0
          · exact Or.inl (by omega)
          · exact Or.inr ⟨mem_fm hG hk, by omega, hz⟩

/-- A steering line that is skipped: it lies in a part that is skipped as a whole. -/
theorem steer_skip {k : Nat} {pick : Option Nat} {G : List Nat} (hC : CtlOk ⟨k, pick⟩ 0 G) :
    pick = none ∧ (k ≠ 0 → k ∈ G) := by
  unfold CtlOk at hC
  cases pick with
  | some r => dsimp only at hC; omega
  | none =>
    dsimp only at hC
    refine ⟨rfl, fun h => ?_⟩
    rcases hC with hC | hC
    · exact absurd hC h
    · exact hC.1

/-- One line of a table. -/
theorem line_step {v : List Bool} {p : Pol} {R B base : Nat} {F : List Fact} {G : List Nat} {un : Nat}
    {c : Ctl} {s : CSt} {d : Csn} {ds : List Csn} (hb : base ≤ B)
    (hD : ∀ u, ckD p R u B F d = true → Facts base F 0 s → (decD v p u base d s).Safe)
    (hL : ∀ (R : Nat) F G un c (t : CSt), ckL p R B F G un ds = true → t.rem ≤ R → CtlOk c un G →
      Facts base F c.skip t → (decL v p base ds c t).Safe)
    (h : ckL p R B F G un (d :: ds) = true)
    (hR : s.rem ≤ R) (hC : CtlOk c un G) (hF : Facts base F c.skip s) :
    (decL v p base (d :: ds) c s).Safe := by
  unfold ckL at h
  dsimp only at h
  rw [Bool.and_eq_true] at h
  obtain ⟨h1, h2⟩ := h
  cases d with
  | union lh off sz count =>
    dsimp only at h2
    simp only [Bool.and_eq_true, decide_eq_true_eq, List.all_eq_true] at h2
    obtain ⟨⟨rfl, h3⟩, h2⟩ := h2
    obtain ⟨k, pick⟩ := c
    have hsure := hC.sure
    obtain ⟨rfl, hG⟩ := steer_skip hC
    dsimp only at hsure
    unfold decL
    dsimp only at hF ⊢
    by_cases hk : k = 0
    · subst hk
      rw [if_neg (by simp)]
      split
      · exact CRes.safe_fail _
      · split
        · exact CRes.safe_fail _
        · next hcnt =>
          unfold ckD at h1
          generalize hu : unionIdx v lh (ixBits count) 0 s = is
          obtain ⟨idx, t⟩ := is
          have hp := unionIdx_post v lh (ixBits count) 0 s
          rw [hu] at hp
          dsimp only at hp
          refine safe_bind (wr_safe (store_mono h1 hb (by omega))) fun t' ht => ?_
          obtain ⟨rfl, _⟩ := wr_eq_ok ht
          have hrr := unionIdx_rem v lh (ixBits count) 0 s
          rw [hu] at hrr
          dsimp only at hrr
          refine hL _ _ _ _ _ _ h2 (eat_of_le hR (by dsimp only; omega)) ?_ ?_
          · show min (idx + 1) count - 1 + 1 + (count - min (idx + 1) count) = count
            omega
          · refine Facts.tick (j := 0) ?_ (Nat.zero_le _)
            exact (Facts.same hF hp.2).kill rfl
    · rw [if_pos hk]
      rw [hsure hk] at h2
      refine hL _ _ _ _ _ s h2 hR ?_ (skip_facts hF)
      have hm := mem_fm (hG hk) hk
      have := h3 _ hm
      by_cases hz : k - 1 = 0
      · exact Or.inl (show k - 1 = count by omega)
      · exact Or.inr ⟨hm, this, hz⟩
  | exist lh off sz =>
    dsimp only at h2
    simp only [Bool.and_eq_true, decide_eq_true_eq] at h2
    obtain ⟨rfl, h2⟩ := h2
    obtain ⟨k, pick⟩ := c
    have hsure := hC.sure
    obtain ⟨rfl, hG⟩ := steer_skip hC
    dsimp only at hsure
    unfold decL
    dsimp only at hF ⊢
    by_cases hk : k = 0
    · subst hk
      rw [if_neg (by simp)]
      split
      · exact CRes.safe_fail _
      · unfold ckD at h1
        generalize (if lh = true then masked8 v s.rd s.bo 1 else (bitsVal v s.rd 1, s.rd + 1)) = xr
        obtain ⟨x, rd'⟩ := xr
        refine safe_bind (wr_safe (store_mono h1 hb (by omega))) fun t' ht => ?_
        obtain ⟨rfl, _⟩ := wr_eq_ok ht
        dsimp only
        split
        · split
          · exact CRes.safe_fail _
          · exact CRes.safe_ok _
        · refine hL _ _ _ _ _ _ h2 (eat_of_le hR (by dsimp only; omega)) (Or.inl rfl) ?_
          exact Facts.tick (j := 0) (Facts.kill hF rfl) (Nat.zero_le _)
    · rw [if_pos hk]
      rw [hsure hk] at h2
      refine hL _ _ _ _ _ s h2 hR ?_ (skip_facts hF)
      have hm := mem_fm (hG hk) hk
      by_cases hz : k - 1 = 0
      · exact Or.inl hz
      · exact Or.inr ⟨hm, Nat.zero_le _, hz⟩
  | nextExist lh off sz n orNull =>
    dsimp only at h2
    simp only [Bool.and_eq_true, decide_eq_true_eq] at h2
    obtain ⟨rfl, h2⟩ := h2
    obtain ⟨k, pick⟩ := c
    have hsure := hC.sure
    obtain ⟨rfl, hG⟩ := steer_skip hC
    dsimp only at hsure
    unfold decL
    dsimp only at hF ⊢
    have hn : ∀ G, CtlOk { skip := n } 0 (n :: G) := fun G => by
      by_cases hz : n = 0
      · exact Or.inl hz
      · exact Or.inr ⟨List.mem_cons_self, Nat.zero_le _, hz⟩
    by_cases hk : k = 0
    · subst hk
      rw [if_neg (by simp)]
      split
      · exact CRes.safe_fail _
      · unfold ckD at h1
        split
        · refine safe_bind (wr_safe (store_mono h1 hb (by omega))) fun t' ht => ?_
          obtain ⟨rfl, _⟩ := wr_eq_ok ht
          exact hL _ _ _ _ _ _ h2 (eat_le hR (by
            have ho : orNull = true := by rename_i hor _; rw [Bool.and_eq_true] at hor; exact hor.1
            rw [ho]; simp)) (hn _)
            (Facts.tick (j := 0) (Facts.kill hF rfl) (Nat.zero_le _))
        · generalize (if lh = true then masked8 v s.rd s.bo 1 else (bitsVal v s.rd 1, s.rd + 1)) = xr
          obtain ⟨x, rd'⟩ := xr
          refine safe_bind (wr_safe (store_mono h1 hb (by omega))) fun t' ht => ?_
          obtain ⟨rfl, _⟩ := wr_eq_ok ht
          refine hL _ _ _ _ _ _ h2 (eat_of_le hR (by dsimp only; omega)) ?_
            (Facts.tick (j := 0) (Facts.kill hF rfl) (Nat.zero_le _))
          split
          · exact hn _
          · exact Or.inl rfl
    · rw [if_pos hk]
      rw [hsure hk] at h2
      refine hL _ _ _ _ _ s h2 hR ?_ (skip_facts hF)
      have hm := mem_fm (hG hk) hk
      by_cases hz : k - 1 = 0
      · exact Or.inl hz
      · exact Or.inr ⟨List.mem_cons_of_mem _ hm, Nat.zero_le _, hz⟩
  | _ => 
    unfold decL
    exact plain_step hD hL h1 h2 hR hC hF

mutual

theorem ckD_sound (v : List Bool) (p : Pol) :
    ∀ (d : Csn) (R : Nat) (u : Bool) (B base : Nat) (F : List Fact) (s : CSt),
      ckD p R u B F d = true → base ≤ B → s.rem ≤ R → Facts base F 0 s → (decD v p u base d s).Safe
  | .bit off sz orNull, R, u, B, base, F, s, h, hb, hR, hF => by
    unfold ckD at h; unfold decD
    split
    · exact safe_bind (wr_safe (store_mono h hb (by omega))) fun _ _ => CRes.safe_ok _
    · split
      · exact safe_bind (wr_safe (store_mono h hb (by omega))) fun _ _ => CRes.safe_ok _
      · exact CRes.safe_fail _
  | .null i, R, u, B, base, F, s, h, hb, hR, hF => by unfold decD; exact CRes.safe_ok _
  | .uint off sz bits orNull, R, u, B, base, F, s, h, hb, hR, hF => by
    unfold ckD at h; unfold decD
    simp only [Bool.or_eq_true, decide_eq_true_eq] at h
    have hw : bits ≤ 32 → p.store base off sz 0 (uintW bits) = true := fun h32 =>
      store_mono (h.resolve_left (by omega)) hb (by omega)
    split
    · split
      · next h32 => exact safe_bind (wr_safe (hw h32)) fun _ _ => CRes.safe_ok _
      · exact CRes.safe_fail _
    · split
      · exact CRes.safe_fail _
      · split
        · split
          · next h32 => exact wr_safe (hw h32)
          · exact CRes.safe_ok _
        · exact CRes.safe_fail _
  | .uintOfs off sz bits value, R, u, B, base, F, s, h, hb, hR, hF => by
    unfold ckD at h; unfold decD
    simp only [Bool.or_eq_true, decide_eq_true_eq] at h
    split
    · split
      · next h32 =>
        exact safe_bind (wr_safe (store_mono (h.resolve_left (by omega)) hb (by omega))) fun _ _ =>
          CRes.safe_ok _
      · exact CRes.safe_fail _
    · exact CRes.safe_fail _
  | .uintLh off sz bits, R, u, B, base, F, s, h, hb, hR, hF => by
    unfold ckD at h; unfold decD
    simp only [Bool.or_eq_true, decide_eq_true_eq] at h
    split
    · split
      · next h8 =>
        exact safe_bind (wr_safe (store_mono (h.resolve_left (by omega)) hb (by omega))) fun _ _ =>
          CRes.safe_ok _
      · exact CRes.safe_fail _
    · exact CRes.safe_fail _
  | .uintArr off sz bits count, R, u, B, base, F, s, h, hb, hR, hF => by
    unfold ckD at h; unfold decD
    split
    · exact safe_bind (rdArr_safe h hb _ _ _ (by rw [Nat.zero_add]; exact Nat.le_refl _)) fun _ _ =>
        CRes.safe_ok _
    · exact CRes.safe_fail _
  | .typ off orNull sub, R, u, B, base, F, s, h, hb, hR, hF => by
    unfold ckD at h; unfold decD
    split
    · exact CRes.safe_ok _
    · exact ckL_sound v p sub R (B + off) (base + off) [] [] 0 {} s h (by omega) hR (Or.inl rfl) Facts.nil
  | .tarr off sz esz count sub, R, u, B, base, F, s, h, hb, hR, hF => by
    unfold ckD at h; unfold decD
    simp only [Bool.and_eq_true] at h
    refine iter_safe (I := fun s => s.rem ≤ R) count (fun i s hi hI => ?_) (fun i s t hI ht => ?_) _ _ _
      (by omega) hR
    · unfold elt
      rw [if_pos (elem_mono h.1 hi)]
      have : i * esz ≤ (count - 1) * esz := Nat.mul_le_mul_right _ (by omega)
      exact ckL_sound v p sub R _ _ [] [] 0 {} s h.2 (by omega) hI (Or.inl rfl) Facts.nil
    · have := (elt_post (L := 0) (Nat.zero_le _) (fun b s _ => decL_post v p 0 sub b {} s (Nat.zero_le _))
        i s t ht).1
      omega
  | .vtarr ofs off sz esz cnt sub, R, u, B, base, F, s, h, hb, hR, hF => by
    unfold ckD at h; unfold decD
    simp only [Bool.and_eq_true] at h
    obtain ⟨⟨h1, h2⟩, h3⟩ := h
    have hu : (u && ofs) = false := by
      cases hc : (u && ofs)
      · rfl
      · rw [hc] at h1; cases h1
    have hn := bound_sound (off := cnt) hF
    dsimp only
    rw [hu]
    refine iter_safe (I := fun s => s.rem ≤ R) (bound F cnt) (fun i s hi hI => ?_) (fun i s t hI ht => ?_) _ _ _
      (by simpa using hn) hR
    · unfold elt
      rw [if_pos (elem_mono h2 hi)]
      have : i * esz ≤ (bound F cnt - 1) * esz := Nat.mul_le_mul_right _ (by omega)
      exact ckL_sound v p sub R _ _ [] [] 0 {} s h3 (by omega) hI (Or.inl rfl) Facts.nil
    · have := (elt_post (L := 0) (Nat.zero_le _) (fun b s _ => decL_post v p 0 sub b {} s (Nat.zero_le _))
        i s t ht).1
      omega
  | .bitmap off sz bits, R, u, B, base, F, s, h, hb, hR, hF => by
    unfold ckD at h; unfold decD
    simp only [Bool.or_eq_true, decide_eq_true_eq] at h
    split
    · exact CRes.safe_ok _
    · split
      · exact CRes.safe_fail _
      · split
        · exact CRes.safe_ok _
        · have h' := h.resolve_left (by omega)
          split
          · exact safe_bind (wr_safe (store_mono h' hb (by omega))) fun _ _ => CRes.safe_ok _
          · exact safe_bind (rdArr_safe h' hb _ _ _ (by omega)) fun _ _ => CRes.safe_ok _
  | .choice off sz sel subs, R, u, B, base, F, s, h, hb, hR, hF => by
    unfold ckD at h; unfold decD
    simp only [Bool.or_eq_true, Bool.and_eq_true] at h
    split
    · exact CRes.safe_fail _
    · next hu =>
      obtain ⟨h1, h2⟩ := h.resolve_left hu
      exact ckC_sound v p subs sel R B base off sz 0 s h1 h2 hb hR
  | .serialize off lenBits sub, R, u, B, base, F, s, h, hb, hR, hF => by
    unfold ckD at h; unfold decD
    simp only [Bool.or_eq_true] at h
    split
    · exact CRes.safe_fail _
    · next hu =>
      have h' := h.resolve_left hu
      dsimp only
      split
      · refine safe_bind (ckL_sound v p sub (max R 255) (B + off) (base + off) [] [] 0 {} _ h' (by omega) ?_
          (Or.inl rfl) Facts.nil) fun _ _ => CRes.safe_ok _
        have := Nat.mod_lt (bitsVal v s.rd lenBits) (show 0 < 256 by decide)
        dsimp only
        omega
      · refine safe_bind (ckL_sound v p sub (max R 255) (B + off) (base + off) [] [] 0 {} _ h' (by omega) ?_
          (Or.inl rfl) Facts.nil) fun _ _ => CRes.safe_ok _
        unfold CSt.take
        dsimp only
        omega
  | .varBmp off sz cnt adj, R, u, B, base, F, s, h, hb, hR, hF => by
    unfold ckD at h; unfold decD
    simp only [Bool.or_eq_true] at h
    have hn := bound_sound (off := cnt) hF
    split
    · exact CRes.safe_fail _
    · next hu =>
      have h' := h.resolve_left hu
      dsimp only
      split
      · exact CRes.safe_ok _
      · split
        · exact CRes.safe_fail _
        · split
          · refine safe_bind (wr_safe (store_mono h' hb (by omega))) fun _ _ => ?_
            exact safe_bind (rdArr_safe h' hb _ _ _ (by omega)) fun _ _ => CRes.safe_ok _
          · exact safe_bind (rdArr_safe h' hb _ _ _ (by omega)) fun _ _ => CRes.safe_ok _
  | .leftBmp toEnd off sz cnt adj, R, u, B, base, F, s, h, hb, hR, hF => by
    unfold ckD at h; unfold decD
    simp only [Bool.or_eq_true, Bool.and_eq_true] at h
    split
    · exact CRes.safe_fail _
    · next hu =>
      obtain ⟨h1, h2⟩ := h.resolve_left hu
      have hst : (storeRest p base cnt toEnd s).Safe := by
        unfold storeRest
        split
        · next ht => exact wr_safe (store_mono (h1.resolve_left (by simp [ht])) hb (by omega))
        · exact CRes.safe_ok _
      refine safe_bind hst fun t ht => ?_
      have hrem : t.rem ≤ R ∧ t.byte (base + cnt) ≤ (if toEnd then 255 else bound F cnt) := by
        unfold storeRest at ht
        split at ht
        · next hte =>
          obtain ⟨rfl, _⟩ := wr_eq_ok ht
          refine ⟨hR, ?_⟩
          rw [if_pos hte]
          exact Nat.le_of_lt_succ (Nat.mod_lt _ (by decide))
        · cases ht
          rename_i hte
          rw [if_neg hte]
          exact ⟨hR, bound_sound hF⟩
      dsimp only
      split
      · exact CRes.safe_ok _
      · split
        · exact CRes.safe_fail _
        · refine safe_bind (rdArr_safe h2 hb _ _ _ (by omega)) fun t2 _ => ?_
          split
          · exact safe_bind (wr_safe (store_mono h2 hb (by omega))) fun _ _ => CRes.safe_ok _
          · exact CRes.safe_ok _
  | .padding, R, u, B, base, F, s, h, hb, hR, hF => by
    unfold decD
    split
    · exact CRes.safe_fail _
    · split
      · exact CRes.safe_fail _
      · exact CRes.safe_ok _
  | .varArr off sz cnt adj, R, u, B, base, F, s, h, hb, hR, hF => by
    unfold ckD at h; unfold decD
    simp only [Bool.or_eq_true] at h
    have hn := bound_sound (off := cnt) hF
    split
    · exact CRes.safe_fail _
    · next hu =>
      have h' := h.resolve_left hu
      dsimp only
      split
      · exact CRes.safe_ok _
      · split
        · exact CRes.safe_fail _
        · exact safe_bind (rdArr_safe h' hb _ _ _ (by omega)) fun _ _ => CRes.safe_ok _
  | .recArr off sz cnt bits, R, u, B, base, F, s, h, hb, hR, hF => by
    unfold ckD at h; unfold decD
    simp only [Bool.or_eq_true, Bool.and_eq_true] at h
    split
    · exact CRes.safe_fail _
    · next hu =>
      obtain ⟨h1, h2⟩ := h.resolve_left hu
      refine safe_bind (recArr_safe h1 hb _ _ _ (Or.inl rfl) (by simpa using hR)) fun nt _ => ?_
      obtain ⟨n, t⟩ := nt
      exact safe_bind (wr_safe (store_mono h2 hb (by omega))) fun _ _ => CRes.safe_ok _
  | .recTArr off sz esz cap cnt sub, R, u, B, base, F, s, h, hb, hR, hF => by
    unfold ckD at h; unfold decD
    simp only [Bool.or_eq_true, Bool.and_eq_true] at h
    split
    · exact CRes.safe_fail _
    · next hu =>
      obtain ⟨⟨h1, h3⟩, h2⟩ := h.resolve_left hu
      refine safe_bind (recTArr_safe (R := R) cap (fun i s hi hI => ?_) (fun i s t ht => ?_) _ _ _ (by omega) hR)
        fun nt _ => ?_
      · unfold elt
        rw [if_pos (elem_mono h1 hi)]
        have : i * esz ≤ (cap - 1) * esz := Nat.mul_le_mul_right _ (by omega)
        exact ckL_sound v p sub R _ _ [] [] 0 {} s h3 (by omega) hI (Or.inl rfl) Facts.nil
      · exact (elt_post (L := 0) (Nat.zero_le _) (fun b s _ => decL_post v p 0 sub b {} s (Nat.zero_le _))
          i s t ht).1
      · obtain ⟨n, t⟩ := nt
        exact safe_bind (wr_safe (store_mono h2 hb (by omega))) fun _ _ => CRes.safe_ok _
  | .recTArr1 off sz esz cap cnt sub, R, u, B, base, F, s, h, hb, hR, hF => by
    unfold ckD at h; unfold decD
    simp only [Bool.or_eq_true, Bool.and_eq_true] at h
    split
    · exact CRes.safe_fail _
    · next hu =>
      obtain ⟨⟨h1, h3⟩, h2⟩ := h.resolve_left hu
      refine safe_bind (recTArr1_safe (R := R) cap (fun i s hi hI => ?_) (fun i s t ht => ?_) _ _ _ (by omega) hR)
        fun nt _ => ?_
      · unfold elt
        rw [if_pos (elem_mono h1 hi)]
        have : i * esz ≤ (cap - 1) * esz := Nat.mul_le_mul_right _ (by omega)
        exact ckL_sound v p sub R _ _ [] [] 0 {} s h3 (by omega) hI (Or.inl rfl) Facts.nil
      · exact (elt_post (L := 0) (Nat.zero_le _) (fun b s _ => decL_post v p 0 sub b {} s (Nat.zero_le _))
          i s t ht).1
      · obtain ⟨n, t⟩ := nt
        exact wr_safe (store_mono h2 hb (by omega))
  | .fixed bits value, R, u, B, base, F, s, h, hb, hR, hF => by
    unfold decD
    split
    · exact CRes.safe_fail _
    · split
      · exact CRes.safe_fail _
      · exact CRes.safe_ok _
  | .cbCopy src dst esz lim, R, u, B, base, F, s, h, hb, hR, hF => by
    unfold ckD at h; unfold decD
    simp only [Bool.or_eq_true] at h
    split
    · exact CRes.safe_fail _
    · next hu =>
      have h' := h.resolve_left hu
      refine iter_safe (I := fun _ => True) 16 (fun i t hi _ => ?_) (fun _ _ _ _ _ => trivial) _ _ _
        (by omega) trivial
      have : i * esz ≤ 15 * esz := Nat.mul_le_mul_right _ (by omega)
      exact wr_safe (store_mono h' hb (by omega))
  | .cbTddMap src dst, R, u, B, base, F, s, h, hb, hR, hF => by
    unfold ckD at h; unfold decD
    simp only [Bool.or_eq_true] at h
    split
    · exact CRes.safe_fail _
    · next hu => exact wr_safe (store_mono (h.resolve_left hu) hb (by omega))
  | .cbTddCells src, R, u, B, base, F, s, h, hb, hR, hF => by
    unfold decD
    split
    · exact CRes.safe_fail _
    · refine safe_bind (tdd_safe v _ _ _ _ _ _ _ (by omega) (by omega) (Or.inl ⟨rfl, rfl, ?_⟩)) fun _ _ =>
        CRes.safe_ok _
      unfold CSt.byte
      omega
  | .trap code, R, u, B, base, F, s, h, hb, hR, hF => by unfold decD; split <;> exact CRes.safe_fail _
  | .union .., R, u, B, base, F, s, h, hb, hR, hF => by unfold decD; exact CRes.safe_fail _
  | .exist .., R, u, B, base, F, s, h, hb, hR, hF => by unfold decD; exact CRes.safe_fail _
  | .nextExist .., R, u, B, base, F, s, h, hb, hR, hF => by unfold decD; exact CRes.safe_fail _

theorem ckC_sound (v : List Bool) (p : Pol) :
    ∀ (subs : List Csn) (sel : List (Nat × Nat)) (R B base off sz i : Nat) (s : CSt),
      ckW p B off sz 1 = true → ckC p R B subs = true → base ≤ B → s.rem ≤ R →
      (decC v p base off sz i sel subs s).Safe
  | [], [], R, B, base, off, sz, i, s, h1, h2, hb, hR => by unfold decC; exact CRes.safe_fail _
  | [], _ :: _, R, B, base, off, sz, i, s, h1, h2, hb, hR => by unfold decC; exact CRes.safe_fail _
  | _ :: _, [], R, B, base, off, sz, i, s, h1, h2, hb, hR => by unfold decC; exact CRes.safe_fail _
  | d :: ds, (bits, value) :: sel, R, B, base, off, sz, i, s, h1, h2, hb, hR => by
    unfold ckC at h2
    simp only [Bool.and_eq_true] at h2
    unfold decC
    split
    · refine safe_bind (wr_safe (store_mono h1 hb (by omega))) fun t ht => ?_
      obtain ⟨rfl, _⟩ := wr_eq_ok ht
      dsimp only
      split
      · exact CRes.safe_fail _
      · refine safe_bind (ckD_sound v p d R false B base [] _ h2.1 hb ?_ Facts.nil) fun t _ => ?_
        · unfold CSt.take; dsimp only; omega
        · split
          · exact CRes.safe_fail _
          · exact CRes.safe_ok _
    · exact ckC_sound v p ds sel R B base off sz (i + 1) s h1 h2.2 hb hR

theorem ckL_sound (v : List Bool) (p : Pol) :
    ∀ (ds : List Csn) (R B base : Nat) (F : List Fact) (G : List Nat) (un : Nat) (c : Ctl) (s : CSt),
      ckL p R B F G un ds = true → base ≤ B → s.rem ≤ R → CtlOk c un G → Facts base F c.skip s →
      (decL v p base ds c s).Safe
  | [], R, B, base, F, G, un, c, s, h, hb, hR, hC, hF => by
    unfold ckL at h
    simp only [Bool.and_eq_true, List.all_eq_true, decide_eq_true_eq] at h
    have hsk : c.skip = 0 := by
      unfold CtlOk at hC
      split at hC
      · omega
      · rcases hC with hC | ⟨hC, _, hne⟩
        · omega
        · exact absurd (h.1 _ hC) hne
    unfold decL
    rw [if_pos hsk]
    split
    · exact CRes.safe_fail _
    · exact CRes.safe_ok _
  | d :: ds, R, B, base, F, G, un, c, s, h, hb, hR, hC, hF => by
    have hD : ∀ u, ckD p R u B F d = true → Facts base F 0 s → (decD v p u base d s).Safe :=
      fun u h1 h2 => ckD_sound v p d R u B base F s h1 hb hR h2
    have hL : ∀ (R : Nat) F G un c (t : CSt), ckL p R B F G un ds = true → t.rem ≤ R → CtlOk c un G →
        Facts base F c.skip t → (decL v p base ds c t).Safe :=
      fun R F G un c t h1 h2 h3 h4 => ckL_sound v p ds R B base F G un c t h1 hb h2 h3 h4
    exact line_step hb hD hL h hR hC hF

end

end Verif.Csn1
