import Verif.Csn1.Check

/-!
# Soundness of the table check
-/
namespace Verif.Csn1

/-! ## What a step leaves alone -/

/-- Nothing below address `L` is changed and bits are only used up. -/
def Post (L : Nat) (s : CSt) (r : CRes CSt) : Prop :=
  ∀ t, r = .ok t → t.rem ≤ s.rem ∧ ∀ a, a < L → t.mem a = s.mem a

/-- `Post` for results carrying a count. -/
def PostN (L : Nat) (s : CSt) (r : CRes (Nat × CSt)) : Prop :=
  ∀ n t, r = .ok (n, t) → t.rem ≤ s.rem ∧ ∀ a, a < L → t.mem a = s.mem a

theorem CRes.bind_eq_ok {α β : Type} {r : CRes α} {f : α → CRes β} {b : β} (h : (r >>= f) = .ok b) :
    ∃ a, r = .ok a ∧ f a = .ok b := by
  cases r with
  | ok a => exact ⟨a, rfl, h⟩
  | fail c => cases h
  | ub f => cases h

theorem Post.fail {L s c} : Post L s (.fail c) := fun _ h => by cases h
theorem Post.ub {L s f} : Post L s (.ub f) := fun _ h => by cases h

theorem Post.mk {L : Nat} {s t : CSt} (hr : t.rem ≤ s.rem) (hm : ∀ a, a < L → t.mem a = s.mem a) :
    Post L s (.ok t) := by
  intro t' h; cases h; exact ⟨hr, hm⟩

theorem Post.refl {L : Nat} {s : CSt} : Post L s (.ok s) := Post.mk (Int.le_refl _) fun _ _ => rfl

theorem Post.bind {L : Nat} {s : CSt} {r : CRes CSt} {f : CSt → CRes CSt}
    (h : Post L s r) (hf : ∀ t, r = .ok t → Post L t (f t)) : Post L s (r >>= f) := by
  cases r with
  | ok t =>
    intro u hu
    obtain ⟨h1, h2⟩ := h t rfl
    obtain ⟨h3, h4⟩ := hf t rfl u hu
    exact ⟨by omega, fun a ha => (h4 a ha).trans (h2 a ha)⟩
  | fail c => exact Post.fail
  | ub f => exact Post.ub

theorem Post.bindN {L : Nat} {s : CSt} {r : CRes (Nat × CSt)} {f : Nat × CSt → CRes CSt}
    (h : PostN L s r) (hf : ∀ n t, r = .ok (n, t) → Post L t (f (n, t))) : Post L s (r >>= f) := by
  cases r with
  | ok nt =>
    obtain ⟨n, t⟩ := nt
    intro u hu
    obtain ⟨h1, h2⟩ := h n t rfl
    obtain ⟨h3, h4⟩ := hf n t rfl u hu
    exact ⟨by omega, fun a ha => (h4 a ha).trans (h2 a ha)⟩
  | fail c => exact Post.fail
  | ub f => exact Post.ub

theorem PostN.bind {L : Nat} {s : CSt} {r : CRes CSt} {f : CSt → CRes (Nat × CSt)}
    (h : Post L s r) (hf : ∀ t, r = .ok t → PostN L t (f t)) : PostN L s (r >>= f) := by
  cases r with
  | ok t =>
    intro n u hu
    obtain ⟨h1, h2⟩ := h t rfl
    obtain ⟨h3, h4⟩ := hf t rfl n u hu
    exact ⟨by omega, fun a ha => (h4 a ha).trans (h2 a ha)⟩
  | fail c => intro _ _ h; cases h
  | ub f => intro _ _ h; cases h

theorem Post.mono {L L' : Nat} {s : CSt} {r : CRes CSt} (h : Post L s r) (hl : L' ≤ L) :
    Post L' s r := fun t ht => ⟨(h t ht).1, fun a ha => (h t ht).2 a (by omega)⟩

/-- Start from a state with the same memory and at most as many bits. -/
theorem Post.from {L : Nat} {s s' : CSt} {r : CRes CSt} (h : Post L s' r) (hr : s'.rem ≤ s.rem)
    (hm : s'.mem = s.mem) : Post L s r := fun t ht =>
  ⟨Int.le_trans (h t ht).1 hr, fun a ha => ((h t ht).2 a ha).trans (by rw [hm])⟩

theorem putLe_lo (w : Nat) : ∀ (m : Mem) (a x b : Nat), b < a → (m.putLe a w x) b = m b := by
  induction w with
  | zero => intro m a x b _; rfl
  | succ w ih =>
    intro m a x b hb
    show ((m.put a x).putLe (a + 1) w (x / 256)) b = m b
    rw [ih _ _ _ _ (by omega)]
    unfold Mem.put
    rw [if_neg (by omega)]

theorem putLe_hi (w : Nat) : ∀ (m : Mem) (a x b : Nat), a + w ≤ b → (m.putLe a w x) b = m b := by
  induction w with
  | zero => intro m a x b _; rfl
  | succ w ih =>
    intro m a x b hb
    show ((m.put a x).putLe (a + 1) w (x / 256)) b = m b
    rw [ih _ _ _ _ (by omega)]
    unfold Mem.put
    rw [if_neg (by omega)]

theorem putLe_one (m : Mem) (a x : Nat) : (m.putLe a 1 x) a = x % 256 := by
  show (m.put a x) a = _
  unfold Mem.put
  rw [if_pos rfl]

theorem wr_eq_ok {p base off sz k w x s t} (h : wr p base off sz k w x s = .ok t) :
    t = { s with mem := s.mem.putLe (base + off + k) w x } ∧ p.store base off sz k w = true := by
  unfold wr at h
  split at h
  · next hs => cases h; exact ⟨rfl, hs⟩
  · cases h

theorem wr_post {L p base off sz k w x s} (hl : L ≤ base + off) : Post L s (wr p base off sz k w x s) := by
  intro t h
  obtain ⟨rfl, _⟩ := wr_eq_ok h
  exact ⟨Int.le_refl _, fun a ha => putLe_lo _ _ _ _ _ (by omega)⟩

theorem wr_safe {p base off sz k w x s} (h : p.store base off sz k w = true) :
    (wr p base off sz k w x s).Safe := by
  unfold wr
  rw [if_pos h]
  simp

theorem rdArr_post {v p base off sz bits w L} (hl : L ≤ base + off) :
    ∀ (n k : Nat) (s : CSt), Post L s (rdArr v p base off sz bits w n k s) := by
  intro n
  induction n with
  | zero => intro k s; exact Post.refl
  | succ n ih =>
    intro k s
    refine Post.bind (wr_post hl) fun t _ => ?_
    exact Post.from (ih (k + w) _) (Int.le_refl _) rfl

theorem iter_post {L f} : ∀ (n i : Nat) (s : CSt), (∀ i s, Post L s (f i s)) → Post L s (iter f n i s) := by
  intro n
  induction n with
  | zero => intro i s _; exact Post.refl
  | succ n ih =>
    intro i s hf
    exact Post.bind (hf i s) fun t _ => ih (i + 1) t hf

theorem elt_post {L p base off sz esz f} (hl : L ≤ base + off)
    (hf : ∀ b s, L ≤ b → Post L s (f b s)) : ∀ i s, Post L s (elt p base off sz esz f i s) := by
  intro i s
  unfold elt
  split
  · exact hf _ _ (by have := Nat.zero_le (i * esz); omega)
  · exact Post.ub

theorem recArr_post {v p base off sz bits L} (hl : L ≤ base + off) :
    ∀ (n k : Nat) (s : CSt), PostN L s (recArrLoop v p base off sz bits n k s) := by
  intro n
  induction n with
  | zero => intro k s n t h; cases h; exact ⟨Int.le_refl _, fun _ _ => rfl⟩
  | succ n ih =>
    intro k s
    unfold recArrLoop
    split
    · refine PostN.bind (wr_post hl) fun t _ => ?_
      dsimp only
      split
      · intro _ _ h; cases h
      · intro m u hu
        obtain ⟨h1, h2⟩ := ih _ _ m u hu
        exact ⟨by dsimp only at h1; omega, h2⟩
    · intro m u h; cases h; exact ⟨Int.le_refl _, fun _ _ => rfl⟩

theorem recTArr_post {v L f} (hf : ∀ i s, Post L s (f i s)) :
    ∀ (n i : Nat) (s : CSt), PostN L s (recTArrLoop v f n i s) := by
  intro n
  induction n with
  | zero =>
    intro i s
    unfold recTArrLoop
    split
    · intro _ _ h; cases h
    · intro m u h; cases h; exact ⟨Int.le_refl _, fun _ _ => rfl⟩
  | succ n ih =>
    intro i s
    unfold recTArrLoop
    split
    · refine PostN.bind (Post.from (hf i _) (by dsimp only; omega) rfl) fun t _ => ?_
      split
      · intro _ _ h; cases h
      · exact ih _ _
    · intro m u h; cases h; exact ⟨Int.le_refl _, fun _ _ => rfl⟩

theorem recTArr1_post {v L f} (hf : ∀ i s, Post L s (f i s)) :
    ∀ (n i : Nat) (s : CSt), PostN L s (recTArr1Loop v f n i s) := by
  intro n
  induction n with
  | zero => intro i s _ _ h; cases h
  | succ n ih =>
    intro i s
    unfold recTArr1Loop
    refine PostN.bind (hf i _) fun t _ => ?_
    split
    · intro _ _ h; cases h
    · dsimp only
      split
      · intro m u hu
        obtain ⟨h1, h2⟩ := ih _ _ m u hu
        exact ⟨by dsimp only at h1; omega, h2⟩
      · intro m u h; cases h; exact ⟨by dsimp only; omega, fun _ _ => rfl⟩

theorem unionIdx_post (v : List Bool) (lh : Bool) : ∀ (n idx : Nat) (s : CSt),
    (unionIdx v lh n idx s).2.rem ≤ s.rem ∧ (unionIdx v lh n idx s).2.mem = s.mem := by
  intro n
  induction n with
  | zero => intro idx s; exact ⟨Int.le_refl _, rfl⟩
  | succ n ih =>
    intro idx s
    unfold unionIdx
    dsimp only
    obtain ⟨h1, h2⟩ := ih (idx * 2 + (if lh = true then masked8 v s.rd s.bo 1 else (bitsVal v s.rd 1, s.rd + 1)).1)
      { s with rd := (if lh = true then masked8 v s.rd s.bo 1 else (bitsVal v s.rd 1, s.rd + 1)).2,
               bo := s.bo + 1, rem := s.rem - 1 }
    exact ⟨by dsimp only at h1; omega, h2⟩

mutual

/-- A line stores nothing below its lowest offset, and only uses up bits. -/
theorem decD_post (v : List Bool) (p : Pol) (u : Bool) (base L : Nat) :
    ∀ (d : Csn) (s : CSt), L ≤ base + lowD d → Post L s (decD v p u base d s)
  | .bit off sz orNull, s, hl => by
    unfold decD; unfold lowD at hl
    split
    · exact Post.bind (wr_post hl) fun t _ => Post.mk (by unfold CSt.take; dsimp only; omega) fun _ _ => rfl
    · split
      · exact Post.bind (wr_post hl) fun t _ => Post.mk (by dsimp only; omega) fun _ _ => rfl
      · exact Post.fail
  | .null i, s, hl => by unfold decD; exact Post.mk (Int.le_refl _) fun _ _ => rfl
  | .uint off sz bits orNull, s, hl => by
    unfold decD; unfold lowD at hl
    split
    · split
      · exact Post.bind (wr_post hl) fun t _ => Post.mk (by unfold CSt.take; dsimp only; omega) fun _ _ => rfl
      · exact Post.fail
    · split
      · exact Post.fail
      · split
        · split
          · exact wr_post hl
          · exact Post.refl
        · exact Post.fail
  | .uintOfs off sz bits value, s, hl => by
    unfold decD; unfold lowD at hl
    split
    · split
      · exact Post.bind (wr_post hl) fun t _ => Post.mk (by unfold CSt.take; dsimp only; omega) fun _ _ => rfl
      · exact Post.fail
    · exact Post.fail
  | .uintLh off sz bits, s, hl => by
    unfold decD; unfold lowD at hl
    split
    · split
      · exact Post.bind (wr_post hl) fun t _ => Post.mk (by dsimp only; omega) fun _ _ => rfl
      · exact Post.fail
    · exact Post.fail
  | .uintArr off sz bits count, s, hl => by
    unfold decD; unfold lowD at hl
    split
    · exact Post.bind (rdArr_post hl _ _ _) fun t _ =>
        Post.mk (by have : (0 : Int) ≤ (bits : Int) * count := by exact_mod_cast Nat.zero_le _
                    dsimp only; omega) fun _ _ => rfl
    · exact Post.fail
  | .typ off orNull sub, s, hl => by
    unfold decD; unfold lowD at hl
    split
    · exact Post.refl
    · exact decL_post v p L sub (base + off) {} s hl
  | .tarr off sz esz count sub, s, hl => by
    unfold decD; unfold lowD at hl
    exact iter_post _ _ _ (elt_post hl fun b s hb => decL_post v p L sub b {} s hb)
  | .vtarr ofs off sz esz cnt sub, s, hl => by
    unfold decD; unfold lowD at hl
    exact iter_post _ _ _ (elt_post hl fun b s hb => decL_post v p L sub b {} s hb)
  | .bitmap off sz bits, s, hl => by
    unfold decD; unfold lowD at hl
    split
    · exact Post.refl
    · split
      · exact Post.fail
      · split
        · exact Post.refl
        · split
          · exact Post.bind (wr_post hl) fun t _ =>
              Post.mk (by unfold CSt.take; dsimp only; omega) fun _ _ => rfl
          · exact Post.bind (rdArr_post hl _ _ _) fun t _ => Post.mk (by dsimp only; omega) fun _ _ => rfl
  | .choice off sz sel subs, s, hl => by
    unfold decD; unfold lowD at hl
    split
    · exact Post.fail
    · exact decC_post v p base off sz L sel subs 0 s (by omega) (by omega)
  | .serialize off lenBits sub, s, hl => by
    unfold decD; unfold lowD at hl
    split
    · exact Post.fail
    · dsimp only
      split
      · intro t ht
        obtain ⟨t1, h1, h2⟩ := CRes.bind_eq_ok ht
        cases h2
        obtain ⟨_, hm⟩ := decL_post v p L sub (base + off) {} _ hl t1 h1
        exact ⟨by unfold CSt.take; dsimp only; omega, hm⟩
      · intro t ht
        obtain ⟨t1, h1, h2⟩ := CRes.bind_eq_ok ht
        cases h2
        obtain ⟨hr, hm⟩ := decL_post v p L sub (base + off) {} _ hl t1 h1
        exact ⟨by unfold CSt.take at hr; dsimp only at hr ⊢; omega, hm⟩
  | .varBmp off sz cnt adj, s, hl => by
    unfold decD; unfold lowD at hl
    split
    · exact Post.fail
    · dsimp only
      split
      · exact Post.refl
      · split
        · exact Post.fail
        · split
          · intro t ht
            obtain ⟨t1, h1, ht⟩ := CRes.bind_eq_ok ht
            obtain ⟨t2, h2, ht⟩ := CRes.bind_eq_ok ht
            cases ht
            have m1 := (wr_post hl t1 h1).2
            have m2 := (rdArr_post hl _ _ _ t2 h2).2
            exact ⟨by dsimp only; omega, fun a ha => (m2 a ha).trans (m1 a ha)⟩
          · intro t ht
            obtain ⟨t2, h2, ht⟩ := CRes.bind_eq_ok ht
            cases ht
            exact ⟨by dsimp only; omega, (rdArr_post hl _ _ _ t2 h2).2⟩
  | .leftBmp toEnd off sz cnt adj, s, hl => by
    unfold decD; unfold lowD at hl
    split
    · exact Post.fail
    · refine Post.bind ?_ fun t1 _ => ?_
      · unfold storeRest
        split
        · exact wr_post (by omega)
        · exact Post.refl
      · have hl1 : L ≤ base + off := by omega
        dsimp only
        split
        · exact Post.refl
        · split
          · exact Post.fail
          · intro t ht
            obtain ⟨t2, h2, ht⟩ := CRes.bind_eq_ok ht
            have m2 := (rdArr_post hl1 _ _ _ t2 h2).2
            split at ht
            · obtain ⟨t3, h3, ht⟩ := CRes.bind_eq_ok ht
              cases ht
              have m3 := (wr_post hl1 t3 h3).2
              exact ⟨by dsimp only; omega, fun a ha => (m3 a ha).trans (m2 a ha)⟩
            · cases ht
              exact ⟨by dsimp only; omega, m2⟩
  | .padding, s, hl => by
    unfold decD
    split
    · exact Post.fail
    · split
      · exact Post.fail
      · exact Post.mk (by dsimp only; omega) fun _ _ => rfl
  | .varArr off sz cnt adj, s, hl => by
    unfold decD; unfold lowD at hl
    split
    · exact Post.fail
    · dsimp only
      split
      · exact Post.refl
      · split
        · exact Post.fail
        · intro t ht
          obtain ⟨t2, h2, ht⟩ := CRes.bind_eq_ok ht
          cases ht
          exact ⟨by dsimp only; omega, (rdArr_post hl _ _ _ t2 h2).2⟩
  | .recArr off sz cnt bits, s, hl => by
    unfold decD; unfold lowD at hl
    split
    · exact Post.fail
    · refine Post.bindN (recArr_post (by omega) _ _ _) fun n t _ => ?_
      exact Post.bind (wr_post (by omega)) fun t _ => Post.mk (by dsimp only; omega) fun _ _ => rfl
  | .recTArr off sz esz cap cnt sub, s, hl => by
    unfold decD; unfold lowD at hl
    split
    · exact Post.fail
    · refine Post.bindN (recTArr_post (elt_post (by omega) fun b s hb => decL_post v p L sub b {} s hb) _ _ _)
        fun n t _ => ?_
      exact Post.bind (wr_post (by omega)) fun t _ => Post.mk (by dsimp only; omega) fun _ _ => rfl
  | .recTArr1 off sz esz cap cnt sub, s, hl => by
    unfold decD; unfold lowD at hl
    split
    · exact Post.fail
    · refine Post.bindN (recTArr1_post (elt_post (by omega) fun b s hb => decL_post v p L sub b {} s hb) _ _ _)
        fun n t _ => ?_
      exact wr_post (by omega)
  | .fixed bits value, s, hl => by
    unfold decD
    split
    · exact Post.fail
    · split
      · exact Post.fail
      · exact Post.mk (by unfold CSt.take; dsimp only; omega) fun _ _ => rfl
  | .cbCopy src dst esz lim, s, hl => by
    unfold decD; unfold lowD at hl
    split
    · exact Post.fail
    · exact iter_post _ _ _ fun i t => wr_post hl
  | .cbTddMap src dst, s, hl => by
    unfold decD; unfold lowD at hl
    split
    · exact Post.fail
    · exact wr_post hl
  | .cbTddCells src, s, hl => by
    unfold decD
    split
    · exact Post.fail
    · intro t ht
      obtain ⟨t1, _, h2⟩ := CRes.bind_eq_ok ht
      cases h2
      exact ⟨by dsimp only; omega, fun _ _ => rfl⟩
  | .trap code, s, hl => by unfold decD; split <;> exact Post.fail
  | .union .., s, hl => by unfold decD; exact Post.fail
  | .exist .., s, hl => by unfold decD; exact Post.fail
  | .nextExist .., s, hl => by unfold decD; exact Post.fail

theorem decC_post (v : List Bool) (p : Pol) (base off sz L : Nat) :
    ∀ (sel : List (Nat × Nat)) (subs : List Csn) (i : Nat) (s : CSt), L ≤ base + off →
      L ≤ base + lowC subs → Post L s (decC v p base off sz i sel subs s)
  | [], [], i, s, _, _ => by unfold decC; exact Post.fail
  | [], _ :: _, i, s, _, _ => by unfold decC; exact Post.fail
  | _ :: _, [], i, s, _, _ => by unfold decC; exact Post.fail
  | (bits, value) :: sel, d :: ds, i, s, h1, h2 => by
    unfold decC
    have hd : L ≤ base + lowD d := by
      cases ds with
      | nil => unfold lowC at h2; exact h2
      | cons e es => unfold lowC at h2; omega
    have hds : ds = [] ∨ L ≤ base + lowC ds := by
      cases ds with
      | nil => exact Or.inl rfl
      | cons e es => right; unfold lowC at h2; omega
    split
    · refine Post.bind (wr_post h1) fun t _ => ?_
      dsimp only
      split
      · exact Post.fail
      · refine Post.from (s' := t.take bits) (Post.bind (decD_post v p false base L d _ hd) fun t _ => ?_)
          (by unfold CSt.take; dsimp only; omega) rfl
        split
        · exact Post.fail
        · exact Post.refl
    · rcases hds with rfl | hds
      · cases sel <;> (unfold decC; exact Post.fail)
      · exact decC_post v p base off sz L sel ds (i + 1) s h1 hds

theorem decL_post (v : List Bool) (p : Pol) (L : Nat) :
    ∀ (ds : List Csn) (base : Nat) (c : Ctl) (s : CSt), L ≤ base → Post L s (decL v p base ds c s)
  | [], base, c, s, hl => by
    unfold decL
    split
    · split
      · exact Post.fail
      · exact Post.refl
    · exact Post.ub
  | d :: ds, base, c, s, hl => by
    unfold decL
    split
    · exact decL_post v p L ds base _ s hl
    · split
      · refine Post.bind (decD_post v p true base L d s (by omega)) fun t _ => ?_
        split
        · exact Post.fail
        · exact decL_post v p L ds base _ t hl
      · split
        · exact Post.fail
        · split
          · split
            · exact Post.fail
            · dsimp only
              obtain ⟨hr, hm⟩ := unionIdx_post v _ (ixBits _) 0 s
              refine Post.from (Post.bind (wr_post (by omega)) fun t _ => ?_) hr hm
              exact decL_post v p L ds base _ t hl
          · refine Post.bind (wr_post (by omega)) fun t _ => ?_
            dsimp only
            split
            · split
              · exact Post.fail
              · exact Post.mk (by dsimp only; omega) fun _ _ => rfl
            · exact Post.from (decL_post v p L ds base _ _ hl) (by dsimp only; omega) rfl
          · split
            · exact Post.bind (wr_post (by omega)) fun t _ => decL_post v p L ds base _ _ hl
            · refine Post.bind (wr_post (by omega)) fun t _ => ?_
              exact Post.from (decL_post v p L ds base _ _ hl) (by dsimp only; omega) rfl
          · exact Post.bind (decD_post v p false base L _ s (by omega)) fun t _ =>
              decL_post v p L ds base _ t hl

end

/-! ## Known bounds -/

/-- All bounds that are still known after skipping `k` more lines hold. -/
def Facts (base : Nat) (F : List Fact) (k : Nat) (s : CSt) : Prop :=
  ∀ f ∈ F, (∀ l, f.life = some l → k < l) → s.byte (base + f.off) ≤ f.max

theorem Facts.nil {base k s} : Facts base [] k s := fun _ h => by cases h

theorem bound_sound {base off : Nat} {s : CSt} : ∀ {F : List Fact}, Facts base F 0 s →
    s.byte (base + off) ≤ bound F off
  | [], _ => by
    unfold bound CSt.byte
    have := Nat.mod_lt (s.mem (base + off)) (show 0 < 256 by decide)
    omega
  | f :: F, h => by
    have ih : s.byte (base + off) ≤ bound F off := bound_sound (fun g hg => h g (List.mem_cons_of_mem _ hg))
    unfold bound
    split
    · next hc =>
      have := h f List.mem_cons_self (by
        intro l hl
        cases l with
        | zero => exact absurd hl hc.2
        | succ l => omega)
      rw [hc.1] at this
      omega
    · exact ih

theorem Facts.tick {base j k : Nat} {s : CSt} {F : List Fact} (h : Facts base F j s) (hj : j ≤ k + 1) :
    Facts base (tick F) k s := by
  intro f hf hl
  unfold Csn1.tick at hf
  obtain ⟨g, hg, rfl⟩ := List.mem_map.mp hf
  refine h g hg ?_
  intro l hgl
  have := hl (l - 1) (by rw [hgl]; rfl)
  omega

theorem Facts.sub {base k : Nat} {s : CSt} {F F' : List Fact} (h : Facts base F k s) (hs : ∀ f ∈ F', f ∈ F) :
    Facts base F' k s := fun f hf => h f (hs f hf)

theorem mem_kill {F lo hi f} (h : f ∈ kill F lo hi) : f ∈ F ∧ (f.off < lo ∨ hi ≤ f.off) := by
  unfold kill at h
  rw [List.mem_filter] at h
  simpa using h

theorem mem_killFrom {F lo f} (h : f ∈ killFrom F lo) : f ∈ F ∧ f.off < lo := by
  unfold killFrom at h
  rw [List.mem_filter] at h
  simpa using h

/-- After a store to `[off, off + w)`, what is known about other bytes still holds. -/
theorem Facts.kill {base k off w x : Nat} {s t : CSt} {F : List Fact} (h : Facts base F k s)
    (ht : t.mem = s.mem.putLe (base + off + 0) w x) : Facts base (kill F off (off + w)) k t := by
  intro f hf hl
  obtain ⟨hf, hr⟩ := mem_kill hf
  have := h f hf hl
  unfold CSt.byte at this ⊢
  rw [ht]
  rcases hr with hr | hr
  · rw [putLe_lo _ _ _ _ _ (by omega)]; exact this
  · rw [putLe_hi _ _ _ _ _ (by omega)]; exact this

theorem Facts.killFrom {base k lo : Nat} {s t : CSt} {F : List Fact} (h : Facts base F k s)
    (ht : ∀ a, a < base + lo → t.mem a = s.mem a) : Facts base (killFrom F lo) k t := by
  intro f hf hl
  obtain ⟨hf, hr⟩ := mem_killFrom hf
  have := h f hf hl
  unfold CSt.byte at this ⊢
  rw [ht _ (by omega)]; exact this

theorem Facts.same {base k : Nat} {s t : CSt} {F : List Fact} (h : Facts base F k s)
    (ht : t.mem = s.mem) : Facts base F k t := by
  intro f hf hl
  have := h f hf hl
  unfold CSt.byte at this ⊢
  rw [ht]; exact this

theorem Facts.cons {base k : Nat} {s : CSt} {F : List Fact} {f : Fact} (h : Facts base F k s)
    (hf : s.byte (base + f.off) ≤ f.max) : Facts base (f :: F) k s := by
  intro g hg hl
  rcases List.mem_cons.mp hg with rfl | hg
  · exact hf
  · exact h g hg hl

theorem bitAt_le (v : List Bool) (i : Nat) : bitAt v i ≤ 1 := by unfold bitAt; split <;> omega

theorem bitsVal_lt (v : List Bool) : ∀ (n i : Nat), bitsVal v i n < 2 ^ n := by
  intro n
  induction n with
  | zero => intro i; exact Nat.one_pos
  | succ n ih =>
    intro i
    show bitAt v i * 2 ^ n + bitsVal v (i + 1) n < 2 ^ (n + 1)
    have h1 := bitAt_le v i
    have h2 := ih (i + 1)
    have h3 : bitAt v i * 2 ^ n ≤ 1 * 2 ^ n := Nat.mul_le_mul_right _ h1
    rw [Nat.pow_succ]
    omega

theorem uintW_le8 {bits : Nat} (h : bits ≤ 8) : uintW bits = 1 := by unfold uintW; rw [if_pos h]

theorem mod_le_self (x y m : Nat) (h : x ≤ y) : x % m ≤ y := Nat.le_trans (Nat.mod_le _ _) h

/-- Knowledge after a line that was decoded. -/
theorem after_sound {v p u base d s t F k} (mk : Option (Option Nat)) (h : decD v p u base d s = .ok t)
    (hF : Facts base F k s) : Facts base (after mk d F) k t := by
  have hpost := fun L hl => decD_post v p u base L d s hl t h
  have gen : Facts base (killFrom F (lowD d)) k t := hF.killFrom (hpost (base + lowD d) (Nat.le_refl _)).2
  cases d with
  | bit off sz orNull =>
    unfold decD at h
    split at h
    · obtain ⟨t1, h1, h⟩ := CRes.bind_eq_ok h
      cases h
      obtain ⟨rfl, _⟩ := wr_eq_ok h1
      exact hF.kill rfl
    · split at h
      · obtain ⟨t1, h1, h⟩ := CRes.bind_eq_ok h
        cases h
        obtain ⟨rfl, _⟩ := wr_eq_ok h1
        exact hF.kill rfl
      · cases h
  | null i => unfold decD at h; cases h; exact hF.same rfl
  | uint off sz bits orNull =>
    unfold decD at h
    have key : Facts base (kill F off (off + uintW bits)) k t ∧
        (bits ≤ 8 → t.byte (base + off) ≤ 2 ^ bits - 1) := by
      have hlt := bitsVal_lt v bits s.rd
      split at h
      · split at h
        · obtain ⟨t1, h1, h⟩ := CRes.bind_eq_ok h
          cases h
          obtain ⟨rfl, _⟩ := wr_eq_ok h1
          refine ⟨hF.kill rfl, fun h8 => ?_⟩
          unfold CSt.byte CSt.take
          dsimp only
          rw [uintW_le8 h8, Nat.add_zero, putLe_one, Nat.mod_mod]
          exact mod_le_self _ _ _ (by omega)
        · cases h
      · split at h
        · cases h
        · split at h
          · split at h
            · obtain ⟨rfl, _⟩ := wr_eq_ok h
              refine ⟨hF.kill rfl, fun h8 => ?_⟩
              unfold CSt.byte
              dsimp only
              rw [uintW_le8 h8, Nat.add_zero, putLe_one]
              exact Nat.zero_le _
            · next hc => cases h; exact ⟨hF.sub fun f hf => (mem_kill hf).1, fun h8 => by omega⟩
          · cases h
    unfold after
    dsimp only
    split
    · split
      · next h8 => exact key.1.cons (key.2 h8)
      · exact key.1
    · exact key.1
  | uintOfs off sz bits value =>
    unfold decD at h
    have key : Facts base (kill F off (off + uintW bits)) k t ∧
        (bits ≤ 8 → t.byte (base + off) ≤ 2 ^ bits - 1 + value) := by
      have hlt := bitsVal_lt v bits s.rd
      split at h
      · split at h
        · obtain ⟨t1, h1, h⟩ := CRes.bind_eq_ok h
          cases h
          obtain ⟨rfl, _⟩ := wr_eq_ok h1
          refine ⟨hF.kill rfl, fun h8 => ?_⟩
          unfold CSt.byte CSt.take
          dsimp only
          rw [uintW_le8 h8, Nat.add_zero, putLe_one, Nat.mod_mod]
          exact mod_le_self _ _ _ (by omega)
        · cases h
      · cases h
    unfold after
    dsimp only
    split
    · split
      · next h8 => exact key.1.cons (key.2 h8)
      · exact key.1
    · exact key.1
  | uintLh off sz bits =>
    unfold decD at h
    split at h
    · split at h
      · obtain ⟨t1, h1, h⟩ := CRes.bind_eq_ok h
        cases h
        obtain ⟨rfl, _⟩ := wr_eq_ok h1
        exact hF.kill rfl
      · cases h
    · cases h
  | padding =>
    unfold decD at h
    split at h
    · cases h
    · split at h
      · cases h
      · cases h; exact hF.same rfl
  | fixed bits value =>
    unfold decD at h
    split at h
    · cases h
    · split at h
      · cases h
      · cases h; exact hF.same rfl
  | cbTddCells src =>
    unfold decD at h
    split at h
    · cases h
    · obtain ⟨t1, _, h⟩ := CRes.bind_eq_ok h
      cases h; exact hF.same rfl
  | trap code => unfold decD at h; split at h <;> cases h
  | union lh off sz count => unfold decD at h; cases h
  | exist lh off sz => unfold decD at h; cases h
  | nextExist lh off sz n o => unfold decD at h; cases h
  | _ => exact gen

theorem mem_after {mk d F f} (h : f ∈ after mk d F) : f ∈ F ∨ ∃ l, mk = some l ∧ f.life = l := by
  cases d with
  | uint off sz bits orNull =>
    unfold after at h
    dsimp only at h
    split at h
    · split at h
      · rcases List.mem_cons.mp h with rfl | h
        · exact Or.inr ⟨_, rfl, rfl⟩
        · exact Or.inl (mem_kill h).1
      · exact Or.inl (mem_kill h).1
    · exact Or.inl (mem_kill h).1
  | uintOfs off sz bits value =>
    unfold after at h
    dsimp only at h
    split at h
    · split at h
      · rcases List.mem_cons.mp h with rfl | h
        · exact Or.inr ⟨_, rfl, rfl⟩
        · exact Or.inl (mem_kill h).1
      · exact Or.inl (mem_kill h).1
    · exact Or.inl (mem_kill h).1
  | _ => first
    | exact Or.inl h
    | exact Or.inl (mem_kill h).1
    | exact Or.inl (mem_killFrom h).1

theorem shortest_le : ∀ {G : List Nat} {g : Nat}, g ∈ G → ∃ m, shortest G = some m ∧ m ≤ g
  | x :: G, g, h => by
    unfold shortest
    rcases List.mem_cons.mp h with rfl | h
    · split
      · exact ⟨_, rfl, Nat.le_refl _⟩
      · exact ⟨_, rfl, Nat.min_le_left _ _⟩
    · obtain ⟨m, hm, hle⟩ := shortest_le h
      rw [hm]
      exact ⟨_, rfl, Nat.le_trans (Nat.min_le_right _ _) hle⟩

end Verif.Csn1
