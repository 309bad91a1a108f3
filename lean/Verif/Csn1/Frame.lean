import Verif.Csn1.Sound
import Verif.Csn1.Msg

/-!
# A decoder confined to an object leaves the memory behind the object alone
-/
namespace Verif.Csn1

/-- No octet from address `n` on is changed. -/
def Hi (n : Nat) (s : CSt) (r : CRes CSt) : Prop := ∀ t, r = .ok t → ∀ a, n ≤ a → t.mem a = s.mem a

/-- `Hi` for results carrying a count. -/
def HiN (n : Nat) (s : CSt) (r : CRes (Nat × CSt)) : Prop :=
  ∀ k t, r = .ok (k, t) → ∀ a, n ≤ a → t.mem a = s.mem a

theorem Hi.fail {n s c} : Hi n s (.fail c) := fun _ h => by cases h
theorem Hi.ub {n s f} : Hi n s (.ub f) := fun _ h => by cases h

theorem Hi.mk {n : Nat} {s t : CSt} (hm : t.mem = s.mem) : Hi n s (.ok t) := by
  intro t' h; cases h; intro a _; rw [hm]

theorem Hi.refl {n : Nat} {s : CSt} : Hi n s (.ok s) := Hi.mk rfl

theorem Hi.bind {n : Nat} {s : CSt} {r : CRes CSt} {f : CSt → CRes CSt}
    (h : Hi n s r) (hf : ∀ t, Hi n t (f t)) : Hi n s (r >>= f) := by
  intro u hu a ha
  obtain ⟨t, h1, h2⟩ := CRes.bind_eq_ok hu
  exact (hf t u h2 a ha).trans (h t h1 a ha)

theorem Hi.bindN {n : Nat} {s : CSt} {r : CRes (Nat × CSt)} {f : Nat × CSt → CRes CSt}
    (h : HiN n s r) (hf : ∀ k t, Hi n t (f (k, t))) : Hi n s (r >>= f) := by
  intro u hu a ha
  obtain ⟨⟨k, t⟩, h1, h2⟩ := CRes.bind_eq_ok hu
  exact (hf k t u h2 a ha).trans (h k t h1 a ha)

theorem HiN.bind {n : Nat} {s : CSt} {r : CRes CSt} {f : CSt → CRes (Nat × CSt)}
    (h : Hi n s r) (hf : ∀ t, HiN n t (f t)) : HiN n s (r >>= f) := by
  intro k u hu a ha
  obtain ⟨t, h1, h2⟩ := CRes.bind_eq_ok hu
  exact (hf t k u h2 a ha).trans (h t h1 a ha)

theorem Hi.from {n : Nat} {s s' : CSt} {r : CRes CSt} (h : Hi n s' r) (hm : s'.mem = s.mem) : Hi n s r := by
  intro t ht a ha; rw [h t ht a ha, hm]

theorem HiN.from {n : Nat} {s s' : CSt} {r : CRes (Nat × CSt)} (h : HiN n s' r) (hm : s'.mem = s.mem) :
    HiN n s r := by
  intro k t ht a ha; rw [h k t ht a ha, hm]

theorem HiN.fail {n s c} : HiN n s (.fail c) := fun _ _ h => by cases h
theorem HiN.mk {n k : Nat} {s t : CSt} (hm : t.mem = s.mem) : HiN n s (.ok (k, t)) := by
  intro k' t' h; cases h; intro a _; rw [hm]

theorem wr_hi {n base off sz k w x s} : Hi n s (wr (.object n) base off sz k w x s) := by
  intro t h a ha
  obtain ⟨rfl, hs⟩ := wr_eq_ok h
  unfold Pol.store at hs
  simp only [decide_eq_true_eq] at hs
  exact putLe_hi _ _ _ _ _ (by omega)

theorem rdArr_hi {v n base off sz bits w} :
    ∀ (m k : Nat) (s : CSt), Hi n s (rdArr v (.object n) base off sz bits w m k s) := by
  intro m
  induction m with
  | zero => intro k s; exact Hi.refl
  | succ m ih =>
    intro k s
    exact Hi.bind wr_hi fun t => Hi.from (ih (k + w) _) rfl

theorem iter_hi {n f} (hf : ∀ i s, Hi n s (f i s)) : ∀ (m i : Nat) (s : CSt), Hi n s (iter f m i s) := by
  intro m
  induction m with
  | zero => intro i s; exact Hi.refl
  | succ m ih => intro i s; exact Hi.bind (hf i s) fun t => ih (i + 1) t

theorem elt_hi {n p base off sz esz f} (hf : ∀ b s, Hi n s (f b s)) : ∀ i s, Hi n s (elt p base off sz esz f i s) := by
  intro i s
  unfold elt
  split
  · exact hf _ _
  · exact Hi.ub

theorem recArr_hi {v n base off sz bits} :
    ∀ (m k : Nat) (s : CSt), HiN n s (recArrLoop v (.object n) base off sz bits m k s) := by
  intro m
  induction m with
  | zero => intro k s; exact HiN.mk rfl
  | succ m ih =>
    intro k s
    unfold recArrLoop
    split
    · refine HiN.bind wr_hi fun t => ?_
      dsimp only
      split
      · exact HiN.fail
      · exact HiN.from (ih _ _) rfl
    · exact HiN.mk rfl

theorem recTArr_hi {v n f} (hf : ∀ i s, Hi n s (f i s)) :
    ∀ (m i : Nat) (s : CSt), HiN n s (recTArrLoop v f m i s) := by
  intro m
  induction m with
  | zero =>
    intro i s
    unfold recTArrLoop
    split
    · exact HiN.fail
    · exact HiN.mk rfl
  | succ m ih =>
    intro i s
    unfold recTArrLoop
    split
    · refine HiN.bind (Hi.from (hf i _) rfl) fun t => ?_
      split
      · exact HiN.fail
      · exact ih _ _
    · exact HiN.mk rfl

theorem recTArr1_hi {v n f} (hf : ∀ i s, Hi n s (f i s)) :
    ∀ (m i : Nat) (s : CSt), HiN n s (recTArr1Loop v f m i s) := by
  intro m
  induction m with
  | zero => intro i s; exact HiN.fail
  | succ m ih =>
    intro i s
    unfold recTArr1Loop
    refine HiN.bind (hf i _) fun t => ?_
    split
    · exact HiN.fail
    · dsimp only
      split
      · exact HiN.from (ih _ _) rfl
      · exact HiN.mk rfl

mutual

theorem decD_hi (v : List Bool) (n : Nat) (u : Bool) :
    ∀ (d : Csn) (base : Nat) (s : CSt), Hi n s (decD v (.object n) u base d s)
  | .bit off sz orNull, base, s => by
    unfold decD
    split
    · exact Hi.bind wr_hi fun t => Hi.mk rfl
    · split
      · exact Hi.bind wr_hi fun t => Hi.mk rfl
      · exact Hi.fail
  | .null i, base, s => by unfold decD; exact Hi.mk rfl
  | .uint off sz bits orNull, base, s => by
    unfold decD
    split
    · split
      · exact Hi.bind wr_hi fun t => Hi.mk rfl
      · exact Hi.fail
    · split
      · exact Hi.fail
      · split
        · split
          · exact wr_hi
          · exact Hi.refl
        · exact Hi.fail
  | .uintOfs off sz bits value, base, s => by
    unfold decD
    split
    · split
      · exact Hi.bind wr_hi fun t => Hi.mk rfl
      · exact Hi.fail
    · exact Hi.fail
  | .uintLh off sz bits, base, s => by
    unfold decD
    split
    · split
      · exact Hi.bind wr_hi fun t => Hi.mk rfl
      · exact Hi.fail
    · exact Hi.fail
  | .uintArr off sz bits count, base, s => by
    unfold decD
    split
    · exact Hi.bind (rdArr_hi _ _ _) fun t => Hi.mk rfl
    · exact Hi.fail
  | .typ off orNull sub, base, s => by
    unfold decD
    split
    · exact Hi.refl
    · exact decL_hi v n sub (base + off) {} s
  | .tarr off sz esz count sub, base, s => by
    unfold decD
    exact iter_hi (elt_hi fun b s => decL_hi v n sub b {} s) _ _ _
  | .vtarr ofs off sz esz cnt sub, base, s => by
    unfold decD
    exact iter_hi (elt_hi fun b s => decL_hi v n sub b {} s) _ _ _
  | .bitmap off sz bits, base, s => by
    unfold decD
    split
    · exact Hi.refl
    · split
      · exact Hi.fail
      · split
        · exact Hi.refl
        · split
          · exact Hi.bind wr_hi fun t => Hi.mk rfl
          · exact Hi.bind (rdArr_hi _ _ _) fun t => Hi.mk rfl
  | .choice off sz sel subs, base, s => by
    unfold decD
    split
    · exact Hi.fail
    · exact decC_hi v n off sz sel subs base 0 s
  | .serialize off lenBits sub, base, s => by
    unfold decD
    split
    · exact Hi.fail
    · dsimp only
      split
      · exact Hi.bind (Hi.from (decL_hi v n sub (base + off) {} _) rfl) fun t => Hi.mk rfl
      · exact Hi.bind (Hi.from (decL_hi v n sub (base + off) {} _) rfl) fun t => Hi.mk rfl
  | .varBmp off sz cnt adj, base, s => by
    unfold decD
    split
    · exact Hi.fail
    · dsimp only
      split
      · exact Hi.refl
      · split
        · exact Hi.fail
        · split
          · exact Hi.bind wr_hi fun t => Hi.bind (rdArr_hi _ _ _) fun t => Hi.mk rfl
          · exact Hi.bind (rdArr_hi _ _ _) fun t => Hi.mk rfl
  | .leftBmp toEnd off sz cnt adj, base, s => by
    unfold decD
    split
    · exact Hi.fail
    · refine Hi.bind ?_ fun t1 => ?_
      · unfold storeRest
        split
        · exact wr_hi
        · exact Hi.refl
      · dsimp only
        split
        · exact Hi.refl
        · split
          · exact Hi.fail
          · refine Hi.bind (rdArr_hi _ _ _) fun t => ?_
            split
            · exact Hi.bind wr_hi fun t => Hi.mk rfl
            · exact Hi.mk rfl
  | .padding, base, s => by
    unfold decD
    split
    · exact Hi.fail
    · split
      · exact Hi.fail
      · exact Hi.mk rfl
  | .varArr off sz cnt adj, base, s => by
    unfold decD
    split
    · exact Hi.fail
    · dsimp only
      split
      · exact Hi.refl
      · split
        · exact Hi.fail
        · exact Hi.bind (rdArr_hi _ _ _) fun t => Hi.mk rfl
  | .recArr off sz cnt bits, base, s => by
    unfold decD
    split
    · exact Hi.fail
    · exact Hi.bindN (recArr_hi _ _ _) fun k t => Hi.bind wr_hi fun t => Hi.mk rfl
  | .recTArr off sz esz cap cnt sub, base, s => by
    unfold decD
    split
    · exact Hi.fail
    · exact Hi.bindN (recTArr_hi (elt_hi fun b s => decL_hi v n sub b {} s) _ _ _) fun k t =>
        Hi.bind wr_hi fun t => Hi.mk rfl
  | .recTArr1 off sz esz cap cnt sub, base, s => by
    unfold decD
    split
    · exact Hi.fail
    · exact Hi.bindN (recTArr1_hi (elt_hi fun b s => decL_hi v n sub b {} s) _ _ _) fun k t => wr_hi
  | .fixed bits value, base, s => by
    unfold decD
    split
    · exact Hi.fail
    · split
      · exact Hi.fail
      · exact Hi.mk rfl
  | .cbCopy src dst esz lim, base, s => by
    unfold decD
    split
    · exact Hi.fail
    · exact iter_hi (fun i t => wr_hi) _ _ _
  | .cbTddMap src dst, base, s => by
    unfold decD
    split
    · exact Hi.fail
    · exact wr_hi
  | .cbTddCells src, base, s => by
    unfold decD
    split
    · exact Hi.fail
    · intro t ht
      obtain ⟨t1, _, h2⟩ := CRes.bind_eq_ok ht
      cases h2
      exact fun _ _ => rfl
  | .trap code, base, s => by unfold decD; split <;> exact Hi.fail
  | .union .., base, s => by unfold decD; exact Hi.fail
  | .exist .., base, s => by unfold decD; exact Hi.fail
  | .nextExist .., base, s => by unfold decD; exact Hi.fail

theorem decC_hi (v : List Bool) (n off sz : Nat) :
    ∀ (sel : List (Nat × Nat)) (subs : List Csn) (base i : Nat) (s : CSt),
      Hi n s (decC v (.object n) base off sz i sel subs s)
  | [], [], base, i, s => by unfold decC; exact Hi.fail
  | [], _ :: _, base, i, s => by unfold decC; exact Hi.fail
  | _ :: _, [], base, i, s => by unfold decC; exact Hi.fail
  | (bits, value) :: sel, d :: ds, base, i, s => by
    unfold decC
    split
    · refine Hi.bind wr_hi fun t => ?_
      dsimp only
      split
      · exact Hi.fail
      · refine Hi.from (s' := t.take bits) (Hi.bind (decD_hi v n false d base _) fun t => ?_) rfl
        split
        · exact Hi.fail
        · exact Hi.refl
    · exact decC_hi v n off sz sel ds base (i + 1) s

theorem decL_hi (v : List Bool) (n : Nat) :
    ∀ (ds : List Csn) (base : Nat) (c : Ctl) (s : CSt), Hi n s (decL v (.object n) base ds c s)
  | [], base, c, s => by
    unfold decL
    split
    · split
      · exact Hi.fail
      · exact Hi.refl
    · exact Hi.ub
  | d :: ds, base, c, s => by
    unfold decL
    split
    · exact decL_hi v n ds base _ s
    · split
      · refine Hi.bind (decD_hi v n true d base s) fun t => ?_
        split
        · exact Hi.fail
        · exact decL_hi v n ds base _ t
      · split
        · exact Hi.fail
        · split
          · split
            · exact Hi.fail
            · dsimp only
              obtain ⟨_, hm⟩ := unionIdx_post v _ (ixBits _) 0 s
              exact Hi.from (Hi.bind wr_hi fun t => decL_hi v n ds base _ t) hm
          · refine Hi.bind wr_hi fun t => ?_
            dsimp only
            split
            · split
              · exact Hi.fail
              · exact Hi.mk rfl
            · exact Hi.from (decL_hi v n ds base _ _) rfl
          · split
            · exact Hi.bind wr_hi fun t => decL_hi v n ds base _ _
            · exact Hi.bind wr_hi fun t => Hi.from (decL_hi v n ds base _ _) rfl
          · exact Hi.bind (decD_hi v n false _ base s) fun t => decL_hi v n ds base _ t

end

end Verif.Csn1
