import Verif.Spec.Poll

/-!
# C32: poll reservations
-/
namespace Verif.Props

open Verif.Spec Verif.Rlc

/-- An entry: time and contents. -/
abbrev Entry := Nat × PollReason × PollOwner

/-- The node of an entry. -/
def conc (e : Entry) : PollNode := ⟨e.1 % hyperframe, e.2.1, e.2.2⟩

/-- The list of entries is in order and says the same as the map. -/
structure Rel (m : Reservations) (l : List Entry) (t : PollTree) : Prop where
  sorted : l.Pairwise fun a b => a.1 < b.1
  mem : ∀ u v, m u = some v ↔ (u, v) ∈ l
  tree : t.toList = l.map conc

theorem fncmp_lt {a b : Nat} (h1 : a < b) (h2 : b < a + 1357824) : fncmp (a % hyperframe) (b % hyperframe) = -1 := by
  unfold fncmp hyperframe
  simp only
  rw [if_pos (by omega)]

theorem fncmp_gt {a b : Nat} (h1 : b < a) (h2 : a < b + 1357824) : fncmp (a % hyperframe) (b % hyperframe) = 1 := by
  unfold fncmp hyperframe
  simp only
  rw [if_neg (by omega), if_pos (by omega)]

theorem fncmp_self (a : Nat) : fncmp a a = 0 := by
  unfold fncmp
  simp

/-- All entries are near the time `t`. -/
def NearL (t : Nat) (l : List Entry) : Prop := ∀ e ∈ l, e.1 < t + 678912 ∧ t < e.1 + 678912

theorem getNode_spec (t : Nat) : ∀ (tr : PollTree) (l : List Entry), tr.toList = l.map conc →
    l.Pairwise (fun a b => a.1 < b.1) → NearL t l →
    (∀ v, (t, v) ∈ l → tr.getNode (t % hyperframe) = some (conc (t, v))) ∧
    ((∀ v, (t, v) ∉ l) → tr.getNode (t % hyperframe) = none) := by
  intro tr
  induction tr with
  | leaf =>
    intro l hl _ _
    have : l = [] := by
      cases l with
      | nil => rfl
      | cons a l => cases hl
    subst this
    exact ⟨nofun, fun _ => rfl⟩
  | node a x b iha ihb =>
    intro l hl hs hn
    simp only [PollTree.toList] at hl
    obtain ⟨l1, l2', rfl, h1, h2⟩ := List.append_eq_map_iff.1 hl
    obtain ⟨e, l2, rfl, h3, h4⟩ := List.map_eq_cons_iff.1 h2
    rw [List.pairwise_append] at hs
    obtain ⟨hs1, hs2, hs12⟩ := hs
    rw [List.pairwise_cons] at hs2
    have hn1 : NearL t l1 := fun y hy => hn y (by simp [hy])
    have hn2 : NearL t l2 := fun y hy => hn y (by simp [hy])
    have hne := hn e (by simp)
    obtain ⟨ia1, ia2⟩ := iha l1 h1.symm hs1 hn1
    obtain ⟨ib1, ib2⟩ := ihb l2 h4.symm hs2.2 hn2
    simp only [PollTree.getNode]
    subst h3
    rcases Nat.lt_trichotomy e.1 t with h | h | h
    · have hc : fncmp (conc e).fn (t % hyperframe) = -1 := fncmp_lt h (by omega)
      have hno : ∀ v, (t, v) ∉ l1 := fun v hv => by
        have := hs12 _ hv e (by simp)
        simp only at this
        omega
      have hne' : ∀ v, (t, v) ≠ e := fun v hv => by rw [← hv] at h; simp at h
      constructor
      · intro v hv
        rw [hc]
        simp only [List.mem_append, List.mem_cons] at hv
        rcases hv with hv | hv | hv
        · exact absurd hv (hno v)
        · exact absurd hv (hne' v)
        · simpa using ib1 v hv
      · intro hv
        rw [hc]
        simpa using ib2 fun v hx => hv v (by simp [hx])
    · have hc : fncmp (conc e).fn (t % hyperframe) = 0 := by
        show fncmp (e.1 % hyperframe) _ = 0
        rw [h, fncmp_self]
      constructor
      · intro v hv
        rw [hc]
        simp only [List.mem_append, List.mem_cons] at hv
        rcases hv with hv | hv | hv
        · have := hs12 _ hv e (by simp)
          simp only at this
          omega
        · subst hv
          simp
        · have := hs2.1 _ hv
          simp only at this
          omega
      · intro hv
        exact absurd (by rw [← h]; simp) (hv e.2)
    · have hc : fncmp (conc e).fn (t % hyperframe) = 1 := fncmp_gt h (by omega)
      have hno : ∀ v, (t, v) ∉ l2 := fun v hv => by
        have := hs2.1 _ hv
        simp only at this
        omega
      have hne' : ∀ v, (t, v) ≠ e := fun v hv => by rw [← hv] at h; simp at h
      constructor
      · intro v hv
        rw [hc]
        simp only [List.mem_append, List.mem_cons] at hv
        rcases hv with hv | hv | hv
        · simpa using ia1 v hv
        · exact absurd hv (hne' v)
        · exact absurd hv (hno v)
      · intro hv
        rw [hc]
        simpa using ia2 fun v hx => hv v (by simp [hx])

theorem addNode_spec (t : Nat) (v : PollReason × PollOwner) : ∀ (tr : PollTree) (l : List Entry), tr.toList = l.map conc →
    l.Pairwise (fun a b => a.1 < b.1) → NearL t l →
    ((∃ w, (t, w) ∈ l) → tr.addNode (conc (t, v)) = none) ∧
    ((∀ w, (t, w) ∉ l) → ∃ tr' l1 l2, tr.addNode (conc (t, v)) = some tr' ∧ l = l1 ++ l2 ∧
      tr'.toList = (l1 ++ (t, v) :: l2).map conc ∧ (∀ a ∈ l1, a.1 < t) ∧ ∀ a ∈ l2, t < a.1) := by
  intro tr
  induction tr with
  | leaf =>
    intro l hl _ _
    have : l = [] := by
      cases l with
      | nil => rfl
      | cons a l => cases hl
    subst this
    exact ⟨nofun, fun _ => ⟨_, [], [], rfl, rfl, rfl, nofun, nofun⟩⟩
  | node a x b iha ihb =>
    intro l hl hs hn
    simp only [PollTree.toList] at hl
    obtain ⟨l1, l2', rfl, h1, h2⟩ := List.append_eq_map_iff.1 hl
    obtain ⟨e, l2, rfl, h3, h4⟩ := List.map_eq_cons_iff.1 h2
    rw [List.pairwise_append] at hs
    obtain ⟨hs1, hs2, hs12⟩ := hs
    rw [List.pairwise_cons] at hs2
    have hn1 : NearL t l1 := fun y hy => hn y (by simp [hy])
    have hn2 : NearL t l2 := fun y hy => hn y (by simp [hy])
    have hne := hn e (by simp)
    obtain ⟨ia1, ia2⟩ := iha l1 h1.symm hs1 hn1
    obtain ⟨ib1, ib2⟩ := ihb l2 h4.symm hs2.2 hn2
    simp only [PollTree.addNode]
    subst h3
    rcases Nat.lt_trichotomy e.1 t with h | h | h
    · have hc : fncmp (conc (t, v)).fn (conc e).fn = 1 := fncmp_gt h (by omega)
      rw [hc]
      simp only [show ¬ ((1 : Int) < 0) by decide, show (1 : Int) > 0 by decide, if_true, if_false]
      constructor
      · rintro ⟨w, hw⟩
        simp only [List.mem_append, List.mem_cons] at hw
        rcases hw with hw | hw | hw
        · have := hs12 _ hw e (by simp)
          simp only at this
          omega
        · rw [← hw] at h
          simp at h
        · rw [ib1 ⟨w, hw⟩]
          rfl
      · intro hno
        obtain ⟨tr', m1, m2, e1, e2, e3, e4, e5⟩ := ib2 fun w hw => hno w (by simp [hw])
        refine ⟨_, l1 ++ e :: m1, m2, by rw [e1]; rfl, by rw [e2]; simp, ?_, ?_, e5⟩
        · simp only [PollTree.toList, e3, ← h1]
          simp
        · intro y hy
          simp only [List.mem_append, List.mem_cons] at hy
          rcases hy with hy | hy | hy
          · have := hs12 _ hy e (by simp)
            omega
          · rw [hy]
            exact h
          · exact e4 y hy
    · have hc : fncmp (conc (t, v)).fn (conc e).fn = 0 := by
        show fncmp (t % hyperframe) (e.1 % hyperframe) = 0
        rw [h, fncmp_self]
      rw [hc]
      refine ⟨fun _ => by simp, fun hno => ?_⟩
      exact absurd (by rw [← h]; simp) (hno e.2)
    · have hc : fncmp (conc (t, v)).fn (conc e).fn = -1 := fncmp_lt h (by omega)
      rw [hc]
      simp only [show ((-1 : Int) < 0) by decide, if_true]
      constructor
      · rintro ⟨w, hw⟩
        simp only [List.mem_append, List.mem_cons] at hw
        rcases hw with hw | hw | hw
        · rw [ia1 ⟨w, hw⟩]
          rfl
        · rw [← hw] at h
          simp at h
        · have := hs2.1 _ hw
          simp only at this
          omega
      · intro hno
        obtain ⟨tr', m1, m2, e1, e2, e3, e4, e5⟩ := ia2 fun w hw => hno w (by simp [hw])
        refine ⟨_, m1, m2 ++ e :: l2, by rw [e1]; rfl, by rw [e2]; simp, ?_, e4, ?_⟩
        · simp only [PollTree.toList, e3, ← h4]
          simp
        · intro y hy
          simp only [List.mem_append, List.mem_cons] at hy
          rcases hy with hy | hy | hy
          · exact e5 y hy
          · rw [hy]
            exact h
          · have := hs2.1 _ hy
            omega

theorem expireLoop_spec (t : Nat) : ∀ (l : List Entry), l.Pairwise (fun a b => a.1 < b.1) → NearL t l →
    expireLoop (t % hyperframe) (l.map conc) = (l.filter fun e => decide (t < e.1)).map conc := by
  intro l
  induction l with
  | nil => intros; rfl
  | cons e l ih =>
    intro hs hn
    rw [List.pairwise_cons] at hs
    have hne := hn e (by simp)
    simp only [List.map_cons, expireLoop]
    rcases Nat.lt_trichotomy e.1 t with h | h | h
    · have hc : fncmp (conc e).fn (t % hyperframe) = -1 := fncmp_lt h (by omega)
      rw [hc, if_neg (by decide), ih hs.2 fun y hy => hn y (by simp [hy]), List.filter_cons_of_neg (by simp; omega)]
    · have hc : fncmp (conc e).fn (t % hyperframe) = 0 := by
        show fncmp (e.1 % hyperframe) _ = 0
        rw [h, fncmp_self]
      rw [hc, if_neg (by decide), ih hs.2 fun y hy => hn y (by simp [hy]), List.filter_cons_of_neg (by simp; omega)]
    · have hc : fncmp (conc e).fn (t % hyperframe) = 1 := fncmp_gt h (by omega)
      have hall : ∀ x ∈ e :: l, decide (t < x.1) = true := by
        intro x hx
        simp only [List.mem_cons] at hx
        rcases hx with rfl | hx
        · simpa using h
        · have := hs.1 x hx
          simp
          omega
      rw [hc, if_pos (by decide), List.filter_eq_self.2 hall]
      rfl

theorem releasePass_none (o : PollOwner) : ∀ l : List PollNode, releasePass o l = none → l.filter (fun x => decide (x.owner ≠ o)) = l := by
  intro l
  induction l with
  | nil => intro _; rfl
  | cons x l ih =>
    intro h
    unfold releasePass at h
    split at h
    · cases h
    · rename_i hx
      simp only [Option.map_eq_none_iff] at h
      rw [List.filter_cons_of_pos (by simpa using hx), ih h]

theorem releasePass_some (o : PollOwner) : ∀ l l' : List PollNode, releasePass o l = some l' →
    l'.filter (fun x => decide (x.owner ≠ o)) = l.filter (fun x => decide (x.owner ≠ o)) ∧ l'.length + 1 = l.length := by
  intro l
  induction l with
  | nil => intro l' h; cases h
  | cons x l ih =>
    intro l' h
    unfold releasePass at h
    split at h
    · rename_i hx
      cases h
      rw [List.filter_cons_of_neg (by simpa using hx)]
      exact ⟨rfl, rfl⟩
    · rename_i hx
      simp only [Option.map_eq_some_iff] at h
      obtain ⟨l1, h1, rfl⟩ := h
      obtain ⟨a1, a2⟩ := ih l1 h1
      rw [List.filter_cons_of_pos (by simpa using hx), List.filter_cons_of_pos (by simpa using hx), a1]
      simp only [List.length_cons]
      exact ⟨trivial, by omega⟩

theorem releaseLoop_eq (o : PollOwner) : ∀ (n : Nat) (l : List PollNode), l.length ≤ n →
    releaseLoop o n l = l.filter fun x => decide (x.owner ≠ o) := by
  intro n
  induction n with
  | zero =>
    intro l h
    cases l with
    | nil => rfl
    | cons x l => simp at h
  | succ n ih =>
    intro l h
    unfold releaseLoop
    cases hp : releasePass o l with
    | none => exact (releasePass_none o l hp).symm
    | some l' =>
      obtain ⟨a1, a2⟩ := releasePass_some o l l' hp
      simp only
      rw [ih l' (by omega), a1]

theorem release_spec (n : Nat) (l : List Entry) :
    releaseLoop (.tbf n) (l.map conc).length (l.map conc) = (l.filter fun e => decide (e.2.2 ≠ .tbf n)).map conc := by
  rw [releaseLoop_eq _ _ _ (Nat.le_refl _), List.filter_map]
  rfl

theorem sorted_unique {l : List Entry} (hs : l.Pairwise fun a b => a.1 < b.1) {u : Nat} {v w : PollReason × PollOwner}
    (h1 : (u, v) ∈ l) (h2 : (u, w) ∈ l) : v = w := by
  induction l with
  | nil => cases h1
  | cons e l ih =>
    rw [List.pairwise_cons] at hs
    simp only [List.mem_cons] at h1 h2
    rcases h1 with h1 | h1 <;> rcases h2 with h2 | h2
    · rw [← h2] at h1
      injection h1
    · have := hs.1 _ h2
      rw [← h1] at this
      simp at this
    · have := hs.1 _ h1
      rw [← h2] at this
      simp at this
    · exact ih hs.2 h1 h2

/-- Filtering entries, in terms of the map. -/
theorem rel_filter {m : Reservations} {l : List Entry} {t t' : PollTree} (h : Rel m l t) (p : Entry → Bool)
    (m' : Reservations) (hm : ∀ u, m' u = match m u with
      | some v => if p (u, v) then some v else none
      | none => none) (ht : t'.toList = (l.filter p).map conc) : Rel m' (l.filter p) t' := by
  refine ⟨h.sorted.filter _, ?_, ht⟩
  intro u v
  rw [hm, List.mem_filter, ← h.mem]
  constructor
  · intro hx
    split at hx
    · rename_i w hw
      split at hx
      · cases hx
        exact ⟨hw, by assumption⟩
      · cases hx
    · cases hx
  · rintro ⟨h1, h2⟩
    rw [h1]
    simp [h2]

theorem erase_spec : ∀ (l : List Entry) (t : Nat) (v : PollReason × PollOwner), l.Pairwise (fun a b => a.1 < b.1) →
    NearL t l → (t, v) ∈ l → (l.map conc).erase (conc (t, v)) = (l.filter fun e => decide (e.1 ≠ t)).map conc := by
  intro l
  induction l with
  | nil => intro t v _ _ h; cases h
  | cons e l ih =>
    intro t v hs hn hv
    rw [List.pairwise_cons] at hs
    have hne := hn e (by simp)
    simp only [List.map_cons]
    by_cases h : e.1 = t
    · have he : e = (t, v) := by
        simp only [List.mem_cons] at hv
        rcases hv with hv | hv
        · exact hv.symm
        · have := hs.1 _ hv
          simp only at this
          omega
      rw [he, List.erase_cons_head, List.filter_cons_of_neg (by simp)]
      congr 1
      symm
      rw [List.filter_eq_self]
      intro x hx
      have := hs.1 x hx
      simp
      omega
    · have hc : conc e ≠ conc (t, v) := by
        intro hx
        have hf : e.1 % hyperframe = t % hyperframe := congrArg PollNode.fn hx
        rcases Nat.lt_trichotomy e.1 t with hl | hl | hl
        · have := fncmp_lt hl (by omega)
          rw [hf, fncmp_self] at this
          cases this
        · exact h hl
        · have := fncmp_gt hl (by omega)
          rw [hf, fncmp_self] at this
          cases this
      have hv' : (t, v) ∈ l := by
        simp only [List.mem_cons] at hv
        rcases hv with hv | hv
        · exact absurd (by rw [← hv]) h
        · exact hv
      rw [List.erase_cons_tail (by simpa using hc), ih t v hs.2 (fun y hy => hn y (by simp [hy])) hv',
        List.filter_cons_of_pos (by simpa using h)]
      rfl

/-- One step of the code is one step of the ideal. -/
theorem poll_step {m : Reservations} {l : List Entry} {t t' : PollTree} {op : TimedOp} {out : PollOut} (h : Rel m l t)
    (hn : Near m op) (hs : PollStep t op.op out t') : out = (m.step op).1 ∧ ∃ l', Rel (m.step op).2 l' t' := by
  have near : ∀ u, op.time? = some u → NearL u l := by
    intro u hu e he
    have := hn u e.1 hu (by rw [(h.mem e.1 e.2).2 he]; nofun)
    exact this
  cases op with
  | reserve u r o =>
    have hsp := addNode_spec u (r, o) t l h.tree h.sorted (near u rfl)
    cases hm : m u with
    | some v =>
      have hne := hsp.1 ⟨v, (h.mem u v).1 hm⟩
      simp only [Reservations.step, hm]
      cases hs with
      | reserve h1 h2 =>
        have h1' : t.addNode (conc (u, r, o)) = _ := h1
        rw [hne] at h1'
        cases h1'
      | «exists» h1 => exact ⟨rfl, l, h⟩
    | none =>
      obtain ⟨tr', l1, l2, e1, rfl, e3, e4, e5⟩ := hsp.2 fun w hw => by
        rw [← h.mem, hm] at hw
        cases hw
      simp only [Reservations.step, hm]
      cases hs with
      | reserve h1 h2 =>
        have h1' : t.addNode (conc (u, r, o)) = _ := h1
        rw [e1] at h1'
        cases h1'
        refine ⟨rfl, l1 ++ (u, r, o) :: l2, ⟨?_, ?_, by rw [h2, e3]⟩⟩
        · have hs' := h.sorted
          rw [List.pairwise_append] at hs' ⊢
          refine ⟨hs'.1, List.pairwise_cons.2 ⟨e5, hs'.2.1⟩, ?_⟩
          intro a ha b hb
          simp only [List.mem_cons] at hb
          rcases hb with rfl | hb
          · exact e4 a ha
          · exact hs'.2.2 a ha b hb
        · intro w v
          by_cases hw : w = u
          · subst hw
            rw [if_pos rfl]
            constructor
            · intro hx
              cases hx
              simp
            · intro hx
              simp only [List.mem_append, List.mem_cons] at hx
              rcases hx with hx | hx | hx
              · have := e4 _ hx
                simp at this
              · injection hx with _ hx
                rw [hx]
              · have := e5 _ hx
                simp at this
          · rw [if_neg hw, h.mem]
            simp only [List.mem_append, List.mem_cons]
            constructor
            · rintro (hx | hx)
              · exact Or.inl hx
              · exact Or.inr (Or.inr hx)
            · rintro (hx | hx | hx)
              · exact Or.inl hx
              · injection hx with hx _
                exact absurd hx hw
              · exact Or.inr hx
      | «exists» h1 =>
        have h1' : t.addNode (conc (u, r, o)) = _ := h1
        rw [e1] at h1'
        cases h1'
  | poll u =>
    have hsp := getNode_spec u t l h.tree h.sorted (near u rfl)
    cases hm : m u with
    | some v =>
      have hg := hsp.1 v ((h.mem u v).1 hm)
      simp only [Reservations.step, hm]
      cases hs with
      | poll h1 h2 =>
        have h1' : t.getNode (u % hyperframe) = _ := h1
        rw [hg] at h1'
        cases h1'
        refine ⟨rfl, _, rel_filter h (fun e => decide (e.1 ≠ u)) _ ?_ ?_⟩
        · intro w
          by_cases hw : w = u
          · subst hw
            simp [hm]
          · simp only [if_neg hw]
            split
            · rename_i v' hv'
              simp [hv', hw]
            · assumption
        · rw [h2, h.tree, erase_spec l u v h.sorted (near u rfl) ((h.mem u v).1 hm)]
      | noPoll h1 =>
        have h1' : t.getNode (u % hyperframe) = _ := h1
        rw [hg] at h1'
        cases h1'
    | none =>
      have hg := hsp.2 fun w hw => by
        rw [← h.mem, hm] at hw
        cases hw
      simp only [Reservations.step, hm]
      cases hs with
      | poll h1 h2 =>
        have h1' : t.getNode (u % hyperframe) = _ := h1
        rw [hg] at h1'
        cases h1'
      | noPoll h1 => exact ⟨rfl, l, h⟩
  | expire u =>
    cases hs with
    | expire h1 =>
      refine ⟨rfl, _, rel_filter h (fun e => decide (u < e.1)) _ ?_ ?_⟩
      · intro w
        simp only [Reservations.step]
        split
        · rename_i hw
          split
          · rw [if_neg (by simpa using hw)]
          · rfl
        · rename_i hw
          split
          · rename_i v hv
            rw [if_pos (by simpa using hw), hv]
          · assumption
      · rw [h1, h.tree, expireLoop_spec u l h.sorted (near u rfl)]
  | freeTbf n =>
    cases hs with
    | freeTbf h1 =>
      refine ⟨rfl, _, rel_filter h (fun e => decide (e.2.2 ≠ .tbf n)) _ ?_ ?_⟩
      · intro w
        simp only [Reservations.step]
        cases hm : m w with
        | none => simp
        | some v => by_cases hv : v.2 = .tbf n <;> simp [hv]
      · rw [h1, h.tree, release_spec]
  | freeEntity g tbfs =>
    cases hs with
    | freeEntity h1 =>
      refine ⟨rfl, _, rel_filter h (fun e => decide (¬ ∃ n ∈ tbfs, e.2.2 = .tbf n)) _ ?_ ?_⟩
      · intro w
        simp only [Reservations.step]
        cases hm : m w with
        | none => simp
        | some v => by_cases hv : ∃ n ∈ tbfs, v.2 = .tbf n <;> simp [hv]
      · rw [h1, h.tree]
        clear h h1 hn near
        induction tbfs generalizing l with
        | nil =>
          simp only [List.foldl_nil]
          rw [List.filter_eq_self.2 (by simp)]
        | cons n tbfs ih =>
          simp only [List.foldl_cons]
          rw [release_spec, ih, List.filter_filter]
          congr 2
          funext e
          by_cases h1 : e.2.2 = .tbf n <;> simp [h1]

/-- **C32**: for every history of reservations, polls, expiries and freed TBFs during which no reservation in force is
a quarter of a hyperframe away from what is being done, whatever shape the trees have: the code behaves as the ideal.
So a second reservation for the same time is refused, a poll finds exactly the reservation of its time, expiry
removes exactly those not in the future and freeing a TBF exactly its own. -/
theorem c32_polls (ops : List TimedOp) (outs : List PollOut) (t : PollTree)
    (hn : AlwaysNear Reservations.none ops) (hr : PollRun .leaf (ops.map TimedOp.op) outs t) :
    outs = (Reservations.none.run ops).1 ∧
    ∀ x, x ∈ t.toList ↔ ∃ u r o, (Reservations.none.run ops).2 u = some (r, o) ∧ x = ⟨u % hyperframe, r, o⟩ := by
  have h0 : Rel Reservations.none [] .leaf := ⟨List.Pairwise.nil, fun u v => by simp [Reservations.none], rfl⟩
  generalize PollTree.leaf = t0 at hr h0
  generalize Reservations.none = m at hn h0 ⊢
  generalize ([] : List Entry) = l at h0
  induction ops generalizing m t0 l outs with
  | nil =>
    cases hr
    refine ⟨rfl, fun x => ?_⟩
    rw [h0.tree, List.mem_map]
    constructor
    · rintro ⟨e, he, rfl⟩
      exact ⟨e.1, e.2.1, e.2.2, (h0.mem _ _).2 he, rfl⟩
    · rintro ⟨u, r, o, hu, rfl⟩
      exact ⟨(u, r, o), (h0.mem _ _).1 hu, rfl⟩
  | cons op ops ih =>
    cases hr with
    | cons h1 h2 =>
      obtain ⟨e, l', hrel⟩ := poll_step h0 hn.1 h1
      obtain ⟨e2, e3⟩ := ih _ _ h2 _ hn.2 l' hrel
      exact ⟨by rw [e, e2]; rfl, e3⟩

/-- **C32**, no operation gets stuck: every step has an outcome. -/
theorem c32_total (t : PollTree) (op : PollOp) : ∃ out t', PollStep t op out t' := by
  have build : ∀ l : List PollNode, ∃ t : PollTree, t.toList = l := by
    intro l
    induction l with
    | nil => exact ⟨.leaf, rfl⟩
    | cons x l ih =>
      obtain ⟨t, ht⟩ := ih
      exact ⟨.node .leaf x t, by simp [PollTree.toList, ht]⟩
  cases op with
  | reserve fn r o =>
    cases h : t.addNode ⟨fn, r, o⟩ with
    | none => exact ⟨_, _, .exists h⟩
    | some t1 => exact ⟨_, _, .reserve h rfl⟩
  | poll fn =>
    cases h : t.getNode fn with
    | none => exact ⟨_, _, .noPoll h⟩
    | some x =>
      obtain ⟨t', ht⟩ := build (t.toList.erase x)
      exact ⟨_, _, .poll h ht⟩
  | expire fn =>
    obtain ⟨t', ht⟩ := build (expireLoop fn t.toList)
    exact ⟨_, _, .expire ht⟩
  | freeTbf n =>
    obtain ⟨t', ht⟩ := build (releaseLoop (.tbf n) t.toList.length t.toList)
    exact ⟨_, _, .freeTbf ht⟩
  | freeEntity g tbfs =>
    obtain ⟨t', ht⟩ := build (tbfs.foldl (fun l n => releaseLoop (.tbf n) l.length l) t.toList)
    exact ⟨_, _, .freeEntity ht⟩

/-- **C32**, owners, full statement: after a TBF or an entity has been freed no poll names it. -/
def C32OwnerStatement : Prop :=
  ∀ (t t' : PollTree) (op : PollOp) (out : PollOut), PollStep t op out t' →
    (∀ n, op = .freeTbf n → ∀ x ∈ t'.toList, x.owner ≠ .tbf n) ∧
    (∀ g tbfs, op = .freeEntity g tbfs → ∀ x ∈ t'.toList, x.owner ≠ .gre g ∧ ∀ n ∈ tbfs, x.owner ≠ .tbf n)

/-- **C32**, owners, proved part: after a TBF, or an entity with its TBFs, has been freed, no poll names the TBF.
Missing: polls that name the entity itself, for which the statement is false. -/
theorem c32_owner_partial (t t' : PollTree) (op : PollOp) (out : PollOut) (h : PollStep t op out t') :
    (∀ n, op = .freeTbf n → ∀ x ∈ t'.toList, x.owner ≠ .tbf n) ∧
    (∀ g tbfs, op = .freeEntity g tbfs → ∀ x ∈ t'.toList, ∀ n ∈ tbfs, x.owner ≠ .tbf n) := by
  have hf : ∀ (tbfs : List Nat) (l : List PollNode), ∀ x ∈ tbfs.foldl (fun l n => releaseLoop (.tbf n) l.length l) l,
      x ∈ l ∧ ∀ n ∈ tbfs, x.owner ≠ .tbf n := by
    intro tbfs
    induction tbfs with
    | nil => intro l x hx; exact ⟨hx, fun n hn => by cases hn⟩
    | cons k tbfs ih =>
      intro l x hx
      obtain ⟨a, b⟩ := ih _ x hx
      simp only at a
      rw [releaseLoop_eq _ _ _ (Nat.le_refl _), List.mem_filter] at a
      refine ⟨a.1, fun n hn => ?_⟩
      simp only [List.mem_cons] at hn
      rcases hn with rfl | hn
      · simpa using a.2
      · exact b n hn
  constructor
  · rintro n rfl x hx
    cases h with
    | freeTbf h1 =>
      rw [h1, releaseLoop_eq _ _ _ (Nat.le_refl _), List.mem_filter] at hx
      simpa using hx.2
  · rintro g tbfs rfl x hx
    cases h with
    | freeEntity h1 =>
      rw [h1] at hx
      exact (hf tbfs _ x hx).2

/-- The statement about owners is false of the code: a downlink assignment with a poll, then the entity is freed; the
scheduler still finds the poll and uses the entity. -/
theorem c32_owner_violated : ¬ C32OwnerStatement ∧
    PollRun .leaf [.reserve 13 .dlAss (.gre 1), .freeEntity 1 [], .poll 13] [.reserved, .nothing, .found .dlAss (.gre 1)]
      .leaf := by
  have h1 : PollStep .leaf (.reserve 13 .dlAss (.gre 1)) .reserved (.node .leaf ⟨13, .dlAss, .gre 1⟩ .leaf) :=
    .reserve rfl rfl
  have h2 : PollStep (.node .leaf ⟨13, .dlAss, .gre 1⟩ .leaf) (.freeEntity 1 []) .nothing
      (.node .leaf ⟨13, .dlAss, .gre 1⟩ .leaf) := .freeEntity rfl
  have h3 : PollStep (.node .leaf ⟨13, .dlAss, .gre 1⟩ .leaf) (.poll 13) (.found .dlAss (.gre 1)) .leaf :=
    .poll (x := ⟨13, .dlAss, .gre 1⟩) (by decide +kernel) (by decide +kernel)
  exact ⟨fun h => ((h _ _ _ _ h2).2 1 [] rfl ⟨13, .dlAss, .gre 1⟩ (by decide +kernel)).1 rfl,
    .cons h1 (.cons h2 (.cons h3 .nil))⟩

/-- The hypothesis of the theorem holds of every history about times within a quarter of a hyperframe. -/
theorem alwaysNear_of_window (a : Nat) (ops : List TimedOp) (m : Reservations)
    (hm : ∀ u, m u ≠ none → a ≤ u ∧ u < a + 678912)
    (ho : ∀ op ∈ ops, ∀ t, op.time? = some t → a ≤ t ∧ t < a + 678912) : AlwaysNear m ops := by
  induction ops generalizing m with
  | nil => trivial
  | cons op ops ih =>
    have hop := ho op (by simp)
    refine ⟨fun t u ht hu => ?_, ih _ (fun u hu => ?_) fun o h => ho o (by simp [h])⟩
    · have h1 := hop t ht
      have h2 := hm u hu
      omega
    · cases op with
      | reserve t r o =>
        simp only [Reservations.step] at hu
        split at hu
        · exact hm u hu
        · by_cases h : u = t
          · exact h ▸ hop t rfl
          · simp only [if_neg h] at hu
            exact hm u hu
      | poll t =>
        simp only [Reservations.step] at hu
        split at hu
        · by_cases h : u = t
          · simp [h] at hu
          · simp only [if_neg h] at hu
            exact hm u hu
        · exact hm u hu
      | expire t =>
        simp only [Reservations.step] at hu
        split at hu
        · exact absurd rfl hu
        · exact hm u hu
      | freeTbf n =>
        simp only [Reservations.step] at hu
        split at hu
        · exact absurd rfl hu
        · exact hm u hu
      | freeEntity g l =>
        simp only [Reservations.step] at hu
        split at hu
        · exact absurd rfl hu
        · exact hm u hu

/-- Not vacuous: two polls, one across the end of the hyperframe; the first is refused a second time, the second is
found although a TBF was freed and the time before expired. -/
example : let ops : List TimedOp := [.reserve 2715600 .dlAck (.tbf 1), .reserve 2715600 .ulAck (.tbf 2),
      .reserve 2715661 .ulAck (.tbf 2), .freeTbf 1, .poll 2715600, .expire 2715600, .poll 2715661]
    AlwaysNear Reservations.none ops ∧ (Reservations.none.run ops).1 =
      [.reserved, .eexist, .reserved, .nothing, .nothing, .nothing, .found .ulAck (.tbf 2)] := by
  refine ⟨alwaysNear_of_window 2715600 _ _ (fun u hu => absurd rfl hu) ?_, by decide +kernel⟩
  simp [TimedOp.time?]

end Verif.Props
