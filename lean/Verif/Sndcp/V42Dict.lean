import Verif.Sndcp.V42Bits
import Mathlib.Data.Finset.Card
import Mathlib.Data.Finset.Range

/-!
# V.42bis: the dictionary stays a tree
-/
namespace Verif.V42

/-- The list of children that begins at `e`. -/
inductive Chain (D : Dict) : Nat → List Nat → Prop
  | nil : Chain D 0 []
  | cons {e : Nat} {l : List Nat} : e ≠ 0 → Chain D (D e).next l → Chain D e (e :: l)

theorem Chain.congr {D D' : Dict} {h : Nat} {l : List Nat} (c : Chain D h l) (hn : ∀ e ∈ l, (D' e).next = (D e).next) :
    Chain D' h l := by
  induction c with
  | nil => exact .nil
  | cons h0 _ ih =>
    refine .cons h0 ?_
    rw [hn _ List.mem_cons_self]
    exact ih fun e he => hn e (List.mem_cons_of_mem _ he)

theorem Chain.zero {D : Dict} {l : List Nat} (c : Chain D 0 l) : l = [] := by
  cases c with
  | nil => rfl
  | cons h _ => exact absurd rfl h

theorem Chain.inv {D : Dict} {l : List Nat} {h e : Nat} (c : Chain D h (e :: l)) :
    h = e ∧ e ≠ 0 ∧ Chain D (D e).next l := by
  cases c with
  | cons h0 c => exact ⟨rfl, h0, c⟩

theorem Chain.tail {D : Dict} {l1 l2 : List Nat} {h y : Nat} (c : Chain D h (l1 ++ y :: l2)) :
    Chain D (D y).next l2 := by
  induction l1 generalizing h with
  | nil => cases c; assumption
  | cons a l1 ih => cases c with | cons _ c => exact ih c

/-- The dictionary with all entries but the free ones in the list `K p` of their parent `p`. -/
structure DFull (D : Dict) (n2 : Nat) (K : Nat → List Nat) (ex : Nat → Prop) : Prop where
  lo : 260 ≤ n2
  hi : n2 ≤ 4096
  root : ∀ i, 3 ≤ i → i < 259 → (D i).parent = 0 ∧ (D i).octet = UInt8.ofNat (i - 3)
  above : ∀ e, n2 ≤ e → e < 4096 → (D e).parent = 0
  chain : ∀ p, 3 ≤ p → p < 4096 → Chain D (D p).child (K p)
  nodup : ∀ p, 3 ≤ p → p < 4096 → (K p).Nodup
  mem : ∀ p, 3 ≤ p → p < 4096 → ∀ e ∈ K p, 259 ≤ e ∧ e < n2 ∧ ¬ ex e ∧ (D e).parent = p
  cover : ∀ f, 259 ≤ f → f < n2 → ¬ ex f → (D f).parent = 0 ∨
    (3 ≤ (D f).parent ∧ (D f).parent < 4096 ∧ f ∈ K (D f).parent)

/-- The dictionary between two additions: `c1` is the entry used next. -/
structure DWF (D : Dict) (c1 n2 : Nat) : Prop where
  c1lo : 259 ≤ c1
  c1hi : c1 < n2
  leaf : (D c1).child = 0
  full : ∃ K, DFull D n2 K (· = c1)

theorem DWF.hi {D : Dict} {c1 n2 : Nat} (w : DWF D c1 n2) : n2 ≤ 4096 := by
  obtain ⟨K, f⟩ := w.full; exact f.hi

theorem nodup_length {l : List Nat} (h : l.Nodup) {n : Nat} (hl : ∀ e ∈ l, e < n) : l.length ≤ n := by
  rw [← List.toFinset_card_of_nodup h]
  calc l.toFinset.card ≤ (Finset.range n).card := Finset.card_le_card fun e he => by
        rw [Finset.mem_range]; exact hl e (List.mem_toFinset.mp he)
    _ = n := Finset.card_range n

theorem matchWalk_ok {D : Dict} (o : UInt8) {h : Nat} {l : List Nat} (c : Chain D h l) (hl : ∀ e ∈ l, e < 4096) {n : Nat}
    (hn : l.length < n) :
    ∃ r, matchWalk D o n h = .ok r ∧ (r = 0 ∨ (r ∈ l ∧ (D r).octet = o ∧ r ≠ 0)) := by
  induction c generalizing n with
  | nil =>
    obtain ⟨n, rfl⟩ : ∃ k, n = k + 1 := ⟨n - 1, by simp at hn; omega⟩
    exact ⟨0, by rw [matchWalk, if_pos rfl], .inl rfl⟩
  | @cons e l h0 c ih =>
    rw [List.length_cons] at hn
    obtain ⟨n, rfl⟩ : ∃ k, n = k + 1 := ⟨n - 1, by omega⟩
    rw [matchWalk, if_neg h0, if_neg (by have := hl e List.mem_cons_self; omega)]
    split
    · exact ⟨e, rfl, .inr ⟨List.mem_cons_self, by assumption, h0⟩⟩
    · obtain ⟨r, hr, h⟩ := ih (fun e he => hl e (List.mem_cons_of_mem _ he)) (n := n) (by omega)
      refine ⟨r, hr, ?_⟩
      rcases h with h | ⟨h1, h2, h3⟩
      · exact .inl h
      · exact .inr ⟨List.mem_cons_of_mem _ h1, h2, h3⟩

/-- A match below an entry. -/
theorem match_ok {D : Dict} {c1 n2 : Nat} (w : DWF D c1 n2) {p : Nat} (hp : 3 ≤ p) (hp' : p < 4096) (o : UInt8) :
    ∃ r, matchOctet D p o = .ok r ∧ (r = 0 ∨ (259 ≤ r ∧ r < n2 ∧ r ≠ c1 ∧ (D r).parent = p ∧ (D r).octet = o)) := by
  obtain ⟨K, f⟩ := w.full
  have := f.hi
  rw [matchOctet, if_neg (by omega), if_neg (by omega)]
  have hl : ∀ e ∈ K p, e < 4096 := fun e he => by have := f.mem p hp hp' e he; omega
  obtain ⟨r, hr, h⟩ := matchWalk_ok o (f.chain p hp hp') hl (n := 4097)
    (by have := nodup_length (f.nodup p hp hp') hl; omega)
  refine ⟨r, hr, ?_⟩
  rcases h with h | ⟨h1, h2, -⟩
  · exact .inl h
  · have := f.mem p hp hp' r h1
    exact .inr ⟨this.1, this.2.1, this.2.2.1, this.2.2.2, h2⟩

theorem match_root (D : Dict) (o : UInt8) : matchOctet D 0 o = .ok (o.toNat + 3) := by rw [matchOctet, if_pos rfl]

/-- The way around from `cur` to `x`. -/
private def dist (x n2 cur : Nat) : Nat := if cur < x then x - cur else (n2 - cur) + (x - 259)

theorem findFree_ok {D : Dict} {n2 x : Nat} (hx : 259 ≤ x) (hx' : x < n2) (hn : n2 ≤ 4096) (hc : (D x).child = 0) {n cur : Nat}
    (h1 : 259 ≤ cur) (h2 : cur < n2) (hf : dist x n2 cur ≤ n) :
    ∃ y, findFree D n2 n cur = .ok y ∧ 259 ≤ y ∧ y < n2 ∧ (D y).child = 0 := by
  induction n generalizing cur with
  | zero => unfold dist at hf; split at hf <;> omega
  | succ n ih =>
    rw [findFree]
    have hb : 259 ≤ (if cur + 1 = n2 then 259 else cur + 1) ∧ (if cur + 1 = n2 then 259 else cur + 1) < n2 := by
      split <;> omega
    rw [if_neg (by omega)]
    by_cases h0 : (D (if cur + 1 = n2 then 259 else cur + 1)).child = 0
    · rw [if_pos h0]; exact ⟨_, rfl, hb.1, hb.2, h0⟩
    · rw [if_neg h0]
      refine ih hb.1 hb.2 ?_
      have hne : (if cur + 1 = n2 then 259 else cur + 1) ≠ x := fun e => h0 (by rw [e]; exact hc)
      generalize hg : (if cur + 1 = n2 then 259 else cur + 1) = c at hne hb
      unfold dist at hf ⊢
      split at hg <;> split at hf <;> split <;> omega

theorem findPrev_ok {D : Dict} {y : Nat} {l2 : List Nat} : ∀ (l1 : List Nat) (h n : Nat), Chain D h (l1 ++ y :: l2) → l1 ≠ [] →
    (∀ e ∈ l1, e < 4096 ∧ e ≠ y) → l1.length ≤ n → ∃ e l0, findPrev D y n h = .ok e ∧ l1 = l0 ++ [e]
  | [], _, _, _, h, _, _ => absurd rfl h
  | [a], h, n, c, _, hl, hn => by
    obtain ⟨n, rfl⟩ : ∃ k, n = k + 1 := ⟨n - 1, by simp at hn; omega⟩
    obtain ⟨rfl, -, c⟩ := c.inv
    refine ⟨h, [], ?_, rfl⟩
    rw [findPrev, if_neg (by have := (hl h List.mem_cons_self).1; omega), if_pos c.inv.1]
  | a :: b :: l1, h, n, c, _, hl, hn => by
    obtain ⟨n, rfl⟩ : ∃ k, n = k + 1 := ⟨n - 1, by simp at hn; omega⟩
    obtain ⟨rfl, -, c⟩ := c.inv
    obtain ⟨e, l0, h1, h2⟩ := findPrev_ok (b :: l1) _ n c (by simp) (fun e he => hl e (List.mem_cons_of_mem _ he))
      (by simp at hn ⊢; omega)
    refine ⟨e, h :: l0, ?_, by rw [h2]; rfl⟩
    rw [findPrev, if_neg (by have := (hl h List.mem_cons_self).1; omega), if_neg ?_, h1]
    intro hy
    exact (hl b (by simp)).2 (c.inv.1 ▸ hy)

@[simp] theorem Dict.set_same (D : Dict) (i : Nat) (n : Node) : (D.set i n) i = n := if_pos rfl
theorem Dict.set_ne (D : Dict) {i j : Nat} (n : Node) (h : j ≠ i) : (D.set i n) j = D j := if_neg h

theorem Chain.cut {D D' : Dict} {e y : Nat} {l2 : List Nat} (hD : D' = D.set e { D e with next := (D y).next }) :
    ∀ (l0 : List Nat) (h : Nat), Chain D h (l0 ++ [e] ++ y :: l2) → (l0 ++ [e] ++ y :: l2).Nodup → Chain D' h (l0 ++ [e] ++ l2)
  | [], h, c, hn => by
    cases c with
    | cons h0 c =>
      refine .cons h0 ?_
      rw [hD, Dict.set_same]
      dsimp only
      have c2 : Chain D (D y).next l2 := c.inv.2.2
      refine c2.congr fun x hx => ?_
      rw [Dict.set_ne]
      rintro rfl
      simp only [List.nil_append, List.cons_append, List.nodup_cons] at hn
      exact hn.1 (List.mem_cons_of_mem _ hx)
  | a :: l0, h, c, hn => by
    cases c with
    | cons h0 c =>
      refine .cons h0 ?_
      have hne : a ≠ e := by
        rintro rfl
        simp only [List.cons_append, List.nodup_cons] at hn
        exact hn.1 (by simp)
      rw [hD, Dict.set_ne _ _ hne, ← hD]
      refine Chain.cut hD l0 _ c ?_
      simp only [List.cons_append, List.nodup_cons] at hn
      exact hn.2

/-- The new entry is put first in the list of its parent. -/
theorem link_full {D : Dict} {x n2 p : Nat} {K : Nat → List Nat} (f : DFull D n2 K (· = x)) (hx : 259 ≤ x) (hx' : x < n2)
    (hc : (D x).child = 0) (hp : 3 ≤ p) (hp' : p < 4096) (hne : p ≠ x) (o : UInt8) :
    DFull (link D x p o) n2 (fun q => if q = p then x :: K p else K q) (fun _ => False) ∧ ((link D x p o) x).child = 0 ∧
    ((link D x p o) x).parent = p ∧ ((link D x p o) x).octet = o ∧
    ∀ e, e ≠ x → ((link D x p o) e).parent = (D e).parent ∧ ((link D x p o) e).octet = (D e).octet := by
  have hxv : (link D x p o) x = ⟨o, p, 0, (D p).child⟩ := by
    unfold link; rw [Dict.set_ne _ _ (Ne.symm hne), Dict.set_same]
  have hpv : (link D x p o) p = { D p with child := x } := by
    unfold link; rw [Dict.set_same, Dict.set_ne _ _ hne]
  have hov : ∀ e, e ≠ x → e ≠ p → (link D x p o) e = D e := fun e h1 h2 => by
    unfold link; rw [Dict.set_ne _ _ h2, Dict.set_ne _ _ h1]
  have hpo : ∀ e, e ≠ x → ((link D x p o) e).parent = (D e).parent ∧ ((link D x p o) e).octet = (D e).octet ∧
      ((link D x p o) e).next = (D e).next := fun e h1 => by
    by_cases h2 : e = p
    · subst h2; rw [hpv]; exact ⟨rfl, rfl, rfl⟩
    · rw [hov e h1 h2]; exact ⟨rfl, rfl, rfl⟩
  have hKx : ∀ q, 3 ≤ q → q < 4096 → x ∉ K q := fun q h1 h2 h => (f.mem q h1 h2 x h).2.2.1 rfl
  refine ⟨⟨f.lo, f.hi, ?_, fun e h1 h2 => by rw [(hpo e (by omega)).1]; exact f.above e h1 h2, ?_, ?_, ?_, ?_⟩, by rw [hxv], by rw [hxv], by rw [hxv], fun e h => ⟨(hpo e h).1, (hpo e h).2.1⟩⟩
  · intro i h1 h2
    have := hpo i (by omega)
    rw [this.1, this.2.1]
    exact f.root i h1 h2
  · intro q h1 h2
    have hch : ∀ q, 3 ≤ q → q < 4096 → Chain (link D x p o) (D q).child (K q) := fun q h1 h2 =>
      (f.chain q h1 h2).congr fun e he => (hpo e (fun h => hKx q h1 h2 (h ▸ he))).2.2
    by_cases hq : q = p
    · subst hq
      rw [if_pos rfl, hpv]
      refine .cons (Nat.ne_of_gt (Nat.lt_of_lt_of_le (by decide) hx)) ?_
      rw [hxv]
      exact hch q h1 h2
    · rw [if_neg hq]
      by_cases hqx : q = x
      · subst hqx
        rw [hxv]
        have := f.chain q h1 h2
        rw [hc] at this
        rw [this.zero]
        exact .nil
      · rw [hov q hqx hq]
        exact hch q h1 h2
  · intro q h1 h2
    split
    · exact List.nodup_cons.mpr ⟨hKx p hp hp', f.nodup p hp hp'⟩
    · exact f.nodup q h1 h2
  · intro q h1 h2 e he
    have hold : ∀ q, 3 ≤ q → q < 4096 → e ∈ K q → 259 ≤ e ∧ e < n2 ∧ ¬ False ∧ ((link D x p o) e).parent = q :=
      fun q h1 h2 h => by
        have := f.mem q h1 h2 e h
        refine ⟨this.1, this.2.1, not_false, ?_⟩
        rw [(hpo e this.2.2.1).1]
        exact this.2.2.2
    split at he
    · rename_i hq
      subst hq
      rcases List.mem_cons.mp he with rfl | he
      · exact ⟨hx, hx', not_false, by rw [hxv]⟩
      · exact hold q h1 h2 he
    · exact hold q h1 h2 he
  · intro g h1 h2 _
    by_cases hg : g = x
    · subst hg
      rw [hxv]
      exact .inr ⟨hp, hp', by dsimp only; rw [if_pos rfl]; exact List.mem_cons_self⟩
    · rw [(hpo g hg).1]
      rcases f.cover g h1 h2 hg with h | ⟨h3, h4, h5⟩
      · exact .inl h
      · refine .inr ⟨h3, h4, ?_⟩
        split
        · rename_i hq; rw [hq] at h5; exact List.mem_cons_of_mem _ h5
        · exact h5

/-- A leaf is taken from the list of its parent. -/
theorem detach_ok {D : Dict} {n2 y : Nat} {K : Nat → List Nat} (f : DFull D n2 K (fun _ => False)) (hy : 259 ≤ y)
    (hy' : y < n2) (hc : (D y).child = 0) :
    ∃ D', detach D y = .ok D' ∧ DWF D' y n2 ∧ ∀ e, (D' e).parent = (D e).parent ∧ (D' e).octet = (D e).octet := by
  have hi := f.hi
  unfold detach
  by_cases h0 : (D y).parent = 0
  · rw [if_pos h0]
    refine ⟨D, rfl, ⟨hy, hy', hc, K, f.lo, f.hi, f.root, f.above, f.chain, f.nodup, ?_, ?_⟩, fun _ => ⟨rfl, rfl⟩⟩
    · intro p h1 h2 e he
      have := f.mem p h1 h2 e he
      refine ⟨this.1, this.2.1, ?_, this.2.2.2⟩
      rintro rfl
      omega
    · intro g h1 h2 _
      exact f.cover g h1 h2 not_false
  · rw [if_neg h0]
    obtain ⟨h3, h4, hm⟩ : 3 ≤ (D y).parent ∧ (D y).parent < 4096 ∧ y ∈ K (D y).parent := by
      rcases f.cover y hy hy' not_false with h | h
      · exact absurd h h0
      · exact h
    rw [if_neg (by omega)]
    generalize hq : (D y).parent = q at h0 h3 h4 hm
    have hqy : y ≠ q := by
      rintro rfl
      have h := f.chain y h3 h4
      rw [hc] at h
      rw [h.zero] at hm
      cases hm
    obtain ⟨l1, l2, hK⟩ := List.append_of_mem hm
    have hnd := f.nodup q h3 h4
    rw [hK] at hnd
    have hch := f.chain q h3 h4
    rw [hK] at hch
    have hlt : ∀ e ∈ l1, e < 4096 ∧ e ≠ y := fun e he => by
      have := f.mem q h3 h4 e (by rw [hK]; simp [he])
      refine ⟨by omega, ?_⟩
      rintro rfl
      rw [List.nodup_append] at hnd
      exact hnd.2.2 e he e List.mem_cons_self rfl
    have hy2 : y ∉ l1 ++ l2 := by
      intro h
      rw [List.nodup_append] at hnd
      rcases List.mem_append.mp h with h | h
      · exact hnd.2.2 y h y List.mem_cons_self rfl
      · exact (List.nodup_cons.mp hnd.2.1).1 h
    have hsub : ∀ e, e ∈ l1 ++ l2 → e ∈ K q := fun e he => by
      rw [hK]
      rcases List.mem_append.mp he with h | h
      · simp [h]
      · simp [h]
    have hnd2 : (l1 ++ l2).Nodup := by
      rw [List.nodup_append] at hnd ⊢
      refine ⟨hnd.1, (List.nodup_cons.mp hnd.2.1).2, fun a ha b hb => hnd.2.2 a ha b (List.mem_cons_of_mem _ hb)⟩
    -- what is left to show once the new dictionary is known
    have fin : ∀ D' : Dict, (∀ e, (D' e).parent = (D e).parent ∧ (D' e).octet = (D e).octet) → (D' y).child = 0 →
        Chain D' (D' q).child (l1 ++ l2) → (∀ p, 3 ≤ p → p < 4096 → p ≠ q → Chain D' (D' p).child (K p)) → DWF D' y n2 := by
      intro D' hpo hcy hcq hco
      refine ⟨hy, hy', hcy, fun p => if p = q then l1 ++ l2 else K p, f.lo, f.hi, ?_, fun e h1 h2 => by rw [(hpo e).1]; exact f.above e h1 h2, ?_, ?_, ?_, ?_⟩
      · intro i h1 h2
        rw [(hpo i).1, (hpo i).2]
        exact f.root i h1 h2
      · intro p h1 h2
        split
        · rename_i h; rw [h]; exact hcq
        · exact hco p h1 h2 (by assumption)
      · intro p h1 h2
        split
        · exact hnd2
        · exact f.nodup p h1 h2
      · intro p h1 h2 e he
        rw [(hpo e).1]
        split at he
        · rename_i h
          subst h
          have := f.mem p h1 h2 e (hsub e he)
          refine ⟨this.1, this.2.1, ?_, this.2.2.2⟩
          rintro rfl
          exact hy2 he
        · have := f.mem p h1 h2 e he
          refine ⟨this.1, this.2.1, ?_, this.2.2.2⟩
          rintro rfl
          omega
      · intro g h1 h2 hg
        rw [(hpo g).1]
        rcases f.cover g h1 h2 not_false with h | ⟨h5, h6, h7⟩
        · exact .inl h
        · refine .inr ⟨h5, h6, ?_⟩
          split
          · rename_i h
            rw [h, hK] at h7
            simp only [List.mem_append, List.mem_cons] at h7 ⊢
            rcases h7 with h | h | h
            · exact .inl h
            · exact absurd h hg
            · exact .inr h
          · exact h7
    by_cases hcy : (D q).child = y
    · rw [if_pos hcy]
      refine ⟨_, rfl, fin _ ?_ ?_ ?_ ?_, ?_⟩
      case refine_1 | refine_5 =>
        intro e
        by_cases he : e = q
        · subst he; rw [Dict.set_same]; exact ⟨rfl, rfl⟩
        · rw [Dict.set_ne _ _ he]; exact ⟨rfl, rfl⟩
      · rw [Dict.set_ne _ _ hqy]; exact hc
      · rw [Dict.set_same]
        dsimp only
        have hl1 : l1 = [] := by
          cases l1 with
          | nil => rfl
          | cons a l1 =>
            rw [hcy] at hch
            cases hch
            exact absurd rfl (hlt y List.mem_cons_self).2
        subst hl1
        refine hch.tail.congr fun e he => ?_
        by_cases h : e = q
        · subst h; rw [Dict.set_same]
        · rw [Dict.set_ne _ _ h]
      · intro p h1 h2 hpq
        rw [Dict.set_ne _ _ hpq]
        refine (f.chain p h1 h2).congr fun e he => ?_
        by_cases h : e = q
        · subst h; rw [Dict.set_same]
        · rw [Dict.set_ne _ _ h]
    · rw [if_neg hcy]
      have hl1 : l1 ≠ [] := by
        rintro rfl
        generalize (D q).child = h at hch hcy
        cases hch
        exact hcy rfl
      obtain ⟨e, l0, he, hl⟩ := findPrev_ok l1 _ 4097 hch hl1 hlt (by
        have := nodup_length (f.nodup q h3 h4) (n := 4096) (fun e he => by have := f.mem q h3 h4 e he; omega)
        rw [hK] at this
        simp at this
        omega)
      rw [he]
      dsimp only
      have heq : (D e).parent = q := (f.mem q h3 h4 e (by rw [hK, hl]; simp)).2.2.2
      have hey : y ≠ e := fun h => (hlt e (by rw [hl]; simp)).2 h.symm
      refine ⟨_, rfl, fin _ ?_ ?_ ?_ ?_, ?_⟩
      case refine_1 | refine_5 =>
        intro g
        by_cases hg : g = e
        · subst hg; rw [Dict.set_same]; exact ⟨rfl, rfl⟩
        · rw [Dict.set_ne _ _ hg]; exact ⟨rfl, rfl⟩
      · rw [Dict.set_ne _ _ hey]; exact hc
      · have hcq : ((D.set e { D e with next := (D y).next }) q).child = (D q).child := by
          by_cases h : q = e
          · subst h; rw [Dict.set_same]
          · rw [Dict.set_ne _ _ h]
        rw [hcq, hl]
        rw [hl] at hch hnd
        exact Chain.cut rfl l0 _ hch hnd
      · intro p h1 h2 hpq
        have hcq : ((D.set e { D e with next := (D y).next }) p).child = (D p).child := by
          by_cases h : p = e
          · subst h; rw [Dict.set_same]
          · rw [Dict.set_ne _ _ h]
        rw [hcq]
        refine (f.chain p h1 h2).congr fun g hg => ?_
        rw [Dict.set_ne]
        rintro rfl
        have := (f.mem p h1 h2 g hg).2.2.2
        omega

/-- An entry is added. -/
theorem addOctet_ok {s : Vs} (w : DWF s.dict s.c1 s.n2) {p : Nat} (hp : 3 ≤ p) (hp' : p < 4096) (hne : p ≠ s.c1) (o : UInt8) :
    ∃ D' y, s.addOctet p o = .ok ({ s with dict := D', c1 := y }, s.c1) ∧ DWF D' y s.n2 ∧
      (∀ e, e ≠ s.c1 → (D' e).parent = (s.dict e).parent ∧ (D' e).octet = (s.dict e).octet) ∧ (D' s.c1).parent = p := by
  obtain ⟨K, f⟩ := w.full
  have hi := f.hi
  have hlo := w.c1lo
  have hhi := w.c1hi
  obtain ⟨f', hc', hxp, -, hpo⟩ := link_full f w.c1lo w.c1hi w.leaf hp hp' hne o
  obtain ⟨y, hy, y1, y2, y3⟩ := findFree_ok (n := 65536) w.c1lo w.c1hi f.hi hc' w.c1lo w.c1hi (by
    unfold dist; rw [if_neg (by omega)]; omega)
  obtain ⟨D', hD, hw, hpo'⟩ := detach_ok f' y1 y2 y3
  refine ⟨D', y, ?_, hw, fun e he => ?_, by rw [(hpo' _).1]; exact hxp⟩
  · unfold Vs.addOctet
    rw [if_neg (by omega), hy, bind_ok, hD, bind_ok]
  · rw [(hpo' e).1, (hpo' e).2, (hpo e he).1, (hpo e he).2]
    exact ⟨rfl, rfl⟩

/-- The parent of an entry is another entry in use. -/
theorem DWF.parent {D : Dict} {c1 n2 : Nat} (w : DWF D c1 n2) {e : Nat} (h3 : 3 ≤ e) (h4 : e < 4096) (hne : e ≠ c1) :
    (D e).parent = 0 ∨ (3 ≤ (D e).parent ∧ (D e).parent < 4096 ∧ (D e).parent ≠ c1) := by
  obtain ⟨K, f⟩ := w.full
  rcases Nat.lt_or_ge e 259 with h | h
  · exact .inl (f.root e h3 h).1
  · rcases Nat.lt_or_ge e n2 with h' | h'
    · rcases f.cover e h h' hne with h1 | ⟨h1, h2, h3⟩
      · exact .inl h1
      · refine .inr ⟨h1, h2, fun hc => ?_⟩
        have hch := f.chain (D e).parent h1 h2
        rw [hc, w.leaf] at hch
        rw [hc, hch.zero] at h3
        cases h3
    · exact .inl (f.above e h' h4)

theorem dwf_init {n2 : Nat} (h : 260 ≤ n2) (h' : n2 ≤ 4096) : DWF Dict.init 259 n2 := by
  refine ⟨Nat.le_refl _, by omega, rfl, fun _ => [], h, h', ?_, fun _ _ _ => rfl, ?_, ?_, ?_, ?_⟩
  · intro i h1 h2
    exact ⟨rfl, by show (if 3 ≤ i ∧ i < 259 then _ else _) = _; rw [if_pos ⟨h1, h2⟩]⟩
  · intro p _ _; exact .nil
  · intro p _ _; exact List.nodup_nil
  · intro p _ _ e he; cases he
  · intro g _ _ _; exact .inl rfl

/-! ## Strings -/

/-- From `p` on, these octets lead to `q`, without the entry `la`. -/
inductive Steps (D : Dict) (la : Nat) : Nat → List UInt8 → Nat → Prop
  | nil (p : Nat) : Steps D la p [] p
  | cons {p c q : Nat} {o : UInt8} {w : List UInt8} : matchOctet D p o = .ok c → c ≠ 0 → c ≠ la → Steps D la c w q →
    Steps D la p (o :: w) q

/-- The octets on the way up from `q`. -/
theorem pathUp_of_steps {D D0 : Dict} {la c1 n2 : Nat} (w : DWF D c1 n2)
    (h0 : ∀ e, e ≠ la → (D0 e).parent = (D e).parent ∧ (D0 e).octet = (D e).octet) {p q : Nat}
    {l : List UInt8} (st : Steps D la p l q) (hp : p = 0 ∨ (3 ≤ p ∧ p < n2)) {n : Nat} {u : List UInt8}
    (hu : pathUp D0 n p = .ok u) : pathUp D0 (n + l.length) q = .ok (l.reverse ++ u) := by
  induction st generalizing n u with
  | nil p => simpa using hu
  | @cons p c q o l hm hc hl st ih =>
    have hi : n2 ≤ 4096 := by obtain ⟨K, f⟩ := w.full; exact f.hi
    have hlo : 260 ≤ n2 := by obtain ⟨K, f⟩ := w.full; exact f.lo
    have hcp : 3 ≤ c ∧ c < n2 ∧ (D c).parent = p ∧ (D c).octet = o := by
      rcases hp with rfl | ⟨hp, hp'⟩
      · rw [match_root] at hm
        injection hm with hm
        subst hm
        obtain ⟨K, f⟩ := w.full
        have ho := o.toNat_lt
        have := f.root (o.toNat + 3) (by omega) (by omega)
        refine ⟨by omega, by omega, this.1, this.2.trans ?_⟩
        simp
      · obtain ⟨r, hr, h⟩ := match_ok w hp (by have := w.hi; omega) o
        rw [hm] at hr
        injection hr with hr
        subst hr
        rcases h with h | ⟨h1, h2, -, h3, h4⟩
        · exact absurd h hc
        · exact ⟨by omega, h2, h3, h4⟩
    have hc0 := h0 c hl
    have := ih (n := n + 1) (u := o :: u) (.inr ⟨hcp.1, hcp.2.1⟩) (by
      rw [pathUp, if_neg hc, if_neg (by omega), hc0.1, hc0.2, hcp.2.2.1, hcp.2.2.2, hu, bind_ok])
    rw [show n + (o :: l).length = n + 1 + l.length by simp; omega, this]
    simp

theorem pathUp_mono {D : Dict} {n m p : Nat} (h : n ≤ m) {u : List UInt8} (e : pathUp D n p = .ok u) : pathUp D m p = .ok u := by
  induction n generalizing m p u with
  | zero => cases e
  | succ n ih =>
    obtain ⟨m, rfl⟩ : ∃ k, m = k + 1 := ⟨m - 1, by omega⟩
    rw [pathUp] at e ⊢
    split
    · rw [if_pos (by assumption)] at e; exact e
    · rw [if_neg (by assumption)] at e
      split
      · rw [if_pos (by assumption)] at e; cases e
      · rw [if_neg (by assumption)] at e
        obtain ⟨l, h1, h2⟩ := bind_eq_ok e
        rw [ih (by omega) h1, bind_ok, h2]

/-- Where a string leads to. -/
theorem steps_range {D : Dict} {la c1 n2 : Nat} (w : DWF D c1 n2) {p q : Nat} {l : List UInt8} (st : Steps D la p l q)
    (hp : p = 0 ∨ (3 ≤ p ∧ p < n2 ∧ p ≠ c1 ∧ p ≠ la)) (hl : l ≠ [] ∨ p ≠ 0) : 3 ≤ q ∧ q < n2 ∧ q ≠ c1 ∧ q ≠ la := by
  induction st with
  | nil p =>
    rcases hl with h | h
    · exact absurd rfl h
    · rcases hp with hp | hp
      · exact absurd hp h
      · exact hp
  | @cons p c q o l hm hc hla st ih =>
    refine ih ?_ (.inr hc)
    right
    rcases hp with rfl | ⟨hp, hp', -⟩
    · rw [match_root] at hm
      injection hm with hm
      subst hm
      have ho := o.toNat_lt
      have := w.c1lo
      have := w.c1hi
      exact ⟨by omega, by omega, by omega, hla⟩
    · obtain ⟨r, hr, h⟩ := match_ok w hp (by have := w.hi; omega) o
      rw [hm] at hr
      injection hr with hr
      subst hr
      rcases h with h | ⟨h1, h2, h3, -⟩
      · exact absurd h hc
      · exact ⟨by omega, h2, h3, hla⟩

theorem Steps.snoc {D : Dict} {la p q r : Nat} {l : List UInt8} {o : UInt8} (st : Steps D la p l q)
    (hm : matchOctet D q o = .ok r) (h0 : r ≠ 0) (hl : r ≠ la) : Steps D la p (l ++ [o]) r := by
  induction st with
  | nil p => exact .cons hm h0 hl (.nil _)
  | cons h1 h2 h3 _ ih => exact .cons h1 h2 h3 (ih hm)

end Verif.V42
