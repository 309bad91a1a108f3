import Verif.Sndcp.SlhcHdr
import Mathlib.Data.List.Nodup
import Mathlib.Data.List.Range
import Mathlib.Data.List.Perm.Subperm

/-!
# Header compression: the ring of slots
-/
namespace Verif.Slhc

/-- The list follows the links from a slot. -/
def Path (next : Nat → Nat) : Nat → List Nat → Prop
  | _, [] => True
  | x, y :: l => next x = y ∧ Path next y l

/-- The slots from the one after the oldest to the oldest. -/
structure RingOf (t : Tx) (l : List Nat) : Prop where
  path : Path t.next t.oldest l
  last : l.getLast? = some t.oldest
  nodup : l.Nodup
  lt : ∀ i ∈ l, i < t.n

theorem Path.congr {f g : Nat → Nat} : ∀ {l : List Nat} {x : Nat}, Path f x l → (∀ y ∈ (x :: l).dropLast, g y = f y) → Path g x l
  | [], _, _, _ => trivial
  | y :: l, x, h, hg => by
    refine ⟨?_, ?_⟩
    · rw [hg x (by simp)]; exact h.1
    · refine Path.congr h.2 fun z hz => hg z ?_
      rw [List.dropLast_cons_of_ne_nil (by simp)]
      exact List.mem_cons_of_mem _ hz

theorem Path.append {f : Nat → Nat} : ∀ {l k : List Nat} {x y : Nat}, Path f x l → (x :: l).getLast? = some y → Path f y k → Path f x (l ++ k)
  | [], k, x, y, _, hy, h2 => by
    simp at hy
    subst hy
    exact h2
  | z :: l, k, x, y, h1, hy, h2 => by
    refine ⟨h1.1, Path.append h1.2 ?_ h2⟩
    rw [List.getLast?_cons_cons] at hy
    exact hy

theorem Path.left {f : Nat → Nat} : ∀ {l k : List Nat} {x : Nat}, Path f x (l ++ k) → Path f x l
  | [], _, _, _ => trivial
  | _ :: _, _, _, h => ⟨h.1, Path.left h.2⟩

theorem Path.right {f : Nat → Nat} : ∀ {l k : List Nat} {x y : Nat}, Path f x (l ++ k) → (x :: l).getLast? = some y → Path f y k
  | [], k, x, y, h, hy => by
    simp at hy
    subst hy
    exact h
  | z :: l, k, x, y, h, hy => by
    rw [List.getLast?_cons_cons] at hy
    exact Path.right h.2 hy

/-- The search ends, at a slot of the ring whose predecessor is known. -/
theorem search_ok (t : Tx) (ip : Ip) (th : Tcp) : ∀ (fuel : Nat) (k : List Nat) (lcs : Nat), Path t.next lcs k →
    k.getLast? = some t.oldest → (∀ i ∈ k, i < t.n) → k.length < fuel →
    ∃ f lcs' cs l1 l2, search t ip th fuel lcs (t.next lcs) = .ok (f, lcs', cs) ∧ k = l1 ++ cs :: l2 ∧
      (lcs :: l1).getLast? = some lcs' ∧ (f = false → cs = t.oldest) ∧
      (f = true → ip.saddr = (t.cs cs).ip.saddr ∧ ip.daddr = (t.cs cs).ip.daddr ∧ th.source = (t.cs cs).tcp.source ∧
        th.dest = (t.cs cs).tcp.dest)
  | 0, k, _, _, _, _, h => by omega
  | fuel + 1, [], _, _, h, _, _ => by simp at h
  | fuel + 1, c :: k, lcs, hp, hlast, hlt, hf => by
    have hc : t.next lcs = c := hp.1
    have hcn : c < t.n := hlt c (by simp)
    rw [hc]
    unfold search
    rw [if_neg (by omega)]
    by_cases hm : ip.saddr = (t.cs c).ip.saddr ∧ ip.daddr = (t.cs c).ip.daddr ∧ th.source = (t.cs c).tcp.source ∧
        th.dest = (t.cs c).tcp.dest
    · rw [if_pos hm]
      exact ⟨true, lcs, c, [], k, rfl, rfl, rfl, by simp, fun _ => hm⟩
    · rw [if_neg hm]
      by_cases ho : c = t.oldest
      · rw [if_pos ho]
        exact ⟨false, lcs, c, [], k, rfl, rfl, rfl, fun _ => ho, by simp⟩
      · rw [if_neg ho]
        have hk : k ≠ [] := by
          intro e
          subst e
          simp at hlast
          exact ho hlast
        have hlast' : k.getLast? = some t.oldest := by
          cases k with
          | nil => exact absurd rfl hk
          | cons d k => rw [List.getLast?_cons_cons] at hlast; exact hlast
        obtain ⟨f, lcs', cs, l1, l2, h1, h2, h3, h4, h5⟩ := search_ok t ip th fuel k c hp.2 hlast'
          (fun i hi => hlt i (List.mem_cons_of_mem _ hi)) (by simp at hf; omega)
        refine ⟨f, lcs', cs, c :: l1, l2, h1, by rw [h2]; rfl, ?_, h4, h5⟩
        rw [List.getLast?_cons_cons]
        exact h3

theorem RingOf.length_le {t : Tx} {l : List Nat} (h : RingOf t l) : l.length ≤ t.n := by
  have hs : l ⊆ List.range t.n := fun i hi => List.mem_range.2 (h.lt i hi)
  have := (h.nodup.subperm hs).length_le
  rwa [List.length_range] at this

theorem RingOf.search {t : Tx} {l : List Nat} (h : RingOf t l) (ip : Ip) (th : Tcp) :
    ∃ f lcs cs l1 l2, search t ip th (t.n + 1) t.oldest (t.next t.oldest) = .ok (f, lcs, cs) ∧ l = l1 ++ cs :: l2 ∧
      (t.oldest :: l1).getLast? = some lcs ∧ (f = false → cs = t.oldest) ∧
      (f = true → ip.saddr = (t.cs cs).ip.saddr ∧ ip.daddr = (t.cs cs).ip.daddr ∧ th.source = (t.cs cs).tcp.source ∧
        th.dest = (t.cs cs).tcp.dest) :=
  search_ok t ip th _ l t.oldest h.path h.last h.lt (by have := h.length_le; omega)

/-- In the ring the oldest comes last. -/
theorem last_unique {l1 l2 : List Nat} {c : Nat} (hn : (l1 ++ c :: l2).Nodup) (hl : (l1 ++ c :: l2).getLast? = some c) : l2 = [] := by
  cases h : l2.getLast? with
  | none => exact List.getLast?_eq_none_iff.1 h
  | some d =>
    have e : (l1 ++ c :: l2).getLast? = some d := by
      rw [List.getLast?_append, List.getLast?_cons, h]
      rfl
    rw [e] at hl
    injection hl with hl
    subst hl
    have hm := List.mem_of_getLast? h
    have := (List.nodup_append.1 hn).2.1
    rw [List.nodup_cons] at this
    exact absurd hm this.1

/-- The ring when the slot before the oldest becomes the oldest. -/
theorem RingOf.rotate {t : Tx} {l1 l2 : List Nat} {lcs : Nat} (h : RingOf t (l1 ++ t.oldest :: l2))
    (hl : (t.oldest :: l1).getLast? = some lcs) : ∃ l', RingOf { t with oldest := lcs } l' ∧ ∀ i, i ∈ l' ↔ i ∈ l1 ++ t.oldest :: l2 := by
  have e2 : l2 = [] := last_unique h.nodup h.last
  subst e2
  have hp1 := h.path.left
  have hp2 := h.path.right hl
  refine ⟨t.oldest :: l1, ⟨⟨hp2.1, hp1⟩, hl, ?_, ?_⟩, ?_⟩
  · have := h.nodup
    rw [List.nodup_append_comm] at this
    exact this
  · intro i hi
    apply h.lt
    simp at hi ⊢
    tauto
  · intro i
    simp
    tauto

/-- The ring when a slot is moved to the front. -/
theorem RingOf.front {t : Tx} {l1 l2 : List Nat} {lcs cs : Nat} (h : RingOf t (l1 ++ cs :: l2))
    (hl : (t.oldest :: l1).getLast? = some lcs) : ∃ l', RingOf (t.front lcs cs) l' ∧ ∀ i, i ∈ l' ↔ i ∈ l1 ++ cs :: l2 := by
  unfold Tx.front
  by_cases h1 : lcs = t.oldest
  · rw [if_pos h1]
    exact ⟨_, h, fun _ => Iff.rfl⟩
  · rw [if_neg h1]
    by_cases h2 : cs = t.oldest
    · rw [if_pos h2]
      subst h2
      exact h.rotate hl
    · rw [if_neg h2]
      have hn1 : l1 ≠ [] := by
        intro e
        subst e
        simp at hl
        exact h1 hl.symm
      have hn2 : l2 ≠ [] := by
        intro e
        subst e
        have := h.last
        simp at this
        exact h2 this
      have hl1 : l1.getLast? = some lcs := by
        cases l1 with
        | nil => exact absurd rfl hn1
        | cons d k => rw [List.getLast?_cons_cons] at hl; exact hl
      have hl2 : l2.getLast? = some t.oldest := by
        have := h.last
        rw [List.getLast?_append, List.getLast?_cons] at this
        cases hq : l2.getLast? with
        | none => exact absurd (List.getLast?_eq_none_iff.1 hq) hn2
        | some d => rw [hq] at this; simpa using this
      have hnd := List.nodup_append.1 h.nodup
      have hnd2 := List.nodup_cons.1 hnd.2.1
      have hp1 := h.path.left
      have hp2 := h.path.right hl
      have hlcs1 : lcs ∈ l1 := List.mem_of_getLast? hl1
      have hold2 : t.oldest ∈ l2 := List.mem_of_getLast? hl2
      have nold1 : t.oldest ∉ l1 := fun hm => hnd.2.2 _ hm _ (List.mem_cons_of_mem _ hold2) rfl
      have ncs1 : cs ∉ l1 := fun hm => hnd.2.2 _ hm cs (by simp) rfl
      have nlcs2 : lcs ∉ l2 := fun hm => hnd.2.2 _ hlcs1 _ (List.mem_cons_of_mem _ hm) rfl
      have hcl : cs ≠ lcs := fun e => ncs1 (e ▸ hlcs1)
      refine ⟨cs :: (l1 ++ l2), ⟨?_, ?_, ?_, ?_⟩, ?_⟩
      · refine ⟨if_pos rfl, ?_⟩
        cases l1 with
        | nil => exact absurd rfl hn1
        | cons d k =>
          refine ⟨?_, ?_⟩
          · dsimp only
            rw [if_neg h2, if_pos rfl]
            exact hp1.1
          · refine Path.append (y := lcs) (hp1.2.congr ?_) hl1 ?_
            · intro y hy
              have hym : y ∈ d :: k := (List.dropLast_subset _) hy
              have hyl : y ≠ lcs := by
                intro e
                subst e
                obtain ⟨m, hm⟩ : ∃ m, d :: k = m ++ [y] := by
                  rw [List.getLast?_eq_some_iff] at hl1
                  exact hl1
                rw [hm, List.dropLast_concat] at hy
                have := hnd.1
                rw [hm] at this
                exact (List.nodup_append.1 this).2.2 _ hy _ (by simp) rfl
              dsimp only
              rw [if_neg (fun (e : y = t.oldest) => nold1 (e ▸ hym)), if_neg (fun (e : y = cs) => ncs1 (e ▸ hym)), if_neg hyl]
            · cases l2 with
              | nil => exact absurd rfl hn2
              | cons e m =>
                refine ⟨?_, ?_⟩
                · dsimp only
                  rw [if_neg h1, if_neg (fun e => hcl e.symm), if_pos rfl]
                  exact hp2.2.1
                · refine hp2.2.2.congr ?_
                  intro y hy
                  have hym : y ∈ e :: m := (List.dropLast_subset _) hy
                  have hyo : y ≠ t.oldest := by
                    intro e'
                    subst e'
                    obtain ⟨m', hm⟩ : ∃ m', e :: m = m' ++ [t.oldest] := by
                      rw [List.getLast?_eq_some_iff] at hl2
                      exact hl2
                    rw [hm, List.dropLast_concat] at hy
                    have := hnd2.2
                    rw [hm] at this
                    exact (List.nodup_append.1 this).2.2 _ hy _ (by simp) rfl
                  dsimp only
                  rw [if_neg hyo, if_neg (fun (e' : y = cs) => hnd2.1 (e' ▸ hym)), if_neg (fun (e' : y = lcs) => nlcs2 (e' ▸ hym))]
      · show (cs :: (l1 ++ l2)).getLast? = some t.oldest
        rw [List.getLast?_cons, List.getLast?_append, hl2]
        rfl
      · rw [List.nodup_cons]
        refine ⟨?_, ?_⟩
        · simp only [List.mem_append, not_or]
          exact ⟨ncs1, hnd2.1⟩
        · rw [List.nodup_append]
          exact ⟨hnd.1, hnd2.2, fun a ha b hb => hnd.2.2 a ha b (List.mem_cons_of_mem _ hb)⟩
      · intro i hi
        apply h.lt
        simp at hi ⊢
        tauto
      · intro i
        simp
        tauto

/-- The slots below a number, in the order of the links. -/
theorem init_path (slots : Nat) (n : Nat) : Path (Tx.init slots).next n (List.range n).reverse := by
  induction n with
  | zero => trivial
  | succ n ih =>
    rw [List.range_succ, List.reverse_append]
    exact ⟨by simp [Tx.init], ih⟩

theorem ring_init {slots : Nat} (h : 1 ≤ slots) : RingOf (Tx.init slots) (List.range slots).reverse := by
  obtain ⟨m, rfl⟩ : ∃ m, slots = m + 1 := ⟨slots - 1, by omega⟩
  refine ⟨?_, ?_, ?_, ?_⟩
  · have : (List.range (m + 1)).reverse = m :: (List.range m).reverse := by rw [List.range_succ, List.reverse_append]; rfl
    rw [this]
    exact ⟨by simp [Tx.init], init_path _ m⟩
  · rw [List.getLast?_reverse, List.range_succ_eq_map]
    rfl
  · exact List.nodup_reverse.2 List.nodup_range
  · intro i hi
    have : i < m + 1 := by simpa using hi
    exact this

end Verif.Slhc
