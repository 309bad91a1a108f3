import Verif.Spec.Countdown
import Verif.Rlc.BlockLemmas

/-!
# Lemmas about the countdown value (proof devices)
-/
namespace Verif.Rlc

open Verif.Spec

/-- `blk_count_append_llc` as a function: blocks completed, offset, whether the frame ended in an LI=0 case. -/
def cgo (L : Nat) : Nat → Nat → Nat → Nat × Nat × Bool
  | 0, o, _ => (0, o, false)
  | fuel + 1, o, c =>
    if c > L - o then
      let r := cgo L fuel 0 (c - (L - o))
      (r.1 + 1, r.2)
    else if c = L - o then (1, 2, true)
    else if o + 1 + c = L then (1, 0, false)
    else (0, o + 1 + c, false)

theorem cgo_fuel (L : Nat) : ∀ (f g o c : Nat), o < L → c < f → c < g → cgo L f o c = cgo L g o c := by
  intro f
  induction f with
  | zero => intro g o c _ h; omega
  | succ f ih =>
    intro g o c ho hf hg
    cases g with
    | zero => omega
    | succ g =>
      unfold cgo
      by_cases h1 : c > L - o
      · rw [if_pos h1, if_pos h1, ih g 0 (c - (L - o)) (by omega) (by omega) (by omega)]
      · rw [if_neg h1, if_neg h1]

theorem append_cgo {fuel : Nat} : ∀ {st : BlkSt} {c : Nat}, 3 ≤ st.dataLen → st.offset < st.dataLen → 0 < c → c + 1 < fuel →
    st.append fuel c = .ok { st with count := st.count + (cgo st.dataLen fuel st.offset c).1, offset := (cgo st.dataLen fuel st.offset c).2.1, extra := (cgo st.dataLen fuel st.offset c).2.2 } ∧
      (cgo st.dataLen fuel st.offset c).2.1 < st.dataLen ∧
      ((cgo st.dataLen fuel st.offset c).2.2 = true → (cgo st.dataLen fuel st.offset c).2.1 = 2) := by
  induction fuel with
  | zero => intro st c _ _ _ h; omega
  | succ fuel ih =>
    intro st c hL ho hc hf
    unfold BlkSt.append cgo
    simp only [ho, not_true, if_false, Nat.ne_of_gt hc]
    by_cases h1 : c > st.dataLen - st.offset
    · simp only [h1, if_true]
      obtain ⟨a, b, d⟩ := ih (st := { st with extra := false, count := st.count + 1, offset := 0 })
        (c := c - (st.dataLen - st.offset)) hL (by show 0 < st.dataLen; omega) (by omega) (by omega)
      rw [a]
      refine ⟨?_, b, d⟩
      simp only [Nat.add_assoc, Nat.add_comm 1]
    · simp only [h1, if_false]
      by_cases h2 : c = st.dataLen - st.offset
      · simp only [h2, if_true]
        have e3 : st.dataLen - st.offset - (st.dataLen - st.offset - 1) = 1 := by omega
        have a : BlkSt.append fuel { st with extra := false, count := st.count + 1, offset := 0 } 1 =
            .ok { st with extra := false, count := st.count + 1, offset := 2 } := by
          cases fuel with
          | zero => omega
          | succ fuel =>
            unfold BlkSt.append
            simp only [Nat.sub_zero]
            rw [if_neg (by omega), if_neg (by omega), if_neg (by omega), if_neg (by omega), if_neg (by omega)]
        rw [e3, a]
        exact ⟨rfl, by omega, fun _ => trivial⟩
      · simp only [h2, if_false]
        by_cases h3 : st.offset + 1 + c = st.dataLen
        · simp only [h3, if_true, Nat.sub_self]
          exact ⟨trivial, by omega, nofun⟩
        · have h4 : ¬ (st.dataLen - (st.offset + 1 + c) = 0) := by omega
          simp only [h3, h4, if_false]
          exact ⟨rfl, by omega, nofun⟩

/-- Blocks still needed, from an offset in the current block. -/
def needed (L : Nat) : Nat → Bool → List Octets → Nat
  | o, ex, [] => if ex then 0 else if o > 0 then 1 else 0
  | o, _, m :: q =>
    let r := cgo L (m.length + 2) o m.length
    r.1 + needed L r.2.1 r.2.2 q

theorem needed_open {L o : Nat} {m : Octets} {q : List Octets} {ex : Bool} (ho : o < L) (h : m.length > L - o) :
    needed L o ex (m :: q) = 1 + needed L 0 false (m.drop (L - o) :: q) := by
  simp only [needed]
  have e : cgo L (m.length + 2) o m.length =
      ((cgo L ((m.drop (L - o)).length + 2) 0 (m.drop (L - o)).length).1 + 1,
       (cgo L ((m.drop (L - o)).length + 2) 0 (m.drop (L - o)).length).2) := by
    rw [cgo, if_pos h]
    simp only [List.length_drop]
    rw [cgo_fuel L (m.length + 1) (m.length - (L - o) + 2) 0 (m.length - (L - o)) (by omega) (by omega) (by omega)]
  rw [e]
  simp only
  omega

theorem needed_exact {L o : Nat} {m : Octets} {q : List Octets} {ex : Bool} (h : m.length = L - o) :
    needed L o ex (m :: q) = 1 + needed L 2 true q := by
  simp only [needed]
  rw [cgo, if_neg (by omega), if_pos h]

theorem needed_full {L o : Nat} {m : Octets} {q : List Octets} {ex : Bool} (ho : o < L) (h : m.length + 1 = L - o) :
    needed L o ex (m :: q) = 1 + needed L 0 false q := by
  simp only [needed]
  rw [cgo, if_neg (by omega), if_neg (by omega), if_pos (by omega)]

theorem needed_less {L o : Nat} {m : Octets} {q : List Octets} {ex : Bool} (ho : o < L) (h : m.length + 1 < L - o) :
    needed L o ex (m :: q) = needed L (o + 1 + m.length) false q := by
  simp only [needed]
  rw [cgo, if_neg (by omega), if_neg (by omega), if_neg (by omega)]
  simp

theorem needed_ex {L o : Nat} {q : List Octets} (hq : q ≠ []) : needed L o true q = needed L o false q := by
  cases q with
  | nil => exact absurd rfl hq
  | cons m q => rfl

theorem needed_pos {L : Nat} : ∀ {q : List Octets} {o : Nat}, o < L → (o > 0 ∨ q ≠ []) → 1 ≤ needed L o false q := by
  intro q
  induction q with
  | nil =>
    intro o _ h
    rcases h with h | h
    · simp [needed, h]
    · exact absurd rfl h
  | cons m q ih =>
    intro o ho _
    rcases Nat.lt_trichotomy m.length (L - o) with h | h | h
    · by_cases h2 : m.length + 1 = L - o
      · rw [needed_full ho h2]; omega
      · rw [needed_less ho (by omega)]
        exact ih (by omega) (Or.inl (by omega))
    · rw [needed_exact h]; omega
    · rw [needed_open ho h]; omega

/-- A block that is not the last one takes one block off. -/
theorem needed_more {L : Nat} (hL : 3 ≤ L) : ∀ {q : List Octets} {o : Nat} {done : List Octets}, o < L →
    2 ≤ needed L o false q →
    (clean false (L - o) done q).2.2 ≠ [] ∧
      needed L 0 false (clean false (L - o) done q).2.2 + 1 = needed L o false q := by
  intro q
  induction q with
  | nil =>
    intro o done _ hn
    simp only [needed, Bool.false_eq_true, if_false] at hn
    split at hn <;> omega
  | cons m q ih =>
    intro o done ho hn
    simp only [clean]
    rcases Nat.lt_trichotomy m.length (L - o) with h | h | h
    · rw [if_neg (by omega), if_neg (by omega)]
      by_cases h2 : m.length + 1 = L - o
      · rw [if_pos h2]
        rw [needed_full ho h2] at hn ⊢
        refine ⟨?_, by simp only; omega⟩
        intro hq
        simp only at hq
        subst hq
        simp [needed] at hn
      · rw [if_neg h2]
        rw [needed_less ho (by omega)] at hn ⊢
        have := ih (o := o + 1 + m.length) (done := done ++ [m]) (by omega) hn
        have e : L - (o + 1 + m.length) = L - o - 1 - m.length := by omega
        rw [e] at this
        exact this
    · rw [if_neg (by omega), if_pos h]
      simp only [Bool.false_eq_true, if_false]
      rw [needed_exact h] at hn ⊢
      refine ⟨List.cons_ne_nil _ _, ?_⟩
      have hq : q ≠ [] := by
        intro hq
        subst hq
        simp [needed] at hn
      have hl : (m.drop (L - o - 1)).length = 1 := by simp; omega
      rw [needed_less (by omega) (by rw [hl]; omega), hl, needed_ex hq]
      show needed L 2 false q + 1 = _
      omega
    · rw [if_pos h, needed_open ho h]
      exact ⟨List.cons_ne_nil _ _, by simp only; omega⟩

/-- The last block takes everything. -/
theorem needed_last {L : Nat} (hL : 3 ≤ L) : ∀ {q : List Octets} {o : Nat} {done : List Octets}, o < L →
    (needed L o false q ≤ 1 ↔ (clean true (L - o) done q).2.2 = []) := by
  intro q
  induction q with
  | nil =>
    intro o done _
    simp only [needed, clean, Bool.false_eq_true, if_false]
    split <;> simp
  | cons m q ih =>
    intro o done ho
    simp only [clean]
    rcases Nat.lt_trichotomy m.length (L - o) with h | h | h
    · rw [if_neg (by omega), if_neg (by omega)]
      by_cases h2 : m.length + 1 = L - o
      · rw [if_pos h2, needed_full ho h2]
        simp only
        constructor
        · intro hn
          cases q with
          | nil => rfl
          | cons x q =>
            have := needed_pos (L := L) (q := x :: q) (o := 0) (by omega) (Or.inr (List.cons_ne_nil _ _))
            omega
        · intro hq; subst hq; simp [needed]
      · rw [if_neg h2, needed_less ho (by omega)]
        have := ih (o := o + 1 + m.length) (done := done ++ [m]) (by omega)
        have e : L - (o + 1 + m.length) = L - o - 1 - m.length := by omega
        rw [e] at this
        exact this
    · rw [if_neg (by omega), if_pos h]
      simp only [if_true]
      rw [needed_exact h]
      constructor
      · intro hn
        cases q with
        | nil => rfl
        | cons x q =>
          rw [needed_ex (List.cons_ne_nil _ _)] at hn
          have := needed_pos (L := L) (q := x :: q) (o := 2) (by omega) (Or.inl (by omega))
          omega
      · intro hq; subst hq; simp [needed]
    · rw [if_pos h, needed_open ho h]
      have := needed_pos (L := L) (q := m.drop (L - o) :: q) (o := 0) (by omega) (Or.inr (List.cons_ne_nil _ _))
      constructor
      · intro hn; omega
      · intro hx; cases hx

/-- `calculate_cv` with one timeslot, once all has been counted. -/
theorem appendAll_cv : ∀ (q : List Octets) (st : BlkSt), 3 ≤ st.dataLen → st.offset < st.dataLen → st.ntsK = 1 →
    (st.extra = true → st.offset = 2) → (∀ m ∈ q, m ≠ []) →
    (st.appendAll q >>= BlkSt.toCv) = .ok
      (if st.count + needed st.dataLen st.offset st.extra q - 1 ≤ st.bsCvMax
       then st.count + needed st.dataLen st.offset st.extra q - 1 else 15) := by
  have hx : ∀ st : BlkSt, st.ntsK = 1 → st.toX = st.count - 1 := by
    intro st h
    unfold BlkSt.toX
    rw [h]
    split
    · omega
    · simp
  have hx' : ∀ (st : BlkSt) (c o : Nat) (ex : Bool), st.ntsK = 1 →
      BlkSt.toX { st with count := c, offset := o, extra := ex } = c - 1 := fun st c o ex h => hx _ h
  intro q
  induction q with
  | nil =>
    intro st hL ho hk he _
    simp only [BlkSt.appendAll, Res.bind_ok, BlkSt.toCv]
    cases hex : st.extra with
    | true =>
      have := he hex
      simp only [this, ne_eq, not_true, and_false, if_false, if_true, Nat.sub_self, Nat.lt_irrefl]
      rw [hx st hk]
      simp [needed]
    | false =>
      simp only [Bool.false_eq_true, false_and, if_false]
      by_cases h0 : st.offset > 0
      · simp only [h0, if_true, needed, Bool.false_eq_true, if_false]
        rw [hx' st _ _ _ hk]
      · simp only [h0, if_false, needed, Bool.false_eq_true]
        rw [hx _ hk]
        rfl
  | cons m q ih =>
    intro st hL ho hk he hne
    have hm : 0 < m.length := List.length_pos_iff.2 (hne m (by simp))
    obtain ⟨a, b, c⟩ := append_cgo (st := st) (c := m.length) (fuel := m.length + 2) hL ho hm (by omega)
    have e : needed st.dataLen st.offset st.extra (m :: q) =
        (cgo st.dataLen (m.length + 2) st.offset m.length).1 +
        needed st.dataLen (cgo st.dataLen (m.length + 2) st.offset m.length).2.1
          (cgo st.dataLen (m.length + 2) st.offset m.length).2.2 q := rfl
    rw [e]
    simp only [BlkSt.appendAll]
    rw [a]
    simp only [Res.bind_ok]
    generalize cgo st.dataLen (m.length + 2) st.offset m.length = r at *
    obtain ⟨r1, r2, r3⟩ := r
    simp only at b c ⊢
    have ih' := ih { st with count := st.count + r1, offset := r2, extra := r3 } hL b hk c (fun x hx => hne x (by simp [hx]))
    simp only at ih'
    by_cases ht : BlkSt.tooMany { st with count := st.count + r1, offset := r2, extra := r3 } = true
    · rw [if_pos ht]
      simp only [BlkSt.tooMany, Bool.and_eq_true, Bool.not_eq_true', decide_eq_true_eq] at ht
      obtain ⟨t1, t2⟩ := ht
      subst t1
      rw [hx' st _ _ _ hk] at t2
      simp only [Res.bind_ok, BlkSt.toCv, Bool.false_eq_true, false_and, if_false]
      rw [if_neg (by omega : ¬ (st.count + (r1 + needed st.dataLen r2 false q) - 1 ≤ st.bsCvMax))]
      by_cases h0 : r2 > 0
      · simp only [h0, if_true]
        rw [hx' st _ _ _ hk]
        rw [if_neg (by omega)]
      · simp only [h0, if_false]
        rw [hx' st _ _ _ hk]
        rw [if_neg (by omega)]
    · rw [if_neg ht, ih', Nat.add_assoc]

theorem calculateCv_one {p : TxParams} (hp : SizeOk p.len p.tlli) (hk : p.ntsK = 1) (q : List Octets) (hne : ∀ m ∈ q, m ≠ []) :
    p.calculateCv q = .ok (if needed (p.len - hdrLen p.tlli) 0 false q - 1 ≤ p.bsCvMax
      then needed (p.len - hdrLen p.tlli) 0 false q - 1 else 15) := by
  unfold TxParams.calculateCv
  rw [if_neg (by omega)]
  have e : (if p.tlli.isSome then p.len - 4 else p.len) = p.len - hdrLen p.tlli := by
    unfold hdrLen
    split <;> omega
  have hl : 3 ≤ p.len - hdrLen p.tlli := by
    obtain ⟨h1, _⟩ := hp
    unfold hdrLen
    omega
  rw [e]
  have := appendAll_cv q ⟨p.len - hdrLen p.tlli, p.bsCvMax, p.ntsK, 0, 0, false⟩ hl (Nat.lt_of_lt_of_le (Nat.zero_lt_succ 2) hl) hk nofun hne
  simp only [Nat.zero_add] at this
  exact this

end Verif.Rlc
