import Verif.Spec.CsnLayout
import Verif.Csn1.CheckLemmas

/-!
# Lemmas about layouts
-/
namespace Verif.Csn1

open Spec

theorem natBits_length : ∀ (n x : Nat), (natBits n x).length = n
  | 0, _ => rfl
  | n + 1, x => by unfold natBits; rw [List.length_cons, natBits_length n x]

theorem item_code_length (m : Mem) (i : Item) : (i.code m).length = i.size := by
  cases i <;> simp only [Item.code, Item.size, natBits_length, List.length_nil, List.length_cons]

theorem size_nil : size [] = 0 := rfl

theorem size_cons (i : Item) (l : List Item) : size (i :: l) = i.size + size l := by
  unfold size; rw [List.map_cons, List.sum_cons]

theorem size_append (a b : List Item) : size (a ++ b) = size a + size b := by
  unfold size; rw [List.map_append, List.sum_append]

theorem code_nil (m : Mem) : code m [] = [] := rfl

theorem code_cons (m : Mem) (i : Item) (l : List Item) : code m (i :: l) = i.code m ++ code m l := rfl

theorem code_append (m : Mem) (a b : List Item) : code m (a ++ b) = code m a ++ code m b := by
  unfold code; rw [List.flatMap_append]

theorem code_length (m : Mem) (l : List Item) : (code m l).length = size l := by
  induction l with
  | nil => rfl
  | cons i l ih => rw [code_cons, List.length_append, item_code_length, ih, size_cons]

theorem carried_append (a b : List Item) (x : Nat) : carried (a ++ b) x = (carried a x || carried b x) := by
  unfold carried; rw [List.any_append]

theorem carried_cons (i : Item) (b : List Item) (x : Nat) : carried (i :: b) x = (i.covers x || carried b x) := by
  unfold carried; rw [List.any_cons]

theorem carried_nil (x : Nat) : carried [] x = false := rfl

/-- Memory after the octets of the parts `l` were taken over from `m`. -/
def upd (m : Mem) (l : List Item) (mem : Mem) : Mem := fun a => if carried l a then m a % 256 else mem a

theorem upd_nil (m mem : Mem) : upd m [] mem = mem := by
  funext a; simp only [upd, carried_nil, Bool.false_eq_true, ite_false]

theorem upd_append (m mem : Mem) (a b : List Item) : upd m (a ++ b) mem = upd m b (upd m a mem) := by
  funext x
  simp only [upd, carried_append, Bool.or_eq_true]
  by_cases h1 : carried a x = true <;> by_cases h2 : carried b x = true <;> simp [h1, h2]

theorem upd_cons (m mem : Mem) (i : Item) (b : List Item) : upd m (i :: b) mem = upd m b (upd m [i] mem) := by
  rw [← upd_append]; rfl

/-- What was received so far is in memory. -/
def Holds (m : Mem) (acc : List Item) (mem : Mem) : Prop := ∀ a, carried acc a = true → mem a % 256 = m a % 256

theorem Holds.upd {m : Mem} {acc new : List Item} {mem : Mem} (h : Holds m acc mem) :
    Holds m (acc ++ new) (upd m new mem) := by
  intro a ha
  unfold Csn1.upd
  by_cases hn : carried new a = true
  · rw [if_pos hn, Nat.mod_mod]
  · rw [if_neg hn]
    rw [carried_append, Bool.or_eq_true] at ha
    exact h a (ha.resolve_right hn)

theorem Holds.nil {m mem : Mem} : Holds m [] mem := fun a h => by cases h

/-- Storing a member as it is in `m`. -/
theorem putLe_getLe (m : Mem) : ∀ (w : Nat) (mem : Mem) (a : Nat),
    mem.putLe a w (getLe m a w) = fun x => if a ≤ x ∧ x < a + w then m x % 256 else mem x := by
  intro w
  induction w with
  | zero =>
    intro mem a
    funext x
    rw [if_neg (by omega)]
    rfl
  | succ w ih =>
    intro mem a
    unfold Mem.putLe getLe
    rw [Nat.add_mul_div_left _ _ (by decide), Nat.div_eq_of_lt (Nat.mod_lt _ (by decide)), Nat.zero_add, ih]
    funext x
    by_cases h1 : a + 1 ≤ x ∧ x < a + 1 + w
    · rw [if_pos h1, if_pos (by omega)]
    · rw [if_neg h1]
      unfold Mem.put
      by_cases h2 : x = a
      · subst h2
        rw [if_pos rfl, if_pos (by omega)]
        omega
      · rw [if_neg h2, if_neg (by omega)]

theorem putLe_fld (m mem : Mem) (a w bits ofs : Nat) :
    mem.putLe a w (getLe m a w) = upd m [.fld a w bits ofs] mem := by
  rw [putLe_getLe]
  funext x
  simp only [upd, carried, List.any_cons, List.any_nil, Bool.or_false, Item.covers, Bool.and_eq_true,
    decide_eq_true_eq]

theorem getLe_one (m : Mem) (a : Nat) : getLe m a 1 = m a % 256 := by
  unfold getLe getLe; omega

theorem putLe_implied (m mem : Mem) (a n : Nat) (h : m a % 256 = n) :
    mem.putLe a 1 n = upd m [.implied a n] mem := by
  subst h
  rw [← getLe_one, putLe_getLe]
  funext x
  simp only [upd, carried, List.any_cons, List.any_nil, Bool.or_false, Item.covers, beq_iff_eq]
  by_cases hx : x = a
  · rw [if_pos hx, if_pos (by omega)]
  · rw [if_neg hx, if_neg (by omega)]

theorem upd_con (m mem : Mem) (n x : Nat) : upd m [.con n x] mem = mem := by
  funext a
  simp only [upd, carried, List.any_cons, List.any_nil, Bool.or_false, Item.covers, Bool.false_eq_true, ite_false]

theorem upd_stop (m mem : Mem) : upd m [.stop] mem = mem := by
  funext a
  simp only [upd, carried, List.any_cons, List.any_nil, Bool.or_false, Item.covers, Bool.false_eq_true, ite_false]

/-- Number of lists of structures: the encoder does not count their end bits. -/
def skew (l : List Item) : Nat := (l.map fun i => match i with | .stop => 1 | _ => 0).sum

theorem skew_append (a b : List Item) : skew (a ++ b) = skew a + skew b := by
  unfold skew; rw [List.map_append, List.sum_append]

theorem skew_octets (bits : Nat) : ∀ (n a : Nat), skew (octets bits a n) = 0 := by
  intro n
  induction n with
  | zero => intro a; rfl
  | succ n ih =>
    intro a
    unfold octets
    rw [show ∀ x (l : List Item), x :: l = [x] ++ l from fun _ _ => rfl, skew_append, ih]; rfl

theorem skew_tagged (bits : Nat) : ∀ (n a : Nat), skew (taggedOctets bits a n) = 0 := by
  intro n
  induction n with
  | zero => intro a; rfl
  | succ n ih =>
    intro a
    unfold taggedOctets
    rw [show ∀ x y (l : List Item), x :: y :: l = [x, y] ++ l from fun _ _ _ => rfl, skew_append, ih]; rfl

/-! ## Reading -/

/-- The bits `l` are in the vector from position `i` on. -/
def Reads (v : List Bool) (i : Nat) (l : List Bool) : Prop := ∀ k b, l[k]? = some b → v[i + k]? = some b

theorem Reads.append {v i a b} : Reads v i (a ++ b) ↔ Reads v i a ∧ Reads v (i + a.length) b := by
  constructor
  · intro h
    refine ⟨fun k x hk => h k x ?_, fun k x hk => ?_⟩
    · rw [List.getElem?_append_left (by have := (List.getElem?_eq_some_iff.mp hk).1; omega)]
      exact hk
    · have := h (a.length + k) x (by rw [List.getElem?_append_right (by omega), Nat.add_sub_cancel_left]; exact hk)
      rw [← Nat.add_assoc] at this
      exact this
  · intro ⟨h1, h2⟩ k x hk
    by_cases hl : k < a.length
    · rw [List.getElem?_append_left hl] at hk
      exact h1 k x hk
    · rw [List.getElem?_append_right (by omega)] at hk
      have := h2 _ x hk
      rw [show i + a.length + (k - a.length) = i + k by omega] at this
      exact this

theorem Reads.cons {v i b l} : Reads v i (b :: l) ↔ v[i]? = some b ∧ Reads v (i + 1) l := by
  rw [show b :: l = [b] ++ l from rfl, Reads.append]
  constructor
  · intro ⟨h1, h2⟩; exact ⟨h1 0 b rfl, h2⟩
  · intro ⟨h1, h2⟩
    refine ⟨fun k x hk => ?_, h2⟩
    cases k with
    | zero => cases hk; exact h1
    | succ k => cases hk

theorem Reads.code {m v i a b} : Reads v i (Spec.code m (a ++ b)) ↔
    Reads v i (Spec.code m a) ∧ Reads v (i + size a) (Spec.code m b) := by
  rw [code_append, Reads.append, code_length]

theorem testBit_lt_zero {x n : Nat} (h : x < 2 ^ n) (k : Nat) (hk : n ≤ k) : x.testBit k = false :=
  Nat.testBit_lt_two_pow (Nat.lt_of_lt_of_le h (Nat.pow_le_pow_right (by decide) hk))

theorem bitsVal_natBits (v : List Bool) : ∀ (n i x : Nat), Reads v i (natBits n x) →
    bitsVal v i n = x % 2 ^ n := by
  intro n
  induction n with
  | zero => intro i x _; rw [Nat.pow_zero, Nat.mod_one]; rfl
  | succ n ih =>
    intro i x h
    unfold natBits at h
    rw [Reads.cons] at h
    unfold bitsVal
    rw [ih _ _ h.2]
    unfold bitAt
    rw [h.1, Nat.testBit_eq_decide_div_mod_eq, Nat.pow_succ, Nat.mod_mul]
    by_cases hb : x / 2 ^ n % 2 = 1
    · simp only [hb, decide_true, ite_true]; omega
    · have : x / 2 ^ n % 2 = 0 := by omega
      simp only [this]; simp

theorem bitsVal_reads {v : List Bool} {n i x : Nat} (h : Reads v i (natBits n x)) (hx : x < 2 ^ n) :
    bitsVal v i n = x := by
  rw [bitsVal_natBits v n i x h, Nat.mod_eq_of_lt hx]

/-! ## Layouts only grow -/

theorem layIter_prefix {f : Nat → List Item → Option (List Item)}
    (hf : ∀ i acc r, f i acc = some r → acc <+: r) :
    ∀ (n i : Nat) (acc r : List Item), layIter f n i acc = some r → acc <+: r := by
  intro n
  induction n with
  | zero => intro i acc r h; cases h; exact List.prefix_refl _
  | succ n ih =>
    intro i acc r h
    unfold layIter at h
    obtain ⟨r1, h1, h2⟩ := Option.bind_eq_some_iff.mp h
    exact (hf i acc r1 h1).trans (ih _ _ _ h2)

mutual

theorem layD_prefix (m : Mem) (u : Bool) : ∀ (d : Csn) (base : Nat) (acc r : List Item),
    layD m u base d acc = some r → acc <+: r
  | .bit off sz o, base, acc, r, h => by
    unfold layD at h; split at h
    · cases h; exact List.prefix_append _ _
    · cases h
  | .null i, base, acc, r, h => by unfold layD at h; cases h; exact List.prefix_refl _
  | .uint .., base, acc, r, h => by
    unfold layD at h; split at h
    · cases h; exact List.prefix_append _ _
    · cases h
  | .uintOfs .., base, acc, r, h => by
    unfold layD at h; split at h
    · cases h; exact List.prefix_append _ _
    · cases h
  | .uintLh .., base, acc, r, h => by unfold layD at h; cases h
  | .uintArr .., base, acc, r, h => by
    unfold layD at h; split at h
    · cases h; exact List.prefix_append _ _
    · cases h
  | .typ off o sub, base, acc, r, h => by
    unfold layD at h
    obtain ⟨r1, h1, h2⟩ := Option.bind_eq_some_iff.mp h
    split at h2
    · cases h2
    · cases h2; exact layL_prefix m sub _ _ _ _ h1
  | .tarr off sz esz count sub, base, acc, r, h => by
    unfold layD at h; split at h
    · exact layIter_prefix (fun i acc r h => layL_prefix m sub _ _ _ _ h) _ _ _ _ h
    · cases h
  | .vtarr ofs off sz esz cnt sub, base, acc, r, h => by
    unfold layD at h; dsimp only at h; split at h
    · exact layIter_prefix (fun i acc r h => layL_prefix m sub _ _ _ _ h) _ _ _ _ h
    · cases h
  | .bitmap .., base, acc, r, h => by
    unfold layD at h; split at h
    · cases h
    · split at h
      · cases h; exact List.prefix_append _ _
      · split at h
        · cases h; exact List.prefix_append _ _
        · cases h
  | .choice off sz sel subs, base, acc, r, h => by
    unfold layD at h; split at h
    · cases h
    · exact layC_prefix m sel subs _ _ _ _ _ h
  | .serialize off lb sub, base, acc, r, h => by
    unfold layD at h; split at h
    · cases h
    · obtain ⟨r1, h1, h2⟩ := Option.bind_eq_some_iff.mp h
      split at h2
      · cases h2; exact List.prefix_append _ _
      · cases h2
  | .varBmp .., base, acc, r, h => by
    unfold layD at h; dsimp only at h; split at h
    · split at h <;> (cases h; exact List.prefix_append _ _)
    · cases h
  | .leftBmp .., base, acc, r, h => by
    unfold layD at h; dsimp only at h; split at h
    · cases h; exact List.prefix_append _ _
    · cases h
  | .varArr .., base, acc, r, h => by
    unfold layD at h; dsimp only at h; split at h
    · cases h; exact List.prefix_append _ _
    · cases h
  | .recArr .., base, acc, r, h => by
    unfold layD at h; dsimp only at h; split at h
    · cases h; exact (List.prefix_append _ _).trans (List.prefix_append _ _)
    · cases h
  | .recTArr off sz esz cap cnt sub, base, acc, r, h => by
    unfold layD at h; dsimp only at h; split at h
    · obtain ⟨r1, h1, h2⟩ := Option.bind_eq_some_iff.mp h
      cases h2
      exact (layIter_prefix (fun i acc r h => (List.prefix_append _ _).trans (layL_prefix m sub _ _ _ _ h))
        _ _ _ _ h1).trans (List.prefix_append _ _)
    · cases h
  | .recTArr1 off sz esz cap cnt sub, base, acc, r, h => by
    unfold layD at h; dsimp only at h; split at h
    · obtain ⟨r1, h1, h2⟩ := Option.bind_eq_some_iff.mp h
      cases h2
      refine (layIter_prefix (fun i acc r h => ?_) _ _ _ _ h1).trans (List.prefix_append _ _)
      split at h
      · exact layL_prefix m sub _ _ _ _ h
      · exact (List.prefix_append _ _).trans (layL_prefix m sub _ _ _ _ h)
    · cases h
  | .fixed .., base, acc, r, h => by
    unfold layD at h; split at h
    · cases h
    · cases h; exact List.prefix_append _ _
  | .padding, base, acc, r, h => by unfold layD at h; cases h
  | .cbCopy .., base, acc, r, h => by unfold layD at h; cases h
  | .cbTddMap .., base, acc, r, h => by unfold layD at h; cases h
  | .cbTddCells .., base, acc, r, h => by unfold layD at h; cases h
  | .trap .., base, acc, r, h => by unfold layD at h; cases h
  | .union .., base, acc, r, h => by unfold layD at h; cases h
  | .exist .., base, acc, r, h => by unfold layD at h; cases h
  | .nextExist .., base, acc, r, h => by unfold layD at h; cases h

theorem layC_prefix (m : Mem) : ∀ (sel : List (Nat × Nat)) (subs : List Csn) (base off i : Nat)
    (acc r : List Item), layC m base off i sel subs acc = some r → acc <+: r
  | [], [], _, _, _, _, _, h => by unfold layC at h; cases h
  | [], _ :: _, _, _, _, _, _, h => by unfold layC at h; cases h
  | _ :: _, [], _, _, _, _, _, h => by unfold layC at h; cases h
  | b :: sel, d :: ds, base, off, i, acc, r, h => by
    unfold layC at h
    split at h
    · exact (List.prefix_append _ _).trans (layD_prefix m false d _ _ _ h)
    · split at h
      · split at h
        · exact layC_prefix m sel ds _ _ _ _ _ h
        · cases h
      · cases h

theorem layL_prefix (m : Mem) : ∀ (ds : List Csn) (base : Nat) (c : Ctl) (acc r : List Item),
    layL m base ds c acc = some r → acc <+: r
  | [], base, c, acc, r, h => by
    unfold layL at h
    split at h
    · cases h; exact List.prefix_refl _
    · cases h
  | d :: ds, base, c, acc, r, h => by
    unfold layL at h
    split at h
    · exact layL_prefix m ds _ _ _ _ h
    · split at h
      · obtain ⟨r1, h1, h2⟩ := Option.bind_eq_some_iff.mp h
        exact (layD_prefix m true d _ _ _ h1).trans (layL_prefix m ds _ _ _ _ h2)
      · split at h
        · split at h
          · exact (List.prefix_append _ _).trans (layL_prefix m ds _ _ _ _ h)
          · cases h
        · split at h
          · dsimp only at h
            obtain ⟨r1, h1, h2⟩ := Option.bind_eq_some_iff.mp h
            split at h2
            · cases h2
            · cases h2
              exact (List.prefix_append _ _).trans (layL_prefix m ds _ _ _ _ h1)
          · cases h
        · cases h
        · obtain ⟨r1, h1, h2⟩ := Option.bind_eq_some_iff.mp h
          exact (layD_prefix m false _ _ _ _ h1).trans (layL_prefix m ds _ _ _ _ h2)

end

end Verif.Csn1
