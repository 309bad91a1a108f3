import Verif.Csn1.SentLemmas
import Verif.Csn1.Recv
import Verif.Spec.CsnRecv

/-!
# Rules to read off the bits of a table
-/
namespace Verif.Csn1

open Spec

/-- Every address in `C` belongs to a part, or is zero. -/
def Cov (m : Mem) (l : List Item) (C : List Nat) : Prop := ∀ a ∈ C, carried l a = true ∨ m a = 0

/-- The lines `t` at `base` stand for the bits `B`, and the addresses in `C` belong to them or are zero. -/
def Lay (m : Mem) (base : Nat) (t : List Csn) (B : List Bool) (C : List Nat) : Prop :=
  ∃ l, (∀ rest acc, layL m base (t ++ rest) {} acc = layL m base rest {} (acc ++ l)) ∧ (∀ i ∈ l, i.Fits m) ∧
    code m l = B ∧ Cov m l C

/-- The same for one line, as an alternative of a union or not. -/
def LayD (m : Mem) (u : Bool) (base : Nat) (d : Csn) (B : List Bool) (C : List Nat) : Prop :=
  ∃ l, (∀ acc, layD m u base d acc = some (acc ++ l)) ∧ (∀ i ∈ l, i.Fits m) ∧ code m l = B ∧ Cov m l C

theorem Lay.cast {m base t B B' C C'} (h : Lay m base t B C) (hb : B = B') (hc : ∀ a ∈ C', a ∈ C) : Lay m base t B' C' := by
  obtain ⟨l, h1, h2, h3, h4⟩ := h
  exact ⟨l, h1, h2, h3.trans hb, fun a ha => h4 a (hc a ha)⟩

theorem Lay.nil {m base} : Lay m base [] [] [] :=
  ⟨[], fun rest acc => by rw [List.append_nil, List.nil_append], fun _ h => (by cases h), rfl, fun _ h => (by cases h)⟩

theorem covers_append {m : Mem} {l l' : List Item} {C C' : List Nat} (h : Cov m l C) (h' : Cov m l' C') :
    Cov m (l ++ l') (C ++ C') := by
  intro a ha
  rw [carried_append]
  rcases List.mem_append.mp ha with ha | ha
  · rcases h a ha with h | h
    · rw [h]; exact Or.inl rfl
    · exact Or.inr h
  · rcases h' a ha with h | h
    · rw [h, Bool.or_true]; exact Or.inl rfl
    · exact Or.inr h

theorem Lay.zero {m base t B C} (C' : List Nat) (h : Lay m base t B C) (hz : ∀ a ∈ C', m a = 0) : Lay m base t B (C' ++ C) := by
  obtain ⟨l, h1, h2, h3, h4⟩ := h
  exact ⟨l, h1, h2, h3, covers_append (l := []) (fun a ha => Or.inr (hz a ha)) h4⟩

theorem Lay.append {m base t t' B B' C C'} (h : Lay m base t B C) (h' : Lay m base t' B' C') :
    Lay m base (t ++ t') (B ++ B') (C ++ C') := by
  obtain ⟨l, h1, h2, h3, h4⟩ := h
  obtain ⟨l', h1', h2', h3', h4'⟩ := h'
  refine ⟨l ++ l', fun rest acc => ?_, forall_mem_append h2 h2', by rw [code_append, h3, h3'], covers_append h4 h4'⟩
  rw [List.append_assoc, h1, h1', List.append_assoc]

theorem Lay.line {m base d B C t B' C'} (h : LayD m false base d B C) (h' : Lay m base t B' C') :
    Lay m base (d :: t) (B ++ B') (C ++ C') := by
  obtain ⟨l, h1, h2, h3, h4⟩ := h
  refine Lay.append (t := [d]) ⟨l, fun rest acc => ?_, h2, h3, h4⟩ h'
  show layL m base (d :: rest) {} acc = _
  have h1 := h1 acc
  conv => lhs; unfold layL
  rw [if_neg (by decide)]
  cases d <;> dsimp only <;> first | (rw [h1]; rfl) | (exfalso; unfold layD at h1; cases h1; done)

theorem layL_skip {m base p} : ∀ (a b : List Csn) (acc : List Item),
    layL m base (a ++ b) { skip := a.length, pick := p } acc = layL m base b { skip := 0, pick := p } acc
  | [], _, _ => rfl
  | d :: a, b, acc => by
    conv => lhs; unfold layL
    dsimp only [List.cons_append, List.length_cons]
    rw [if_pos (by omega)]
    exact layL_skip a b acc

theorem layL_exist {m base off sz n b} {ds : List Csn} {acc : List Item} (hz : 0 < sz) (hn : n ≤ ds.length)
    (hnull : (ds.take n).all Csn.mayBeNull = false) :
    layL m base (.nextExist false off sz n b :: ds) {} acc =
      layL m base ds { skip := if m (base + off) % 256 ≠ 0 then 0 else n } (acc ++ [.fld (base + off) 1 1 0]) := by
  conv => lhs; unfold layL
  rw [if_neg (by decide)]
  dsimp only
  rw [if_pos ⟨rfl, hz, hn⟩, hnull]
  simp

theorem Lay.opt {m base off sz n b} {sub t : List Csn} {α : Type} {o : Option α} {f : α → List Bool} {C B' C'}
    (hn : sub.length = n) (hz : 0 < sz) (hnull : sub.all Csn.mayBeNull = false)
    (hm : m (base + off) % 256 = if o.isSome then 1 else 0) (hs : ∀ x, o = some x → Lay m base sub (f x) C)
    (h0 : o = none → ∀ a ∈ C, m a = 0)
    (h' : Lay m base t B' C') :
    Lay m base (.nextExist false off sz n b :: (sub ++ t)) (Spec.opt (o.map f) ++ B')
      ((base + off) :: C ++ C') := by
  subst hn
  obtain ⟨l', h1', h2', h3', h4'⟩ := h'
  have hfit : (Item.fld (base + off) 1 1 0).Fits m := fits_val (getLe_one m _) (by rw [hm]; split <;> decide)
  have hcov : Cov m [Item.fld (base + off) 1 1 0] [base + off] := by
    intro a ha
    obtain rfl := List.mem_singleton.mp ha
    simp [carried, Item.covers]
  cases o with
  | none =>
    refine ⟨.fld (base + off) 1 1 0 :: l', fun rest acc => ?_, ?_, ?_, ?_⟩
    · rw [List.cons_append, List.append_assoc, layL_exist hz (by simp) (by rw [List.take_left]; exact hnull), if_neg (by rw [hm]; simp),
        layL_skip, h1', List.append_assoc]
      rfl
    · intro i hi
      rcases List.mem_cons.mp hi with rfl | hi
      · exact hfit
      · exact h2' i hi
    · rw [code_cons, h3']
      show natBits 1 (getLe m (base + off) 1 - 0) ++ _ = _
      rw [getLe_one, hm]
      simp [Spec.opt, natBits]
    · exact covers_append hcov (covers_append (l := []) (fun a ha => Or.inr (h0 rfl a ha)) h4')
  | some x =>
    obtain ⟨l, h1, h2, h3, h4⟩ := hs x rfl
    refine ⟨.fld (base + off) 1 1 0 :: (l ++ l'), fun rest acc => ?_, ?_, ?_, ?_⟩
    · rw [List.cons_append, List.append_assoc, layL_exist hz (by simp) (by rw [List.take_left]; exact hnull), if_pos (by rw [hm]; simp),
        h1, h1', List.append_assoc, List.append_assoc]
      rfl
    · intro i hi
      rcases List.mem_cons.mp hi with rfl | hi
      · exact hfit
      · exact forall_mem_append h2 h2' i hi
    · rw [code_cons, code_append, h3, h3']
      show natBits 1 (getLe m (base + off) 1 - 0) ++ _ = _
      rw [getLe_one, hm]
      simp [Spec.opt, natBits]
    · exact covers_append hcov (covers_append h4 h4')

theorem Lay.union {m base off sz i} {pre post t : List Csn} {d : Csn} {B C B' C'} (hz : 0 < sz) (hi : pre.length = i)
    (hc : pre.length + 1 + post.length ≤ 16)
    (hm : m (base + off) % 256 = i) (hb : i < 2 ^ ixBits (pre.length + 1 + post.length)) (h : LayD m true base d B C) (h' : Lay m base t B' C') :
    Lay m base (.union false off sz (pre.length + 1 + post.length) :: (pre ++ d :: post ++ t))
      (natBits (ixBits (pre.length + 1 + post.length)) i ++ B ++ B') ((base + off) :: C ++ C') := by
  subst hi
  obtain ⟨l, h1, h2, h3, h4⟩ := h
  obtain ⟨l', h1', h2', h3', h4'⟩ := h'
  refine ⟨.fld (base + off) 1 (ixBits (pre.length + 1 + post.length)) 0 :: (l ++ l'), fun rest acc => ?_, ?_, ?_, ?_⟩
  · conv => lhs; unfold layL
    dsimp only [List.cons_append]
    rw [if_neg (by decide), if_pos ⟨rfl, by omega, hc, hz⟩, hm]
    rw [show min (pre.length + 1) (pre.length + 1 + post.length) = pre.length + 1 by omega,
      show pre.length + 1 - 1 = pre.length by omega,
      show pre.length + 1 + post.length - (pre.length + 1) = post.length by omega]
    rw [show pre ++ d :: post ++ t ++ rest = pre ++ (d :: (post ++ (t ++ rest))) by simp]
    rw [layL_skip]
    conv => lhs; unfold layL
    rw [if_neg (by simp)]
    dsimp only
    rw [h1, Option.bind_some, layL_skip, h1']
    simp [List.append_assoc]
  · intro j hj
    rcases List.mem_cons.mp hj with rfl | hj
    · exact fits_val (getLe_one m _) (by rw [hm]; exact hb)
    · exact forall_mem_append h2 h2' j hj
  · rw [code_cons, code_append, h3, h3']
    show natBits _ (getLe m (base + off) 1 - 0) ++ _ = _
    rw [getLe_one, hm, Nat.sub_zero, List.append_assoc]
  · refine covers_append (C := [base + off]) (l := [.fld (base + off) 1 _ 0]) (fun a ha => ?_) (covers_append h4 h4')
    obtain rfl := List.mem_singleton.mp ha
    simp [carried, Item.covers]

/-! Lines. -/

theorem LayD.uint {m u base off sz bits f x} (hw : uintW bits ≤ sz) (hb : bits ≤ 32)
    (hm : getLe m (base + off) (uintW bits) = x) (hx : x < 2 ^ bits) :
    LayD m u base (.uint off sz bits f) (natBits bits x) (List.range' (base + off) (uintW bits)) := by
  refine ⟨[.fld (base + off) (uintW bits) bits 0], fun acc => ?_, ?_, ?_, ?_⟩
  · unfold layD
    rw [if_pos ⟨hw, hb⟩]
  · intro i hi
    obtain rfl := List.mem_singleton.mp hi
    exact fits_val hm hx
  · rw [fld_code hm, code_nil, List.append_nil]
  · intro a ha
    have := List.mem_range'_1.mp ha
    simp [carried, Item.covers]
    omega

/-- An octet member. -/
theorem LayD.oct {m u base off sz bits f x} (hw : 1 ≤ sz) (hb : bits ≤ 8) (hm : m (base + off) % 256 = x) (hx : x < 2 ^ bits) :
    LayD m u base (.uint off sz bits f) (natBits bits x) [base + off] := by
  have hw1 : uintW bits = 1 := by unfold uintW; rw [if_pos hb]
  have := LayD.uint (m := m) (u := u) (base := base) (off := off) (sz := sz) (bits := bits) (f := f) (x := x)
    (by omega) (by omega) (by rw [hw1, getLe_one, hm]) hx
  rw [hw1] at this
  exact this

theorem LayD.typ {m u base off sub B C} (h : Lay m (base + off) sub B C) : LayD m u base (.typ off false sub) B C := by
  obtain ⟨l, h1, h2, h3, h4⟩ := h
  refine ⟨l, fun acc => ?_, h2, h3, h4⟩
  unfold layD
  have := h1 [] acc
  rw [List.append_nil] at this
  rw [this]
  unfold layL
  rw [if_pos ⟨rfl, rfl⟩, Option.bind_some, if_neg (by simp)]

theorem LayD.fixed {m base bits value} (h : value < 2 ^ bits) : LayD m false base (.fixed bits value) (natBits bits value) [] := by
  refine ⟨[.con bits value], fun acc => ?_, ?_, ?_, fun _ h => nomatch h⟩
  · unfold layD; rw [if_neg (by decide)]
  · intro i hi
    obtain rfl := List.mem_singleton.mp hi
    exact h
  · rw [con_code, code_nil, List.append_nil]

theorem octets_lay {m bits} : ∀ (l : List Nat) (a : Nat), (∀ k x, l[k]? = some x → m (a + k) % 256 = x ∧ x < 2 ^ bits) →
    (∀ i ∈ octets bits a l.length, i.Fits m) ∧ code m (octets bits a l.length) = l.flatMap (natBits bits) ∧
    ∀ k, k < l.length → carried (octets bits a l.length) (a + k) = true
  | [], a, _ => ⟨fun _ h => (by cases h), rfl, fun k h => absurd h (Nat.not_lt_zero k)⟩
  | x :: l, a, h => by
    have h0 := h 0 x rfl
    obtain ⟨g1, g2, g3⟩ := octets_lay l (a + 1) fun k y hk => by
      rw [show a + 1 + k = a + (k + 1) by omega]; exact h (k + 1) y hk
    rw [Nat.add_zero] at h0
    refine ⟨?_, ?_, ?_⟩
    · intro i hi
      rcases List.mem_cons.mp hi with rfl | hi
      · exact fits_val (getLe_one m _) (by rw [h0.1]; exact h0.2)
      · exact g1 i hi
    · show code m (_ :: octets bits (a + 1) l.length) = _
      rw [fld_code (x := x) (by rw [getLe_one, h0.1]), g2, List.flatMap_cons]
    · intro k hk
      show carried (_ :: octets bits (a + 1) l.length) _ = true
      rw [carried_cons]
      cases k with
      | zero => simp [Item.covers]
      | succ k =>
        rw [show a + (k + 1) = a + 1 + k by omega, g3 k (by simp at hk; omega), Bool.or_true]

theorem LayD.arr {m u base off sz bits} {l : List Nat} (hb : bits ≤ 8) (hz : l.length ≤ sz)
    (h : ∀ k x, l[k]? = some x → m (base + off + k) % 256 = x ∧ x < 2 ^ bits) :
    LayD m u base (.uintArr off sz bits l.length) (l.flatMap (natBits bits)) ((List.range l.length).map (base + off + ·)) := by
  obtain ⟨h1, h2, h3⟩ := octets_lay l (base + off) h
  refine ⟨octets bits (base + off) l.length, fun acc => ?_, h1, h2, fun a ha => ?_⟩
  · unfold layD; rw [if_pos ⟨hb, hz⟩]
  · obtain ⟨k, hk, rfl⟩ := List.mem_map.mp ha
    exact Or.inl (h3 k (List.mem_range.mp hk))

theorem LayD.bitmap {m base off sz} {l : List Nat} (hl : l.length = 8) (hz : 8 ≤ sz)
    (h : ∀ k x, l[k]? = some x → m (base + off + k) % 256 = x ∧ x < 2 ^ 8) :
    LayD m false base (.bitmap off sz 64) (l.flatMap (natBits 8)) ((List.range 8).map (base + off + ·)) := by
  obtain ⟨h1, h2, h3⟩ := octets_lay l (base + off) h
  rw [hl] at h1 h2 h3
  refine ⟨octets 8 (base + off) 8, fun acc => ?_, h1, h2, fun a ha => ?_⟩
  · unfold layD; rw [if_neg (by decide), if_neg (by simp), if_pos ⟨rfl, hz⟩]
  · obtain ⟨k, hk, rfl⟩ := List.mem_map.mp ha
    exact Or.inl (h3 k (List.mem_range.mp hk))

theorem layL_done {m base acc} : layL m base [] {} acc = some acc := by
  unfold layL
  rw [if_pos ⟨rfl, rfl⟩]

theorem layIter_lay {m} {sub : List Csn} {a esz : Nat} {B : Nat → List Bool} {C : Nat → List Nat} : ∀ (n i : Nat),
    (∀ k, i ≤ k → k < i + n → Lay m (a + k * esz) sub (B k) (C k)) →
    ∃ l, (∀ acc, layIter (fun i acc => layL m (a + i * esz) sub {} acc) n i acc = some (acc ++ l)) ∧
      (∀ j ∈ l, j.Fits m) ∧ code m l = (List.range' i n).flatMap B ∧
      Cov m l ((List.range' i n).flatMap C)
  | 0, i, _ => ⟨[], fun acc => by rw [List.append_nil]; rfl, fun _ h => (by cases h), rfl, fun _ h => (by cases h)⟩
  | n + 1, i, h => by
    obtain ⟨l1, g1, g2, g3, g4⟩ := h i (Nat.le_refl _) (by omega)
    obtain ⟨l2, k1, k2, k3, k4⟩ := layIter_lay (B := B) (C := C) n (i + 1) fun k hk hk' => h k (by omega) (by omega)
    refine ⟨l1 ++ l2, fun acc => ?_, forall_mem_append g2 k2, ?_, ?_⟩
    · unfold layIter
      have := g1 [] acc
      rw [List.append_nil] at this
      rw [this, layL_done, Option.bind_some, k1, List.append_assoc]
    · rw [code_append, g3, k3, List.range'_succ, List.flatMap_cons]
    · rw [List.range'_succ, List.flatMap_cons]
      exact covers_append g4 k4

theorem LayD.tarr {m u base off sz esz n} {sub : List Csn} {B : Nat → List Bool} {C : Nat → List Nat} (hz : n * esz ≤ sz)
    (h : ∀ k, k < n → Lay m (base + off + k * esz) sub (B k) (C k)) :
    LayD m u base (.tarr off sz esz n sub) ((List.range n).flatMap B) ((List.range n).flatMap C) := by
  obtain ⟨l, h1, h2, h3, h4⟩ := layIter_lay (B := B) (C := C) n 0 fun k _ hk => h k (by omega)
  rw [← List.range_eq_range'] at h3 h4
  refine ⟨l, fun acc => ?_, h2, h3, h4⟩
  unfold layD
  rw [if_pos hz]
  exact h1 acc

end Verif.Csn1
