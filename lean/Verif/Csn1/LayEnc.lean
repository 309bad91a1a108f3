import Verif.Csn1.LayDec

/-!
# The encoder writes layouts
-/
namespace Verif.Csn1

open Spec

/-- From state `s` to `s'` the parts `new` were written. -/
structure Wrote (m : Mem) (new : List Item) (s s' : ESt) : Prop where
  wi : s'.wi = s.wi + size new
  bits : ∀ k b, (code m new)[k]? = some b → s'.vec (s.wi + k) = b
  low : ∀ i, i < s.wi → s'.vec i = s.vec i

theorem Wrote.nil {m s} : Wrote m [] s s :=
  ⟨rfl, fun k b h => (by revert h; exact fun h => nomatch h), fun _ _ => rfl⟩

theorem Wrote.trans {m a b s1 s2 s3} (h1 : Wrote m a s1 s2) (h2 : Wrote m b s2 s3) : Wrote m (a ++ b) s1 s3 := by
  refine ⟨by rw [h2.wi, h1.wi, size_append]; omega, fun k x hk => ?_, fun i hi => ?_⟩
  · rw [code_append] at hk
    by_cases hl : k < (code m a).length
    · rw [List.getElem?_append_left hl] at hk
      rw [h2.low _ (by rw [h1.wi, ← code_length m]; omega)]
      exact h1.bits k x hk
    · rw [List.getElem?_append_right (by omega)] at hk
      have := h2.bits _ x hk
      rw [h1.wi, code_length] at this
      rw [code_length] at hl
      rw [show s1.wi + k = s1.wi + size a + (k - size a) by omega]
      exact this
  · rw [h2.low i (by rw [h1.wi]; omega), h1.low i hi]

/-- Only the vector and the write index matter. -/
theorem Wrote.congr {m new s s' t} (h : Wrote m new s s') (h1 : t.vec = s'.vec) (h2 : t.wi = s'.wi) :
    Wrote m new s t :=
  ⟨by rw [h2, h.wi], fun k b hk => by rw [h1]; exact h.bits k b hk, fun i hi => by rw [h1]; exact h.low i hi⟩

theorem Wrote.from {m new s s' t} (h : Wrote m new s s') (h1 : t.vec = s.vec) (h2 : t.wi = s.wi) :
    Wrote m new t s' :=
  ⟨by rw [h2, h.wi], fun k b hk => by rw [h2]; exact h.bits k b hk, fun i hi => by rw [h1]; exact h.low i (by omega)⟩

theorem natBits_get : ∀ (n x k : Nat) (b : Bool), (natBits n x)[k]? = some b → k < n ∧ x.testBit (n - 1 - k) = b := by
  intro n
  induction n with
  | zero => intro x k b h; cases h
  | succ n ih =>
    intro x k b h
    unfold natBits at h
    cases k with
    | zero => cases h; exact ⟨by omega, rfl⟩
    | succ k =>
      rw [List.getElem?_cons_succ] at h
      obtain ⟨h1, h2⟩ := ih x k b h
      refine ⟨by omega, ?_⟩
      rw [← h2]
      congr 1
      omega

theorem put_wrote {m new len x n} {s : ESt} (h : s.wi + n ≤ len) (hc : code m new = natBits n x) (hz : size new = n) :
    Wrote m new s (s.put len x n) := by
  refine ⟨?_, fun k b hk => ?_, fun i hi => ?_⟩
  · unfold ESt.put; dsimp only; rw [if_pos h, hz]
  · rw [hc] at hk
    obtain ⟨h1, h2⟩ := natBits_get n x k b hk
    unfold ESt.put; dsimp only
    rw [if_pos ⟨by omega, by omega, by omega⟩, ← h2]
    congr 1; omega
  · unfold ESt.put; dsimp only
    rw [if_neg (by omega)]

theorem con_wrote {m len x n} {s : ESt} (h : s.wi + n ≤ len) : Wrote m [.con n x] s (s.put len x n) :=
  put_wrote h (by rw [code_cons, code_nil, List.append_nil]; rfl) size_con

theorem fld_wrote {m len base off sz k w bits} {s : ESt} (hw : k + w ≤ sz) (h : s.wi + bits ≤ len) :
    ∃ s', wrBits m len base off sz k w bits s = .ok s' ∧ Wrote m [.fld (base + off + k) w bits 0] s s' ∧ s'.rem = s.rem := by
  refine ⟨s.put len (getLe m (base + off + k) w) bits, ?_, ?_, rfl⟩
  · unfold wrBits; rw [if_pos hw]
  · exact put_wrote h (by rw [code_cons, code_nil, List.append_nil]; rfl) size_fld

theorem implied_wrote {m a x} {s : ESt} : Wrote m [.implied a x] s s :=
  ⟨rfl, fun k b h => (by revert h; exact fun h => nomatch h), fun _ _ => rfl⟩

theorem arr_wrote {m len base off sz bits} : ∀ (n k : Nat) (s : ESt), k + n ≤ sz → s.wi + bits * n ≤ len →
    ∃ s', wrArr m len base off sz bits n k s = .ok s' ∧ Wrote m (octets bits (base + off + k) n) s s' ∧ s'.rem = s.rem := by
  intro n
  induction n with
  | zero => intro k s _ _; exact ⟨s, rfl, Wrote.nil, rfl⟩
  | succ n ih =>
    intro k s hk hl
    rw [Nat.mul_succ] at hl
    obtain ⟨s1, e1, w1, r1⟩ := fld_wrote (m := m) (len := len) (base := base) (off := off) (sz := sz) (k := k) (w := 1)
      (bits := bits) (s := s) (by omega) (by omega)
    have hw := w1.wi
    rw [size_fld] at hw
    obtain ⟨s2, e2, w2, r2⟩ := ih (k + 1) s1 (by omega) (by omega)
    refine ⟨s2, ?_, w1.trans w2, by rw [r2, r1]⟩
    unfold wrArr
    rw [e1, CRes.bind_ok, e2]

/-- What encoding with `g` needs to follow a layout `f`: there is room for the parts that `f` adds. -/
def Emits (m : Mem) (len : Nat) (f : List Item → Option (List Item)) (g : ESt → CRes ESt) : Prop :=
  ∀ acc new s, f acc = some (acc ++ new) → (∀ i ∈ new, i.Fits m) → s.wi + size new ≤ len →
    ((size new : Nat) : Int) ≤ s.rem →
    ∃ s', g s = .ok s' ∧ Wrote m new s s' ∧ s'.rem = s.rem - ((size new : Nat) : Int) + ((skew new : Nat) : Int)

theorem Emits.seq {m len f1 f2 g1 g2} (h1 : Emits m len f1 g1) (p1 : Grows f1) (h2 : Emits m len f2 g2)
    (p2 : Grows f2) : Emits m len (fun acc => (f1 acc).bind f2) (fun s => g1 s >>= g2) := by
  intro acc new s h hf hl hs
  obtain ⟨r1, e1, e2⟩ := Option.bind_eq_some_iff.mp h
  obtain ⟨n1, rfl⟩ := p1 _ _ e1
  obtain ⟨n2, hn⟩ := p2 _ _ e2
  rw [List.append_assoc] at hn
  obtain rfl := List.append_cancel_left hn
  rw [size_append] at hs hl ⊢
  push_cast at hs
  obtain ⟨s1, k1, w1, b1⟩ := h1 acc n1 s e1 (fun i hi => hf i (List.mem_append_left _ hi)) (by omega) (by omega)
  rw [← List.append_assoc] at e2
  have hw := w1.wi
  obtain ⟨s2, k2, w2, b2⟩ := h2 (acc ++ n1) n2 s1 e2 (fun i hi => hf i (List.mem_append_right _ hi)) (by omega) (by omega)
  refine ⟨s2, ?_, w1.trans w2, by rw [skew_append]; push_cast; omega⟩
  show (g1 s >>= g2) = _
  rw [k1, CRes.bind_ok, k2]

theorem emits_iter {m len} {f : Nat → List Item → Option (List Item)} {g : Nat → ESt → CRes ESt} {hi : Nat}
    (hg : ∀ i, i < hi → Emits m len (f i) (g i)) (pf : ∀ i, Grows (f i)) :
    ∀ (n i : Nat), i + n ≤ hi → Emits m len (layIter f n i) (iterE g n i) := by
  intro n
  induction n with
  | zero =>
    intro i _ acc new s h hf hl hs
    obtain rfl := append_eq_self (Option.some.inj h)
    exact ⟨s, rfl, Wrote.nil, by simp [size_nil, skew]⟩
  | succ n ih =>
    intro i hi
    have := (hg i (by omega)).seq (pf i) (ih (i + 1) (by omega)) (fun acc r h => layIter_prefix (fun i acc r h => pf i acc r h) _ _ _ _ h)
    intro acc new s h
    exact this acc new s h

theorem recArr_emit {m len base off sz bits} : ∀ (n k : Nat) (s : ESt), k + n ≤ sz →
    s.wi + (1 + bits) * n ≤ len → (((1 + bits) * n : Nat) : Int) ≤ s.rem →
    ∃ s', recArrE m len base off sz bits n k s = .ok s' ∧ Wrote m (taggedOctets bits (base + off + k) n) s s' ∧
      s'.rem = s.rem - (((1 + bits) * n : Nat) : Int) := by
  intro n
  induction n with
  | zero => intro k s _ _ _; exact ⟨s, rfl, Wrote.nil, by simp [octets, skew]⟩
  | succ n ih =>
    intro k s hk hl hs
    rw [Nat.mul_succ] at hl hs ⊢
    have hq : (0 : Int) ≤ (((1 + bits) * n : Nat) : Int) := Int.natCast_nonneg _
    rw [Int.natCast_add, Int.natCast_add] at hs
    have w0 := con_wrote (m := m) (x := 1) (s := s) (len := len) (n := 1) (by omega)
    have hw0 := w0.wi
    rw [size_con] at hw0
    obtain ⟨s1, e1, w1, r1⟩ := fld_wrote (m := m) (len := len) (base := base) (off := off) (sz := sz) (k := k) (w := 1)
      (bits := bits) (s := (s.put len 1 1).took 1) (by omega) (by show (s.put len 1 1).wi + _ ≤ _; omega)
    have hw1 := w1.wi
    rw [size_fld] at hw1
    have hw1 : s1.wi = (s.put len 1 1).wi + bits := hw1
    have hr1 : s1.rem = s.rem - 1 := r1
    obtain ⟨s2, e2, w2, r2⟩ := ih (k + 1) (s1.took bits) (by omega) (by show s1.wi + _ ≤ _; omega)
      (by show _ ≤ s1.rem - _; omega)
    refine ⟨s2, ?_, ?_, ?_⟩
    · unfold recArrE
      dsimp only
      rw [e1, CRes.bind_ok, if_neg (by omega), e2]
    · have := (w0.trans (w1.from rfl rfl)).trans (w2.from rfl rfl)
      exact this
    · rw [r2]
      show s1.rem - _ - _ = _
      rw [Int.natCast_add, Int.natCast_add]
      omega

theorem recTArr_emit {m len} {f : Nat → List Item → Option (List Item)} {g : Nat → ESt → CRes ESt} {hi : Nat}
    (hg : ∀ i, i < hi → Emits m len (f i) (g i)) (pf : ∀ i, Grows (f i)) :
    ∀ (n i : Nat) (acc new : List Item) (s : ESt), i + n ≤ hi →
      layIter (fun i acc => f i (acc ++ [.con 1 1])) n i acc = some (acc ++ new) →
      (∀ x ∈ new, x.Fits m) → s.wi + size new ≤ len → ((size new : Nat) : Int) ≤ s.rem →
      ∃ s', recTArrE len g n i s = .ok s' ∧ Wrote m new s s' ∧ s'.rem = s.rem - ((size new : Nat) : Int) + ((skew new : Nat) : Int) := by
  intro n
  induction n with
  | zero =>
    intro i acc new s _ h hf hl hs
    obtain rfl := append_eq_self (Option.some.inj h)
    exact ⟨s, rfl, Wrote.nil, by simp [size_nil, skew]⟩
  | succ n ih =>
    intro i acc new s hi h hf hl hs
    unfold layIter at h
    obtain ⟨r1, e1, e2⟩ := Option.bind_eq_some_iff.mp h
    obtain ⟨n1, rfl⟩ := pf i _ _ e1
    obtain ⟨n2, hn⟩ := layIter_prefix (fun i acc r h => (List.prefix_append _ _).trans (pf i _ _ h)) _ _ _ _ e2
    rw [List.append_assoc, List.append_assoc] at hn
    obtain rfl := List.append_cancel_left hn
    rw [size_append, size_append, size_con] at hs hl ⊢
    push_cast at hs
    have w0 := con_wrote (m := m) (x := 1) (s := s) (len := len) (n := 1) (by omega)
    have hw0 := w0.wi
    rw [size_con] at hw0
    obtain ⟨s1, k1, w1, b1⟩ := hg i (by omega) (acc ++ [.con 1 1]) n1 ((s.put len 1 1).took 1) e1
      (fun x hx => hf x (List.mem_append_right _ (List.mem_append_left _ hx)))
      (by show (s.put len 1 1).wi + _ ≤ _; omega) (by show _ ≤ s.rem - (1 : Nat); push_cast; omega)
    have hw1 := w1.wi
    have hw1 : s1.wi = (s.put len 1 1).wi + size n1 := hw1
    have b1 : s1.rem = s.rem - (1 : Nat) - (size n1 : Nat) + (skew n1 : Nat) := b1
    push_cast at b1
    have e2' : layIter (fun i acc => f i (acc ++ [.con 1 1])) n (i + 1) (acc ++ ([.con 1 1] ++ n1)) =
        some (acc ++ ([.con 1 1] ++ n1) ++ n2) := by
      rw [← List.append_assoc acc, e2]
      simp [List.append_assoc]
    obtain ⟨s2, k2, w2, b2⟩ := ih (i + 1) (acc ++ ([.con 1 1] ++ n1)) n2 s1 (by omega) e2'
      (fun x hx => hf x (List.mem_append_right _ (List.mem_append_right _ hx))) (by omega) (by omega)
    refine ⟨s2, ?_, ?_, by rw [skew_append, skew_append]; show _ = _ - _ + ((0 + _ : Nat) : Int); push_cast; omega⟩
    · unfold recTArrE
      rw [k1, CRes.bind_ok, if_neg (by omega), k2]
    · have := (w0.trans (w1.from rfl rfl)).trans w2
      rw [List.append_assoc] at this
      exact this

theorem recTArr1_emit {m len} {f : Nat → List Item → Option (List Item)} {g : Nat → ESt → CRes ESt} {hi : Nat}
    (hg : ∀ i, i < hi → Emits m len (f i) (g i)) (pf : ∀ i, Grows (f i)) :
    ∀ (n i : Nat) (acc new : List Item) (s : ESt), i + n ≤ hi →
      layIter (fun i acc => f i (if i = 0 then acc else acc ++ [.con 1 1])) n i acc = some (acc ++ new) →
      (∀ x ∈ new, x.Fits m) → s.wi + size new ≤ len → ((size new : Nat) : Int) ≤ s.rem →
      ∃ s', recTArr1E len g n i s = .ok s' ∧ Wrote m new s s' ∧ s'.rem = s.rem - ((size new : Nat) : Int) + ((skew new : Nat) : Int) := by
  intro n
  induction n with
  | zero =>
    intro i acc new s _ h hf hl hs
    obtain rfl := append_eq_self (Option.some.inj h)
    exact ⟨s, rfl, Wrote.nil, by simp [size_nil, skew]⟩
  | succ n ih =>
    intro i acc new s hi h hf hl hs
    unfold layIter at h
    obtain ⟨r1, e1, e2⟩ := Option.bind_eq_some_iff.mp h
    have hpre : ∀ i acc r, f i (if i = 0 then acc else acc ++ [.con 1 1]) = some r → acc <+: r := by
      intro i acc r h
      refine List.IsPrefix.trans ?_ (pf i _ _ h)
      split
      · exact List.prefix_refl _
      · exact List.prefix_append _ _
    by_cases h0 : i = 0
    · subst h0
      simp only [ite_true] at e1
      obtain ⟨n1, rfl⟩ := pf 0 _ _ e1
      obtain ⟨n2, hn⟩ := layIter_prefix hpre _ _ _ _ e2
      rw [List.append_assoc] at hn
      obtain rfl := List.append_cancel_left hn
      rw [size_append] at hs hl ⊢
      push_cast at hs
      obtain ⟨s1, k1, w1, b1⟩ := hg 0 (by omega) acc n1 s e1
        (fun x hx => hf x (List.mem_append_left _ hx)) (by omega) (by omega)
      have hw1 := w1.wi
      rw [← List.append_assoc] at e2
      obtain ⟨s2, k2, w2, b2⟩ := ih (0 + 1) (acc ++ n1) n2 s1 (by omega) e2
        (fun x hx => hf x (List.mem_append_right _ hx)) (by omega) (by omega)
      refine ⟨s2, ?_, w1.trans w2, by rw [skew_append]; push_cast; omega⟩
      unfold recTArr1E
      rw [if_pos rfl, k1, CRes.bind_ok, if_neg (by omega), k2]
    · rw [if_neg h0] at e1
      obtain ⟨n1, rfl⟩ := pf i _ _ e1
      obtain ⟨n2, hn⟩ := layIter_prefix hpre _ _ _ _ e2
      rw [List.append_assoc, List.append_assoc] at hn
      obtain rfl := List.append_cancel_left hn
      rw [size_append, size_append, size_con] at hs hl ⊢
      push_cast at hs
      have w0 := con_wrote (m := m) (x := 1) (s := s) (len := len) (n := 1) (by omega)
      have hw0 := w0.wi
      rw [size_con] at hw0
      obtain ⟨s1, k1, w1, b1⟩ := hg i (by omega) (acc ++ [.con 1 1]) n1 ((s.put len 1 1).took 1) e1
        (fun x hx => hf x (List.mem_append_right _ (List.mem_append_left _ hx)))
        (by show (s.put len 1 1).wi + _ ≤ _; omega) (by show _ ≤ s.rem - (1 : Nat); push_cast; omega)
      have hw1 := w1.wi
      have hw1 : s1.wi = (s.put len 1 1).wi + size n1 := hw1
      have b1 : s1.rem = s.rem - (1 : Nat) - (size n1 : Nat) + (skew n1 : Nat) := b1
      push_cast at b1
      have e2' : layIter (fun i acc => f i (if i = 0 then acc else acc ++ [.con 1 1])) n (i + 1) (acc ++ ([.con 1 1] ++ n1)) =
          some (acc ++ ([.con 1 1] ++ n1) ++ n2) := by
        rw [← List.append_assoc acc, e2]
        simp [List.append_assoc]
      obtain ⟨s2, k2, w2, b2⟩ := ih (i + 1) (acc ++ ([.con 1 1] ++ n1)) n2 s1 (by omega) e2'
        (fun x hx => hf x (List.mem_append_right _ (List.mem_append_right _ hx))) (by omega) (by omega)
      refine ⟨s2, ?_, ?_, by rw [skew_append, skew_append]; show _ = _ - _ + ((0 + _ : Nat) : Int); push_cast; omega⟩
      · unfold recTArr1E
        rw [if_neg h0, k1, CRes.bind_ok, if_neg (by omega), k2]
      · have := (w0.trans (w1.from rfl rfl)).trans w2
        rw [List.append_assoc] at this
        exact this

theorem bits_get {s : ESt} {len i : Nat} (h : i < len) : (s.bits len)[i]? = some (s.vec i) := by
  unfold ESt.bits
  rw [List.getElem?_map, List.getElem?_range h]; rfl

/-- What was written can be read. -/
theorem Wrote.reads {m new s s' len} (h : Wrote m new s s') (hl : s.wi + size new ≤ len) :
    Reads (s'.bits len) s.wi (code m new) := by
  intro k b hk
  have : k < size new := by
    rw [← code_length m]
    exact (List.getElem?_eq_some_iff.mp hk).1
  rw [bits_get (by omega), h.bits k b hk]

theorem encL_end {m : Mem} {l b : Nat} {s : ESt} (h : 0 ≤ s.rem) : encL m l b [] {} s = .ok s := by
  unfold encL
  rw [if_pos rfl, if_neg (by omega)]

theorem encL_emits {m : Mem} {len : Nat} {sub : List Csn} {b : Nat}
    (h : ∀ (c : Ctl) (acc new : List Item) (s : ESt) (rest : List Csn), layL m b sub c acc = some (acc ++ new) →
      (∀ i ∈ new, i.Fits m) → s.wi + size new ≤ len → ((size new : Nat) : Int) ≤ s.rem →
      ∃ s', encL m len b (sub ++ rest) c s = encL m len b rest {} s' ∧ Wrote m new s s' ∧
        s'.rem = s.rem - ((size new : Nat) : Int) + ((skew new : Nat) : Int)) :
    Emits m len (layL m b sub {}) (encL m len b sub {}) := by
  intro acc new s h1 hf hl hs
  obtain ⟨s', h', w, r⟩ := h {} acc new s [] h1 hf hl hs
  rw [List.append_nil] at h'
  exact ⟨s', by rw [h', encL_end (by omega)], w, r⟩

theorem emits_elt {m len base off sz esz n i} {f : List Item → Option (List Item)} {g : Nat → ESt → CRes ESt}
    (hi : i < n) (hz : n * esz ≤ sz) (h : Emits m len f (g (base + off + i * esz))) :
    Emits m len f (eltE base off sz esz g i) := by
  intro acc new s h1 hf hl hs
  obtain ⟨s', h', w⟩ := h acc new s h1 hf hl hs
  refine ⟨s', ?_, w⟩
  unfold eltE
  have : (i + 1) * esz ≤ n * esz := Nat.mul_le_mul_right _ hi
  rw [if_pos (by omega), h']

/-- A line that does not steer, then the rest of the table. -/
theorem emit_step {m : Mem} {len base : Nat} {d : Csn} {ds dr : List Csn} {R : ESt → CRes ESt}
    (hD : Emits m len (layD m false base d) (encD m len false base d))
    (hL : ∀ (c : Ctl) (acc new : List Item) (s : ESt), layL m base ds c acc = some (acc ++ new) →
      (∀ i ∈ new, i.Fits m) → s.wi + size new ≤ len → ((size new : Nat) : Int) ≤ s.rem →
      ∃ s', encL m len base dr c s = R s' ∧ Wrote m new s s' ∧ s'.rem = s.rem - ((size new : Nat) : Int) + ((skew new : Nat) : Int))
    (acc new : List Item) (s : ESt)
    (h : (layD m false base d acc).bind (layL m base ds {}) = some (acc ++ new))
    (hf : ∀ i ∈ new, i.Fits m) (hl : s.wi + size new ≤ len) (hs : ((size new : Nat) : Int) ≤ s.rem) :
    ∃ s', (encD m len false base d s >>= fun s => encL m len base dr {} s) = R s' ∧ Wrote m new s s' ∧
      s'.rem = s.rem - ((size new : Nat) : Int) + ((skew new : Nat) : Int) := by
  obtain ⟨r1, e1, e2⟩ := Option.bind_eq_some_iff.mp h
  obtain ⟨n1, rfl⟩ := layD_prefix m false d base _ _ e1
  obtain ⟨n2, hn⟩ := layL_prefix m ds base _ _ _ e2
  rw [List.append_assoc] at hn
  obtain rfl := List.append_cancel_left hn
  rw [size_append] at hs hl ⊢
  push_cast at hs
  obtain ⟨s1, k1, w1, b1⟩ := hD acc n1 s e1 (fun i hi => hf i (List.mem_append_left _ hi)) (by omega) (by omega)
  have hw := w1.wi
  rw [← List.append_assoc] at e2
  obtain ⟨s2, k2, w2, b2⟩ := hL _ (acc ++ n1) n2 s1 e2 (fun i hi => hf i (List.mem_append_right _ hi)) (by omega) (by omega)
  refine ⟨s2, ?_, w1.trans w2, by rw [skew_append]; push_cast; omega⟩
  rw [k1, CRes.bind_ok, k2]

theorem getLe_lt (m : Mem) : ∀ (w a : Nat), getLe m a w < 256 ^ w := by
  intro w
  induction w with
  | zero => intro a; exact Nat.one_pos
  | succ w ih =>
    intro a
    unfold getLe
    have := ih (a + 1)
    rw [Nat.pow_succ]
    omega

theorem ofs_value {m : Mem} {a bits value : Nat} (h : value ≤ getLe m a (uintW bits)) :
    (getLe m a (uintW bits) + 2 ^ 64 - value) % 2 ^ 64 = getLe m a (uintW bits) - value := by
  have h1 := getLe_lt m (uintW bits) a
  have h2 : (256 : Nat) ^ uintW bits ≤ 256 ^ 4 :=
    Nat.pow_le_pow_right (by decide) (by unfold uintW; split <;> (try split) <;> omega)
  have h3 : getLe m a (uintW bits) < 2 ^ 32 := Nat.lt_of_lt_of_le h1 h2
  omega

theorem took_wrote {m new n} {s s' : ESt} (h : Wrote m new s s') : Wrote m new s (s'.took n) := h.congr rfl rfl

mutual

theorem encD_lay (m : Mem) (len : Nat) (u : Bool) : ∀ (d : Csn) (base : Nat),
    Emits m len (layD m u base d) (encD m len u base d)
  | .bit off sz o, base => by
    intro acc new s h hf hl hs
    unfold layD at h
    split at h
    · obtain rfl := some_append h
      rw [size_fld] at hs hl ⊢
      obtain ⟨s1, e1, w1, r1⟩ := fld_wrote (m := m) (len := len) (base := base) (off := off) (sz := sz) (k := 0) (w := 1)
        (bits := 1) (s := s) (by omega) hl
      refine ⟨s1.took 1, ?_, took_wrote w1, by show s1.rem - (1 : Nat) = _ - _ + (0 : Nat); omega⟩
      unfold encD
      rw [if_pos (by simp; right; omega), e1, CRes.bind_ok]
    · cases h
  | .null i, base => by
    intro acc new s h hf hl hs
    unfold layD at h
    obtain rfl := append_eq_self (Option.some.inj h)
    refine ⟨s, ?_, Wrote.nil, by simp [size_nil, skew]⟩
    unfold encD; rfl
  | .uint off sz bits o, base => by
    intro acc new s h hf hl hs
    unfold layD at h
    split at h
    · rename_i hz
      obtain rfl := some_append h
      rw [size_fld] at hs hl ⊢
      obtain ⟨s1, e1, w1, r1⟩ := fld_wrote (m := m) (len := len) (base := base) (off := off) (sz := sz) (k := 0)
        (w := uintW bits) (bits := bits) (s := s) (by omega) hl
      refine ⟨s1.took bits, ?_, took_wrote w1, by show s1.rem - (bits : Nat) = _ - _ + (0 : Nat); omega⟩
      unfold encD
      rw [if_pos hs, if_pos hz.2, e1, CRes.bind_ok]
    · cases h
  | .uintOfs off sz bits value, base => by
    intro acc new s h hf hl hs
    unfold layD at h
    split at h
    · rename_i hz
      obtain rfl := some_append h
      rw [size_fld] at hs hl ⊢
      have hfit := hf _ (List.mem_cons_self ..)
      simp only [Item.Fits] at hfit
      refine ⟨(s.put len (getLe m (base + off) (uintW bits) - value) bits).took bits, ?_,
        took_wrote (put_wrote hl (by rw [code_cons, code_nil, List.append_nil]; rfl) size_fld),
        by show s.rem - (bits : Nat) = _ - _ + (0 : Nat); omega⟩
      unfold encD
      rw [if_pos hs, if_pos hz.2, if_pos hz.1, ofs_value hfit.1]
    · cases h
  | .uintLh .., _ => by intro acc new s h; unfold layD at h; cases h
  | .uintArr off sz bits count, base => by
    intro acc new s h hf hl hs
    unfold layD at h
    split at h
    · rename_i hz
      obtain rfl := some_append h
      rw [size_octets bits count (base + off)] at hs hl ⊢
      obtain ⟨s1, e1, w1, r1⟩ := arr_wrote (m := m) (len := len) (base := base) (off := off) (sz := sz) (bits := bits)
        count 0 s (by omega) hl
      refine ⟨s1.took (bits * count), ?_, took_wrote w1, by rw [skew_octets]; show s1.rem - _ = _; push_cast; omega⟩
      unfold encD
      rw [if_pos (by push_cast at hs; exact hs), if_pos hz.1, e1, CRes.bind_ok]
    · cases h
  | .typ off orNull sub, base => by
    intro acc new s h hf hl hs
    unfold layD at h
    obtain ⟨r, e1, e2⟩ := Option.bind_eq_some_iff.mp h
    split at e2
    · cases e2
    · cases e2
      unfold encD
      exact encL_emits (fun c => encL_lay m len sub (base + off) c) acc new s e1 hf hl hs
  | .tarr off sz esz count sub, base => by
    unfold Emits
    unfold layD encD
    split
    · rename_i hz
      refine emits_iter (hi := count) ?_ ?_ count 0 (by omega)
      · intro i hi
        exact emits_elt hi hz (encL_emits (encL_lay m len sub _))
      · intro i acc r h; exact layL_prefix m sub _ _ _ _ h
    · intro acc new s h; cases h
  | .vtarr ofs off sz esz cnt sub, base => by
    intro acc new s h hf hl hs
    unfold layD at h
    dsimp only at h
    split at h
    · rename_i hz
      unfold encD
      refine emits_iter (hi := m (base + cnt) % 256) ?_ ?_ _ 0 (by omega) acc new s h hf hl hs
      · intro i hi
        exact emits_elt hi hz.2.2 (encL_emits (encL_lay m len sub _))
      · intro i acc r h; exact layL_prefix m sub _ _ _ _ h
    · cases h
  | .bitmap off sz bits, base => by
    intro acc new s h hf hl hs
    unfold layD at h
    split at h
    · cases h
    · rename_i hu
      split at h
      · rename_i hz
        obtain ⟨rfl, hz⟩ := hz
        obtain rfl := some_append h
        rw [size_octets 8 4 (base + off)] at hs hl ⊢
        obtain ⟨s1, e1, w1, r1⟩ := arr_wrote (m := m) (len := len) (base := base) (off := off) (sz := sz) (bits := 8)
          4 0 s (by omega) hl
        refine ⟨s1.took 32, ?_, took_wrote w1, by rw [skew_octets]; show s1.rem - _ = _; push_cast; omega⟩
        unfold encD
        rw [if_neg (by decide), if_neg (by omega), if_neg (by decide), if_neg hu, if_pos (by decide), e1, CRes.bind_ok]
      · split at h
        · rename_i hz
          obtain ⟨rfl, hz⟩ := hz
          obtain rfl := some_append h
          rw [size_octets 8 8 (base + off)] at hs hl ⊢
          obtain ⟨s1, e1, w1, r1⟩ := arr_wrote (m := m) (len := len) (base := base) (off := off) (sz := sz) (bits := 8)
            8 0 s (by omega) hl
          refine ⟨s1.took 64, ?_, took_wrote w1, by rw [skew_octets]; show s1.rem - _ = _; push_cast; omega⟩
          unfold encD
          rw [if_neg (by decide), if_neg (by omega), if_neg (by decide), if_neg hu, if_neg (by decide), e1, CRes.bind_ok]
        · cases h
  | .choice off sz sel subs, base => by
    intro acc new s h hf hl hs
    unfold layD at h
    split at h
    · cases h
    · rename_i hz
      unfold encD
      rw [if_neg (by simp at hz; simp [hz.1]), if_neg (by omega)]
      exact encC_lay m len sel subs base off (m (base + off) % 256) acc new s h hf hl hs
  | .serialize off lenBits sub, base => by
    intro acc new s h hf hl hs
    unfold layD at h
    split at h
    · cases h
    · rename_i hz
      obtain ⟨r, e1, e2⟩ := Option.bind_eq_some_iff.mp h
      split at e2
      · obtain rfl := some_append e2
        have hsz : size (Item.con lenBits (size r) :: r) = lenBits + size r := by rw [size_cons]; rfl
        rw [hsz] at hs hl ⊢
        push_cast at hs
        obtain ⟨t, k1, w1, b1⟩ := encL_emits (encL_lay m len sub (base + off)) [] r
          { s with wi := s.wi + lenBits, bo := s.bo + lenBits, rem := s.rem - lenBits } e1
          (fun i hi => hf i (List.mem_cons_of_mem _ hi)) (by show s.wi + lenBits + _ ≤ _; omega)
          (by show _ ≤ s.rem - _; omega)
        have hw1 : t.wi = s.wi + lenBits + size r := w1.wi
        have b1 : t.rem = s.rem - (lenBits : Nat) - (size r : Nat) + (skew r : Nat) := b1
        refine ⟨{ ESt.put len (t.wi - s.wi - lenBits) lenBits { t with wi := s.wi } with wi := t.wi }, ?_, ?_, ?_⟩
        · unfold encD
          rw [if_neg (by simp at hz; simp [hz.1])]
          dsimp only
          rw [k1, CRes.bind_ok]
        · have hx : t.wi - s.wi - lenBits = size r := by omega
          rw [hx]
          have hp := con_wrote (m := m) (x := size r) (n := lenBits) (len := len) (s := { t with wi := s.wi })
            (by show s.wi + _ ≤ _; omega)
          refine ⟨by show t.wi = _; rw [hsz, hw1]; omega, fun k b hk => ?_, fun i hi => ?_⟩
          · rw [show Item.con lenBits (size r) :: r = [.con lenBits (size r)] ++ r from rfl, code_append] at hk
            by_cases hlt : k < (code m [.con lenBits (size r)]).length
            · rw [List.getElem?_append_left hlt] at hk
              exact hp.bits k b hk
            · rw [List.getElem?_append_right (by omega)] at hk
              have h2 := w1.bits _ b hk
              rw [code_length, size_con] at h2 hlt
              have h2 : t.vec (s.wi + lenBits + (k - lenBits)) = b := h2
              rw [show s.wi + lenBits + (k - lenBits) = s.wi + k by omega] at h2
              rw [← h2]
              show (ESt.put len (size r) lenBits { t with wi := s.wi }).vec (s.wi + k) = _
              unfold ESt.put; dsimp only
              rw [if_neg (by omega)]
          · have h3 := hp.low i hi
            have h4 := w1.low i (by show i < s.wi + lenBits; omega)
            exact h3.trans h4
        · rw [show Item.con lenBits (size r) :: r = [.con lenBits (size r)] ++ r from rfl, skew_append]
          show t.rem = _ - _ + ((0 + _ : Nat) : Int)
          push_cast; omega
      · cases e2
  | .varBmp off sz cnt adj, base => by
    intro acc new s h hf hl hs
    unfold layD at h
    dsimp only at h
    split at h
    · rename_i hz
      unfold encD
      rw [if_neg (by simp [hz.1])]
      dsimp only
      generalize m (base + cnt) % 256 + adj = n at h hz ⊢
      split at h
      · rename_i hn
        obtain rfl := some_append h
        have hsz : size (Item.fld (base + off) 1 (n % 8) 0 :: octets 8 (base + off + 1) (n / 8)) = n := by
          rw [size_cons, size_octets]
          show n % 8 + _ = n
          omega
        rw [hsz] at hs hl ⊢
        obtain ⟨s1, e1, w1, r1⟩ := fld_wrote (m := m) (len := len) (base := base) (off := off) (sz := sz) (k := 0)
          (w := 1) (bits := n % 8) (s := s) (by omega) (by omega)
        have hw := w1.wi
        rw [size_fld] at hw
        obtain ⟨s2, e2, w2, r2⟩ := arr_wrote (m := m) (len := len) (base := base) (off := off) (sz := sz) (bits := 8)
          (n / 8) 1 s1 (by omega) (by omega)
        refine ⟨{ s2 with bo := s.bo + n % 8, rem := s.rem - n }, ?_, (w1.trans w2).congr rfl rfl, by
          rw [show ∀ x (l : List Item), x :: l = [x] ++ l from fun _ _ => rfl, skew_append, skew_octets]; show s.rem - _ = _ - _ + (0 : Nat); omega⟩
        rw [if_neg (by omega), if_pos hn, e1, CRes.bind_ok, e2, CRes.bind_ok]
      · rename_i hn
        obtain rfl := some_append h
        have hsz : size (octets 8 (base + off) (n / 8)) = n := by rw [size_octets]; omega
        rw [hsz] at hs hl ⊢
        by_cases h0 : n = 0
        · subst h0
          refine ⟨s, ?_, Wrote.nil, by simp [octets, skew]⟩
          rw [if_pos rfl]
        · obtain ⟨s2, e2, w2, r2⟩ := arr_wrote (m := m) (len := len) (base := base) (off := off) (sz := sz) (bits := 8)
            (n / 8) 0 s (by omega) (by omega)
          refine ⟨{ s2 with rem := s.rem - n }, ?_, w2.congr rfl rfl, by rw [skew_octets]; show s.rem - _ = _; push_cast; omega⟩
          rw [if_neg h0, if_neg hn, e2, CRes.bind_ok]
    · cases h
  | .leftBmp toEnd off sz cnt adj, base => by
    intro acc new s h hf hl hs
    unfold layD at h
    dsimp only at h
    split at h
    · rename_i hz
      obtain ⟨hu, rfl, hc, hn, hb⟩ := hz
      unfold encD
      rw [if_neg (by simp [hu])]
      dsimp only
      generalize m (base + cnt) % 256 + adj = n at h hn hb ⊢
      obtain rfl := some_append h
      have hsz : size (octets 8 (base + off) (n / 8)) = n := by rw [size_octets]; omega
      rw [hsz] at hs hl ⊢
      by_cases h0 : n = 0
      · subst h0
        refine ⟨s, ?_, Wrote.nil, by simp [octets, skew]⟩
        rw [if_pos rfl]
      · obtain ⟨s2, e2, w2, r2⟩ := arr_wrote (m := m) (len := len) (base := base) (off := off) (sz := sz) (bits := 8)
          (n / 8) 0 s (by omega) (by omega)
        refine ⟨{ s2 with rem := s.rem - n }, ?_, w2.congr rfl rfl, by rw [skew_octets]; show s.rem - _ = _; push_cast; omega⟩
        rw [if_neg h0, if_neg (by omega), show (n + 7) / 8 = n / 8 by omega, e2, CRes.bind_ok, if_neg (by omega)]
    · cases h
  | .padding, _ => by intro acc new s h; unfold layD at h; cases h
  | .varArr off sz cnt adj, base => by
    intro acc new s h hf hl hs
    unfold layD at h
    dsimp only at h
    split at h
    · rename_i hz
      unfold encD
      rw [if_neg (by simp [hz.1])]
      dsimp only
      generalize m (base + cnt) % 256 + adj = n at h hz ⊢
      obtain rfl := some_append h
      have hsz : size (octets 8 (base + off) n) = 8 * n := by rw [size_octets]
      rw [hsz] at hs hl ⊢
      obtain ⟨s2, e2, w2, r2⟩ := arr_wrote (m := m) (len := len) (base := base) (off := off) (sz := sz) (bits := 8)
        n 0 s (by omega) (by omega)
      refine ⟨s2.took (8 * n), ?_, took_wrote w2, by rw [skew_octets]; show s2.rem - _ = _; push_cast; omega⟩
      rw [e2, CRes.bind_ok]
    · cases h
  | .recArr off sz cnt bits, base => by
    intro acc new s h hf hl hs
    unfold layD at h
    dsimp only at h
    split at h
    · rename_i hz
      rw [List.append_assoc] at h
      have hn := some_append h
      subst hn
      generalize hn : m (base + cnt) % 256 = n at *
      have hsz : size (taggedOctets bits (base + off) n ++ [Item.con 1 0, Item.implied (base + cnt) n]) =
          (1 + bits) * n + 1 := by rw [size_append, size_tagged]; rfl
      rw [hsz] at hs hl ⊢
      rw [Int.natCast_add] at hs
      obtain ⟨s1, e1, w1, r1⟩ := recArr_emit (m := m) (len := len) (base := base) (off := off) (sz := sz) (bits := bits)
        n 0 s (by omega) (by omega) (by omega)
      have hw := w1.wi
      rw [size_tagged] at hw
      have w2 := con_wrote (m := m) (x := 0) (n := 1) (len := len) (s := s1) (by omega)
      refine ⟨(s1.put len 0 1).took 1, ?_, ?_, ?_⟩
      · unfold encD
        rw [if_neg (by simp [hz.1]), hn, e1, CRes.bind_ok]
      · have := w1.trans (w2.trans (implied_wrote (a := base + cnt) (x := n)))
        exact took_wrote this
      · rw [skew_append, skew_tagged]
        show s1.rem - (1 : Nat) = _ - _ + (0 : Nat)
        rw [Int.natCast_add]
        omega
    · cases h
  | .recTArr off sz esz cap cnt sub, base => by
    intro acc new s h hf hl hs
    unfold layD at h
    dsimp only at h
    split at h
    · rename_i hz
      generalize hn : m (base + cnt) % 256 = n at *
      obtain ⟨r, e1, e2⟩ := Option.bind_eq_some_iff.mp h
      obtain ⟨x, rfl⟩ := layIter_prefix (fun i acc r h => (List.prefix_append _ _).trans (layL_prefix m sub _ _ _ _ h)) _ _ _ _ e1
      rw [List.append_assoc] at e2
      have hn2 := some_append e2
      subst hn2
      have hsz : size (x ++ [Item.stop, Item.implied (base + cnt) n]) = size x + 1 := by rw [size_append]; rfl
      rw [hsz] at hs hl ⊢
      push_cast at hs
      obtain ⟨s1, e1, w1, r1⟩ := recTArr_emit (len := len) (m := m) (hi := n)
        (g := eltE base off sz esz (fun b s => encL m len b sub {} s))
        (f := fun i acc => layL m (base + off + i * esz) sub {} acc)
        (fun i hi => emits_elt hi hz.2.2 (encL_emits (encL_lay m len sub _)))
        (fun i acc r h => layL_prefix m sub _ _ _ _ h) n 0 acc x s (by omega) e1
        (fun i hi => hf i (List.mem_append_left _ hi)) (by omega) (by omega)
      have hw := w1.wi
      have w2 := put_wrote (m := m) (new := [.stop]) (x := 0) (n := 1) (len := len) (s := s1) (by omega) rfl rfl
      refine ⟨{ s1.put len 0 1 with bo := (s1.put len 0 1).bo + 1 }, ?_, ?_, ?_⟩
      · unfold encD
        rw [if_neg (by simp [hz.1]), hn, e1, CRes.bind_ok]
      · have := w1.trans (w2.trans (implied_wrote (a := base + cnt) (x := n)))
        exact this.congr rfl rfl
      · rw [skew_append]
        show s1.rem = _ - _ + ((_ + 1 : Nat) : Int)
        push_cast; omega
    · cases h
  | .recTArr1 off sz esz cap cnt sub, base => by
    intro acc new s h hf hl hs
    unfold layD at h
    dsimp only at h
    split at h
    · rename_i hz
      generalize hn : m (base + cnt) % 256 = n at *
      obtain ⟨hu, hp, hcap, hlen⟩ := hz
      obtain ⟨r, e1, e2⟩ := Option.bind_eq_some_iff.mp h
      obtain ⟨x, rfl⟩ := layIter_prefix (fun i acc r h => by
        refine List.IsPrefix.trans ?_ (layL_prefix m sub _ _ _ _ h)
        split
        · exact List.prefix_refl _
        · exact List.prefix_append _ _) _ _ _ _ e1
      rw [List.append_assoc] at e2
      have hn2 := some_append e2
      subst hn2
      have hsz : size (x ++ [Item.con 1 0, Item.implied (base + cnt) n]) = size x + 1 := by rw [size_append]; rfl
      rw [hsz] at hs hl ⊢
      push_cast at hs
      obtain ⟨s1, e1, w1, r1⟩ := recTArr1_emit (len := len) (m := m) (hi := n)
        (g := eltE base off sz esz (fun b s => encL m len b sub {} s))
        (f := fun i acc => layL m (base + off + i * esz) sub {} acc)
        (fun i hi => emits_elt hi hlen (encL_emits (encL_lay m len sub _)))
        (fun i acc r h => layL_prefix m sub _ _ _ _ h) n 0 acc x s (by omega) e1
        (fun i hi => hf i (List.mem_append_left _ hi)) (by omega) (by omega)
      have hw := w1.wi
      have w2 := con_wrote (m := m) (x := 0) (n := 1) (len := len) (s := s1) (by omega)
      refine ⟨(s1.put len 0 1).took 1, ?_, ?_, ?_⟩
      · unfold encD
        rw [if_neg (by simp [hu]), hn, e1, CRes.bind_ok]
      · have := w1.trans (w2.trans (implied_wrote (a := base + cnt) (x := n)))
        exact took_wrote this
      · rw [skew_append]
        show s1.rem - (1 : Nat) = _ - _ + ((_ + 0 : Nat) : Int)
        push_cast; omega
    · cases h
  | .fixed bits value, base => by
    intro acc new s h hf hl hs
    unfold layD at h
    split at h
    · cases h
    · rename_i hu
      obtain rfl := some_append h
      rw [size_con] at hs hl ⊢
      refine ⟨(s.put len value bits).took bits, ?_, took_wrote (con_wrote hl), by show s.rem - (bits : Nat) = _ - _ + (0 : Nat); omega⟩
      unfold encD
      rw [if_neg hu]
  | .cbCopy .., _ => by intro acc new s h; unfold layD at h; cases h
  | .cbTddMap .., _ => by intro acc new s h; unfold layD at h; cases h
  | .cbTddCells .., _ => by intro acc new s h; unfold layD at h; cases h
  | .trap .., _ => by intro acc new s h; unfold layD at h; cases h
  | .union .., _ => by intro acc new s h; unfold layD at h; cases h
  | .exist .., _ => by intro acc new s h; unfold layD at h; cases h
  | .nextExist .., _ => by intro acc new s h; unfold layD at h; cases h

theorem encC_lay (m : Mem) (len : Nat) : ∀ (sel : List (Nat × Nat)) (subs : List Csn) (base off i : Nat),
    Emits m len (layC m base off i sel subs) (encC m len base i sel subs)
  | [], _, _, _, _ => by intro acc new s h; unfold layC at h; cases h
  | _ :: _, [], _, _, _ => by intro acc new s h; unfold layC at h; cases h
  | b :: sel, d :: ds, base, off, i => by
    intro acc new s h hf hl hs
    unfold layC at h
    split at h
    · rename_i hi
      subst hi
      obtain ⟨x, hx⟩ := layD_prefix m false d base _ _ h
      rw [List.append_assoc] at hx
      obtain rfl := List.append_cancel_left hx
      have hz2 : size [Item.con b.1 b.2, .implied (base + off) (m (base + off) % 256)] = b.1 := by
        rw [size_cons, size_cons, size_nil]; rfl
      rw [size_append, hz2] at hs hl ⊢
      push_cast at hs
      have w0 := (con_wrote (m := m) (x := b.2) (n := b.1) (len := len) (s := s) (by omega)).trans
        (implied_wrote (a := base + off) (x := m (base + off) % 256))
      have hw0 : (s.put len b.2 b.1).wi = s.wi + b.1 := by
        have := w0.wi
        rw [show ([Item.con b.1 b.2] ++ [Item.implied (base + off) (m (base + off) % 256)]) =
          [Item.con b.1 b.2, .implied (base + off) (m (base + off) % 256)] from rfl, hz2] at this
        exact this
      rw [← List.append_assoc] at h
      obtain ⟨s1, k1, w1, b1⟩ := encD_lay m len false d base _ x ((s.put len b.2 b.1).took b.1) h
        (fun i hi => hf i (List.mem_append_right _ hi)) (by show (s.put len b.2 b.1).wi + _ ≤ _; omega)
        (by show _ ≤ s.rem - _; omega)
      have b1 : s1.rem = s.rem - (b.1 : Nat) - (size x : Nat) + (skew x : Nat) := b1
      refine ⟨s1, ?_, w0.trans (w1.from rfl rfl), by
        rw [skew_append]; show _ = _ - _ + ((0 + _ : Nat) : Int); push_cast; omega⟩
      unfold encC
      rw [if_pos rfl]
      dsimp only
      rw [if_neg (by show ¬ s.rem - _ < 0; omega), k1, CRes.bind_ok, if_neg (by omega)]
    · rename_i hi
      split at h
      · split at h
        · unfold encC
          rw [if_neg hi]
          exact encC_lay m len sel ds base off (i - 1) acc _ s h hf hl hs
        · cases h
      · cases h

theorem encL_lay (m : Mem) (len : Nat) : ∀ (ds : List Csn) (base : Nat) (c : Ctl) (acc new : List Item) (s : ESt)
    (rest : List Csn), layL m base ds c acc = some (acc ++ new) → (∀ i ∈ new, i.Fits m) →
    s.wi + size new ≤ len → ((size new : Nat) : Int) ≤ s.rem →
    ∃ s', encL m len base (ds ++ rest) c s = encL m len base rest {} s' ∧ Wrote m new s s' ∧
      s'.rem = s.rem - ((size new : Nat) : Int) + ((skew new : Nat) : Int)
  | [], base, c, acc, new, s, rest, h, hf, hl, hs => by
    unfold layL at h
    split at h
    · rename_i hc
      obtain rfl := append_eq_self (Option.some.inj h)
      obtain ⟨k, p⟩ := c
      obtain ⟨rfl, rfl⟩ := hc
      exact ⟨s, rfl, Wrote.nil, by simp [size_nil, skew]⟩
    · cases h
  | d :: ds, base, c, acc, new, s, rest, h, hf, hl, hs => by
    have hD := fun u => encD_lay m len u d base
    have hL := fun c acc new s => encL_lay m len ds base c acc new s rest
    rw [List.cons_append]
    generalize encL m len base rest {} = R at hL ⊢
    generalize ds ++ rest = dr at hL ⊢
    unfold layL at h
    unfold encL
    split at h
    · rename_i hk
      rw [if_pos hk]
      exact hL _ acc new s h hf hl hs
    · rename_i hk
      rw [if_neg hk]
      obtain ⟨k, p⟩ := c
      cases p with
      | some r =>
        dsimp only at h ⊢
        obtain ⟨r1, e1, e2⟩ := Option.bind_eq_some_iff.mp h
        obtain ⟨n1, rfl⟩ := layD_prefix m true d base _ _ e1
        obtain ⟨n2, hn⟩ := layL_prefix m ds base _ _ _ e2
        rw [List.append_assoc] at hn
        obtain rfl := List.append_cancel_left hn
        rw [size_append] at hs hl ⊢
        push_cast at hs
        obtain ⟨s1, k1, w1, b1⟩ := hD true acc n1 s e1 (fun i hi => hf i (List.mem_append_left _ hi)) (by omega) (by omega)
        have hw := w1.wi
        rw [← List.append_assoc] at e2
        obtain ⟨s2, k2, w2, b2⟩ := hL _ (acc ++ n1) n2 s1 e2 (fun i hi => hf i (List.mem_append_right _ hi))
          (by omega) (by omega)
        refine ⟨s2, ?_, w1.trans w2, by rw [skew_append]; push_cast; omega⟩
        rw [k1, CRes.bind_ok, if_neg (by omega), k2]
      | none =>
        dsimp only at h ⊢
        rw [if_neg (by omega)]
        cases d
        case union lh off sz count =>
          dsimp only at h ⊢
          split at h
          · rename_i hz
            obtain ⟨rfl, hc, hc2, hz⟩ := hz
            obtain ⟨n2, hn⟩ := layL_prefix m ds base _ _ _ h
            rw [List.append_assoc] at hn
            obtain rfl := List.append_cancel_left hn
            rw [size_append, size_fld] at hs hl ⊢
            push_cast at hs
            have hfit := hf (.fld (base + off) 1 (ixBits count) 0) (List.mem_append_left _ (List.mem_cons_self ..))
            rw [if_neg (by omega)]
            obtain ⟨s1, e1, w1, r1⟩ := fld_wrote (m := m) (len := len) (base := base) (off := off) (sz := sz) (k := 0)
              (w := 1) (bits := ixBits count) (s := s) (by omega) (by omega)
            rw [Nat.add_zero] at w1
            have hw := w1.wi
            rw [size_fld] at hw
            have hrd := w1.reads (len := len) (by rw [size_fld]; omega)
            rw [code_cons, code_nil, List.append_nil] at hrd
            have hidx := unionIdx_reads (v := s1.bits len) (ixBits count) (getLe m (base + off) 1) 0
              { mem := m, rd := s1.wi - ixBits count, bo := s.bo, rem := s.rem } (by
                show Reads (s1.bits len) (s1.wi - ixBits count) _
                rw [show s1.wi - ixBits count = s.wi by omega]
                exact hrd)
            simp only [Item.Fits, Nat.sub_zero] at hfit
            rw [Nat.mod_eq_of_lt hfit.2, Nat.zero_mul, Nat.zero_add, getLe_one] at hidx
            rw [e1, CRes.bind_ok, hidx]
            dsimp only
            rw [Nat.mod_mod]
            rw [← List.append_assoc] at h
            obtain ⟨s2, k2, w2, b2⟩ := hL _ (acc ++ [.fld (base + off) 1 (ixBits count) 0]) n2
              { vec := s1.vec, wi := s1.wi - ixBits count + ixBits count, bo := s.bo + ixBits count,
                rem := s.rem - (ixBits count : Nat) } h
              (fun i hi => hf i (List.mem_append_right _ hi)) (by dsimp only; omega) (by dsimp only; omega)
            refine ⟨s2, k2, w1.trans (w2.from rfl (by dsimp only; omega)), by
              rw [skew_append]; show _ = _ - _ + ((0 + _ : Nat) : Int); dsimp only at b2; push_cast; omega⟩
          · cases h
        case exist lh off sz => cases h
        case nextExist lh off sz n orNull =>
          dsimp only at h ⊢
          split at h
          · rename_i hz
            obtain ⟨rfl, hz, hn⟩ := hz
            obtain ⟨r, e1, e2⟩ := Option.bind_eq_some_iff.mp h
            split at e2
            · cases e2
            · cases e2
              obtain ⟨n2, hn2⟩ := layL_prefix m ds base _ _ _ e1
              rw [List.append_assoc] at hn2
              obtain rfl := List.append_cancel_left hn2
              rw [size_append, size_fld] at hs hl ⊢
              push_cast at hs
              rw [if_neg (by
                intro hc
                rw [Bool.and_eq_true] at hc
                have := eq_of_beq hc.2
                omega), if_neg (by simp)]
              obtain ⟨s1, k1, w1, r1⟩ := fld_wrote (m := m) (len := len) (base := base) (off := off) (sz := sz) (k := 0)
                (w := 1) (bits := 1) (s := s) (by omega) (by omega)
              rw [Nat.add_zero] at w1
              have hw := w1.wi
              rw [size_fld] at hw
              rw [k1, CRes.bind_ok]
              have hsk : (if m (base + off) % 256 = 0 then n else 0) =
                  (if m (base + off) % 256 ≠ 0 then 0 else n) := by
                by_cases h0 : m (base + off) % 256 = 0 <;> simp [h0]
              rw [hsk]
              rw [← List.append_assoc] at e1
              obtain ⟨s2, k2, w2, b2⟩ := hL _ (acc ++ [.fld (base + off) 1 1 0]) n2 (s1.took 1) e1
                (fun i hi => hf i (List.mem_append_right _ hi)) (by show s1.wi + _ ≤ _; omega)
                (by show _ ≤ s1.rem - (1 : Nat); push_cast; omega)
              have b2 : s2.rem = s1.rem - (1 : Nat) - (size n2 : Nat) + (skew n2 : Nat) := b2
              exact ⟨s2, k2, w1.trans (w2.from rfl rfl), by
                rw [skew_append]; show _ = _ - _ + ((0 + _ : Nat) : Int); push_cast; omega⟩
          · cases h
        all_goals
          dsimp only at h ⊢
          exact emit_step (hD false) hL acc new s h hf hl hs

end

end Verif.Csn1
