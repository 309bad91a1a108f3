import Verif.Csn1.LayLemmas
import Verif.Csn1.Sound

/-!
# The decoder reads layouts
-/
namespace Verif.Csn1

open Spec

/-- The state after the parts `new` were decoded. -/
def CSt.got (s : CSt) (m : Mem) (new : List Item) (bo : Nat) : CSt :=
  { mem := upd m new s.mem, rd := s.rd + size new, bo := bo, rem := s.rem - ((size new : Nat) : Int) }

theorem got_nil {s : CSt} {m : Mem} : s.got m [] s.bo = s := by
  unfold CSt.got; rw [upd_nil, size_nil]; simp

theorem got_append {s : CSt} {m : Mem} {a b : List Item} {x y : Nat} :
    (s.got m a x).got m b y = s.got m (a ++ b) y := by
  unfold CSt.got
  simp only [CSt.mk.injEq, upd_append, size_append, true_and]
  refine ⟨by omega, ?_⟩
  push_cast; omega

/-- What decoding with `g` needs to follow a layout `f`: where the parts that `f` adds are in the vector,
there are bits enough left, and the values are in range, `g` takes them over. -/
def Follows (v : List Bool) (m : Mem) (f : List Item → Option (List Item)) (g : CSt → CRes CSt) : Prop :=
  ∀ acc new s, f acc = some (acc ++ new) → (∀ i ∈ new, i.Fits m) → Holds m acc s.mem →
    Reads v s.rd (code m new) → ((size new : Nat) : Int) ≤ s.rem → ∃ bo', g s = .ok (s.got m new bo')

/-- A layout function only adds parts. -/
def Grows (f : List Item → Option (List Item)) : Prop := ∀ acc r, f acc = some r → acc <+: r

theorem Follows.seq {v m f1 f2 g1 g2} (h1 : Follows v m f1 g1) (p1 : Grows f1) (h2 : Follows v m f2 g2)
    (p2 : Grows f2) : Follows v m (fun acc => (f1 acc).bind f2) (fun s => g1 s >>= g2) := by
  intro acc new s h hf hh hr hs
  obtain ⟨r1, e1, e2⟩ := Option.bind_eq_some_iff.mp h
  obtain ⟨n1, rfl⟩ := p1 _ _ e1
  obtain ⟨n2, hn⟩ := p2 _ _ e2
  rw [List.append_assoc] at hn
  obtain rfl := List.append_cancel_left hn
  rw [Reads.code] at hr
  rw [size_append] at hs
  obtain ⟨b1, k1⟩ := h1 acc n1 s e1 (fun i hi => hf i (List.mem_append_left _ hi)) hh hr.1 (by push_cast at hs; omega)
  rw [← List.append_assoc] at e2
  obtain ⟨b2, k2⟩ := h2 (acc ++ n1) n2 (s.got m n1 b1) e2 (fun i hi => hf i (List.mem_append_right _ hi))
    hh.upd hr.2 (by unfold CSt.got; push_cast at hs ⊢; omega)
  refine ⟨b2, ?_⟩
  show (g1 s >>= g2) = _
  rw [k1, CRes.bind_ok, k2, got_append]

theorem follows_iter {v m} {f : Nat → List Item → Option (List Item)} {g : Nat → CSt → CRes CSt} {hi : Nat}
    (hg : ∀ i, i < hi → Follows v m (f i) (g i)) (pf : ∀ i, Grows (f i)) :
    ∀ (n i : Nat), i + n ≤ hi → Follows v m (layIter f n i) (iter g n i) := by
  intro n
  induction n with
  | zero =>
    intro i _ acc new s h hf hh hr hs
    have h : acc = acc ++ new := Option.some.inj h
    have hn : new = [] := by
      have := congrArg List.length h
      rw [List.length_append] at this
      exact List.length_eq_zero_iff.mp (by omega)
    subst hn
    exact ⟨s.bo, by rw [got_nil]; rfl⟩
  | succ n ih =>
    intro i hi
    have := (hg i (by omega)).seq (pf i) (ih (i + 1) (by omega)) (fun acc r h => layIter_prefix (fun i acc r h => pf i acc r h) _ _ _ _ h)
    intro acc new s h
    exact this acc new s h

/-! ## Single members -/

theorem wr_fld {v m base off sz k w bits ofs} {s : CSt} (hw : k + w ≤ sz)
    (hr : Reads v s.rd (code m [.fld (base + off + k) w bits ofs]))
    (hf : (Item.fld (base + off + k) w bits ofs).Fits m) :
    wr .member base off sz k w (bitsVal v s.rd bits + ofs) s =
      .ok { s with mem := upd m [.fld (base + off + k) w bits ofs] s.mem } := by
  rw [code_cons, code_nil, List.append_nil] at hr
  unfold Item.code at hr
  unfold Item.Fits at hf
  rw [bitsVal_reads hr hf.2, Nat.sub_add_cancel hf.1]
  unfold wr Pol.store
  rw [if_pos (by simpa using hw), putLe_fld m s.mem _ w bits ofs]

theorem wr_imp {m base cnt n} {s : CSt} (h : m (base + cnt) % 256 = n) :
    wr .member base cnt 1 0 1 n s = .ok { s with mem := upd m [.implied (base + cnt) n] s.mem } := by
  unfold wr Pol.store
  rw [if_pos (by simp), Nat.add_zero, putLe_implied m s.mem _ n h]

theorem size_octets (bits : Nat) : ∀ (n a : Nat), size (octets bits a n) = bits * n := by
  intro n
  induction n with
  | zero => intro a; rfl
  | succ n ih =>
    intro a
    unfold octets
    rw [size_cons, ih, Nat.mul_succ, Nat.add_comm]; rfl

theorem rdArr_octets {v m base off sz bits} : ∀ (n k : Nat) (s : CSt), k + n ≤ sz →
    Reads v s.rd (code m (octets bits (base + off + k) n)) →
    (∀ i ∈ octets bits (base + off + k) n, i.Fits m) →
    rdArr v .member base off sz bits 1 n k s =
      .ok { s with mem := upd m (octets bits (base + off + k) n) s.mem, rd := s.rd + bits * n } := by
  intro n
  induction n with
  | zero => intro k s _ _ _; unfold rdArr octets; rw [upd_nil]; rfl
  | succ n ih =>
    intro k s hk hr hf
    unfold octets at hr hf ⊢
    have hr' : Reads v s.rd (code m ([.fld (base + off + k) 1 bits 0] ++ octets bits (base + off + k + 1) n)) := hr
    rw [Reads.code] at hr'
    unfold rdArr
    have := wr_fld (w := 1) (ofs := 0) (sz := sz) (by omega) hr'.1 (hf _ (List.mem_cons_self ..))
    rw [Nat.add_zero] at this
    rw [this, CRes.bind_ok]
    dsimp only
    rw [ih (k + 1) _ (by omega) (by
      have h2 := hr'.2
      rw [size_cons, size_nil] at h2
      exact h2) (fun i hi => hf i (List.mem_cons_of_mem _ hi))]
    rw [upd_cons m s.mem (.fld (base + off + k) 1 bits 0) (octets bits (base + off + k + 1) n), Nat.mul_succ,
      ← Nat.add_assoc (base + off) k 1, Nat.add_assoc s.rd, Nat.add_comm bits]

theorem byte_of_holds {m : Mem} {acc : List Item} {s : CSt} {a : Nat} (h : Holds m acc s.mem)
    (hc : carried acc a = true) : s.byte a = m a % 256 := h a hc

theorem append_eq_self {acc new : List Item} (h : acc = acc ++ new) : new = [] := by
  have := congrArg List.length h
  rw [List.length_append] at this
  exact List.length_eq_zero_iff.mp (by omega)

theorem some_append {acc new x : List Item} (h : some (acc ++ x) = some (acc ++ new)) : new = x :=
  (List.append_cancel_left (Option.some.inj h)).symm

/-- A single field and the count of its bits. -/
theorem got_fld {s : CSt} {m a w bits ofs bo} :
    ({ mem := upd m [.fld a w bits ofs] s.mem, rd := s.rd + bits, bo := bo, rem := s.rem - (bits : Nat) } : CSt) =
      s.got m [.fld a w bits ofs] bo := by
  unfold CSt.got; rw [size_cons, size_nil]; rfl

theorem size_fld {a w bits ofs} : size [.fld a w bits ofs] = bits := by
  rw [size_cons, size_nil]; rfl

theorem size_con {bits x} : size [.con bits x] = bits := by
  rw [size_cons, size_nil]; rfl

theorem tag_true {v : List Bool} {i : Nat} {m : Mem} (h : Reads v i (code m [.con 1 1])) : tagSet v i = true := by
  have h' : Reads v i [true] := h
  unfold tagSet
  rw [(Reads.cons.mp h').1]; rfl

theorem tag_false {v : List Bool} {i : Nat} {m : Mem} (h : Reads v i (code m [.con 1 0])) : tagSet v i = false := by
  have h' : Reads v i [false] := h
  unfold tagSet
  rw [(Reads.cons.mp h').1]; rfl

theorem size_tagged (bits : Nat) : ∀ (n a : Nat), size (taggedOctets bits a n) = (1 + bits) * n := by
  intro n
  induction n with
  | zero => intro a; rfl
  | succ n ih =>
    intro a
    unfold taggedOctets
    rw [size_cons, size_cons, ih, Nat.mul_succ]
    show 1 + (bits + _) = _
    omega

theorem recArr_lay {v m base off sz bits} : ∀ (n fuel k : Nat) (s : CSt), k + n ≤ sz → v.length - s.rd ≤ fuel →
    Reads v s.rd (code m (taggedOctets bits (base + off + k) n ++ [.con 1 0])) →
    (∀ i ∈ taggedOctets bits (base + off + k) n, i.Fits m) → (((1 + bits) * n : Nat) : Int) ≤ s.rem →
    ∃ bo', recArrLoop v .member base off sz bits fuel k s =
      .ok (k + n, { mem := upd m (taggedOctets bits (base + off + k) n) s.mem, rd := s.rd + (1 + bits) * n + 1,
                    bo := bo', rem := s.rem - (((1 + bits) * n : Nat) : Int) }) := by
  intro n
  induction n with
  | zero =>
    intro fuel k s _ hfu hr _ _
    have ht : tagSet v s.rd = false := tag_false (m := m) hr
    refine ⟨s.bo, ?_⟩
    cases fuel with
    | zero =>
      unfold recArrLoop taggedOctets
      rw [upd_nil]; simp
    | succ f =>
      unfold recArrLoop taggedOctets
      rw [upd_nil, ht]; simp
  | succ n ih =>
    intro fuel k s hk hfu hr hf hs
    unfold taggedOctets at hr hf
    have hr1 : Reads v s.rd (code m ([.con 1 1] ++ ([.fld (base + off + k) 1 bits 0] ++
      (taggedOctets bits (base + off + k + 1) n ++ [.con 1 0])))) := hr
    rw [Reads.code, Reads.code, size_con, size_fld] at hr1
    have ht : tagSet v s.rd = true := tag_true hr1.1
    have hlt : s.rd < v.length := by
      unfold tagSet at ht
      have := eq_of_beq ht
      exact (List.getElem?_eq_some_iff.mp this).1
    obtain ⟨f, rfl⟩ : ∃ f, fuel = f + 1 := ⟨fuel - 1, by omega⟩
    have hw := wr_fld (w := 1) (ofs := 0) (sz := sz) (s := { s with rd := s.rd + 1 }) (by omega) hr1.2.1
      (hf _ (List.mem_cons_of_mem _ (List.mem_cons_self ..)))
    rw [Nat.add_zero] at hw
    unfold recArrLoop
    rw [ht]
    simp only [ite_true]
    have hw' : wr .member base off sz k 1 (bitsVal v (s.rd + 1) bits) s =
        .ok { s with mem := upd m [.fld (base + off + k) 1 bits 0] s.mem } := by
      unfold wr at hw ⊢
      split at hw
      · rename_i hp
        rw [if_pos hp]
        have := congrArg CSt.mem (CRes.ok.inj hw)
        dsimp only at this
        rw [this]
      · cases hw
    rw [hw', CRes.bind_ok]
    dsimp only
    rw [Nat.mul_succ] at hs
    have hq : (0 : Int) ≤ (((1 + bits) * n : Nat) : Int) := Int.natCast_nonneg _
    rw [Int.natCast_add] at hs
    rw [if_neg (by push_cast at hs hq ⊢; omega)]
    obtain ⟨bo', h⟩ := ih f (k + 1)
      { mem := upd m [.fld (base + off + k) 1 bits 0] s.mem, rd := s.rd + 1 + bits, bo := s.bo + 1 + bits,
        rem := s.rem - 1 - bits } (by omega) (by dsimp only; omega) hr1.2.2
      (fun i hi => hf i (List.mem_cons_of_mem _ (List.mem_cons_of_mem _ hi)))
      (by dsimp only; push_cast at hs ⊢; omega)
    refine ⟨bo', ?_⟩
    rw [h]
    rw [show taggedOctets bits (base + off + k) (n + 1) = .con 1 1 :: .fld (base + off + k) 1 bits 0 ::
      taggedOctets bits (base + off + k + 1) n from rfl, upd_cons m s.mem (.con 1 1), upd_con,
      upd_cons m s.mem (.fld (base + off + k) 1 bits 0) (taggedOctets bits (base + off + k + 1) n)]
    simp only [CRes.ok.injEq, Prod.mk.injEq, CSt.mk.injEq, Nat.mul_succ, true_and]
    refine ⟨by omega, by rw [← Nat.add_assoc], by omega, by push_cast; omega⟩

/-- The loop over tagged elements. -/
theorem recTArr_lay {v m} {f : Nat → List Item → Option (List Item)} {g : Nat → CSt → CRes CSt} {hi : Nat}
    (hg : ∀ i, i < hi → Follows v m (f i) (g i)) (pf : ∀ i, Grows (f i)) :
    ∀ (n cap i : Nat) (acc new : List Item) (s : CSt), n ≤ cap → i + n ≤ hi →
      layIter (fun i acc => f i (acc ++ [.con 1 1])) n i acc = some (acc ++ new) →
      (∀ x ∈ new, x.Fits m) → Holds m acc s.mem → Reads v s.rd (code m (new ++ [.con 1 0])) →
      ((size new : Nat) : Int) ≤ s.rem →
      ∃ bo', recTArrLoop v g cap i s = .ok (i + n,
        { mem := upd m new s.mem, rd := s.rd + size new + 1, bo := bo', rem := s.rem - ((size new : Nat) : Int) }) := by
  intro n
  induction n with
  | zero =>
    intro cap i acc new s _ _ h hf hh hr hs
    obtain rfl := append_eq_self (Option.some.inj h)
    have ht : tagSet v s.rd = false := tag_false (m := m) hr
    refine ⟨s.bo, ?_⟩
    rw [upd_nil, size_nil]
    cases cap <;> (unfold recTArrLoop; rw [ht]; simp)
  | succ n ih =>
    intro cap i acc new s hc hi h hf hh hr hs
    obtain ⟨c, rfl⟩ : ∃ c, cap = c + 1 := ⟨cap - 1, by omega⟩
    unfold layIter at h
    obtain ⟨r1, e1, e2⟩ := Option.bind_eq_some_iff.mp h
    obtain ⟨n1, rfl⟩ := pf i _ _ e1
    obtain ⟨n2, hn⟩ := layIter_prefix (fun i acc r h => (List.prefix_append _ _).trans (pf i _ _ h)) _ _ _ _ e2
    rw [List.append_assoc, List.append_assoc] at hn
    obtain rfl := List.append_cancel_left hn
    have hr1 : Reads v s.rd (code m ([.con 1 1] ++ (n1 ++ (n2 ++ [.con 1 0])))) := by
      simpa [List.append_assoc] using hr
    rw [Reads.code, Reads.code, size_con] at hr1
    rw [size_append, size_append, size_con] at hs
    have ht : tagSet v s.rd = true := tag_true hr1.1
    obtain ⟨b1, k1⟩ := hg i (by omega) (acc ++ [.con 1 1]) n1 { s with rd := s.rd + 1, bo := s.bo + 1, rem := s.rem - 1 } e1
      (fun x hx => hf x (List.mem_append_right _ (List.mem_append_left _ hx)))
      (by have h3 := hh.upd (new := [.con 1 1]); rw [upd_con] at h3; exact h3)
      hr1.2.1 (by dsimp only; push_cast at hs; omega)
    unfold recTArrLoop
    rw [ht]
    simp only [ite_true]
    rw [k1, CRes.bind_ok]
    rw [if_neg (by unfold CSt.got; dsimp only; push_cast at hs; omega)]
    have e2' : layIter (fun i acc => f i (acc ++ [.con 1 1])) n (i + 1) (acc ++ ([.con 1 1] ++ n1)) =
        some (acc ++ ([.con 1 1] ++ n1) ++ n2) := by
      rw [← List.append_assoc acc, e2]
      simp [List.append_assoc]
    obtain ⟨bo', h⟩ := ih c (i + 1) (acc ++ ([.con 1 1] ++ n1)) n2
      (CSt.got { s with rd := s.rd + 1, bo := s.bo + 1, rem := s.rem - 1 } m n1 b1)
      (by omega) (by omega) e2' (fun x hx => hf x (List.mem_append_right _ (List.mem_append_right _ hx)))
      (by
        have h3 := hh.upd (new := [.con 1 1] ++ n1)
        rw [upd_append, upd_con] at h3
        exact h3)
      hr1.2.2
      (by unfold CSt.got; dsimp only; push_cast at hs ⊢; omega)
    refine ⟨bo', ?_⟩
    rw [h]
    unfold CSt.got
    simp only [CRes.ok.injEq, Prod.mk.injEq, CSt.mk.injEq, upd_append, upd_con, size_append, size_con, true_and]
    refine ⟨by omega, by omega, by push_cast; omega⟩

/-- The loop over elements with a tag behind each. -/
theorem recTArr1_lay {v m} {f : Nat → List Item → Option (List Item)} {g : Nat → CSt → CRes CSt} {hi : Nat}
    (hg : ∀ i, i < hi → Follows v m (f i) (g i)) (pf : ∀ i, Grows (f i)) :
    ∀ (n cap i : Nat) (acc new : List Item) (s : CSt), n + 1 ≤ cap → i + (n + 1) ≤ hi →
      ((f i acc).bind (layIter (fun i acc => f i (acc ++ [.con 1 1])) n (i + 1))) = some (acc ++ new) →
      (∀ x ∈ new, x.Fits m) → Holds m acc s.mem → Reads v s.rd (code m (new ++ [.con 1 0])) →
      ((size new + 1 : Nat) : Int) ≤ s.rem →
      ∃ bo', recTArr1Loop v g cap i s = .ok (i + (n + 1),
        { mem := upd m new s.mem, rd := s.rd + size new + 1, bo := bo', rem := s.rem - ((size new + 1 : Nat) : Int) }) := by
  intro n
  induction n with
  | zero =>
    intro cap i acc new s hc hi h hf hh hr hs
    obtain ⟨c, rfl⟩ : ∃ c, cap = c + 1 := ⟨cap - 1, by omega⟩
    obtain ⟨r1, e1, e2⟩ := Option.bind_eq_some_iff.mp h
    unfold layIter at e2
    cases e2
    rw [Reads.code] at hr
    obtain ⟨b1, k1⟩ := hg i (by omega) acc new s e1 hf hh hr.1 (by push_cast at hs; omega)
    unfold recTArr1Loop
    rw [k1, CRes.bind_ok, if_neg (by unfold CSt.got; dsimp only; push_cast at hs; omega)]
    dsimp only
    have ht : tagSet v (s.got m new b1).rd = false := tag_false (m := m) hr.2
    rw [ht]
    refine ⟨b1 + 1, ?_⟩
    unfold CSt.got
    simp only [Bool.false_eq_true, ite_false, CRes.ok.injEq, Prod.mk.injEq, CSt.mk.injEq, true_and]
    push_cast; omega
  | succ n ih =>
    intro cap i acc new s hc hi h hf hh hr hs
    obtain ⟨c, rfl⟩ : ∃ c, cap = c + 1 := ⟨cap - 1, by omega⟩
    obtain ⟨r1, e1, e2⟩ := Option.bind_eq_some_iff.mp h
    obtain ⟨n1, rfl⟩ := pf i _ _ e1
    unfold layIter at e2
    have e3 := e2
    obtain ⟨r2, e4, e5⟩ := Option.bind_eq_some_iff.mp e3
    obtain ⟨n2, rfl⟩ := pf (i + 1) _ _ e4
    obtain ⟨n3, hn⟩ := layIter_prefix (fun i acc r h => (List.prefix_append _ _).trans (pf i _ _ h)) _ _ _ _ e5
    rw [List.append_assoc, List.append_assoc, List.append_assoc] at hn
    obtain rfl := List.append_cancel_left hn
    have hr1 : Reads v s.rd (code m (n1 ++ ([.con 1 1] ++ ((n2 ++ n3) ++ [.con 1 0])))) := by
      simpa [List.append_assoc] using hr
    rw [Reads.code, Reads.code, size_con] at hr1
    rw [size_append, size_append, size_append, size_con] at hs
    obtain ⟨b1, k1⟩ := hg i (by omega) acc n1 s e1 (fun x hx => hf x (List.mem_append_left _ hx)) hh hr1.1
      (by push_cast at hs; omega)
    unfold recTArr1Loop
    rw [k1, CRes.bind_ok, if_neg (by unfold CSt.got; dsimp only; push_cast at hs; omega)]
    dsimp only
    have ht : tagSet v (s.got m n1 b1).rd = true := tag_true (m := m) hr1.2.1
    rw [ht]
    simp only [ite_true]
    have e6 : ((f (i + 1) (acc ++ (n1 ++ [.con 1 1]))).bind
        (layIter (fun i acc => f i (acc ++ [.con 1 1])) n (i + 1 + 1))) =
        some (acc ++ (n1 ++ [.con 1 1]) ++ (n2 ++ n3)) := by
      rw [← List.append_assoc acc, e2]
      simp [List.append_assoc]
    obtain ⟨bo', h⟩ := ih c (i + 1) (acc ++ (n1 ++ [.con 1 1])) (n2 ++ n3)
      ⟨(s.got m n1 b1).mem, (s.got m n1 b1).rd + 1, (s.got m n1 b1).bo + 1, (s.got m n1 b1).rem - 1⟩ (by omega) (by omega) e6
      (fun x hx => hf x (by
        rcases List.mem_append.mp hx with hx | hx
        · exact List.mem_append_right _ (List.mem_append_right _ (List.mem_append_left _ hx))
        · exact List.mem_append_right _ (List.mem_append_right _ (List.mem_append_right _ hx))))
      (by
        have h3 := hh.upd (new := n1 ++ [.con 1 1])
        rw [upd_append, upd_con] at h3
        exact h3)
      hr1.2.2
      (by unfold CSt.got; rw [size_append]; dsimp only; push_cast at hs ⊢; omega)
    refine ⟨bo', ?_⟩
    rw [h]
    unfold CSt.got
    simp only [CRes.ok.injEq, Prod.mk.injEq, CSt.mk.injEq, upd_append, upd_con, size_append, size_con, true_and]
    refine ⟨by omega, by omega, by push_cast; omega⟩

theorem unionIdx_reads {v : List Bool} : ∀ (n x idx : Nat) (s : CSt), Reads v s.rd (natBits n x) →
    unionIdx v false n idx s = (idx * 2 ^ n + x % 2 ^ n, { s with rd := s.rd + n, bo := s.bo + n, rem := s.rem - n }) := by
  intro n
  induction n with
  | zero => intro x idx s _; unfold unionIdx; simp [Nat.mod_one]
  | succ n ih =>
    intro x idx s h
    unfold natBits at h
    rw [Reads.cons] at h
    unfold unionIdx
    simp only [Bool.false_eq_true, ite_false]
    rw [ih x _ _ h.2]
    have hb : bitsVal v s.rd 1 = x / 2 ^ n % 2 := by
      unfold bitsVal bitsVal bitAt
      rw [h.1, Nat.testBit_eq_decide_div_mod_eq]
      by_cases hb : x / 2 ^ n % 2 = 1
      · simp only [hb, decide_true, ite_true]
      · have hb0 : x / 2 ^ n % 2 = 0 := by omega
        rw [hb0]; simp
    rw [hb]
    simp only [Prod.mk.injEq, CSt.mk.injEq, true_and]
    refine ⟨?_, by omega, by omega, by push_cast; omega⟩
    rw [Nat.pow_succ, Nat.mod_mul, Nat.add_mul]
    rw [show idx * 2 * 2 ^ n = idx * (2 ^ n * 2) by rw [Nat.mul_assoc, Nat.mul_comm 2]]
    rw [Nat.mul_comm (x / 2 ^ n % 2)]
    omega

theorem layIter_congr {f g : Nat → List Item → Option (List Item)} : ∀ (n i : Nat),
    (∀ j, i ≤ j → f j = g j) → layIter f n i = layIter g n i := by
  intro n
  induction n with
  | zero => intro i _; funext acc; rfl
  | succ n ih =>
    intro i h
    funext acc
    unfold layIter
    rw [h i (Nat.le_refl _), ih (i + 1) (fun j hj => h j (by omega))]

theorem bitsVal_split {v : List Bool} : ∀ (k j i : Nat),
    bitsVal v i (k + j) = bitsVal v i k * 2 ^ j + bitsVal v (i + k) j := by
  intro k
  induction k with
  | zero => intro j i; rw [Nat.zero_add]; show _ = 0 * _ + _; rw [Nat.zero_mul, Nat.zero_add]; rfl
  | succ k ih =>
    intro j i
    rw [show k + 1 + j = (k + j) + 1 by omega]
    rw [show bitsVal v i (k + j + 1) = bitAt v i * 2 ^ (k + j) + bitsVal v (i + 1) (k + j) from rfl,
      show bitsVal v i (k + 1) = bitAt v i * 2 ^ k + bitsVal v (i + 1) k from rfl, ih j (i + 1), Nat.add_mul, Nat.mul_assoc, ← Nat.pow_add, show i + 1 + k = i + (k + 1) by omega]
    omega

/-- Reading fewer bits reads the front of the number. -/
theorem bitsVal_front {v : List Bool} {i k n : Nat} (h : k ≤ n) : bitsVal v i k = bitsVal v i n / 2 ^ (n - k) := by
  obtain ⟨j, rfl⟩ : ∃ j, n = k + j := ⟨n - k, by omega⟩
  rw [bitsVal_split, Nat.add_sub_cancel_left, Nat.mul_comm, Nat.mul_add_div (Nat.two_pow_pos j),
    Nat.div_eq_of_lt (bitsVal_lt v j _), Nat.add_zero]

/-- A selector that is apart from the one sent does not match. -/
theorem apart_ne {v : List Bool} {i : Nat} {a b : Nat × Nat} (h : apart a b = true) (hb : Reads v i (natBits b.1 b.2))
    (hf : b.2 < 2 ^ b.1) : bitsVal v i a.1 ≠ a.2 := by
  intro ha
  have hb := bitsVal_reads hb hf
  unfold apart at h
  rw [bne_iff_ne] at h
  apply h
  by_cases hle : a.1 ≤ b.1
  · rw [Nat.min_eq_left hle, Nat.sub_self, Nat.pow_zero, Nat.div_one, ← ha, bitsVal_front hle, hb]
  · have hle : b.1 ≤ a.1 := by omega
    rw [Nat.min_eq_right hle, Nat.sub_self, Nat.pow_zero, Nat.div_one, ← hb, bitsVal_front hle, ha]

theorem decL_end {v : List Bool} {p : Pol} {base : Nat} {s : CSt} (h : 0 ≤ s.rem) :
    decL v p base [] {} s = .ok s := by
  unfold decL
  rw [if_pos rfl, if_neg (by omega)]

theorem decL_follows (v : List Bool) (m : Mem) {sub : List Csn} {b : Nat}
    (h : ∀ (c : Ctl) (acc new : List Item) (s : CSt) (rest : List Csn), layL m b sub c acc = some (acc ++ new) →
      (∀ i ∈ new, i.Fits m) → Holds m acc s.mem → Reads v s.rd (code m new) → ((size new : Nat) : Int) ≤ s.rem →
      ∃ bo', decL v .member b (sub ++ rest) c s = decL v .member b rest {} (s.got m new bo')) :
    Follows v m (layL m b sub {}) (decL v .member b sub {}) := by
  intro acc new s h1 hf hh hr hs
  obtain ⟨bo', h'⟩ := h {} acc new s [] h1 hf hh hr hs
  rw [List.append_nil] at h'
  exact ⟨bo', by rw [h', decL_end (by unfold CSt.got; dsimp only; omega)]⟩

theorem follows_elt {v m base off sz esz n i} {f : List Item → Option (List Item)} {g : Nat → CSt → CRes CSt}
    (hi : i < n) (hz : n * esz ≤ sz) (h : Follows v m f (g (base + off + i * esz))) :
    Follows v m f (elt .member base off sz esz g i) := by
  intro acc new s h1 hf hh hr hs
  obtain ⟨bo', h'⟩ := h acc new s h1 hf hh hr hs
  refine ⟨bo', ?_⟩
  unfold elt Pol.elem
  have : (i + 1) * esz ≤ n * esz := Nat.mul_le_mul_right _ hi
  rw [if_pos (by simp; omega), h']

theorem wr_sz1 {base off sz x} {s : CSt} (h : 1 ≤ sz) :
    wr .member base off sz 0 1 x s = wr .member base off 1 0 1 x s := by
  unfold wr Pol.store
  rw [if_pos (by simpa using h), if_pos (by simp)]

theorem layC_first (m : Mem) : ∀ (sel : List (Nat × Nat)) (ds : List Csn) (base off i : Nat) (acc r : List Item)
    (b : Nat × Nat), sel[i]? = some b → layC m base off i sel ds acc = some r →
    acc ++ [.con b.1 b.2, .implied (base + off) (m (base + off) % 256)] <+: r := by
  intro sel
  induction sel with
  | nil => intro ds base off i acc r b hb; cases hb
  | cons a sel ih =>
    intro ds base off i acc r b hb h
    cases ds with
    | nil => unfold layC at h; cases h
    | cons d ds =>
      unfold layC at h
      split at h
      · rename_i hi
        subst hi
        cases hb
        exact layD_prefix m false d base _ _ h
      · rename_i hi
        split at h
        · rename_i b' hb'
          split at h
          · obtain ⟨k, rfl⟩ : ∃ k, i = k + 1 := ⟨i - 1, by omega⟩
            exact ih ds base off k acc r b hb h
          · cases h
        · cases h

theorem wr_mem {base off sz k w x : Nat} {s : CSt} {mem : Mem} {rd bo : Nat} {rem : Int}
    (h : wr .member base off sz k w x s = .ok { s with mem := mem }) :
    wr .member base off sz k w x { s with rd := rd, bo := bo, rem := rem } = .ok ⟨mem, rd, bo, rem⟩ := by
  unfold wr at h ⊢
  split at h
  · rename_i hp
    rw [if_pos hp]
    have := congrArg CSt.mem (CRes.ok.inj h)
    dsimp only at this
    rw [← this]
  · cases h

/-- A line that does not steer, then the rest of the table. -/
theorem lay_step {v : List Bool} {m : Mem} {base : Nat} {d : Csn} {ds dr : List Csn} {R : CSt → CRes CSt}
    (hD : Follows v m (layD m false base d) (decD v .member false base d))
    (hL : ∀ (c : Ctl) (acc new : List Item) (s : CSt), layL m base ds c acc = some (acc ++ new) →
      (∀ i ∈ new, i.Fits m) → Holds m acc s.mem → Reads v s.rd (code m new) → ((size new : Nat) : Int) ≤ s.rem →
      ∃ bo', decL v .member base dr c s = R (s.got m new bo'))
    (acc new : List Item) (s : CSt)
    (h : (layD m false base d acc).bind (layL m base ds {}) = some (acc ++ new))
    (hf : ∀ i ∈ new, i.Fits m) (hh : Holds m acc s.mem) (hr : Reads v s.rd (code m new))
    (hs : ((size new : Nat) : Int) ≤ s.rem) :
    ∃ bo', (decD v .member false base d s >>= fun s => decL v .member base dr {} s) =
      R (s.got m new bo') := by
  obtain ⟨r1, e1, e2⟩ := Option.bind_eq_some_iff.mp h
  obtain ⟨n1, rfl⟩ := layD_prefix m false d base _ _ e1
  obtain ⟨n2, hn⟩ := layL_prefix m ds base _ _ _ e2
  rw [List.append_assoc] at hn
  obtain rfl := List.append_cancel_left hn
  rw [Reads.code] at hr
  rw [size_append] at hs
  obtain ⟨b1, k1⟩ := hD acc n1 s e1 (fun i hi => hf i (List.mem_append_left _ hi)) hh hr.1
    (by push_cast at hs; omega)
  rw [← List.append_assoc] at e2
  obtain ⟨b2, k2⟩ := hL _ (acc ++ n1) n2 (s.got m n1 b1) e2 (fun i hi => hf i (List.mem_append_right _ hi))
    hh.upd hr.2 (by unfold CSt.got; push_cast at hs ⊢; omega)
  refine ⟨b2, ?_⟩
  rw [k1, CRes.bind_ok, k2, got_append]

mutual

theorem decD_lay (v : List Bool) (m : Mem) (u : Bool) : ∀ (d : Csn) (base : Nat),
    Follows v m (layD m u base d) (decD v .member u base d)
  | .bit off sz o, base => by
    intro acc new s h hf hh hr hs
    unfold layD at h
    split at h
    · rename_i hz
      obtain rfl := some_append h
      refine ⟨s.bo + 1, ?_⟩
      rw [size_fld] at hs
      unfold decD
      rw [if_pos (by simp; right; omega)]
      have := wr_fld (k := 0) (w := 1) (ofs := 0) (sz := sz) (by omega) hr (hf _ (List.mem_cons_self ..))
      rw [Nat.add_zero, Nat.add_zero] at this
      rw [this, CRes.bind_ok, ← got_fld]
      rfl
    · cases h
  | .null i, base => by
    intro acc new s h hf hh hr hs
    unfold layD at h
    obtain rfl := append_eq_self (Option.some.inj h)
    refine ⟨s.bo + i, ?_⟩
    unfold decD CSt.got
    rw [upd_nil, size_nil]; simp
  | .uint off sz bits o, base => by
    intro acc new s h hf hh hr hs
    unfold layD at h
    split at h
    · rename_i hz
      obtain rfl := some_append h
      refine ⟨s.bo + bits, ?_⟩
      rw [size_fld] at hs
      unfold decD
      rw [if_pos hs, if_pos hz.2]
      have := wr_fld (k := 0) (w := uintW bits) (ofs := 0) (sz := sz) (by omega) hr (hf _ (List.mem_cons_self ..))
      rw [Nat.add_zero, Nat.add_zero] at this
      rw [this, CRes.bind_ok, ← got_fld]
      rfl
    · cases h
  | .uintOfs off sz bits value, base => by
    intro acc new s h hf hh hr hs
    unfold layD at h
    split at h
    · rename_i hz
      obtain rfl := some_append h
      refine ⟨s.bo + bits, ?_⟩
      rw [size_fld] at hs
      unfold decD
      rw [if_pos hs, if_pos hz.2]
      have := wr_fld (k := 0) (w := uintW bits) (ofs := value) (sz := sz) (by omega) hr (hf _ (List.mem_cons_self ..))
      rw [Nat.add_zero] at this
      rw [this, CRes.bind_ok, ← got_fld]
      rfl
    · cases h
  | .uintLh .., _ => by intro acc new s h; unfold layD at h; cases h
  | .uintArr off sz bits count, base => by
    intro acc new s h hf hh hr hs
    unfold layD at h
    split at h
    · rename_i hz
      obtain rfl := some_append h
      refine ⟨s.bo + bits * count, ?_⟩
      have hsz := size_octets bits count (base + off)
      rw [hsz] at hs
      unfold decD
      rw [if_pos (by push_cast at hs; exact hs), if_pos hz.1,
        rdArr_octets count 0 s (by omega) hr hf, CRes.bind_ok]
      unfold CSt.got
      rw [hsz]
      simp
    · cases h
  | .typ off orNull sub, base => by
    intro acc new s h hf hh hr hs
    unfold layD at h
    obtain ⟨r, e1, e2⟩ := Option.bind_eq_some_iff.mp h
    split at e2
    · cases e2
    · rename_i hz
      cases e2
      obtain ⟨bo', h'⟩ := decL_lay v m sub (base + off) {} acc new s [] e1 hf hh hr hs
      refine ⟨bo', ?_⟩
      rw [List.append_nil] at h'
      unfold decD
      rw [if_neg, h', decL_end (by unfold CSt.got; dsimp only; omega)]
      intro hc
      rw [Bool.and_eq_true] at hc
      have h0 := eq_of_beq hc.2
      rw [size_append] at hz
      exact hz ⟨hc.1, by omega⟩
  | .tarr off sz esz count sub, base => by
    unfold Follows
    unfold layD decD
    split
    · rename_i hz
      refine follows_iter (hi := count) ?_ ?_ count 0 (by omega)
      · intro i hi
        exact follows_elt hi hz (decL_follows v m (decL_lay v m sub _))
      · intro i acc r h; exact layL_prefix m sub _ _ _ _ h
    · intro acc new s h; cases h
  | .vtarr ofs off sz esz cnt sub, base => by
    intro acc new s h hf hh hr hs
    unfold layD at h
    dsimp only at h
    split at h
    · rename_i hz
      unfold decD
      rw [hz.1]
      simp only [Bool.false_eq_true, ite_false]
      rw [byte_of_holds hh hz.2.1]
      refine follows_iter (hi := m (base + cnt) % 256) ?_ ?_ _ 0 (by omega) acc new s h hf hh hr hs
      · intro i hi
        exact follows_elt hi hz.2.2 (decL_follows v m (decL_lay v m sub _))
      · intro i acc r h; exact layL_prefix m sub _ _ _ _ h
    · cases h
  | .bitmap off sz bits, base => by
    intro acc new s h hf hh hr hs
    unfold layD at h
    split at h
    · cases h
    · rename_i hu
      split at h
      · rename_i hz
        obtain ⟨rfl, hz⟩ := hz
        obtain rfl := some_append h
        refine ⟨s.bo + 32, ?_⟩
        have hsz := size_octets 8 4 (base + off)
        rw [hsz] at hs
        unfold decD
        rw [if_neg (by decide), if_neg (by omega), if_neg (by decide), if_neg hu, if_pos (by decide),
          rdOctets, rdArr_octets 4 0 s (by omega) hr hf, CRes.bind_ok]
        unfold CSt.got
        rw [hsz]
        rfl
      · split at h
        · rename_i hz
          obtain ⟨rfl, hz⟩ := hz
          obtain rfl := some_append h
          refine ⟨s.bo + 64, ?_⟩
          have hsz := size_octets 8 8 (base + off)
          rw [hsz] at hs
          unfold decD
          rw [if_neg (by decide), if_neg (by omega), if_neg (by decide), if_neg hu, if_neg (by decide),
            rdOctets, rdArr_octets 8 0 s (by omega) hr hf, CRes.bind_ok]
          unfold CSt.got
          rw [hsz]
          rfl
        · cases h
  | .choice off sz sel subs, base => by
    intro acc new s h hf hh hr hs
    unfold layD at h
    split at h
    · cases h
    · rename_i hz
      unfold decD
      rw [if_neg (by simp at hz; simp [hz.1])]
      have := decC_lay v m sel subs base off sz (m (base + off) % 256) 0 (by omega) (by omega)
      exact this acc new s h hf hh hr hs
  | .serialize off lenBits sub, base => by
    intro acc new s h hf hh hr hs
    unfold layD at h
    split at h
    · cases h
    · rename_i hz
      obtain ⟨r, e1, e2⟩ := Option.bind_eq_some_iff.mp h
      split at e2
      · rename_i hp
        obtain rfl := some_append e2
        have hr1 : Reads v s.rd (code m ([.con lenBits (size r)] ++ r)) := hr
        rw [Reads.code, size_con] at hr1
        have hfl : size r < 2 ^ lenBits := hf _ (List.mem_cons_self ..)
        have hb : bitsVal v s.rd lenBits = size r := by
          refine bitsVal_reads ?_ hfl
          have := hr1.1
          rw [code_cons, code_nil, List.append_nil] at this
          exact this
        have h256 : size r < 256 := Nat.lt_of_lt_of_le hfl
          (show 2 ^ lenBits ≤ 2 ^ 8 from Nat.pow_le_pow_right (by decide) (by omega))
        have hsz : size (Item.con lenBits (size r) :: r) = lenBits + size r := by rw [size_cons]; rfl
        rw [hsz] at hs
        obtain ⟨bo', h'⟩ := decL_lay v m sub (base + off) {} [] r
          { s.take lenBits with rem := (size r : Nat) } [] e1 (fun i hi => hf i (List.mem_cons_of_mem _ hi)) Holds.nil
          hr1.2 (by dsimp only; omega)
        rw [List.append_nil] at h'
        refine ⟨s.bo + lenBits + size r, ?_⟩
        unfold decD
        rw [if_neg (by simp at hz; simp [hz.1])]
        dsimp only
        rw [hb, Nat.mod_eq_of_lt h256, if_pos hp, h',
          decL_end (by unfold CSt.got; dsimp only; omega), CRes.bind_ok]
        unfold CSt.got CSt.take
        rw [upd_cons m s.mem (.con lenBits (size r)) r, upd_con, hsz]
        simp only [CRes.ok.injEq, CSt.mk.injEq, true_and]
        refine ⟨by omega, by push_cast; omega⟩
      · cases e2
  | .varBmp off sz cnt adj, base => by
    intro acc new s h hf hh hr hs
    unfold layD at h
    dsimp only at h
    split at h
    · rename_i hz
      unfold decD
      rw [if_neg (by simp [hz.1])]
      dsimp only
      rw [byte_of_holds hh hz.2.1]
      generalize m (base + cnt) % 256 + adj = n at h hz ⊢
      split at h
      · rename_i hn
        obtain rfl := some_append h
        have hsz : size (Item.fld (base + off) 1 (n % 8) 0 :: octets 8 (base + off + 1) (n / 8)) = n := by
          rw [size_cons, size_octets]
          show n % 8 + _ = n
          omega
        rw [hsz] at hs
        have hr1 : Reads v s.rd (code m ([.fld (base + off) 1 (n % 8) 0] ++ octets 8 (base + off + 1) (n / 8))) := hr
        rw [Reads.code, size_fld] at hr1
        rw [if_neg (by omega), if_neg (by omega), if_pos hn]
        have := wr_fld (k := 0) (w := 1) (ofs := 0) (sz := sz) (by omega) hr1.1 (hf _ (List.mem_cons_self ..))
        rw [Nat.add_zero, Nat.add_zero] at this
        refine ⟨s.bo + n % 8, ?_⟩
        rw [this, CRes.bind_ok, rdOctets, rdArr_octets (n / 8) 1 _ (by omega) hr1.2
          (fun i hi => hf i (List.mem_cons_of_mem _ hi)), CRes.bind_ok]
        unfold CSt.got
        rw [hsz, upd_cons m s.mem (.fld (base + off) 1 (n % 8) 0) (octets 8 (base + off + 1) (n / 8))]
        simp only [CRes.ok.injEq, CSt.mk.injEq, true_and]
        refine ⟨by omega, trivial⟩
      · rename_i hn
        obtain rfl := some_append h
        have hsz : size (octets 8 (base + off) (n / 8)) = n := by rw [size_octets]; omega
        by_cases h0 : n = 0
        · subst h0
          refine ⟨s.bo, ?_⟩
          rw [if_pos rfl]
          exact congrArg CRes.ok got_nil.symm
        · rw [if_neg h0, if_neg (by omega), if_neg hn, rdOctets, rdArr_octets (n / 8) 0 s (by omega) hr hf, CRes.bind_ok]
          refine ⟨s.bo, ?_⟩
          unfold CSt.got
          rw [hsz, show 8 * (n / 8) = n by omega]
          rfl
    · cases h
  | .leftBmp toEnd off sz cnt adj, base => by
    intro acc new s h hf hh hr hs
    unfold layD at h
    dsimp only at h
    split at h
    · rename_i hz
      obtain ⟨hu, rfl, hc, hn, hb⟩ := hz
      unfold decD
      rw [if_neg (by simp [hu])]
      unfold storeRest
      rw [if_neg (by simp), CRes.bind_ok]
      dsimp only
      rw [byte_of_holds hh hc]
      generalize m (base + cnt) % 256 + adj = n at h hn hb ⊢
      obtain rfl := some_append h
      have hsz : size (octets 8 (base + off) (n / 8)) = n := by rw [size_octets]; omega
      by_cases h0 : n = 0
      · subst h0
        refine ⟨s.bo, ?_⟩
        rw [if_pos rfl]
        exact congrArg CRes.ok got_nil.symm
      · rw [if_neg h0, if_neg (by omega), rdOctets, rdArr_octets (n / 8) 0 s (by omega) hr hf, CRes.bind_ok,
          if_neg (by omega)]
        refine ⟨s.bo, ?_⟩
        unfold CSt.got
        rw [hsz, show 8 * (n / 8) = n by omega]
        rfl
    · cases h
  | .padding, _ => by intro acc new s h; unfold layD at h; cases h
  | .varArr off sz cnt adj, base => by
    intro acc new s h hf hh hr hs
    unfold layD at h
    dsimp only at h
    split at h
    · rename_i hz
      unfold decD
      rw [if_neg (by simp [hz.1])]
      dsimp only
      rw [byte_of_holds hh hz.2.1]
      generalize m (base + cnt) % 256 + adj = n at h hz ⊢
      obtain rfl := some_append h
      have hsz : size (octets 8 (base + off) n) = 8 * n := by rw [size_octets]
      by_cases h0 : n = 0
      · subst h0
        refine ⟨s.bo, ?_⟩
        rw [if_pos rfl]
        exact congrArg CRes.ok got_nil.symm
      · rw [if_neg h0, if_neg (by omega), rdOctets, rdArr_octets n 0 s (by omega) hr hf, CRes.bind_ok]
        refine ⟨s.bo + 8 * n, ?_⟩
        unfold CSt.got
        rw [hsz]
        simp only [CRes.ok.injEq, CSt.mk.injEq, true_and, Nat.add_zero]
        push_cast; rfl
    · cases h
  | .recArr off sz cnt bits, base => by
    intro acc new s h hf hh hr hs
    unfold layD at h
    dsimp only at h
    split at h
    · rename_i hz
      rw [List.append_assoc] at h
      have hn := some_append h
      subst hn
      generalize hn : m (base + cnt) % 256 = n at *
      rw [show taggedOctets bits (base + off) n ++ [Item.con 1 0, Item.implied (base + cnt) n] =
        (taggedOctets bits (base + off) n ++ [.con 1 0]) ++ [.implied (base + cnt) n] by simp] at hr
      rw [Reads.code] at hr
      have hsz : size (taggedOctets bits (base + off) n ++ [Item.con 1 0, Item.implied (base + cnt) n]) =
          (1 + bits) * n + 1 := by rw [size_append, size_tagged]; rfl
      rw [hsz] at hs
      obtain ⟨bo', h'⟩ := recArr_lay (sz := sz) n (v.length - s.rd) 0 s (by omega) (Nat.le_refl _) hr.1
        (fun i hi => hf i (List.mem_append_left _ hi)) (by rw [Int.natCast_add] at hs; omega)
      unfold decD
      rw [if_neg (by simp [hz.1]), h', CRes.bind_ok]
      dsimp only
      rw [Nat.zero_add, wr_imp hn, CRes.bind_ok]
      refine ⟨bo' + 1, ?_⟩
      unfold CSt.got
      rw [hsz, upd_append, upd_cons m _ (.con 1 0) [.implied (base + cnt) n], upd_con]
      simp only [CRes.ok.injEq, CSt.mk.injEq, true_and, Nat.add_zero]
      refine ⟨by omega, by push_cast; omega⟩
    · cases h
  | .recTArr off sz esz cap cnt sub, base => by
    intro acc new s h hf hh hr hs
    unfold layD at h
    dsimp only at h
    split at h
    · rename_i hz
      generalize hn : m (base + cnt) % 256 = n at *
      obtain ⟨r, e1, e2⟩ := Option.bind_eq_some_iff.mp h
      obtain ⟨x, rfl⟩ := layIter_prefix (fun i acc r h => (List.prefix_append _ _).trans (layL_prefix m sub _ _ _ _ h)) _ _ _ _ e1
      rw [List.append_assoc] at e2
      have hn2 := some_append e2
      subst hn2
      rw [show x ++ [Item.stop, Item.implied (base + cnt) n] = (x ++ [.stop]) ++ [.implied (base + cnt) n] by simp] at hr
      rw [Reads.code, show code m (x ++ [.stop]) = code m (x ++ [.con 1 0]) by rw [code_append, code_append]; rfl] at hr
      have hsz : size (x ++ [Item.stop, Item.implied (base + cnt) n]) = size x + 1 := by rw [size_append]; rfl
      rw [hsz] at hs
      obtain ⟨bo', h'⟩ := recTArr_lay (v := v) (m := m) (hi := n)
        (g := elt .member base off sz esz (fun b s => decL v .member b sub {} s))
        (f := fun i acc => layL m (base + off + i * esz) sub {} acc)
        (fun i hi => follows_elt hi hz.2.2 (decL_follows v m (decL_lay v m sub _)))
        (fun i acc r h => layL_prefix m sub _ _ _ _ h) n cap 0 acc x s hz.2.1 (by omega) e1
        (fun i hi => hf i (List.mem_append_left _ hi)) hh hr.1 (by omega)
      unfold decD
      rw [if_neg (by simp [hz.1]), h', CRes.bind_ok]
      dsimp only
      rw [Nat.zero_add, wr_imp hn, CRes.bind_ok]
      refine ⟨bo' + 1, ?_⟩
      unfold CSt.got
      rw [hsz, upd_append, upd_cons m _ .stop [.implied (base + cnt) n], upd_stop]
      simp only [CRes.ok.injEq, CSt.mk.injEq, true_and]
      refine ⟨by omega, by push_cast; omega⟩
    · cases h
  | .recTArr1 off sz esz cap cnt sub, base => by
    intro acc new s h hf hh hr hs
    unfold layD at h
    dsimp only at h
    split at h
    · rename_i hz
      generalize hn : m (base + cnt) % 256 = n at *
      obtain ⟨hu, hp, hcap, hlen⟩ := hz
      obtain ⟨n, rfl⟩ : ∃ k, n = k + 1 := ⟨n - 1, by omega⟩
      obtain ⟨r, e1, e2⟩ := Option.bind_eq_some_iff.mp h
      obtain ⟨x, rfl⟩ := layIter_prefix (fun i acc r h => by
        refine List.IsPrefix.trans ?_ (layL_prefix m sub _ _ _ _ h)
        split
        · exact List.prefix_refl _
        · exact List.prefix_append _ _) _ _ _ _ e1
      rw [List.append_assoc] at e2
      have hn2 := some_append e2
      subst hn2
      rw [show x ++ [Item.con 1 0, Item.implied (base + cnt) (n + 1)] = (x ++ [.con 1 0]) ++ [.implied (base + cnt) (n + 1)] by simp] at hr
      rw [Reads.code] at hr
      have hsz : size (x ++ [Item.con 1 0, Item.implied (base + cnt) (n + 1)]) = size x + 1 := by rw [size_append]; rfl
      rw [hsz] at hs
      have e3 : ((layL m (base + off + 0 * esz) sub {} acc).bind
          (layIter (fun i acc => layL m (base + off + i * esz) sub {} (acc ++ [.con 1 1])) n (0 + 1))) = some (acc ++ x) := by
        rw [← e1]
        show _ = Option.bind _ _
        rw [layIter_congr (f := fun i acc => layL m (base + off + i * esz) sub {}
          (if i = 0 then acc else acc ++ [Item.con 1 1]))
          (g := fun i acc => layL m (base + off + i * esz) sub {} (acc ++ [Item.con 1 1])) n (0 + 1) (fun j hj => by
            funext a; rw [if_neg (show ¬ j = 0 by omega)])]
        rfl
      obtain ⟨bo', h'⟩ := recTArr1_lay (v := v) (m := m) (hi := n + 1)
        (g := elt .member base off sz esz (fun b s => decL v .member b sub {} s))
        (f := fun i acc => layL m (base + off + i * esz) sub {} acc)
        (fun i hi => follows_elt hi hlen (decL_follows v m (decL_lay v m sub _)))
        (fun i acc r h => layL_prefix m sub _ _ _ _ h) n cap 0 acc x s hcap (by omega) e3
        (fun i hi => hf i (List.mem_append_left _ hi)) hh hr.1 (by omega)
      unfold decD
      rw [if_neg (by simp [hu]), h', CRes.bind_ok]
      dsimp only
      rw [Nat.zero_add, wr_imp hn]
      refine ⟨bo', ?_⟩
      unfold CSt.got
      rw [hsz, upd_append, upd_cons m _ (.con 1 0) [.implied (base + cnt) (n + 1)], upd_con]
      simp only [CRes.ok.injEq, CSt.mk.injEq, true_and, and_true]
      omega
    · cases h
  | .fixed bits value, base => by
    intro acc new s h hf hh hr hs
    unfold layD at h
    split at h
    · cases h
    · rename_i hu
      obtain rfl := some_append h
      refine ⟨s.bo + bits, ?_⟩
      have hfl : value < 2 ^ bits := hf _ (List.mem_cons_self ..)
      have hb : bitsVal v s.rd bits = value := by
        refine bitsVal_reads ?_ hfl
        rw [code_cons, code_nil, List.append_nil] at hr
        exact hr
      unfold decD
      rw [if_neg hu, if_neg (by rw [hb]; simp)]
      unfold CSt.got CSt.take
      rw [upd_con, size_con]
  | .cbCopy .., _ => by intro acc new s h; unfold layD at h; cases h
  | .cbTddMap .., _ => by intro acc new s h; unfold layD at h; cases h
  | .cbTddCells .., _ => by intro acc new s h; unfold layD at h; cases h
  | .trap .., _ => by intro acc new s h; unfold layD at h; cases h
  | .union .., _ => by intro acc new s h; unfold layD at h; cases h
  | .exist .., _ => by intro acc new s h; unfold layD at h; cases h
  | .nextExist .., _ => by intro acc new s h; unfold layD at h; cases h

theorem decC_lay (v : List Bool) (m : Mem) : ∀ (sel : List (Nat × Nat)) (subs : List Csn) (base off sz i j : Nat),
    i + j = m (base + off) % 256 → 1 ≤ sz →
    Follows v m (layC m base off i sel subs) (decC v .member base off sz j sel subs)
  | [], _, _, _, _, _, _, _, _ => by intro acc new s h; unfold layC at h; cases h
  | _ :: _, [], _, _, _, _, _, _, _ => by intro acc new s h; unfold layC at h; cases h
  | b :: sel, d :: ds, base, off, sz, i, j, hij, hsz => by
    intro acc new s h hf hh hr hs
    unfold layC at h
    split at h
    · rename_i hi
      subst hi
      obtain ⟨x, hx⟩ := layD_prefix m false d base _ _ h
      rw [List.append_assoc] at hx
      obtain rfl := List.append_cancel_left hx
      have hr1 : Reads v s.rd (code m ([.con b.1 b.2, .implied (base + off) (m (base + off) % 256)] ++ x)) := hr
      rw [Reads.code] at hr1
      have hfl : b.2 < 2 ^ b.1 := hf (.con b.1 b.2) (List.mem_append_left _ (List.mem_cons_self ..))
      have hb : bitsVal v s.rd b.1 = b.2 := by
        refine bitsVal_reads ?_ hfl
        have := hr1.1
        rw [code_cons, code_cons, code_nil, List.append_nil] at this
        have h2 := (Reads.append.mp this).1
        exact h2
      have hz2 : size [Item.con b.1 b.2, .implied (base + off) (m (base + off) % 256)] = b.1 := by
        rw [size_cons, size_cons, size_nil]; rfl
      rw [size_append, hz2] at hs
      rw [hz2] at hr1
      unfold decC
      have hj : j = m (base + off) % 256 := by omega
      rw [if_pos hb, wr_sz1 hsz, wr_imp hj.symm, CRes.bind_ok]
      dsimp only
      rw [← List.append_assoc] at h
      obtain ⟨bo', h'⟩ := decD_lay v m false d base _ x
        (CSt.take { s with mem := upd m [.implied (base + off) j] s.mem } b.1) h
        (fun i hi => hf i (List.mem_append_right _ hi))
        (by
          have h3 := hh.upd (new := [.con b.1 b.2, .implied (base + off) (m (base + off) % 256)])
          rw [upd_cons, upd_con, ← hj] at h3
          rw [← hj]
          exact h3)
        hr1.2 (by unfold CSt.take; dsimp only; push_cast at hs; omega)
      rw [if_neg (by unfold CSt.take; dsimp only; push_cast at hs; omega), h', CRes.bind_ok,
        if_neg (by unfold CSt.got CSt.take; dsimp only; push_cast at hs; omega)]
      refine ⟨bo', ?_⟩
      unfold CSt.got CSt.take
      rw [upd_append, upd_cons m s.mem (.con b.1 b.2) [.implied (base + off) (m (base + off) % 256)], upd_con, ← hj, size_append, hj, hz2]
      simp only [CRes.ok.injEq, CSt.mk.injEq, true_and]
      refine ⟨by omega, by push_cast; omega⟩
    · rename_i hi
      split at h
      · rename_i b' hb'
        split at h
        · rename_i hap
          have hfst := layC_first m sel ds base off (i - 1) acc (acc ++ new) b' hb' h
          obtain ⟨t, ht⟩ := hfst
          rw [List.append_assoc] at ht
          obtain rfl := List.append_cancel_left ht
          have hne : bitsVal v s.rd b.1 ≠ b.2 := by
            refine apart_ne hap ?_ (hf (.con b'.1 b'.2) (List.mem_append_left _ (List.mem_cons_self ..)))
            have := hr
            rw [List.cons_append, code_cons] at this
            exact (Reads.append.mp this).1
          unfold decC
          rw [if_neg hne]
          exact decC_lay v m sel ds base off sz (i - 1) (j + 1) (by omega) hsz acc _ s h hf hh hr hs
        · cases h
      · cases h

theorem decL_lay (v : List Bool) (m : Mem) : ∀ (ds : List Csn) (base : Nat) (c : Ctl) (acc new : List Item) (s : CSt)
    (rest : List Csn), layL m base ds c acc = some (acc ++ new) → (∀ i ∈ new, i.Fits m) → Holds m acc s.mem →
    Reads v s.rd (code m new) → ((size new : Nat) : Int) ≤ s.rem →
    ∃ bo', decL v .member base (ds ++ rest) c s = decL v .member base rest {} (s.got m new bo')
  | [], base, c, acc, new, s, rest, h, hf, hh, hr, hs => by
    unfold layL at h
    split at h
    · rename_i hc
      obtain rfl := append_eq_self (Option.some.inj h)
      obtain ⟨k, p⟩ := c
      obtain ⟨rfl, rfl⟩ := hc
      exact ⟨s.bo, by rw [got_nil]; rfl⟩
    · cases h
  | d :: ds, base, c, acc, new, s, rest, h, hf, hh, hr, hs => by
    have hD := fun u => decD_lay v m u d base
    have hL := fun c acc new s => decL_lay v m ds base c acc new s rest
    rw [List.cons_append]
    generalize decL v .member base rest {} = R at hL ⊢
    have hdr : ∀ n, n ≤ ds.length → (ds ++ rest).take n = ds.take n := fun n hn => List.take_append_of_le_length hn
    generalize ds ++ rest = dr at hL hdr ⊢
    unfold layL at h
    unfold decL
    split at h
    · rename_i hk
      rw [if_pos hk]
      exact hL _ acc new s h hf hh hr hs
    · rename_i hk
      rw [if_neg hk]
      obtain ⟨k, p⟩ := c
      cases p with
      | some r =>
        dsimp only at h ⊢
        obtain ⟨r1, e1, e2⟩ := Option.bind_eq_some_iff.mp h
        obtain ⟨n1, rfl⟩ := layD_prefix m true d base _ _ e1
        obtain ⟨n2, hn⟩ := layL_prefix m ds base _ _ _ e2
        rw [List.append_assoc] at hn
        obtain rfl := List.append_cancel_left hn
        rw [Reads.code] at hr
        rw [size_append] at hs
        obtain ⟨b1, k1⟩ := hD true acc n1 s e1 (fun i hi => hf i (List.mem_append_left _ hi)) hh hr.1
          (by push_cast at hs; omega)
        rw [← List.append_assoc] at e2
        obtain ⟨b2, k2⟩ := hL _ (acc ++ n1) n2 (s.got m n1 b1) e2 (fun i hi => hf i (List.mem_append_right _ hi))
          hh.upd hr.2 (by unfold CSt.got; push_cast at hs ⊢; omega)
        refine ⟨b2, ?_⟩
        rw [k1, CRes.bind_ok, if_neg (by unfold CSt.got; dsimp only; push_cast at hs; omega), k2, got_append]
      | none =>
        dsimp only at h ⊢
        rw [if_neg (by omega)]
        cases d
        case union lh off sz count =>
          dsimp only at h ⊢
          split at h
          · rename_i hz
            obtain ⟨rfl, hc, hc2, hz⟩ := hz
            obtain ⟨n2, hn⟩ := layL_prefix m ds base _ _ _ h
            rw [List.append_assoc] at hn
            obtain rfl := List.append_cancel_left hn
            rw [Reads.code, size_fld] at hr
            rw [size_append, size_fld] at hs
            have hfit := hf (.fld (base + off) 1 (ixBits count) 0) (List.mem_append_left _ (List.mem_cons_self ..))
            rw [if_neg (by omega)]
            have hidx := unionIdx_reads (v := v) (ixBits count) (getLe m (base + off) 1) 0 s (by
              have := hr.1
              rw [code_cons, code_nil, List.append_nil] at this
              exact this)
            simp only [Item.Fits, Nat.sub_zero] at hfit
            rw [Nat.mod_eq_of_lt hfit.2, Nat.zero_mul, Nat.zero_add, getLe_one] at hidx
            rw [hidx]
            dsimp only
            have hw := wr_fld (k := 0) (w := 1) (ofs := 0) (sz := sz) (base := base) (off := off) (s := s) (by omega) hr.1 (hf _ (List.mem_append_left _ (List.mem_cons_self ..)))
            have hbv : bitsVal v s.rd (ixBits count) = m (base + off) % 256 := by
              rw [← getLe_one]
              refine bitsVal_reads ?_ hfit.2
              have := hr.1
              rw [code_cons, code_nil, List.append_nil] at this
              exact this
            rw [Nat.add_zero, Nat.add_zero, hbv] at hw
            rw [wr_mem hw, CRes.bind_ok]
            rw [← List.append_assoc] at h
            obtain ⟨b2, k2⟩ := hL _ (acc ++ [.fld (base + off) 1 (ixBits count) 0]) n2
              ⟨upd m [.fld (base + off) 1 (ixBits count) 0] s.mem, s.rd + ixBits count, s.bo + ixBits count,
                s.rem - (ixBits count : Nat)⟩ h
              (fun i hi => hf i (List.mem_append_right _ hi)) hh.upd hr.2 (by dsimp only; push_cast at hs; omega)
            refine ⟨b2, ?_⟩
            rw [k2, ← got_append (x := s.bo + ixBits count), ← got_fld]
          · cases h
        case exist lh off sz => cases h
        case nextExist lh off sz n orNull =>
          dsimp only at h ⊢
          split at h
          · rename_i hz
            obtain ⟨rfl, hz, hn⟩ := hz
            obtain ⟨r, e1, e2⟩ := Option.bind_eq_some_iff.mp h
            split at e2
            · cases e2
            · rename_i hlast
              cases e2
              obtain ⟨n2, hn2⟩ := layL_prefix m ds base _ _ _ e1
              rw [List.append_assoc] at hn2
              obtain rfl := List.append_cancel_left hn2
              rw [Reads.code, size_fld] at hr
              rw [size_append, size_fld] at hs
              have hfit := hf (.fld (base + off) 1 1 0) (List.mem_append_left _ (List.mem_cons_self ..))
              have hw := wr_fld (k := 0) (w := 1) (ofs := 0) (sz := sz) (base := base) (off := off) (s := s) (by omega)
                hr.1 hfit
              have hbv : bitsVal v s.rd 1 = m (base + off) % 256 := by
                rw [← getLe_one]
                refine bitsVal_reads ?_ hfit.2
                have := hr.1
                rw [code_cons, code_nil, List.append_nil] at this
                exact this
              have hlt : m (base + off) % 256 < 2 := by
                have := hfit.2
                rw [getLe_one] at this
                exact this
              rw [Nat.add_zero, Nat.add_zero, hbv] at hw
              rw [if_neg (by
                intro hc
                rw [Bool.and_eq_true] at hc
                have := eq_of_beq hc.2
                push_cast at hs
                omega)]
              rw [hdr n hn, hbv]
              simp only [Bool.false_eq_true, ite_false]
              have habs : (m (base + off) % 256 == 0 || (s.rem == 1 && (ds.take n).all Csn.mayBeNull)) =
                  decide (m (base + off) % 256 = 0) := by
                by_cases h0 : m (base + off) % 256 = 0
                · simp [h0]
                · have : (s.rem == 1 && (ds.take n).all Csn.mayBeNull) = false := by
                    rw [Bool.eq_false_iff]
                    intro hc
                    rw [Bool.and_eq_true] at hc
                    have h1 := eq_of_beq hc.1
                    refine hlast ⟨h0, hc.2, ?_⟩
                    rw [size_append, size_append, size_append, size_fld]
                    push_cast at hs
                    omega
                  simp [h0, this]
              rw [habs]
              have hx : (if decide (m (base + off) % 256 = 0) = true then 0 else 1) = m (base + off) % 256 := by
                by_cases h0 : m (base + off) % 256 = 0
                · simp [h0]
                · simp only [h0, decide_false, Bool.false_eq_true, ite_false]; omega
              rw [hx, hw, CRes.bind_ok]
              have hsk : (if decide (m (base + off) % 256 = 0) = true then n else 0) =
                  (if m (base + off) % 256 ≠ 0 then 0 else n) := by
                by_cases h0 : m (base + off) % 256 = 0 <;> simp [h0]
              rw [hsk]
              rw [← List.append_assoc] at e1
              obtain ⟨b2, k2⟩ := hL _ (acc ++ [.fld (base + off) 1 1 0]) n2
                ⟨upd m [.fld (base + off) 1 1 0] s.mem, s.rd + 1, s.bo + 1, s.rem - 1⟩ e1
                (fun i hi => hf i (List.mem_append_right _ hi)) hh.upd hr.2 (by dsimp only; push_cast at hs; omega)
              refine ⟨b2, ?_⟩
              rw [k2, ← got_append (x := s.bo + 1), ← got_fld]
              rfl
          · cases h
        all_goals
          dsimp only at h ⊢
          exact lay_step (hD false) hL acc new s h hf hh hr hs

end

end Verif.Csn1
