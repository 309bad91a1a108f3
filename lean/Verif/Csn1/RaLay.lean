import Verif.Csn1.RaCap
import Verif.Csn1.LayTop

/-!
# Lemmas: the table of "Content" stands for its fields
-/
namespace Verif.Csn1

open Spec

/-- The lines `g` of a table stand for these bits and these octets. -/
def Grp (m : Mem) (b : Nat) (g : List Csn) (bits : List Bool) (mem : List Nat) : Prop :=
  ∃ l : List Item, (∀ acc ds, layL m b (g ++ ds) {} acc = layL m b ds {} (acc ++ l)) ∧ code m l = bits ∧
    (∀ a, carried l a = true ↔ a ∈ mem) ∧ (∀ i ∈ l, i.Fits m) ∧ skew l = 0

theorem Grp.nil {m : Mem} {b : Nat} : Grp m b [] [] [] :=
  ⟨[], fun acc ds => by rw [List.append_nil]; rfl, rfl, fun a => by simp [carried], by simp, rfl⟩

theorem Grp.append {m : Mem} {b : Nat} {g g' : List Csn} {x x' : List Bool} {y y' : List Nat} (h : Grp m b g x y)
    (h' : Grp m b g' x' y') : Grp m b (g ++ g') (x ++ x') (y ++ y') := by
  obtain ⟨l, h1, h2, h3, h4, h5⟩ := h
  obtain ⟨l', h1', h2', h3', h4', h5'⟩ := h'
  refine ⟨l ++ l', fun acc ds => ?_, ?_, fun a => ?_, fun i hi => ?_, ?_⟩
  · rw [List.append_assoc, h1, h1', List.append_assoc]
  · rw [code_append, h2, h2']
  · rw [carried_append, Bool.or_eq_true, h3, h3', List.mem_append]
  · rcases List.mem_append.mp hi with hi | hi
    · exact h4 i hi
    · exact h4' i hi
  · rw [skew_append, h5, h5']

theorem Grp.uint {m : Mem} {b off bits x : Nat} {nul : Bool} (hb : bits ≤ 8) (hx : m (b + off) % 256 = x) (h : x < 2 ^ bits) :
    Grp m b [.uint off 1 bits nul] (natBits bits x) [b + off] := by
  have hw : uintW bits = 1 := by unfold uintW; rw [if_pos hb]
  refine ⟨[.fld (b + off) 1 bits 0], fun acc ds => ?_, ?_, fun a => ?_, fun i hi => ?_, rfl⟩
  · rw [List.singleton_append]
    conv => lhs; unfold layL
    rw [if_neg (by simp)]
    dsimp only
    unfold layD
    rw [hw, if_pos ⟨Nat.le_refl _, by omega⟩]
    rfl
  · rw [code_cons, code_nil, List.append_nil]
    unfold Item.code
    dsimp only
    rw [getLe_one, hx, Nat.sub_zero]
  · rw [carried_cons, carried_nil, Bool.or_false]
    unfold Item.covers
    rw [Bool.and_eq_true, decide_eq_true_iff, decide_eq_true_iff, List.mem_singleton]
    omega
  · rw [List.mem_singleton] at hi
    subst hi
    unfold Item.Fits
    dsimp only
    rw [getLe_one, hx]
    exact ⟨Nat.zero_le _, by omega⟩

theorem Grp.typ {m : Mem} {b off : Nat} {sub : List Csn} {x : List Bool} {y : List Nat} {nul : Bool}
    (h : Grp m (b + off) sub x y) (hp : 0 < x.length) : Grp m b [.typ off nul sub] x y := by
  obtain ⟨l, h1, h2, h3, h4, h5⟩ := h
  refine ⟨l, fun acc ds => ?_, h2, h3, h4, h5⟩
  rw [List.singleton_append]
  conv => lhs; unfold layL
  rw [if_neg (by simp)]
  dsimp only
  unfold layD
  have e := h1 acc []
  rw [List.append_nil] at e
  rw [e]
  have e : layL m (b + off) [] {} (acc ++ l) = some (acc ++ l) := by unfold layL; rw [if_pos ⟨rfl, rfl⟩]
  rw [e]
  have hs : 0 < size l := by rw [← code_length m, h2]; exact hp
  show ((if _ then none else some (acc ++ l)) : Option _).bind _ = _
  rw [if_neg (by rw [size_append]; omega)]
  rfl

theorem layL_over {m : Mem} {b : Nat} {acc : List Item} : ∀ (g ds : List Csn),
    layL m b (g ++ ds) { skip := g.length } acc = layL m b ds {} acc
  | [], ds => rfl
  | d :: g, ds => by
    rw [List.cons_append]
    conv => lhs; unfold layL
    rw [if_pos (by simp)]
    exact layL_over g ds

theorem Grp.opt {m : Mem} {b off x : Nat} {g : List Csn} {l : List Bool} {y : List Nat} {n : Nat} {nul : Bool}
    (hn : g.length = n) (hx : m (b + off) % 256 = x) (h2 : x < 2) (h : Grp m b g l y) (hp : 0 < l.length) :
    Grp m b (.nextExist false off 1 n nul :: g) (ifThere x l) ((b + off) :: ifSet x y) := by
  obtain ⟨r, h1, hc, h3, h4, h5⟩ := h
  have cov : ∀ a, Item.covers a (.fld (b + off) 1 1 0) = true ↔ a = b + off := by
    intro a
    unfold Item.covers
    rw [Bool.and_eq_true, decide_eq_true_iff, decide_eq_true_iff]
    omega
  have fit : Item.Fits m (.fld (b + off) 1 1 0) := by
    unfold Item.Fits
    dsimp only
    rw [getLe_one, hx]
    exact ⟨Nat.zero_le _, by omega⟩
  have cod : Item.code m (.fld (b + off) 1 1 0) = natBits 1 x := by
    unfold Item.code
    dsimp only
    rw [getLe_one, hx, Nat.sub_zero]
  have hs : 0 < size r := by rw [← code_length m, hc]; exact hp
  subst hn
  have lay : ∀ acc ds, layL m b ((.nextExist false off 1 g.length nul :: g) ++ ds) {} acc =
      (layL m b (g ++ ds) { skip := if x ≠ 0 then 0 else g.length } (acc ++ [.fld (b + off) 1 1 0])).bind fun r =>
        if x ≠ 0 ∧ ((g ++ ds).take g.length).all Csn.mayBeNull ∧ size r = size (acc ++ [.fld (b + off) 1 1 0]) then none
        else some r := by
    intro acc ds
    rw [List.cons_append]
    conv => lhs; unfold layL
    rw [if_neg (by simp)]
    dsimp only
    rw [if_pos ⟨rfl, by decide, by rw [List.length_append]; omega⟩, hx]
  by_cases hz : x = 0
  · refine ⟨[.fld (b + off) 1 1 0], fun acc ds => ?_, ?_, fun a => ?_, fun i hi => ?_, rfl⟩
    · rw [lay, if_neg (by omega), layL_over]
      generalize layL m b ds {} (acc ++ [.fld (b + off) 1 1 0]) = o
      cases o with
      | none => rfl
      | some r => show (if _ then none else some r) = _; rw [if_neg (by omega)]
    · rw [code_cons, code_nil, cod, hz]; rfl
    · rw [carried_cons, carried_nil, Bool.or_false, cov, hz]
      simp [ifSet]
    · rw [List.mem_singleton] at hi; subst hi; exact fit
  · refine ⟨.fld (b + off) 1 1 0 :: r, fun acc ds => ?_, ?_, fun a => ?_, fun i hi => ?_, ?_⟩
    · rw [lay, if_pos hz, show ({ skip := 0 } : Ctl) = {} from rfl, h1]
      rw [show acc ++ .fld (b + off) 1 1 0 :: r = acc ++ [.fld (b + off) 1 1 0] ++ r by simp]
      cases e : layL m b ds {} (acc ++ [.fld (b + off) 1 1 0] ++ r) with
      | none => rfl
      | some q =>
        show (if _ then none else some q) = _
        obtain ⟨t, rfl⟩ := layL_prefix m ds b {} _ q e
        rw [if_neg]
        rintro ⟨_, _, hq⟩
        rw [size_append, size_append _ r] at hq
        omega
    · rw [code_cons, cod, hc]
      obtain rfl : x = 1 := by omega
      rfl
    · rw [carried_cons, Bool.or_eq_true, cov, h3]
      simp [ifSet, hz]
    · rcases List.mem_cons.mp hi with rfl | hi
      · exact fit
      · exact h4 i hi
    · rw [show Item.fld (b + off) 1 1 0 :: r = [Item.fld (b + off) 1 1 0] ++ r from rfl, skew_append, h5]; rfl

/-- Groups of lines standing for fields. -/
inductive Grps (m : Mem) (b : Nat) : List (List Csn) → List (List Bool) → List (List Nat) → Prop
  | nil : Grps m b [] [] []
  | cons {g gs x xs y ys} : Grp m b g x y → Grps m b gs xs ys → Grps m b (g :: gs) (x :: xs) (y :: ys)

theorem Grps.take {m : Mem} {b : Nat} {gs xs ys} (h : Grps m b gs xs ys) (k : Nat) :
    Grps m b (gs.take k) (xs.take k) (ys.take k) := by
  induction h generalizing k with
  | nil => rw [List.take_nil, List.take_nil, List.take_nil]; exact .nil
  | cons a _ ih =>
    cases k with
    | zero => exact .nil
    | succ k => exact .cons a (ih k)

theorem Grps.flatten {m : Mem} {b : Nat} {gs xs ys} (h : Grps m b gs xs ys) : Grp m b gs.flatten xs.flatten ys.flatten := by
  induction h with
  | nil => exact Grp.nil
  | cons a _ ih => rw [List.flatten_cons, List.flatten_cons, List.flatten_cons]; exact a.append ih

/-- `t_Content`, field by field. -/
def contentGroups : List (List Csn) := [
  [.uint 0 1 3 false],
  [.nextExist false 1 1 1 true, .uint 2 1 7 true],
  [.uint 3 1 1 true], [.uint 4 1 1 true], [.uint 5 1 1 true], [.uint 6 1 1 true],
  [.nextExist false 7 1 1 true, .typ 8 false t_Multislot_capability],
  [.nextExist false 26 1 1 true, .uint 27 1 2 false],
  [.uint 28 1 1 true], [.uint 29 1 1 true], [.uint 30 1 1 true], [.uint 31 1 1 true], [.uint 32 1 1 true],
  [.uint 33 1 1 true], [.uint 34 1 1 true],
  [.nextExist false 35 1 2 true, .uint 36 1 2 false, .uint 37 1 2 false],
  [.uint 38 1 1 true],
  [.nextExist false 39 1 1 true, .uint 40 1 2 false],
  [.nextExist false 41 1 1 true, .uint 42 1 4 false],
  [.uint 43 1 2 true], [.uint 44 1 2 true], [.uint 45 1 1 true], [.uint 46 1 2 true], [.uint 47 1 1 true],
  [.uint 48 1 1 true],
  [.nextExist false 49 1 2 true, .uint 50 1 3 false, .typ 51 false t_DTM_EGPRS_HighMultislotClass],
  [.uint 53 1 1 true], [.uint 54 1 1 true],
  [.nextExist false 55 1 1 true, .typ 56 true t_DownlinkDualCarrierCapability_r7],
  [.uint 58 1 1 true], [.uint 59 1 1 true], [.uint 60 1 1 true], [.uint 61 1 1 true], [.uint 62 1 2 true],
  [.uint 63 1 2 true], [.uint 64 1 1 true], [.uint 65 1 1 true], [.uint 66 1 2 true], [.uint 67 1 1 true]]

theorem content_groups : t_Content = contentGroups.flatten := rfl

theorem ifThere_length {x : Nat} {l : List Bool} : 0 < (ifThere x l).length := by
  unfold ifThere; split <;> simp

theorem multislot_grp {m : Mem} {b : Nat} {f : Nat → Nat} {g : Nat → Nat} (hm : ∀ o, o < 68 → m (b + o) % 256 = f o) (hg : g = fun o => f (8 + o))
    (h : ContentFits f) : Grp m (b + 8) t_Multislot_capability (multislotBits g) ((multislotMembers g 8).map (b + ·)) := by
  subst hg
  have hx : ∀ o, o < 60 → m (b + 8 + o) % 256 = f (8 + o) := fun o ho => by rw [Nat.add_assoc]; exact hm _ (by omega)
  have u : ∀ o bits nul, bits ≤ 8 → contentWidths[8 + o]? = some bits →
      Grp m (b + 8) [.uint o 1 bits nul] (natBits bits (f (8 + o))) [b + 8 + o] :=
    fun o bits nul hb hw => Grp.uint hb (hx o (by
      have : 8 + o < 68 := (List.getElem?_eq_some_iff.mp hw).1
      omega)) (h _ _ hw)
  have fl : ∀ o, contentWidths[8 + o]? = some 1 → f (8 + o) < 2 := fun o hw => h _ _ hw
  have p : ∀ n x, 0 < n → 0 < (natBits n x).length := fun n x hn => by rw [natBits_length]; exact hn
  have e := (((((Grp.opt (n := 1) (nul := true) rfl (hx 0 (by decide)) (fl 0 rfl) (u 1 5 false (by decide) rfl) (p _ _ (by decide))).append
    (Grp.opt (n := 2) (nul := true) rfl (hx 2 (by decide)) (fl 2 rfl) ((u 3 5 false (by decide) rfl).append (u 4 1 false (by decide) rfl))
      (by rw [List.length_append, natBits_length]; omega))).append
    (Grp.opt (n := 2) (nul := true) rfl (hx 5 (by decide)) (fl 5 rfl) ((u 6 4 false (by decide) rfl).append (u 7 4 false (by decide) rfl))
      (by rw [List.length_append, natBits_length]; omega))).append
    (Grp.opt (n := 1) (nul := true) rfl (hx 8 (by decide)) (fl 8 rfl) (u 9 5 false (by decide) rfl) (p _ _ (by decide)))).append
    (Grp.opt (n := 2) (nul := true) rfl (hx 10 (by decide)) (fl 10 rfl) ((u 11 5 false (by decide) rfl).append (u 12 1 false (by decide) rfl))
      (by rw [List.length_append, natBits_length]; omega))).append
    (Grp.opt (n := 3) (nul := true) rfl (hx 13 (by decide)) (fl 13 rfl)
      (((u 14 2 false (by decide) rfl).append (u 15 1 false (by decide) rfl)).append
        (Grp.typ (off := 16) (nul := false) (sub := t_DTM_EGPRS)
          (Grp.opt (off := 0) (n := 1) (nul := false) rfl (hx 16 (by decide)) (fl 16 rfl)
            (Grp.uint (off := 1) (bits := 2) (nul := false) (by decide) (hx 17 (by decide)) (h 25 2 rfl)) (p _ _ (by decide)))
          ifThere_length))
      (by rw [List.length_append, List.length_append, natBits_length]; omega))
  have em : (multislotMembers (fun o => f (8 + o)) 8).map (b + ·) =
      ((b + 8 + 0) :: ifSet (f (8 + 0)) [b + 8 + 1]) ++ ((b + 8 + 2) :: ifSet (f (8 + 2)) ([b + 8 + 3] ++ [b + 8 + 4])) ++
      ((b + 8 + 5) :: ifSet (f (8 + 5)) ([b + 8 + 6] ++ [b + 8 + 7])) ++ ((b + 8 + 8) :: ifSet (f (8 + 8)) [b + 8 + 9]) ++
      ((b + 8 + 10) :: ifSet (f (8 + 10)) ([b + 8 + 11] ++ [b + 8 + 12])) ++
      ((b + 8 + 13) :: ifSet (f (8 + 13)) ([b + 8 + 14] ++ [b + 8 + 15] ++
        ((b + 8 + 16 + 0) :: ifSet (f (8 + 16)) [b + 8 + 16 + 1]))) := by
    have is : ∀ x l, (ifSet x l).map (b + ·) = ifSet x (l.map (b + ·)) := fun x l => by unfold ifSet; split <;> rfl
    unfold multislotMembers
    simp only [List.map_cons, List.map_append, is, List.map_nil, ← Nat.add_assoc, Nat.add_zero]
    rfl
  rw [em]
  exact e

theorem content_grps {m : Mem} {b : Nat} {f : Nat → Nat} (hx : ∀ o, o < 68 → m (b + o) % 256 = f o) (h : ContentFits f) :
    Grps m b contentGroups (contentFields f) ((contentMembers f).map (List.map (b + ·))) := by
  have u : ∀ o bits nul, bits ≤ 8 → contentWidths[o]? = some bits →
      Grp m b [.uint o 1 bits nul] (natBits bits (f o)) [b + o] :=
    fun o bits nul hb hw => Grp.uint hb (hx o (List.getElem?_eq_some_iff.mp hw).1) (h _ _ hw)
  have fl : ∀ o, contentWidths[o]? = some 1 → f o < 2 := fun o hw => h _ _ hw
  have p : ∀ n x, 0 < n → 0 < (natBits n x).length := fun n x hn => by rw [natBits_length]; exact hn
  have is : ∀ x l, (ifSet x l).map (b + ·) = ifSet x (l.map (b + ·)) := fun x l => by unfold ifSet; split <;> rfl
  unfold contentMembers
  simp only [List.map_cons, List.map_append, is, List.map_nil]
  unfold contentGroups contentFields
  refine .cons (u 0 3 false (by decide) rfl) <|
    .cons (Grp.opt rfl (hx 1 (by decide)) (fl 1 rfl) (u 2 7 true (by decide) rfl) (p _ _ (by decide))) <|
    .cons (u 3 1 true (by decide) rfl) <| .cons (u 4 1 true (by decide) rfl) <| .cons (u 5 1 true (by decide) rfl) <|
    .cons (u 6 1 true (by decide) rfl) <|
    .cons (Grp.opt rfl (hx 7 (by decide)) (fl 7 rfl) (Grp.typ (multislot_grp hx rfl h) ?_) ?_) <|
    .cons (Grp.opt rfl (hx 26 (by decide)) (fl 26 rfl) (u 27 2 false (by decide) rfl) (p _ _ (by decide))) <|
    .cons (u 28 1 true (by decide) rfl) <| .cons (u 29 1 true (by decide) rfl) <| .cons (u 30 1 true (by decide) rfl) <|
    .cons (u 31 1 true (by decide) rfl) <| .cons (u 32 1 true (by decide) rfl) <| .cons (u 33 1 true (by decide) rfl) <|
    .cons (u 34 1 true (by decide) rfl) <|
    .cons (Grp.opt rfl (hx 35 (by decide)) (fl 35 rfl) ((u 36 2 false (by decide) rfl).append (u 37 2 false (by decide) rfl))
      (by rw [List.length_append, natBits_length]; omega)) <|
    .cons (u 38 1 true (by decide) rfl) <|
    .cons (Grp.opt rfl (hx 39 (by decide)) (fl 39 rfl) (u 40 2 false (by decide) rfl) (p _ _ (by decide))) <|
    .cons (Grp.opt rfl (hx 41 (by decide)) (fl 41 rfl) (u 42 4 false (by decide) rfl) (p _ _ (by decide))) <|
    .cons (u 43 2 true (by decide) rfl) <| .cons (u 44 2 true (by decide) rfl) <| .cons (u 45 1 true (by decide) rfl) <|
    .cons (u 46 2 true (by decide) rfl) <| .cons (u 47 1 true (by decide) rfl) <| .cons (u 48 1 true (by decide) rfl) <|
    .cons (Grp.opt rfl (hx 49 (by decide)) (fl 49 rfl) ((u 50 3 false (by decide) rfl).append
        (Grp.typ (off := 51) (nul := false) (sub := t_DTM_EGPRS_HighMultislotClass)
          (Grp.opt (off := 0) (n := 1) (nul := false) rfl (by rw [Nat.add_assoc]; exact hx 51 (by decide)) (fl 51 rfl)
            (Grp.uint (off := 1) (bits := 3) (nul := false) (by decide) (by rw [Nat.add_assoc]; exact hx 52 (by decide)) (h 52 3 rfl)) (p _ _ (by decide)))
          ifThere_length))
      (by rw [List.length_append, natBits_length]; omega)) <|
    .cons (u 53 1 true (by decide) rfl) <| .cons (u 54 1 true (by decide) rfl) <|
    .cons (Grp.opt rfl (hx 55 (by decide)) (fl 55 rfl)
      (Grp.typ (off := 56) (nul := true) (sub := t_DownlinkDualCarrierCapability_r7)
        ((Grp.uint (off := 0) (bits := 3) (nul := false) (by decide) (by rw [Nat.add_assoc]; exact hx 56 (by decide)) (h 56 3 rfl)).append
          (Grp.uint (off := 1) (bits := 1) (nul := false) (by decide) (by rw [Nat.add_assoc]; exact hx 57 (by decide)) (h 57 1 rfl)))
        (by rw [List.length_append, natBits_length]; omega))
      (by rw [List.length_append, natBits_length]; omega)) <|
    .cons (u 58 1 true (by decide) rfl) <| .cons (u 59 1 true (by decide) rfl) <| .cons (u 60 1 true (by decide) rfl) <|
    .cons (u 61 1 true (by decide) rfl) <| .cons (u 62 2 true (by decide) rfl) <| .cons (u 63 2 true (by decide) rfl) <|
    .cons (u 64 1 true (by decide) rfl) <| .cons (u 65 1 true (by decide) rfl) <| .cons (u 66 2 true (by decide) rfl) <|
    .cons (u 67 1 true (by decide) rfl) .nil
  all_goals
    unfold multislotBits
    rw [List.length_append]
    exact Nat.lt_of_lt_of_le ifThere_length (Nat.le_add_left _ _)

end Verif.Csn1
