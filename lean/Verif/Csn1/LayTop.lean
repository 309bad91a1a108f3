import Verif.Csn1.LayMsg

/-!
# The octets of a message lie in its structure
-/
namespace Verif.Csn1

open Spec

mutual

/-- Above the last offset a line can store at. -/
def topD : Csn → Nat
  | .bit off sz _ => off + sz
  | .uint off sz .. => off + sz
  | .uintOfs off sz .. => off + sz
  | .uintArr off sz .. => off + sz
  | .typ off _ sub => off + topL sub
  | .tarr off sz esz _ sub => off + sz + (topL sub - esz)
  | .vtarr _ off sz esz _ sub => off + sz + (topL sub - esz)
  | .bitmap off sz _ => off + sz
  | .choice off sz _ subs => max (off + sz) (topL subs)
  | .serialize off _ sub => off + topL sub
  | .union _ off sz _ => off + sz
  | .exist _ off sz => off + sz
  | .nextExist _ off sz .. => off + sz
  | .varBmp off sz .. => off + sz + 1
  | .leftBmp _ off sz .. => off + sz
  | .varArr off sz .. => off + sz
  | .recArr off sz cnt _ => max (off + sz) (cnt + 1)
  | .recTArr off sz esz _ cnt sub => max (off + sz + (topL sub - esz)) (cnt + 1)
  | .recTArr1 off sz esz _ cnt sub => max (off + sz + (topL sub - esz)) (cnt + 1)
  | _ => 0

/-- Above the last offset any of the lines can store at. -/
def topL : List Csn → Nat
  | [] => 0
  | d :: ds => max (topD d) (topL ds)

end

/-- All octets of the parts are below `N`. -/
def Within (N : Nat) (l : List Item) : Prop := ∀ a, carried l a = true → a < N

theorem Within.append {N : Nat} {l l' : List Item} (h : Within N l) (h' : Within N l') : Within N (l ++ l') := by
  intro a ha
  rw [carried_append] at ha
  rcases (Bool.or_eq_true_iff.mp ha) with h1 | h1
  · exact h a h1
  · exact h' a h1

theorem Within.nil {N : Nat} : Within N [] := fun _ h => by cases h

theorem Within.cons {N : Nat} {i : Item} {l : List Item} (h : ∀ a, i.covers a = true → a < N) (h' : Within N l) : Within N (i :: l) := by
  intro a ha
  rw [carried_cons] at ha
  rcases (Bool.or_eq_true_iff.mp ha) with h1 | h1
  · exact h a h1
  · exact h' a h1

theorem covers_fld {N a w bits ofs : Nat} (h : a + w ≤ N) : ∀ x, Item.covers x (.fld a w bits ofs) = true → x < N := by
  intro x hx
  simp [Item.covers] at hx
  omega

theorem covers_con {N bits ofs : Nat} : ∀ x, Item.covers x (.con bits ofs) = true → x < N := fun x hx => by cases hx

theorem covers_implied {N a n : Nat} (h : a < N) : ∀ x, Item.covers x (.implied a n) = true → x < N := by
  intro x hx
  simp [Item.covers] at hx
  omega

theorem octets_within {N bits : Nat} : ∀ (n a : Nat), a + n ≤ N → Within N (octets bits a n)
  | 0, _, _ => Within.nil
  | n + 1, a, h => Within.cons (covers_fld (by omega)) (octets_within n (a + 1) (by omega))

theorem tagged_within {N bits : Nat} : ∀ (n a : Nat), a + n ≤ N → Within N (taggedOctets bits a n)
  | 0, _, _ => Within.nil
  | n + 1, a, h => Within.cons covers_con (Within.cons (covers_fld (by omega)) (tagged_within n (a + 1) (by omega)))

theorem layIter_within {N : Nat} {f : Nat → List Item → Option (List Item)} : ∀ (n i : Nat) (acc r : List Item),
    (∀ k acc r, i ≤ k → k < i + n → Within N acc → f k acc = some r → Within N r) → Within N acc → layIter f n i acc = some r → Within N r := by
  intro n
  induction n with
  | zero => intro i acc r _ ha h; cases h; exact ha
  | succ n ih =>
    intro i acc r hf ha h
    unfold layIter at h
    obtain ⟨r1, h1, h2⟩ := Option.bind_eq_some_iff.mp h
    exact ih (i + 1) r1 r (fun k acc r hk hk' => hf k acc r (by omega) (by omega)) (hf i acc r1 (Nat.le_refl _) (by omega) ha h1) h2

theorem mul_le_of_lt {i n e sz : Nat} (h : n * e ≤ sz) (hi : i < n) : i * e + e ≤ sz := by
  have := Nat.mul_le_mul_right e (show i + 1 ≤ n by omega)
  rw [Nat.add_mul, Nat.one_mul] at this
  omega

mutual

theorem layD_within (m : Mem) (u : Bool) (N : Nat) : ∀ (d : Csn) (base : Nat) (acc r : List Item), base + topD d ≤ N → Within N acc →
    layD m u base d acc = some r → Within N r
  | .bit off sz o, base, acc, r, hN, ha, h => by
    unfold topD at hN
    unfold layD at h; split at h
    · cases h; exact ha.append (Within.cons (covers_fld (by omega)) Within.nil)
    · cases h
  | .null i, base, acc, r, hN, ha, h => by unfold layD at h; cases h; exact ha
  | .uint .., base, acc, r, hN, ha, h => by
    unfold topD at hN
    unfold layD at h; split at h
    · cases h; exact ha.append (Within.cons (covers_fld (by omega)) Within.nil)
    · cases h
  | .uintOfs .., base, acc, r, hN, ha, h => by
    unfold topD at hN
    unfold layD at h; split at h
    · cases h; exact ha.append (Within.cons (covers_fld (by omega)) Within.nil)
    · cases h
  | .uintLh .., base, acc, r, hN, ha, h => by unfold layD at h; cases h
  | .uintArr .., base, acc, r, hN, ha, h => by
    unfold topD at hN
    unfold layD at h; split at h
    · cases h; exact ha.append (octets_within _ _ (by omega))
    · cases h
  | .typ off o sub, base, acc, r, hN, ha, h => by
    unfold topD at hN
    unfold layD at h
    obtain ⟨r1, h1, h2⟩ := Option.bind_eq_some_iff.mp h
    split at h2
    · cases h2
    · cases h2; exact layL_within m N sub _ _ _ _ (by omega) ha h1
  | .tarr off sz esz count sub, base, acc, r, hN, ha, h => by
    unfold topD at hN
    unfold layD at h; split at h
    · rename_i hsz
      exact layIter_within _ _ _ _ (fun k acc r _ hk ha h => layL_within m N sub _ _ _ _
        (by have := mul_le_of_lt hsz (show k < count by omega); omega) ha h) ha h
    · cases h
  | .vtarr ofs off sz esz cnt sub, base, acc, r, hN, ha, h => by
    unfold topD at hN
    unfold layD at h; dsimp only at h; split at h
    · rename_i hsz
      exact layIter_within _ _ _ _ (fun k acc r _ hk ha h => layL_within m N sub _ _ _ _
        (by have := mul_le_of_lt hsz.2.2 (show k < m (base + cnt) % 256 by omega); omega) ha h) ha h
    · cases h
  | .bitmap .., base, acc, r, hN, ha, h => by
    unfold topD at hN
    unfold layD at h; split at h
    · cases h
    · split at h
      · cases h; exact ha.append (octets_within _ _ (by omega))
      · split at h
        · cases h; exact ha.append (octets_within _ _ (by omega))
        · cases h
  | .choice off sz sel subs, base, acc, r, hN, ha, h => by
    unfold topD at hN
    unfold layD at h; split at h
    · cases h
    · exact layC_within m N sel subs _ _ _ _ _ (by omega) (by omega) ha h
  | .serialize off lb sub, base, acc, r, hN, ha, h => by
    unfold topD at hN
    unfold layD at h; split at h
    · cases h
    · obtain ⟨r1, h1, h2⟩ := Option.bind_eq_some_iff.mp h
      split at h2
      · cases h2; exact ha.append (Within.cons covers_con (layL_within m N sub _ _ _ _ (by omega) Within.nil h1))
      · cases h2
  | .varBmp .., base, acc, r, hN, ha, h => by
    unfold topD at hN
    unfold layD at h; dsimp only at h; split at h
    · split at h
      · cases h; exact ha.append (Within.cons (covers_fld (by omega)) (octets_within _ _ (by omega)))
      · cases h; exact ha.append (octets_within _ _ (by omega))
    · cases h
  | .leftBmp .., base, acc, r, hN, ha, h => by
    unfold topD at hN
    unfold layD at h; dsimp only at h; split at h
    · cases h; exact ha.append (octets_within _ _ (by omega))
    · cases h
  | .varArr .., base, acc, r, hN, ha, h => by
    unfold topD at hN
    unfold layD at h; dsimp only at h; split at h
    · cases h; exact ha.append (octets_within _ _ (by omega))
    · cases h
  | .recArr .., base, acc, r, hN, ha, h => by
    unfold topD at hN
    unfold layD at h; dsimp only at h; split at h
    · cases h; exact (ha.append (tagged_within _ _ (by omega))).append (Within.cons covers_con (Within.cons (covers_implied (by omega)) Within.nil))
    · cases h
  | .recTArr off sz esz cap cnt sub, base, acc, r, hN, ha, h => by
    unfold topD at hN
    unfold layD at h; dsimp only at h; split at h
    · rename_i hsz
      obtain ⟨r1, h1, h2⟩ := Option.bind_eq_some_iff.mp h
      cases h2
      refine (layIter_within _ _ _ _ (fun k acc r _ hk ha h => layL_within m N sub _ _ _ _
        (by have := mul_le_of_lt hsz.2.2 (show k < m (base + cnt) % 256 by omega); omega) (ha.append (Within.cons covers_con Within.nil)) h) ha h1).append ?_
      exact Within.cons (fun _ h => by cases h) (Within.cons (covers_implied (by omega)) Within.nil)
    · cases h
  | .recTArr1 off sz esz cap cnt sub, base, acc, r, hN, ha, h => by
    unfold topD at hN
    unfold layD at h; dsimp only at h; split at h
    · rename_i hsz
      obtain ⟨r1, h1, h2⟩ := Option.bind_eq_some_iff.mp h
      cases h2
      refine (layIter_within _ _ _ _ (fun k acc r _ hk ha h => ?_) ha h1).append ?_
      · have := mul_le_of_lt hsz.2.2.2 (show k < m (base + cnt) % 256 by omega)
        split at h
        · exact layL_within m N sub _ _ _ _ (by omega) ha h
        · exact layL_within m N sub _ _ _ _ (by omega) (ha.append (Within.cons covers_con Within.nil)) h
      · exact Within.cons covers_con (Within.cons (covers_implied (by omega)) Within.nil)
    · cases h
  | .fixed .., base, acc, r, hN, ha, h => by
    unfold layD at h; split at h
    · cases h
    · cases h; exact ha.append (Within.cons covers_con Within.nil)
  | .padding, base, acc, r, hN, ha, h => by unfold layD at h; cases h
  | .cbCopy .., base, acc, r, hN, ha, h => by unfold layD at h; cases h
  | .cbTddMap .., base, acc, r, hN, ha, h => by unfold layD at h; cases h
  | .cbTddCells .., base, acc, r, hN, ha, h => by unfold layD at h; cases h
  | .trap .., base, acc, r, hN, ha, h => by unfold layD at h; cases h
  | .union .., base, acc, r, hN, ha, h => by unfold layD at h; cases h
  | .exist .., base, acc, r, hN, ha, h => by unfold layD at h; cases h
  | .nextExist .., base, acc, r, hN, ha, h => by unfold layD at h; cases h

theorem layC_within (m : Mem) (N : Nat) : ∀ (sel : List (Nat × Nat)) (subs : List Csn) (base off i : Nat)
    (acc r : List Item), base + topL subs ≤ N → base + off < N → Within N acc → layC m base off i sel subs acc = some r → Within N r
  | [], [], _, _, _, _, _, _, _, _, h => by unfold layC at h; cases h
  | [], _ :: _, _, _, _, _, _, _, _, _, h => by unfold layC at h; cases h
  | _ :: _, [], _, _, _, _, _, _, _, _, h => by unfold layC at h; cases h
  | b :: sel, d :: ds, base, off, i, acc, r, hN, ho, ha, h => by
    unfold topL at hN
    unfold layC at h
    split at h
    · exact layD_within m false N d _ _ _ (by omega) (ha.append (Within.cons covers_con (Within.cons (covers_implied ho) Within.nil))) h
    · split at h
      · split at h
        · exact layC_within m N sel ds _ _ _ _ _ (by omega) ho ha h
        · cases h
      · cases h

theorem layL_within (m : Mem) (N : Nat) : ∀ (ds : List Csn) (base : Nat) (c : Ctl) (acc r : List Item), base + topL ds ≤ N → Within N acc →
    layL m base ds c acc = some r → Within N r
  | [], base, c, acc, r, hN, ha, h => by
    unfold layL at h
    split at h
    · cases h; exact ha
    · cases h
  | d :: ds, base, c, acc, r, hN, ha, h => by
    unfold topL at hN
    unfold layL at h
    split at h
    · exact layL_within m N ds _ _ _ _ (by omega) ha h
    · split at h
      · obtain ⟨r1, h1, h2⟩ := Option.bind_eq_some_iff.mp h
        exact layL_within m N ds _ _ _ _ (by omega) (layD_within m true N d _ _ _ (by omega) ha h1) h2
      · split at h
        · unfold topD at hN
          split at h
          · exact layL_within m N ds _ _ _ _ (by omega) (ha.append (Within.cons (covers_fld (by omega)) Within.nil)) h
          · cases h
        · unfold topD at hN
          split at h
          · dsimp only at h
            obtain ⟨r1, h1, h2⟩ := Option.bind_eq_some_iff.mp h
            split at h2
            · cases h2
            · cases h2
              exact layL_within m N ds _ _ _ _ (by omega) (ha.append (Within.cons (covers_fld (by omega)) Within.nil)) h1
          · cases h
        · cases h
        · obtain ⟨r1, h1, h2⟩ := Option.bind_eq_some_iff.mp h
          exact layL_within m N ds _ _ _ _ (by omega) (layD_within m false N _ _ _ _ (by omega) ha h1) h2

end

theorem dlTops : ∀ mt : Fin 64, (dlTable mt.val).all (fun t => topL t.dropLast ≤ dlUnion) = true := by decide +kernel

theorem dlParts_within {mt : Nat} {m : Mem} {l : List Item} (hmt : mt < 64) (h : dlParts mt m = some l) : Within dlUnion l := by
  unfold dlParts at h
  obtain ⟨t, htab, hl⟩ := Option.bind_eq_some_iff.mp h
  have := dlTops ⟨mt, hmt⟩
  rw [htab] at this
  simp at this
  exact layL_within m dlUnion _ _ _ _ _ (by omega) Within.nil hl

/-- Decoding a block with the parts of a downlink message, and its header. -/
theorem decode_dl_hdr {v : List Bool} {m m0 : Mem} {mt st : Nat} {l : List Item} (hst : dlStart v = some st)
    (h : dlParts mt m = some l) (hf : ∀ i ∈ l, i.Fits m) (hs : st + size l ≤ 184) (ht : bitsVal v st 6 = mt)
    (hr : Reads v st (code m l)) :
    ∃ s, decodeDownlink .member v m0 = .ok s ∧ (∀ a, carried l a = true → s.mem a = m a % 256) ∧
      (∀ a, carried l a = false → a ≠ 0 → a < dlUnion → s.mem a = m0 a) ∧ (carried l 0 = false → s.mem 0 = mt) ∧
      s.mem (dlUnion + 1) % 256 = bitsVal v 2 2 ∧ s.mem (dlUnion + 2) % 256 = bitsVal v 4 1 := by
  obtain ⟨s, h1, h2, h3, h4, h5, h6⟩ := decode_dl (m0 := m0) hst h hf hs ht hr
  have hw := dlParts_within (by rw [← ht]; exact bitsVal_lt v 6 st) h
  have hn : ∀ a, dlUnion ≤ a → carried l a = false := by
    intro a ha
    cases hc : carried l a
    · rfl
    · have := hw a hc
      omega
  exact ⟨s, h1, h2, h3, h4, h5 (hn _ (by omega)), h6 (hn _ (by omega))⟩

end Verif.Csn1
