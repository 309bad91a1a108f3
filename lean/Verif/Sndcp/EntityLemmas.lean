import Verif.Sndcp.Entity
/-!
# Lemmas about the list of SNDCP management entities
-/
namespace Verif.Sndcp

/-- The management entities have different TLLIs, each has an entity, and entities sit in the slot of
their NSAPI. -/
def EntInv (c : SnCtx) : Prop :=
  (c.snmes.map Snme.tlli).Nodup ∧
  ∀ m ∈ c.snmes, (∃ n, (m.sne n).isSome) ∧ ∀ n e, m.sne n = some e → n < 16 ∧ e.nsapi = n

/-- There is an entity for the TLLI and NSAPI. -/
def Act (l : List Snme) (t n : Nat) : Prop := ∃ m ∈ l, m.tlli = t ∧ (m.sne n).isSome

theorem find_some_iff (l : List Snme) (h : (l.map Snme.tlli).Nodup) (t : Nat) (m : Snme) :
    l.find? (fun m => m.tlli = t) = some m ↔ m ∈ l ∧ m.tlli = t := by
  induction l with
  | nil => simp
  | cons a l ih =>
    have hn : (∀ x ∈ l, ¬ x.tlli = a.tlli) ∧ (l.map Snme.tlli).Nodup := by simpa using h
    by_cases ha : a.tlli = t
    · simp only [List.find?_cons, ha, decide_true]
      constructor
      · intro h; cases h; simp [ha]
      · rintro ⟨hm, ht⟩
        rcases List.mem_cons.mp hm with rfl | hm
        · rfl
        · exact absurd (ht.trans ha.symm) (hn.1 m hm)
    · simp only [List.find?_cons, ha, decide_false]
      rw [ih hn.2]
      constructor
      · rintro ⟨hm, ht⟩; exact ⟨List.mem_cons_of_mem _ hm, ht⟩
      · rintro ⟨hm, ht⟩
        rcases List.mem_cons.mp hm with rfl | hm
        · exact absurd ht ha
        · exact ⟨hm, ht⟩

theorem find_none_iff (l : List Snme) (t : Nat) :
    l.find? (fun m => m.tlli = t) = none ↔ ∀ m ∈ l, m.tlli ≠ t := by
  simp [List.find?_eq_none]

theorem mem_replaceFirst (l : List Snme) (h : (l.map Snme.tlli).Nodup) (t : Nat) (m' x : Snme) :
    x ∈ replaceFirst t m' l ↔ (x ∈ l ∧ x.tlli ≠ t) ∨ (x = m' ∧ ∃ m ∈ l, m.tlli = t) := by
  induction l with
  | nil => simp [replaceFirst]
  | cons a l ih =>
    have hn : (∀ x ∈ l, ¬ x.tlli = a.tlli) ∧ (l.map Snme.tlli).Nodup := by simpa using h
    by_cases ha : a.tlli = t
    · simp only [replaceFirst, ha, if_true, List.mem_cons]
      constructor
      · rintro (rfl | hx)
        · exact Or.inr ⟨rfl, a, Or.inl rfl, ha⟩
        · exact Or.inl ⟨Or.inr hx, ha ▸ hn.1 x hx⟩
      · rintro (⟨rfl | hx, ht⟩ | ⟨rfl, -⟩)
        · exact absurd ha ht
        · exact Or.inr hx
        · exact Or.inl rfl
    · simp only [replaceFirst, ha, if_false, List.mem_cons, ih hn.2]
      constructor
      · rintro (rfl | ⟨hx, ht⟩ | ⟨rfl, m, hm, ht⟩)
        · exact Or.inl ⟨Or.inl rfl, ha⟩
        · exact Or.inl ⟨Or.inr hx, ht⟩
        · exact Or.inr ⟨rfl, m, Or.inr hm, ht⟩
      · rintro (⟨rfl | hx, ht⟩ | ⟨rfl, m, rfl | hm, ht⟩)
        · exact Or.inl rfl
        · exact Or.inr (Or.inl ⟨hx, ht⟩)
        · exact absurd ht ha
        · exact Or.inr (Or.inr ⟨rfl, m, hm, ht⟩)

theorem mem_removeFirst (l : List Snme) (h : (l.map Snme.tlli).Nodup) (t : Nat) (x : Snme) :
    x ∈ removeFirst t l ↔ x ∈ l ∧ x.tlli ≠ t := by
  induction l with
  | nil => simp [removeFirst]
  | cons a l ih =>
    have hn : (∀ x ∈ l, ¬ x.tlli = a.tlli) ∧ (l.map Snme.tlli).Nodup := by simpa using h
    by_cases ha : a.tlli = t
    · simp only [removeFirst, ha, if_true, List.mem_cons]
      constructor
      · intro hx; exact ⟨Or.inr hx, ha ▸ hn.1 x hx⟩
      · rintro ⟨rfl | hx, ht⟩
        · exact absurd ha ht
        · exact hx
    · simp only [removeFirst, ha, if_false, List.mem_cons, ih hn.2]
      constructor
      · rintro (rfl | ⟨hx, ht⟩)
        · exact ⟨Or.inl rfl, ha⟩
        · exact ⟨Or.inr hx, ht⟩
      · rintro ⟨rfl | hx, ht⟩
        · exact Or.inl rfl
        · exact Or.inr ⟨hx, ht⟩

theorem nodup_replaceFirst (l : List Snme) (h : (l.map Snme.tlli).Nodup) (t : Nat) (m' : Snme)
    (hm : m'.tlli = t ∨ ∀ x ∈ l, x.tlli ≠ m'.tlli) :
    ((replaceFirst t m' l).map Snme.tlli).Nodup := by
  induction l with
  | nil => simp [replaceFirst]
  | cons a l ih =>
    have hn : (∀ x ∈ l, ¬ x.tlli = a.tlli) ∧ (l.map Snme.tlli).Nodup := by simpa using h
    by_cases ha : a.tlli = t
    · simp only [replaceFirst, ha, if_true, List.map_cons, List.nodup_cons, List.mem_map, not_exists,
        not_and]
      refine ⟨fun x hx hx' => ?_, hn.2⟩
      rcases hm with hm | hm
      · exact hn.1 x hx (by rw [hx', hm, ha])
      · exact hm x (List.mem_cons_of_mem _ hx) hx'
    · have hm' : m'.tlli = t ∨ ∀ x ∈ l, x.tlli ≠ m'.tlli :=
        hm.imp_right fun h x hx => h x (List.mem_cons_of_mem _ hx)
      simp only [replaceFirst, ha, if_false, List.map_cons, List.nodup_cons, List.mem_map, not_exists,
        not_and]
      refine ⟨fun x hx hx' => ?_, ih hn.2 hm'⟩
      rw [mem_replaceFirst _ hn.2] at hx
      rcases hx with ⟨hx, -⟩ | ⟨rfl, m, hml, hmt⟩
      · exact hn.1 x hx hx'
      · rcases hm with hm | hm
        · exact ha (hx'.symm.trans hm)
        · exact hm a (List.mem_cons_self ..) hx'.symm

theorem nodup_removeFirst (l : List Snme) (h : (l.map Snme.tlli).Nodup) (t : Nat) :
    ((removeFirst t l).map Snme.tlli).Nodup := by
  induction l with
  | nil => simp [removeFirst]
  | cons a l ih =>
    have hn : (∀ x ∈ l, ¬ x.tlli = a.tlli) ∧ (l.map Snme.tlli).Nodup := by simpa using h
    by_cases ha : a.tlli = t
    · simpa [removeFirst, ha] using hn.2
    · simp only [removeFirst, ha, if_false, List.map_cons, List.nodup_cons, List.mem_map, not_exists,
        not_and]
      refine ⟨fun x hx hx' => ?_, ih hn.2⟩
      rw [mem_removeFirst _ hn.2] at hx
      exact hn.1 x hx.1 hx'

theorem set_sne (m : Snme) (n i : Nat) (e : Option Sne) :
    (m.set n e).sne i = if i = n then e else m.sne i := rfl

theorem isEmpty_iff (m : Snme) (h : ∀ n e, m.sne n = some e → n < 16) :
    m.isEmpty = true ↔ ∀ n, m.sne n = none := by
  unfold Snme.isEmpty
  simp only [List.all_eq_true, List.mem_range, Option.isNone_iff_eq_none]
  constructor
  · intro ha n
    cases hn : m.sne n with
    | none => rfl
    | some e => have := ha n (h n e hn); rw [hn] at this; exact absurd this (by simp)
  · intro ha n _; exact ha n

/-- Replacing an entity of an existing management entity by another with the same NSAPI keeps the
invariant and who is active. -/
theorem replace_entity (c : SnCtx) (hi : EntInv c) (t n : Nat) (m : Snme) (hm : c.find t = some m)
    (e e' : Sne) (he : m.sne n = some e) (hn : e'.nsapi = n) :
    EntInv { c with snmes := replaceFirst t (m.set n (some e')) c.snmes } ∧
    ∀ t' n', Act (replaceFirst t (m.set n (some e')) c.snmes) t' n' ↔ Act c.snmes t' n' := by
  obtain ⟨hml, hmt⟩ := (find_some_iff _ hi.1 _ _).mp hm
  have hsub : ∀ x, x ∈ replaceFirst t (m.set n (some e')) c.snmes ↔
      (x ∈ c.snmes ∧ x.tlli ≠ t) ∨ (x = m.set n (some e') ∧ ∃ m ∈ c.snmes, m.tlli = t) :=
    fun x => mem_replaceFirst _ hi.1 _ _ _
  refine ⟨⟨nodup_replaceFirst _ hi.1 _ _ (Or.inl hmt), fun x hx => ?_⟩, fun t' n' => ?_⟩
  · rcases (hsub x).mp hx with ⟨hx, -⟩ | ⟨rfl, -⟩
    · exact hi.2 x hx
    · refine ⟨⟨n, by simp [set_sne]⟩, fun i f hf => ?_⟩
      rw [set_sne] at hf
      by_cases hin : i = n
      · rw [if_pos hin] at hf
        cases hf
        exact ⟨hin ▸ ((hi.2 m hml).2 n e he).1, by rw [hn, hin]⟩
      · rw [if_neg hin] at hf
        exact (hi.2 m hml).2 i f hf
  · unfold Act
    constructor
    · rintro ⟨x, hx, ht, hs⟩
      rcases (hsub x).mp hx with ⟨hx, -⟩ | ⟨rfl, -⟩
      · exact ⟨x, hx, ht, hs⟩
      · refine ⟨m, hml, ht, ?_⟩
        rw [set_sne] at hs
        by_cases hin : n' = n
        · rw [hin, he]; rfl
        · rwa [if_neg hin] at hs
    · rintro ⟨x, hx, ht, hs⟩
      by_cases hxt : x.tlli = t
      · have : x = m := by
          have h1 := (find_some_iff _ hi.1 t x).mpr ⟨hx, hxt⟩
          have h2 := (find_some_iff _ hi.1 t m).mpr ⟨hml, hmt⟩
          rw [h1] at h2; exact Option.some.inj h2
        subst this
        refine ⟨x.set n (some e'), (hsub _).mpr (Or.inr ⟨rfl, x, hx, hxt⟩), ht, ?_⟩
        rw [set_sne]
        by_cases hin : n' = n
        · simp [hin]
        · rwa [if_neg hin]
      · exact ⟨x, (hsub _).mpr (Or.inl ⟨hx, hxt⟩), ht, hs⟩

end Verif.Sndcp
