import Verif.Sndcp.EntityLemmas
import Verif.Spec.SndcpEntity
/-!
# C49, C71, C72: SNDCP entities
-/
namespace Verif.Props
open Verif Verif.Sndcp Verif.Spec.SndcpEntity

/-- What a primitive means for who is active. -/
def eventOf : SnPrim → Event
  | .activateInd t n _ _ => .activate t n
  | .deactivateInd t n => .deactivate t n
  | .llAssignInd o w => .change o w
  | .snXidReq .. => .other
  | .llXidCnf .. => .other

/-- NSAPIs and SAPIs have four bits. -/
def FourBits : SnPrim → Prop
  | .activateInd _ n s _ => n < 16 ∧ s < 16
  | .deactivateInd _ n => n < 16
  | .llAssignInd _ _ => True
  | .snXidReq _ _ n _ => n < 16
  | .llXidCnf _ _ => True

/-- Two descriptions of who is active agree. -/
def Same (a b : Nat → Nat → Prop) : Prop := ∀ t n, a t n ↔ b t n

/-- The context after a step is well kept and has the entities it should have. -/
def StepGood (c : SnCtx) (p : SnPrim) : Res (SnCtx × List SnOut) → Prop
  | .ok (c', _) => EntInv c' ∧ Same (Act c'.snmes) (after (Act c.snmes) (eventOf p))
  | .err _ => Same (Act c.snmes) (after (Act c.snmes) (eventOf p))
  | .ub _ => False

theorem mem_unique {c : SnCtx} (hi : EntInv c) {x m : Snme} (hx : x ∈ c.snmes) (hm : m ∈ c.snmes)
    (h : x.tlli = m.tlli) : x = m := by
  have h1 := (find_some_iff _ hi.1 m.tlli x).mpr ⟨hx, h⟩
  have h2 := (find_some_iff _ hi.1 m.tlli m).mpr ⟨hm, rfl⟩
  rw [h1] at h2; exact Option.some.inj h2

theorem activateRest_good (c : SnCtx) (hi : EntInv c) (t n : Nat) (m : Snme) (e : Sne) (q : Bool)
    (hm : c.find t = some m) (he : m.sne n = some e) :
    EntInv (activateRest c t n m e q).1 ∧
    Same (Act (activateRest c t n m e q).1.snmes) (Act c.snmes) := by
  obtain ⟨hml, hmt⟩ := (find_some_iff _ hi.1 _ _).mp hm
  have hen := ((hi.2 m hml).2 n e he).2
  unfold activateRest activateMs
  split
  · split
    · exact ⟨hi, fun _ _ => Iff.rfl⟩
    · split
      · exact replace_entity c hi t n m hm e { e with actPending := true } he hen
      · exact ⟨hi, fun _ _ => Iff.rfl⟩
  · exact ⟨hi, fun _ _ => Iff.rfl⟩

theorem find_replaceFirst (c : SnCtx) (hi : (c.snmes.map Snme.tlli).Nodup) (t : Nat) (m m' : Snme)
    (hm : c.find t = some m) (ht : m'.tlli = t) :
    ({ c with snmes := replaceFirst t m' c.snmes } : SnCtx).find t = some m' := by
  obtain ⟨hml, hmt⟩ := (find_some_iff _ hi _ _).mp hm
  refine (find_some_iff _ (nodup_replaceFirst _ hi _ _ (Or.inl ht)) _ _).mpr ⟨?_, ht⟩
  exact (mem_replaceFirst _ hi _ _ _).mpr (Or.inr ⟨rfl, m, hml, hmt⟩)

theorem activateIn_good (c : SnCtx) (t n s : Nat) (m : Snme) (q : Bool) (hn : n < 16) (hs : s < 16)
    (hd : (c.snmes.map Snme.tlli).Nodup) (hm : c.find t = some m)
    (hslot : ∀ x ∈ c.snmes, ∀ i e, x.sne i = some e → i < 16 ∧ e.nsapi = i)
    (hne : ∀ x ∈ c.snmes, x.tlli = t ∨ ∃ i, (x.sne i).isSome) :
    ∃ c' o, activateIn c t n s m q = .ok (c', o) ∧ EntInv c' ∧
      ∀ t' n', Act c'.snmes t' n' ↔ (Act c.snmes t' n' ∨ (t' = t ∧ n' = n)) := by
  obtain ⟨hml, hmt⟩ := (find_some_iff _ hd _ _).mp hm
  unfold activateIn
  rw [if_neg (by omega)]
  cases he : m.sne n with
  | some e =>
    simp only
    have hi : EntInv c := by
      refine ⟨hd, fun x hx => ⟨?_, hslot x hx⟩⟩
      rcases hne x hx with h | h
      · have : x = m := by
          have h1 := (find_some_iff _ hd t x).mpr ⟨hx, h⟩
          have h2 := (find_some_iff _ hd t m).mpr ⟨hml, hmt⟩
          rw [h1] at h2; exact Option.some.inj h2
        exact ⟨n, by rw [this, he]; rfl⟩
      · exact h
    obtain ⟨h1, h2⟩ := activateRest_good c hi t n m e q hm he
    refine ⟨_, _, rfl, h1, fun t' n' => (h2 t' n').trans ?_⟩
    constructor
    · exact Or.inl
    · rintro (h | ⟨rfl, rfl⟩)
      · exact h
      · exact ⟨m, hml, hmt, by rw [he]; rfl⟩
  | none =>
    simp only
    rw [if_neg (by omega)]
    generalize hm' : m.set n (some { sapi := s, nsapi := n }) = m'
    generalize he' : ({ sapi := s, nsapi := n } : Sne) = e at hm'
    have hmt' : m'.tlli = t := by rw [← hm']; exact hmt
    have hmn : m'.sne n = some e := by rw [← hm', set_sne, if_pos rfl]
    have hmem : ∀ x, x ∈ replaceFirst t m' c.snmes ↔
        (x ∈ c.snmes ∧ x.tlli ≠ t) ∨ (x = m' ∧ ∃ m ∈ c.snmes, m.tlli = t) :=
      fun x => mem_replaceFirst _ hd _ _ _
    have hi : EntInv { c with snmes := replaceFirst t m' c.snmes } := by
      refine ⟨nodup_replaceFirst _ hd _ _ (Or.inl hmt'), fun x hx => ?_⟩
      rcases (hmem x).mp hx with ⟨hx, hxt⟩ | ⟨rfl, -⟩
      · exact ⟨(hne x hx).resolve_left hxt, hslot x hx⟩
      · refine ⟨⟨n, by rw [hmn]; rfl⟩, fun i f hf => ?_⟩
        rw [← hm', set_sne] at hf
        by_cases hin : i = n
        · rw [if_pos hin] at hf; cases hf; rw [← he']; exact ⟨by omega, hin.symm⟩
        · rw [if_neg hin] at hf; exact hslot m hml i f hf
    obtain ⟨h1, h2⟩ := activateRest_good { c with snmes := replaceFirst t m' c.snmes } hi t n m' e q
      (find_replaceFirst c hd t m m' hm hmt') hmn
    refine ⟨_, _, rfl, h1, fun t' n' => (h2 t' n').trans ?_⟩
    unfold Act
    constructor
    · rintro ⟨x, hx, ht, hsm⟩
      rcases (hmem x).mp hx with ⟨hx, hxt⟩ | ⟨rfl, -⟩
      · exact Or.inl ⟨x, hx, ht, hsm⟩
      · by_cases hin : n' = n
        · exact Or.inr ⟨by rw [← ht, hmt'], hin⟩
        · refine Or.inl ⟨m, hml, by rw [← ht, hmt', hmt], ?_⟩
          rwa [← hm', set_sne, if_neg hin] at hsm
    · rintro (⟨x, hx, ht, hsm⟩ | ⟨rfl, rfl⟩)
      · by_cases hxt : x.tlli = t
        · have : x = m := by
            have h1 := (find_some_iff _ hd t x).mpr ⟨hx, hxt⟩
            have h2 := (find_some_iff _ hd t m).mpr ⟨hml, hmt⟩
            rw [h1] at h2; exact Option.some.inj h2
          refine ⟨m', (hmem _).mpr (Or.inr ⟨rfl, m, hml, hmt⟩), by rw [hmt', ← ht, hxt], ?_⟩
          rw [← hm', set_sne]
          by_cases hin : n' = n
          · simp [hin]
          · rw [if_neg hin, ← this]; exact hsm
        · exact ⟨x, (hmem _).mpr (Or.inl ⟨hx, hxt⟩), ht, hsm⟩
      · exact ⟨m', (hmem _).mpr (Or.inr ⟨rfl, m, hml, hmt⟩), hmt', by rw [hmn]; rfl⟩

theorem activate_good (c : SnCtx) (hi : EntInv c) (t n s : Nat) (q : Bool) (hn : n < 16)
    (hs : s < 16) :
    ∃ c' o, activateInd c t n s q = .ok (c', o) ∧ EntInv c' ∧
      ∀ t' n', Act c'.snmes t' n' ↔ (Act c.snmes t' n' ∨ (t' = t ∧ n' = n)) := by
  unfold activateInd
  cases hf : c.find t with
  | some m =>
    simp only
    exact activateIn_good c t n s m q hn hs hi.1 hf (fun x hx => (hi.2 x hx).2)
      (fun x hx => Or.inr (hi.2 x hx).1)
  | none =>
    simp only
    have hno := (find_none_iff _ _).mp hf
    generalize hm : ({ tlli := t, sne := fun _ => none } : Snme) = m
    have hmt : m.tlli = t := by rw [← hm]
    have hms : ∀ i, m.sne i = none := by intro i; rw [← hm]
    have hd : (({ c with snmes := m :: c.snmes } : SnCtx).snmes.map Snme.tlli).Nodup := by
      simp only [List.map_cons, List.nodup_cons, List.mem_map, not_exists, not_and]
      exact ⟨fun x hx h => hno x hx (h.trans hmt), hi.1⟩
    obtain ⟨c', o, h1, h2, h3⟩ := activateIn_good { c with snmes := m :: c.snmes } t n s m q hn hs hd
      ((find_some_iff _ hd t m).mpr ⟨List.mem_cons_self .., hmt⟩)
      (by
        intro x hx i e he
        rcases List.mem_cons.mp hx with rfl | hx
        · rw [hms] at he; cases he
        · exact (hi.2 x hx).2 i e he)
      (by
        intro x hx
        rcases List.mem_cons.mp hx with rfl | hx
        · exact Or.inl hmt
        · exact Or.inr (hi.2 x hx).1)
    refine ⟨c', o, h1, h2, fun t' n' => (h3 t' n').trans ?_⟩
    have : Act (m :: c.snmes) t' n' ↔ Act c.snmes t' n' := by
      unfold Act
      constructor
      · rintro ⟨x, hx, ht, hs⟩
        rcases List.mem_cons.mp hx with rfl | hx
        · rw [hms] at hs; cases hs
        · exact ⟨x, hx, ht, hs⟩
      · rintro ⟨x, hx, ht, hs⟩
        exact ⟨x, List.mem_cons_of_mem _ hx, ht, hs⟩
    rw [this]

theorem deactivate_good (c : SnCtx) (hi : EntInv c) (t n : Nat) (hn : n < 16) :
    StepGood c (.deactivateInd t n) (deactivateInd c t n) := by
  unfold deactivateInd
  cases hf : c.find t with
  | none =>
    have hno := (find_none_iff _ _).mp hf
    intro t' n'
    simp only [eventOf, after]
    refine ⟨fun h => ⟨h, ?_⟩, fun h => h.1⟩
    rintro ⟨rfl, rfl⟩
    obtain ⟨x, hx, ht, -⟩ := h
    exact hno x hx ht
  | some m =>
    obtain ⟨hml, hmt⟩ := (find_some_iff _ hi.1 _ _).mp hf
    simp only
    rw [if_neg (by omega)]
    cases he : m.sne n with
    | none =>
      intro t' n'
      simp only [eventOf, after]
      refine ⟨fun h => ⟨h, ?_⟩, fun h => h.1⟩
      rintro ⟨rfl, rfl⟩
      obtain ⟨x, hx, ht, hs⟩ := h
      rw [mem_unique hi hx hml (ht.trans hmt.symm), he] at hs
      cases hs
    | some e =>
      simp only [StepGood]
      generalize hm' : m.set n none = m'
      have hmt' : m'.tlli = t := by rw [← hm']; exact hmt
      have hslot : ∀ i f, m'.sne i = some f → i < 16 ∧ f.nsapi = i := by
        intro i f hfi
        rw [← hm', set_sne] at hfi
        by_cases hin : i = n
        · rw [if_pos hin] at hfi; cases hfi
        · rw [if_neg hin] at hfi; exact (hi.2 m hml).2 i f hfi
      have hkey : ∀ x ∈ c.snmes, x.tlli ≠ t ∨ x = m := by
        intro x hx
        by_cases h : x.tlli = t
        · exact Or.inr (mem_unique hi hx hml (h.trans hmt.symm))
        · exact Or.inl h
      by_cases hem : m'.isEmpty = true
      · rw [if_pos hem]
        have hall := (isEmpty_iff m' (fun i f h => (hslot i f h).1)).mp hem
        have hmem := mem_removeFirst c.snmes hi.1 t
        refine ⟨⟨nodup_removeFirst _ hi.1 _, fun x hx => hi.2 x ((hmem x).mp hx).1⟩,
          fun t' n' => ?_⟩
        simp only [eventOf, after]
        unfold Act
        constructor
        · rintro ⟨x, hx, ht, hs⟩
          obtain ⟨hx, hxt⟩ := (hmem x).mp hx
          exact ⟨⟨x, hx, ht, hs⟩, fun h => hxt (ht.trans h.1)⟩
        · rintro ⟨⟨x, hx, ht, hs⟩, hnot⟩
          rcases hkey x hx with h | rfl
          · exact ⟨x, (hmem x).mpr ⟨hx, h⟩, ht, hs⟩
          · by_cases hin : n' = n
            · exact absurd ⟨ht.symm.trans hmt, hin⟩ hnot
            · have := hall n'
              rw [← hm', set_sne, if_neg hin] at this
              rw [this] at hs; cases hs
      · rw [if_neg hem]
        have hmem := mem_replaceFirst c.snmes hi.1 t m'
        have hsome : ∃ i, (m'.sne i).isSome := by
          rcases Classical.em (∃ i, (m'.sne i).isSome) with h | h
          · exact h
          · refine absurd ((isEmpty_iff m' (fun i f h => (hslot i f h).1)).mpr fun i => ?_) hem
            cases hi' : m'.sne i with
            | none => rfl
            | some f => exact absurd ⟨i, by rw [hi']; rfl⟩ h
        refine ⟨⟨nodup_replaceFirst _ hi.1 _ _ (Or.inl hmt'), fun x hx => ?_⟩, fun t' n' => ?_⟩
        · rcases (hmem x).mp hx with ⟨hx, -⟩ | ⟨rfl, -⟩
          · exact hi.2 x hx
          · exact ⟨hsome, hslot⟩
        · simp only [eventOf, after]
          unfold Act
          constructor
          · rintro ⟨x, hx, ht, hs⟩
            rcases (hmem x).mp hx with ⟨hx, hxt⟩ | ⟨rfl, -⟩
            · exact ⟨⟨x, hx, ht, hs⟩, fun h => hxt (ht.trans h.1)⟩
            · rw [← hm', set_sne] at hs
              by_cases hin : n' = n
              · rw [if_pos hin] at hs; cases hs
              · rw [if_neg hin] at hs
                exact ⟨⟨m, hml, by rw [← ht, hmt', hmt], hs⟩, fun h => hin h.2⟩
          · rintro ⟨⟨x, hx, ht, hs⟩, hnot⟩
            rcases hkey x hx with h | rfl
            · exact ⟨x, (hmem x).mpr (Or.inl ⟨hx, h⟩), ht, hs⟩
            · refine ⟨m', (hmem _).mpr (Or.inr ⟨rfl, x, hx, hmt⟩), by rw [hmt', ← ht, hmt], ?_⟩
              rw [← hm', set_sne]
              by_cases hin : n' = n
              · exact absurd ⟨ht.symm.trans hmt, hin⟩ hnot
              · rwa [if_neg hin]

theorem assign_good (c : SnCtx) (hi : EntInv c) (o w : Nat)
    (hfresh : o = w ∨ ∀ n, ¬ Act c.snmes w n) :
    StepGood c (.llAssignInd o w) (llAssignInd c o w) := by
  unfold llAssignInd
  cases hf : c.find o with
  | none =>
    have hno := (find_none_iff _ _).mp hf
    intro t' n'
    simp only [eventOf, after]
    have hnone : ∀ n, ¬ Act c.snmes o n := by
      rintro n ⟨x, hx, ht, -⟩; exact hno x hx ht
    constructor
    · exact fun h => Or.inl ⟨Or.inr hnone, h⟩
    · rintro (⟨-, h⟩ | ⟨h, -⟩)
      · exact h
      · exact absurd (Or.inr hnone) h
  | some m =>
    obtain ⟨hml, hmt⟩ := (find_some_iff _ hi.1 _ _).mp hf
    simp only [StepGood]
    generalize hm' : ({ m with tlli := w } : Snme) = m'
    have hmt' : m'.tlli = w := by rw [← hm']
    have hms : ∀ i, m'.sne i = m.sne i := by intro i; rw [← hm']
    have hmem := mem_replaceFirst c.snmes hi.1 o m'
    obtain ⟨k, hk⟩ := (hi.2 m hml).1
    have hact : Act c.snmes o k := ⟨m, hml, hmt, hk⟩
    have hnw : o = w ∨ ∀ x ∈ c.snmes, x.tlli ≠ w := by
      rcases hfresh with h | h
      · exact Or.inl h
      · refine Or.inr fun x hx hxw => ?_
        obtain ⟨i, hi'⟩ := (hi.2 x hx).1
        exact h i ⟨x, hx, hxw, hi'⟩
    refine ⟨⟨nodup_replaceFirst _ hi.1 _ _ (by
        rcases hnw with h | h
        · exact Or.inl (hmt'.trans h.symm)
        · exact Or.inr (by rw [hmt']; exact h)), fun x hx => ?_⟩, fun t' n' => ?_⟩
    · rcases (hmem x).mp hx with ⟨hx, -⟩ | ⟨rfl, -⟩
      · exact hi.2 x hx
      · exact ⟨⟨k, by rw [hms]; exact hk⟩, fun i f h => (hi.2 m hml).2 i f (by rwa [hms] at h)⟩
    · simp only [eventOf, after]
      have hkey : ∀ x ∈ c.snmes, x.tlli ≠ o ∨ x = m := by
        intro x hx
        by_cases h : x.tlli = o
        · exact Or.inr (mem_unique hi hx hml (h.trans hmt.symm))
        · exact Or.inl h
      unfold Act at *
      constructor
      · rintro ⟨x, hx, ht, hs⟩
        by_cases how : o = w
        · refine Or.inl ⟨Or.inl how, ?_⟩
          rcases (hmem x).mp hx with ⟨hx, -⟩ | ⟨rfl, -⟩
          · exact ⟨x, hx, ht, hs⟩
          · exact ⟨m, hml, by rw [hmt, how, ← hmt', ht], by rwa [hms] at hs⟩
        · refine Or.inr ⟨fun h => h.elim how (fun h => h k hact), ?_⟩
          rcases (hmem x).mp hx with ⟨hx, hxo⟩ | ⟨rfl, -⟩
          · exact Or.inr ⟨fun h => (hnw.resolve_left how) x hx (ht.trans h),
              fun h => hxo (ht.trans h), x, hx, ht, hs⟩
          · exact Or.inl ⟨ht.symm.trans hmt', m, hml, hmt, by rwa [hms] at hs⟩
      · rintro (⟨h, x, hx, ht, hs⟩ | ⟨h, ⟨rfl, x, hx, ht, hs⟩ | ⟨htw, hto, x, hx, ht, hs⟩⟩)
        · have how : o = w := h.resolve_right (fun h => h k hact)
          rcases hkey x hx with h | rfl
          · exact ⟨x, (hmem x).mpr (Or.inl ⟨hx, h⟩), ht, hs⟩
          · exact ⟨m', (hmem _).mpr (Or.inr ⟨rfl, x, hx, hmt⟩), by rw [hmt', ← how, ← hmt, ht],
              by rwa [hms]⟩
        · rcases hkey x hx with h | rfl
          · exact absurd ht h
          · exact ⟨m', (hmem _).mpr (Or.inr ⟨rfl, x, hx, hmt⟩), hmt', by rwa [hms]⟩
        · exact ⟨x, (hmem x).mpr (Or.inl ⟨hx, fun h => hto (ht.symm.trans h)⟩), ht, hs⟩

theorem snXidReq_good (c : SnCtx) (hi : EntInv c) (t s n : Nat) (b : Bool) (hn : n < 16) :
    StepGood c (.snXidReq t s n b) (snXidReq c t s n b) := by
  unfold snXidReq
  cases hf : c.find t with
  | none => exact fun _ _ => Iff.rfl
  | some m =>
    obtain ⟨hml, hmt⟩ := (find_some_iff _ hi.1 _ _).mp hf
    simp only
    rw [if_neg (by omega)]
    cases he : m.sne n with
    | none => exact fun _ _ => Iff.rfl
    | some e =>
      simp only
      split
      · exact fun _ _ => Iff.rfl
      · exact replace_entity c hi t n m hf e _ he ((hi.2 m hml).2 n e he).2

theorem bySapi_some (m : Snme) (s : Nat) (e : Sne) (h : m.bySapi s = some e) :
    e.sapi = s ∧ ∃ n, n < 16 ∧ m.sne n = some e := by
  unfold Snme.bySapi at h
  have h1 := List.find?_some h
  have h2 := List.mem_of_find?_eq_some h
  obtain ⟨n, hn, hne⟩ := List.mem_filterMap.mp h2
  exact ⟨by simpa using h1, n, List.mem_range.mp hn, hne⟩

theorem llXidCnf_good (c : SnCtx) (hi : EntInv c) (t s : Nat) :
    StepGood c (.llXidCnf t s) (llXidCnf c t s) := by
  unfold llXidCnf
  cases hf : c.find t with
  | none => exact fun _ _ => Iff.rfl
  | some m =>
    obtain ⟨hml, hmt⟩ := (find_some_iff _ hi.1 _ _).mp hf
    simp only
    cases he : m.bySapi s with
    | none => exact fun _ _ => Iff.rfl
    | some e =>
      obtain ⟨hs, n, hn, hne⟩ := bySapi_some m s e he
      have hen := ((hi.2 m hml).2 n e hne).2
      exact replace_entity c hi t e.nsapi m hf e _ (by rw [hen]; exact hne) rfl

theorem entStep_good (c : SnCtx) (hi : EntInv c) (p : SnPrim) (hv : FourBits p)
    (hfresh : ∀ o w, p = .llAssignInd o w → o = w ∨ ∀ n, ¬ Act c.snmes w n) :
    StepGood c p (entStep c p) := by
  cases p with
  | activateInd t n s q =>
    obtain ⟨c', o, h1, h2, h3⟩ := activate_good c hi t n s q hv.1 hv.2
    simp only [entStep, h1, StepGood, eventOf, after]
    exact ⟨h2, h3⟩
  | deactivateInd t n => exact deactivate_good c hi t n hv
  | llAssignInd o w => exact assign_good c hi o w (hfresh o w rfl)
  | snXidReq t s n b => exact snXidReq_good c hi t s n b hv
  | llXidCnf t s => exact llXidCnf_good c hi t s

theorem after_congr {a b : Nat → Nat → Prop} (h : Same a b) (e : Event) :
    Same (after a e) (after b e) := by
  have : a = b := funext fun t => funext fun n => propext (h t n)
  subst this
  exact fun _ _ => Iff.rfl

theorem entRun_good (ps : List SnPrim) (c : SnCtx) (a : Nat → Nat → Prop) (hi : EntInv c)
    (ha : Same (Act c.snmes) a) (hv : ∀ p ∈ ps, FourBits p) (hf : Fresh a (ps.map eventOf)) :
    ∃ c' o, entRun c ps = .ok (c', o) ∧ EntInv c' ∧
      Same (Act c'.snmes) ((ps.map eventOf).foldl after a) := by
  have hacta : Act c.snmes = a := funext fun t => funext fun n => propext (ha t n)
  subst hacta
  induction ps generalizing c with
  | nil => exact ⟨c, [], rfl, hi, ha⟩
  | cons p ps ih =>
    have hg := entStep_good c hi p (hv p (List.mem_cons_self ..)) (by
      rintro o w rfl; exact hf.1)
    simp only [entRun, List.map_cons, List.foldl_cons]
    have hf2 : Fresh (after (Act c.snmes) (eventOf p)) (ps.map eventOf) := hf.2
    have hv2 : ∀ p ∈ ps, FourBits p := fun q hq => hv q (List.mem_cons_of_mem _ hq)
    cases hst : entStep c p with
    | ub f => rw [hst] at hg; exact hg.elim
    | err e =>
      rw [hst] at hg
      have hEq : after (Act c.snmes) (eventOf p) = Act c.snmes :=
        funext fun t => funext fun n => propext (hg t n).symm
      rw [hEq] at hf2 ⊢
      exact ih c hi hv2 (ha := fun _ _ => Iff.rfl) (hf := hf2)
    | ok r =>
      obtain ⟨c1, o1⟩ := r
      rw [hst] at hg
      have hEq : after (Act c.snmes) (eventOf p) = Act c1.snmes :=
        funext fun t => funext fun n => propext (hg.2 t n).symm
      rw [hEq] at hf2 ⊢
      obtain ⟨c', o, h1, h2, h3⟩ := ih c1 hg.1 hv2 (ha := fun _ _ => Iff.rfl) (hf := hf2)
      simp only [h1]
      exact ⟨c', _, rfl, h2, h3⟩

theorem entInv_init (ms : Bool) : EntInv { ms := ms } := ⟨List.nodup_nil, by simp⟩

/-- **C49**: after any history of activations, deactivations, changes of TLLI and XID exchanges, an
SNDCP entity can be found for a TLLI and NSAPI exactly when it was activated and not deactivated, and
a management entity exists exactly while its TLLI has at least one entity. -/
theorem c49_entities (ms : Bool) (ps : List SnPrim) (hv : ∀ p ∈ ps, FourBits p)
    (hf : Fresh (fun _ _ => False) (ps.map eventOf)) :
    ∃ c outs, entRun { ms := ms } ps = .ok (c, outs) ∧
      (∀ t n, ((c.find t).bind (fun m => m.sne n)).isSome ↔ activeAfter (ps.map eventOf) t n) ∧
      (∀ t, (∃ m ∈ c.snmes, m.tlli = t) ↔ ∃ n, activeAfter (ps.map eventOf) t n) ∧
      (c.snmes.map Snme.tlli).Nodup := by
  obtain ⟨c, o, h1, h2, h3⟩ := entRun_good ps { ms := ms } (fun _ _ => False) (entInv_init ms)
    (by intro t n; simp [Act]) hv hf
  refine ⟨c, o, h1, fun t n => ?_, fun t => ?_, h2.1⟩
  · rw [activeAfter, ← h3 t n]
    cases hfd : c.find t with
    | none =>
      have hno := (find_none_iff _ _).mp hfd
      simp only [Option.bind_none, Option.isSome_none, Bool.false_eq_true, false_iff]
      rintro ⟨x, hx, ht, -⟩
      exact hno x hx ht
    | some m =>
      obtain ⟨hml, hmt⟩ := (find_some_iff _ h2.1 _ _).mp hfd
      simp only [Option.bind_some]
      constructor
      · exact fun h => ⟨m, hml, hmt, h⟩
      · rintro ⟨x, hx, ht, hs⟩
        rwa [mem_unique h2 hx hml (ht.trans hmt.symm)] at hs
  · constructor
    · rintro ⟨m, hm, rfl⟩
      obtain ⟨n, hn⟩ := (h2.2 m hm).1
      exact ⟨n, (h3 _ n).mp ⟨m, hm, rfl, hn⟩⟩
    · rintro ⟨n, hn⟩
      obtain ⟨m, hm, ht, -⟩ := (h3 t n).mpr hn
      exact ⟨m, hm, ht⟩

example : (∀ p ∈ [SnPrim.activateInd 7 5 3 true, .activateInd 8 5 3 true, .llAssignInd 7 9,
      .deactivateInd 8 5], FourBits p) ∧
    Fresh (fun _ _ => False) ([SnPrim.activateInd 7 5 3 true, .activateInd 8 5 3 true,
      .llAssignInd 7 9, .deactivateInd 8 5].map eventOf) ∧
    activeAfter ([SnPrim.activateInd 7 5 3 true, .activateInd 8 5 3 true,
      .llAssignInd 7 9, .deactivateInd 8 5].map eventOf) 9 5 := by
  refine ⟨by simp [FourBits], ?_, ?_⟩
  · simp [Fresh, eventOf, after]
  · simp [activeAfter, eventOf, after]

/-- A context some history of the MS leads to. -/
def MsReach (c : SnCtx) : Prop :=
  ∃ ps outs, (∀ p ∈ ps, FourBits p) ∧ Fresh (fun _ _ => False) (ps.map eventOf) ∧
    entRun { ms := true } ps = .ok (c, outs)

/-- The primitives a sequence of primitives makes SNDCP send. -/
def sentBy (c : SnCtx) (ps : List SnPrim) : List SnOut :=
  match entRun c ps with
  | .ok (_, o) => o
  | _ => []

/-- **C71**, full statement: in an MS whoever asks is answered.  An SN-XID.req that is taken is
confirmed to the NSAPI that sent it as soon as LLC confirms; an SNSM-ACTIVATE.ind with a good QoS
profile is answered for its NSAPI, at once or as soon as LLC confirms. -/
def C71Statement : Prop :=
  ∀ c, MsReach c → ∀ t n, n < 16 →
    (∀ s b, (byDlciNsapi c t s n).isSome →
      SnOut.snXidCnf t s n ∈ sentBy c [.snXidReq t s n b, .llXidCnf t s]) ∧
    (∀ s, s < 16 → SnOut.activateRsp t n ∈ sentBy c [.activateInd t n s true] ∨
      ∃ s', SnOut.llXidReq t s' ∈ sentBy c [.activateInd t n s true] ∧
        SnOut.activateRsp t n ∈ sentBy c [.activateInd t n s true, .llXidCnf t s'])

/-- C71 is violated: with two NSAPIs on one SAPI the confirmation of the second is given to the
first, who did not ask, and the second waits for ever. -/
theorem c71_confirmation_violated : ¬ C71Statement := by
  intro h
  have h1 := (h _ ⟨[.activateInd 7 5 3 true, .activateInd 7 6 3 true], _,
    by simp [FourBits], by simp [Fresh, eventOf], rfl⟩ 7 6 (by decide)).1 3 true
      (by decide +kernel)
  revert h1
  decide +kernel

/-- The reachable contexts are well kept. -/
theorem msReach_inv (c : SnCtx) (h : MsReach c) : EntInv c ∧ c.ms = true := by
  obtain ⟨ps, outs, hv, hf, hr⟩ := h
  obtain ⟨c', o, h1, h2, -⟩ := entRun_good ps { ms := true } (fun _ _ => False) (entInv_init true)
    (by intro t n; simp [Act]) hv hf
  rw [hr] at h1
  cases h1
  refine ⟨h2, ?_⟩
  have : ∀ (ps : List SnPrim) (c c' : SnCtx) o, entRun c ps = .ok (c', o) → c'.ms = c.ms := by
    intro ps
    induction ps with
    | nil => intro c c' o h; cases h; rfl
    | cons p ps ih =>
      intro c c' o h
      unfold entRun at h
      cases hs : entStep c p with
      | ub f => rw [hs] at h; cases h
      | err e => rw [hs] at h; exact ih c c' o h
      | ok r =>
        obtain ⟨c1, o1⟩ := r
        rw [hs] at h
        simp only at h
        cases hr : entRun c1 ps with
        | ub f => rw [hr] at h; cases h
        | err e => rw [hr] at h; cases h
        | ok r =>
          obtain ⟨c2, o2⟩ := r
          rw [hr] at h
          cases h
          rw [ih c1 _ o2 hr]
          cases p with
          | activateInd t n s q =>
            simp only [entStep, activateInd] at hs
            cases hf : c.find t with
            | none =>
              rw [hf] at hs
              simp only [activateIn] at hs
              split at hs
              · cases hs
              · split at hs
                · cases hs
                · simp only [Res.ok.injEq] at hs
                  unfold activateRest activateMs at hs
                  repeat' split at hs
                  all_goals (cases hs <;> rfl)
            | some m =>
              rw [hf] at hs
              simp only [activateIn] at hs
              split at hs
              · cases hs
              · split at hs
                · simp only [Res.ok.injEq] at hs
                  unfold activateRest activateMs at hs
                  repeat' split at hs
                  all_goals (cases hs <;> rfl)
                · split at hs
                  · cases hs
                  · simp only [Res.ok.injEq] at hs
                    unfold activateRest activateMs at hs
                    repeat' split at hs
                    all_goals (cases hs <;> rfl)
          | deactivateInd t n =>
            simp only [entStep, deactivateInd] at hs
            repeat' split at hs
            all_goals (cases hs <;> rfl)
          | llAssignInd o w =>
            simp only [entStep, llAssignInd] at hs
            repeat' split at hs
            all_goals (cases hs <;> rfl)
          | snXidReq t s n b =>
            simp only [entStep, snXidReq] at hs
            repeat' split at hs
            all_goals (cases hs <;> rfl)
          | llXidCnf t s =>
            simp only [entStep, llXidCnf] at hs
            repeat' split at hs
            all_goals (cases hs <;> rfl)
  exact this ps _ _ _ hr

theorem bySapi_first (m : Snme) (s n : Nat) (e : Sne) (hn : n < 16) (he : m.sne n = some e)
    (hs : e.sapi = s) (hlow : ∀ i < n, ∀ f, m.sne i = some f → f.sapi ≠ s) :
    m.bySapi s = some e := by
  unfold Snme.bySapi
  have hr : List.range 16 = List.range n ++ n :: List.range' (n + 1) (15 - n) := by
    rw [← List.range'_succ, List.range_eq_range', List.range_eq_range']
    have := @List.range'_append 0 n (15 - n + 1) 1
    simp only [Nat.one_mul, Nat.zero_add] at this
    rw [this]
    congr 1
    omega
  rw [hr, List.filterMap_append, List.find?_append]
  have h1 : ((List.range n).filterMap m.sne).find? (fun e => e.sapi = s) = none := by
    rw [List.find?_eq_none]
    intro f hf
    obtain ⟨i, hi, hif⟩ := List.mem_filterMap.mp hf
    simpa using hlow i (List.mem_range.mp hi) f hif
  rw [h1]
  simp [he, hs]

/-- No lower NSAPI of the TLLI uses the SAPI. -/
def LowestOn (c : SnCtx) (t s n : Nat) : Prop := ∀ i < n, byDlciNsapi c t s i = none

theorem lowest_slots (c : SnCtx) (t s n : Nat) (m : Snme) (hf : c.find t = some m)
    (hl : LowestOn c t s n) : ∀ i < n, ∀ f, m.sne i = some f → f.sapi ≠ s := by
  intro i hi f hfi hs
  have := hl i hi
  simp [byDlciNsapi, hf, hfi, hs] at this

/-- After the entity `n` of the TLLI is replaced, the confirmation on its SAPI reaches it. -/
theorem cnf_reaches (c : SnCtx) (hi : EntInv c) (t n : Nat) (hn : n < 16) (m : Snme)
    (hf : c.find t = some m) (e e' : Sne) (hs : e'.sapi = e.sapi)
    (hne : e'.nsapi = n) (hl : ∀ i < n, ∀ f, m.sne i = some f → f.sapi ≠ e.sapi) :
    ∃ c2, llXidCnf { c with snmes := replaceFirst t (m.set n (some e')) c.snmes } t e.sapi =
      .ok (c2, (if e'.actPending then [.activateRsp t n] else []) ++
        (if e'.xidPending then [.snXidCnf t e.sapi n] else [])) := by
  obtain ⟨hml, hmt⟩ := (find_some_iff _ hi.1 _ _).mp hf
  have h1 := find_replaceFirst c hi.1 t m (m.set n (some e')) hf hmt
  have h2 : (m.set n (some e')).bySapi e.sapi = some e' := by
    refine bySapi_first _ _ n e' hn (by rw [set_sne, if_pos rfl]) hs fun i hi' f hfi => ?_
    rw [set_sne, if_neg (by omega)] at hfi
    exact hl i hi' f hfi
  unfold llXidCnf
  rw [h1]
  simp only [h2, hs, hne]
  have h3 : (m.set n (some e')).tlli = t := hmt
  rw [h3]
  exact ⟨_, rfl⟩

/-- **C71**, proved part: the answers reach the NSAPI that asked if no lower NSAPI of the same TLLI
uses its SAPI.  Missing: two NSAPIs sharing a SAPI (`c71_confirmation_violated`). -/
theorem c71_confirmation_partial (c : SnCtx) (hc : MsReach c) (t n : Nat) (hn : n < 16) :
    (∀ s b, (byDlciNsapi c t s n).isSome → LowestOn c t s n →
      SnOut.snXidCnf t s n ∈ sentBy c [.snXidReq t s n b, .llXidCnf t s]) ∧
    (∀ s, s < 16 → (∀ s', (byDlciNsapi c t s' n).isSome → LowestOn c t s' n) →
      SnOut.activateRsp t n ∈ sentBy c [.activateInd t n s true] ∨
      ∃ s', SnOut.llXidReq t s' ∈ sentBy c [.activateInd t n s true] ∧
        SnOut.activateRsp t n ∈ sentBy c [.activateInd t n s true, .llXidCnf t s']) := by
  obtain ⟨hi, hms⟩ := msReach_inv c hc
  constructor
  · intro s b hb hl
    unfold byDlciNsapi at hb
    cases hf : c.find t with
    | none => simp [hf] at hb
    | some m =>
      obtain ⟨hml, hmt⟩ := (find_some_iff _ hi.1 _ _).mp hf
      cases he : m.sne n with
      | none => simp [hf, he] at hb
      | some e =>
        have hs : e.sapi = s := by
          by_cases h : e.sapi = s
          · exact h
          · simp [hf, he, h] at hb
        have hen := ((hi.2 m hml).2 n e he).2
        have hlow := lowest_slots c t s n m hf hl
        obtain ⟨c2, h2⟩ := cnf_reaches c hi t n hn m hf e
          { e with xidReq := b, xidPending := true } rfl hen (by rw [hs]; exact hlow)
        have h1 : snXidReq c t s n b = .ok (⟨c.ms, replaceFirst t
            (m.set n (some { e with xidReq := b, xidPending := true })) c.snmes⟩,
            [.llXidReq m.tlli e.sapi]) := by
          unfold snXidReq
          rw [hf]
          simp only [he]
          rw [if_neg (by omega), if_neg (by simp [hs])]
        subst hs
        simp only [sentBy, entRun, entStep, h1, h2]
        simp
  · intro s hs16 hl
    cases hf : c.find t with
    | none =>
      left
      simp only [sentBy, entRun, entStep, activateInd, hf, activateIn, activateRest, activateMs]
      rw [if_neg (by omega), if_neg (by omega)]
      simp [hms, Snme.set]
    | some m =>
      obtain ⟨hml, hmt⟩ := (find_some_iff _ hi.1 _ _).mp hf
      cases he : m.sne n with
      | none =>
        left
        simp only [sentBy, entRun, entStep, activateInd, hf, activateIn, activateRest, activateMs, he]
        rw [if_neg (by omega), if_neg (by omega)]
        simp [hms, Snme.set, hmt]
      | some e =>
        by_cases hx : e.xidReq = true
        · right
          have hen := ((hi.2 m hml).2 n e he).2
          have hlow := lowest_slots c t e.sapi n m hf (hl e.sapi (by simp [byDlciNsapi, hf, he]))
          obtain ⟨c2, h2⟩ := cnf_reaches c hi t n hn m hf e { e with actPending := true } rfl hen
            hlow
          have h1 : activateInd c t n s true = .ok (⟨c.ms, replaceFirst t
              (m.set n (some { e with actPending := true })) c.snmes⟩,
              [.llXidReq t e.sapi]) := by
            unfold activateInd activateIn activateRest activateMs
            rw [hf]
            simp only [he]
            rw [if_neg (by omega), if_pos hms, if_neg (by simp), if_pos hx, hmt]
          refine ⟨e.sapi, ?_, ?_⟩
          · simp [sentBy, entRun, entStep, h1]
          · simp only [sentBy, entRun, entStep, h1, h2]
            simp
        · left
          have h1 : activateInd c t n s true = .ok (c, [.activateRsp t n]) := by
            unfold activateInd activateIn activateRest activateMs
            rw [hf]
            simp only [he]
            rw [if_neg (by omega), if_pos hms, if_neg (by simp), if_neg hx, hmt]
          simp [sentBy, entRun, entStep, h1]

example : ∃ c, MsReach c ∧ (byDlciNsapi c 7 3 5).isSome ∧ LowestOn c 7 3 5 := by
  refine ⟨_, ⟨[.activateInd 7 5 3 true, .activateInd 7 6 3 true], _, by simp [FourBits],
    by simp [Fresh, eventOf], rfl⟩, by decide +kernel, ?_⟩
  unfold LowestOn
  decide +kernel

/-- **C72**, full statement: an activation gives the NSAPI the SAPI it asks for. -/
def C72Statement : Prop :=
  ∀ c, MsReach c → ∀ t n s q c' o, n < 16 → s < 16 →
    entStep c (.activateInd t n s q) = .ok (c', o) → (byDlciNsapi c' t s n).isSome

/-- C72 is violated: activating again with another SAPI leaves the old SAPI in place, although the
activation is answered. -/
theorem c72_sapi_violated : ¬ C72Statement := by
  intro h
  have h1 := h _ ⟨[.activateInd 7 5 3 true], _, by simp [FourBits], by simp [Fresh, eventOf], rfl⟩
    7 5 9 true _ _ (by decide) (by decide) rfl
  revert h1
  decide +kernel

/-- **C72**, proved part: it does if the NSAPI was not active before. -/
theorem c72_sapi_partial (c : SnCtx) (hc : MsReach c) (t n s : Nat) (q : Bool) (c' : SnCtx)
    (o : List SnOut) (hn : n < 16) (hs : s < 16) (hno : ∀ s', byDlciNsapi c t s' n = none)
    (h : entStep c (.activateInd t n s q) = .ok (c', o)) : (byDlciNsapi c' t s n).isSome := by
  obtain ⟨hi, hms⟩ := msReach_inv c hc
  have key : ∀ (c0 : SnCtx) (m : Snme), (c0.snmes.map Snme.tlli).Nodup → c0.ms = true →
      c0.find t = some m → m.sne n = none → activateIn c0 t n s m q = .ok (c', o) →
      (byDlciNsapi c' t s n).isSome := by
    intro c0 m hd hms0 hf he h
    obtain ⟨hml, hmt⟩ := (find_some_iff _ hd _ _).mp hf
    have h3 := find_replaceFirst c0 hd t m (m.set n (some { sapi := s, nsapi := n })) hf hmt
    unfold activateIn activateRest activateMs at h
    rw [if_neg (by omega), he] at h
    simp only at h
    rw [if_neg (by omega)] at h
    simp only [hms0, if_true, Bool.false_eq_true, if_false] at h
    rw [hms0] at h3
    split at h <;> (cases h; simp [byDlciNsapi, h3, set_sne])
  simp only [entStep, activateInd] at h
  cases hf : c.find t with
  | some m =>
    rw [hf] at h
    refine key c m hi.1 hms hf ?_ h
    cases he : m.sne n with
    | none => rfl
    | some e =>
      have := hno e.sapi
      simp [byDlciNsapi, hf, he] at this
  | none =>
    rw [hf] at h
    have hnone := (find_none_iff _ _).mp hf
    have hd : (({ c with snmes := { tlli := t, sne := fun _ => none } :: c.snmes } :
        SnCtx).snmes.map Snme.tlli).Nodup := by
      simp only [List.map_cons, List.nodup_cons, List.mem_map, not_exists, not_and]
      exact ⟨hnone, hi.1⟩
    exact key _ _ hd hms ((find_some_iff _ hd t _).mpr ⟨List.mem_cons_self .., rfl⟩) rfl h

example : ∃ c, MsReach c ∧ (∀ s', byDlciNsapi c 7 s' 6 = none) ∧ c.snmes ≠ [] :=
  ⟨_, ⟨[.activateInd 7 5 3 true], _, by simp [FourBits], by simp [Fresh, eventOf], rfl⟩,
    fun s' => rfl, by simp [replaceFirst]⟩

end Verif.Props
