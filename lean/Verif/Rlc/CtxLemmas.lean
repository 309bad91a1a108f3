import Verif.Rlc.Ctx
import Verif.Rlc.UlTbfLemmas

/-!
# The RLC/MAC context: what every event keeps
-/
namespace Verif.Rlc
open Verif Verif.Spec

/-- Number of the uplink TBF. -/
def Gre.ulId (g : Gre) : Option Nat := g.ul.map Prod.fst

/-- Number of the downlink TBF. -/
def Gre.dlId (g : Gre) : Option Nat := g.dl.map DlLink.id

/-- Numbers of both. -/
def Gre.Has (g : Gre) (i : Nat) : Prop := g.ulId = some i ∨ g.dlId = some i

/-- The owner of a reservation exists (`b`: also if it is an entity) and is of the right kind. -/
def Live (b : Bool) (es : List Gre) (x : PollNode) : Prop :=
  match x.reason, x.owner with
  | .ulAss, .tbf i => ∃ g ∈ es, g.ulId = some i
  | .ulAck, .tbf i => ∃ g ∈ es, g.ulId = some i
  | .dlAck, .tbf i => ∃ g ∈ es, g.dlId = some i
  | .dlAss, .gre n => b = true → ∃ g ∈ es, g.n = n
  | _, _ => False

/-- What holds of all reservations. -/
structure PollsOk (b : Bool) (es : List Gre) (p : List (List PollNode)) : Prop where
  len : p.length = 8
  live : ∀ l ∈ p, ∀ x ∈ l, Live b es x
  uniq : ∀ l ∈ p, (l.map PollNode.fn).Nodup

/-- The invariant of the context; `P`: something that holds of all uplink TBFs. -/
structure Ctx.WF (b : Bool) (P : UlTbf → Prop) (s : Ctx) : Prop where
  nd : (s.es.map Gre.n).Nodup
  lt : ∀ g ∈ s.es, g.n < s.made
  idlt : ∀ g ∈ s.es, ∀ i, g.Has i → i < s.tbfs
  uu : ∀ g ∈ s.es, ∀ g' ∈ s.es, ∀ i, g.Has i → g'.Has i → g.n = g'.n
  ud : ∀ g ∈ s.es, ∀ i, g.ulId = some i → g.dlId ≠ some i
  polls : PollsOk b s.es s.polls
  ulp : ∀ g ∈ s.es, ∀ i t, g.ul = some (i, t) → P t

theorem mem_unique {l : List Gre} (h : (l.map Gre.n).Nodup) {g g' : Gre} (hg : g ∈ l) (hg' : g' ∈ l)
    (e : g.n = g'.n) : g = g' := by
  induction l with
  | nil => cases hg
  | cons a l ih =>
    simp only [List.map_cons, List.nodup_cons, List.mem_map] at h
    rcases List.mem_cons.1 hg with rfl | h1 <;> rcases List.mem_cons.1 hg' with rfl | h2
    · rfl
    · exact absurd ⟨g', h2, e.symm⟩ h.1
    · exact absurd ⟨g, h1, e⟩ h.1
    · exact ih h.2 h1 h2

theorem gre?_mem {s : Ctx} {n : Nat} {g : Gre} (h : s.gre? n = some g) : g ∈ s.es ∧ g.n = n := by
  unfold Ctx.gre? at h
  exact ⟨List.mem_of_find?_eq_some h, by simpa using List.find?_some h⟩

theorem gre?_of_mem {s : Ctx} (h : (s.es.map Gre.n).Nodup) {g : Gre} (hg : g ∈ s.es) : s.gre? g.n = some g := by
  cases e : s.gre? g.n with
  | none =>
    unfold Ctx.gre? at e
    rw [List.find?_eq_none] at e
    exact absurd (e g hg) (by simp)
  | some g' => rw [mem_unique h (gre?_mem e).1 hg (gre?_mem e).2]

theorem mem_setGre {s : Ctx} {n : Nat} {f : Gre → Gre} {g : Gre} :
    g ∈ (s.setGre n f).es ↔ ∃ g0 ∈ s.es, g = if g0.n = n then f g0 else g0 := by
  simp only [Ctx.setGre, List.mem_map]
  exact ⟨fun ⟨a, h, e⟩ => ⟨a, h, e.symm⟩, fun ⟨a, h, e⟩ => ⟨a, h, e.symm⟩⟩

theorem map_n_setGre (s : Ctx) (n : Nat) (f : Gre → Gre) (hn : ∀ g, (f g).n = g.n) :
    (s.setGre n f).es.map Gre.n = s.es.map Gre.n := by
  simp only [Ctx.setGre, List.map_map]
  refine List.map_congr_left fun g _ => ?_
  simp only [Function.comp]
  split
  · exact hn g
  · rfl

/-- The reservations after a change of one entity. -/
theorem live_set {b : Bool} {s : Ctx} {n : Nat} {f : Gre → Gre} {x : PollNode} (hn : ∀ g, (f g).n = g.n)
    (hu : ∀ g ∈ s.es, g.n = n → ∀ i, x.owner = .tbf i →
      (g.ulId = some i → (f g).ulId = some i) ∧ (g.dlId = some i → (f g).dlId = some i))
    (h : Live b s.es x) : Live b (s.setGre n f).es x := by
  have up : ∀ g ∈ s.es, ∃ g' ∈ (s.setGre n f).es, g'.n = g.n ∧
      ∀ i, x.owner = .tbf i → (g.ulId = some i → g'.ulId = some i) ∧ (g.dlId = some i → g'.dlId = some i) := by
    intro g hg
    by_cases e : g.n = n
    · exact ⟨f g, mem_setGre.2 ⟨g, hg, by rw [if_pos e]⟩, hn g, hu g hg e⟩
    · exact ⟨g, mem_setGre.2 ⟨g, hg, by rw [if_neg e]⟩, rfl, fun _ _ => ⟨id, id⟩⟩
  unfold Live at h ⊢
  split at h
  · rename_i h1 h2
    obtain ⟨g, hg, e⟩ := h
    obtain ⟨g', hg', -, hh⟩ := up g hg
    exact ⟨g', hg', (hh _ h2).1 e⟩
  · rename_i h1 h2
    obtain ⟨g, hg, e⟩ := h
    obtain ⟨g', hg', -, hh⟩ := up g hg
    exact ⟨g', hg', (hh _ h2).1 e⟩
  · rename_i h1 h2
    obtain ⟨g, hg, e⟩ := h
    obtain ⟨g', hg', -, hh⟩ := up g hg
    exact ⟨g', hg', (hh _ h2).2 e⟩
  · intro hb
    obtain ⟨g, hg, e⟩ := h hb
    obtain ⟨g', hg', hh, -⟩ := up g hg
    exact ⟨g', hg', hh.trans e⟩
  · exact h

/-- A change of one entity, with its reservations. -/
theorem wf_update {b : Bool} {P P' : UlTbf → Prop} {s : Ctx} (h : s.WF b P) (n : Nat) (f : Gre → Gre)
    (tb : Nat) (p : List (List PollNode)) (htb : s.tbfs ≤ tb) (hn : ∀ g, (f g).n = g.n)
    (hid : ∀ g ∈ s.es, g.n = n → ∀ i, (f g).Has i → g.Has i ∨ s.tbfs ≤ i ∧ i < tb)
    (hud : ∀ g ∈ s.es, g.n = n → ∀ i, (f g).ulId = some i → (f g).dlId ≠ some i)
    (hp : PollsOk b (s.setGre n f).es p) (hP : ∀ t, P t → P' t)
    (hul : ∀ g ∈ s.es, g.n = n → ∀ i t, (f g).ul = some (i, t) → P' t) :
    ({ s.setGre n f with tbfs := tb, polls := p } : Ctx).WF b P' := by
  refine ⟨?_, ?_, ?_, ?_, ?_, hp, ?_⟩
  · show ((s.setGre n f).es.map Gre.n).Nodup
    rw [map_n_setGre s n f hn]
    exact h.nd
  · intro g hg
    obtain ⟨g0, h0, rfl⟩ := mem_setGre.1 hg
    show _ < s.made
    split
    · rw [hn]; exact h.lt g0 h0
    · exact h.lt g0 h0
  · intro g hg i hi
    obtain ⟨g0, h0, rfl⟩ := mem_setGre.1 hg
    show i < tb
    split at hi
    · rename_i e
      rcases hid g0 h0 e i hi with h1 | h1
      · exact Nat.lt_of_lt_of_le (h.idlt g0 h0 i h1) htb
      · exact h1.2
    · exact Nat.lt_of_lt_of_le (h.idlt g0 h0 i hi) htb
  · intro g hg g' hg' i hi hi'
    obtain ⟨g0, h0, rfl⟩ := mem_setGre.1 hg
    obtain ⟨g1, h1, rfl⟩ := mem_setGre.1 hg'
    by_cases e0 : g0.n = n <;> by_cases e1 : g1.n = n
    · simp only [e0, e1, if_true, hn]
    · simp only [if_pos e0, hn] at hi ⊢
      rw [if_neg e1] at hi' ⊢
      rcases hid g0 h0 e0 i hi with k | k
      · exact h.uu g0 h0 g1 h1 i k hi'
      · exact absurd (h.idlt g1 h1 i hi') (by omega)
    · simp only [if_pos e1, hn] at hi' ⊢
      rw [if_neg e0] at hi ⊢
      rcases hid g1 h1 e1 i hi' with k | k
      · exact h.uu g0 h0 g1 h1 i hi k
      · exact absurd (h.idlt g0 h0 i hi) (by omega)
    · rw [if_neg e0] at hi ⊢
      rw [if_neg e1] at hi' ⊢
      exact h.uu g0 h0 g1 h1 i hi hi'
  · intro g hg i hi
    obtain ⟨g0, h0, rfl⟩ := mem_setGre.1 hg
    split at hi
    · rename_i e
      rw [if_pos e]
      exact hud g0 h0 e i hi
    · rename_i e
      rw [if_neg e]
      exact h.ud g0 h0 i hi
  · intro g hg i t hi
    obtain ⟨g0, h0, rfl⟩ := mem_setGre.1 hg
    split at hi
    · rename_i e
      exact hul g0 h0 e i t hi
    · exact hP _ (h.ulp g0 h0 i t hi)

/-- A change of one entity that keeps the numbers of its TBFs. -/
theorem wf_set {b : Bool} {P P' : UlTbf → Prop} {s : Ctx} (h : s.WF b P) (n : Nat) (f : Gre → Gre)
    (hn : ∀ g, (f g).n = g.n)
    (hid : ∀ g ∈ s.es, g.n = n → (f g).ulId = g.ulId ∧ (f g).dlId = g.dlId) (hP : ∀ t, P t → P' t)
    (hul : ∀ g ∈ s.es, g.n = n → ∀ i t, (f g).ul = some (i, t) → P' t) : (s.setGre n f).WF b P' := by
  have := wf_update h n f s.tbfs s.polls (Nat.le_refl _) hn
    (fun g hg e i hi => .inl (by
      unfold Gre.Has at hi ⊢
      rw [(hid g hg e).1, (hid g hg e).2] at hi
      exact hi))
    (fun g hg e i hi => by
      rw [(hid g hg e).1] at hi
      rw [(hid g hg e).2]
      exact h.ud g hg i hi)
    ⟨h.polls.len, fun l hl x hx => live_set hn (fun g hg e i _ =>
      ⟨fun k => by rw [(hid g hg e).1]; exact k, fun k => by rw [(hid g hg e).2]; exact k⟩) (h.polls.live l hl x hx),
      h.polls.uniq⟩ hP hul
  exact this

theorem nodup_map_filter {l : List PollNode} (p : PollNode → Bool) (h : (l.map PollNode.fn).Nodup) :
    ((l.filter p).map PollNode.fn).Nodup :=
  List.Nodup.sublist (List.Sublist.map _ List.filter_sublist) h

/-- Fewer reservations. -/
theorem polls_filter {b : Bool} {es es' : List Gre} {p : List (List PollNode)} (q : PollNode → Bool)
    (h : PollsOk b es p) (hl : ∀ x, q x = true → Live b es x → Live b es' x) :
    PollsOk b es' (p.map fun l => l.filter q) := by
  refine ⟨by rw [List.length_map]; exact h.len, ?_, ?_⟩
  · intro l hl' x hx
    obtain ⟨l0, h0, rfl⟩ := List.mem_map.1 hl'
    obtain ⟨hx1, hx2⟩ := List.mem_filter.1 hx
    exact hl x hx2 (h.live l0 h0 x hx1)
  · intro l hl'
    obtain ⟨l0, h0, rfl⟩ := List.mem_map.1 hl'
    exact nodup_map_filter q (h.uniq l0 h0)

theorem polls_mono {b : Bool} {es es' : List Gre} {p : List (List PollNode)} (h : PollsOk b es p)
    (hl : ∀ x, Live b es x → Live b es' x) : PollsOk b es' p :=
  ⟨h.len, fun l hl' x hx => hl x (h.live l hl' x hx), h.uniq⟩

theorem ulFreed_n (g : Gre) (id : Nat) : (g.ulFreed id).n = g.n := by
  unfold Gre.ulFreed
  split
  · split <;> rfl
  · rfl

theorem dlFreed_n (g : Gre) (id : Nat) : (g.dlFreed id).n = g.n := by
  unfold Gre.dlFreed
  split
  · split <;> rfl
  · rfl

theorem ulFreed_ids (g : Gre) (id : Nat) :
    (g.ulFreed id).dlId = g.dlId ∧ (g.ulFreed id).ulId = if g.ulId = some id then none else g.ulId := by
  unfold Gre.ulFreed Gre.ulId Gre.dlId
  split
  · rename_i i t e
    rw [e]
    by_cases h : i = id
    · simp [h]
    · simp [h, e]
  · rename_i e
    simp [e]

theorem dlFreed_ids (g : Gre) (id : Nat) :
    (g.dlFreed id).ulId = g.ulId ∧ (g.dlFreed id).dlId = if g.dlId = some id then none else g.dlId := by
  unfold Gre.dlFreed Gre.ulId Gre.dlId
  split
  · rename_i d e
    rw [e]
    by_cases h : d.id = id
    · simp [h]
    · simp [h, e]
  · rename_i e
    simp [e]

theorem ulFreed_ul {g : Gre} {id i : Nat} {t : UlTbf} (h : (g.ulFreed id).ul = some (i, t)) : g.ul = some (i, t) := by
  unfold Gre.ulFreed at h
  split at h
  · split at h
    · cases h
    · exact h
  · exact h

theorem dlFreed_ul (g : Gre) (id : Nat) : (g.dlFreed id).ul = g.ul := by
  unfold Gre.dlFreed
  split
  · split <;> rfl
  · rfl

/-- Freeing an uplink TBF keeps the invariant. -/
theorem wf_freeUl {b : Bool} {P : UlTbf → Prop} {s : Ctx} (h : s.WF b P) (n id : Nat) : (s.freeUl n id).WF b P := by
  refine wf_update h n (·.ulFreed id) s.tbfs _ (Nat.le_refl _) (fun g => ulFreed_n g id) ?_ ?_ ?_ (fun _ h => h) ?_
  · intro g _ _ i hi
    left
    unfold Gre.Has at hi ⊢
    rw [(ulFreed_ids g id).1, (ulFreed_ids g id).2] at hi
    rcases hi with hi | hi
    · split at hi
      · cases hi
      · exact .inl hi
    · exact .inr hi
  · intro g hg _ i hi
    rw [(ulFreed_ids g id).2] at hi
    rw [(ulFreed_ids g id).1]
    split at hi
    · cases hi
    · exact h.ud g hg i hi
  · refine polls_filter _ h.polls fun x hq hx => live_set (fun g => ulFreed_n g id) (fun g _ _ i hi => ?_) hx
    rw [(ulFreed_ids g id).1, (ulFreed_ids g id).2]
    refine ⟨fun k => ?_, fun k => k⟩
    rw [if_neg]
    · exact k
    · intro e
      rw [e] at k
      cases k
      simp [hi] at hq
  · intro g hg _ i t hi
    exact h.ulp g hg i t (ulFreed_ul hi)

/-- Freeing a downlink TBF keeps the invariant. -/
theorem wf_freeDl {b : Bool} {P : UlTbf → Prop} {s : Ctx} (h : s.WF b P) (n id : Nat) : (s.freeDl n id).WF b P := by
  refine wf_update h n (·.dlFreed id) s.tbfs _ (Nat.le_refl _) (fun g => dlFreed_n g id) ?_ ?_ ?_ (fun _ h => h) ?_
  · intro g _ _ i hi
    left
    unfold Gre.Has at hi ⊢
    rw [(dlFreed_ids g id).1, (dlFreed_ids g id).2] at hi
    rcases hi with hi | hi
    · exact .inl hi
    · split at hi
      · cases hi
      · exact .inr hi
  · intro g hg _ i hi
    rw [(dlFreed_ids g id).1] at hi
    rw [(dlFreed_ids g id).2]
    split
    · exact fun k => by cases k
    · exact h.ud g hg i hi
  · refine polls_filter _ h.polls fun x hq hx => live_set (fun g => dlFreed_n g id) (fun g _ _ i hi => ?_) hx
    rw [(dlFreed_ids g id).1, (dlFreed_ids g id).2]
    refine ⟨fun k => k, fun k => ?_⟩
    rw [if_neg]
    · exact k
    · intro e
      rw [e] at k
      cases k
      simp [hi] at hq
  · intro g hg _ i t hi
    rw [dlFreed_ul] at hi
    exact h.ulp g hg i t hi

/-- An event of an uplink TBF keeps the invariant. -/
theorem wf_putUl {b : Bool} {P P' : UlTbf → Prop} {s : Ctx} (h : s.WF b P) {n id : Nat} {r : Option UlTbf}
    (hP : ∀ t, P t → P' t) (hr : ∀ t, r = some t → P' t) (hid : ∀ g ∈ s.es, g.n = n → g.ulId = some id) :
    (s.putUl n id r).WF b P' := by
  cases r with
  | none => exact ⟨(wf_freeUl h n id).nd, (wf_freeUl h n id).lt, (wf_freeUl h n id).idlt, (wf_freeUl h n id).uu,
      (wf_freeUl h n id).ud, (wf_freeUl h n id).polls, fun g hg i t e => hP _ ((wf_freeUl h n id).ulp g hg i t e)⟩
  | some t =>
    refine wf_set h n _ (fun _ => rfl) (fun g hg e => ⟨?_, rfl⟩) hP (fun g _ _ i t' e => ?_)
    · rw [hid g hg e]; rfl
    · simp only [Option.some.injEq, Prod.mk.injEq] at e
      exact hr t' (by rw [e.2])

/-- A new uplink TBF in the place of none, or of one whose reservations are dropped. -/
theorem wf_newUl {b : Bool} {P : UlTbf → Prop} {s : Ctx} (h : s.WF b P) {n : Nat} {t : UlTbf} (ht : P t)
    (p : List (List PollNode)) (hp : ∀ i, (∀ g ∈ s.es, g.n = n → g.ulId = none ∨ g.ulId = some i) →
      p = s.polls ∧ (∀ g ∈ s.es, g.n = n → g.ulId = none) ∨ p = dropTbf i s.polls)
    (i : Nat) (hi : ∀ g ∈ s.es, g.n = n → g.ulId = none ∨ g.ulId = some i) :
    ({ s.putUl n s.tbfs (some t) with tbfs := s.tbfs + 1, polls := p } : Ctx).WF b P := by
  refine wf_update h n _ (s.tbfs + 1) p (Nat.le_succ _) (fun _ => rfl) ?_ ?_ ?_ (fun _ => id) ?_
  · intro g _ _ j hj
    rcases hj with hj | hj
    · simp only [Gre.ulId, Option.map_some, Option.some.injEq] at hj
      exact .inr ⟨by omega, by omega⟩
    · exact .inl (.inr hj)
  · intro g hg _ j hj k
    simp only [Gre.ulId, Option.map_some, Option.some.injEq] at hj
    have := h.idlt g hg j (.inr k)
    omega
  · rcases hp i hi with ⟨rfl, hz⟩ | rfl
    · refine polls_mono h.polls fun x hx => live_set (fun _ => rfl) (fun g hg e j hj => ?_) hx
      exact ⟨fun k => by (rw [hz g hg e] at k; cases k), fun k => k⟩
    · refine polls_filter _ h.polls fun x hq hx => live_set (fun _ => rfl) (fun g hg e j hj => ?_) hx
      refine ⟨fun k => ?_, fun k => k⟩
      rcases hi g hg e with z | z
      · rw [z] at k; cases k
      · rw [z] at k
        cases k
        simp [hj] at hq
  · intro g _ _ j t' e
    simp only [Option.some.injEq, Prod.mk.injEq] at e
    rw [← e.2]; exact ht

/-- The downlink assignment completes. -/
theorem wf_complDl {b : Bool} {P : UlTbf → Prop} {s : Ctx} (h : s.WF b P) {g : Gre}
    (hg : ∀ g' ∈ s.es, g'.n = g.n → g'.dlId = g.dlId) : (s.complDl g).1.WF b P := by
  refine wf_update h g.n _ (s.tbfs + 1) _ (Nat.le_succ _) (fun _ => rfl) ?_ ?_ ?_ (fun _ => id) ?_
  · intro g' _ _ j hj
    rcases hj with hj | hj
    · exact .inl (.inl hj)
    · simp only [Gre.dlId, Option.map_some, Option.some.injEq] at hj
      exact .inr ⟨by omega, by omega⟩
  · intro g' hg' _ j hj k
    simp only [Gre.dlId, Option.map_some, Option.some.injEq] at k
    have := h.idlt g' hg' j (.inl hj)
    omega
  · cases e : g.dl with
    | none =>
      refine polls_mono h.polls fun x hx => live_set (fun _ => rfl) (fun g' hg' e' j _ => ⟨fun k => k, fun k => ?_⟩) hx
      rw [hg g' hg' e', Gre.dlId, e] at k
      cases k
    | some d =>
      refine polls_filter _ h.polls fun x hq hx => live_set (fun _ => rfl) (fun g' hg' e' j hj => ⟨fun k => k, fun k => ?_⟩) hx
      rw [hg g' hg' e', Gre.dlId, e] at k
      simp only [Option.map_some, Option.some.injEq] at k
      subst k
      simp [hj] at hq
  · intro g' hg' _ j t hj
    exact h.ulp g' hg' j t hj

/-- A change of the reservations only. -/
theorem wf_polls {b : Bool} {P : UlTbf → Prop} {s : Ctx} (h : s.WF b P) (p : List (List PollNode))
    (hp : PollsOk b s.es p) : ({ s with polls := p } : Ctx).WF b P :=
  ⟨h.nd, h.lt, h.idlt, h.uu, h.ud, hp, h.ulp⟩

theorem polls_set {b : Bool} {es : List Gre} {p : List (List PollNode)} (h : PollsOk b es p) (ts : Nat)
    (l : List PollNode) (hl : ∀ x ∈ l, Live b es x) (hu : (l.map PollNode.fn).Nodup) : PollsOk b es (p.set ts l) := by
  refine ⟨by rw [List.length_set]; exact h.len, ?_, ?_⟩
  · intro l' hl' x hx
    rcases List.mem_or_eq_of_mem_set hl' with h1 | rfl
    · exact h.live l' h1 x hx
    · exact hl x hx
  · intro l' hl'
    rcases List.mem_or_eq_of_mem_set hl' with h1 | rfl
    · exact h.uniq l' h1
    · exact hu

theorem getD_polls {b : Bool} {es : List Gre} {p : List (List PollNode)} (h : PollsOk b es p) (ts : Nat) :
    (∀ x ∈ p.getD ts [], Live b es x) ∧ ((p.getD ts []).map PollNode.fn).Nodup := by
  rw [List.getD_eq_getElem?_getD]
  cases e : p[ts]? with
  | none => exact ⟨fun x hx => by simp at hx, by simp⟩
  | some l => exact ⟨h.live l (List.mem_of_getElem? e), h.uniq l (List.mem_of_getElem? e)⟩

theorem wf_reserve {b : Bool} {P : UlTbf → Prop} {s s' : Ctx} (h : s.WF b P) {ts fn : Nat} {r : PollReason}
    {o : PollOwner} (hl : Live b s.es ⟨fn, r, o⟩) (e : s.reserve ts fn r o = .ok s') : s'.WF b P := by
  unfold Ctx.reserve at e
  split at e
  · cases e
  · rename_i l hl'
    split at e
    · cases e; exact h
    · rename_i hno
      cases e
      refine wf_polls h _ (polls_set h.polls ts _ ?_ ?_)
      · intro x hx
        rcases List.mem_append.1 hx with h1 | h1
        · exact h.polls.live l (List.mem_of_getElem? hl') x h1
        · rw [List.mem_singleton.1 h1]; exact hl
      · rw [List.map_append, List.nodup_append]
        refine ⟨h.polls.uniq l (List.mem_of_getElem? hl'), by simp, ?_⟩
        intro a ha c hc
        simp only [List.map_cons, List.map_nil, List.mem_singleton] at hc
        obtain ⟨x, hx, rfl⟩ := List.mem_map.1 ha
        intro he
        apply hno
        rw [List.any_eq_true]
        exact ⟨x, hx, by simp [he, hc]⟩

theorem reserve_es {s s' : Ctx} {ts fn : Nat} {r : PollReason} {o : PollOwner} (e : s.reserve ts fn r o = .ok s') :
    s'.es = s.es ∧ s'.made = s.made ∧ s'.tbfs = s.tbfs := by
  unfold Ctx.reserve at e
  split at e
  · cases e
  · split at e
    · cases e; exact ⟨rfl, rfl, rfl⟩
    · cases e; exact ⟨rfl, rfl, rfl⟩

theorem wf_reserveAll {b : Bool} {P : UlTbf → Prop} {r : PollReason} {o : PollOwner} (outs : List UlOut) :
    ∀ {s s' : Ctx}, s.WF b P → ((∃ fn tn, UlOut.poll fn tn ∈ outs) → ∀ fn, Live b s.es ⟨fn, r, o⟩) →
      s.reserveAll r o outs = .ok s' → s'.WF b P := by
  induction outs with
  | nil => intro s s' h _ e; simp only [Ctx.reserveAll, Res.ok.injEq] at e; subst e; exact h
  | cons a outs ih =>
    intro s s' h hl e
    have next : s.reserveAll r o outs = .ok s' → s'.WF b P :=
      ih h (fun ⟨fn, tn, hm⟩ => hl ⟨fn, tn, List.mem_cons_of_mem _ hm⟩)
    cases a with
    | poll fn tn =>
      simp only [Ctx.reserveAll] at e
      split at e
      · rename_i s1 h1
        have hl' := hl ⟨fn, tn, List.mem_cons_self⟩
        refine ih (wf_reserve h (hl' fn) h1) (fun _ fn' => ?_) e
        rw [(reserve_es h1).1]
        exact hl' fn'
      · cases e
      · cases e
    | rach => exact next e
    | resReq => exact next e
    | ctrlAck => exact next e
    | data => exact next e
    | dummy => exact next e

end Verif.Rlc
