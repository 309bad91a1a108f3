import Verif.Rlc.SchedLemmas

/-!
# The RLC/MAC context: what events leave as it is
-/
namespace Verif.Rlc
open Verif Verif.Spec

/-- The entity has a TBF. -/
def Gre.busy (g : Gre) : Bool := g.ul.isSome || g.dl.isSome

/-- The timer for the release of the PDCH: it goes on running, and runs when the last TBF goes. -/
def Idling (g g' : Gre) : Prop :=
  (g.idle = true → g'.idle = true) ∧ (g.busy = true → g'.busy = false → g'.idle = true)

/-- The same, and the downlink assignment is as it was. -/
def Calm (g g' : Gre) : Prop := g'.ass = g.ass ∧ Idling g g'

/-- Of every downlink assignment: it waits on timeslot 0, and it is reset when it does not wait. -/
def AssOk (a : DlAss) : Prop := a.tsNr = 0 ∧ (a.waiting = false → a = .idle)

/-- Of all entities. -/
def AssInv (s : Ctx) : Prop := ∀ g ∈ s.es, AssOk g.ass

/-- From `s` to `s'` entities change as in `A`, and only those in `N`; reservations but those in `Q` stay, or lose their
TBF. -/
structure Moves (A : Gre → Gre → Prop) (N : Nat → Prop) (Q : Nat → PollNode → Prop) (s s' : Ctx) : Prop where
  tb : s.tbfs ≤ s'.tbfs
  fwd : ∀ g ∈ s.es, ∃ g' ∈ s'.es, g'.n = g.n ∧ A g g' ∧ (¬ N g.n → g' = g)
  old : ∀ g' ∈ s'.es, ¬ N g'.n → g' ∈ s.es
  has : ∀ g' ∈ s'.es, ∀ i, g'.Has i → i < s.tbfs → ∃ g ∈ s.es, g.n = g'.n ∧ g.Has i
  polls : ∀ ts x, x ∈ s.polls.getD ts [] → (∀ i, x.owner = .tbf i → i < s.tbfs) → ¬ Q ts x →
    x ∈ s'.polls.getD ts [] ∨ ∃ i, x.owner = .tbf i ∧ ∀ g ∈ s'.es, ¬ g.Has i
  inv : AssInv s → AssInv s'

theorem Idling.refl (g : Gre) : Idling g g := ⟨fun h => h, fun h h' => by rw [h] at h'; cases h'⟩
theorem Calm.refl (g : Gre) : Calm g g := ⟨rfl, .refl g⟩

theorem Idling.trans {a b c : Gre} (h : Idling a b) (h' : Idling b c) : Idling a c := by
  refine ⟨fun x => h'.1 (h.1 x), fun x y => ?_⟩
  cases e : b.busy with
  | true => exact h'.2 e y
  | false => exact h'.1 (h.2 x e)

theorem Calm.trans {a b c : Gre} (h : Calm a b) (h' : Calm b c) : Calm a c := ⟨h'.1.trans h.1, h.2.trans h'.2⟩

theorem calm_trans (a b c : Gre) (h : Calm a b) (h' : Calm b c) : Calm a c := h.trans h'
theorem idling_trans (a b c : Gre) (h : Idling a b) (h' : Idling b c) : Idling a c := h.trans h'

section moves
variable {A : Gre → Gre → Prop} {N : Nat → Prop} {Q : Nat → PollNode → Prop}

theorem Moves.refl (hA : ∀ g, A g g) (s : Ctx) : Moves A N Q s s :=
  ⟨Nat.le_refl _, fun g hg => ⟨g, hg, rfl, hA g, fun _ => rfl⟩, fun _ h _ => h, fun g hg i hi _ => ⟨g, hg, rfl, hi⟩,
    fun _ _ h _ _ => .inl h, fun h => h⟩

theorem Moves.trans (hA : ∀ a b c, A a b → A b c → A a c) {s s1 s2 : Ctx} (h : Moves A N Q s s1) (h' : Moves A N Q s1 s2) :
    Moves A N Q s s2 := by
  refine ⟨Nat.le_trans h.tb h'.tb, fun g hg => ?_, fun g hg hn => h.old g (h'.old g hg hn) hn, fun g hg i hi hl => ?_,
    fun ts x hx hl hq => ?_, fun hi => h'.inv (h.inv hi)⟩
  · obtain ⟨g1, h1, n1, a1, e1⟩ := h.fwd g hg
    obtain ⟨g2, h2, n2, a2, e2⟩ := h'.fwd g1 h1
    exact ⟨g2, h2, n2.trans n1, hA _ _ _ a1 a2, fun hn => (e2 (by rw [n1]; exact hn)).trans (e1 hn)⟩
  · obtain ⟨g1, h1, n1, i1⟩ := h'.has g hg i hi (Nat.lt_of_lt_of_le hl h.tb)
    obtain ⟨g0, h0, n0, i0⟩ := h.has g1 h1 i i1 hl
    exact ⟨g0, h0, n0.trans n1, i0⟩
  · rcases h.polls ts x hx hl hq with h1 | ⟨i, ho, h1⟩
    · exact h'.polls ts x h1 (fun i ho => Nat.lt_of_lt_of_le (hl i ho) h.tb) hq
    · refine .inr ⟨i, ho, fun g hg hi => ?_⟩
      obtain ⟨g1, m1, -, i1⟩ := h'.has g hg i hi (Nat.lt_of_lt_of_le (hl i ho) h.tb)
      exact h1 g1 m1 i1

theorem Moves.mono {A' : Gre → Gre → Prop} {N' : Nat → Prop} {Q' : Nat → PollNode → Prop} (hA : ∀ g g', A g g' → A' g g')
    (hN : ∀ n, N n → N' n) (hQ : ∀ ts x, Q ts x → Q' ts x) {s s' : Ctx} (h : Moves A N Q s s') : Moves A' N' Q' s s' := by
  refine ⟨h.tb, fun g hg => ?_, fun g hg hn => h.old g hg (fun x => hn (hN _ x)), h.has,
    fun ts x hx hl hq => h.polls ts x hx hl (fun y => hq (hQ _ _ y)), h.inv⟩
  obtain ⟨g1, h1, n1, a1, e1⟩ := h.fwd g hg
  exact ⟨g1, h1, n1, hA _ _ a1, fun hn => e1 (fun x => hn (hN _ x))⟩

/-- A change of one entity. -/
theorem moves_set (hA : ∀ g, A g g) {s : Ctx} {n : Nat} (hn : N n) {f : Gre → Gre} {tb : Nat} {p : List (List PollNode)}
    (htb : s.tbfs ≤ tb) (hf : ∀ g, (f g).n = g.n) (hAf : ∀ g ∈ s.es, g.n = n → A g (f g))
    (hi : ∀ g ∈ s.es, g.n = n → AssOk g.ass → AssOk (f g).ass)
    (hid : ∀ g ∈ s.es, g.n = n → ∀ i, (f g).Has i → g.Has i ∨ s.tbfs ≤ i)
    (hp : ∀ ts x, x ∈ s.polls.getD ts [] → (∀ i, x.owner = .tbf i → i < s.tbfs) → ¬ Q ts x →
      x ∈ p.getD ts [] ∨ ∃ i, x.owner = .tbf i ∧ ∀ g ∈ (s.setGre n f).es, ¬ g.Has i) :
    Moves A N Q s { s.setGre n f with tbfs := tb, polls := p } := by
  refine ⟨htb, fun g hg => ?_, fun g hg hnn => ?_, fun g hg i hi hl => ?_, hp, fun ha g hg => ?_⟩
  · refine ⟨if g.n = n then f g else g, mem_setGre.2 ⟨g, hg, rfl⟩, ?_, ?_, fun hne => ?_⟩
    · split
      · exact hf g
      · rfl
    · split
      · rename_i e; exact hAf g hg e
      · exact hA g
    · rw [if_neg (fun (e : g.n = n) => hne (by rw [e]; exact hn))]
  · obtain ⟨g0, h0, rfl⟩ := mem_setGre.1 hg
    by_cases e : g0.n = n
    · rw [if_pos e] at hnn
      rw [hf, e] at hnn
      exact absurd hn hnn
    · rw [if_neg e]; exact h0
  · obtain ⟨g0, h0, rfl⟩ := mem_setGre.1 hg
    refine ⟨g0, h0, ?_, ?_⟩
    · split
      · exact (hf g0).symm
      · rfl
    · split at hi
      · rename_i e
        rcases hid g0 h0 e i hi with h1 | h1
        · exact h1
        · omega
      · exact hi
  · obtain ⟨g0, h0, rfl⟩ := mem_setGre.1 hg
    split
    · rename_i e; exact hi g0 h0 e (ha g0 h0)
    · exact ha g0 h0

theorem kept_dropTbf {p : List (List PollNode)} {id ts : Nat} {x : PollNode} (h : x ∈ p.getD ts []) (hx : x.owner ≠ .tbf id) :
    x ∈ (dropTbf id p).getD ts [] := by
  rw [List.getD_eq_getElem?_getD] at h ⊢
  rw [dropTbf, List.getElem?_map]
  cases e : p[ts]? with
  | none => rw [e] at h; simp at h
  | some l =>
    rw [e] at h
    simp only [Option.map_some, Option.getD_some] at h ⊢
    exact List.mem_filter.2 ⟨h, by simpa using hx⟩

/-- Reservations after those of a TBF were dropped that no entity has any more. -/
theorem polls_drop {p : List (List PollNode)} {es : List Gre} {id ts : Nat} {x : PollNode} (h : x ∈ p.getD ts [])
    (hg : ∀ g ∈ es, ¬ g.Has id) : x ∈ (dropTbf id p).getD ts [] ∨ ∃ i, x.owner = .tbf i ∧ ∀ g ∈ es, ¬ g.Has i := by
  by_cases e : x.owner = .tbf id
  · exact .inr ⟨id, e, hg⟩
  · exact .inl (kept_dropTbf h e)

end moves

abbrev Ctx.W (s : Ctx) : Prop := s.WF false (fun _ => True)

section calm
variable {N : Nat → Prop} {Q : Nat → PollNode → Prop}

theorem ulFreed_calm (g : Gre) (id : Nat) : Calm g (g.ulFreed id) := by
  unfold Gre.ulFreed
  split
  · rename_i i t e
    split
    · refine ⟨rfl, fun h => by simp [h], fun h h' => ?_⟩
      have : g.dl = none := by
        simp only [Gre.busy, Option.isSome_none, Bool.false_or] at h'
        cases hd : g.dl with
        | none => rfl
        | some d => rw [hd] at h'; cases h'
      simp [this]
    · exact .refl g
  · exact .refl g

theorem dlFreed_calm (g : Gre) (id : Nat) : Calm g (g.dlFreed id) := by
  unfold Gre.dlFreed
  split
  · rename_i d e
    split
    · refine ⟨rfl, fun h => by simp [h], fun h h' => ?_⟩
      have : g.ul = none := by
        simp only [Gre.busy, Option.isSome_none, Bool.or_false] at h'
        cases hd : g.ul with
        | none => rfl
        | some d => rw [hd] at h'; cases h'
      simp [this]
    · exact .refl g
  · exact .refl g

theorem mv_freeUl {s : Ctx} (h : s.W) {n id : Nat} (hn : N n) (hid : ∀ g ∈ s.es, g.n = n → g.ulId = some id) (hex : ∃ g ∈ s.es, g.n = n) :
    Moves Calm N Q s (s.freeUl n id) := by
  refine moves_set Calm.refl hn (Nat.le_refl _) (fun g => ulFreed_n g id) (fun g _ _ => ulFreed_calm g id)
    (fun g _ _ h => by rw [(ulFreed_calm g id).1]; exact h) ?_ ?_
  · intro g _ _ i hi
    left
    unfold Gre.Has at hi ⊢
    rw [(ulFreed_ids g id).1, (ulFreed_ids g id).2] at hi
    rcases hi with hi | hi
    · split at hi
      · cases hi
      · exact .inl hi
    · exact .inr hi
  · intro ts x hx _ _
    refine polls_drop hx fun g hg hi => ?_
    obtain ⟨g1, h1, n1⟩ := hex
    obtain ⟨g0, h0, rfl⟩ := mem_setGre.1 hg
    by_cases e : g0.n = n
    · rw [if_pos e] at hi
      unfold Gre.Has at hi
      rw [(ulFreed_ids g0 id).1, (ulFreed_ids g0 id).2, hid g0 h0 e] at hi
      rcases hi with hi | hi
      · simp at hi
      · exact h.ud g0 h0 id (hid g0 h0 e) hi
    · rw [if_neg e] at hi
      exact e ((h.uu g0 h0 g1 h1 id hi (.inl (hid g1 h1 n1))).trans n1)

theorem mv_freeDl {s : Ctx} (h : s.W) {n id : Nat} (hn : N n) (hid : ∀ g ∈ s.es, g.n = n → g.dlId = some id) (hex : ∃ g ∈ s.es, g.n = n) :
    Moves Calm N Q s (s.freeDl n id) := by
  refine moves_set Calm.refl hn (Nat.le_refl _) (fun g => dlFreed_n g id) (fun g _ _ => dlFreed_calm g id)
    (fun g _ _ h => by rw [(dlFreed_calm g id).1]; exact h) ?_ ?_
  · intro g _ _ i hi
    left
    unfold Gre.Has at hi ⊢
    rw [(dlFreed_ids g id).1, (dlFreed_ids g id).2] at hi
    rcases hi with hi | hi
    · exact .inl hi
    · split at hi
      · cases hi
      · exact .inr hi
  · intro ts x hx _ _
    refine polls_drop hx fun g hg hi => ?_
    obtain ⟨g1, h1, n1⟩ := hex
    obtain ⟨g0, h0, rfl⟩ := mem_setGre.1 hg
    by_cases e : g0.n = n
    · rw [if_pos e] at hi
      unfold Gre.Has at hi
      rw [(dlFreed_ids g0 id).1, (dlFreed_ids g0 id).2, hid g0 h0 e] at hi
      rcases hi with hi | hi
      · exact h.ud g0 h0 id hi (hid g0 h0 e)
      · simp at hi
    · rw [if_neg e] at hi
      exact e ((h.uu g0 h0 g1 h1 id hi (.inr (hid g1 h1 n1))).trans n1)

theorem mv_putUl {s : Ctx} (h : s.W) {g : Gre} (hg : g ∈ s.es) (hn : N g.n) {id : Nat} {t : UlTbf} (hu : g.ul = some (id, t))
    (r : Option UlTbf) : Moves Calm N Q s (s.putUl g.n id r) := by
  have hid : ∀ g' ∈ s.es, g'.n = g.n → g'.ulId = some id := fun g' hg' e => by rw [h.only hg g' hg' e]; exact ulId_of hu
  cases r with
  | none => exact mv_freeUl h hn hid ⟨g, hg, rfl⟩
  | some t' =>
    refine moves_set Calm.refl hn (Nat.le_refl _) (fun _ => rfl) (fun g' hg' e => ⟨rfl, fun x => x, fun _ x => ?_⟩) (fun _ _ _ h => h) ?_
      (fun _ _ hx _ _ => .inl hx)
    · simp [Gre.busy] at x
    · intro g' hg' e i hi
      left
      rcases hi with hi | hi
      · have hi : some id = some i := hi
        exact .inl ((hid g' hg' e).trans hi)
      · exact .inr hi

/-- A new uplink TBF. -/
theorem mv_newUl {s : Ctx} {n : Nat} (hn : N n) (t : UlTbf) {p : List (List PollNode)}
    (hp : ∀ ts x, x ∈ s.polls.getD ts [] → (∀ i, x.owner = .tbf i → i < s.tbfs) → ¬ Q ts x →
      x ∈ p.getD ts [] ∨ ∃ i, x.owner = .tbf i ∧ ∀ g ∈ (s.setGre n fun g => { g with ul := some (s.tbfs, t) }).es, ¬ g.Has i) :
    Moves Calm N Q s { s.putUl n s.tbfs (some t) with tbfs := s.tbfs + 1, polls := p } := by
  refine moves_set Calm.refl hn (Nat.le_succ _) (fun _ => rfl) (fun g' hg' e => ⟨rfl, fun x => x, fun _ x => ?_⟩) (fun _ _ _ h => h) ?_ hp
  · simp [Gre.busy] at x
  · intro g' _ _ i hi
    rcases hi with hi | hi
    · have hi : some s.tbfs = some i := hi
      cases hi
      exact .inr (Nat.le_refl _)
    · exact .inl (.inr hi)

/-- Only the reservations change. -/
theorem mv_polls {A : Gre → Gre → Prop} (hA : ∀ g, A g g) {s : Ctx} {p : List (List PollNode)}
    (hp : ∀ ts x, x ∈ s.polls.getD ts [] → ¬ Q ts x → x ∈ p.getD ts []) :
    Moves A N Q s { s with polls := p } :=
  ⟨Nat.le_refl _, fun g hg => ⟨g, hg, rfl, hA g, fun _ => rfl⟩, fun _ h _ => h, fun g hg i hi _ => ⟨g, hg, rfl, hi⟩,
    fun ts x h _ hq => .inl (hp ts x h hq), fun h => h⟩

theorem getD_set {p : List (List PollNode)} {ts ts' : Nat} {l : List PollNode} :
    (p.set ts l).getD ts' [] = if ts = ts' ∧ ts < p.length then l else p.getD ts' [] := by
  simp only [List.getD_eq_getElem?_getD, List.getElem?_set]
  by_cases e : ts = ts'
  · subst e
    by_cases h : ts < p.length
    · simp [h]
    · simp [h]
  · simp [e]

theorem mv_reserve {A : Gre → Gre → Prop} (hA : ∀ g, A g g) {s s' : Ctx} {ts fn : Nat} {r : PollReason} {o : PollOwner}
    (e : s.reserve ts fn r o = .ok s') : Moves A N Q s s' := by
  unfold Ctx.reserve at e
  split at e
  · cases e
  · rename_i l hl
    split at e
    · cases e; exact .refl hA s
    · cases e
      refine mv_polls hA fun ts' x hx _ => ?_
      rw [getD_set]
      split
      · rename_i h
        rw [← h.1, List.getD_eq_getElem?_getD, hl] at hx
        exact List.mem_append_left _ hx
      · exact hx

theorem mv_reserveAll {A : Gre → Gre → Prop} (hA : ∀ g, A g g) (hT : ∀ a b c, A a b → A b c → A a c) {r : PollReason}
    {o : PollOwner} (outs : List UlOut) : ∀ {s s' : Ctx}, s.reserveAll r o outs = .ok s' → Moves A N Q s s' := by
  induction outs with
  | nil => intro s s' e; cases e; exact .refl hA s
  | cons a outs ih =>
    intro s s' e
    cases a with
    | poll fn tn =>
      simp only [Ctx.reserveAll] at e
      split at e
      · rename_i s1 h1
        exact (mv_reserve hA h1).trans hT (ih e)
      · cases e
      · cases e
    | _ => exact ih e

theorem mv_ulEvent {s s' : Ctx} (h : s.W) {g : Gre} (hg : g ∈ s.es) (hn : N g.n) {i : Nat} {t : UlTbf}
    (hu : g.ul = some (i, t)) {r : PollReason} {x : UlR} {o : List CtxOut} (e : s.ulEvent g.n i r x = .ok (s', o)) :
    Moves Calm N Q s s' := by
  unfold Ctx.ulEvent at e
  split at e
  · split at e
    · rename_i s1 h1
      cases e
      exact (mv_putUl h hg hn hu _).trans calm_trans (mv_reserveAll Calm.refl calm_trans _ h1)
    · cases e
    · cases e
  · cases e
  · cases e

/-! ## The selection of a block -/

theorem mv_ulAssMsg {s : Ctx} (h : s.W) (hN : ∀ n, N n) (o : Avail) (n : Nat) : Moves Calm N Q s (s.ulAssMsg o n).1 := by
  unfold Ctx.ulAssMsg
  split
  · exact .refl Calm.refl s
  · rename_i g hg
    obtain ⟨hm, rfl⟩ := gre?_mem hg
    split
    · exact .refl Calm.refl s
    · rename_i id t hu
      simp only []
      exact mv_putUl h hm (hN _) hu _

theorem mv_dlAckMsg {s : Ctx} (h : s.W) (hN : ∀ n, N n) (o : Avail) (n ts : Nat) : Moves Calm N Q s (s.dlAckMsg o n ts).1 := by
  unfold Ctx.dlAckMsg
  split
  · exact .refl Calm.refl s
  · rename_i g hg
    obtain ⟨hm, rfl⟩ := gre?_mem hg
    split
    · exact .refl Calm.refl s
    · rename_i d hd
      have m1 : Moves Calm N Q s (if g.wantsUl o then { s.putUl g.n s.tbfs (UlStart.fromDl ts).run.1 with tbfs := s.tbfs + 1 }
          else s : Ctx) := by
        split
        · exact mv_newUl (hN _) _ (fun _ _ hx _ _ => .inl hx)
        · exact .refl Calm.refl s
      have d1 : ∀ g' ∈ (if g.wantsUl o then { s.putUl g.n s.tbfs (UlStart.fromDl ts).run.1 with tbfs := s.tbfs + 1 }
          else s : Ctx).es, g'.n = g.n → g'.dl = some d := by
        intro g' hg' en
        split at hg'
        · obtain ⟨g0, h0, e1, e2, -⟩ := putUl_dl (s := s) (r := (UlStart.fromDl ts).run.1) hg'
          rw [e2, h.only hm g0 h0 (by rw [← e1]; exact en), hd]
        · rw [h.only hm g' hg' en, hd]
      simp only []
      split
      · refine m1.trans calm_trans (moves_set Calm.refl (hN _) (Nat.le_refl _) (fun _ => rfl)
          (fun g' hg' en => ⟨rfl, fun x => x, fun _ x => ?_⟩) (fun _ _ _ h => h) ?_ (fun _ _ hx _ _ => .inl hx))
        · simp [Gre.busy] at x
        · intro g' hg' en i hi
          left
          rcases hi with hi | hi
          · exact .inl hi
          · right
            rw [dlId_of (d1 g' hg' en), ← acked_id]
            exact hi
      · exact m1

theorem mv_newUlMsg {s : Ctx} (h : s.W) (hN : ∀ n, N n) {o : Avail}
    {n id fn ts usf : Nat} (hc : ∃ g ∈ s.es, g.n = n ∧ g.ulId = some id) {r : Ctx × Option (Nat × UlBlk)}
    (e : s.newUlMsg o n id fn ts usf = .ok r) : Moves Calm N Q s r.1 := by
  unfold Ctx.newUlMsg at e
  split at e
  · cases e
  · rename_i g hg
    obtain ⟨hm, rfl⟩ := gre?_mem hg
    split at e
    · cases e
    · rename_i i old hu
      simp only [] at e
      split at e
      · cases e
        obtain ⟨g0, h0, hn, hid⟩ := hc
        have hi : ∀ g' ∈ s.es, g'.n = g.n → g'.ulId = some id := by
          intro g' hg' en
          rw [h.only hm g' hg' en, ← h.only hm g0 h0 hn, hid]
        have hlt : id < s.tbfs := h.idlt g hm id (.inl (hi g hm rfl))
        have w1 : ({ s.putUl g.n s.tbfs (UlStart.fromReleasing old.cur).run.1 with
            tbfs := s.tbfs + 1, polls := dropTbf id s.polls } : Ctx).W :=
          wf_newUl h trivial (dropTbf id s.polls)
          (fun j hj => .inr (by
            have := hj g hm rfl
            rw [hi g hm rfl] at this
            rcases this with x | x
            · cases x
            · cases x; rfl)) id (fun g' hg' en => .inr (hi g' hg' en))
        refine (mv_newUl (hN g.n) _ ?_).trans calm_trans (mv_ulAssMsg w1 hN o g.n)
        intro ts x hx _ _
        refine polls_drop hx fun g' hg' hh => ?_
        obtain ⟨g1, h1, rfl⟩ := mem_setGre.1 hg'
        by_cases e1 : g1.n = g.n
        · rw [if_pos e1] at hh
          rcases hh with hh | hh
          · have hh : some s.tbfs = some id := hh
            cases hh
            exact Nat.lt_irrefl _ hlt
          · exact h.ud g1 h1 id (hi g1 h1 e1) hh
        · rw [if_neg e1] at hh
          exact e1 (h.uu g1 h1 g hm id hh (.inl (hi g hm rfl)))
      · cases e

theorem mv_resReqMsg {s : Ctx} (h : s.W) (hN : ∀ n, N n) (o : Avail) (ua : Option Gre) :
    Moves Calm N Q s (s.resReqMsg o ua).1 := by
  cases ua with
  | none => exact .refl Calm.refl s
  | some g => exact mv_ulAssMsg h hN o g.n

theorem mv_orNext {s : Ctx} {r : Ctx × Option (Nat × UlBlk)} {f : Ctx → Ctx × Option (Nat × UlBlk)} (h : Moves Calm N Q s r.1)
    (w : r.1.W) (hf : ∀ s : Ctx, s.W → Moves Calm N Q s (f s).1) : Moves Calm N Q s (orNext r f).1 := by
  unfold orNext
  split
  · exact h
  · exact h.trans calm_trans (hf _ w)

theorem mv_selectCtrl {env : UlEnv} {s : Ctx} (h : s.W) (hN : ∀ n, N n) {o : Avail}
    {fn ts usf : Nat} {ua : Option Gre} {c : Option Cand} (hc : ∀ c', c = some c' → CandOk s c')
    {r : Ctx × Option (Nat × UlBlk)} (e : s.selectCtrl o fn ts usf ua c = .ok r) : Moves Calm N Q s r.1 := by
  have k := keeping_true env
  have hrr : ∀ s : Ctx, s.W → Moves Calm N Q s (s.resReqMsg o ua).1 := fun s h => mv_resReqMsg h hN o ua
  unfold Ctx.selectCtrl at e
  split at e
  · cases e; exact mv_orNext (mv_dlAckMsg h hN o _ ts) (wf_dlAckMsg k h o _ ts) hrr
  · rename_i n id
    split at e
    · rename_i r' hr
      cases e
      exact mv_orNext (mv_newUlMsg h hN (hc _ rfl) hr) (wf_newUlMsg k (fun _ _ => trivial) h (hc _ rfl) hr) hrr
    · cases e
    · cases e
  · cases e; exact .refl Calm.refl s
  · cases e; exact mv_orNext (.refl Calm.refl s) h hrr
  · cases e; exact mv_orNext (mv_ulAssMsg h hN o _) (wf_ulAssMsg k (fun _ _ => trivial) h o _) hrr
  · cases e
    exact mv_orNext (hrr s h) (wf_resReqMsg k (fun _ _ => trivial) h o ua) (fun s h => mv_dlAckMsg h hN o _ ts)
  · cases e; exact hrr s h

theorem mv_selectData {env : UlEnv} {s : Ctx} (h : s.W) (hN : ∀ n, N n) {o : Avail} {ts usf : Nat} {s' : Ctx}
    {m : Option (Nat × UlBlk)} {ro : List CtxOut} (e : s.selectData env o ts usf = .ok (s', m, ro)) : Moves Calm N Q s s' := by
  unfold Ctx.selectData at e
  split at e
  · cases e; exact .refl Calm.refl s
  · rename_i g hg
    have hm := List.mem_of_find?_eq_some hg
    split at e
    · rename_i id t final hu hb
      split at e
      · rename_i r outs hs
        cases e
        exact mv_putUl h hm (hN _) hu _
      · cases e
      · cases e
    · cases e; exact .refl Calm.refl s

theorem mv_selectDummy {s : Ctx} (h : s.W) (hN : ∀ n, N n) (o : Avail) (ts usf : Nat) :
    Moves Calm N Q s (s.selectDummy o ts usf).1 := by
  unfold Ctx.selectDummy
  split
  · exact .refl Calm.refl s
  · rename_i g hg
    have hm := List.mem_of_find?_eq_some hg
    split
    · exact .refl Calm.refl s
    · rename_i id t hu
      split
      · simp only []
        exact mv_putUl h hm (hN _) hu _
      · exact .refl Calm.refl s

theorem mv_select {env : UlEnv} {s : Ctx} (h : s.W) (hN : ∀ n, N n) {o : Avail} {fn ts usf : Nat} {ua : Option Gre}
    {c : Option Cand} (hc : ∀ c', c = some c' → CandOk s c') {s' : Ctx} {m : Option (Nat × UlBlk)} {ro : List CtxOut}
    (e : s.select env o fn ts usf ua c = .ok (s', m, ro)) : Moves Calm N Q s s' := by
  have k := keeping_true env
  unfold Ctx.select at e
  split at e
  · rename_i s1 m1 h1
    cases e
    exact mv_selectCtrl (env := env) h hN hc h1
  · rename_i s1 h1
    have w1 := wf_selectCtrl k (fun _ _ => trivial) h hc h1
    have m1 : Moves Calm N Q s s1 := mv_selectCtrl (env := env) h hN hc h1
    split at e
    · rename_i s2 m2 ro2 h2
      cases e
      exact m1.trans calm_trans (mv_selectData w1 hN h2)
    · rename_i s2 ro2 h2
      simp only [Res.ok.injEq, Prod.mk.injEq] at e
      rw [← e.1]
      exact (m1.trans calm_trans (mv_selectData w1 hN h2)).trans calm_trans
        (mv_selectDummy (wf_selectData k w1 (fun _ _ _ => trivial) h2).1 hN o ts usf)
    · cases e
    · cases e
  · cases e
  · cases e

end calm

/-- The reservations that a ready-to-send indication uses up: for this block or for one that is past. -/
def UsedUp (fn ts : Nat) (ts' : Nat) (x : PollNode) : Prop := ts' = ts ∧ (x.fn = fn ∨ ¬ fncmp x.fn fn > 0)

theorem mv_takePoll {N : Nat → Prop} {s s' : Ctx} {o : Avail} {ts fn : Nat} {c : Option Cand}
    (e : s.takePoll o ts fn = .ok (s', c)) : Moves Calm N (UsedUp fn ts) s s' := by
  unfold Ctx.takePoll at e
  split at e
  · cases e; exact .refl Calm.refl s
  · rename_i x hx
    have hfn : x.fn = fn := by
      have h0 := List.find?_some hx
      simpa using h0
    split at e
    · cases e
      refine mv_polls Calm.refl fun ts' y hy hq => ?_
      rw [getD_set]
      split
      · rename_i h
        rw [← h.1] at hy
        refine (List.mem_erase_of_ne fun exy => hq ⟨h.1.symm, .inl ?_⟩).2 hy
        rw [exy]; exact hfn
      · exact hy
    · cases e
    · cases e

theorem mv_expire {N : Nat → Prop} (s : Ctx) (ts fn : Nat) : Moves Calm N (UsedUp fn ts) s (s.expire ts fn) := by
  refine mv_polls Calm.refl fun ts' y hy hq => ?_
  rw [getD_set]
  split
  · rename_i h
    rw [← h.1] at hy
    exact List.mem_filter.2 ⟨hy, decide_eq_true (Decidable.byContradiction fun hh => hq ⟨h.1.symm, .inr hh⟩)⟩
  · exact hy

theorem mv_serve {env : UlEnv} {N : Nat → Prop} (hN : ∀ n, N n) {s s' : Ctx} (h : s.W) {o : Avail} {fn ts usf : Nat}
    {out : List CtxOut} (e : s.serve env o fn ts usf = .ok (s', out)) : Moves Calm N (UsedUp fn ts) s s' := by
  unfold Ctx.serve at e
  split at e
  · rename_i s1 c h1
    obtain ⟨w, -, -, hc⟩ := takePoll_wf h h1
    split at e
    · rename_i s2 m ro h2
      cases e
      exact ((mv_takePoll h1).trans calm_trans (mv_select w hN hc h2)).trans calm_trans
        (mv_expire s2 ts fn)
    · cases e
    · cases e
  · cases e
  · cases e

end Verif.Rlc
