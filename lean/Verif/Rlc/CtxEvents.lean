import Verif.Rlc.CtxMoves
import Verif.Spec.CtxMsg

/-!
# The RLC/MAC context: what each event leaves as it is
-/
namespace Verif.Rlc
open Verif Verif.Spec

/-- No reservation. -/
abbrev NoQ : Nat → PollNode → Prop := fun _ _ => False

section
variable {N : Nat → Prop} {Q : Nat → PollNode → Prop}

theorem calm_idling (g g' : Gre) (h : Calm g g') : Idling g g' := h.2

theorem Moves.idling {s s' : Ctx} (h : Moves Calm N Q s s') : Moves Idling N Q s s' :=
  h.mono calm_idling (fun _ h => h) (fun _ _ h => h)

theorem mv_complDl {s : Ctx} (h : s.W) {g : Gre} (hn : N g.n) (hex : ∃ g' ∈ s.es, g'.n = g.n)
    (hg : ∀ g' ∈ s.es, g'.n = g.n → g'.dlId = g.dlId) :
    Moves (fun g1 g2 => Idling g1 g2 ∧ (g1.n ≠ g.n → Calm g1 g2)) N Q s (s.complDl g).1 := by
  refine moves_set (fun g => ⟨.refl g, fun _ => .refl g⟩) hn (Nat.le_succ _) (fun _ => rfl)
    (fun g' hg' e => ⟨⟨fun x => x, fun _ x => ?_⟩, fun x => absurd e x⟩) (fun _ _ _ _ => ⟨rfl, fun _ => rfl⟩) ?_ ?_
  · simp [Gre.busy] at x
  · intro g' _ _ i hi
    rcases hi with hi | hi
    · exact .inl (.inl hi)
    · have hi : some s.tbfs = some i := hi
      cases hi
      exact .inr (Nat.le_refl _)
  · intro ts x hx _ _
    cases hd : g.dl with
    | none => exact .inl hx
    | some d =>
      refine polls_drop hx fun g' hg' hi => ?_
      obtain ⟨g1, h1, n1⟩ := hex
      obtain ⟨g0, h0, rfl⟩ := mem_setGre.1 hg'
      have dd : ∀ g' ∈ s.es, g'.n = g.n → g'.dlId = some d.id := fun g' hg' e => by rw [hg g' hg' e]; exact dlId_of hd
      by_cases e : g0.n = g.n
      · rw [if_pos e] at hi
        rcases hi with hi | hi
        · exact h.ud g0 h0 d.id hi (dd g0 h0 e)
        · have hi : some s.tbfs = some d.id := hi
          have hl := h.idlt g0 h0 _ (.inr (dd g0 h0 e))
          rw [Option.some.inj hi] at hl
          exact Nat.lt_irrefl _ hl
      · rw [if_neg e] at hi
        exact e ((h.uu g0 h0 g1 h1 d.id hi (.inr (dd g1 h1 n1))).trans n1)

/-- What a downlink assignment comes to. -/
theorem dlAssign_eq {env : UlEnv} {s : Ctx} {g : Gre} {m : DlAssMsg} {fn : Nat} {a : DlAss} (ha : g.ass.take env m fn = .ok a) :
    s.dlAssign env g m fn =
      if a.startExists = true ∧ fncmp a.startFn fn > 0 then
        .ok (s.setGre g.n fun g => { g with ass := { a with waiting := true } }, [])
      else .ok ({ s.setGre g.n fun g => { g with dl := some ⟨s.tbfs, .flow, a.alloc, true, false⟩, ass := .idle } with
          tbfs := s.tbfs + 1
          polls := match g.dl with | some d => dropTbf d.id s.polls | none => s.polls }, [.cfgDl g.n a.alloc]) := by
  unfold Ctx.dlAssign
  rw [ha]
  simp only []
  split
  · rfl
  · have := setGre_setGre s g.n (fun g => { g with ass := a })
      (fun g => { g with dl := some ⟨s.tbfs, .flow, g.ass.alloc, true, false⟩, ass := .idle }) (fun _ => rfl)
    unfold Ctx.complDl
    unfold Ctx.setGre at this ⊢
    simp only [Ctx.mk.injEq] at this
    simp only [Res.ok.injEq, Prod.mk.injEq, Ctx.mk.injEq, true_and, and_true]
    exact ⟨this.2.2.1, rfl⟩

theorem mv_dlAssign {env : UlEnv} {s s' : Ctx} (h : s.W) {g : Gre} (hg : g ∈ s.es) (hn : N g.n) {m : DlAssMsg} {fn : Nat}
    {o : List CtxOut} (e : s.dlAssign env g m fn = .ok (s', o)) : Moves Idling N Q s s' := by
  cases ha : g.ass.take env m fn with
  | err x => unfold Ctx.dlAssign at e; rw [ha] at e; cases e
  | ub f => unfold Ctx.dlAssign at e; rw [ha] at e; cases e
  | ok a =>
    have htn : a.tsNr = g.ass.tsNr := by
      unfold DlAss.take at ha
      split at ha
      · cases ha; rfl
      · cases ha
      · cases ha
    rw [dlAssign_eq ha] at e
    split at e
    · cases e
      exact moves_set Idling.refl hn (Nat.le_refl _) (fun _ => rfl) (fun g' _ _ => .refl g')
        (fun g' hg' en hh => ⟨by
          show a.tsNr = 0
          rw [htn, ← h.only hg g' hg' en]; exact hh.1, fun x => by cases x⟩) (fun _ _ _ _ x => .inl x)
        (fun _ _ hx _ _ => .inl hx)
    · cases e
      refine moves_set Idling.refl hn (Nat.le_succ _) (fun _ => rfl)
        (fun g' hg' e => ⟨fun x => x, fun _ x => ?_⟩) (fun _ _ _ _ => ⟨rfl, fun _ => rfl⟩) ?_ ?_
      · simp [Gre.busy] at x
      · intro g' _ _ i hi
        rcases hi with hi | hi
        · exact .inl (.inl hi)
        · have hi : some s.tbfs = some i := hi
          cases hi
          exact .inr (Nat.le_refl _)
      · intro ts x hx _ _
        cases hd : g.dl with
        | none => exact .inl hx
        | some d =>
          refine polls_drop hx fun g' hg' hi => ?_
          obtain ⟨g0, h0, rfl⟩ := mem_setGre.1 hg'
          by_cases e : g0.n = g.n
          · rw [if_pos e] at hi
            rw [h.only hg g0 h0 e] at hi
            rcases hi with hi | hi
            · exact h.ud g hg d.id hi (dlId_of hd)
            · have hi : some s.tbfs = some d.id := hi
              have hl := h.idlt g hg _ (.inr (dlId_of hd))
              rw [Option.some.inj hi] at hl
              exact Nat.lt_irrefl _ hl
          · rw [if_neg e] at hi
            exact e (h.uu g0 h0 g hg d.id hi (.inr (dlId_of hd)))

theorem mv_dlAssPoll {s s' : Ctx} {n : Nat} {poll : Option Nat} {fn ts : Nat} (e : s.dlAssPoll n poll fn ts = .ok s') :
    Moves Calm N Q s s' := by
  unfold Ctx.dlAssPoll at e
  split at e
  · cases e; exact .refl Calm.refl s
  · exact mv_reserve Calm.refl e
  · cases e
  · cases e

theorem mv_freeDl_mem {s : Ctx} (h : s.W) {g : Gre} (hg : g ∈ s.es) (hn : N g.n) {d : DlLink} (hd : g.dl = some d) :
    Moves Calm N Q s (s.freeDl g.n d.id) :=
  mv_freeDl h hn (fun g' hg' e => by rw [h.only hg g' hg' e]; exact dlId_of hd) ⟨g, hg, rfl⟩

theorem mv_freeUl_mem {s : Ctx} (h : s.W) {g : Gre} (hg : g ∈ s.es) (hn : N g.n) {i : Nat} {t : UlTbf} (hu : g.ul = some (i, t)) :
    Moves Calm N Q s (s.freeUl g.n i) :=
  mv_freeUl h hn (fun g' hg' e => by rw [h.only hg g' hg' e]; exact ulId_of hu) ⟨g, hg, rfl⟩

theorem mv_ctrlAckRelease {s : Ctx} (h : s.W) {n : Nat} (hn : N n) : Moves Calm N Q s (s.ctrlAckRelease n) := by
  unfold Ctx.ctrlAckRelease
  split
  · exact .refl Calm.refl s
  · rename_i g hg
    obtain ⟨hm, rfl⟩ := gre?_mem hg
    split
    · exact .refl Calm.refl s
    · rename_i d hd
      split
      · exact mv_freeDl_mem h hm hn hd
      · exact .refl Calm.refl s

theorem mv_rxPktDlAss {env : UlEnv} {s s' : Ctx} (h : s.W) {id : MsId} {m : DlAssMsg} {ca : Bool} {poll : Option Nat}
    {fn ts : Nat} {o : List CtxOut} (hn : ∀ g, s.byId id = some g → N g.n)
    (e : s.rxPktDlAss env id m ca poll fn ts = .ok (s', o)) : Moves Idling N Q s s' := by
  unfold Ctx.rxPktDlAss at e
  split at e
  · cases e; exact .refl Idling.refl s
  · rename_i g hg
    split at e
    · rename_i s1 o1 h1
      obtain ⟨w1, n1⟩ := dlAssign_wf h (byId_mem hg) h1
      have m1 : Moves Idling N Q s s1 := mv_dlAssign h (byId_mem hg) (hn g hg) h1
      split at e
      · rename_i s2 h2
        simp only [Res.ok.injEq, Prod.mk.injEq] at e
        obtain ⟨rfl, -⟩ := e
        have w2 := (dlAssPoll_wf w1 (exists_n n1 (byId_mem hg)) h2).1
        have m2 : Moves Idling N Q s1 s2 := (mv_dlAssPoll h2).idling
        split
        · exact (m1.trans idling_trans m2).trans idling_trans (mv_ctrlAckRelease w2 (hn g hg)).idling
        · exact m1.trans idling_trans m2
      · cases e
      · cases e
    · cases e
    · cases e

theorem mv_rxDlData {s s' : Ctx} (h : s.W) {tfi : Nat} {last : Bool} {poll : Option Nat} {fn ts : Nat}
    {o : List CtxOut} (hn : ∀ g, s.byDlTfi tfi = some g → N g.n) (e : s.rxDlData tfi last poll fn ts = .ok (s', o)) :
    Moves Calm N Q s s' := by
  unfold Ctx.rxDlData at e
  split at e
  · cases e; exact .refl Calm.refl s
  · rename_i g hg
    have hm := List.mem_of_find?_eq_some hg
    split at e
    · cases e; exact .refl Calm.refl s
    · rename_i d hd
      simp only [] at e
      have m1 : Moves Calm N Q s
          (s.setGre g.n fun g => { g with dl := some { d with t3190 := true, st := if last then .finished else d.st } }) := by
        refine moves_set Calm.refl (hn g hg) (Nat.le_refl _) (fun _ => rfl)
          (fun g' hg' en => ⟨rfl, fun x => x, fun _ x => ?_⟩) (fun _ _ _ h => h) ?_ (fun _ _ hx _ _ => .inl hx)
        · simp [Gre.busy] at x
        · intro g' hg' en i hi
          left
          rcases hi with hi | hi
          · exact .inl hi
          · right
            rw [h.only hm g' hg' en, dlId_of hd]
            exact hi
      split at e
      · cases e; exact m1
      · split at e
        · rename_i s2 h2
          cases e
          exact m1.trans calm_trans (mv_reserve Calm.refl h2)
        · cases e
        · cases e
      · cases e
      · cases e

theorem mv_startUl {s : Ctx} (h : s.W) (o : Avail) {n : Nat} (hn : N n) : Moves Calm N Q s (s.startUl o n).1 := by
  rcases startUl_eq h o n with e | ⟨g, hg, rfl, hu, hd, -, ⟨e, -⟩ | ⟨t, hr, -, e⟩⟩
  · rw [e]; exact .refl Calm.refl s
  · rw [e]
    refine moves_set Calm.refl hn (Nat.le_succ _) (fun _ => rfl) (fun g' _ _ => ⟨rfl, fun _ => rfl, fun _ _ => rfl⟩)
      (fun _ _ _ h => h) ?_ ?_
    · intro g' _ _ i hi
      rcases hi with hi | hi
      · cases hi
      · exact .inl (.inr hi)
    · intro ts x hx hl _
      refine .inl (kept_dropTbf hx fun e => ?_)
      exact Nat.lt_irrefl _ (hl _ e)
  · rw [e]
    exact mv_newUl hn t (fun _ _ hx _ _ => .inl hx)

theorem mv_ccchReady {env : UlEnv} (o : Avail) (ns : List Nat) (hN : ∀ n, N n) :
    ∀ {s : Ctx}, s.W → Moves Calm N Q s (Ctx.ccchReady o ns s).1 := by
  induction ns with
  | nil => intro s h; exact .refl Calm.refl s
  | cons n ns ih =>
    intro s h
    exact (mv_startUl h o (hN n)).trans calm_trans (ih (wf_startUl (keeping_true env) h o n))

theorem mv_addGre {s : Ctx} (hn : N s.made) (tlli ptmsi : Nat) (imsi : List Nat) :
    Moves Calm N Q s (s.addGre tlli ptmsi imsi) := by
  unfold Ctx.addGre
  refine ⟨Nat.le_refl _, fun g hg => ⟨g, List.mem_append_left _ hg, rfl, .refl g, fun _ => rfl⟩, fun g hg hne => ?_,
    fun g hg i hi _ => ?_, fun _ _ hx _ _ => .inl hx, fun ha g hg => ?_⟩
  · rcases List.mem_append.1 hg with h1 | h1
    · exact h1
    · rw [List.mem_singleton.1 h1] at hne; exact absurd hn hne
  · rcases List.mem_append.1 hg with h1 | h1
    · exact ⟨g, h1, rfl, hi⟩
    · rw [List.mem_singleton.1 h1] at hi
      rcases hi with hi | hi <;> cases hi
  · rcases List.mem_append.1 hg with h1 | h1
    · exact ha g h1
    · rw [List.mem_singleton.1 h1]; exact ⟨rfl, fun _ => rfl⟩

theorem mv_dlTimer {s : Ctx} (h : s.W) {n : Nat} (hn : N n) (k : Bool) : Moves Calm N Q s (s.dlTimer n k) := by
  unfold Ctx.dlTimer
  split
  · exact .refl Calm.refl s
  · rename_i g hg
    obtain ⟨hm, rfl⟩ := gre?_mem hg
    split
    · exact .refl Calm.refl s
    · rename_i d hd
      cases (if k then d.t3192 else d.t3190)
      · exact .refl Calm.refl s
      · exact mv_freeDl_mem h hm hn hd

theorem mv_names (s : Ctx) {n : Nat} (hn : N n) (f : Gre → GreNames) (hf : ∀ g, (f g).serial = g.n) :
    Moves Calm N Q s (s.setGre n fun g => { g with names := f g }) :=
  moves_set Calm.refl hn (Nat.le_refl _) hf (fun g' _ _ => ⟨rfl, .refl g'⟩) (fun _ _ _ h => h)
    (fun _ _ _ _ x => .inl x) (fun _ _ hx _ _ => .inl hx)

theorem mv_idleTimer (s : Ctx) {n : Nat} (hn : N n) :
    Moves (fun g g' => g'.ass = g.ass ∧ (g.n ≠ n → g' = g)) N Q s (s.idleTimer n).1 := by
  have r : ∀ g : Gre, g.ass = g.ass ∧ (g.n ≠ n → g = g) := fun _ => ⟨rfl, fun _ => rfl⟩
  unfold Ctx.idleTimer
  split
  · exact .refl r s
  · split
    · exact moves_set r hn (Nat.le_refl _) (fun _ => rfl) (fun _ _ e => ⟨rfl, fun x => absurd e x⟩)
        (fun _ _ _ h => h) (fun _ _ _ _ x => .inl x)
        (fun _ _ hx _ _ => .inl hx)
    · exact .refl r s

end

/-! ## Whom an event is for -/

theorem byUlTfi_names {s : Ctx} {tfi : Nat} {g : Gre} (h : s.byUlTfi tfi = some g) : Names (.ulTfi tfi) g := by
  have h0 := List.find?_some h
  split at h0
  · rename_i i t e
    exact ⟨i, t, e, by simpa using h0⟩
  · cases h0

theorem byDlTfi_names {s : Ctx} {tfi : Nat} {g : Gre} (h : s.byDlTfi tfi = some g) : Names (.dlTfi tfi) g := by
  have h0 := List.find?_some h
  split at h0
  · rename_i d e
    exact ⟨d, e, by simpa using h0⟩
  · cases h0

theorem byTlli_names {s : Ctx} {tlli : Nat} {g : Gre} (h : s.byTlli tlli = some g) : Names (.tlli tlli) g := by
  have h0 := List.find?_some h
  simp only [Bool.or_eq_true, beq_iff_eq] at h0
  exact h0

theorem byId_names {s : Ctx} {id : MsId} {g : Gre} (h : s.byId id = some g) : Names id g := by
  cases id with
  | ulTfi => exact byUlTfi_names h
  | dlTfi => exact byDlTfi_names h
  | tlli => exact byTlli_names h
  | other => cases h

theorem find_only {l : List Gre} {p : Gre → Bool} {P : Gre → Prop} (hp : ∀ g, p g = true ↔ P g) {g : Gre} (hg : g ∈ l)
    (hP : P g) (ho : ∀ g' ∈ l, P g' → g' = g) : l.find? p = some g := by
  cases e : l.find? p with
  | none =>
    rw [List.find?_eq_none] at e
    exact absurd ((hp g).2 hP) (e g hg)
  | some g' =>
    have h0 := List.find?_some e
    rw [ho g' (List.mem_of_find?_eq_some e) ((hp g').1 h0)]

theorem byId_only {s : Ctx} {id : MsId} {g : Gre} (h : OnlyNamed s id g) : s.byId id = some g := by
  obtain ⟨hg, hN, ho⟩ := h
  cases id with
  | ulTfi tfi =>
    refine find_only (P := Names (.ulTfi tfi)) (fun g => ?_) hg hN ho
    split
    · rename_i i t e
      simp only [Names, e, beq_iff_eq]
      exact ⟨fun x => ⟨i, t, rfl, x⟩, fun ⟨_, _, x, y⟩ => by cases x; exact y⟩
    · rename_i e
      simp only [Names, e, Bool.false_eq_true, false_iff]
      rintro ⟨_, _, x, _⟩
      cases x
  | dlTfi tfi =>
    refine find_only (P := Names (.dlTfi tfi)) (fun g => ?_) hg hN ho
    split
    · rename_i d e
      simp only [Names, e, beq_iff_eq]
      exact ⟨fun x => ⟨d, rfl, x⟩, fun ⟨_, x, y⟩ => by cases x; exact y⟩
    · rename_i e
      simp only [Names, e, Bool.false_eq_true, false_iff]
      rintro ⟨_, x, _⟩
      cases x
  | tlli tlli =>
    refine find_only (P := Names (.tlli tlli)) (fun g => ?_) hg hN ho
    simp only [Names, Bool.or_eq_true, beq_iff_eq]
  | other => exact hN.elim

/-! ## Only one entity is touched -/

theorem reserved_has {x : PollNode} {g : Gre} {i : Nat} (h : ReservedFor x g) (ho : x.owner = .tbf i) : g.Has i := by
  unfold ReservedFor at h
  rw [ho] at h
  rcases h with ⟨t, h⟩ | ⟨d, h, rfl⟩
  · exact .inl (ulId_of h)
  · exact .inr (dlId_of h)

theorem only_of_moves {A : Gre → Gre → Prop} {n : Nat} {s s' : Ctx} (w : s.W) (h : Moves A (Eq n) NoQ s s') {outs : List CtxOut}
    (ho : ∀ o ∈ outs, OutOf n o) : OnlyTouches n s s' outs := by
  have kept : ∀ g ∈ s.es, g.n ≠ n → g ∈ s'.es := by
    intro g hg hne
    obtain ⟨g', h1, -, -, e⟩ := h.fwd g hg
    rw [← e (fun x => hne x.symm)]; exact h1
  refine ⟨fun g hne => ⟨fun hg => kept g hg hne, fun hg => h.old g hg (fun x => hne x.symm)⟩, fun g hg hne ts x hx hr => ?_, ho⟩
  rcases h.polls ts x hx (fun i ho => w.idlt g hg i (reserved_has hr ho)) (fun f => f) with h1 | ⟨i, ho, h1⟩
  · exact h1
  · exact absurd (reserved_has hr ho) (h1 g (kept g hg hne))

theorem only_freeGre {s : Ctx} (w : s.W) {g : Gre} (hg : g ∈ s.es) : OnlyTouches g.n s (s.freeGre g) [] := by
  unfold Ctx.freeGre
  refine ⟨fun g' hne => ⟨fun h => List.mem_filter.2 ⟨h, by simpa using hne⟩, fun h => (List.mem_filter.1 h).1⟩, ?_,
    fun o h => by cases h⟩
  intro g' hg' hne ts x hx hr
  simp only [dropPolls_eq]
  rw [List.getD_eq_getElem?_getD] at hx ⊢
  rw [List.getElem?_map]
  cases e : s.polls[ts]? with
  | none => rw [e] at hx; simp at hx
  | some l =>
    rw [e] at hx
    refine List.mem_filter.2 ⟨hx, ?_⟩
    cases ho : g.owns x with
    | false => rfl
    | true =>
      unfold Gre.owns at ho
      split at ho
      · rename_i i hi
        simp only [Bool.or_eq_true, beq_iff_eq] at ho
        exact absurd (w.uu g' hg' g hg i (reserved_has hr hi) ho) hne
      · cases ho

theorem outOf_rach (n : Nat) (outs : List UlOut) : ∀ o ∈ rachOuts n outs, OutOf n o := by
  intro o ho
  simp only [rachOuts, List.mem_filterMap] at ho
  obtain ⟨a, -, ha⟩ := ho
  cases a <;> cases ha
  rfl

theorem ulEvent_outs {s s' : Ctx} {n i : Nat} {r : PollReason} {x : UlR} {o : List CtxOut}
    (e : s.ulEvent n i r x = .ok (s', o)) : ∃ l, o = rachOuts n l := by
  unfold Ctx.ulEvent at e
  split at e
  · split at e
    · cases e; exact ⟨_, rfl⟩
    · cases e
    · cases e
  · cases e
  · cases e

theorem dlAssign_outs {env : UlEnv} {s s' : Ctx} {g : Gre} {m : DlAssMsg} {fn : Nat} {o : List CtxOut}
    (e : s.dlAssign env g m fn = .ok (s', o)) : ∀ x ∈ o, ∃ a, x = .cfgDl g.n a := by
  unfold Ctx.dlAssign at e
  split at e
  · split at e
    · cases e; exact fun x hx => by cases hx
    · have e' := congrArg Prod.snd (Res.ok.inj e)
      intro x hx
      rw [← (show _ = o from e')] at hx
      exact ⟨_, List.mem_singleton.1 hx⟩
  · cases e
  · cases e

theorem startUl_outs {s : Ctx} (h : s.W) (o : Avail) (n : Nat) : ∀ x ∈ (s.startUl o n).2, x = .rach n := by
  intro x hx
  rcases startUl_eq h o n with e | ⟨g, hg, rfl, hu, hd, -, ⟨e, -⟩ | ⟨t, hr, -, e⟩⟩
  · rw [e] at hx; cases hx
  · rw [e] at hx; cases hx
  · rw [e] at hx; exact List.mem_singleton.1 hx

/-- **What an event for one entity comes to.** -/
theorem step_only {env : UlEnv} {s s' : Ctx} (h : s.W) {e : CtxEv} (h1 : ForOne e) {o : List CtxOut}
    (hs : s.step env e = .ok (s', o)) :
    (s' = s ∧ o = []) ∨ (∃ g ∈ s.es, Concerns e g ∧ OnlyTouches g.n s s' o) ∨
      (∀ g ∈ s.es, ¬ Concerns e g) ∧ OnlyTouches s.made s s' o := by
  have ule : ∀ {g : Gre} {i t r x}, g ∈ s.es → g.ul = some (i, t) → s.ulEvent g.n i r x = .ok (s', o) →
      OnlyTouches g.n s s' o := by
    intro g i t r x hg hu he
    obtain ⟨l, rfl⟩ := ulEvent_outs he
    exact only_of_moves h (mv_ulEvent h hg rfl hu he) (outOf_rach _ _)
  cases e with
  | rts a fn ts usf => exact h1.elim
  | ccchReady a => exact h1.elim
  | cnf fn ts =>
    cases hs
    unfold Ctx.txCnf
    split
    · exact .inl ⟨rfl, rfl⟩
    · rename_i g hg
      have hm := List.mem_of_find?_eq_some hg
      have h0 := List.find?_some hg
      cases hu : g.ul with
      | none => exact .inl ⟨rfl, rfl⟩
      | some y =>
        rw [hu] at h0
        simp only [Bool.and_eq_true, beq_iff_eq] at h0
        exact .inr (.inl ⟨g, hm, ⟨y.1, y.2, hu, h0.1.1, h0.1.2, h0.2⟩,
          show OnlyTouches g.n s (s.freeUl g.n y.1) [] from
            only_of_moves h (mv_freeUl_mem h hm rfl hu) (fun o ho => by cases ho)⟩)
  | pktUlAss id m poll fn ts =>
    simp only [Ctx.step, Ctx.rxPktUlAss] at hs
    split at hs
    · cases hs; exact .inl ⟨rfl, rfl⟩
    · rename_i g hg
      split at hs
      · cases hs; exact .inl ⟨rfl, rfl⟩
      · rename_i i t hu
        exact .inr (.inl ⟨g, byId_mem hg, byId_names hg, ule (byId_mem hg) hu hs⟩)
  | ulAck tfi final poll tbfEst fn ts =>
    simp only [Ctx.step, Ctx.rxUlAck] at hs
    split at hs
    · cases hs; exact .inl ⟨rfl, rfl⟩
    · rename_i g hg
      have hm := List.mem_of_find?_eq_some hg
      split at hs
      · cases hs; exact .inl ⟨rfl, rfl⟩
      · rename_i i t hu
        exact .inr (.inl ⟨g, hm, byUlTfi_names hg, ule hm hu hs⟩)
  | pktDlAss id tfi start mask ca poll fn ts =>
    simp only [Ctx.step] at hs
    cases hg : s.byId id with
    | none =>
      simp only [Ctx.rxPktDlAss, hg] at hs
      cases hs; exact .inl ⟨rfl, rfl⟩
    | some g =>
      refine .inr (.inl ⟨g, byId_mem hg, byId_names hg, only_of_moves h
        (mv_rxPktDlAss h (fun g' e' => by rw [hg] at e'; cases e'; rfl) hs) ?_⟩)
      simp only [Ctx.rxPktDlAss, hg] at hs
      split at hs
      · rename_i s1 o1 h1
        split at hs
        · cases hs
          intro x hx
          obtain ⟨a, rfl⟩ := dlAssign_outs h1 x hx
          rfl
        · cases hs
        · cases hs
      · cases hs
      · cases hs
  | dlData tfi last poll fn ts =>
    simp only [Ctx.step] at hs
    cases hg : s.byDlTfi tfi with
    | none =>
      simp only [Ctx.rxDlData, hg] at hs
      cases hs; exact .inl ⟨rfl, rfl⟩
    | some g =>
      have hm := List.mem_of_find?_eq_some hg
      refine .inr (.inl ⟨g, hm, byDlTfi_names hg, only_of_moves h
        (mv_rxDlData h (fun g' e' => by rw [hg] at e'; cases e'; rfl) hs) ?_⟩)
      obtain ⟨d, hd, -⟩ := byDlTfi_names hg
      simp only [Ctx.rxDlData, hg, hd] at hs
      split at hs
      · cases hs; exact fun x hx => by cases hx
      · split at hs
        · cases hs; exact fun x hx => by cases hx
        · cases hs
        · cases hs
      · cases hs
      · cases hs
  | immAssUl m fn ts =>
    simp only [Ctx.step, Ctx.rxImmAssUl] at hs
    split at hs
    · cases hs; exact .inl ⟨rfl, rfl⟩
    · rename_i g hg
      have hm := List.mem_of_find?_eq_some hg
      have h0 := List.find?_some hg
      split at hs
      · cases hs; exact .inl ⟨rfl, rfl⟩
      · rename_i i t hu
        rw [hu] at h0
        simp only [beq_iff_eq] at h0
        exact .inr (.inl ⟨g, hm, ⟨i, t, hu, h0⟩, ule hm hu hs⟩)
  | immAssDl tlli tfi start fn ts =>
    simp only [Ctx.step, Ctx.rxImmAssDl] at hs
    split at hs
    · cases hs; exact .inl ⟨rfl, rfl⟩
    · rename_i g hg
      have hm := List.mem_of_find?_eq_some hg
      refine .inr (.inl ⟨g, hm, byTlli_names hg, only_of_moves h (mv_dlAssign h hm rfl hs) fun x hx => ?_⟩)
      obtain ⟨a, rfl⟩ := dlAssign_outs hs x hx
      rfl
  | unitdata a tlli =>
    have e1 : (s.unitdata a tlli).1 = s' := congrArg Prod.fst (Res.ok.inj hs)
    have e2 : (s.unitdata a tlli).2 = o := congrArg Prod.snd (Res.ok.inj hs)
    rw [← e1, ← e2]
    unfold Ctx.unitdata
    split
    · rename_i g hg
      have hm := List.mem_of_find?_eq_some hg
      refine .inr (.inl ⟨g, hm, byTlli_names hg, only_of_moves h (mv_startUl h a rfl) fun x hx => ?_⟩)
      rw [startUl_outs h a _ x hx]; rfl
    · rename_i hg
      have w1 : (s.addGre tlli 0xffffffff []).W := wf_addGre h _ _ _
      refine .inr (.inr ⟨fun g hm hc => ?_, only_of_moves h ((mv_addGre rfl _ _ _).trans calm_trans (mv_startUl w1 a rfl))
        fun x hx => ?_⟩)
      · unfold Ctx.byTlli at hg
        rw [List.find?_eq_none] at hg
        exact hg g hm (by simpa [Concerns, Names] using hc)
      · rw [startUl_outs w1 a _ x hx]; rfl
  | assign old new ptmsi imsi =>
    cases hs
    unfold Ctx.assign
    split
    · rename_i ho
      split
      · exact .inl ⟨rfl, rfl⟩
      · split
        · exact .inl ⟨rfl, rfl⟩
        · exact .inr (.inr ⟨fun g hm hx => hx.1 ho, only_of_moves h (mv_addGre rfl _ _ _) fun x hx => by cases hx⟩)
    · rename_i ho
      split
      · exact .inl ⟨rfl, rfl⟩
      · rename_i g hg
        have hm := List.mem_of_find?_eq_some hg
        split
        · exact .inr (.inl ⟨g, hm, ⟨ho, byTlli_names hg⟩, only_freeGre h hm⟩)
        · exact .inr (.inl ⟨g, hm, ⟨ho, byTlli_names hg⟩, only_of_moves h (mv_names s rfl (fun g => { g.names with tlli := new, oldTlli := old, ptmsi := ptmsi, imsi := imsi }) (fun _ => rfl)) (outs := [])
            fun x hx => by cases hx⟩)
  | ulTimer a n u =>
    simp only [Ctx.step, Ctx.ulTimer] at hs
    split at hs
    · cases hs; exact .inl ⟨rfl, rfl⟩
    · rename_i g hg
      obtain ⟨hm, rfl⟩ := gre?_mem hg
      split at hs
      · cases hs; exact .inl ⟨rfl, rfl⟩
      · rename_i i t hu
        exact .inr (.inl ⟨g, hm, rfl, ule hm hu hs⟩)
  | t3190 n =>
    cases hs
    cases hg : s.gre? n with
    | none => simp only [Ctx.dlTimer, hg]; exact .inl ⟨trivial, trivial⟩
    | some g =>
      obtain ⟨hm, rfl⟩ := gre?_mem hg
      exact .inr (.inl ⟨g, hm, rfl, only_of_moves h (mv_dlTimer h rfl false) fun x hx => by cases hx⟩)
  | t3192 n =>
    cases hs
    cases hg : s.gre? n with
    | none => simp only [Ctx.dlTimer, hg]; exact .inl ⟨trivial, trivial⟩
    | some g =>
      obtain ⟨hm, rfl⟩ := gre?_mem hg
      exact .inr (.inl ⟨g, hm, rfl, only_of_moves h (mv_dlTimer h rfl true) fun x hx => by cases hx⟩)
  | idleTimer n =>
    have e1 : (s.idleTimer n).1 = s' := congrArg Prod.fst (Res.ok.inj hs)
    have e2 : (s.idleTimer n).2 = o := congrArg Prod.snd (Res.ok.inj hs)
    rw [← e1, ← e2]
    cases hg : s.gre? n with
    | none => simp only [Ctx.idleTimer, hg]; exact .inl ⟨trivial, trivial⟩
    | some g =>
      obtain ⟨hm, rfl⟩ := gre?_mem hg
      refine .inr (.inl ⟨g, hm, rfl, only_of_moves h (mv_idleTimer s rfl) fun x hx => ?_⟩)
      simp only [Ctx.idleTimer, hg] at hx
      split at hx
      · rw [List.mem_singleton.1 hx]; trivial
      · cases hx

/-! ## The downlink assignment and the timer of an entity -/

/-- The starting time the entity waits for is reached. -/
def Due (g : Gre) (fn ts : Nat) : Prop := g.ass.waiting = true ∧ g.ass.startFn = fn ∧ g.ass.tsNr = ts

theorem mv_tickUl {Q : Nat → PollNode → Prop} {s s' : Ctx} (h : s.W) {fn ts : Nat} {g : Gre} (hg : g ∈ s.es)
    (e : s.tickUl fn ts g = .ok s') : Moves Calm (Eq g.n) Q s s' := by
  unfold Ctx.tickUl at e
  split at e
  · cases e; exact .refl Calm.refl s
  · rename_i id t hu
    split at e
    · cases e; exact mv_putUl h hg rfl hu _
    · cases e
    · cases e

theorem tickAll_each {env : UlEnv} {fn ts : Nat} (ns : List Nat) : ∀ {s s' : Ctx} {o : List CtxOut}, s.W → ns.Nodup →
    s.tickAll fn ts ns = .ok (s', o) →
    Moves Idling (fun _ => True) NoQ s s' ∧ (∀ x ∈ o, ∃ n a, x = .cfgDl n a) ∧
    ∀ g ∈ s.es, (g.n ∈ ns → Due g fn ts → .cfgDl g.n g.ass.alloc ∈ o ∧ (∀ a, .cfgDl g.n a ∈ o → a = g.ass.alloc) ∧
        ∃ g' ∈ s'.es, g'.n = g.n ∧ g'.ass = .idle) ∧
      (¬ (g.n ∈ ns ∧ Due g fn ts) → (∃ g' ∈ s'.es, g'.n = g.n ∧ g'.ass = g.ass) ∧ ∀ a, .cfgDl g.n a ∉ o) := by
  induction ns with
  | nil =>
    intro s s' o h _ e
    simp only [Ctx.tickAll, Res.ok.injEq, Prod.mk.injEq] at e
    obtain ⟨rfl, rfl⟩ := e
    exact ⟨.refl Idling.refl s, fun x hx => (nomatch hx), fun g hg => ⟨fun hx => (nomatch hx), fun _ => ⟨⟨g, hg, rfl, rfl⟩, nofun⟩⟩⟩
  | cons n ns ih =>
    intro s s' o h hnd e
    rw [List.nodup_cons] at hnd
    simp only [Ctx.tickAll] at e
    split at e
    · rename_i hno
      obtain ⟨m, c, r⟩ := ih h hnd.2 e
      have hne : ∀ g ∈ s.es, g.n ≠ n := fun g hg en => by
        rw [← en, gre?_of_mem h.nd hg] at hno; cases hno
      refine ⟨m, c, fun g hg => ⟨fun hx => (r g hg).1 ((List.mem_cons.1 hx).resolve_left (hne g hg)), fun hx => (r g hg).2 fun y => hx ⟨List.mem_cons_of_mem _ y.1, y.2⟩⟩⟩
    · rename_i g0 hg0
      obtain ⟨hm, rfl⟩ := gre?_mem hg0
      split at e
      · rename_i s1 h1
        split at e
        · rename_i s2 o2 h2
          simp only [Res.ok.injEq, Prod.mk.injEq] at e
          obtain ⟨rfl, rfl⟩ := e
          obtain ⟨w1, id, r, h3⟩ := wf_tickUl (keeping_true env) h (fun _ => trivial) hm h1
          have hd1 : ∀ g' ∈ s1.es, g'.n = g0.n → g'.dlId = g0.dlId := by
            intro g' hg' en
            rcases h3 with rfl | rfl
            · rw [h.only hm g' hg' en]
            · obtain ⟨g3, hg3, e1, e2, -⟩ := putUl_dl hg'
              have := h.only hm g3 hg3 (by rw [← e1]; exact en)
              rw [Gre.dlId, e2, this]; rfl
          have w2 := wf_tickDl (fn := fn) (ts := ts) w1 hd1
          have m1 : Moves Calm (Eq g0.n) NoQ s s1 := mv_tickUl h hm h1
          have hex1 : ∃ g' ∈ s1.es, g'.n = g0.n := by
            obtain ⟨g', a, b, -⟩ := m1.fwd g0 hm
            exact ⟨g', a, b⟩
          obtain ⟨m2, c2, r2⟩ := ih w2 hnd.2 h2
          by_cases hdue : Due g0 fn ts
          · have et : s1.tickDl fn ts g0 = s1.complDl g0 := by
              unfold Ctx.tickDl
              rw [if_pos]
              simp [hdue.1, hdue.2.1, hdue.2.2]
            rw [et] at m2 r2 ⊢
            have mc : Moves (fun g1 g2 => Idling g1 g2 ∧ (g1.n ≠ g0.n → Calm g1 g2)) (Eq g0.n) NoQ s1 (s1.complDl g0).1 :=
              mv_complDl w1 rfl hex1 hd1
            refine ⟨(m1.mono calm_idling (fun _ _ => trivial) (fun _ _ x => x)).trans idling_trans
              ((mc.mono (fun _ _ x => x.1) (fun _ _ => trivial) (fun _ _ x => x)).trans idling_trans m2), ?_, fun g hg => ?_⟩
            · intro x hx
              rcases List.mem_append.1 hx with hx | hx
              · exact ⟨_, _, List.mem_singleton.1 hx⟩
              · exact c2 x hx
            · by_cases en : g.n = g0.n
              · have eg := h.only hm g hg en
                subst eg
                obtain ⟨g1, hg1, n1⟩ := hex1
                have hg2 : ({ g1 with dl := some ⟨s1.tbfs, .flow, g1.ass.alloc, true, false⟩, ass := .idle } : Gre) ∈ (s1.complDl g).1.es :=
                  mem_setGre.2 ⟨g1, hg1, by rw [if_pos n1]⟩
                obtain ⟨⟨g3, hg3, n3, a3⟩, hno⟩ := (r2 _ hg2).2 fun y => hnd.1 (by rw [← n1]; exact y.1)
                refine ⟨fun _ _ => ⟨List.mem_append_left _ (List.mem_singleton.2 rfl), fun a ha => ?_, g3, hg3, n3.trans n1, a3⟩,
                  fun hx => absurd ⟨List.mem_cons_self, hdue⟩ hx⟩
                rcases List.mem_append.1 ha with ha | ha
                · have := List.mem_singleton.1 ha
                  injection this
                · exact absurd (by rw [← n1] at ha; exact ha) (hno a)
              · obtain ⟨g1, hg1, n1, -, e1⟩ := m1.fwd g hg
                rw [e1 (fun x => en x.symm)] at hg1
                obtain ⟨g2, hg2, n2, -, e2⟩ := mc.fwd g hg1
                rw [e2 (fun x => en x.symm)] at hg2
                obtain ⟨ra, rb⟩ := r2 g hg2
                have nol : ∀ a, .cfgDl g.n a ∉ (s1.complDl g0).2 := fun a ha => by
                  have := List.mem_singleton.1 ha
                  injection this with q1 q2
                  exact en q1
                refine ⟨fun hx hd => ?_, fun hx => ?_⟩
                · obtain ⟨rc, rd, re⟩ := ra ((List.mem_cons.1 hx).resolve_left en) hd
                  exact ⟨List.mem_append_right _ rc, fun a ha => rd a ((List.mem_append.1 ha).resolve_left (nol a)), re⟩
                obtain ⟨rc, rd⟩ := rb fun y => hx ⟨List.mem_cons_of_mem _ y.1, y.2⟩
                refine ⟨rc, fun a ha => ?_⟩
                rcases List.mem_append.1 ha with ha | ha
                · exact nol a ha
                · exact rd a ha
          · have et : s1.tickDl fn ts g0 = (s1, []) := by
              unfold Ctx.tickDl
              rw [if_neg]
              simp only [Bool.and_eq_true, beq_iff_eq]
              exact fun x => hdue ⟨x.1.1, x.1.2, x.2⟩
            rw [et] at m2 r2 ⊢
            refine ⟨(m1.mono calm_idling (fun _ _ => trivial) (fun _ _ x => x)).trans idling_trans m2, c2, fun g hg => ?_⟩
            obtain ⟨g1, hg1, n1, a1, e1⟩ := m1.fwd g hg
            obtain ⟨ra, rb⟩ := r2 g1 hg1
            simp only [n1, a1.1, Due, List.nil_append] at ra rb ⊢
            refine ⟨fun hx hd => ?_, fun hx => rb fun y => hx ⟨List.mem_cons_of_mem _ y.1, y.2⟩⟩
            rcases List.mem_cons.1 hx with en | hx
            · rw [h.only hm g hg en] at hd
              exact absurd hd hdue
            · exact ra hx hd
        · cases e
        · cases e
      · cases e
      · cases e

end Verif.Rlc
