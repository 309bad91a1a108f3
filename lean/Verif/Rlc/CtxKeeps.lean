import Verif.Rlc.CtxEvents

/-!
# The RLC/MAC context: reservations, downlink assignments and the idle timer over histories
-/
namespace Verif.Rlc
open Verif Verif.Spec

/-- No configuration of a downlink TBF among these. -/
def NoCfg (o : List CtxOut) : Prop := ∀ n a, .cfgDl n a ∉ o

theorem noCfg_nil : NoCfg [] := fun _ _ h => by cases h

theorem noCfg_append {a b : List CtxOut} (h : NoCfg a) (h' : NoCfg b) : NoCfg (a ++ b) := fun n x hx =>
  (List.mem_append.1 hx).elim (h n x) (h' n x)

theorem noCfg_rach (n : Nat) (l : List UlOut) : NoCfg (rachOuts n l) := by
  intro m a ha
  simp only [rachOuts, List.mem_filterMap] at ha
  obtain ⟨b, -, hb⟩ := ha
  cases b <;> cases hb

theorem noRel_rach (n : Nat) (l : List UlOut) : .pdchRel ∉ rachOuts n l := by
  intro ha
  simp only [rachOuts, List.mem_filterMap] at ha
  obtain ⟨b, -, hb⟩ := ha
  cases b <;> cases hb

theorem startUl_rachOuts (s : Ctx) (o : Avail) (n : Nat) : ∃ l, (s.startUl o n).2 = rachOuts n l := by
  unfold Ctx.startUl
  split
  · exact ⟨[], rfl⟩
  · split
    · exact ⟨_, rfl⟩
    · exact ⟨[], rfl⟩

theorem ccchReady_outs (o : Avail) (ns : List Nat) : ∀ s : Ctx,
    NoCfg (Ctx.ccchReady o ns s).2 ∧ .pdchRel ∉ (Ctx.ccchReady o ns s).2 := by
  induction ns with
  | nil => exact fun s => ⟨noCfg_nil, fun h => by cases h⟩
  | cons n ns ih =>
    intro s
    obtain ⟨l, hl⟩ := startUl_rachOuts s o n
    simp only [Ctx.ccchReady, hl]
    exact ⟨noCfg_append (noCfg_rach n l) (ih _).1, fun h =>
      (List.mem_append.1 h).elim (noRel_rach n l) (ih _).2⟩

theorem select_ro {env : UlEnv} {s s' : Ctx} {o : Avail} {fn ts usf : Nat} {ua : Option Gre} {c : Option Cand}
    {m : Option (Nat × UlBlk)} {ro : List CtxOut} (e : s.select env o fn ts usf ua c = .ok (s', m, ro)) :
    ∃ n l, ro = rachOuts n l := by
  have data : ∀ {s s' : Ctx} {m : Option (Nat × UlBlk)} {ro : List CtxOut}, s.selectData env o ts usf = .ok (s', m, ro) →
      ∃ n l, ro = rachOuts n l := by
    intro s s' m ro e
    unfold Ctx.selectData at e
    split at e
    · cases e; exact ⟨0, [], rfl⟩
    · split at e
      · split at e
        · cases e; exact ⟨_, _, rfl⟩
        · cases e
        · cases e
      · cases e; exact ⟨0, [], rfl⟩
  unfold Ctx.select at e
  split at e
  · cases e; exact ⟨0, [], rfl⟩
  · split at e
    · rename_i h; cases e; exact data h
    · rename_i h; cases e; exact data h
    · cases e
    · cases e
  · cases e
  · cases e

theorem serve_outs {env : UlEnv} {s s' : Ctx} {o : Avail} {fn ts usf : Nat} {out : List CtxOut}
    (e : s.serve env o fn ts usf = .ok (s', out)) : NoCfg out ∧ .pdchRel ∉ out := by
  unfold Ctx.serve at e
  split at e
  · split at e
    · rename_i s2 m ro h2
      cases e
      obtain ⟨n, l, rfl⟩ := select_ro h2
      constructor
      · refine noCfg_append (noCfg_rach n l) fun k a ha => ?_
        unfold blockOut at ha
        split at ha
        · cases List.mem_singleton.1 ha
        · cases ha
      · intro h
        rcases List.mem_append.1 h with h | h
        · exact noRel_rach n l h
        · unfold blockOut at h
          split at h
          · cases List.mem_singleton.1 h
          · cases h
    · cases e
    · cases e
  · cases e
  · cases e

/-- The reservations an event uses up. -/
def UsedBy (e : CtxEv) (ts : Nat) (x : PollNode) : Prop :=
  match e with
  | .rts _ fn ts0 _ => UsedUp fn ts0 ts x
  | _ => False

/-- An event gives this entity up. -/
def Frees (e : CtxEv) (s : Ctx) (g : Gre) : Prop :=
  ∃ old p i, e = .assign old noTlli p i ∧ old ≠ noTlli ∧ s.byTlli old = some g

/-- Neither a downlink assignment nor an indication. -/
def Plain : CtxEv → Prop
  | .rts .. => False
  | .pktDlAss .. => False
  | .immAssDl .. => False
  | .idleTimer _ => False
  | _ => True

/-- Events that have to do neither with downlink assignments nor with the idle timer, but giving up an entity. -/
theorem step_plain {env : UlEnv} {s s' : Ctx} (h : s.W) {e : CtxEv} (h1 : Plain e) {o : List CtxOut}
    (hs : s.step env e = .ok (s', o)) :
    (∃ g ∈ s.es, Frees e s g ∧ s' = s.freeGre g ∧ o = []) ∨
      Moves Calm (fun _ => True) NoQ s s' ∧ NoCfg o ∧ .pdchRel ∉ o := by
  have nil : .pdchRel ∉ ([] : List CtxOut) := fun h => by cases h
  have ule : ∀ {g : Gre} {i t r x}, g ∈ s.es → g.ul = some (i, t) → s.ulEvent g.n i r x = .ok (s', o) →
      Moves Calm (fun _ => True) NoQ s s' ∧ NoCfg o ∧ .pdchRel ∉ o := by
    intro g i t r x hg hu he
    obtain ⟨l, rfl⟩ := ulEvent_outs he
    exact ⟨mv_ulEvent h hg trivial hu he, noCfg_rach _ _, noRel_rach _ _⟩
  have same : ∀ {a : Ctx} {b : List CtxOut}, (Res.ok (s, ([] : List CtxOut)) : CtxR) = .ok (a, b) →
      Moves Calm (fun _ => True) NoQ s a ∧ NoCfg b ∧ .pdchRel ∉ b := by
    intro a b e
    cases e
    exact ⟨.refl Calm.refl s, noCfg_nil, nil⟩
  cases e with
  | rts a fn ts usf => exact h1.elim
  | pktDlAss => exact h1.elim
  | immAssDl => exact h1.elim
  | idleTimer => exact h1.elim
  | ccchReady a =>
    have e1 : (Ctx.ccchReady a (s.es.map Gre.n) s).1 = s' := congrArg Prod.fst (Res.ok.inj hs)
    have e2 : (Ctx.ccchReady a (s.es.map Gre.n) s).2 = o := congrArg Prod.snd (Res.ok.inj hs)
    rw [← e1, ← e2]
    exact .inr ⟨mv_ccchReady (env := env) a _ (fun _ => trivial) h, ccchReady_outs a _ s⟩
  | cnf fn ts =>
    cases hs
    refine .inr ⟨?_, noCfg_nil, nil⟩
    unfold Ctx.txCnf
    split
    · exact .refl Calm.refl s
    · rename_i g hg
      have hm := List.mem_of_find?_eq_some hg
      cases hu : g.ul with
      | none => exact .refl Calm.refl s
      | some y => exact mv_freeUl_mem h hm trivial (t := y.2) hu
  | pktUlAss id m poll fn ts =>
    simp only [Ctx.step, Ctx.rxPktUlAss] at hs
    split at hs
    · exact .inr (same hs)
    · rename_i g hg
      split at hs
      · exact .inr (same hs)
      · rename_i i t hu
        exact .inr (ule (byId_mem hg) hu hs)
  | ulAck tfi final poll tbfEst fn ts =>
    simp only [Ctx.step, Ctx.rxUlAck] at hs
    split at hs
    · exact .inr (same hs)
    · rename_i g hg
      split at hs
      · exact .inr (same hs)
      · rename_i i t hu
        exact .inr (ule (List.mem_of_find?_eq_some hg) hu hs)
  | dlData tfi last poll fn ts =>
    simp only [Ctx.step] at hs
    refine .inr ⟨mv_rxDlData h (fun _ _ => trivial) hs, ?_⟩
    unfold Ctx.rxDlData at hs
    split at hs
    · exact (same hs).2
    · split at hs
      · exact (same hs).2
      · simp only [] at hs
        split at hs
        · cases hs; exact ⟨noCfg_nil, nil⟩
        · split at hs
          · cases hs; exact ⟨noCfg_nil, nil⟩
          · cases hs
          · cases hs
        · cases hs
        · cases hs
  | immAssUl m fn ts =>
    simp only [Ctx.step, Ctx.rxImmAssUl] at hs
    split at hs
    · exact .inr (same hs)
    · rename_i g hg
      split at hs
      · exact .inr (same hs)
      · rename_i i t hu
        exact .inr (ule (List.mem_of_find?_eq_some hg) hu hs)
  | unitdata a tlli =>
    have e1 : (s.unitdata a tlli).1 = s' := congrArg Prod.fst (Res.ok.inj hs)
    have e2 : (s.unitdata a tlli).2 = o := congrArg Prod.snd (Res.ok.inj hs)
    rw [← e1, ← e2]
    unfold Ctx.unitdata
    split
    · rename_i g hg
      obtain ⟨l, hl⟩ := startUl_rachOuts s a g.n
      rw [hl]
      exact .inr ⟨mv_startUl h a trivial, noCfg_rach _ _, noRel_rach _ _⟩
    · have w1 : (s.addGre tlli 0xffffffff []).W := wf_addGre h _ _ _
      obtain ⟨l, hl⟩ := startUl_rachOuts (s.addGre tlli 0xffffffff []) a s.made
      rw [hl]
      exact .inr ⟨(mv_addGre trivial _ _ _).trans calm_trans (mv_startUl w1 a trivial), noCfg_rach _ _, noRel_rach _ _⟩
  | assign old new ptmsi imsi =>
    cases hs
    unfold Ctx.assign
    split
    · split
      · exact .inr ⟨.refl Calm.refl s, noCfg_nil, nil⟩
      · split
        · exact .inr ⟨.refl Calm.refl s, noCfg_nil, nil⟩
        · exact .inr ⟨mv_addGre trivial _ _ _, noCfg_nil, nil⟩
    · rename_i ho
      split
      · exact .inr ⟨.refl Calm.refl s, noCfg_nil, nil⟩
      · rename_i g hg
        split
        · rename_i hn
          subst hn
          exact .inl ⟨g, List.mem_of_find?_eq_some hg, ⟨old, ptmsi, imsi, rfl, ho, hg⟩, rfl, rfl⟩
        · exact .inr ⟨mv_names s trivial (fun g => { g.names with tlli := new, oldTlli := old, ptmsi := ptmsi, imsi := imsi })
            (fun _ => rfl), noCfg_nil, nil⟩
  | ulTimer a n u =>
    simp only [Ctx.step, Ctx.ulTimer] at hs
    split at hs
    · exact .inr (same hs)
    · rename_i g hg
      obtain ⟨hm, rfl⟩ := gre?_mem hg
      split at hs
      · exact .inr (same hs)
      · rename_i i t hu
        exact .inr (ule hm hu hs)
  | t3190 n => cases hs; exact .inr ⟨mv_dlTimer h trivial _, noCfg_nil, nil⟩
  | t3192 n => cases hs; exact .inr ⟨mv_dlTimer h trivial _, noCfg_nil, nil⟩

theorem frees_reassigns {e : CtxEv} {s : Ctx} {g : Gre} (h : Frees e s g) : Reassigns s g.n e := by
  obtain ⟨old, p, i, rfl, ho, hb⟩ := h
  exact ⟨ho, rfl, g, List.mem_of_find?_eq_some hb, rfl, byTlli_names hb⟩

theorem frees_givesUp {e : CtxEv} {s : Ctx} {g : Gre} (h : Frees e s g) : GivesUp s g.n e := by
  obtain ⟨old, p, i, rfl, ho, hb⟩ := h
  exact ⟨ho, rfl, g, List.mem_of_find?_eq_some hb, rfl, byTlli_names hb⟩

theorem mem_freeGre {s : Ctx} {g g' : Gre} : g' ∈ (s.freeGre g).es ↔ g' ∈ s.es ∧ g'.n ≠ g.n := by
  simp [Ctx.freeGre, List.mem_filter]

/-- **The downlink assignment of an entity stays**, and its downlink TBF is not configured anew, unless the entity is
assigned or given up, or its starting time comes. -/
theorem dlAss_keeps {env : UlEnv} {s s' : Ctx} (h : s.W) {e : CtxEv} {o : List CtxOut} (hs : s.step env e = .ok (s', o))
    {g : Gre} (hg : g ∈ s.es) (hr : ¬ Reassigns s g.n e) (hd : ∀ a fn ts usf, e = .rts a fn ts usf → ¬ Due g fn ts) :
    (∃ g' ∈ s'.es, g'.n = g.n ∧ g'.ass = g.ass) ∧ ∀ a, .cfgDl g.n a ∉ o := by
  have other : ∀ n, g.n ≠ n → OnlyTouches n s s' o →
      (∃ g' ∈ s'.es, g'.n = g.n ∧ g'.ass = g.ass) ∧ ∀ a, .cfgDl g.n a ∉ o := fun n hn ht =>
    ⟨⟨g, (ht.others g hn).1 hg, rfl, rfl⟩, fun a ha => hn (ht.outs _ ha)⟩
  by_cases hp : Plain e
  · rcases step_plain h hp hs with ⟨g0, hg0, hf, rfl, rfl⟩ | ⟨m, c, -⟩
    · refine ⟨⟨g, mem_freeGre.2 ⟨hg, fun en => hr (by rw [en]; exact frees_reassigns hf)⟩, rfl, rfl⟩, fun a ha => by cases ha⟩
    · obtain ⟨g', a, b, d, -⟩ := m.fwd g hg
      exact ⟨⟨g', a, b, d.1⟩, c g.n⟩
  · cases e with
    | rts a fn ts usf =>
      simp only [Ctx.step, Ctx.rts] at hs
      split at hs
      · cases hs
      · split at hs
        · rename_i s1 o1 ht
          split at hs
          · rename_i s2 o2 hv
            cases hs
            have w1 := wf_tickAll (keeping_true env) (fun _ => trivial) _ h ht
            obtain ⟨-, -, k⟩ := tickAll_each (env := env) _ h h.nd ht
            obtain ⟨⟨g1, m1, n1, a1⟩, c1⟩ := (k g hg).2 (fun x => hd _ _ _ _ rfl x.2)
            obtain ⟨g2, m2, n2, a2, -⟩ := (mv_serve (fun _ => trivial) w1 hv).fwd (N := fun _ => True) g1 m1
            refine ⟨⟨g2, m2, n2.trans n1, a2.1.trans a1⟩, fun a ha => ?_⟩
            rcases List.mem_append.1 ha with ha | ha
            · exact c1 a ha
            · exact (serve_outs hv).1 _ a ha
          · cases hs
          · cases hs
        · cases hs
        · cases hs
    | pktDlAss id tfi start mask ca poll fn ts =>
      rcases step_only h (e := .pktDlAss id tfi start mask ca poll fn ts) trivial hs with ⟨rfl, rfl⟩ | ⟨g0, hg0, hc, ht⟩ | ⟨hno, ht⟩
      · exact ⟨⟨g, hg, rfl, rfl⟩, fun a ha => by cases ha⟩
      · exact other g0.n (fun en => hr ⟨g0, hg0, en.symm, hc⟩) ht
      · exact other s.made (fun en => absurd (h.lt g hg) (by rw [en]; exact Nat.lt_irrefl _)) ht
    | immAssDl tlli tfi start fn ts =>
      rcases step_only h (e := .immAssDl tlli tfi start fn ts) trivial hs with ⟨rfl, rfl⟩ | ⟨g0, hg0, hc, ht⟩ | ⟨hno, ht⟩
      · exact ⟨⟨g, hg, rfl, rfl⟩, fun a ha => by cases ha⟩
      · exact other g0.n (fun en => hr ⟨g0, hg0, en.symm, hc⟩) ht
      · exact other s.made (fun en => absurd (h.lt g hg) (by rw [en]; exact Nat.lt_irrefl _)) ht
    | idleTimer n =>
      have e1 : (s.idleTimer n).1 = s' := congrArg Prod.fst (Res.ok.inj hs)
      have e2 : (s.idleTimer n).2 = o := congrArg Prod.snd (Res.ok.inj hs)
      constructor
      · obtain ⟨g', a, b, d, -⟩ := (mv_idleTimer s (N := fun _ => True) (n := n) trivial (Q := NoQ)).fwd g hg
        rw [e1] at a
        exact ⟨g', a, b, d.1⟩
      · intro a ha
        rw [← e2] at ha
        unfold Ctx.idleTimer at ha
        split at ha
        · cases ha
        · split at ha
          · cases List.mem_singleton.1 ha
          · cases ha
    | _ => exact absurd trivial hp

/-- Every event but the idle timer and giving up an entity: what changes, and what is used up. -/
theorem step_moves {env : UlEnv} {s s' : Ctx} (h : s.W) {e : CtxEv} {o : List CtxOut} (hs : s.step env e = .ok (s', o)) :
    (∃ g ∈ s.es, Frees e s g ∧ s' = s.freeGre g ∧ o = []) ∨
    (∃ n, e = .idleTimer n ∧ s' = (s.idleTimer n).1 ∧ o = (s.idleTimer n).2) ∨
      Moves Idling (fun _ => True) (UsedBy e) s s' ∧ .pdchRel ∉ o := by
  by_cases hp : Plain e
  · rcases step_plain h hp hs with h1 | ⟨m, -, c⟩
    · exact .inl h1
    · exact .inr (.inr ⟨m.mono calm_idling (fun _ x => x) (fun _ _ x => x.elim), c⟩)
  · cases e with
    | rts a fn ts usf =>
      simp only [Ctx.step, Ctx.rts] at hs
      split at hs
      · cases hs
      · split at hs
        · rename_i s1 o1 ht
          split at hs
          · rename_i s2 o2 hv
            cases hs
            have w1 := wf_tickAll (keeping_true env) (fun _ => trivial) _ h ht
            obtain ⟨m, c, -⟩ := tickAll_each (env := env) _ h h.nd ht
            refine .inr (.inr ⟨(m.mono (fun _ _ x => x) (fun _ x => x) (fun _ _ x => x.elim)).trans idling_trans
              ((mv_serve (fun _ => trivial) w1 hv).mono calm_idling (fun _ x => x) (fun _ _ x => x)), fun hx => ?_⟩)
            rcases List.mem_append.1 hx with hx | hx
            · obtain ⟨_, _, hx⟩ := c _ hx
              cases hx
            · exact (serve_outs hv).2 hx
          · cases hs
          · cases hs
        · cases hs
        · cases hs
    | pktDlAss id tfi start mask ca poll fn ts =>
      simp only [Ctx.step] at hs
      refine .inr (.inr ⟨(mv_rxPktDlAss (Q := NoQ) h (fun _ _ => trivial) hs).mono (fun _ _ x => x) (fun _ x => x)
        (fun _ _ x => x.elim), fun hx => ?_⟩)
      unfold Ctx.rxPktDlAss at hs
      split at hs
      · cases hs; cases hx
      · split at hs
        · rename_i s1 o1 h1
          split at hs
          · cases hs
            obtain ⟨_, hx⟩ := dlAssign_outs h1 _ hx
            cases hx
          · cases hs
          · cases hs
        · cases hs
        · cases hs
    | immAssDl tlli tfi start fn ts =>
      simp only [Ctx.step, Ctx.rxImmAssDl] at hs
      split at hs
      · cases hs; exact .inr (.inr ⟨.refl Idling.refl s, fun h => by cases h⟩)
      · rename_i g hg
        refine .inr (.inr ⟨(mv_dlAssign (Q := NoQ) h (List.mem_of_find?_eq_some hg) trivial hs).mono (fun _ _ x => x)
          (fun _ x => x) (fun _ _ x => x.elim), fun hx => ?_⟩)
        obtain ⟨_, hx⟩ := dlAssign_outs hs _ hx
        cases hx
    | idleTimer n =>
      have e1 : (s.idleTimer n).1 = s' := congrArg Prod.fst (Res.ok.inj hs)
      have e2 : (s.idleTimer n).2 = o := congrArg Prod.snd (Res.ok.inj hs)
      exact .inr (.inl ⟨n, rfl, e1.symm, e2.symm⟩)
    | _ => exact absurd trivial hp

/-- The starting time of an entity comes. -/
theorem rts_due {env : UlEnv} {s s' : Ctx} (h : s.W) {a : Avail} {fn ts usf : Nat} {o : List CtxOut}
    (hs : s.step env (.rts a fn ts usf) = .ok (s', o)) {g : Gre} (hg : g ∈ s.es) (hd : Due g fn ts) :
    .cfgDl g.n g.ass.alloc ∈ o ∧ (∀ x, .cfgDl g.n x ∈ o → x = g.ass.alloc) ∧ ∃ g' ∈ s'.es, g'.n = g.n ∧ g'.ass = .idle := by
  simp only [Ctx.step, Ctx.rts] at hs
  split at hs
  · cases hs
  · split at hs
    · rename_i s1 o1 ht
      split at hs
      · rename_i s2 o2 hv
        cases hs
        have w1 := wf_tickAll (keeping_true env) (fun _ => trivial) _ h ht
        obtain ⟨-, -, k⟩ := tickAll_each (env := env) _ h h.nd ht
        obtain ⟨c, d, g1, m1, n1, a1⟩ := (k g hg).1 (List.mem_map.2 ⟨g, hg, rfl⟩) hd
        obtain ⟨g2, m2, n2, a2, -⟩ := (mv_serve (fun _ => trivial) w1 hv).fwd (N := fun _ => True) g1 m1
        refine ⟨List.mem_append_left _ c, fun x hx => ?_, g2, m2, n2.trans n1, a2.1.trans a1⟩
        rcases List.mem_append.1 hx with hx | hx
        · exact d x hx
        · exact absurd hx ((serve_outs hv).1 _ x)
      · cases hs
      · cases hs
    · cases hs
    · cases hs

/-- No reservation is left that is not later than the block. -/
theorem rts_expires {env : UlEnv} {s s' : Ctx} {a : Avail} {fn ts usf : Nat} {o : List CtxOut}
    (hs : s.step env (.rts a fn ts usf) = .ok (s', o)) : ∀ x ∈ s'.polls.getD ts [], fncmp x.fn fn > 0 := by
  simp only [Ctx.step, Ctx.rts] at hs
  split at hs
  · cases hs
  · split at hs
    · split at hs
      · rename_i s2 o2 hv
        cases hs
        unfold Ctx.serve at hv
        split at hv
        · split at hv
          · cases hv
            intro x hx
            unfold Ctx.expire at hx
            simp only [getD_set] at hx
            split at hx
            · exact of_decide_eq_true (List.mem_filter.1 hx).2
            · rename_i hno
              rw [List.getD_eq_getElem?_getD, List.getElem?_eq_none (Nat.le_of_not_lt fun h => hno ⟨trivial, h⟩)] at hx
              cases hx
          · cases hv
          · cases hv
        · cases hv
        · cases hv
      · cases hs
      · cases hs
    · cases hs
    · cases hs

/-- Downlink assignments are as they should be in every reachable state. -/
theorem dlAss_step_inv {env : UlEnv} {s s' : Ctx} (h : s.W) {e : CtxEv} {o : List CtxOut} (hs : s.step env e = .ok (s', o))
    (ha : AssInv s) : AssInv s' := by
  rcases step_moves h hs with ⟨g, -, -, rfl, -⟩ | ⟨n, -, rfl, -⟩ | ⟨m, -⟩
  · exact fun g' hg' => ha g' (mem_freeGre.1 hg').1
  · exact (mv_idleTimer s (N := fun _ => True) (Q := NoQ) trivial).inv ha
  · exact m.inv ha

theorem dlAss_run_inv {env : UlEnv} (evs : List CtxEv) : ∀ {s s' : Ctx} {outs : List CtxOut}, s.W → AssInv s →
    s.run env evs = .ok (s', outs) → AssInv s' := by
  induction evs with
  | nil => intro s s' outs _ h e; cases e; exact h
  | cons v evs ih =>
    intro s s' outs w h e
    simp only [Ctx.run] at e
    split at e
    · rename_i s1 o1 hs
      split at e
      · rename_i hr
        cases e
        exact ih (step_wf (keeping_true env) w (evIn_true s v) nofun hs) (dlAss_step_inv w hs h) hr
      · cases e
      · cases e
    · cases e
    · cases e

/-- What a downlink assignment comes to. -/
theorem assign_step {env : UlEnv} {s s' : Ctx} (w : s.W) {g : Gre} {e : CtxEv} {a : DlAlloc} {start : Option StartTime}
    {fn : Nat} (ha : AssignsDl s g e a start fn) {sf : Option Nat} (hsf : StartsAt env fn start sf) {o : List CtxOut}
    (hs : s.step env e = .ok (s', o)) :
    ∃ m : DlAssMsg, (∀ tlli tfi st f ts, e = .immAssDl tlli tfi st f ts → m = .imm tfi st ts) ∧
      (∀ id tfi st mask ca poll f ts, e = .pktDlAss id tfi st mask ca poll f ts → m = .pkt tfi st mask) ∧
      (∃ g' ∈ s'.es, g'.n = g.n ∧ g'.ass =
        if (∃ f, sf = some f ∧ fncmp f fn > 0) then ⟨true, true, sf.getD 0, g.ass.tsNr, m.alloc g.ass.alloc⟩ else .idle) ∧
      o = if (∃ f, sf = some f ∧ fncmp f fn > 0) then [] else [.cfgDl g.n (m.alloc g.ass.alloc)] := by
  have main : ∀ (m : DlAssMsg), m.start = start → g ∈ s.es → ∀ {s1 : Ctx} {o1}, s.dlAssign env g m fn = .ok (s1, o1) →
      (∃ g' ∈ s1.es, g'.n = g.n ∧ g'.ass =
        if (∃ f, sf = some f ∧ fncmp f fn > 0) then ⟨true, true, sf.getD 0, g.ass.tsNr, m.alloc g.ass.alloc⟩ else .idle) ∧
      o1 = if (∃ f, sf = some f ∧ fncmp f fn > 0) then [] else [.cfgDl g.n (m.alloc g.ass.alloc)] := by
    intro m hm hg s1 o1 hd
    have hst : startFn? env fn m.start = .ok sf := by
      rw [hm]
      unfold StartsAt at hsf
      split at hsf
      · rw [hsf]; rfl
      · obtain ⟨f, h1, rfl⟩ := hsf
        simp only [startFn?, h1]
    have ht : g.ass.take env m fn = .ok { g.ass with alloc := m.alloc g.ass.alloc, startExists := sf.isSome, startFn := sf.getD g.ass.startFn } := by
      simp only [DlAss.take, hst]
    rw [dlAssign_eq ht] at hd
    have hiff : (sf.isSome = true ∧ fncmp (sf.getD g.ass.startFn) fn > 0) ↔ ∃ f, sf = some f ∧ fncmp f fn > 0 := by
      cases sf with
      | none => simp
      | some f => simp
    split at hd
    · rename_i hc
      cases hd
      have hc' := hiff.1 hc
      rw [if_pos hc', if_pos hc']
      obtain ⟨f, rfl, -⟩ := hc'
      exact ⟨⟨_, mem_setGre.2 ⟨g, hg, rfl⟩, by rw [if_pos rfl], by rw [if_pos rfl]; rfl⟩, rfl⟩
    · rename_i hc
      cases hd
      have hc' := fun x => hc (hiff.2 x)
      rw [if_neg hc', if_neg hc']
      exact ⟨⟨_, mem_setGre.2 ⟨g, hg, rfl⟩, by rw [if_pos rfl], by rw [if_pos rfl]⟩, rfl⟩
  cases e with
  | pktDlAss id tfi st mask ca poll f ts =>
    obtain ⟨ho, -, -, hst, hf⟩ := ha
    subst hst hf
    refine ⟨.pkt tfi start mask, (fun _ _ _ _ _ x => by cases x), (fun _ _ _ _ _ _ _ _ x => by cases x; rfl), ?_⟩
    simp only [Ctx.step, Ctx.rxPktDlAss, byId_only ho] at hs
    split at hs
    · rename_i s1 o1 h1
      obtain ⟨⟨g1, hg1, n1, a1⟩, e1⟩ := main (.pkt tfi start mask) rfl ho.1 h1
      split at hs
      · rename_i s2 h2
        obtain ⟨w1, nn⟩ := dlAssign_wf w ho.1 h1
        have w2 := (dlAssPoll_wf w1 (exists_n nn ho.1) h2).1
        obtain ⟨g2, hg2, n2, a2, -⟩ := (mv_dlAssPoll (N := fun _ => True) (Q := NoQ) h2).fwd g1 hg1
        cases hs
        refine ⟨?_, e1⟩
        split
        · obtain ⟨g3, hg3, n3, a3, -⟩ := (mv_ctrlAckRelease (N := fun _ => True) (Q := NoQ) w2 trivial).fwd g2 hg2
          exact ⟨g3, hg3, n3.trans (n2.trans n1), a3.1.trans (a2.1.trans a1)⟩
        · exact ⟨g2, hg2, n2.trans n1, a2.1.trans a1⟩
      · cases hs
      · cases hs
    · cases hs
    · cases hs
  | immAssDl tlli tfi st f ts =>
    obtain ⟨ho, -, -, hst, hf⟩ := ha
    subst hst hf
    refine ⟨.imm tfi start ts, (fun _ _ _ _ _ x => by cases x; rfl), (fun _ _ _ _ _ _ _ _ x => by cases x), ?_⟩
    have hb : s.byTlli tlli = some g := byId_only ho
    simp only [Ctx.step, Ctx.rxImmAssDl, hb] at hs
    exact main (.imm tfi start ts) rfl ho.1 hs
  | _ => exact ha.elim

/-- An entity keeps its downlink assignment in a quiet history. -/
theorem quiet_keeps {env : UlEnv} {n : Nat} {A : DlAss} {E : CtxEv → Prop}
    (hE : ∀ a fn ts usf, ¬ E (.rts a fn ts usf) → ¬ (A.waiting = true ∧ A.startFn = fn ∧ A.tsNr = ts)) (evs : List CtxEv) :
    ∀ {s s' : Ctx} {o : List CtxOut}, s.W → (∃ g ∈ s.es, g.n = n ∧ g.ass = A) → Quiet env n E s evs →
      s.run env evs = .ok (s', o) → (∃ g ∈ s'.es, g.n = n ∧ g.ass = A) ∧ ∀ a, .cfgDl n a ∉ o := by
  induction evs with
  | nil => intro s s' o _ h _ e; cases e; exact ⟨h, fun a ha => by cases ha⟩
  | cons v evs ih =>
    intro s s' o w h hq e
    obtain ⟨g, hg, rfl, rfl⟩ := h
    simp only [Ctx.run] at e
    split at e
    · rename_i s1 o1 hs
      split at e
      · rename_i s2 o2 hr
        cases e
        obtain ⟨k, c⟩ := dlAss_keeps w hs hg hq.1 (fun a fn ts usf ev hd => by
          subst ev; exact hE a fn ts usf hq.2.1 hd)
        obtain ⟨k', c'⟩ := ih (step_wf (keeping_true env) w (evIn_true s v) nofun hs) k (hq.2.2 s1 o1 hs) hr
        exact ⟨k', fun a ha => (List.mem_append.1 ha).elim (c a) (c' a)⟩
      · cases e
      · cases e
    · cases e
    · cases e

/-- In a history without another assignment, an entity begins only with the resources it waits for. -/
theorem quiet_alloc {env : UlEnv} {n : Nat} {A : DlAss} (evs : List CtxEv) :
    ∀ {s s' : Ctx} {o : List CtxOut}, s.W → (∃ g ∈ s.es, g.n = n ∧ (g.ass = A ∨ g.ass = .idle)) →
      Quiet env n (fun _ => False) s evs → s.run env evs = .ok (s', o) → ∀ a, .cfgDl n a ∈ o → a = A.alloc := by
  induction evs with
  | nil => intro s s' o _ h _ e a ha; cases e; cases ha
  | cons v evs ih =>
    intro s s' o w h hq e a ha
    obtain ⟨g, hg, rfl, hA⟩ := h
    simp only [Ctx.run] at e
    split at e
    · rename_i s1 o1 hs
      split at e
      · rename_i s2 o2 hr
        cases e
        have w1 := step_wf (keeping_true env) w (evIn_true s v) nofun hs
        by_cases hd : ∃ a fn ts usf, v = .rts a fn ts usf ∧ Due g fn ts
        · obtain ⟨av, fn, ts, usf, rfl, hd⟩ := hd
          obtain ⟨-, c, g', hg', n', a'⟩ := rts_due w hs hg hd
          have hAl : g.ass = A := by
            rcases hA with hA | hA
            · exact hA
            · have := hd.1; rw [hA] at this; cases this
          rcases List.mem_append.1 ha with ha | ha
          · rw [c a ha, hAl]
          · exact ih w1 ⟨g', hg', n', .inr a'⟩ (hq.2.2 s1 o1 hs) hr a ha
        · obtain ⟨⟨g', hg', n', a'⟩, c⟩ := dlAss_keeps w hs hg hq.1 (fun av fn ts usf ev hdd => hd ⟨av, fn, ts, usf, ev, hdd⟩)
          rcases List.mem_append.1 ha with ha | ha
          · exact absurd ha (c a)
          · exact ih w1 ⟨g', hg', n', by rw [a']; exact hA⟩ (hq.2.2 s1 o1 hs) hr a ha
      · cases e
      · cases e
    · cases e
    · cases e

theorem run_idle {env : UlEnv} {n : Nat} (evs : List CtxEv) : ∀ {s s' : Ctx} {o : List CtxOut}, s.W →
    (∃ g ∈ s.es, g.n = n ∧ g.idle = true) → StaysIdle env n s evs → s.run env evs = .ok (s', o) →
    ∃ g ∈ s'.es, g.n = n ∧ g.idle = true := by
  induction evs with
  | nil => intro s s' o _ h _ e; cases e; exact h
  | cons v evs ih =>
    intro s s' o w h hq e
    obtain ⟨g, hg, rfl, hi⟩ := h
    simp only [Ctx.run] at e
    split at e
    · rename_i s1 o1 hs
      split at e
      · rename_i s2 o2 hr
        cases e
        refine ih (step_wf (keeping_true env) w (evIn_true s v) nofun hs) ?_ (hq.2.2 s1 o1 hs) hr
        rcases step_moves w hs with ⟨g0, hg0, hf, rfl, -⟩ | ⟨m, rfl, rfl, -⟩ | ⟨m, -⟩
        · refine ⟨g, mem_freeGre.2 ⟨hg, fun en => hq.1 (by rw [en]; exact frees_givesUp hf)⟩, rfl, hi⟩
        · obtain ⟨g', hg', n', a', -⟩ := (mv_idleTimer s (N := fun _ => True) (n := m) (Q := NoQ) trivial).fwd g hg
          rw [a'.2 (fun en => hq.2.1 (by rw [en]))] at hg'
          exact ⟨g, hg', rfl, hi⟩
        · obtain ⟨g', hg', n', a', -⟩ := m.fwd g hg
          exact ⟨g', hg', n', a'.1 hi⟩
      · cases e
      · cases e
    · cases e
    · cases e

end Verif.Rlc
