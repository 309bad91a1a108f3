import Verif.Rlc.CtxSafe

/-!
# C31, C110, C111, C112: what a ready-to-send indication comes to; aborts; polls
-/
namespace Verif.Props
open Verif Verif.Rlc Verif.Spec

/-- Everything is available: queued data, blocks to send, a lower layer that takes requests, a working encoder. -/
def allOk : Avail := ⟨fun _ => true, fun _ => some false, true, fun _ => true⟩

/-- Nothing is queued. -/
def noneQueued : Avail := ⟨fun _ => false, fun _ => none, true, fun _ => true⟩

/-- The end of a history that ends well. -/
def endOf (evs : List CtxEv) : Ctx × List CtxOut :=
  match Ctx.init.run env1 evs with
  | .ok r => r
  | _ => (Ctx.init, [])

/-! ## C31 -/

/-- **C31** (full).  In every reachable state, what a ready-to-send indication comes to is good (`GoodRts`, `DataFirst`)
for the state in which the block is chosen, that is after the TBFs whose starting time has come were started. -/
def C31Statement : Prop :=
  ∀ env evs s outs0, Ctx.init.run env evs = .ok (s, outs0) →
    ∀ o fn ts usf s' outs, s.step env (.rts o fn ts usf) = .ok (s', outs) →
      ∃ s1 o1, s.tickAll fn ts (s.es.map Gre.n) = .ok (s1, o1) ∧
        GoodRts s1 o fn ts usf outs ∧ DataFirst s1 o fn ts usf outs

/-- **C31**: at most one block for each indication, for the timeslot and frame number indicated; control messages before
data and dummy blocks; data only in a block that belongs to the TBF; a dummy block only if the TBF has no data; no block
that belongs to a TBF stays unused.  Partial: that no dummy block is sent as long as *any* TBF the block belongs to has
data is shown only if the network gave the block to no more than one TBF. -/
theorem c31_rts_good_partial {env : UlEnv} {evs : List CtxEv} {s : Ctx} {outs0 : List CtxOut}
    (hr : Ctx.init.run env evs = .ok (s, outs0)) {o : Avail} {fn ts usf : Nat} {s' : Ctx} {outs : List CtxOut}
    (h : s.step env (.rts o fn ts usf) = .ok (s', outs)) :
    ∃ s1 o1, s.tickAll fn ts (s.es.map Gre.n) = .ok (s1, o1) ∧ GoodRts s1 o fn ts usf outs ∧
      (OneOwner s1 ts usf → DataFirst s1 o fn ts usf outs) := by
  have w := run_wf evs (init_wf false _) hr
  simp only [Ctx.step, Ctx.rts] at h
  split at h
  · cases h
  · split at h
    · rename_i s1 o1 ht
      split at h
      · rename_i s2 o2 hs
        cases h
        have w1 := wf_tickAll (keeping_true env) (fun _ => trivial) _ w ht
        have hg := serve_good w1 hs
        have he : blocksIn (o1 ++ o2) = blocksIn o2 := by
          rw [blocksIn_append, tickAll_out fn ts _ ht, List.nil_append]
        have hg' : GoodRts s1 o fn ts usf (o1 ++ o2) := by
          obtain ⟨a, b, c, d, e⟩ := hg
          exact ⟨he ▸ a, he ▸ b, he ▸ c, he ▸ d, he ▸ e⟩
        exact ⟨s1, o1, ht, hg', dataFirst_of_one hg'⟩
      · cases h
      · cases h
    · cases h
    · cases h

/-- Two entities whose TBFs were given the same USF on the same timeslot. -/
def sharedUsf : List CtxEv :=
  [.unitdata allOk 1, .unitdata allOk 2, .immAssUl (.dynamic 1 3 none) 100 4, .immAssUl (.dynamic 2 3 none) 104 4]

/-- The first of them has nothing to send, the second has. -/
def secondHasData : Avail := ⟨fun _ => true, fun n => if n = 1 then some false else none, true, fun _ => true⟩

/-- **C31 is violated** as stated: the first TBF takes the block for a dummy block, and the data of the second waits. -/
theorem c31_shared_usf_violated : ¬ C31Statement := by
  intro h
  obtain ⟨s1, o1, ht, -, hd⟩ := h env1 sharedUsf (endOf sharedUsf).1 (endOf sharedUsf).2 rfl secondHasData 108 4 3
    (match (endOf sharedUsf).1.step env1 (.rts secondHasData 108 4 3) with | .ok r => r.1 | _ => Ctx.init)
    [.block 4 108 0 .dummy] rfl
  have e : s1 = (endOf sharedUsf).1 := by cases ht; rfl
  subst e
  refine hd 0 (List.mem_singleton.2 rfl) 1 ?_
  refine ⟨((endOf sharedUsf).1.es)[1]'(by decide), List.getElem_mem _, rfl, ⟨_, _, rfl, rfl⟩, ⟨_, _, rfl, .inl rfl⟩, by decide⟩

/-- One entity that may send data. -/
def oneSending : List CtxEv := [.unitdata allOk 1, .immAssUl (.dynamic 1 3 none) 100 4]

example : ∃ s' , (endOf oneSending).1.step env1 (.rts allOk 104 4 3) = .ok (s', [.block 4 104 0 .data]) := ⟨_, rfl⟩
example : ∃ s' , (endOf oneSending).1.step env1 (.rts noneQueued 104 4 3) = .ok (s', [.block 4 104 0 .dummy]) := ⟨_, rfl⟩
example : ∃ s' , (endOf oneSending).1.step env1 (.rts allOk 104 4 2) = .ok (s', []) := ⟨_, rfl⟩
example : ∃ s' , (endOf (oneSending ++ [.rts allOk 104 4 3, .ulAck 1 false (some 0) false 104 4])).1.step env1
    (.rts allOk 117 4 3) = .ok (s', [.block 4 117 0 .ctrlAck]) := ⟨_, rfl⟩

/-! ## C110 -/

/-- **C110** (full).  In every history of well-formed events nothing aborts and nothing freed is used. -/
def C110Statement : Prop :=
  ∀ env evs s outs, Ctx.init.run env evs = .ok (s, outs) → (∀ e ∈ evs, WellFormed e) → ∀ e, WellFormed e →
    ∃ s' o, s.step env e = .ok (s', o)

/-- **C110**: a history of fewer than 2³² events that are well-formed and in turn (`InTurn`: no acknowledgement reaches a
TBF that has sent nothing; a TBF being released that may ask for a new one is polled in a block that belongs to it; no
entity is given up while its answer to a downlink assignment is outstanding) ends well, whatever the schedule. -/
theorem c110_no_abort_partial (env : UlEnv) (evs : List CtxEv) (hl : evs.length < 2 ^ 32)
    (h : CtxAsExpected env Ctx.init evs) : ∃ s outs, Ctx.init.run env evs = .ok (s, outs) := by
  obtain ⟨s', o, e, -⟩ := run_ok env evs (k := 0) (init_wf true _) (by omega) h
  exact ⟨s', o, e⟩

theorem asExpected_cons {env : UlEnv} {s s1 : Ctx} {e : CtxEv} {es : List CtxEv} {o1 : List CtxOut}
    (hw : WellFormed e) (ht : InTurn s e) (hs : s.step env e = .ok (s1, o1)) (hr : CtxAsExpected env s1 es) :
    CtxAsExpected env s (e :: es) := by
  refine ⟨hw, ht, fun s' o h => ?_⟩
  rw [hs] at h
  cases h
  exact hr

/-- A history as expected: an uplink TBF is assigned, sends data, is acknowledged with a poll, answers it; a downlink TBF
is assigned on the PACCH with a poll. -/
example : CtxAsExpected env1 Ctx.init (oneSending ++ [.rts allOk 104 4 3, .ulAck 1 false (some 0) false 104 4,
    .rts allOk 117 4 3, .pktDlAss (.ulTfi 1) (some 2) none [true] false (some 0) 117 4, .rts allOk 130 4 3]) := by
  refine asExpected_cons trivial trivial rfl (asExpected_cons ⟨trivial, nofun⟩ trivial rfl
    (asExpected_cons ⟨by decide, rfl⟩ ?_ rfl (asExpected_cons ⟨by decide, by unfold ValidPoll; decide, .inl rfl⟩ ?_ rfl
    (asExpected_cons ⟨by decide, rfl⟩ ?_ rfl (asExpected_cons ⟨by decide, trivial, by unfold ValidPoll; decide, .inl rfl⟩
      trivial rfl (asExpected_cons ⟨by decide, rfl⟩ ?_ rfl trivial))))))
  · intro x hx
    cases hx
  · intro g hg i t hu _ hb
    rw [List.mem_singleton.1 hg] at hu
    cases hu
    exact absurd hb.2.2 (by decide)
  · intro x hx hf _ i ho g hg t hu hr
    rw [List.mem_singleton.1 hg] at hu
    cases hu
    cases hr
  · intro x hx hf hr
    rw [List.mem_singleton.1 hx] at hr
    cases hr

/-- A TBF whose last block was acknowledged finally with a poll, and that may ask for a new TBF. -/
def releasing : List CtxEv :=
  oneSending ++ [.rts ⟨fun _ => true, fun _ => some true, true, fun _ => true⟩ 104 4 3, .ulAck 1 true (some 0) true 104 4]

/-- **C110 is violated**: there is data for a new TBF, and the block the station was polled in carries another USF
(as polled blocks commonly do): an assertion fails. -/
theorem c110_new_tbf_violated : ¬ C110Statement := by
  intro h
  obtain ⟨s', o, e⟩ := h env1 releasing (endOf releasing).1 (endOf releasing).2 rfl (by
    intro e he
    simp only [releasing, oneSending, List.cons_append, List.nil_append, List.mem_cons, List.not_mem_nil, or_false] at he
    rcases he with rfl | rfl | rfl | rfl
    · trivial
    · exact ⟨trivial, nofun⟩
    · exact ⟨by decide, rfl⟩
    · exact ⟨by decide, by unfold ValidPoll; decide, .inl rfl⟩)
    (.rts allOk 117 4 7) ⟨by decide, rfl⟩
  have : (endOf releasing).1.step env1 (.rts allOk 117 4 7) = .ub .assertFail := rfl
  rw [this] at e
  cases e

/-- An entity was given up (GMMRR-ASSIGN.req without a new TLLI) after it was polled in a downlink assignment. -/
def givenUp : List CtxEv :=
  [.assign noTlli 5 1 [], .pktDlAss (.tlli 5) (some 1) none [false, false, false, false, true] false (some 0) 104 4,
   .assign 5 noTlli 1 []]

/-- **C110 is violated** again: the answer is prepared from the entity that was freed. -/
theorem c110_freed_entity_violated : ¬ C110Statement := by
  intro h
  obtain ⟨s', o, e⟩ := h env1 givenUp (endOf givenUp).1 (endOf givenUp).2 rfl (by
    intro e he
    simp only [givenUp, List.mem_cons, List.not_mem_nil, or_false] at he
    rcases he with rfl | rfl | rfl
    · trivial
    · exact ⟨by decide, trivial, by unfold ValidPoll; decide, .inl rfl⟩
    · trivial)
    (.rts allOk 117 4 7) ⟨by decide, rfl⟩
  have : (endOf givenUp).1.step env1 (.rts allOk 117 4 7) = .ub .useAfterFree := rfl
  rw [this] at e
  cases e

/-! ## C111 -/

/-- **C111** (full).  Whenever the encoder works, the block a station was polled for carries its answer: that of the
entity that was polled, and of the kind that was asked for. -/
def C111Statement : Prop :=
  ∀ env evs s outs0, Ctx.init.run env evs = .ok (s, outs0) →
    ∀ o fn ts usf s' outs, (∀ k, o.enc k = true) → s.step env (.rts o fn ts usf) = .ok (s', outs) →
      ∃ s1 o1, s.tickAll fn ts (s.es.map Gre.n) = .ok (s1, o1) ∧
        ∀ x ∈ s1.polls.getD ts [], x.fn = fn → ∀ g ∈ s1.es, Polled x g →
          ∃ b, blocksIn outs = [(ts, fn, g.n, b)] ∧ AnswerTo x g o b

/-- What excludes the two cases in which there is no answer. -/
def Answers (s : Ctx) (x : PollNode) (g : Gre) (fn ts usf : Nat) : Prop :=
  (x.reason = .ulAss → ∃ i t, g.ul = some (i, t) ∧ t.ass = .waitStart2) ∧
  (x.reason = .dlAck → (∃ d, g.dl = some d ∧ d.st = .finished) ∨ ∀ n, ¬ ResReqDue s fn ts usf n)

theorem ulAssCand_none {s : Ctx} {fn ts usf : Nat} (h : ∀ n, ¬ ResReqDue s fn ts usf n) : s.ulAssCand fn ts usf = none := by
  unfold Ctx.ulAssCand
  rw [List.find?_eq_none]
  intro g hg hr
  rw [List.mem_reverse] at hg
  cases hu : g.ul with
  | none => simp [Gre.assRts, hu] at hr
  | some y =>
    simp only [Gre.assRts, hu] at hr
    obtain ⟨h1, h2⟩ := assRts_iff.1 hr
    exact h g.n ⟨g, hg, rfl, y.1, y.2, hu, h1, h2⟩

theorem orNext_first {r : Ctx × Option (Nat × UlBlk)} {f : Ctx → Ctx × Option (Nat × UlBlk)} {m : Nat × UlBlk}
    (h : r.2 = some m) : (orNext r f).2 = some m := by
  obtain ⟨s, m'⟩ := r
  cases h
  rfl

theorem dlAckMsg_eq {s : Ctx} {P : UlTbf → Prop} (h : s.WF false P) {g : Gre} (hg : g ∈ s.es) {d : DlLink} (hd : g.dl = some d)
    {o : Avail} (ho : ∀ k, o.enc k = true) (ts : Nat) :
    (s.dlAckMsg o g.n ts).2 = some (g.n, .dlAck (d.st = .finished) (g.wantsUl o)) := by
  unfold Ctx.dlAckMsg
  simp only [gre?_of_mem h.nd hg, hd, ho, if_true]

/-- The answer is what is selected. -/
theorem poll_answer {P : UlTbf → Prop} {s s1 s2 : Ctx} (h : s.WF false P) {o : Avail} {fn ts usf : Nat} {c : Option Cand}
    {m : Option (Nat × UlBlk)} (ho : ∀ k, o.enc k = true) {x : PollNode} (hx : x ∈ s.polls.getD ts []) (hf : x.fn = fn)
    {g : Gre} (hg : g ∈ s.es) (hpol : Polled x g) (ha : Answers s x g fn ts usf) (hp : s.takePoll o ts fn = .ok (s1, c))
    (e : s1.selectCtrl o fn ts usf (s1.ulAssCand fn ts usf) c = .ok (s2, m)) :
    ∃ b, m = some (g.n, b) ∧ AnswerTo x g o b := by
  subst hf
  obtain ⟨w1, hes, -, hc⟩ := takePoll_wf h hp
  obtain ⟨hpc, -⟩ := takePoll_of h hx hp
  have hlive := (getD_polls h.polls ts).1 x hx
  have hg1 : g ∈ s1.es := hes ▸ hg
  -- the entity that was polled
  have mine : ∀ {i g0}, g0 ∈ s.es → g0.Has i → x.owner = .tbf i → g0 = g := by
    intro i g0 hg0 h0 hxo
    unfold Polled at hpol
    rw [hxo] at hpol
    have : g.Has i := by
      rcases hpol with ⟨t, hu⟩ | ⟨d, hd, rfl⟩
      · exact .inl (ulId_of hu)
      · exact .inr (dlId_of hd)
    exact h.only hg g0 hg0 (h.uu g0 hg0 g hg i h0 this)
  have ulOf : ∀ {i}, g.ulId = some i → ∃ t, g.ul = some (i, t) := by
    intro i hi
    cases hu : g.ul with
    | none => rw [Gre.ulId, hu] at hi; cases hi
    | some y =>
      rw [Gre.ulId, hu] at hi
      cases hi
      exact ⟨y.2, rfl⟩
  have dlOf : ∀ {i}, g.dlId = some i → ∃ d, g.dl = some d ∧ d.id = i := by
    intro i hi
    cases hu : g.dl with
    | none => rw [Gre.dlId, hu] at hi; cases hi
    | some d =>
      rw [Gre.dlId, hu] at hi
      cases hi
      exact ⟨d, rfl, rfl⟩
  unfold Live at hlive
  split at hlive
  · rename_i i hr hxo
    obtain ⟨g0, hg0, hi⟩ := hlive
    have := mine hg0 (.inl hi) hxo
    subst this
    obtain ⟨t, hu⟩ := ulOf hi
    obtain ⟨i', t', hu', hw⟩ := ha.1 hr
    rw [hu] at hu'
    cases hu'
    simp only [Ctx.pollCand, hr, hxo, ulOwner_eq h hg hi, Res.ok.injEq] at hpc
    subst hpc
    have hm := congrArg Prod.snd (Res.ok.inj e)
    refine ⟨.ctrlAck, ?_, by simp [AnswerTo, hr]⟩
    refine hm.symm.trans ?_
    refine orNext_first ?_
    simp [Ctx.ulAssMsg, gre?_of_mem w1.nd hg1, hu, hw, ho, UlTbf.createMsg, msgOf]
  · rename_i i hr hxo
    obtain ⟨g0, hg0, hi⟩ := hlive
    have := mine hg0 (.inl hi) hxo
    subst this
    obtain ⟨t, hu⟩ := ulOf hi
    simp only [Ctx.pollCand, hr, hxo, ulOwner_eq h hg hi, Res.ok.injEq] at hpc
    subst hpc
    have hcr : (g0.ul.any (fun u => u.2.st == .releasing && u.2.hasTbfEst) && o.queued g0.n && g0.dl.isNone)
        = g0.canRequestNew o := by
      simp [Gre.canRequestNew, hu]
    by_cases hn : g0.canRequestNew o = true
    · rw [if_pos hn] at e
      refine ⟨.resReq, ?_, by simp only [AnswerTo, hr, hcr, hn, if_true]⟩
      simp only [Ctx.selectCtrl] at e
      split at e
      · rename_i r hr'
        have hm := congrArg Prod.snd (Res.ok.inj e)
        refine hm.symm.trans ?_
        refine orNext_first ?_
        obtain ⟨c1, c2⟩ := newUlMsg_cases w1 hr'
        cases hr2 : r.2 with
        | none => exact absurd ho (c2 hr2).2
        | some m' => rw [c1 m' hr2]
      · cases e
      · cases e
    · rw [if_neg hn] at e
      have hm := congrArg Prod.snd (Res.ok.inj e)
      refine ⟨.ctrlAck, ?_, by simp only [AnswerTo, hr, hcr, hn, Bool.false_eq_true, if_false]⟩
      refine hm.symm.trans ?_
      simp only [ho, if_true]
  · rename_i i hr hxo
    obtain ⟨g0, hg0, hi⟩ := hlive
    have := mine hg0 (.inr hi) hxo
    subst this
    obtain ⟨d, hd, -⟩ := dlOf hi
    simp only [Ctx.pollCand, hr, hxo, dlOwner_eq h hg hi, hd, Res.ok.injEq] at hpc
    subst hpc
    refine ⟨.dlAck (d.st = .finished) (g0.wantsUl o), ?_, ?_⟩
    · by_cases hfin : d.st = .finished
      · rw [if_pos hfin] at e
        have hm := congrArg Prod.snd (Res.ok.inj e)
        refine hm.symm.trans ?_
        exact orNext_first (dlAckMsg_eq w1 hg1 hd ho ts)
      · rw [if_neg hfin] at e
        have hno : ∀ n, ¬ ResReqDue s1 x.fn ts usf n := by
          rcases ha.2 hr with ⟨d', hd', hf'⟩ | hno
          · rw [hd] at hd'
            cases hd'
            exact absurd hf' hfin
          · intro n hn
            unfold ResReqDue at hn
            rw [hes] at hn
            exact hno n hn
        rw [ulAssCand_none hno] at e
        have hm := congrArg Prod.snd (Res.ok.inj e)
        refine hm.symm.trans ?_
        exact dlAckMsg_eq w1 hg1 hd ho ts
    · simp only [AnswerTo, hr, hd, Gre.wantsUl, Option.any_some]
      cases d.st <;> rfl
  · rename_i n hr hxo
    have hgn : g.n = n := by
      unfold Polled at hpol
      rw [hxo] at hpol
      exact hpol
    subst hgn
    simp only [Ctx.pollCand, hr, hxo, gre?_of_mem h.nd hg, Res.ok.injEq] at hpc
    subst hpc
    have hm := congrArg Prod.snd (Res.ok.inj e)
    refine ⟨.ctrlAck, ?_, by simp only [AnswerTo, hr]⟩
    refine hm.symm.trans ?_
    refine orNext_first ?_
    simp only [ho, if_true]
  · exact hlive.elim

/-- **C111**: in the block it was polled for, the station answers, and with what was asked for: PACKET CONTROL
ACKNOWLEDGEMENT; a PACKET RESOURCE REQUEST instead if the poll was in the final acknowledgement, another uplink TBF may
be asked for and there is data for it; or PACKET DOWNLINK ACK/NACK, final if all was received, and with a channel request
if there is uplink data and no TBF for it.  Partial: not if an uplink assignment that was polled in has been completed
meanwhile, nor if a non-final downlink acknowledgement coincides with a due resource request. -/
theorem c111_polls_answered_partial {env : UlEnv} {evs : List CtxEv} {s : Ctx} {outs0 : List CtxOut}
    (hr : Ctx.init.run env evs = .ok (s, outs0)) {o : Avail} {fn ts usf : Nat} {s' : Ctx} {outs : List CtxOut}
    (ho : ∀ k, o.enc k = true) (h : s.step env (.rts o fn ts usf) = .ok (s', outs)) :
    ∃ s1 o1, s.tickAll fn ts (s.es.map Gre.n) = .ok (s1, o1) ∧
      ∀ x ∈ s1.polls.getD ts [], x.fn = fn → ∀ g ∈ s1.es, Polled x g → Answers s1 x g fn ts usf →
        ∃ b, blocksIn outs = [(ts, fn, g.n, b)] ∧ AnswerTo x g o b := by
  have w := run_wf evs (init_wf false _) hr
  simp only [Ctx.step, Ctx.rts] at h
  split at h
  · cases h
  · split at h
    · rename_i s1 o1 ht
      split at h
      · rename_i s2 o2 hs
        cases h
        have w1 := wf_tickAll (keeping_true env) (fun _ => trivial) _ w ht
        refine ⟨s1, o1, ht, fun x hx hf g hg hp ha => ?_⟩
        unfold Ctx.serve at hs
        split at hs
        · rename_i s3 c hp3
          split at hs
          · rename_i s4 m ro h4
            cases hs
            unfold Ctx.select at h4
            split at h4
            · rename_i s5 m' h5
              cases h4
              obtain ⟨b, e, hb⟩ := poll_answer w1 ho hx hf hg hp ha hp3 h5
              cases e
              refine ⟨b, ?_, hb⟩
              rw [blocksIn_append, tickAll_out fn ts _ ht]
              rfl
            · rename_i s5 h5
              obtain ⟨b, e, hb⟩ := poll_answer w1 ho hx hf hg hp ha hp3 h5
              cases e
            · cases h4
            · cases h4
          · cases hs
          · cases hs
        · cases hs
        · cases hs
      · cases h
      · cases h
    · cases h
    · cases h

/-- A TBF asked for resources, and is given them twice: first with a poll, then without. -/
def assignedTwice : List CtxEv :=
  [.unitdata allOk 1, .immAssUl (.single (.abs 0 0 0)) 0 4, .rts allOk 0 4 7,
   .pktUlAss (.tlli 1) (.dynamic (some 1) none [none, none, none, none, some 3]) (some 0) 104 4,
   .pktUlAss (.tlli 1) (.dynamic (some 1) none [none, none, none, none, some 3]) none 108 4]

/-- **C111 is violated**: the second assignment took effect at once, and in the block the first had asked for an
acknowledgement in, the station sends a dummy block. -/
theorem c111_assigned_twice_violated : ¬ C111Statement := by
  intro h
  obtain ⟨s1, o1, ht, hx⟩ := h env1 assignedTwice (endOf assignedTwice).1 (endOf assignedTwice).2 rfl noneQueued 117 4 3
    (match (endOf assignedTwice).1.step env1 (.rts noneQueued 117 4 3) with | .ok r => r.1 | _ => Ctx.init)
    [.block 4 117 0 .dummy] (fun _ => rfl) rfl
  have e : s1 = (endOf assignedTwice).1 := by cases ht; rfl
  subst e
  obtain ⟨b, e, ha⟩ := hx ⟨117, .ulAss, .tbf 0⟩ (List.mem_singleton.2 rfl) rfl
    (((endOf assignedTwice).1.es)[0]'(by decide)) (List.getElem_mem _) (.inl ⟨_, rfl⟩)
  cases e
  cases ha

/-- Polled in the acknowledgement of its data, with an uplink assignment, and with a downlink assignment. -/
example : ∃ x ∈ (endOf (oneSending ++ [.rts allOk 104 4 3, .ulAck 1 false (some 0) false 104 4])).1.polls.getD 4 [],
    x.fn = 117 ∧ x.reason = .ulAck := ⟨_, List.mem_singleton.2 rfl, rfl, rfl⟩

example : ∃ x ∈ (endOf (assignedTwice.take 4)).1.polls.getD 4 [], x.fn = 117 ∧ x.reason = .ulAss ∧
    ∃ g ∈ (endOf (assignedTwice.take 4)).1.es, Polled x g ∧ ∃ i t, g.ul = some (i, t) ∧ t.ass = .waitStart2 :=
  ⟨_, List.mem_singleton.2 rfl, rfl, rfl, _, List.mem_singleton.2 rfl, .inl ⟨_, rfl⟩, _, _, rfl, rfl⟩

example : ∃ s', (endOf (assignedTwice.take 4)).1.step env1 (.rts allOk 117 4 3) = .ok (s', [.block 4 117 0 .ctrlAck]) :=
  ⟨_, rfl⟩

/-- A finished downlink TBF, with uplink data waiting. -/
def dlFinished : List CtxEv :=
  [.assign noTlli 5 1 [], .immAssDl 5 1 none 100 4, .dlData 1 true (some 0) 104 4]

example : ∃ s', (endOf dlFinished).1.step env1 (.rts allOk 117 4 3) = .ok (s', [.block 4 117 0 (.dlAck true true)]) :=
  ⟨_, rfl⟩

/-! ## C112 -/

/-- **C112** (full).  In every reachable state, no two reservations share a timeslot and a frame number, and whoever was
polled still exists. -/
def C112Statement : Prop :=
  ∀ env evs s outs, Ctx.init.run env evs = .ok (s, outs) → ∀ l ∈ s.polls,
    (l.map PollNode.fn).Nodup ∧ ∀ x ∈ l, PolledLives s x

theorem live_polled {b : Bool} {s : Ctx} {x : PollNode} (hlive : Live b s.es x) (hb : b = true ∨ x.reason ≠ .dlAss) :
    PolledLives s x := by
  have ulOf : ∀ {g : Gre} {i}, g.ulId = some i → ∃ t, g.ul = some (i, t) := by
    intro g i hi
    cases hu : g.ul with
    | none => rw [Gre.ulId, hu] at hi; cases hi
    | some y =>
      rw [Gre.ulId, hu] at hi
      cases hi
      exact ⟨y.2, rfl⟩
  unfold Live at hlive
  split at hlive
  · rename_i i h1 h2
    obtain ⟨g, hg, hi⟩ := hlive
    obtain ⟨t, hu⟩ := ulOf hi
    simp only [PolledLives, h1]
    exact ⟨g, hg, i, t, h2, hu⟩
  · rename_i i h1 h2
    obtain ⟨g, hg, hi⟩ := hlive
    obtain ⟨t, hu⟩ := ulOf hi
    simp only [PolledLives, h1]
    exact ⟨g, hg, i, t, h2, hu⟩
  · rename_i i h1 h2
    obtain ⟨g, hg, hi⟩ := hlive
    simp only [PolledLives, h1]
    cases hu : g.dl with
    | none => rw [Gre.dlId, hu] at hi; cases hi
    | some d =>
      rw [Gre.dlId, hu] at hi
      cases hi
      exact ⟨g, hg, d, h2, hu⟩
  · rename_i n h1 h2
    rcases hb with rfl | hb
    · obtain ⟨g, hg, hn⟩ := hlive rfl
      simp only [PolledLives, h1]
      exact ⟨g, hg, by rw [h2, hn]⟩
    · exact absurd h1 hb
  · exact hlive.elim

/-- **C112**: no two reservations share a timeslot and a frame number; a reservation made for a TBF is dropped with the
TBF, whatever frees it.  Partial: not so those made for an entity. -/
theorem c112_reservations_live_partial {env : UlEnv} {evs : List CtxEv} {s : Ctx} {outs : List CtxOut}
    (h : Ctx.init.run env evs = .ok (s, outs)) :
    s.polls.length = 8 ∧ ∀ l ∈ s.polls, (l.map PollNode.fn).Nodup ∧ ∀ x ∈ l, x.reason ≠ .dlAss → PolledLives s x := by
  have w := run_wf evs (init_wf false _) h
  exact ⟨w.polls.len, fun l hl => ⟨w.polls.uniq l hl, fun x hx hr => live_polled (w.polls.live l hl x hx) (.inr hr)⟩⟩

/-- **C112** as a whole, for histories in which all is well-formed and no entity is given up while it owes an answer. -/
theorem c112_in_turn_partial {env : UlEnv} {evs : List CtxEv} {s : Ctx} {outs : List CtxOut}
    (hx : CtxAsExpected env .init evs) (hk : evs.length < 2 ^ 32) (h : Ctx.init.run env evs = .ok (s, outs)) :
    ∀ l ∈ s.polls, (l.map PollNode.fn).Nodup ∧ ∀ x ∈ l, PolledLives s x := by
  obtain ⟨s', o', h', w⟩ := run_ok env evs (init_wf true (TbfOk 0)) (by omega) hx
  rw [h] at h'
  cases h'
  exact fun l hl => ⟨w.polls.uniq l hl, fun x hx => live_polled (w.polls.live l hl x hx) (.inl rfl)⟩

/-- **C112 is violated**: the entity of `givenUp` is gone, its reservation is still there. -/
theorem c112_freed_entity_violated : ¬ C112Statement := by
  intro h
  obtain ⟨-, hx⟩ := h env1 givenUp (endOf givenUp).1 (endOf givenUp).2 rfl [⟨117, .dlAss, .gre 0⟩] (by decide)
  obtain ⟨g, hg, -⟩ := hx _ (List.mem_singleton.2 rfl)
  cases hg

example : [(⟨117, .dlAck, .tbf 0⟩ : PollNode)] ∈ (endOf dlFinished).1.polls := by decide

end Verif.Props
