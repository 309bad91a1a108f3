import Verif.Rlc.SchedLemmas
import Verif.Props.RlcUlTbf

/-!
# The RLC/MAC context: events that are as expected end well
-/
namespace Verif.Rlc
open Verif Verif.Spec

/-- The counter N3104 is not raised. -/
def NoMore (t : UlTbf) (r : UlR) : Prop :=
  match r with
  | .ok (some t', _) => t'.n3104 ≤ t.n3104
  | _ => True

theorem noMore_of {t t' : UlTbf} {o : List UlOut} (h : SameCnt t t') : NoMore t (.ok (some t', o)) := Nat.le_of_eq h.1

theorem SameCnt.refl (t : UlTbf) : SameCnt t t := ⟨rfl, rfl, rfl⟩

theorem reinit_n3104 {t t' : UlTbf} {r : Bool} {o : List UlOut} (hs : t.st = .flow ∨ t.st = .finished) (hi : t.ass = .idle)
    (h : t.reinit r = (some t', o)) : t'.n3104 = 0 := by
  rw [reinit_eq t r hs hi] at h
  split at h
  · cases h; rfl
  · cases h

theorem step_noMore (env : UlEnv) (t : UlTbf) (e : TbfEv) (h : t.Inv) (hd : ¬ IsData e) : NoMore t (t.step env e) := by
  have same : ∀ o, NoMore t (.ok (some t, o)) := fun _ => Nat.le_refl _
  cases e with
  | immAss m fn tn =>
    simp only [UlTbf.step, UlTbf.rxImmAss]
    split
    · rename_i ha
      split
      · rename_i x he
        obtain ⟨hc, hx⟩ := handleImmAss_cnt env t x fn tn m true he
        split
        · exact noMore_of (hc.trans (assChg_cnt x _))
        · exact noMore_of (hc.trans (endPhase1_acct x (.inl (hx.trans ha))).1)
      · rename_i x he
        exact noMore_of (handleImmAss_cnt env t x fn tn m false he).1
      · exact True.intro
      · exact True.intro
    · exact same _
  | pktUlAss m poll fn tn =>
    have main : NoMore t (t.doPktUlAss env m poll fn tn) := by
      unfold UlTbf.doPktUlAss
      split
      · rename_i x he
        obtain ⟨e1, e2, e3, e4, e5, e6, e7⟩ := handlePktUlAss_inv env t x fn m he
        have hx : SameCnt t x := ⟨e3, e6, e7⟩
        split
        · exact noMore_of (hx.trans (endUlAss_acct x fn).1)
        · split
          · rename_i rrbp pfn _
            obtain ⟨d1, d2, d3, d4, d5, d6, d7, d8⟩ := delayStart_fields x (fnNextBlock (fnNextBlock pfn))
            have hy : SameCnt x (x.delayStart (fnNextBlock (fnNextBlock pfn))) := ⟨d3, d6, d7⟩
            exact noMore_of ((hx.trans hy).trans (endUlAss_acct _ fn).1)
          · exact True.intro
          · exact True.intro
      · exact True.intro
      · exact True.intro
    simp only [UlTbf.step, UlTbf.rxPktUlAss]
    split
    · exact main
    · exact main
    · exact same _
  | tick fn tn =>
    simp only [UlTbf.step, UlTbf.tick]
    split
    · rename_i ha
      split
      · exact True.intro
      · split
        · exact True.intro
        · split
          · exact same _
          · exact noMore_of (endPhase1_acct t (.inr ha)).1
    · split
      · exact True.intro
      · split
        · exact True.intro
        · split
          · exact same _
          · exact noMore_of (complete_cnt t)
    · exact same _
  | sendResReq fn tn usf encOk =>
    simp only [UlTbf.step]
    split
    · unfold UlTbf.createMsg
      split
      · split
        · exact noMore_of (assChg_cnt t _)
        · exact same _
      · split
        · exact noMore_of ⟨rfl, rfl, rfl⟩
        · exact same _
      · exact same _
    · exact same _
  | pollAss encOk =>
    simp only [UlTbf.step]
    unfold UlTbf.createMsg
    split
    · split
      · exact noMore_of (assChg_cnt t _)
      · exact same _
    · split
      · exact noMore_of ⟨rfl, rfl, rfl⟩
      · exact same _
    · exact same _
  | sendData tn usf final rachOk => exact absurd trivial hd
  | sendDummy tn usf =>
    simp only [UlTbf.step]
    split
    · exact noMore_of ⟨rfl, rfl, rfl⟩
    · exact same _
  | ack final poll tbfEst fn tn =>
    simp only [UlTbf.step, UlTbf.rxAck]
    split
    · split
      · rename_i x hx
        have hc : SameCnt t x := by
          unfold UlTbf.ackTimers UlTbf.contentionOk at hx
          repeat' split at hx
          all_goals
            simp only [Res.ok.injEq, reduceCtorEq] at hx
          all_goals
            subst hx
            exact ⟨rfl, rfl, rfl⟩
        split
        · rename_i pfn _
          refine noMore_of (hc.trans ?_)
          unfold UlTbf.finalAck
          split
          · exact (chg_cnt { x with hasTbfEst := tbfEst, ackFn := pfn.getD 4294967295, ackTn := tn } .releasing).1
          · exact ⟨rfl, rfl, rfl⟩
        · exact True.intro
        · exact True.intro
      · exact True.intro
      · exact True.intro
    · exact same _
  | txConf fn tn =>
    simp only [UlTbf.step, UlTbf.txConf]
    split
    · exact True.intro
    · exact same _
  | timeout rachOk =>
    have acc : (t.st = .flow ∨ t.st = .finished) → NoMore t (.ok (t.accessFailed rachOk)) := by
      intro hs
      have hi : t.ass = .idle := by
        have h1 := h.1
        unfold UlTbf.StInv at h1
        rcases hs with e | e <;> simp only [e] at h1 <;> exact h1.1
      unfold UlTbf.accessFailed
      split
      · exact True.intro
      · cases hr : UlTbf.reinit { t with pending := false, accAttempts := t.accAttempts + 1 } rachOk with
        | mk a b =>
          cases a with
          | none => exact True.intro
          | some t' =>
            have := reinit_n3104 (t := { t with pending := false, accAttempts := t.accAttempts + 1 }) hs hi hr
            show t'.n3104 ≤ t.n3104
            omega
    simp only [UlTbf.step, UlTbf.timeout]
    repeat' split
    · exact same _
    · exact acc (.inl (by assumption))
    · exact True.intro
    · exact acc (by assumption)
    · exact True.intro
    · exact True.intro
    · exact True.intro
  | t3168 =>
    simp only [UlTbf.step, UlTbf.assTimeout]
    repeat' split
    · exact same _
    · exact True.intro
    · exact True.intro
    · exact True.intro
    · exact Nat.le_of_eq (assChg_cnt { t with t3168 := false, resReqAttempts := t.resReqAttempts + 1 } _).1
  | t3180 =>
    simp only [UlTbf.step]
    split
    · exact True.intro
    · exact same _

/-- What holds of all uplink TBFs after at most `k` events. -/
def TbfOk (k : Nat) (t : UlTbf) : Prop := t.Inv ∧ t.AllocInv ∧ t.n3104 ≤ k

theorem fresh_n3104 (u : UlStart) {t : UlTbf} {o : List UlOut} (h : u.run = (some t, o)) : t.n3104 = 0 := by
  have e := congrArg Prod.fst h
  cases u with
  | access r =>
    cases r <;> simp [UlStart.run, UlTbf.assStart, UlTbf.fresh, UlTbf.evAssStart, UlTbf.chg, UlSt.out, UlTbf.assChg,
      AssSt.out] at e
    subst e
    rfl
  | fromReleasing a =>
    simp [UlStart.run, UlTbf.fresh, UlTbf.evAssStart, UlTbf.chg, UlSt.out, UlTbf.assChg, AssSt.out] at e
    subst e
    rfl
  | fromDl tn =>
    simp [UlStart.run, UlTbf.fresh, UlTbf.evAssStart, UlTbf.chg, UlSt.out, UlTbf.assChg, AssSt.out] at e
    subst e
    rfl

theorem keeping_ok (env : UlEnv) {k : Nat} (hk : k + 1 < 2 ^ 32) : Keeping env Expected (TbfOk k) (TbfOk (k + 1)) := by
  have main : ∀ t e t' o, Expected t e → TbfOk k t → t.step env e = .ok (some t', o) →
      t'.Inv ∧ t'.AllocInv ∧ t'.n3104 ≤ t.n3104 + 1 := by
    rintro t e t' o he ⟨h1, h2, h3⟩ hs
    have a := step_keeps env t e h1 (fun _ => by omega)
    obtain ⟨x, o', e', b⟩ := step_goes env t e h1 h2 he
    have c := step_acct env t e h1
    rw [hs] at a c e'
    cases e'
    exact ⟨a, b _ rfl, c.1⟩
  refine ⟨fun t h => ⟨h.1, h.2.1, by have := h.2.2; omega⟩, fun u t o h => ?_, fun t e t' o he hd h hs => ?_, fun t e t' o he h hs => ?_⟩
  · have := Verif.Props.start_inv u t o h
    exact ⟨this.1, this.2.1, by rw [fresh_n3104 u h]; exact Nat.zero_le _⟩
  · obtain ⟨a, b, -⟩ := main t e t' o he h hs
    have c := step_noMore env t e h.1 hd
    rw [hs] at c
    exact ⟨a, b, Nat.le_trans c h.2.2⟩
  · obtain ⟨a, b, c⟩ := main t e t' o he h hs
    exact ⟨a, b, by have := h.2.2; omega⟩

/-! ## The tick before a block is chosen -/

theorem tick_releasing {t t' : UlTbf} {fn ts : Nat} {o : List UlOut} (h : t.Inv) (e : t.tick fn ts = .ok (some t', o))
    (hr : t'.st = .releasing) : t' = t := by
  have done : ∀ x : UlTbf, x.st = .waitAssign → x.complete.st ≠ .releasing := by
    intro x hx
    unfold UlTbf.complete
    split
    · simp [UlTbf.evAssCompl, hx, UlTbf.chg, UlSt.out]
    · rw [hx]; nofun
  unfold UlTbf.tick at e
  split at e
  · rename_i ha
    split at e
    · cases e
    · split at e
      · cases e
      · split at e
        · cases e; rfl
        · cases e
          have hw := h.waits (by simp [ha])
          unfold UlTbf.endPhase1 at hr
          split at hr
          · exact absurd hr (done t hw)
          · unfold UlTbf.assChg at hr
            split at hr <;> simp [hw] at hr
  · rename_i ha
    split at e
    · cases e
    · split at e
      · cases e
      · split at e
        · cases e; rfl
        · cases e
          exact absurd hr (done t (h.waits (by simp [ha])))
  · cases e; rfl

/-- TBFs being released and reservations come from the first state. -/
structure Since (s s1 : Ctx) : Prop where
  rel : ∀ g1 ∈ s1.es, ∀ i t, g1.ul = some (i, t) → t.st = .releasing →
    ∃ g ∈ s.es, g.n = g1.n ∧ g.ul = some (i, t) ∧ (g1.dl = none → g.dl = none)
  polls : ∀ ts, ∀ x ∈ s1.polls.getD ts [], x ∈ s.polls.getD ts []

theorem Since.refl (s : Ctx) : Since s s := ⟨fun g hg _ _ hu _ => ⟨g, hg, rfl, hu, fun x => x⟩, fun _ _ hx => hx⟩

theorem Since.trans {s s1 s2 : Ctx} (h : Since s s1) (h' : Since s1 s2) : Since s s2 := by
  refine ⟨fun g2 hg2 i t hu hr => ?_, fun ts x hx => h.polls ts x (h'.polls ts x hx)⟩
  obtain ⟨g1, hg1, e1, u1, d1⟩ := h'.rel g2 hg2 i t hu hr
  obtain ⟨g, hg, e, u, d⟩ := h.rel g1 hg1 i t u1 hr
  exact ⟨g, hg, e.trans e1, u, fun x => d (d1 x)⟩

theorem mem_dropTbf {id ts : Nat} {p : List (List PollNode)} {x : PollNode} (h : x ∈ (dropTbf id p).getD ts []) :
    x ∈ p.getD ts [] := by
  unfold dropTbf at h
  rw [List.getD_eq_getElem?_getD, List.getElem?_map] at h
  rw [List.getD_eq_getElem?_getD]
  cases e : p[ts]? with
  | none => rw [e] at h; exact h
  | some l =>
    rw [e] at h
    exact (List.mem_filter.1 h).1

theorem since_tickUl {s s1 : Ctx} {k : Nat} {b : Bool} (h : s.WF b (TbfOk k)) {fn ts : Nat} {g : Gre} (hg : g ∈ s.es)
    (e : s.tickUl fn ts g = .ok s1) : Since s s1 := by
  unfold Ctx.tickUl at e
  split at e
  · cases e; exact Since.refl s
  · rename_i id t hu
    split at e
    · rename_i r o ht
      cases e
      cases r with
      | some t' =>
        refine ⟨fun g1 hg1 i t1 hu1 hr => ?_, fun _ _ hx => hx⟩
        obtain ⟨g0, hg0, rfl⟩ := mem_setGre.1 hg1
        split at hu1
        · rename_i en
          simp only [Option.some.injEq, Prod.mk.injEq] at hu1
          obtain ⟨rfl, rfl⟩ := hu1
          have := h.only hg g0 hg0 en
          subst this
          rw [tick_releasing (h.ulp g0 hg0 id t hu).1 ht hr]
          refine ⟨g0, hg0, ?_, hu, ?_⟩ <;> split <;> first | rfl | exact fun x => x
        · rename_i en
          rw [if_neg en]
          exact ⟨g0, hg0, rfl, hu1, fun x => x⟩
      | none =>
        refine ⟨fun g1 hg1 i t1 hu1 hr => ?_, fun _ _ hx => mem_dropTbf hx⟩
        obtain ⟨g0, hg0, rfl⟩ := mem_setGre.1 hg1
        split at hu1
        · rename_i en
          rw [if_pos en]
          refine ⟨g0, hg0, (ulFreed_n g0 id).symm, ulFreed_ul hu1, ?_⟩
          unfold Gre.ulFreed
          split
          · split <;> exact fun x => x
          · exact fun x => x
        · rename_i en
          rw [if_neg en]
          exact ⟨g0, hg0, rfl, hu1, fun x => x⟩
    · cases e
    · cases e

theorem since_tickDl (s : Ctx) (fn ts : Nat) (g : Gre) : Since s (s.tickDl fn ts g).1 := by
  unfold Ctx.tickDl
  split
  · refine ⟨fun g1 hg1 i t1 hu1 hr => ?_, fun tn x hx => ?_⟩
    · obtain ⟨g0, hg0, rfl⟩ := mem_setGre.1 hg1
      split at hu1
      · rename_i en
        rw [if_pos en]
        exact ⟨g0, hg0, rfl, hu1, nofun⟩
      · rename_i en
        rw [if_neg en]
        exact ⟨g0, hg0, rfl, hu1, fun x => x⟩
    · simp only [Ctx.complDl] at hx
      split at hx
      · exact mem_dropTbf hx
      · exact hx
  · exact Since.refl s

theorem tickUl_ok {s : Ctx} {k : Nat} {b : Bool} (h : s.WF b (TbfOk k)) {fn ts : Nat} {g : Gre} (hg : g ∈ s.es) :
    ∃ s1, s.tickUl fn ts g = .ok s1 := by
  unfold Ctx.tickUl
  cases hu : g.ul with
  | none => exact ⟨s, rfl⟩
  | some y =>
    obtain ⟨id, t⟩ := y
    have hp := h.ulp g hg id t hu
    obtain ⟨t', o, e, -⟩ := tick_goes t fn ts hp.1 hp.2.1
    simp only [e]
    exact ⟨_, rfl⟩

theorem tickAll_ok (env : UlEnv) {k : Nat} (hk : k + 1 < 2 ^ 32) {b : Bool} (fn ts : Nat) (ns : List Nat) :
    ∀ {s : Ctx}, s.WF b (TbfOk k) → ∃ s1 o1, s.tickAll fn ts ns = .ok (s1, o1) ∧ Since s s1 := by
  induction ns with
  | nil => intro s h; exact ⟨s, [], rfl, Since.refl s⟩
  | cons n ns ih =>
    intro s h
    simp only [Ctx.tickAll]
    cases hg : s.gre? n with
    | none => exact ih h
    | some g =>
      obtain ⟨hgm, rfl⟩ := gre?_mem hg
      obtain ⟨s1, e1⟩ := tickUl_ok (fn := fn) (ts := ts) h hgm
      obtain ⟨w1, id, r, h3⟩ := wf_tickUl (keeping_ok env hk) h (fun _ => trivial) hgm e1
      have w2 : (s1.tickDl fn ts g).1.WF b (TbfOk k) := by
        refine wf_tickDl w1 (fun g' hg' en => ?_)
        rcases h3 with rfl | rfl
        · rw [h.only hgm g' hg' en]
        · obtain ⟨g0, hg0, e1, e2, -⟩ := putUl_dl hg'
          have := h.only hgm g0 hg0 (by rw [← e1]; exact en)
          rw [Gre.dlId, e2, this]; rfl
      obtain ⟨s2, o2, e2, hr⟩ := ih w2
      simp only [e1, e2]
      exact ⟨s2, _, rfl, ((since_tickUl h hgm e1).trans (since_tickDl s1 fn ts g)).trans hr⟩

/-! ## The choice of a block -/

theorem ulOwner_some {s : Ctx} {i : Nat} (h : ∃ g ∈ s.es, g.ulId = some i) : ∃ g, s.ulOwner i = some g := by
  obtain ⟨g, hg, hi⟩ := h
  cases e : s.ulOwner i with
  | some g' => exact ⟨g', rfl⟩
  | none =>
    unfold Ctx.ulOwner at e
    rw [List.find?_eq_none] at e
    have := e g hg
    cases hu : g.ul with
    | none => rw [Gre.ulId, hu] at hi; cases hi
    | some y =>
      rw [Gre.ulId, hu] at hi
      simp only [hu] at this
      simp at hi this
      exact absurd hi this

theorem dlOwner_some {s : Ctx} {i : Nat} (h : ∃ g ∈ s.es, g.dlId = some i) : ∃ g d, s.dlOwner i = some g ∧ g.dl = some d := by
  obtain ⟨g, hg, hi⟩ := h
  cases e : s.dlOwner i with
  | some g' =>
    have := (dlOwner_mem e).2
    cases hd : g'.dl with
    | none => rw [Gre.dlId, hd] at this; cases this
    | some d => exact ⟨g', d, rfl, hd⟩
  | none =>
    unfold Ctx.dlOwner at e
    rw [List.find?_eq_none] at e
    have := e g hg
    cases hu : g.dl with
    | none => rw [Gre.dlId, hu] at hi; cases hi
    | some y =>
      rw [Gre.dlId, hu] at hi
      simp only [hu] at this
      simp at hi this
      exact absurd hi this

/-- A reservation whose owner exists gives a candidate. -/
theorem pollCand_goes {P : UlTbf → Prop} {s : Ctx} (h : s.WF true P) {o : Avail} {x : PollNode} (hx : Live true s.es x) :
    ∃ c, s.pollCand o x = .ok c := by
  unfold Live at hx
  unfold Ctx.pollCand
  split at hx
  · rename_i h1 h2
    obtain ⟨g, hg⟩ := ulOwner_some hx
    simp only [h1, h2, hg]
    exact ⟨_, rfl⟩
  · rename_i h1 h2
    obtain ⟨g, hg⟩ := ulOwner_some hx
    simp only [h1, h2, hg]
    exact ⟨_, rfl⟩
  · rename_i h1 h2
    obtain ⟨g, d, hg, hd⟩ := dlOwner_some hx
    simp only [h1, h2, hg, hd]
    exact ⟨_, rfl⟩
  · rename_i h1 h2
    obtain ⟨g, hg, rfl⟩ := hx rfl
    simp only [h1, h2, gre?_of_mem h.nd hg]
    exact ⟨_, rfl⟩
  · exact hx.elim

theorem takePoll_ok {P : UlTbf → Prop} {s : Ctx} (h : s.WF true P) (o : Avail) (ts fn : Nat) :
    ∃ s1 c, s.takePoll o ts fn = .ok (s1, c) ∧ ∀ n id, c = some (.newUl n id) →
      ∃ x ∈ s.polls.getD ts [], x.fn = fn ∧ x.reason = .ulAck ∧ x.owner = .tbf id ∧
        ∃ g ∈ s.es, g.n = n ∧ g.ulId = some id ∧ g.canRequestNew o = true := by
  unfold Ctx.takePoll
  cases hn : s.node? ts fn with
  | none => exact ⟨s, none, rfl, nofun⟩
  | some x =>
    have hxm : x ∈ s.polls.getD ts [] := List.mem_of_find?_eq_some hn
    have hxf : x.fn = fn := by
      have := List.find?_some hn
      simpa using this
    obtain ⟨c, hc⟩ := pollCand_goes (o := o) h ((getD_polls h.polls ts).1 x hxm)
    simp only [hc]
    refine ⟨_, c, rfl, fun n id e => ⟨x, hxm, hxf, ?_⟩⟩
    subst e
    unfold Ctx.pollCand at hc
    split at hc
    · split at hc <;> cases hc
    · split at hc <;> cases hc
    · rename_i i h1 h2
      split at hc
      · rename_i g hg
        obtain ⟨m1, m2⟩ := ulOwner_mem hg
        simp only [Res.ok.injEq, Option.some.injEq] at hc
        split at hc
        · rename_i hcr
          cases hc
          exact ⟨h1, h2, g, m1, rfl, m2, hcr⟩
        · cases hc
      · cases hc
    · split at hc
      · split at hc
        · simp only [Res.ok.injEq, Option.some.injEq] at hc
          split at hc <;> cases hc
        · cases hc
      · cases hc
    · cases hc
    · cases hc

/-- A new uplink TBF is scheduled in the block of the old one. -/
theorem newUlMsg_ok {P : UlTbf → Prop} {b : Bool} {s : Ctx} (h : s.WF b P) {o : Avail} {fn ts usf : Nat} {g : Gre}
    (hg : g ∈ s.es) {i : Nat} {t : UlTbf} (hu : g.ul = some (i, t)) (hm : MaySend t ts usf) :
    ∃ r, s.newUlMsg o g.n i fn ts usf = .ok r := by
  unfold Ctx.newUlMsg
  simp only [gre?_of_mem h.nd hg, hu]
  obtain ⟨t', ht, hc, ha, hp, hs⟩ := fromReleasing_cur t.cur
  rw [ht]
  have hnd : ((s.putUl g.n s.tbfs (some t')).es.map Gre.n).Nodup := by rw [putUl_n]; exact h.nd
  have hg1 := gre?_of_mem (s := ({ s.putUl g.n s.tbfs (some t') with
    tbfs := s.tbfs + 1, polls := dropTbf i s.polls } : Ctx)) hnd (g := { g with ul := some (s.tbfs, t') })
    (mem_setGre.2 ⟨g, hg, (if_pos rfl).symm⟩)
  have hr : ((Ctx.gre? ({ s.putUl g.n s.tbfs (some t') with
      tbfs := s.tbfs + 1, polls := dropTbf i s.polls } : Ctx) g.n).map fun g => g.assRts fn ts usf) = some true := by
    rw [show Ctx.gre? ({ s.putUl g.n s.tbfs (some t') with
      tbfs := s.tbfs + 1, polls := dropTbf i s.polls } : Ctx) g.n = _ from hg1]
    simp only [Option.map_some, Option.some.injEq, Gre.assRts]
    exact assRts_iff.2 ⟨ha, usf, by rw [hp]; exact hm, .inr ⟨hs, rfl⟩⟩
  rw [if_pos hr]
  exact ⟨_, rfl⟩

theorem selectData_ok (env : UlEnv) {k : Nat} (hk : k + 1 < 2 ^ 32) {b : Bool} {s : Ctx} (h : s.WF b (TbfOk k)) {o : Avail}
    (ho : o.rachOk = true) (ts usf : Nat) : ∃ s2 m ro, s.selectData env o ts usf = .ok (s2, m, ro) := by
  unfold Ctx.selectData
  split
  · exact ⟨_, _, _, rfl⟩
  · rename_i g hg
    have hd := List.find?_some hg
    split
    · rename_i id t final hu hb
      have hgm := List.mem_of_find?_eq_some hg
      obtain ⟨h1, h2, h3⟩ := h.ulp g hgm id t hu
      simp only [Gre.dataRts, hu] at hd
      have := step_goes env t (.sendData ts usf final o.rachOk) h1 h2 ⟨ho, by omega⟩
      simp only [UlTbf.step, hd, if_true] at this
      obtain ⟨t', o', e, -⟩ := this
      simp only [e]
      exact ⟨_, _, _, rfl⟩
    · exact ⟨_, _, _, rfl⟩

theorem rts_ok (env : UlEnv) {k : Nat} (hk : k + 1 < 2 ^ 32) {s : Ctx} (h : s.WF true (TbfOk k)) {o : Avail} {fn ts usf : Nat}
    (hw : WellFormed (.rts o fn ts usf)) (ht : InTurn s (.rts o fn ts usf)) :
    ∃ r, s.rts env o fn ts usf = .ok r := by
  obtain ⟨hts, hra⟩ := hw
  unfold Ctx.rts
  rw [if_neg (by omega)]
  obtain ⟨s1, o1, e1, hsi⟩ := tickAll_ok env hk fn ts (s.es.map Gre.n) h
  have w1 := wf_tickAll (keeping_ok env hk) (fun _ => trivial) _ h e1
  obtain ⟨s2, c, e2, hnew⟩ := takePoll_ok w1 o ts fn
  obtain ⟨w2, hes, -, hc⟩ := takePoll_wf w1 e2
  have sc : ∃ r, s2.selectCtrl o fn ts usf (s2.ulAssCand fn ts usf) c = .ok r := by
    unfold Ctx.selectCtrl
    split
    · exact ⟨_, rfl⟩
    · rename_i n id
      obtain ⟨x, hx, hxf, hxr, hxo, g, hg, rfl, hgi, hcr⟩ := hnew n id rfl
      cases hu : g.ul with
      | none => rw [Gre.ulId, hu] at hgi; cases hgi
      | some y =>
        obtain ⟨i, t⟩ := y
        rw [Gre.ulId, hu] at hgi
        simp only [Option.map_some, Option.some.injEq] at hgi
        subst hgi
        simp only [Gre.canRequestNew, hu, Bool.and_eq_true, beq_iff_eq, Option.isNone_iff_eq_none] at hcr
        obtain ⟨⟨⟨hst, hte⟩, hq⟩, hdl⟩ := hcr
        obtain ⟨g0, hg0, hn0, hu0, hd0⟩ := hsi.rel g hg i t hu hst
        have hm := ht x (hsi.polls ts x hx) hxf hxr i hxo g0 hg0 t hu0 hst hte (by rw [hn0]; exact hq) (hd0 hdl)
        obtain ⟨r, hr⟩ := newUlMsg_ok w2 (o := o) (fn := fn) (hes ▸ hg) hu hm
        simp only [hr]
        exact ⟨_, rfl⟩
    all_goals exact ⟨_, rfl⟩
  obtain ⟨⟨s3, m⟩, e3⟩ := sc
  have w3 := wf_selectCtrl (keeping_ok env hk) (fun _ _ => trivial) w2 hc e3
  have se : ∃ s4 m ro, s2.select env o fn ts usf (s2.ulAssCand fn ts usf) c = .ok (s4, m, ro) := by
    unfold Ctx.select
    rw [e3]
    cases m with
    | some m => exact ⟨_, _, _, rfl⟩
    | none =>
      obtain ⟨s4, m, ro, e4⟩ := selectData_ok env hk w3 hra ts usf
      simp only [e4]
      cases m <;> exact ⟨_, _, _, rfl⟩
  obtain ⟨s4, m4, ro, e4⟩ := se
  simp only [e1, Ctx.serve, e2, e4]
  exact ⟨_, rfl⟩

/-! ## The other events -/

theorem reserve_ok {s : Ctx} (hl : s.polls.length = 8) {ts : Nat} (ht : ts < 8) (fn : Nat)
    (r : PollReason) (o : PollOwner) : ∃ s', s.reserve ts fn r o = .ok s' ∧ s'.polls.length = 8 := by
  unfold Ctx.reserve
  rw [List.getElem?_eq_getElem (by omega)]
  simp only []
  split
  · exact ⟨s, rfl, hl⟩
  · exact ⟨_, rfl, by simp [hl]⟩

theorem reserveAll_ok {r : PollReason} {ow : PollOwner} (outs : List UlOut) (ho : ∀ fn tn, UlOut.poll fn tn ∈ outs → tn < 8) :
    ∀ {s : Ctx}, s.polls.length = 8 → ∃ s', s.reserveAll r ow outs = .ok s' := by
  induction outs with
  | nil => intro s _; exact ⟨s, rfl⟩
  | cons a outs ih =>
    intro s hl
    have ih : ∀ {s : Ctx}, s.polls.length = 8 → ∃ s', s.reserveAll r ow outs = .ok s' :=
      fun {s} => ih (fun fn tn h => ho fn tn (List.mem_cons_of_mem _ h))
    cases a with
    | poll fn tn =>
      obtain ⟨s', e, hl'⟩ := reserve_ok hl (ho fn tn List.mem_cons_self) fn r ow
      simp only [Ctx.reserveAll, e]
      exact ih hl'
    | _ => exact ih hl

theorem ulEvent_ok {s : Ctx} (hl : s.polls.length = 8) {n i : Nat} {r : PollReason} {x : UlR}
    (hx : ∃ t o, x = .ok (t, o) ∧ ∀ fn tn, UlOut.poll fn tn ∈ o → tn < 8) : ∃ y, s.ulEvent n i r x = .ok y := by
  obtain ⟨t, o, rfl, ho⟩ := hx
  unfold Ctx.ulEvent
  have hl' : (s.putUl n i t).polls.length = 8 := by
    cases t with
    | some t => exact hl
    | none => simp [Ctx.putUl, Ctx.freeUl, dropTbf, hl]
  obtain ⟨s', e⟩ := reserveAll_ok (r := r) (ow := .tbf i) o ho hl'
  simp only [e]
  exact ⟨_, rfl⟩

theorem rxPktUlAss_tn {env : UlEnv} {t : UlTbf} {m : PktUlAss} {poll : Option Nat} {fn ts : Nat} {x : Option UlTbf × List UlOut}
    (h : t.rxPktUlAss env m poll fn ts = .ok x) (p tn : Nat) (hp : UlOut.poll p tn ∈ x.2) : tn = ts := by
  have main : t.doPktUlAss env m poll fn ts = .ok x → tn = ts := by
    intro h
    unfold UlTbf.doPktUlAss at h
    split at h
    · split at h
      · cases h; cases hp
      · split at h
        · cases h
          simp at hp
          exact hp.2
        · cases h
        · cases h
    · cases h
    · cases h
  unfold UlTbf.rxPktUlAss at h
  split at h
  · exact main h
  · exact main h
  · cases h; cases hp

theorem rxAck_tn {t : UlTbf} {final tbfEst : Bool} {poll : Option Nat} {fn ts : Nat} {x : Option UlTbf × List UlOut}
    (h : t.rxAck final poll tbfEst fn ts = .ok x) (p tn : Nat) (hp : UlOut.poll p tn ∈ x.2) : tn = ts := by
  unfold UlTbf.rxAck at h
  split at h
  · split at h
    · split at h
      · cases h
        simp only [List.mem_map, UlOut.poll.injEq] at hp
        obtain ⟨_, _, _, e⟩ := hp
        exact e.symm
      · cases h
      · cases h
    · cases h
    · cases h
  · cases h; cases hp

theorem byTlli_mem {s : Ctx} {tlli : Nat} {g : Gre} (h : s.byTlli tlli = some g) :
    g ∈ s.es ∧ (g.names.tlli = tlli ∨ g.names.oldTlli = tlli) := by
  refine ⟨List.mem_of_find?_eq_some h, ?_⟩
  have := List.find?_some h
  simpa using this

theorem byUlTfi_mem {s : Ctx} {tfi : Nat} {g : Gre} (h : s.byUlTfi tfi = some g) :
    g ∈ s.es ∧ ∀ i t, g.ul = some (i, t) → t.cur.tfi = tfi := by
  refine ⟨List.mem_of_find?_eq_some h, fun i t hu => ?_⟩
  have := List.find?_some h
  simp only [hu] at this
  simpa using this

theorem dlAssign_ok (env : UlEnv) {s : Ctx} {g : Gre} {m : DlAssMsg} {fn : Nat}
    (hm : ValidStart? m.start) (hf : BlockStart fn ∨ ∀ k, m.start ≠ some (.rel k)) :
    ∃ r, s.dlAssign env g m fn = .ok r := by
  obtain ⟨sfn, e⟩ := startFn?_ok env fn m.start hm hf
  unfold Ctx.dlAssign DlAss.take
  simp only [e]
  split <;> exact ⟨_, rfl⟩

theorem evIn_ok {s : Ctx} {k : Nat} (hk : k + 1 < 2 ^ 32) {e : CtxEv} (hw : WellFormed e) (ht : InTurn s e) :
    EvIn Expected (TbfOk k) s e := by
  cases e with
  | rts o fn ts usf =>
    exact ⟨fun _ => trivial, fun _ _ => trivial, fun t f h => ⟨hw.2, by have := h.2.2; omega⟩, fun _ => trivial⟩
  | pktUlAss id m poll fn ts => exact fun t => ⟨hw.2.1, hw.2.2.1, hw.2.2.2⟩
  | ulAck tfi final poll tbfEst fn ts =>
    intro g i t hg hu
    obtain ⟨h1, h2⟩ := byUlTfi_mem hg
    exact ⟨hw.2.1, hw.2.2, ht g h1 i t hu (h2 i t hu)⟩
  | immAssUl m fn ts => exact fun t => hw
  | ulTimer o n u => rintro t te (rfl | rfl | rfl) <;> trivial
  | _ => trivial

theorem freeOk_ok {s : Ctx} {e : CtxEv} (ht : InTurn s e) : FreeOk s e := by
  cases e with
  | assign old new ptmsi imsi =>
    intro h1 h2 g hg
    obtain ⟨a, b⟩ := byTlli_mem hg
    exact ht h1 h2 g a b
  | _ => trivial

/-- **An event that is as expected ends well.** -/
theorem step_ok (env : UlEnv) {k : Nat} (hk : k + 1 < 2 ^ 32) {s : Ctx} (h : s.WF true (TbfOk k)) {e : CtxEv}
    (hw : WellFormed e) (ht : InTurn s e) : ∃ r, s.step env e = .ok r := by
  have hl := h.polls.len
  have goes : ∀ {g : Gre}, g ∈ s.es → ∀ {i t}, g.ul = some (i, t) → ∀ te, Expected t te →
      ∃ t' o, t.step env te = .ok (t', o) := by
    intro g hg i t hu te he
    obtain ⟨h1, h2, -⟩ := h.ulp g hg i t hu
    obtain ⟨t', o, e, -⟩ := step_goes env t te h1 h2 he
    exact ⟨t', o, e⟩
  cases e with
  | rts o fn ts usf => exact rts_ok env hk h hw ht
  | cnf fn ts => exact ⟨_, rfl⟩
  | pktUlAss id m poll fn ts =>
    simp only [Ctx.step, Ctx.rxPktUlAss]
    cases hg : s.byId id with
    | none => exact ⟨_, rfl⟩
    | some g =>
      cases hu : g.ul with
      | none => simp only [hu]; exact ⟨_, rfl⟩
      | some y =>
        simp only [hu]
        obtain ⟨t', o, e⟩ := goes (byId_mem hg) hu (.pktUlAss m poll fn ts) ⟨hw.2.1, hw.2.2.1, hw.2.2.2⟩
        exact ulEvent_ok hl ⟨t', o, e, fun p tn hp => by rw [rxPktUlAss_tn e p tn hp]; exact hw.1⟩
  | ulAck tfi final poll tbfEst fn ts =>
    simp only [Ctx.step, Ctx.rxUlAck]
    cases hg : s.byUlTfi tfi with
    | none => exact ⟨_, rfl⟩
    | some g =>
      obtain ⟨h1, h2⟩ := byUlTfi_mem hg
      cases hu : g.ul with
      | none => simp only [hu]; exact ⟨_, rfl⟩
      | some y =>
        simp only [hu]
        obtain ⟨t', o, e⟩ := goes h1 hu (.ack final poll tbfEst fn ts) ⟨hw.2.1, hw.2.2, ht g h1 y.1 y.2 hu (h2 _ _ hu)⟩
        exact ulEvent_ok hl ⟨t', o, e, fun p tn hp => by rw [rxAck_tn e p tn hp]; exact hw.1⟩
  | pktDlAss id tfi start mask ca poll fn ts =>
    simp only [Ctx.step, Ctx.rxPktDlAss]
    cases hg : s.byId id with
    | none => exact ⟨_, rfl⟩
    | some g =>
      simp only []
      obtain ⟨⟨s1, o1⟩, e⟩ := dlAssign_ok env (s := s) (g := g) (m := .pkt tfi start mask) (fn := fn) hw.2.1 (.inl hw.2.2.2)
      have w1 := dlAssign_wf h (byId_mem hg) e
      simp only [e]
      obtain ⟨p, hp⟩ := pollFn_ok fn poll hw.2.2.1 hw.2.2.2
      cases p with
      | none =>
        simp only [Ctx.dlAssPoll, hp]
        exact ⟨_, rfl⟩
      | some p =>
        obtain ⟨s2, e2, -⟩ := reserve_ok w1.1.polls.len hw.1 p .dlAss (.gre g.n)
        simp only [Ctx.dlAssPoll, hp, e2]
        exact ⟨_, rfl⟩
  | dlData tfi last poll fn ts =>
    simp only [Ctx.step, Ctx.rxDlData]
    cases hg : s.byDlTfi tfi with
    | none => exact ⟨_, rfl⟩
    | some g =>
      cases hu : g.dl with
      | none => simp only [hu]; exact ⟨_, rfl⟩
      | some d =>
        simp only [hu]
        obtain ⟨p, hp⟩ := pollFn_ok fn poll hw.2.1 hw.2.2
        simp only [hp]
        cases p with
        | none => exact ⟨_, rfl⟩
        | some p =>
          obtain ⟨s2, e2, -⟩ := reserve_ok (s := s.setGre g.n fun g => { g with dl := some { d with t3190 := true, st := if last then .finished else d.st } })
            hl hw.1 p .dlAck (.tbf d.id)
          simp only [e2]
          exact ⟨_, rfl⟩
  | immAssUl m fn ts =>
    simp only [Ctx.step, Ctx.rxImmAssUl]
    split
    · exact ⟨_, rfl⟩
    · rename_i g hg
      have hgm := List.mem_of_find?_eq_some hg
      cases hu : g.ul with
      | none => exact ⟨_, rfl⟩
      | some y =>
        obtain ⟨t', o, e⟩ := goes hgm hu (.immAss m fn ts) hw
        refine ulEvent_ok hl ⟨t', o, e, fun p tn hp => ?_⟩
        have := (rxImmAss_no_poll e).2
        simp only at this
        rw [this] at hp
        cases hp
  | immAssDl tlli tfi start fn ts =>
    simp only [Ctx.step, Ctx.rxImmAssDl]
    cases hg : s.byTlli tlli with
    | none => exact ⟨_, rfl⟩
    | some g => exact dlAssign_ok env (m := .imm tfi start ts) hw.1 (.inr hw.2)
  | ccchReady o => exact ⟨_, rfl⟩
  | unitdata o tlli => exact ⟨_, rfl⟩
  | assign old new ptmsi imsi => exact ⟨_, rfl⟩
  | ulTimer o n u =>
    simp only [Ctx.step, Ctx.ulTimer]
    cases hg : s.gre? n with
    | none => exact ⟨_, rfl⟩
    | some g =>
      obtain ⟨hgm, rfl⟩ := gre?_mem hg
      cases hu : g.ul with
      | none => simp only [hu]; exact ⟨_, rfl⟩
      | some y =>
        simp only [hu]
        refine ulEvent_ok hl ?_
        cases u with
        | tbf =>
          obtain ⟨t', o', e⟩ := goes hgm hu (.timeout o.rachOk) trivial
          exact ⟨t', o', e, fun p tn hp => absurd hp (timeout_no_poll e p tn)⟩
        | t3168 =>
          obtain ⟨t', o', e⟩ := goes hgm hu .t3168 trivial
          refine ⟨t', o', e, fun p tn hp => ?_⟩
          have := assTimeout_no_poll e
          simp only at this
          rw [this] at hp
          cases hp
        | t3180 =>
          simp only []
          split
          · exact ⟨_, _, rfl, nofun⟩
          · exact ⟨_, _, rfl, nofun⟩
  | t3190 n => exact ⟨_, rfl⟩
  | t3192 n => exact ⟨_, rfl⟩
  | idleTimer n => exact ⟨_, rfl⟩

theorem run_ok (env : UlEnv) (evs : List CtxEv) : ∀ {k : Nat} {s : Ctx}, s.WF true (TbfOk k) → k + evs.length < 2 ^ 32 →
    CtxAsExpected env s evs → ∃ s' o, s.run env evs = .ok (s', o) ∧ s'.WF true (TbfOk (k + evs.length)) := by
  induction evs with
  | nil => intro k s h _ _; exact ⟨s, [], rfl, h⟩
  | cons e evs ih =>
    intro k s h hk hx
    obtain ⟨hw, ht, hr⟩ := hx
    simp only [List.length_cons] at hk
    have hk' : k + 1 < 2 ^ 32 := by omega
    obtain ⟨⟨s1, o1⟩, e1⟩ := step_ok env hk' h hw ht
    have w1 := step_wf (keeping_ok env hk') h (evIn_ok hk' hw ht) (fun _ => freeOk_ok ht) e1
    obtain ⟨s2, o2, e2, w2⟩ := ih (k := k + 1) w1 (by omega) (hr s1 o1 e1)
    refine ⟨s2, o1 ++ o2, ?_, ?_⟩
    · simp only [Ctx.run, e1, e2]
    · rw [show k + (e :: evs).length = k + 1 + evs.length by simp only [List.length_cons]; omega]
      exact w2

end Verif.Rlc
