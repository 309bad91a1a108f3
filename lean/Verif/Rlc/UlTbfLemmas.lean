import Verif.Rlc.UlTbf
import Verif.Spec.UlTbf
import Verif.Props.RlcFrameNumber

/-!
# Invariant of the uplink TBF
-/
namespace Verif.Rlc

open Verif.Spec

/-- The invariant of the state machine of the TBF and its timers. -/
def UlTbf.StInv (t : UlTbf) : Prop :=
  match t.st with
  | .new => False
  | .waitAssign => t.pending = false ∧ t.n3104 = 0 ∧ t.ass ≠ .idle
  | .flow => t.ass = .idle ∧
      (t.n3104 = 0 ∧ t.T = 3164 ∧ t.pending = true ∨
       0 < t.n3104 ∧ t.t3180 = true ∧ (t.pending = false ∨ t.pending = true ∧ t.T = 3166 ∧ t.assType = .onePhase))
  | .finished => t.ass = .idle ∧ 0 < t.n3104 ∧ t.t3180 = true ∧
      (t.pending = false ∨ t.pending = true ∧ t.T = 3166 ∧ t.assType = .onePhase ∨ t.pending = true ∧ t.T = 3182)
  | .releasing => t.ass = .idle ∧ t.t3180 = true ∧ t.pending = false

/-- The invariant of the assignment machine. -/
def UlTbf.AssInv (t : UlTbf) : Prop :=
  (t.t3168 = true ↔ t.ass = .waitUlAss) ∧
  (t.ass = .waitStart1 → t.startExists = true) ∧ (t.ass = .waitStart2 → t.startExists = true)

/-- The invariant of the counters. -/
def UlTbf.CntInv (t : UlTbf) : Prop := t.accAttempts < 4 ∧ t.resReqAttempts < 4

/-- The invariant that holds whatever the network does. -/
def UlTbf.Inv (t : UlTbf) : Prop := t.StInv ∧ t.AssInv ∧ t.CntInv

/-- While waiting for the starting time there is an allocation (only as long as the network sends what is expected). -/
def UlTbf.AllocInv (t : UlTbf) : Prop :=
  (t.ass = .waitStart1 → 0 < t.p1.numTs) ∧ (t.ass = .waitStart2 → 0 < t.p2.numTs)

theorem complete_inv (t : UlTbf) (h : t.Inv) (ha : t.st = .waitAssign) (hn : none ∈ t.ass.out) :
    t.complete.Inv ∧ t.complete.AllocInv := by
  unfold UlTbf.complete
  rw [if_pos hn]
  obtain ⟨hs, hi, hc⟩ := h
  simp only [UlTbf.StInv, ha] at hs
  simp [UlTbf.Inv, UlTbf.StInv, UlTbf.AssInv, UlTbf.CntInv, UlTbf.AllocInv, UlTbf.evAssCompl, ha, UlTbf.chg, UlSt.out,
    hs.2.1]
  exact hc

theorem assChg_inv (t : UlTbf) (s : AssSt) (h : t.Inv) (ha : t.st = .waitAssign) (hs : some s ∈ t.ass.out)
    (hi : s ≠ .idle) (h1 : s = .waitStart1 ∨ s = .waitStart2 → t.startExists = true) : (t.assChg s).Inv := by
  unfold UlTbf.assChg
  rw [if_pos hs]
  obtain ⟨hst, has, hc⟩ := h
  simp only [UlTbf.StInv, ha] at hst
  refine ⟨?_, ?_, hc⟩
  · simp only [UlTbf.StInv, ha]
    exact ⟨hst.1, hst.2.1, hi⟩
  · simp only [UlTbf.AssInv, decide_eq_true_eq, true_and]
    exact ⟨fun e => h1 (.inl e), fun e => h1 (.inr e)⟩

/-- What every step keeps, if it ends well and leaves a TBF. -/
def Keeps (r : UlR) : Prop :=
  match r with
  | .ok (some t, _) => t.Inv
  | _ => True

/-- Not idle means the TBF waits for its assignment. -/
theorem UlTbf.Inv.waits {t : UlTbf} (h : t.Inv) (ha : t.ass ≠ .idle) : t.st = .waitAssign := by
  have hs := h.1
  unfold UlTbf.StInv at hs
  cases hst : t.st <;> simp only [hst] at hs
  · rfl
  all_goals exact absurd hs.1 ha

theorem endPhase1_inv (t : UlTbf) (h : t.Inv) (ha : t.ass = .waitImmAss ∨ t.ass = .waitStart1) : t.endPhase1.Inv := by
  have hw : t.st = .waitAssign := h.waits (by rcases ha with e | e <;> simp [e])
  unfold UlTbf.endPhase1
  split
  · exact (complete_inv t h hw (by rcases ha with e | e <;> simp [e, AssSt.out])).1
  · exact assChg_inv t _ h hw (by rcases ha with e | e <;> simp [e, AssSt.out]) (by decide) (by simp)

theorem resetP1_inv (t : UlTbf) (h : t.Inv) (ha : t.ass = .waitImmAss) : t.resetP1.Inv := by
  obtain ⟨hs, hi, hc⟩ := h
  refine ⟨hs, ?_, hc⟩
  simp only [UlTbf.AssInv, UlTbf.resetP1, ha] at hi ⊢
  simp [hi.1]

theorem handleImmAss_inv (env : UlEnv) (t t' : UlTbf) (fn tn : Nat) (m : ImmAss) (b : Bool) (h : t.Inv)
    (ha : t.ass = .waitImmAss) (he : t.handleImmAss env fn tn m = .ok (t', b)) :
    t'.Inv ∧ t'.ass = .waitImmAss ∧ (b = true → 0 < t'.p1.numTs) := by
  have hw := h.waits (by simp [ha])
  obtain ⟨hs, hi, hc⟩ := h
  have h3 : t.t3168 = false := by
    have := hi.1
    simp only [ha] at this
    simpa using this
  simp only [UlTbf.StInv, hw] at hs
  have key : ∀ x : UlTbf, x.st = t.st → x.pending = t.pending → x.n3104 = t.n3104 → x.ass = t.ass →
      x.t3168 = t.t3168 → x.accAttempts = t.accAttempts → x.resReqAttempts = t.resReqAttempts → x.Inv := by
    intro x e1 e2 e3 e4 e5 e6 e7
    refine ⟨?_, ?_, ?_⟩
    · simp only [UlTbf.StInv, e1, hw, e2, e3, e4]
      exact hs
    · simp [UlTbf.AssInv, e4, ha, e5, h3]
    · simp only [UlTbf.CntInv, e6, e7]
      exact hc
  cases m with
  | egprs =>
    simp only [UlTbf.handleImmAss, Res.ok.injEq, Prod.mk.injEq] at he
    obtain ⟨rfl, rfl⟩ := he
    exact ⟨key _ rfl rfl rfl rfl rfl rfl rfl, ha, by simp⟩
  | single s =>
    simp only [UlTbf.handleImmAss] at he
    split at he <;> simp only [Res.ok.injEq, Prod.mk.injEq, reduceCtorEq] at he
    obtain ⟨rfl, rfl⟩ := he
    exact ⟨key _ rfl rfl rfl rfl rfl rfl rfl, ha, by simp⟩
  | dynamic tfi usf s =>
    simp only [UlTbf.handleImmAss] at he
    split at he <;> simp only [Res.ok.injEq, Prod.mk.injEq, reduceCtorEq] at he
    obtain ⟨rfl, rfl⟩ := he
    exact ⟨key _ rfl rfl rfl rfl rfl rfl rfl, ha, by simp⟩
  | fixed tfi s =>
    simp only [UlTbf.handleImmAss] at he
    split at he <;> simp only [Res.ok.injEq, Prod.mk.injEq, reduceCtorEq] at he
    obtain ⟨rfl, rfl⟩ := he
    exact ⟨key _ rfl rfl rfl rfl rfl rfl rfl, ha, by simp⟩

theorem rxImmAss_keeps (env : UlEnv) (t : UlTbf) (m : ImmAss) (fn tn : Nat) (h : t.Inv) :
    Keeps (t.rxImmAss env m fn tn) := by
  unfold UlTbf.rxImmAss
  split
  · rename_i ha
    split
    · rename_i t' he
      have hk := handleImmAss_inv env t t' fn tn m _ h ha he
      split
      · rename_i hc
        exact assChg_inv t' _ hk.1 (hk.1.waits (by simp [hk.2.1])) (by simp [hk.2.1, AssSt.out]) (by decide)
          (fun _ => hc.1)
      · exact endPhase1_inv t' hk.1 (.inl hk.2.1)
    · rename_i t' he
      exact (handleImmAss_inv env t t' fn tn m _ h ha he).1
    · exact True.intro
    · exact True.intro
  · exact h

theorem handlePktUlAss_inv (env : UlEnv) (t t' : UlTbf) (fn : Nat) (m : PktUlAss)
    (he : t.handlePktUlAss env fn m = .ok t') :
    t'.st = t.st ∧ t'.pending = t.pending ∧ t'.n3104 = t.n3104 ∧ t'.ass = t.ass ∧
      t'.t3168 = t.t3168 ∧ t'.accAttempts = t.accAttempts ∧ t'.resReqAttempts = t.resReqAttempts := by
  cases m with
  | dynamic tfi s ts =>
    simp only [UlTbf.handlePktUlAss] at he
    split at he <;> simp only [Res.ok.injEq, reduceCtorEq] at he
    subst he
    exact ⟨rfl, rfl, rfl, rfl, rfl, rfl, rfl⟩
  | otherGprs =>
    simp only [UlTbf.handlePktUlAss, Res.ok.injEq] at he
    subst he
    exact ⟨rfl, rfl, rfl, rfl, rfl, rfl, rfl⟩
  | egprs =>
    simp only [UlTbf.handlePktUlAss, Res.ok.injEq] at he
    subst he
    exact ⟨rfl, rfl, rfl, rfl, rfl, rfl, rfl⟩

theorem delayStart_fields (t : UlTbf) (n : Nat) :
    (t.delayStart n).st = t.st ∧ (t.delayStart n).pending = t.pending ∧ (t.delayStart n).n3104 = t.n3104 ∧
    (t.delayStart n).ass = t.ass ∧ (t.delayStart n).t3168 = t.t3168 ∧
    (t.delayStart n).accAttempts = t.accAttempts ∧ (t.delayStart n).resReqAttempts = t.resReqAttempts ∧
    (t.delayStart n).p2 = t.p2 := by
  unfold UlTbf.delayStart
  split <;> exact ⟨rfl, rfl, rfl, rfl, rfl, rfl, rfl, rfl⟩

/-- The end of the handling of a PACKET UPLINK ASSIGNMENT. -/
theorem endUlAss_inv (t x : UlTbf) (fn : Nat) (h : t.Inv) (ha : t.ass = .waitUlAss ∨ t.ass = .waitStart2)
    (e1 : x.st = t.st) (e2 : x.pending = t.pending) (e3 : x.n3104 = t.n3104) (e4 : x.ass = t.ass)
    (e6 : x.accAttempts = t.accAttempts) (e7 : x.resReqAttempts = t.resReqAttempts) :
    (x.endUlAss fn).Inv ∧ ((x.endUlAss fn).ass = .waitStart2 ∧ (x.endUlAss fn).p2 = x.p2 ∨
      (x.endUlAss fn).ass = .idle) := by
  have hw : t.st = .waitAssign := h.waits (by rcases ha with e | e <;> simp [e])
  obtain ⟨hs, hi, hc⟩ := h
  simp only [UlTbf.StInv, hw] at hs
  unfold UlTbf.endUlAss
  split
  · rename_i hcnd
    unfold UlTbf.assChg
    rw [if_pos (by rw [e4]; rcases ha with e | e <;> simp [e, AssSt.out])]
    refine ⟨⟨?_, ?_, ?_⟩, .inl ⟨rfl, rfl⟩⟩
    · simp only [UlTbf.StInv, e1, hw, e2, e3]
      exact ⟨hs.1, hs.2.1, by decide⟩
    · simp [UlTbf.AssInv, hcnd.1]
    · simp only [UlTbf.CntInv, e6, e7]
      exact hc
  · unfold UlTbf.complete
    rw [if_pos (by rw [e4]; rcases ha with e | e <;> simp [e, AssSt.out])]
    refine ⟨?_, .inr rfl⟩
    simp [UlTbf.Inv, UlTbf.StInv, UlTbf.AssInv, UlTbf.CntInv, UlTbf.evAssCompl, e1, hw, UlTbf.chg, UlSt.out, e3,
      hs.2.1, e6, e7]
    exact hc

theorem doPktUlAss_inv (env : UlEnv) (t : UlTbf) (m : PktUlAss) (poll : Option Nat) (fn tn : Nat) (h : t.Inv)
    (ha : t.ass = .waitUlAss ∨ t.ass = .waitStart2) : Keeps (t.doPktUlAss env m poll fn tn) := by
  unfold UlTbf.doPktUlAss
  split
  · rename_i t' he
    obtain ⟨e1, e2, e3, e4, e5, e6, e7⟩ := handlePktUlAss_inv env t t' fn m he
    split
    · exact (endUlAss_inv t t' fn h ha e1 e2 e3 e4 e6 e7).1
    · split
      · rename_i pfn hp
        obtain ⟨d1, d2, d3, d4, d5, d6, d7, _⟩ := delayStart_fields t' (fnNextBlock (fnNextBlock pfn))
        exact (endUlAss_inv t _ fn h ha (d1.trans e1) (d2.trans e2) (d3.trans e3) (d4.trans e4)
          (d6.trans e6) (d7.trans e7)).1
      · exact True.intro
      · exact True.intro
  · exact True.intro
  · exact True.intro

theorem rxPktUlAss_keeps (env : UlEnv) (t : UlTbf) (m : PktUlAss) (poll : Option Nat) (fn tn : Nat) (h : t.Inv) :
    Keeps (t.rxPktUlAss env m poll fn tn) := by
  unfold UlTbf.rxPktUlAss
  split
  · exact doPktUlAss_inv env t m poll fn tn h (.inl (by assumption))
  · exact doPktUlAss_inv env t m poll fn tn h (.inr (by assumption))
  · exact h

theorem tick_keeps (t : UlTbf) (fn tn : Nat) (h : t.Inv) : Keeps (t.tick fn tn) := by
  unfold UlTbf.tick
  split
  · rename_i ha
    repeat' split
    · exact True.intro
    · exact True.intro
    · exact h
    · exact endPhase1_inv t h (.inr ha)
  · rename_i ha
    repeat' split
    · exact True.intro
    · exact True.intro
    · exact h
    · exact (complete_inv t h (h.waits (by simp [ha])) (by simp [ha, AssSt.out])).1
  · exact h

theorem createMsg_inv (t : UlTbf) (encOk : Bool) (h : t.Inv) : (t.createMsg encOk).1.Inv := by
  unfold UlTbf.createMsg
  split
  · rename_i ha
    split
    · exact assChg_inv t _ h (h.waits (by simp [ha])) (by simp [ha, AssSt.out]) (by decide) (by simp)
    · exact h
  · split <;> exact h
  · exact h

/-- The renewed access: a TBF that waits for an immediate assignment, or none. -/
theorem reinit_eq (t : UlTbf) (rachOk : Bool) (hs : t.st = .flow ∨ t.st = .finished) (hi : t.ass = .idle) :
    t.reinit rachOk = if rachOk then
        (some { t with st := .waitAssign, T := 0, pending := false, cur := .zero, n3104 := 0, assType := .onePhase,
                       ass := .waitImmAss, t3168 := false }, [.rach])
      else (none, []) := by
  rcases hs with hs | hs <;> cases rachOk <;>
    simp [UlTbf.reinit, UlTbf.enterNew, UlTbf.chg, UlSt.out, hs, UlTbf.assStart, hi, UlTbf.evAssStart, UlTbf.assChg,
      AssSt.out]

theorem reinit_inv (t t' : UlTbf) (rachOk : Bool) (o : List UlOut) (hs : t.st = .flow ∨ t.st = .finished)
    (hi : t.ass = .idle) (hc : t.CntInv) (he : t.reinit rachOk = (some t', o)) : t'.Inv ∧ t'.ass = .waitImmAss := by
  rw [reinit_eq t rachOk hs hi] at he
  split at he <;> simp only [Prod.mk.injEq, Option.some.injEq, reduceCtorEq, false_and] at he
  obtain ⟨rfl, -⟩ := he
  refine ⟨⟨?_, ?_, hc⟩, rfl⟩
  · simp [UlTbf.StInv]
  · simp [UlTbf.AssInv]

/-- The state between the creation of a block and the count of it. -/
def UlTbf.Mid (t : UlTbf) : Prop :=
  t.ass = .idle ∧
  (t.st = .flow ∧ (t.pending = false ∧ (0 < t.n3104 ∨ t.assType = .twoPhase) ∨
      t.pending = true ∧ t.T = 3166 ∧ t.assType = .onePhase) ∨
   t.st = .finished ∧ (t.pending = false ∧ (0 < t.n3104 ∨ t.assType = .twoPhase) ∨
      t.pending = true ∧ t.T = 3166 ∧ t.assType = .onePhase ∨
      t.pending = true ∧ t.T = 3182 ∧ (0 < t.n3104 ∨ t.assType = .twoPhase)))

theorem firstIf_ok (t : UlTbf) (h : t.Inv) (hs : t.st = .flow ∨ t.st = .finished) :
    ∃ x, t.firstIf = .ok x ∧ x.Mid ∧ x.n3104 = t.n3104 ∧ x.CntInv ∧ x.AssInv ∧ x.st = t.st := by
  obtain ⟨h1, h2, h3⟩ := h
  unfold UlTbf.StInv at h1
  unfold UlTbf.firstIf
  rcases hs with hs | hs
  · simp only [hs] at h1
    obtain ⟨hi, h1 | h1⟩ := h1
    · obtain ⟨hn, hT, hp⟩ := h1
      rw [if_pos hn]
      unfold UlTbf.evFirst
      simp only [hs, hT, if_true]
      cases ha : t.assType
      · exact ⟨_, rfl, ⟨hi, .inl ⟨rfl, .inr ⟨rfl, rfl, rfl⟩⟩⟩, rfl, h3, h2, rfl⟩
      · exact ⟨_, rfl, ⟨hi, .inl ⟨rfl, .inl ⟨rfl, .inr rfl⟩⟩⟩, rfl, h3, h2, rfl⟩
    · obtain ⟨hn, _, hp⟩ := h1
      rw [if_neg (by omega)]
      refine ⟨t, rfl, ⟨hi, .inl ⟨hs, ?_⟩⟩, rfl, h3, h2, rfl⟩
      rcases hp with hp | hp
      · exact .inl ⟨hp, .inl hn⟩
      · exact .inr hp
  · simp only [hs] at h1
    obtain ⟨hi, hn, _, hp⟩ := h1
    rw [if_neg (by omega)]
    refine ⟨t, rfl, ⟨hi, .inr ⟨hs, ?_⟩⟩, rfl, h3, h2, rfl⟩
    rcases hp with hp | hp | hp
    · exact .inl ⟨hp, .inl hn⟩
    · exact .inr (.inl hp)
    · exact .inr (.inr ⟨hp.1, hp.2, .inl hn⟩)

theorem armT3182_ok (t : UlTbf) (h : t.Mid) :
    ∃ x, t.armT3182 = .ok x ∧ x.pending = true ∧ x.st = t.st ∧ x.ass = t.ass ∧ x.n3104 = t.n3104 ∧
      x.accAttempts = t.accAttempts ∧ x.resReqAttempts = t.resReqAttempts ∧ x.t3168 = t.t3168 ∧
      x.startExists = t.startExists ∧ x.assType = t.assType ∧
      (x.T = 3166 ∧ x.assType = .onePhase ∨ x.T = 3182 ∧ (0 < x.n3104 ∨ x.assType = .twoPhase)) := by
  obtain ⟨hi, h⟩ := h
  have hst : t.st = .flow ∨ t.st = .finished := by
    rcases h with h | h
    · exact .inl h.1
    · exact .inr h.1
  have hcon : t.inContention = (match t.assType with
      | .twoPhase => false
      | .onePhase => t.n3104 == 0 || (t.pending && (t.T == 3164 || t.T == 3166))) := by
    unfold UlTbf.inContention
    rcases hst with e | e <;> rw [e] <;> rfl
  have hh : t.pending = false ∧ (0 < t.n3104 ∨ t.assType = .twoPhase) ∨
      t.pending = true ∧ t.T = 3166 ∧ t.assType = .onePhase ∨
      t.pending = true ∧ t.T = 3182 ∧ (0 < t.n3104 ∨ t.assType = .twoPhase) := by
    rcases h with h | h
    · rcases h.2 with h | h
      · exact .inl h
      · exact .inr (.inl h)
    · exact h.2
  unfold UlTbf.armT3182
  rw [hcon]
  rcases hh with ⟨hp, hn⟩ | ⟨hp, hT, ha⟩ | ⟨hp, hT, hn⟩
  · cases ha : t.assType
    · have hn0 : 0 < t.n3104 := by simpa [ha] using hn
      have : (t.n3104 == 0) = false := by simpa using Nat.ne_of_gt hn0
      simp only [this, hp, Bool.false_and, Bool.or_self, Bool.false_eq_true, if_false]
      exact ⟨_, rfl, rfl, rfl, rfl, rfl, rfl, rfl, rfl, rfl, (by first | rfl | assumption), .inr ⟨rfl, .inl hn0⟩⟩
    · simp only [hp, Bool.false_eq_true, if_false]
      exact ⟨_, rfl, rfl, rfl, rfl, rfl, rfl, rfl, rfl, rfl, (by first | rfl | assumption), .inr ⟨rfl, .inr (by first | rfl | assumption)⟩⟩
  · simp only [ha, hp, hT]
    simp only [Bool.true_and, beq_self_eq_true, Bool.or_true, if_true, and_self]
    exact ⟨_, rfl, (by first | rfl | assumption), rfl, rfl, rfl, rfl, rfl, rfl, rfl, (by first | rfl | assumption), .inl ⟨by first | rfl | assumption, by first | rfl | assumption⟩⟩
  · cases ha : t.assType
    · have hn0 : 0 < t.n3104 := by simpa [ha] using hn
      have : (t.n3104 == 0) = false := by simpa using Nat.ne_of_gt hn0
      simp only [this, hp, hT]
      simp only [Nat.reduceBEq, Bool.or_self, Bool.and_false, Bool.false_eq_true, if_false, if_true]
      exact ⟨_, rfl, (by first | rfl | assumption), rfl, rfl, rfl, rfl, rfl, rfl, rfl, (by first | rfl | assumption), .inr ⟨by first | rfl | assumption, .inl hn0⟩⟩
    · simp only [hp, hT, Bool.false_eq_true, if_false, if_true]
      exact ⟨_, rfl, (by first | rfl | assumption), rfl, rfl, rfl, rfl, rfl, rfl, rfl, (by first | rfl | assumption), .inr ⟨by first | rfl | assumption, .inr (by first | rfl | assumption)⟩⟩

theorem lastIf_ok (t : UlTbf) (final : Bool) (h : t.Mid) (hc : t.CntInv) (hai : t.AssInv) :
    ∃ x, t.lastIf final = .ok x ∧ x.Mid ∧ x.n3104 = t.n3104 ∧ x.CntInv ∧ x.AssInv ∧
      (final = true → x.st = .finished) := by
  unfold UlTbf.lastIf
  cases final
  · exact ⟨t, rfl, h, rfl, hc, hai, by simp⟩
  · simp only [if_true]
    obtain ⟨x, hx, hp, e1, e2, e3, e4, e5, e6, e7, e8, hT⟩ := armT3182_ok t h
    have hc' : x.CntInv := by
      unfold UlTbf.CntInv
      rw [e4, e5]
      exact hc
    have ha' : x.AssInv := by
      unfold UlTbf.AssInv
      rw [e6, e2, e7]
      exact hai
    unfold UlTbf.evLast
    rcases h with ⟨hi, h | h⟩
    · simp only [h.1, hx]
      have hchg : x.chg .finished = { x with st := .finished } := by
        unfold UlTbf.chg
        rw [if_pos (by rw [e1, h.1]; decide)]
        simp only [hp, if_true]
      rw [hchg]
      refine ⟨_, rfl, ⟨e2.trans hi, .inr ⟨rfl, ?_⟩⟩, e3, hc', ha', fun _ => rfl⟩
      rcases hT with hT | hT
      · exact .inr (.inl ⟨hp, hT⟩)
      · exact .inr (.inr ⟨hp, hT⟩)
    · simp only [h.1, hx]
      refine ⟨_, rfl, ⟨e2.trans hi, .inr ⟨e1.trans h.1, ?_⟩⟩, e3, hc', ha', fun _ => e1.trans h.1⟩
      rcases hT with hT | hT
      · exact .inr (.inl ⟨hp, hT⟩)
      · exact .inr (.inr ⟨hp, hT⟩)

theorem afterBlock_spec (env : UlEnv) (t : UlTbf) (rachOk : Bool) (h : t.Mid) (hc : t.CntInv) (ha : t.AssInv)
    (hn : t.n3104 + 1 < 4294967296) :
    Keeps (t.afterBlock env rachOk) ∧ (rachOk = true → ∃ t' o, t.afterBlock env rachOk = .ok (some t', o)) := by
  have hcnt : t.countBlock = { t with n3104 := t.n3104 + 1 } := by
    unfold UlTbf.countBlock
    rw [Nat.mod_eq_of_lt hn]
  have hst : t.st = .flow ∨ t.st = .finished := by
    rcases h.2 with h | h
    · exact .inl h.1
    · exact .inr h.1
  unfold UlTbf.afterBlock
  rw [hcnt]
  split
  · have hre := reinit_eq { t with n3104 := t.n3104 + 1 } rachOk hst h.1
    cases rachOk
    · simp only [Bool.false_eq_true, if_false] at hre
      rw [hre]
      exact ⟨True.intro, by simp⟩
    · simp only [if_true] at hre
      rw [hre]
      refine ⟨?_, fun _ => ⟨_, _, rfl⟩⟩
      refine ⟨?_, ?_, hc⟩
      · simp [UlTbf.StInv]
      · simp [UlTbf.AssInv]
  · refine ⟨?_, fun _ => ⟨_, _, rfl⟩⟩
    refine ⟨?_, ha, hc⟩
    unfold UlTbf.StInv
    obtain ⟨hi, h | h⟩ := h
    · simp only [h.1]
      refine ⟨hi, .inr ⟨Nat.succ_pos _, trivial, ?_⟩⟩
      rcases h.2 with h | h
      · exact .inl h.1
      · exact .inr h
    · simp only [h.1]
      refine ⟨hi, Nat.succ_pos _, trivial, ?_⟩
      rcases h.2 with h | h | h
      · exact .inl h.1
      · exact .inr (.inl h)
      · exact .inr (.inr ⟨h.1, h.2.1⟩)

theorem dataRts_st {t : UlTbf} {tn usf : Nat} (h : t.dataRts tn usf = true) : t.st = .flow ∨ t.st = .finished := by
  simp only [UlTbf.dataRts, Bool.and_eq_true, Bool.or_eq_true, beq_iff_eq] at h
  exact h.2

theorem sendData_spec (env : UlEnv) (t : UlTbf) (final rachOk : Bool) (h : t.Inv) (hs : t.st = .flow ∨ t.st = .finished)
    (hn : t.n3104 + 1 < 4294967296) :
    Keeps (t.sendData env final rachOk) ∧ (rachOk = true → ∃ t' o, t.sendData env final rachOk = .ok (some t', o)) := by
  obtain ⟨x, hx, hm, hxn, hxc, hxa, _⟩ := firstIf_ok t h hs
  obtain ⟨y, hy, hm2, hyn, hyc, hya, _⟩ := lastIf_ok x final hm hxc hxa
  unfold UlTbf.sendData
  rw [hx]
  simp only [hy]
  exact afterBlock_spec env y rachOk hm2 hyc hya (by omega)

theorem sendData_ass (env : UlEnv) (t t' : UlTbf) (final rachOk : Bool) (o : List UlOut) (h : t.Inv)
    (hs : t.st = .flow ∨ t.st = .finished) (hn : t.n3104 + 1 < 4294967296)
    (he : t.sendData env final rachOk = .ok (some t', o)) : t'.ass = .idle ∨ t'.ass = .waitImmAss := by
  obtain ⟨x, hx, hm, hxn, hxc, hxa, _⟩ := firstIf_ok t h hs
  obtain ⟨y, hy, hm2, hyn, hyc, hya, _⟩ := lastIf_ok x final hm hxc hxa
  unfold UlTbf.sendData at he
  rw [hx] at he
  simp only [hy] at he
  have hcnt : y.countBlock = { y with n3104 := y.n3104 + 1 } := by
    unfold UlTbf.countBlock
    rw [Nat.mod_eq_of_lt (by omega)]
  have hst : y.st = .flow ∨ y.st = .finished := by
    rcases hm2.2 with h | h
    · exact .inl h.1
    · exact .inr h.1
  unfold UlTbf.afterBlock at he
  rw [hcnt] at he
  split at he
  · have hre := reinit_eq { y with n3104 := y.n3104 + 1 } rachOk hst hm2.1
    rw [hre] at he
    cases rachOk
    · simp only [Bool.false_eq_true, if_false, reduceCtorEq] at he
    · simp only [if_true, Res.ok.injEq, Prod.mk.injEq, Option.some.injEq] at he
      obtain ⟨rfl, -⟩ := he
      exact .inr rfl
  · simp only [Res.ok.injEq, Prod.mk.injEq, Option.some.injEq] at he
    obtain ⟨rfl, -⟩ := he
    exact .inl hm2.1

theorem inContention_iff (t : UlTbf) (hs : t.st = .flow ∨ t.st = .finished) :
    t.inContention = true ↔
      t.assType = .onePhase ∧ (t.n3104 = 0 ∨ t.pending = true ∧ (t.T = 3164 ∨ t.T = 3166)) := by
  unfold UlTbf.inContention
  rcases hs with e | e <;> simp only [e] <;> cases t.assType <;> simp

theorem ackTimers_spec (t : UlTbf) (h : t.Inv) (hs : t.st = .flow ∨ t.st = .finished) :
    (∀ x, t.ackTimers = .ok x → x.Inv ∧ x.st = t.st) ∧ (¬ BeforeFirstBlock t → ∃ x, t.ackTimers = .ok x) := by
  have hcon := inContention_iff t hs
  obtain ⟨h1, h2, h3⟩ := h
  have stop : ∀ hn : 0 < t.n3104, ∀ h80 : t.t3180 = true, ∀ hi : t.ass = .idle,
      UlTbf.Inv { t with T := 0, pending := false } := by
    intro hn h80 hi
    refine ⟨?_, h2, h3⟩
    unfold UlTbf.StInv
    rcases hs with e | e <;> simp only [e]
    · exact ⟨hi, .inr ⟨hn, h80, .inl trivial⟩⟩
    · exact ⟨hi, hn, h80, .inl trivial⟩
  have same : t.Inv := ⟨h1, h2, h3⟩
  have con : t.inContention = true → ¬ BeforeFirstBlock t →
      0 < t.n3104 ∧ t.assType = .onePhase ∧ t.T = 3166 ∧ t.t3180 = true ∧ t.ass = .idle := by
    intro hc hb
    obtain ⟨ha, hc⟩ := hcon.1 hc
    unfold UlTbf.StInv at h1
    rcases hs with e | e <;> simp only [e] at h1
    · rcases h1.2 with h | h
      · exact absurd ⟨e, ha, h.1⟩ hb
      · refine ⟨h.1, ha, ?_, h.2.1, h1.1⟩
        rcases h.2.2 with hp | hp
        · rcases hc with hc | hc
          · exact absurd hc (by omega)
          · exact absurd (hp ▸ hc.1) (by decide)
        · exact hp.2.1
    · refine ⟨h1.2.1, ha, ?_, h1.2.2.1, h1.1⟩
      rcases h1.2.2.2 with hp | hp | hp
      · rcases hc with hc | hc
        · exact absurd hc (by omega)
        · exact absurd (hp ▸ hc.1) (by decide)
      · exact hp.2.1
      · rcases hc with hc | hc
        · exact absurd hc (by omega)
        · omega
  unfold UlTbf.ackTimers
  cases hc : t.inContention
  · simp only [Bool.false_eq_true, if_false]
    split
    · rename_i hcc
      unfold UlTbf.StInv at h1
      simp only [hcc.1] at h1
      refine ⟨fun x hx => ?_, fun _ => ⟨_, rfl⟩⟩
      simp only [Res.ok.injEq] at hx
      subst hx
      exact ⟨stop h1.2.1 h1.2.2.1 h1.1, rfl⟩
    · refine ⟨fun x hx => ?_, fun _ => ⟨_, rfl⟩⟩
      simp only [Res.ok.injEq] at hx
      subst hx
      exact ⟨same, rfl⟩
  · simp only [if_true]
    unfold UlTbf.contentionOk
    constructor
    · intro x hx
      split at hx
      · rename_i hcc
        simp only [Res.ok.injEq] at hx
        subst hx
        have hb : ¬ BeforeFirstBlock t := by
          intro hb
          unfold UlTbf.StInv at h1
          simp only [hb.1] at h1
          rcases h1.2 with h | h
          · have := h.2.1
            rw [hcc.2] at this
            exact absurd this (by decide)
          · exact absurd hb.2.2 (by omega)
        obtain ⟨q1, _, _, q4, q5⟩ := con hc hb
        exact ⟨stop q1 q4 q5, rfl⟩
      · simp only [reduceCtorEq] at hx
    · intro hb
      obtain ⟨_, q2, q3, _⟩ := con hc hb
      rw [if_pos ⟨q2, q3⟩]
      exact ⟨_, rfl⟩

theorem finalAck_inv (t : UlTbf) (final tbfEst : Bool) (pfn : Option Nat) (tn : Nat) (h : t.Inv) :
    (t.finalAck final tbfEst pfn tn).Inv := by
  unfold UlTbf.finalAck
  split
  · rename_i hc
    obtain ⟨h1, h2, h3⟩ := h
    simp only [UlTbf.StInv, hc.1] at h1
    unfold UlTbf.chg
    rw [if_pos (by simp only [hc.1]; decide)]
    refine ⟨?_, h2, h3⟩
    exact ⟨h1.1, h1.2.2.1, rfl⟩
  · exact h

theorem pollFn_ok (fn : Nat) (poll : Option Nat) (hp : ValidPoll poll) (hf : BlockStart fn) :
    ∃ p, pollFn? fn poll = .ok p := by
  unfold pollFn?
  cases poll with
  | none => exact ⟨_, rfl⟩
  | some r =>
    obtain ⟨d, _, _, e⟩ := Verif.Props.rrbp2fn_dist fn r hf hp
    simp only [e]
    exact ⟨_, rfl⟩

theorem rxAck_spec (t : UlTbf) (final : Bool) (poll : Option Nat) (tbfEst : Bool) (fn tn : Nat) (h : t.Inv) :
    Keeps (t.rxAck final poll tbfEst fn tn) ∧
    (ValidPoll poll → BlockStart fn → ¬ BeforeFirstBlock t →
      ∃ t' o, t.rxAck final poll tbfEst fn tn = .ok (some t', o) ∧ t'.ass = t.ass) := by
  unfold UlTbf.rxAck
  split
  · rename_i hs
    have ha := ackTimers_spec t h hs
    have hkeep : ∀ x : UlTbf, t.ackTimers = .ok x → x.ass = t.ass := by
      intro x hx
      unfold UlTbf.ackTimers UlTbf.contentionOk at hx
      repeat' split at hx
      all_goals first | (simp only [reduceCtorEq] at hx; done) | (simp only [Res.ok.injEq] at hx; subst hx; rfl)
    constructor
    · cases e : t.ackTimers with
      | ok x =>
        have hx := (ha.1 x e).1
        simp only
        cases e2 : pollFn? fn poll with
        | ok p => exact finalAck_inv x final tbfEst p tn hx
        | err _ => exact True.intro
        | ub _ => exact True.intro
      | err _ => exact True.intro
      | ub _ => exact True.intro
    · intro hp hf hb
      obtain ⟨x, hx⟩ := ha.2 hb
      obtain ⟨p, hpf⟩ := pollFn_ok fn poll hp hf
      simp only [hx, hpf]
      refine ⟨_, _, rfl, ?_⟩
      rw [← hkeep x hx]
      unfold UlTbf.finalAck
      split
      · unfold UlTbf.chg
        split <;> rfl
      · rfl
  · exact ⟨h, fun _ _ _ => ⟨_, _, rfl, rfl⟩⟩

theorem timeout_spec (t : UlTbf) (rachOk : Bool) (h : t.Inv) :
    Keeps (t.timeout rachOk) ∧ ∃ r, t.timeout rachOk = .ok r ∧ ∀ t', r.1 = some t' → t' = t ∨ t'.ass = .waitImmAss := by
  have acc : (t.st = .flow ∨ t.st = .finished) → Keeps (.ok (t.accessFailed rachOk)) ∧
      ∀ t', (t.accessFailed rachOk).1 = some t' → t'.ass = .waitImmAss := by
    intro hs
    obtain ⟨h1, h2, h3⟩ := h
    have hi : t.ass = .idle := by
      unfold UlTbf.StInv at h1
      rcases hs with e | e <;> simp only [e] at h1 <;> exact h1.1
    unfold UlTbf.accessFailed
    split
    · exact ⟨True.intro, by simp⟩
    · have hr := reinit_eq { t with pending := false, accAttempts := t.accAttempts + 1 } rachOk hs hi
      rw [hr]
      cases rachOk
      · exact ⟨True.intro, by simp⟩
      · refine ⟨?_, ?_⟩
        · refine ⟨?_, ?_, ?_⟩
          · simp [UlTbf.StInv]
          · simp [UlTbf.AssInv]
          · exact ⟨by have := h3.1; simp only; omega, h3.2⟩
        · simp only [if_true, Option.some.injEq]
          rintro t' rfl
          rfl
  unfold UlTbf.timeout
  cases hp : t.pending
  · exact ⟨h, _, rfl, fun t' e => .inl (by simpa using e.symm)⟩
  · simp only [Bool.not_true, Bool.false_eq_true, if_false]
    have h1 := h.1
    unfold UlTbf.StInv at h1
    cases hs : t.st <;> simp only [hs, hp] at h1
    · exact absurd h1.1 (by decide)
    · have hT : t.T = 3164 ∨ t.T = 3166 := by
        rcases h1.2 with h | h
        · exact .inl h.2.1
        · rcases h.2.2 with h | h
          · exact absurd h (by decide)
          · exact .inr h.2.1
      have ha := acc (.inl hs)
      rcases hT with hT | hT
      · rw [if_pos hT, if_pos rfl]
        exact ⟨ha.1, _, rfl, fun t' e => .inr (ha.2 t' e)⟩
      · rw [if_neg (by rw [hT]; decide), if_pos hT, if_pos (.inl rfl)]
        exact ⟨ha.1, _, rfl, fun t' e => .inr (ha.2 t' e)⟩
    · have ha := acc (.inr hs)
      rcases h1.2.2.2 with h | h | h
      · exact absurd h (by decide)
      · rw [if_neg (by rw [h.2.1]; decide), if_pos h.2.1, if_pos (.inr rfl)]
        exact ⟨ha.1, _, rfl, fun t' e => .inr (ha.2 t' e)⟩
      · rw [if_neg (by rw [h.2]; decide), if_neg (by rw [h.2]; decide), if_pos h.2]
        exact ⟨True.intro, _, rfl, by simp⟩
    · exact absurd h1.2.2 (by decide)

theorem assTimeout_spec (t : UlTbf) (h : t.Inv) :
    Keeps t.assTimeout ∧ ∃ r, t.assTimeout = .ok r ∧ ∀ t', r.1 = some t' → t' = t ∨ t'.ass = .schedResReq := by
  unfold UlTbf.assTimeout
  cases h3 : t.t3168
  · exact ⟨h, _, rfl, fun t' e => .inl (by simpa using e.symm)⟩
  · have ha : t.ass = .waitUlAss := h.2.1.1.1 h3
    simp only [Bool.not_true, Bool.false_eq_true, if_false, ha, ne_eq, not_true_eq_false]
    cases hd : t.fromDl
    · simp only [Bool.false_eq_true, if_false]
      split
      · exact ⟨True.intro, _, rfl, by simp⟩
      · have hw := h.waits (by simp [ha])
        obtain ⟨h1, h2, hc⟩ := h
        simp only [UlTbf.StInv, hw] at h1
        simp only [UlTbf.assChg]
        rw [if_pos (by decide)]
        refine ⟨⟨?_, ?_, ?_⟩, _, rfl, ?_⟩
        · simp only [UlTbf.StInv, hw]
          exact ⟨h1.1, h1.2.1, by decide⟩
        · simp [UlTbf.AssInv]
        · exact ⟨hc.1, by have := hc.2; simp only; omega⟩
        · simp only [Option.some.injEq]
          rintro t' rfl
          exact .inr rfl
    · simp only [if_true]
      exact ⟨True.intro, _, rfl, by simp⟩

/-- The invariant is kept by every event, as long as fewer than 2³² blocks are sent. -/
theorem step_keeps (env : UlEnv) (t : UlTbf) (e : TbfEv) (h : t.Inv)
    (hn : (∃ tn usf f r, e = .sendData tn usf f r) → t.n3104 + 1 < 2 ^ 32) : Keeps (t.step env e) := by
  cases e with
  | immAss m fn tn => exact rxImmAss_keeps env t m fn tn h
  | pktUlAss m poll fn tn => exact rxPktUlAss_keeps env t m poll fn tn h
  | tick fn tn => exact tick_keeps t fn tn h
  | sendResReq fn tn usf encOk =>
    simp only [UlTbf.step]
    split
    · exact createMsg_inv t encOk h
    · exact h
  | pollAss encOk => exact createMsg_inv t encOk h
  | sendData tn usf final rachOk =>
    simp only [UlTbf.step]
    split
    · rename_i hr
      exact (sendData_spec env t final rachOk h (dataRts_st hr) (hn ⟨_, _, _, _, rfl⟩)).1
    · exact h
  | sendDummy tn usf =>
    simp only [UlTbf.step]
    split
    · obtain ⟨h1, h2, h3⟩ := h
      refine ⟨?_, h2, h3⟩
      unfold UlTbf.StInv at h1 ⊢
      cases hs : t.st <;> simp only [hs] at h1 ⊢
      · exact h1
      · refine ⟨h1.1, ?_⟩
        rcases h1.2 with h | h
        · exact .inl h
        · exact .inr ⟨h.1, trivial, h.2.2⟩
      · exact ⟨h1.1, h1.2.1, trivial, h1.2.2.2⟩
      · exact ⟨h1.1, trivial, h1.2.2⟩
    · exact h
  | ack final poll tbfEst fn tn => exact (rxAck_spec t final poll tbfEst fn tn h).1
  | txConf fn tn =>
    simp only [UlTbf.step, UlTbf.txConf]
    split
    · exact True.intro
    · exact h
  | timeout rachOk => exact (timeout_spec t rachOk h).1
  | t3168 => exact (assTimeout_spec t h).1
  | t3180 =>
    simp only [UlTbf.step]
    split
    · exact True.intro
    · exact h

theorem startFn_ok (env : UlEnv) (fn : Nat) (s : StartTime) (h : ValidStart s) (hf : BlockStart fn ∨ ∀ k, s ≠ .rel k) :
    ∃ n, s.toFn env fn = .ok n := by
  cases s with
  | abs t1p t3 t2 =>
    unfold ValidStart at h
    have h2 : (((t3 : Int) - t2) % 26).toNat ≤ 25 := by omega
    have : startingTimeRfn t1p t3 t2 < 42432 := by
      unfold startingTimeRfn
      exact Nat.lt_of_le_of_lt (Nat.mod_le _ _) (by omega)
    simp only [StartTime.toFn]
    rw [if_pos this]
    exact ⟨_, rfl⟩
  | rel k =>
    rcases hf with hf | hf
    · have e : fn = blockFn (3 * (fn / 13) + fn % 13 / 4) := by
        unfold BlockStart at hf
        unfold blockFn
        omega
      rw [e]
      exact ⟨_, Verif.Props.c34_starting_block _ k⟩
    · exact absurd rfl (hf k)

theorem startFn?_ok (env : UlEnv) (fn : Nat) (s : Option StartTime) (h : ValidStart? s)
    (hf : BlockStart fn ∨ ∀ k, s ≠ some (.rel k)) : ∃ n, startFn? env fn s = .ok n := by
  cases s with
  | none => exact ⟨_, rfl⟩
  | some s =>
    obtain ⟨n, hn⟩ := startFn_ok env fn s h (hf.imp id fun h k e => h k (by rw [e]))
    simp only [startFn?, hn]
    exact ⟨_, rfl⟩

/-- What a step as expected does: it ends well and keeps the allocation invariant. -/
def Goes (r : UlR) : Prop := ∃ t' o, r = .ok (t', o) ∧ ∀ t, t' = some t → t.AllocInv

theorem allocInv_of (t : UlTbf) (h : t.ass ≠ .waitStart1 ∧ t.ass ≠ .waitStart2) : t.AllocInv :=
  ⟨fun e => absurd e h.1, fun e => absurd e h.2⟩

theorem endPhase1_ass (t : UlTbf) (h : t.ass = .waitImmAss ∨ t.ass = .waitStart1) :
    t.endPhase1.ass = .idle ∨ t.endPhase1.ass = .schedResReq := by
  unfold UlTbf.endPhase1
  split
  · unfold UlTbf.complete
    rw [if_pos (by rcases h with e | e <;> simp [e, AssSt.out])]
    exact .inl rfl
  · unfold UlTbf.assChg
    rw [if_pos (by rcases h with e | e <;> simp [e, AssSt.out])]
    exact .inr rfl

theorem rxImmAss_goes (env : UlEnv) (t : UlTbf) (m : ImmAss) (fn tn : Nat) (h : t.Inv) (hal : t.AllocInv)
    (hm : ValidImmAss m) : Goes (t.rxImmAss env m fn tn) := by
  unfold UlTbf.rxImmAss
  split
  · rename_i ha
    have hok : ∃ x b, t.handleImmAss env fn tn m = .ok (x, b) := by
      cases m with
      | egprs => exact ⟨_, _, rfl⟩
      | single s =>
        obtain ⟨n, hn⟩ := startFn_ok env fn s hm.1 (.inr hm.2)
        simp only [UlTbf.handleImmAss, hn]
        exact ⟨_, _, rfl⟩
      | dynamic _ _ s =>
        obtain ⟨n, hn⟩ := startFn?_ok env fn s hm.1 (.inr hm.2)
        simp only [UlTbf.handleImmAss, hn]
        exact ⟨_, _, rfl⟩
      | fixed _ s =>
        obtain ⟨n, hn⟩ := startFn?_ok env fn s hm.1 (.inr hm.2)
        simp only [UlTbf.handleImmAss, hn]
        exact ⟨_, _, rfl⟩
    obtain ⟨x, b, he⟩ := hok
    have hk := handleImmAss_inv env t x fn tn m b h ha he
    rw [he]
    cases b
    · refine ⟨_, _, rfl, fun y hy => ?_⟩
      simp only [Option.some.injEq] at hy
      subst hy
      exact allocInv_of _ (by simp [hk.2.1])
    · simp only
      split
      · refine ⟨_, _, rfl, fun y hy => ?_⟩
        simp only [Option.some.injEq] at hy
        subst hy
        unfold UlTbf.assChg
        rw [if_pos (by simp [hk.2.1, AssSt.out])]
        exact ⟨fun _ => hk.2.2 rfl, nofun⟩
      · refine ⟨_, _, rfl, fun y hy => ?_⟩
        simp only [Option.some.injEq] at hy
        subst hy
        rcases endPhase1_ass x (.inl hk.2.1) with e | e <;> exact allocInv_of _ (by simp [e])
  · refine ⟨_, _, rfl, fun y hy => ?_⟩
    simp only [Option.some.injEq] at hy
    subst hy
    exact hal

theorem rxPktUlAss_goes (env : UlEnv) (t : UlTbf) (m : PktUlAss) (poll : Option Nat) (fn tn : Nat) (h : t.Inv)
    (hal : t.AllocInv) (hm : ValidPktUlAss m) (hp : ValidPoll poll) (hf : BlockStart fn) :
    Goes (t.rxPktUlAss env m poll fn tn) := by
  have main : (t.ass = .waitUlAss ∨ t.ass = .waitStart2) → Goes (t.doPktUlAss env m poll fn tn) := by
    intro ha
    cases m with
    | otherGprs => exact hm.elim
    | egprs => exact hm.elim
    | dynamic tfi s ts =>
      obtain ⟨hs, n, hn8, usf, hts⟩ := hm
      obtain ⟨sfn, hsfn⟩ := startFn?_ok env fn s hs (.inl hf)
      have hcnt : 0 < (ts.take 8).countP Option.isSome := by
        rw [List.countP_pos_iff]
        refine ⟨some usf, ?_, rfl⟩
        rw [List.mem_iff_getElem?]
        exact ⟨n, by rw [List.getElem?_take, if_pos hn8, hts]⟩
      obtain ⟨x, hx, hp2⟩ : ∃ x, t.handlePktUlAss env fn (.dynamic tfi s ts) = .ok x ∧ 0 < x.p2.numTs := by
        simp only [UlTbf.handlePktUlAss, hsfn]
        exact ⟨_, rfl, hcnt⟩
      obtain ⟨e1, e2, e3, e4, e5, e6, e7⟩ := handlePktUlAss_inv env t x fn _ hx
      have fin : ∀ y : UlTbf, y.st = t.st → y.pending = t.pending → y.n3104 = t.n3104 → y.ass = t.ass →
          y.accAttempts = t.accAttempts → y.resReqAttempts = t.resReqAttempts → y.p2 = x.p2 →
          (y.endUlAss fn).AllocInv := by
        intro y f1 f2 f3 f4 f6 f7 f8
        rcases (endUlAss_inv t y fn h ha f1 f2 f3 f4 f6 f7).2 with ⟨q, qp⟩ | q
        · exact ⟨fun e => (by rw [q] at e; cases e), fun _ => by rw [qp, f8]; exact hp2⟩
        · exact allocInv_of _ (by simp [q])
      unfold UlTbf.doPktUlAss
      rw [hx]
      cases poll with
      | none =>
        refine ⟨_, _, rfl, fun y hy => ?_⟩
        simp only [Option.some.injEq] at hy
        subst hy
        exact fin x e1 e2 e3 e4 e6 e7 rfl
      | some rrbp =>
        obtain ⟨d, _, _, e⟩ := Verif.Props.rrbp2fn_dist fn rrbp hf hp
        simp only [e]
        refine ⟨_, _, rfl, fun y hy => ?_⟩
        simp only [Option.some.injEq] at hy
        subst hy
        obtain ⟨d1, d2, d3, d4, d5, d6, d7, d8⟩ := delayStart_fields x (fnNextBlock (fnNextBlock (fnSum fn d)))
        exact fin _ (d1.trans e1) (d2.trans e2) (d3.trans e3) (d4.trans e4) (d6.trans e6) (d7.trans e7) d8
  unfold UlTbf.rxPktUlAss
  split
  · exact main (.inl (by assumption))
  · exact main (.inr (by assumption))
  · refine ⟨_, _, rfl, fun y hy => ?_⟩
    simp only [Option.some.injEq] at hy
    subst hy
    exact hal

theorem tick_goes (t : UlTbf) (fn tn : Nat) (h : t.Inv) (hal : t.AllocInv) : Goes (t.tick fn tn) := by
  have same : Goes (.ok (some t, [])) := ⟨_, _, rfl, fun y hy => by
    simp only [Option.some.injEq] at hy
    subst hy
    exact hal⟩
  unfold UlTbf.tick
  split
  · rename_i ha
    have hs := h.2.1.2.1 ha
    have hp := hal.1 ha
    simp only [hs, Bool.not_true, Bool.false_eq_true, if_false]
    rw [if_neg (by omega)]
    split
    · exact same
    · refine ⟨_, _, rfl, fun y hy => ?_⟩
      simp only [Option.some.injEq] at hy
      subst hy
      rcases endPhase1_ass t (.inr ha) with e | e <;> exact allocInv_of _ (by simp [e])
  · rename_i ha
    have hs := h.2.1.2.2 ha
    have hp := hal.2 ha
    simp only [hs, Bool.not_true, Bool.false_eq_true, if_false]
    rw [if_neg (by omega)]
    split
    · exact same
    · refine ⟨_, _, rfl, fun y hy => ?_⟩
      simp only [Option.some.injEq] at hy
      subst hy
      exact (complete_inv t h (h.waits (by simp [ha])) (by simp [ha, AssSt.out])).2
  · exact same

theorem createMsg_alloc (t : UlTbf) (encOk : Bool) (hal : t.AllocInv) : (t.createMsg encOk).1.AllocInv := by
  unfold UlTbf.createMsg
  split
  · split
    · rename_i ha _
      unfold UlTbf.assChg
      rw [if_pos (by simp [ha, AssSt.out])]
      exact allocInv_of _ (by simp)
    · exact hal
  · split <;> exact hal
  · exact hal

theorem step_goes (env : UlEnv) (t : UlTbf) (e : TbfEv) (h : t.Inv) (hal : t.AllocInv) (he : Expected t e) :
    Goes (t.step env e) := by
  have same : ∀ o, Goes (.ok (some t, o)) := fun o => ⟨_, _, rfl, fun y hy => by
    simp only [Option.some.injEq] at hy
    subst hy
    exact hal⟩
  have gone : ∀ o, Goes (.ok (none, o)) := fun o => ⟨_, _, rfl, fun y hy => by cases hy⟩
  cases e with
  | immAss m fn tn => exact rxImmAss_goes env t m fn tn h hal he
  | pktUlAss m poll fn tn => exact rxPktUlAss_goes env t m poll fn tn h hal he.1 he.2.1 he.2.2
  | tick fn tn => exact tick_goes t fn tn h hal
  | sendResReq fn tn usf encOk =>
    simp only [UlTbf.step]
    split
    · refine ⟨_, _, rfl, fun y hy => ?_⟩
      simp only [Option.some.injEq] at hy
      subst hy
      exact createMsg_alloc t encOk hal
    · exact same _
  | pollAss encOk =>
    refine ⟨_, _, rfl, fun y hy => ?_⟩
    simp only [Option.some.injEq] at hy
    subst hy
    exact createMsg_alloc t encOk hal
  | sendData tn usf final rachOk =>
    simp only [UlTbf.step]
    split
    · rename_i hr
      have hs := sendData_spec env t final rachOk h (dataRts_st hr) he.2
      obtain ⟨t', o, ho⟩ := hs.2 he.1
      refine ⟨_, _, ho, fun y hy => ?_⟩
      simp only [Option.some.injEq] at hy
      subst hy
      have hk := hs.1
      rw [ho] at hk
      refine allocInv_of _ ?_
      have hcl := sendData_ass env t t' final rachOk o h (dataRts_st hr) he.2 ho
      rcases hcl with e | e <;> simp [e]
    · exact same _
  | sendDummy tn usf =>
    simp only [UlTbf.step]
    split
    · refine ⟨_, _, rfl, fun y hy => ?_⟩
      simp only [Option.some.injEq] at hy
      subst hy
      exact hal
    · exact same _
  | ack final poll tbfEst fn tn =>
    simp only [UlTbf.step]
    rcases Classical.em (t.st = .flow ∨ t.st = .finished) with hs | hs
    · obtain ⟨t', o, ho, hass⟩ := (rxAck_spec t final poll tbfEst fn tn h).2 he.1 he.2.1 he.2.2
      refine ⟨_, _, ho, fun y hy => ?_⟩
      simp only [Option.some.injEq] at hy
      subst hy
      have hi : t.ass = .idle := by
        have h1 := h.1
        unfold UlTbf.StInv at h1
        rcases hs with e | e <;> simp only [e] at h1 <;> exact h1.1
      exact allocInv_of _ (by simp [hass, hi])
    · unfold UlTbf.rxAck
      rw [if_neg hs]
      exact same _
  | txConf fn tn =>
    simp only [UlTbf.step, UlTbf.txConf]
    split
    · exact gone _
    · exact same _
  | timeout rachOk =>
    obtain ⟨-, ⟨t', o⟩, hr, hx⟩ := timeout_spec t rachOk h
    refine ⟨_, _, hr, fun y hy => ?_⟩
    rcases hx y hy with e | e
    · exact e ▸ hal
    · exact allocInv_of _ (by simp [e])
  | t3168 =>
    obtain ⟨-, ⟨t', o⟩, hr, hx⟩ := assTimeout_spec t h
    refine ⟨_, _, hr, fun y hy => ?_⟩
    rcases hx y hy with e | e
    · exact e ▸ hal
    · exact allocInv_of _ (by simp [e])
  | t3180 =>
    simp only [UlTbf.step]
    split
    · exact gone _
    · exact same _

/-! ## Accounting of the access attempts -/

/-- One more PACKET RESOURCE REQUEST may be sent without a further timeout. -/
def AssSt.pot : AssSt → Nat
  | .waitImmAss | .waitStart1 | .schedResReq => 1
  | _ => 0

/-- What one step changes in the counters. -/
def Acct (t : UlTbf) (isData : Bool) (r : UlR) : Prop :=
  match r with
  | .ok (some t', o) =>
    t'.n3104 ≤ t.n3104 + 1 ∧ t.accAttempts ≤ t'.accAttempts ∧ t.resReqAttempts ≤ t'.resReqAttempts ∧
    (isData = false → o.count .rach + t.accAttempts ≤ t'.accAttempts) ∧
    o.count .resReq + t'.ass.pot + t.resReqAttempts ≤ t.ass.pot + o.count .rach + t'.resReqAttempts
  | .ok (none, o) => o.count .rach = 0 ∧ o.count .resReq = 0
  | _ => True

/-- The counters are left alone. -/
def SameCnt (t t' : UlTbf) : Prop :=
  t'.n3104 = t.n3104 ∧ t'.accAttempts = t.accAttempts ∧ t'.resReqAttempts = t.resReqAttempts

theorem acct_same (t t' : UlTbf) (b : Bool) (o : List UlOut) (h : SameCnt t t') (hp : t'.ass.pot ≤ t.ass.pot)
    (h1 : o.count .rach = 0) (h2 : o.count .resReq = 0) : Acct t b (.ok (some t', o)) := by
  obtain ⟨e1, e2, e3⟩ := h
  simp only [Acct, e1, e2, e3, h1, h2]
  omega

theorem complete_cnt (t : UlTbf) : SameCnt t t.complete := by
  unfold UlTbf.complete
  split
  · cases hs : t.st <;> cases ha : t.assType <;> simp [SameCnt, UlTbf.evAssCompl, UlTbf.chg, UlSt.out]
  · exact ⟨rfl, rfl, rfl⟩

theorem complete_pot (t : UlTbf) : t.complete.ass.pot ≤ t.ass.pot := by
  unfold UlTbf.complete
  split
  · simp [AssSt.pot]
  · exact Nat.le_refl _

theorem assChg_cnt (t : UlTbf) (s : AssSt) : SameCnt t (t.assChg s) := by
  unfold UlTbf.assChg
  split <;> exact ⟨rfl, rfl, rfl⟩

theorem endPhase1_acct (t : UlTbf) (h : t.ass = .waitImmAss ∨ t.ass = .waitStart1) :
    SameCnt t t.endPhase1 ∧ t.endPhase1.ass.pot ≤ t.ass.pot := by
  refine ⟨?_, ?_⟩
  · unfold UlTbf.endPhase1
    split
    · exact complete_cnt t
    · exact assChg_cnt t _
  · have e : t.ass.pot = 1 := by rcases h with h | h <;> simp [h, AssSt.pot]
    rw [e]
    rcases endPhase1_ass t h with h | h <;> simp [h, AssSt.pot]

theorem handleImmAss_cnt (env : UlEnv) (t t' : UlTbf) (fn tn : Nat) (m : ImmAss) (b : Bool)
    (he : t.handleImmAss env fn tn m = .ok (t', b)) : SameCnt t t' ∧ t'.ass = t.ass := by
  cases m <;> simp only [UlTbf.handleImmAss] at he
  · simp only [Res.ok.injEq, Prod.mk.injEq] at he
    obtain ⟨rfl, -⟩ := he
    exact ⟨⟨rfl, rfl, rfl⟩, rfl⟩
  all_goals
    split at he <;> simp only [Res.ok.injEq, Prod.mk.injEq, reduceCtorEq] at he
    obtain ⟨rfl, -⟩ := he
    exact ⟨⟨rfl, rfl, rfl⟩, rfl⟩

theorem same_acct (t : UlTbf) (b : Bool) : Acct t b (.ok (some t, [])) :=
  acct_same t t b [] ⟨rfl, rfl, rfl⟩ (Nat.le_refl _) rfl rfl

theorem SameCnt.trans {a b c : UlTbf} (h : SameCnt a b) (g : SameCnt b c) : SameCnt a c :=
  ⟨g.1.trans h.1, g.2.1.trans h.2.1, g.2.2.trans h.2.2⟩

theorem rxImmAss_acct (env : UlEnv) (t : UlTbf) (m : ImmAss) (fn tn : Nat) :
    Acct t false (t.rxImmAss env m fn tn) := by
  unfold UlTbf.rxImmAss
  split
  · rename_i ha
    split
    · rename_i x he
      obtain ⟨hc, hx⟩ := handleImmAss_cnt env t x fn tn m true he
      rw [ha] at hx
      split
      · refine acct_same _ _ _ _ (hc.trans (assChg_cnt x _)) ?_ rfl rfl
        unfold UlTbf.assChg
        rw [if_pos (by simp [hx, AssSt.out])]
        simp [ha, AssSt.pot]
      · obtain ⟨h1, h2⟩ := endPhase1_acct x (.inl hx)
        exact acct_same _ _ _ _ (hc.trans h1) (by rw [ha, ← hx]; exact h2) rfl rfl
    · rename_i x he
      obtain ⟨hc, hx⟩ := handleImmAss_cnt env t x fn tn m false he
      exact acct_same _ _ _ _ hc (by rw [hx]; exact Nat.le_refl _) rfl rfl
    · exact True.intro
    · exact True.intro
  · exact same_acct t _

theorem endUlAss_acct (t : UlTbf) (fn : Nat) :
    SameCnt t (t.endUlAss fn) ∧ (t.endUlAss fn).ass.pot ≤ t.ass.pot := by
  unfold UlTbf.endUlAss
  split
  · refine ⟨assChg_cnt t _, ?_⟩
    unfold UlTbf.assChg
    split <;> simp [AssSt.pot]
  · exact ⟨complete_cnt t, complete_pot t⟩

theorem rxPktUlAss_acct (env : UlEnv) (t : UlTbf) (m : PktUlAss) (poll : Option Nat) (fn tn : Nat) :
    Acct t false (t.rxPktUlAss env m poll fn tn) := by
  have main : Acct t false (t.doPktUlAss env m poll fn tn) := by
    unfold UlTbf.doPktUlAss
    split
    · rename_i x he
      obtain ⟨e1, e2, e3, e4, e5, e6, e7⟩ := handlePktUlAss_inv env t x fn m he
      have hx : SameCnt t x := ⟨e3, e6, e7⟩
      split
      · obtain ⟨h1, h2⟩ := endUlAss_acct x fn
        exact acct_same _ _ _ _ (hx.trans h1) (by rw [← e4]; exact h2) rfl rfl
      · split
        · rename_i rrbp pfn _
          obtain ⟨d1, d2, d3, d4, d5, d6, d7, d8⟩ := delayStart_fields x (fnNextBlock (fnNextBlock pfn))
          have hy : SameCnt x (x.delayStart (fnNextBlock (fnNextBlock pfn))) := ⟨d3, d6, d7⟩
          obtain ⟨h1, h2⟩ := endUlAss_acct (x.delayStart (fnNextBlock (fnNextBlock pfn))) fn
          exact acct_same _ _ _ _ ((hx.trans hy).trans h1) (by rw [← e4, ← d4]; exact h2) rfl rfl
        · exact True.intro
        · exact True.intro
    · exact True.intro
    · exact True.intro
  unfold UlTbf.rxPktUlAss
  split
  · exact main
  · exact main
  · exact same_acct t _

theorem tick_acct (t : UlTbf) (fn tn : Nat) : Acct t false (t.tick fn tn) := by
  unfold UlTbf.tick
  split
  · rename_i ha
    split
    · exact True.intro
    · split
      · exact True.intro
      · split
        · exact same_acct t _
        · obtain ⟨h1, h2⟩ := endPhase1_acct t (.inr ha)
          exact acct_same _ _ _ _ h1 h2 rfl rfl
  · split
    · exact True.intro
    · split
      · exact True.intro
      · split
        · exact same_acct t _
        · exact acct_same _ _ _ _ (complete_cnt t) (complete_pot t) rfl rfl
  · exact same_acct t _

theorem createMsg_acct (t : UlTbf) (encOk : Bool) : Acct t false (.ok (some (t.createMsg encOk).1, (t.createMsg encOk).2)) := by
  unfold UlTbf.createMsg
  split
  · rename_i ha
    split
    · unfold UlTbf.assChg
      rw [if_pos (by simp [ha, AssSt.out])]
      simp [Acct, ha, AssSt.pot]
    · exact same_acct t _
  · split
    · exact acct_same _ _ _ _ ⟨rfl, rfl, rfl⟩ (Nat.le_refl _) rfl rfl
    · exact same_acct t _
  · exact same_acct t _

theorem firstIf_cnt (t x : UlTbf) (h : t.firstIf = .ok x) : SameCnt t x ∧ x.ass = t.ass ∧ x.cur = t.cur := by
  unfold UlTbf.firstIf UlTbf.evFirst at h
  repeat' split at h
  all_goals
    simp only [Res.ok.injEq, reduceCtorEq] at h
  all_goals
    subst h
    exact ⟨⟨rfl, rfl, rfl⟩, rfl, rfl⟩

theorem armT3182_cnt (t x : UlTbf) (h : t.armT3182 = .ok x) : SameCnt t x ∧ x.ass = t.ass ∧ x.cur = t.cur := by
  unfold UlTbf.armT3182 at h
  repeat' split at h
  all_goals
    simp only [Res.ok.injEq, reduceCtorEq] at h
  all_goals
    subst h
    exact ⟨⟨rfl, rfl, rfl⟩, rfl, rfl⟩

theorem chg_cnt (t : UlTbf) (s : UlSt) : SameCnt t (t.chg s) ∧ (t.chg s).ass = t.ass ∧ (t.chg s).cur = t.cur := by
  unfold UlTbf.chg
  split
  · split <;> exact ⟨⟨rfl, rfl, rfl⟩, rfl, rfl⟩
  · exact ⟨⟨rfl, rfl, rfl⟩, rfl, rfl⟩

theorem lastIf_cnt (t x : UlTbf) (f : Bool) (h : t.lastIf f = .ok x) : SameCnt t x ∧ x.ass = t.ass ∧ x.cur = t.cur := by
  unfold UlTbf.lastIf UlTbf.evLast at h
  split at h
  · split at h
    · split at h
      · rename_i y hy
        obtain ⟨h1, h2, h3⟩ := armT3182_cnt t y hy
        simp only [Res.ok.injEq] at h
        subst h
        obtain ⟨g1, g2, g3⟩ := chg_cnt y .finished
        exact ⟨h1.trans g1, g2.trans h2, g3.trans h3⟩
      · cases h
      · cases h
    · exact armT3182_cnt t x h
    · simp only [Res.ok.injEq] at h
      subst h
      exact ⟨⟨rfl, rfl, rfl⟩, rfl, rfl⟩
  · simp only [Res.ok.injEq] at h
    subst h
    exact ⟨⟨rfl, rfl, rfl⟩, rfl, rfl⟩

theorem sendData_acct (env : UlEnv) (t : UlTbf) (final rachOk : Bool) (h : t.Inv)
    (hs : t.st = .flow ∨ t.st = .finished) : Acct t true (t.sendData env final rachOk) := by
  obtain ⟨x, hx, hm, hxn, hxc, hxa, _⟩ := firstIf_ok t h hs
  obtain ⟨y, hy, hm2, hyn, hyc, hya, _⟩ := lastIf_ok x final hm hxc hxa
  have c1 := firstIf_cnt t x hx
  have c2 := lastIf_cnt x y final hy
  unfold UlTbf.sendData
  rw [hx]
  simp only [hy]
  have hle : y.countBlock.n3104 ≤ t.n3104 + 1 := by
    unfold UlTbf.countBlock
    have := c1.1.1
    have := c2.1.1
    exact Nat.le_trans (Nat.mod_le _ _) (by omega)
  have hst : y.countBlock.st = .flow ∨ y.countBlock.st = .finished := by
    rcases hm2.2 with h | h
    · exact .inl h.1
    · exact .inr h.1
  have ea : y.accAttempts = t.accAttempts := c2.1.2.1.trans c1.1.2.1
  have er : y.resReqAttempts = t.resReqAttempts := c2.1.2.2.trans c1.1.2.2
  have ep : y.ass = t.ass := c2.2.1.trans c1.2.1
  unfold UlTbf.afterBlock
  split
  · rw [reinit_eq y.countBlock rachOk hst hm2.1]
    cases rachOk
    · exact True.intro
    · simp [Acct, UlTbf.countBlock, ea, er, AssSt.pot]
  · simp only [Acct]
    refine ⟨hle, ?_, ?_, nofun, ?_⟩
    · simp [UlTbf.countBlock, ea]
    · simp [UlTbf.countBlock, er]
    · simp [UlTbf.countBlock, er, ep]

theorem step_acct (env : UlEnv) (t : UlTbf) (e : TbfEv) (h : t.Inv) :
    Acct t (match e with | .sendData .. => true | _ => false) (t.step env e) := by
  cases e with
  | immAss m fn tn => exact rxImmAss_acct env t m fn tn
  | pktUlAss m poll fn tn => exact rxPktUlAss_acct env t m poll fn tn
  | tick fn tn => exact tick_acct t fn tn
  | sendResReq fn tn usf encOk =>
    simp only [UlTbf.step]
    split
    · exact createMsg_acct t encOk
    · exact same_acct t _
  | pollAss encOk => exact createMsg_acct t encOk
  | sendData tn usf final rachOk =>
    simp only [UlTbf.step]
    split
    · rename_i hr
      exact sendData_acct env t final rachOk h (dataRts_st hr)
    · exact same_acct t _
  | sendDummy tn usf =>
    simp only [UlTbf.step]
    split
    · exact acct_same _ _ _ _ ⟨rfl, rfl, rfl⟩ (Nat.le_refl _) rfl rfl
    · exact same_acct t _
  | ack final poll tbfEst fn tn =>
    simp only [UlTbf.step, UlTbf.rxAck]
    split
    · split
      · rename_i x hx
        have hc : SameCnt t x ∧ x.ass = t.ass := by
          unfold UlTbf.ackTimers UlTbf.contentionOk at hx
          repeat' split at hx
          all_goals
            simp only [Res.ok.injEq, reduceCtorEq] at hx
          all_goals
            subst hx
            exact ⟨⟨rfl, rfl, rfl⟩, rfl⟩
        split
        · rename_i pfn _
          have hf : SameCnt x (x.finalAck final tbfEst pfn tn) ∧ (x.finalAck final tbfEst pfn tn).ass = x.ass := by
            unfold UlTbf.finalAck
            split
            · obtain ⟨g1, g2, _⟩ := chg_cnt
                { x with hasTbfEst := tbfEst, ackFn := pfn.getD 4294967295, ackTn := tn } .releasing
              exact ⟨g1, g2⟩
            · exact ⟨⟨rfl, rfl, rfl⟩, rfl⟩
          refine acct_same _ _ _ _ (hc.1.trans hf.1) (by rw [hf.2, hc.2]; exact Nat.le_refl _) ?_ ?_
          · cases pfn <;> simp
          · cases pfn <;> simp
        · exact True.intro
        · exact True.intro
      · exact True.intro
      · exact True.intro
    · exact same_acct t _
  | txConf fn tn =>
    simp only [UlTbf.step, UlTbf.txConf]
    split
    · exact ⟨rfl, rfl⟩
    · exact same_acct t _
  | timeout rachOk =>
    have acc : (t.st = .flow ∨ t.st = .finished) → Acct t false (.ok (t.accessFailed rachOk)) := by
      intro hs
      have hi : t.ass = .idle := by
        have h1 := h.1
        unfold UlTbf.StInv at h1
        rcases hs with e | e <;> simp only [e] at h1 <;> exact h1.1
      unfold UlTbf.accessFailed
      split
      · exact ⟨rfl, rfl⟩
      · rw [reinit_eq { t with pending := false, accAttempts := t.accAttempts + 1 } rachOk hs hi]
        cases rachOk
        · exact ⟨rfl, rfl⟩
        · simp [Acct, AssSt.pot]
          omega
    simp only [UlTbf.step, UlTbf.timeout]
    repeat' split
    · exact same_acct t _
    · exact acc (.inl (by assumption))
    · exact True.intro
    · exact acc (by assumption)
    · exact True.intro
    · exact ⟨rfl, rfl⟩
    · exact True.intro
  | t3168 =>
    simp only [UlTbf.step, UlTbf.assTimeout]
    repeat' split
    · exact same_acct t _
    · exact ⟨rfl, rfl⟩
    · exact True.intro
    · exact ⟨rfl, rfl⟩
    · rename_i ha _
      simp only [ne_eq, Decidable.not_not] at ha
      unfold UlTbf.assChg
      rw [if_pos (by simp [ha, AssSt.out])]
      simp [Acct, AssSt.pot, ha]
      omega
  | t3180 =>
    simp only [UlTbf.step]
    split
    · exact ⟨rfl, rfl⟩
    · exact same_acct t _

/-! ## The allocation in use -/

/-- The TBF in use has a timeslot, and the second phase is only entered in two-phase access. -/
def UlTbf.CurInv (t : UlTbf) : Prop :=
  (t.st = .flow ∨ t.st = .finished → 0 < t.cur.numTs) ∧
  (t.ass = .schedResReq ∨ t.ass = .waitUlAss ∨ t.ass = .waitStart2 → t.assType = .twoPhase)

/-- A step that ends well keeps it. -/
def KeepsCur (r : UlR) : Prop :=
  match r with
  | .ok (some t, _) => t.CurInv
  | _ => True

theorem complete_cur (t : UlTbf) (hw : t.st = .waitAssign) (ho : none ∈ t.ass.out)
    (hp : 0 < (match t.assType with | .onePhase => t.p1 | .twoPhase => t.p2).numTs) : t.complete.CurInv := by
  unfold UlTbf.complete
  rw [if_pos ho]
  simp only [UlTbf.evAssCompl, hw, UlTbf.chg, UlSt.out]
  simp only [List.mem_singleton, if_true, UlTbf.CurInv]
  exact ⟨fun _ => hp, by simp⟩

theorem endPhase1_cur (t : UlTbf) (hw : t.st = .waitAssign) (ha : t.ass = .waitImmAss ∨ t.ass = .waitStart1)
    (hp : 0 < t.p1.numTs) : t.endPhase1.CurInv := by
  unfold UlTbf.endPhase1
  split
  · rename_i he
    exact complete_cur t hw (by rcases ha with e | e <;> simp [e, AssSt.out]) (by rw [he]; exact hp)
  · rename_i he
    unfold UlTbf.assChg
    rw [if_pos (by rcases ha with e | e <;> simp [e, AssSt.out])]
    exact ⟨by simp [hw], fun _ => he⟩

theorem rxImmAss_cur (env : UlEnv) (t : UlTbf) (m : ImmAss) (fn tn : Nat) (h : t.Inv) (hc : t.CurInv) :
    KeepsCur (t.rxImmAss env m fn tn) := by
  unfold UlTbf.rxImmAss
  split
  · rename_i ha
    split
    · rename_i x he
      obtain ⟨hi, hx, hp⟩ := handleImmAss_inv env t x fn tn m true h ha he
      have hw := hi.waits (by simp [hx])
      split
      · unfold UlTbf.assChg
        rw [if_pos (by simp [hx, AssSt.out])]
        exact ⟨by simp [hw], by simp⟩
      · exact endPhase1_cur x hw (.inl hx) (hp rfl)
    · rename_i x he
      obtain ⟨hi, hx, hp⟩ := handleImmAss_inv env t x fn tn m false h ha he
      have hw := hi.waits (by simp [hx])
      exact ⟨by simp [hw], by simp [hx]⟩
    · exact True.intro
    · exact True.intro
  · exact hc

theorem rxPktUlAss_cur (env : UlEnv) (t : UlTbf) (m : PktUlAss) (poll : Option Nat) (fn tn : Nat) (h : t.Inv)
    (hcur : t.CurInv) (hm : ValidPktUlAss m) : KeepsCur (t.rxPktUlAss env m poll fn tn) := by
  have main : (t.ass = .waitUlAss ∨ t.ass = .waitStart2) → KeepsCur (t.doPktUlAss env m poll fn tn) := by
    intro ha
    have htw : t.assType = .twoPhase := hcur.2 (.inr ha)
    have hw := h.waits (by rcases ha with e | e <;> simp [e])
    cases m with
    | otherGprs => exact hm.elim
    | egprs => exact hm.elim
    | dynamic tfi s ts =>
      obtain ⟨hs, n, hn8, usf, hts⟩ := hm
      have hcnt : 0 < (ts.take 8).countP Option.isSome := by
        rw [List.countP_pos_iff]
        refine ⟨some usf, ?_, rfl⟩
        rw [List.mem_iff_getElem?]
        exact ⟨n, by rw [List.getElem?_take, if_pos hn8, hts]⟩
      simp only [UlTbf.doPktUlAss, UlTbf.handlePktUlAss]
      have fin : ∀ y : UlTbf, y.st = t.st → y.ass = t.ass → y.assType = t.assType →
          y.p2 = ⟨tfi.getD 0, (ts.take 8).countP Option.isSome, ts.take 8⟩ → (y.endUlAss fn).CurInv := by
        intro y e1 e2 e3 e4
        unfold UlTbf.endUlAss
        split
        · unfold UlTbf.assChg
          rw [e2, if_pos (by rcases ha with e | e <;> simp [e, AssSt.out])]
          exact ⟨by simp [e1, hw], fun _ => e3.trans htw⟩
        · refine complete_cur y (e1.trans hw) (by rw [e2]; rcases ha with e | e <;> simp [e, AssSt.out]) ?_
          rw [e3, htw]
          simp only [e4]
          exact hcnt
      split
      · rename_i x hx
        split at hx <;> simp only [Res.ok.injEq, reduceCtorEq] at hx
        split
        · subst hx
          exact fin _ rfl rfl rfl rfl
        · split
          · subst hx
            unfold UlTbf.delayStart
            split
            · exact fin _ rfl rfl rfl rfl
            · exact fin _ rfl rfl rfl rfl
          · exact True.intro
          · exact True.intro
      · exact True.intro
      · exact True.intro
  unfold UlTbf.rxPktUlAss
  split
  · exact main (.inl (by assumption))
  · exact main (.inr (by assumption))
  · exact hcur

theorem tick_cur (t : UlTbf) (fn tn : Nat) (h : t.Inv) (hcur : t.CurInv) (hal : t.AllocInv) :
    KeepsCur (t.tick fn tn) := by
  unfold UlTbf.tick
  split
  · rename_i ha
    repeat' split
    · exact True.intro
    · exact True.intro
    · exact hcur
    · exact endPhase1_cur t (h.waits (by simp [ha])) (.inr ha) (hal.1 ha)
  · rename_i ha
    repeat' split
    · exact True.intro
    · exact True.intro
    · exact hcur
    · refine complete_cur t (h.waits (by simp [ha])) (by simp [ha, AssSt.out]) ?_
      rw [hcur.2 (.inr (.inr ha))]
      exact hal.2 ha
  · exact hcur

theorem createMsg_cur (t : UlTbf) (encOk : Bool) (h : t.Inv) (hcur : t.CurInv) : (t.createMsg encOk).1.CurInv := by
  unfold UlTbf.createMsg
  split
  · split
    · rename_i ha _
      unfold UlTbf.assChg
      rw [if_pos (by simp [ha, AssSt.out])]
      exact ⟨by simp [h.waits (by simp [ha] : t.ass ≠ .idle)], fun _ => hcur.2 (.inl ha)⟩
    · exact hcur
  · split <;> exact hcur
  · exact hcur

theorem cur_of_flow {t t' : UlTbf} (hc : t.CurInv) (hs : t.st = .flow ∨ t.st = .finished) (h : t'.cur = t.cur)
    (hi : t'.ass = .idle) : t'.CurInv :=
  ⟨fun _ => by rw [h]; exact hc.1 hs, by simp [hi]⟩

theorem UlTbf.Inv.idle {t : UlTbf} (h : t.Inv) (hs : t.st = .flow ∨ t.st = .finished) : t.ass = .idle := by
  have h1 := h.1
  unfold UlTbf.StInv at h1
  rcases hs with e | e <;> simp only [e] at h1 <;> exact h1.1

theorem sendData_cur (env : UlEnv) (t : UlTbf) (final rachOk : Bool) (h : t.Inv) (hcur : t.CurInv)
    (hs : t.st = .flow ∨ t.st = .finished) : KeepsCur (t.sendData env final rachOk) := by
  obtain ⟨x, hx, hm, hxn, hxc, hxa, _⟩ := firstIf_ok t h hs
  obtain ⟨y, hy, hm2, hyn, hyc, hya, _⟩ := lastIf_ok x final hm hxc hxa
  have c1 := firstIf_cnt t x hx
  have c2 := lastIf_cnt x y final hy
  unfold UlTbf.sendData
  rw [hx]
  simp only [hy]
  have hst : y.countBlock.st = .flow ∨ y.countBlock.st = .finished := by
    rcases hm2.2 with h | h
    · exact .inl h.1
    · exact .inr h.1
  unfold UlTbf.afterBlock
  split
  · rw [reinit_eq y.countBlock rachOk hst hm2.1]
    cases rachOk
    · exact True.intro
    · exact ⟨by simp, by simp⟩
  · exact cur_of_flow hcur hs (c2.2.2.trans c1.2.2) hm2.1

theorem step_cur (env : UlEnv) (t : UlTbf) (e : TbfEv) (h : t.Inv) (hcur : t.CurInv) (hal : t.AllocInv)
    (he : Expected t e) : KeepsCur (t.step env e) := by
  cases e with
  | immAss m fn tn => exact rxImmAss_cur env t m fn tn h hcur
  | pktUlAss m poll fn tn => exact rxPktUlAss_cur env t m poll fn tn h hcur he.1
  | tick fn tn => exact tick_cur t fn tn h hcur hal
  | sendResReq fn tn usf encOk =>
    simp only [UlTbf.step]
    split
    · exact createMsg_cur t encOk h hcur
    · exact hcur
  | pollAss encOk => exact createMsg_cur t encOk h hcur
  | sendData tn usf final rachOk =>
    simp only [UlTbf.step]
    split
    · rename_i hr
      exact sendData_cur env t final rachOk h hcur (dataRts_st hr)
    · exact hcur
  | sendDummy tn usf =>
    simp only [UlTbf.step]
    split <;> exact hcur
  | ack final poll tbfEst fn tn =>
    simp only [UlTbf.step, UlTbf.rxAck]
    split
    · rename_i hs
      split
      · rename_i x hx
        have hc : x.cur = t.cur ∧ x.ass = t.ass := by
          unfold UlTbf.ackTimers UlTbf.contentionOk at hx
          repeat' split at hx
          all_goals
            simp only [Res.ok.injEq, reduceCtorEq] at hx
          all_goals
            subst hx
            exact ⟨rfl, rfl⟩
        split
        · rename_i pfn _
          have hf : (x.finalAck final tbfEst pfn tn).cur = x.cur ∧ (x.finalAck final tbfEst pfn tn).ass = x.ass := by
            unfold UlTbf.finalAck
            split
            · obtain ⟨_, g2, g3⟩ := chg_cnt
                { x with hasTbfEst := tbfEst, ackFn := pfn.getD 4294967295, ackTn := tn } .releasing
              exact ⟨g3, g2⟩
            · exact ⟨rfl, rfl⟩
          exact cur_of_flow hcur hs (hf.1.trans hc.1) ((hf.2.trans hc.2).trans (h.idle hs))
        · exact True.intro
        · exact True.intro
      · exact True.intro
      · exact True.intro
    · exact hcur
  | txConf fn tn =>
    simp only [UlTbf.step, UlTbf.txConf]
    split
    · exact True.intro
    · exact hcur
  | timeout rachOk =>
    have acc : (t.st = .flow ∨ t.st = .finished) → KeepsCur (.ok (t.accessFailed rachOk)) := by
      intro hs
      unfold UlTbf.accessFailed
      split
      · exact True.intro
      · rw [reinit_eq { t with pending := false, accAttempts := t.accAttempts + 1 } rachOk hs (h.idle hs)]
        cases rachOk
        · exact True.intro
        · exact ⟨by simp, by simp⟩
    simp only [UlTbf.step, UlTbf.timeout]
    repeat' split
    · exact hcur
    · exact acc (.inl (by assumption))
    · exact True.intro
    · exact acc (by assumption)
    · exact True.intro
    · exact True.intro
    · exact True.intro
  | t3168 =>
    simp only [UlTbf.step, UlTbf.assTimeout]
    repeat' split
    · exact hcur
    · exact True.intro
    · exact True.intro
    · exact True.intro
    · rename_i ha _
      simp only [ne_eq, Decidable.not_not] at ha
      unfold UlTbf.assChg
      rw [if_pos (by simp [ha, AssSt.out])]
      exact ⟨by simp [h.waits (by simp [ha] : t.ass ≠ .idle)], fun _ => hcur.2 (.inr (.inl ha))⟩
  | t3180 =>
    simp only [UlTbf.step]
    split
    · exact True.intro
    · exact hcur

end Verif.Rlc
