import Verif.Rlc.UlTbfLemmas

/-!
# C27–C30: the uplink TBF
-/
namespace Verif.Props

open Verif.Rlc Verif.Spec

/-! ## The start and whole runs -/

theorem start_inv (s : UlStart) (t : UlTbf) (o : List UlOut) (h : s.run = (some t, o)) :
    t.Inv ∧ t.AllocInv ∧ t.st = .waitAssign := by
  cases s with
  | access rachOk =>
    cases rachOk
    · exact absurd (congrArg Prod.fst h) (by simp [UlStart.run, UlTbf.assStart, UlTbf.fresh, UlTbf.evAssStart, UlTbf.chg, UlSt.out])
    · have e := congrArg Prod.fst h
      simp [UlStart.run, UlTbf.assStart, UlTbf.fresh, UlTbf.evAssStart, UlTbf.chg, UlSt.out, UlTbf.assChg,
        AssSt.out] at e
      subst e
      simp [UlTbf.Inv, UlTbf.StInv, UlTbf.AssInv, UlTbf.CntInv, UlTbf.AllocInv]
  | fromReleasing old =>
    have e := congrArg Prod.fst h
    simp [UlStart.run, UlTbf.fresh, UlTbf.evAssStart, UlTbf.chg, UlSt.out, UlTbf.assChg, AssSt.out] at e
    subst e
    simp [UlTbf.Inv, UlTbf.StInv, UlTbf.AssInv, UlTbf.CntInv, UlTbf.AllocInv]
  | fromDl tn =>
    have e := congrArg Prod.fst h
    simp [UlStart.run, UlTbf.fresh, UlTbf.evAssStart, UlTbf.chg, UlSt.out, UlTbf.assChg, AssSt.out] at e
    subst e
    simp [UlTbf.Inv, UlTbf.StInv, UlTbf.AssInv, UlTbf.CntInv, UlTbf.AllocInv]

theorem start_cur (s : UlStart) (t : UlTbf) (o : List UlOut) (h : s.run = (some t, o)) : t.CurInv := by
  have e := congrArg Prod.fst h
  cases s with
  | access rachOk =>
    cases rachOk <;>
    simp [UlStart.run, UlTbf.assStart, UlTbf.fresh, UlTbf.evAssStart, UlTbf.chg, UlSt.out, UlTbf.assChg,
        AssSt.out] at e
    subst e
    simp [UlTbf.CurInv]
  | fromReleasing old =>
    simp [UlStart.run, UlTbf.fresh, UlTbf.evAssStart, UlTbf.chg, UlSt.out, UlTbf.assChg, AssSt.out] at e
    subst e
    simp [UlTbf.CurInv]
  | fromDl tn =>
    simp [UlStart.run, UlTbf.fresh, UlTbf.evAssStart, UlTbf.chg, UlSt.out, UlTbf.assChg, AssSt.out] at e
    subst e
    simp [UlTbf.CurInv]

theorem expected_n3104 {t : UlTbf} {e : TbfEv} (h : Expected t e) :
    (∃ tn usf f r, e = .sendData tn usf f r) → t.n3104 + 1 < 2 ^ 32 := by
  rintro ⟨tn, usf, f, r, rfl⟩
  exact h.2

/-- A run of expected events ends well and keeps all invariants. -/
theorem run_expected (env : UlEnv) (evs : List TbfEv) :
    ∀ (x : Option UlTbf) (outs : List UlOut), (∀ t, x = some t → t.Inv ∧ t.AllocInv ∧ t.CurInv) →
      AsExpected env (x, outs) evs →
      ∃ t' o', runUl env (x, outs) evs = .ok (t', o') ∧ ∀ t, t' = some t → t.Inv ∧ t.AllocInv ∧ t.CurInv := by
  induction evs with
  | nil => intro x outs hx _; exact ⟨x, outs, rfl, hx⟩
  | cons e es ih =>
    intro x outs hx hexp
    cases x with
    | none => exact ⟨none, outs, by simp only [runUl], fun t ht => by cases ht⟩
    | some t =>
      obtain ⟨hi, ha, hc⟩ := hx t rfl
      simp only [AsExpected] at hexp
      obtain ⟨he, hrest⟩ := hexp
      obtain ⟨t', o, hs, hal⟩ := step_goes env t e hi ha he
      have hk := step_keeps env t e hi (expected_n3104 he)
      have hcur := step_cur env t e hi hc ha he
      rw [hs] at hk hcur
      simp only [runUl, hs]
      refine ih t' (outs ++ o) (fun y hy => ?_) (hrest t' o hs)
      subst hy
      simp only [Keeps] at hk
      simp only [KeepsCur] at hcur
      exact ⟨hk, hal _ rfl, hcur⟩

/-- A run that ends well keeps the invariant, whatever the network does. -/
theorem run_inv (env : UlEnv) (evs : List TbfEv) :
    ∀ (x : Option UlTbf) (outs : List UlOut) (t' : UlTbf) (o' : List UlOut),
      (∀ t, x = some t → t.Inv ∧ t.n3104 + evs.length < 2 ^ 32) → runUl env (x, outs) evs = .ok (some t', o') →
      t'.Inv := by
  induction evs with
  | nil =>
    intro x outs t' o' hx he
    simp only [runUl, Res.ok.injEq, Prod.mk.injEq] at he
    exact (hx t' he.1).1
  | cons e es ih =>
    intro x outs t' o' hx he
    cases x with
    | none => simp [runUl] at he
    | some t =>
      obtain ⟨hi, hn⟩ := hx t rfl
      rw [List.length_cons] at hn
      have hk := step_keeps env t e hi (fun _ => by omega)
      have hac := step_acct env t e hi
      simp only [runUl] at he
      split at he
      · rename_i t1 o1 hs
        rw [hs] at hk hac
        refine ih t1 (outs ++ o1) t' o' (fun y hy => ?_) he
        subst hy
        simp only [Keeps] at hk
        simp only [Acct] at hac
        refine ⟨hk, ?_⟩
        have := hac.1
        omega
      · cases he
      · cases he

theorem runUl_append (env : UlEnv) (s s' : Option UlTbf × List UlOut) (l₁ l₂ : List TbfEv)
    (h : runUl env s l₁ = .ok s') : runUl env s (l₁ ++ l₂) = runUl env s' l₂ := by
  induction l₁ generalizing s with
  | nil =>
    simp only [runUl, Res.ok.injEq] at h
    subst h
    rfl
  | cons e es ih =>
    obtain ⟨x, outs⟩ := s
    cases x with
    | none =>
      simp only [runUl, Res.ok.injEq] at h
      subst h
      cases l₂ <;> rfl
    | some t =>
      simp only [List.cons_append, runUl] at h ⊢
      split at h
      · exact ih _ h
      · cases h
      · cases h

/-! ## C27 -/

/-- C27 as wanted: no sequence of events makes the uplink TBF abort. -/
def C27Statement : Prop :=
  ∀ (env : UlEnv) (s : UlStart) (evs : List TbfEv), ∃ t outs, runUl env s.run evs = .ok (t, outs)

/-- A cell that broadcasts `BS_CV_MAX` = 1; the frame numbers are not reduced. -/
def env1 : UlEnv := ⟨fun r _ => r, 1⟩

/-- **C27, not as wanted**: PACKET UPLINK ACK/NACK before the first data block, in one-phase access. -/
theorem c27_early_ack_violated :
    runUl env1 (UlStart.access true).run [.immAss (.dynamic 3 5 none) 0 7, .ack false none false 0 7] =
      .ub .assertFail := by decide +kernel

/-- **C27, not as wanted**: N3104 reaches its limit and the lower layer does not take the random access request; the
freed TBF is used. -/
theorem c27_n3104_violated :
    runUl env1 (UlStart.access true).run
      (.immAss (.dynamic 3 5 none) 0 7 :: List.replicate 12 (.sendData 7 5 false false)) = .ub .useAfterFree := by
  decide +kernel

/-- **C27, not as wanted**: an immediate assignment with an impossible starting time. -/
theorem c27_starting_time_violated :
    runUl env1 (UlStart.access true).run [.immAss (.dynamic 3 5 (some (.abs 31 63 12))) 0 7] = .ub .assertFail := by
  decide +kernel

theorem c27_violated : ¬ C27Statement := by
  intro h
  obtain ⟨t, o, e⟩ := h env1 (.access true) [.immAss (.dynamic 3 5 none) 0 7, .ack false none false 0 7]
  rw [c27_early_ack_violated] at e
  cases e

/-- One-phase access, contention resolved, `n` blocks sent. -/
def granted (n : Nat) : UlTbf :=
  { UlTbf.fresh with st := .flow, n3104 := n, cur := ⟨3, 1, oneTs 7 5⟩, t3180 := true }

theorem granted_many (k n : Nat) (outs : List UlOut) (h : 0 < n) (hk : n + k < 4294967296) (rest : List TbfEv) :
    runUl env1 (some (granted n), outs) (List.replicate k (.sendData 7 5 false true) ++ rest) =
      runUl env1 (some (granted (n + k)), outs ++ List.replicate k .data) rest := by
  induction k generalizing n outs with
  | zero => simp
  | succ k ih =>
    have hs : (granted n).step env1 (.sendData 7 5 false true) = .ok (some (granted (n + 1)), [.data]) := by
      have hd : (granted n).dataRts 7 5 = true := rfl
      have e : (granted n).countBlock = granted (n + 1) := by
        unfold UlTbf.countBlock
        show ({ granted n with n3104 := (n + 1) % 4294967296 } : UlTbf) = granted (n + 1)
        rw [Nat.mod_eq_of_lt (by omega)]
        rfl
      have hc : (granted (n + 1)).inContention = false := by
        simp [UlTbf.inContention, granted, UlTbf.fresh]
      simp only [UlTbf.step, hd, if_true, UlTbf.sendData, UlTbf.firstIf]
      rw [if_neg (by show ¬ n = 0; omega)]
      simp only [UlTbf.lastIf, Bool.false_eq_true, if_false, UlTbf.afterBlock, e, hc, false_and]
      rfl
    simp only [List.replicate_succ, List.cons_append, runUl, hs]
    rw [ih (n + 1) (outs ++ [UlOut.data]) (by omega) (by omega), show n + 1 + k = n + (k + 1) by omega]
    simp [List.append_assoc]

theorem granted_last : (granted 4294967295).step env1 (.sendData 7 5 false true) = .ok (some (granted 0), [.data]) ∧
    (granted 0).step env1 (.sendData 7 5 false true) = .ub .assertFail := by decide +kernel

/-- **C27, not as wanted**: after 2³² data blocks in one-phase access the count of blocks is 0 again, and the next
block is taken for the first one. -/
theorem c27_wraparound_violated (k : Nat) (hk : k + 2 = 2 ^ 32) :
    runUl env1 (UlStart.access true).run
      ([.immAss (.dynamic 3 5 none) 0 7, .sendData 7 5 false true, .ack false none false 0 7] ++
        (List.replicate k (.sendData 7 5 false true) ++
          [.sendData 7 5 false true, .sendData 7 5 false true])) = .ub .assertFail := by
  have h1 : runUl env1 (UlStart.access true).run
      [.immAss (.dynamic 3 5 none) 0 7, .sendData 7 5 false true, .ack false none false 0 7] =
      .ok (some (granted 1), [.rach, .data]) := by decide +kernel
  rw [runUl_append _ _ _ _ _ h1, granted_many k 1 _ (by omega) (by omega) _, show 1 + k = 4294967295 by omega]
  simp only [runUl, granted_last]

/-- **C27, partial**: no sequence of events makes the TBF abort in which starting times are possible ones, PACKET
UPLINK ASSIGNMENTs assign a timeslot, no ACK/NACK comes before the first data block of a one-phase access, the lower
layer takes the random access requests caused by N3104, and fewer than 2³² blocks are sent.  Missing: just these
cases, in each of which it does abort. -/
theorem c27_uplink_tbf_survives_partial (env : UlEnv) (s : UlStart) (evs : List TbfEv)
    (h : AsExpected env s.run evs) : ∃ t outs, runUl env s.run evs = .ok (t, outs) := by
  obtain ⟨t, o, he, -⟩ := run_expected env evs s.run.1 s.run.2
    (fun t ht => by
      have e : s.run = (some t, s.run.2) := by rw [← ht]
      exact ⟨(start_inv s t _ e).1, (start_inv s t _ e).2.1, start_cur s t _ e⟩) h
  exact ⟨t, o, he⟩

/-- **C27**: messages the TBF does not wait for are ignored: an immediate assignment unless it waits for one, a PACKET
UPLINK ASSIGNMENT unless it has asked for one, an ACK/NACK unless it is sending data; and so are the confirmation of any
block but the one that answers the last ACK/NACK, and timers that do not run. -/
theorem c27_unexpected_ignored (env : UlEnv) (t : UlTbf) :
    (t.ass ≠ .waitImmAss → ∀ m fn tn, t.step env (.immAss m fn tn) = .ok (some t, [])) ∧
    (t.ass ≠ .waitUlAss → t.ass ≠ .waitStart2 → ∀ m p fn tn, t.step env (.pktUlAss m p fn tn) = .ok (some t, [])) ∧
    (t.st ≠ .flow → t.st ≠ .finished → ∀ f p b fn tn, t.step env (.ack f p b fn tn) = .ok (some t, [])) ∧
    (∀ fn tn, (t.st ≠ .releasing ∨ t.ackFn ≠ fn ∨ t.ackTn ≠ tn) → t.step env (.txConf fn tn) = .ok (some t, [])) ∧
    (t.pending = false → ∀ r, t.step env (.timeout r) = .ok (some t, [])) ∧
    (t.t3168 = false → t.step env .t3168 = .ok (some t, [])) ∧
    (t.t3180 = false → t.step env .t3180 = .ok (some t, [])) := by
  refine ⟨?_, ?_, ?_, ?_, ?_, ?_, ?_⟩
  · intro h m fn tn
    simp only [UlTbf.step, UlTbf.rxImmAss]
  · intro h1 h2 m p fn tn
    simp only [UlTbf.step, UlTbf.rxPktUlAss]
  · intro h1 h2 f p b fn tn
    simp [UlTbf.step, UlTbf.rxAck, h1, h2]
  · intro fn tn h
    simp only [UlTbf.step, UlTbf.txConf]
    rw [if_neg]
    rintro ⟨a, b, c⟩
    rcases h with h | h | h
    · exact h a
    · exact h b
    · exact h c
  · intro h r
    simp [UlTbf.step, UlTbf.timeout, h]
  · intro h
    simp [UlTbf.step, UlTbf.assTimeout, h]
  · intro h
    simp [UlTbf.step, h]

/-- Not vacuous: access in two phases with a poll and a starting time, data, the last block, its acknowledgement and the
confirmation of the answer to it. -/
def goodRun : List TbfEv :=
  [.immAss (.single (.abs 0 8 8)) 0 6, .tick 8 6, .sendResReq 8 6 0 true,
   .pktUlAss (.dynamic (some 3) (some (.rel 4)) [none, none, some 5, some 6, none, none, none, none]) (some 0) 17 6,
   .pollAss true, .tick 39 2, .sendData 2 5 false true, .ack false none false 43 2, .sendData 3 6 true true,
   .ack true (some 1) false 60 2, .txConf 78 2]

example : AsExpected env1 (UlStart.access true).run goodRun := by
  have fin : ∀ (t' : Option UlTbf) (o : List UlOut) (r : UlR) (P : Option UlTbf → List UlOut → Prop),
      (∃ a b, r = .ok (a, b) ∧ P a b) → r = .ok (t', o) → P t' o := by
    rintro t' o r P ⟨a, b, rfl, h⟩ e
    simp only [Res.ok.injEq, Prod.mk.injEq] at e
    obtain ⟨rfl, rfl⟩ := e
    exact h
  refine ⟨⟨⟨by decide, by decide⟩, nofun⟩, fun t' o => fin _ _ _ (fun t' o => AsExpected _ (t', _ ++ o) _) ⟨_, _, rfl, ?_⟩⟩
  refine ⟨trivial, fun t' o => fin _ _ _ (fun t' o => AsExpected _ (t', _ ++ o) _) ⟨_, _, rfl, ?_⟩⟩
  refine ⟨trivial, fun t' o => fin _ _ _ (fun t' o => AsExpected _ (t', _ ++ o) _) ⟨_, _, rfl, ?_⟩⟩
  refine ⟨⟨⟨trivial, 2, by decide, 5, rfl⟩, by unfold ValidPoll; decide, by unfold BlockStart; decide⟩,
    fun t' o => fin _ _ _ (fun t' o => AsExpected _ (t', _ ++ o) _) ⟨_, _, rfl, ?_⟩⟩
  refine ⟨trivial, fun t' o => fin _ _ _ (fun t' o => AsExpected _ (t', _ ++ o) _) ⟨_, _, rfl, ?_⟩⟩
  refine ⟨trivial, fun t' o => fin _ _ _ (fun t' o => AsExpected _ (t', _ ++ o) _) ⟨_, _, rfl, ?_⟩⟩
  refine ⟨⟨rfl, by decide +kernel⟩, fun t' o => fin _ _ _ (fun t' o => AsExpected _ (t', _ ++ o) _) ⟨_, _, rfl, ?_⟩⟩
  refine ⟨⟨trivial, by unfold BlockStart; decide, fun h => absurd h.2.1 (by decide +kernel)⟩,
    fun t' o => fin _ _ _ (fun t' o => AsExpected _ (t', _ ++ o) _) ⟨_, _, rfl, ?_⟩⟩
  refine ⟨⟨rfl, by decide +kernel⟩, fun t' o => fin _ _ _ (fun t' o => AsExpected _ (t', _ ++ o) _) ⟨_, _, rfl, ?_⟩⟩
  refine ⟨⟨by unfold ValidPoll; decide, by unfold BlockStart; decide, fun h => absurd h.2.1 (by decide +kernel)⟩,
    fun t' o => fin _ _ _ (fun t' o => AsExpected _ (t', _ ++ o) _) ⟨_, _, rfl, ?_⟩⟩
  exact ⟨trivial, fun t' o => fin _ _ _ (fun t' o => AsExpected _ (t', _ ++ o) _) ⟨_, _, rfl, trivial⟩⟩

example : runUl env1 (UlStart.access true).run goodRun =
    .ok (none, [.rach, .resReq, .poll 30 6, .ctrlAck, .data, .data, .poll 78 2]) := by decide +kernel

/-! ## C28 -/

/-- C28 as wanted: at most four random accesses for one TBF. -/
def C28Statement : Prop :=
  ∀ (env : UlEnv) (s : UlStart) (evs : List TbfEv) (t : Option UlTbf) (outs : List UlOut),
    runUl env s.run evs = .ok (t, outs) → outs.count .rach ≤ 4

/-- One round of an access that N3104 ends. -/
def n3104Round : List TbfEv := .immAss (.dynamic 3 5 none) 0 7 :: List.replicate 12 (.sendData 7 5 false true)

/-- The TBF after a renewed access. -/
def renewed : UlTbf := { UlTbf.fresh with st := .waitAssign, ass := .waitImmAss, t3180 := true }

theorem round_first : runUl env1 (UlStart.access true).run n3104Round =
    .ok (some renewed, .rach :: (List.replicate 12 .data ++ [.rach])) := by decide +kernel

theorem runUl_outs (env : UlEnv) (evs : List TbfEv) (x t' : Option UlTbf) (pre outs o : List UlOut)
    (h : runUl env (x, outs) evs = .ok (t', o)) : runUl env (x, pre ++ outs) evs = .ok (t', pre ++ o) := by
  induction evs generalizing x outs with
  | nil =>
    simp only [runUl, Res.ok.injEq, Prod.mk.injEq] at h ⊢
    exact ⟨h.1, by rw [h.2]⟩
  | cons e es ih =>
    cases x with
    | none =>
      simp only [runUl, Res.ok.injEq, Prod.mk.injEq] at h ⊢
      exact ⟨h.1, by rw [h.2]⟩
    | some t =>
      simp only [runUl] at h ⊢
      split at h
      · rw [List.append_assoc]
        exact ih _ _ h
      · cases h
      · cases h

theorem round_next (outs : List UlOut) : runUl env1 (some renewed, outs) n3104Round =
    .ok (some renewed, outs ++ (List.replicate 12 .data ++ [.rach])) := by
  have h : runUl env1 (some renewed, []) n3104Round = .ok (some renewed, List.replicate 12 .data ++ [.rach]) := by
    decide +kernel
  have := runUl_outs env1 n3104Round (some renewed) _ outs [] _ h
  rwa [List.append_nil] at this

theorem rounds (k : Nat) (outs : List UlOut) :
    ∃ o, runUl env1 (some renewed, outs) ((List.replicate k n3104Round).flatten) = .ok (some renewed, outs ++ o) ∧
      o.count .rach = k := by
  induction k generalizing outs with
  | zero => exact ⟨[], by simp [runUl], rfl⟩
  | succ k ih =>
    obtain ⟨o, ho, hc⟩ := ih (outs ++ (List.replicate 12 .data ++ [.rach]))
    refine ⟨(List.replicate 12 .data ++ [.rach]) ++ o, ?_, ?_⟩
    · rw [List.replicate_succ, List.flatten_cons, runUl_append _ _ _ _ _ (round_next outs), ho, List.append_assoc]
    · rw [List.count_append, hc, Nat.add_comm]
      rfl

/-- **C28, not as wanted**: a network that grants blocks but never answers them makes the TBF repeat its random access
without end: for every `k` there is a run with `k` of them, and the TBF is still there. -/
theorem c28_unbounded_violated (k : Nat) :
    ∃ evs t outs, runUl env1 (UlStart.access true).run evs = .ok (some t, outs) ∧ outs.count .rach = k + 2 := by
  obtain ⟨o, ho, hc⟩ := rounds k (.rach :: (List.replicate 12 .data ++ [.rach]))
  refine ⟨n3104Round ++ (List.replicate k n3104Round).flatten, renewed,
    .rach :: (List.replicate 12 .data ++ [.rach]) ++ o, ?_, ?_⟩
  · rw [runUl_append _ _ _ _ _ round_first]
    exact ho
  · rw [List.count_append, hc, Nat.add_comm]
    rfl

theorem c28_violated : ¬ C28Statement := by
  intro h
  obtain ⟨evs, t, outs, he, hc⟩ := c28_unbounded_violated 3
  have := h _ _ _ _ _ he
  omega

theorem run_acct (env : UlEnv) (evs : List TbfEv) :
    ∀ (x : Option UlTbf) (outs : List UlOut) (t' : Option UlTbf) (o' : List UlOut),
      (∀ t, x = some t → t.Inv ∧ t.n3104 + evs.length < 2 ^ 32) → runUl env (x, outs) evs = .ok (t', o') →
      ∃ added, o' = outs ++ added ∧
        match x with
        | none => added = []
        | some t => added.count .rach + t.accAttempts ≤ 3 + accessesByN3104 env (some t) evs ∧
            added.count .resReq + t.resReqAttempts ≤ t.ass.pot + added.count .rach + 3 := by
  induction evs with
  | nil =>
    intro x outs t' o' hx he
    simp only [runUl, Res.ok.injEq, Prod.mk.injEq] at he
    refine ⟨[], by simp [he.2], ?_⟩
    cases x with
    | none => rfl
    | some t =>
      obtain ⟨h1, h2⟩ := (hx t rfl).1.2.2
      simp only [List.count_nil]
      exact ⟨by omega, by omega⟩
  | cons e es ih =>
    intro x outs t' o' hx he
    cases x with
    | none =>
      simp only [runUl, Res.ok.injEq, Prod.mk.injEq] at he
      exact ⟨[], by simp [he.2], rfl⟩
    | some t =>
      obtain ⟨hi, hn⟩ := hx t rfl
      obtain ⟨hc1, hc2⟩ := hi.2.2
      rw [List.length_cons] at hn
      have hk := step_keeps env t e hi (fun _ => by omega)
      have hac := step_acct env t e hi
      simp only [runUl] at he
      split at he
      · rename_i t1 o1 hs
        rw [hs] at hk hac
        cases t1 with
        | none =>
          obtain ⟨added, h1, h2⟩ := ih none (outs ++ o1) t' o' (fun y hy => by cases hy) he
          simp only at h2
          subst h2
          simp only [Acct] at hac
          refine ⟨o1, by simpa using h1, ?_⟩
          simp only [hac.1, hac.2]
          exact ⟨by omega, by omega⟩
        | some t1 =>
          simp only [Keeps] at hk
          simp only [Acct] at hac
          obtain ⟨n1, n2, n3, n4, n5⟩ := hac
          obtain ⟨added, h1, h2, h3⟩ := ih (some t1) (outs ++ o1) t' o'
            (fun y hy => by
              simp only [Option.some.injEq] at hy
              subst hy
              exact ⟨hk, by omega⟩) he
          refine ⟨o1 ++ added, by rw [h1, List.append_assoc], ?_⟩
          simp only [List.count_append]
          refine ⟨?_, by omega⟩
          unfold accessesByN3104
          rw [hs]
          cases e with
          | sendData => simp only; omega
          | _ =>
            have := n4 rfl
            simp only
            omega
      · cases he
      · cases he

/-- **C28, partial**: in every run of fewer than 2³² events, the number of random accesses is at most four, not counting
those that N3104 causes; a TBF not started by random access makes at most three.  The number of PACKET RESOURCE
REQUESTs is at most that of the random accesses plus four.  Missing: the accesses caused by N3104, of which there is
no bound. -/
theorem c28_access_attempts_partial (env : UlEnv) (s : UlStart) (evs : List TbfEv) (t : Option UlTbf)
    (outs : List UlOut) (hl : evs.length < 2 ^ 32) (h : runUl env s.run evs = .ok (t, outs)) :
    outs.count .rach ≤ maxAccesses s + accessesByN3104 env s.run.1 evs ∧
    outs.count .resReq ≤ maxResReqs (outs.count .rach) s := by
  cases hx : s.run.1 with
  | none =>
    have e : s.run = (none, s.run.2) := by rw [← hx]
    rw [e] at h
    have ho : outs = s.run.2 := by
      cases evs <;> simp only [runUl, Res.ok.injEq, Prod.mk.injEq] at h <;> exact h.2.symm
    subst ho
    cases s with
    | access r =>
      cases r
      · exact ⟨by simp [UlStart.run, UlTbf.assStart, UlTbf.fresh, UlTbf.evAssStart, UlTbf.chg, UlSt.out],
          by simp [UlStart.run, UlTbf.assStart, UlTbf.fresh, UlTbf.evAssStart, UlTbf.chg, UlSt.out]⟩
      · exact absurd hx (by decide)
    | fromReleasing a => simp [UlStart.run] at hx
    | fromDl a => simp [UlStart.run] at hx
  | some t0 =>
    have e : s.run = (some t0, s.run.2) := by rw [← hx]
    obtain ⟨hi, -, hw⟩ := start_inv s t0 _ e
    have hn : t0.n3104 = 0 := by
      have h1 := hi.1
      simp only [UlTbf.StInv, hw] at h1
      exact h1.2.1
    rw [e] at h
    obtain ⟨added, h1, h2, h3⟩ := run_acct env evs (some t0) s.run.2 t outs
      (fun y hy => by
        simp only [Option.some.injEq] at hy
        subst hy
        exact ⟨hi, by omega⟩) h
    subst h1
    simp only [List.count_append]
    cases s with
    | access r =>
      have h4 : (UlStart.access r).run.2.count .rach ≤ 1 ∧ (UlStart.access r).run.2.count .resReq = 0 ∧
          (t0.ass.pot ≤ (UlStart.access r).run.2.count .rach) := by
        cases r
        · exact absurd hx (by simp [UlStart.run, UlTbf.assStart, UlTbf.fresh, UlTbf.evAssStart, UlTbf.chg, UlSt.out])
        · refine ⟨by decide, by decide, ?_⟩
          have : t0.ass.pot ≤ 1 := by unfold AssSt.pot; split <;> decide
          exact this
      simp only [maxAccesses, maxResReqs]
      omega
    | fromReleasing a =>
      have h4 : (UlStart.fromReleasing a).run.2 = [] := rfl
      have : t0.ass.pot ≤ 1 := by unfold AssSt.pot; split <;> decide
      rw [h4]
      simp only [List.count_nil, maxAccesses, maxResReqs]
      omega
    | fromDl a =>
      have h4 : (UlStart.fromDl a).run.2 = [] := rfl
      have h5 : t0.ass = .waitUlAss := by
        simp only [UlStart.run, UlTbf.fresh, UlTbf.evAssStart, UlTbf.chg, UlSt.out, UlTbf.assChg, AssSt.out] at hx
        simp only [List.mem_cons, if_true, reduceCtorEq, Option.some.injEq, List.not_mem_nil, or_false, or_true] at hx
        rw [← hx]
      rw [h4]
      simp only [List.count_nil, h5, AssSt.pot, maxAccesses, maxResReqs] at h3 ⊢
      omega

/-- Not vacuous: four random accesses, T3164 running out after each, and the TBF is gone. -/
example : runUl env1 (UlStart.access true).run
    [.immAss (.dynamic 3 5 none) 0 7, .timeout true, .immAss (.dynamic 3 5 none) 0 7, .timeout true,
     .immAss (.dynamic 3 5 none) 0 7, .timeout true, .immAss (.dynamic 3 5 none) 0 7, .timeout true] =
    .ok (none, [.rach, .rach, .rach, .rach]) := by decide +kernel

/-! ## C29 -/

/-- C29 as wanted: at every time a timer of the TBF is running. -/
def C29Statement : Prop :=
  ∀ (env : UlEnv) (s : UlStart) (evs : List TbfEv) (t : UlTbf) (outs : List UlOut),
    runUl env s.run evs = .ok (some t, outs) → TimerRunning t

/-- The TBF after its random access. -/
def waiting : UlTbf := { UlTbf.fresh with st := .waitAssign, ass := .waitImmAss }

theorem waiting_start : (UlStart.access true).run = (some waiting, [.rach]) := by decide +kernel

theorem zero_usf (tn : Nat) : UlAlloc.zero.usf tn = none := by
  show (List.replicate 8 none).getD tn none = none
  rw [List.getD_eq_getElem?_getD, List.getElem?_replicate]
  split <;> rfl

/-- **C29, not as wanted**: after the random access no timer runs.  As long as no immediate assignment comes, the TBF
stays as it is, whatever else happens and however long it takes. -/
theorem c29_stuck_violated (env : UlEnv) (evs : List TbfEv) (h : ∀ e ∈ evs, ¬ IsImmAss e) :
    runUl env (UlStart.access true).run evs = .ok (some waiting, [.rach]) ∧ ¬ TimerRunning waiting := by
  refine ⟨?_, by unfold TimerRunning; decide⟩
  rw [waiting_start]
  induction evs with
  | nil => rfl
  | cons e es ih =>
    have hstep : waiting.step env e = .ok (some waiting, []) := by
      have hd : ∀ tn usf, waiting.dummyRts tn usf = false := fun tn usf => by
        show (UlAlloc.zero.usf tn == some usf) = false
        rw [zero_usf]
        rfl
      cases e with
      | immAss m fn tn => exact absurd True.intro (h _ List.mem_cons_self)
      | sendData tn usf f r =>
        have : waiting.dataRts tn usf = false := by simp [UlTbf.dataRts, hd]
        simp only [UlTbf.step, this, Bool.false_eq_true, if_false]
      | sendDummy tn usf => simp only [UlTbf.step, hd, Bool.false_eq_true, if_false]
      | _ => rfl
    simp only [runUl, hstep, List.append_nil]
    exact ih fun e he => h e (List.mem_cons_of_mem _ he)

theorem c29_violated : ¬ C29Statement := by
  intro h
  obtain ⟨h1, h2⟩ := c29_stuck_violated env1 [] (by simp)
  exact h2 (h _ _ _ _ _ h1)

/-- **C29, not as wanted**: an assignment of a single block, the request sent in it, and T3168 runs out.  The TBF then
waits for the block in which it has already sent, with no timer. -/
theorem c29_single_block_violated : ∃ t, runUl env1 (UlStart.access true).run
      [.immAss (.single (.abs 0 8 8)) 0 6, .tick 8 6, .sendResReq 8 6 0 true, .t3168] =
        .ok (some t, [.rach, .resReq]) ∧
    ¬ TimerRunning t ∧ ∀ fn tn usf, fn ≠ 8 → t.assRts fn tn usf = false := by
  refine ⟨{ UlTbf.fresh with st := .waitAssign, ass := .schedResReq, assType := .twoPhase, p1 := ⟨0, 1, oneTs 6 0⟩,
                             sba := true, startExists := true, startFn := 8, resReqAttempts := 1 },
    by decide +kernel, by unfold TimerRunning; decide, ?_⟩
  intro fn tn usf h
  simp only [UlTbf.assRts]
  split
  · rfl
  · simp
    exact fun e => h e.symm

/-- **C29, partial**: in every state reached by fewer than 2³² events, whatever the network does, one of the timers runs
while the TBF sends data, waits for the last acknowledgement, is being released or waits for a PACKET UPLINK ASSIGNMENT.
While it waits for the starting time of its allocation, the first block at or after that time in one of its timeslots
ends the wait.  While it waits to send a PACKET RESOURCE REQUEST outside a single block, the first block granted to it
takes it, and then a timer runs.  Missing: waiting for the immediate assignment and for a single block, where it can
get stuck. -/
theorem c29_not_stuck_partial (env : UlEnv) (s : UlStart) (evs : List TbfEv) (t : UlTbf) (outs : List UlOut)
    (hl : evs.length < 2 ^ 32) (h : runUl env s.run evs = .ok (some t, outs)) :
    (t.st = .flow ∨ t.st = .finished ∨ t.st = .releasing ∨ t.ass = .waitUlAss → TimerRunning t) ∧
    (t.ass = .waitStart1 → 0 < t.p1.numTs → ∀ fn tn u, t.p1.usf tn = some u → 0 ≤ fncmp fn t.startFn →
      ∃ t', t.step env (.tick fn tn) = .ok (some t', []) ∧ (t'.st = .flow ∨ t'.ass = .schedResReq)) ∧
    (t.ass = .waitStart2 → 0 < t.p2.numTs → ∀ fn tn u, t.p2.usf tn = some u → 0 ≤ fncmp fn t.startFn →
      ∃ t', t.step env (.tick fn tn) = .ok (some t', []) ∧ t'.st = .flow) ∧
    (t.ass = .schedResReq → t.sba = false → ∀ fn tn usf, t.p1.usf tn = some usf →
      ∃ t', t.step env (.sendResReq fn tn usf true) = .ok (some t', [.resReq]) ∧ t'.t3168 = true) := by
  have hi : t.Inv := by
    refine run_inv env evs s.run.1 s.run.2 t outs (fun y hy => ?_) h
    have e : s.run = (some y, s.run.2) := by rw [← hy]
    obtain ⟨hi, -, hw⟩ := start_inv s y _ e
    have hn : y.n3104 = 0 := by
      have h1 := hi.1
      simp only [UlTbf.StInv, hw] at h1
      exact h1.2.1
    exact ⟨hi, by omega⟩
  have hst := hi.1
  have hass := hi.2.1
  refine ⟨?_, ?_, ?_, ?_⟩
  · rintro (h | h | h | h)
    · simp only [UlTbf.StInv, h] at hst
      rcases hst.2 with h | h
      · exact .inl h.2.2
      · exact .inr (.inr h.2.1)
    · simp only [UlTbf.StInv, h] at hst
      exact .inr (.inr hst.2.2.1)
    · simp only [UlTbf.StInv, h] at hst
      exact .inr (.inr hst.2.1)
    · exact .inr (.inl (hass.1.2 h))
  · intro ha hp fn tn u hu hf
    have hw := hi.waits (by simp [ha])
    refine ⟨t.endPhase1, ?_, ?_⟩
    · simp only [UlTbf.step, UlTbf.tick, ha, hass.2.1 ha, Bool.not_true, Bool.false_eq_true, if_false, hu]
      rw [if_neg (by omega), if_neg]
      simp only [reduceCtorEq, false_or]
      omega
    · unfold UlTbf.endPhase1
      split
      · left
        unfold UlTbf.complete
        rw [if_pos (by simp [ha, AssSt.out])]
        simp [UlTbf.evAssCompl, hw, UlTbf.chg, UlSt.out]
      · right
        unfold UlTbf.assChg
        rw [if_pos (by simp [ha, AssSt.out])]
  · intro ha hp fn tn u hu hf
    have hw := hi.waits (by simp [ha])
    refine ⟨t.complete, ?_, ?_⟩
    · simp only [UlTbf.step, UlTbf.tick, ha, hass.2.2 ha, Bool.not_true, Bool.false_eq_true, if_false, hu]
      rw [if_neg (by omega), if_neg]
      simp only [reduceCtorEq, false_or]
      omega
    · unfold UlTbf.complete
      rw [if_pos (by simp [ha, AssSt.out])]
      simp [UlTbf.evAssCompl, hw, UlTbf.chg, UlSt.out]
  · intro ha hsba fn tn usf hu
    have hr : t.assRts fn tn usf = true := by simp [UlTbf.assRts, ha, hu, hsba]
    simp only [UlTbf.step, hr, if_true, UlTbf.createMsg, ha]
    refine ⟨_, rfl, ?_⟩
    unfold UlTbf.assChg
    rw [if_pos (by simp [ha, AssSt.out])]
    rfl

/-- Not vacuous: all four waiting states are reached (see also `goodRun`). -/
example :
    (∃ t o, runUl env1 (UlStart.access true).run [.immAss (.dynamic 3 5 (some (.abs 0 8 8))) 0 7] = .ok (some t, o) ∧
      t.ass = .waitStart1 ∧ 0 < t.p1.numTs ∧ t.p1.usf 7 = some 5 ∧ 0 ≤ fncmp 8 t.startFn) ∧
    (∃ t o, runUl env1 (UlStart.access true).run (goodRun.take 5) = .ok (some t, o) ∧
      t.ass = .waitStart2 ∧ 0 < t.p2.numTs ∧ t.p2.usf 2 = some 5 ∧ 0 ≤ fncmp 39 t.startFn) ∧
    (∃ t o, runUl env1 (UlStart.fromReleasing ⟨3, 1, oneTs 7 5⟩).run [] = .ok (some t, o) ∧
      t.ass = .schedResReq ∧ t.sba = false ∧ t.p1.usf 7 = some 5) :=
  ⟨⟨_, _, rfl, by decide +kernel⟩, ⟨_, _, rfl, by decide +kernel⟩, ⟨_, _, rfl, by decide +kernel⟩⟩

/-! ## C30 -/

/-- C30 as wanted: whatever assignments come, nothing aborts, and a TBF that has been started has a timeslot. -/
def C30Statement : Prop :=
  ∀ (env : UlEnv) (s : UlStart) (evs : List TbfEv), (∀ e ∈ evs, IsAssEv e) →
    ∃ t outs, runUl env s.run evs = .ok (t, outs) ∧ ∀ t', t = some t' → t'.st = .flow → 0 < t'.cur.numTs

/-- **C30, not as wanted**: a PACKET UPLINK ASSIGNMENT of a kind that is not supported, with a poll: the TBF waits for
a starting time without an allocation, and the next block aborts. -/
theorem c30_unsupported_violated :
    runUl env1 (UlStart.fromDl 6).run [.pktUlAss .egprs (some 0) 17 6, .tick 21 6] = .ub .assertFail ∧
    runUl env1 (UlStart.fromDl 6).run [.pktUlAss .otherGprs (some 0) 17 6, .tick 21 6] = .ub .assertFail ∧
    runUl env1 (UlStart.fromDl 6).run
      [.pktUlAss (.dynamic (some 3) none (List.replicate 8 none)) (some 0) 17 6, .tick 21 6] = .ub .assertFail := by
  decide +kernel

/-- **C30, not as wanted**: the same without a poll: the TBF is started without a timeslot. -/
theorem c30_no_timeslot_violated :
    ∃ t o, runUl env1 (UlStart.fromDl 6).run [.pktUlAss .egprs none 17 6] = .ok (some t, o) ∧
      t.st = .flow ∧ t.cur.numTs = 0 :=
  ⟨_, _, rfl, by decide +kernel⟩

theorem c30_violated : ¬ C30Statement := by
  intro h
  obtain ⟨t, o, e, -⟩ := h env1 (.fromDl 6) [.pktUlAss .egprs (some 0) 17 6, .tick 21 6] (by
    intro e he
    rcases List.mem_cons.1 he with rfl | he
    · exact True.intro
    · rcases List.mem_cons.1 he with rfl | he
      · exact True.intro
      · cases he)
  rw [c30_unsupported_violated.1] at e
  cases e

/-- **C30, partial**: if the PACKET UPLINK ASSIGNMENTs assign a timeslot and the starting times are possible ones (and
the other conditions of C27 hold), nothing aborts, and a TBF that sends data has a timeslot.  Missing: the other
assignments, with which it does abort or starts without a timeslot. -/
theorem c30_assignment_partial (env : UlEnv) (s : UlStart) (evs : List TbfEv) (h : AsExpected env s.run evs) :
    ∃ t outs, runUl env s.run evs = .ok (t, outs) ∧
      ∀ t', t = some t' → t'.st = .flow ∨ t'.st = .finished → 0 < t'.cur.numTs := by
  obtain ⟨t, o, he, hx⟩ := run_expected env evs s.run.1 s.run.2
    (fun t ht => by
      have e : s.run = (some t, s.run.2) := by rw [← ht]
      exact ⟨(start_inv s t _ e).1, (start_inv s t _ e).2.1, start_cur s t _ e⟩) h
  exact ⟨t, o, he, fun t' e hs => (hx t' e).2.2.1 hs⟩

theorem oneTs_usf (tn usf n u : Nat) (h : tn < 8) (a b : Nat) :
    UlAlloc.usf ⟨a, b, oneTs tn usf⟩ n = some u ↔ n = tn ∧ u = usf := by
  unfold UlAlloc.usf oneTs
  rw [List.getD_eq_getElem?_getD, List.getElem?_set]
  split
  · rename_i e
    subst e
    rw [if_pos (by simpa using h)]
    simp [eq_comm]
  · rename_i e
    rw [List.getElem?_replicate]
    constructor
    · intro h
      split at h <;> simp at h
    · rintro ⟨rfl, -⟩
      exact absurd rfl e

/-- **C30**: an immediate assignment of a dynamic allocation without a starting time, or one that has come, starts the
TBF; it may then send exactly in the assigned timeslot, for the assigned USF, with the assigned TFI. -/
theorem c30_imm_ass_grants (env : UlEnv) (t : UlTbf) (tfi usf fn tn : Nat) (st : Option StartTime)
    (hw : t.st = .waitAssign) (ha : t.ass = .waitImmAss) (ht : t.assType = .onePhase) (htn : tn < 8)
    (hs : st = none ∨ ∃ s sfn, st = some s ∧ s.toFn env fn = .ok sfn ∧ fncmp sfn fn ≤ 0) :
    ∃ t', t.step env (.immAss (.dynamic tfi usf st) fn tn) = .ok (some t', []) ∧ t'.st = .flow ∧ t'.cur.tfi = tfi ∧
      t'.cur.numTs = 1 ∧ ∀ n u, MaySend t' n u ↔ n = tn ∧ u = usf := by
  have fin : ∀ y : UlTbf, y.st = .waitAssign → y.ass = .waitImmAss → y.assType = .onePhase →
      y.p1 = ⟨tfi, 1, oneTs tn usf⟩ → y.endPhase1.st = .flow ∧ y.endPhase1.cur = ⟨tfi, 1, oneTs tn usf⟩ := by
    intro y e1 e2 e3 e4
    unfold UlTbf.endPhase1
    rw [e3]
    simp only [UlTbf.complete, e2, AssSt.out, e3, e4]
    simp [UlTbf.evAssCompl, e1, UlTbf.chg, UlSt.out]
  rcases hs with rfl | ⟨s, sfn, rfl, hsf, hle⟩
  · obtain ⟨f1, f2⟩ := fin { t.resetP1 with startExists := false, startFn := 0, p1 := ⟨tfi, 1, oneTs tn usf⟩ }
      hw ha ht rfl
    refine ⟨_, ?_, f1, by rw [f2], by rw [f2], fun n u => ?_⟩
    · simp only [UlTbf.step, UlTbf.rxImmAss, ha, UlTbf.handleImmAss, startFn?]
      simp
    · unfold MaySend
      rw [f2]
      exact oneTs_usf tn usf n u htn _ _
  · obtain ⟨f1, f2⟩ := fin { t.resetP1 with startExists := true, startFn := sfn, p1 := ⟨tfi, 1, oneTs tn usf⟩ }
      hw ha ht rfl
    refine ⟨_, ?_, f1, by rw [f2], by rw [f2], fun n u => ?_⟩
    · simp only [UlTbf.step, UlTbf.rxImmAss, ha, UlTbf.handleImmAss, startFn?, hsf, Option.isSome_some,
        Option.getD_some, true_and]
      rw [if_neg (by omega)]
    · unfold MaySend
      rw [f2]
      exact oneTs_usf tn usf n u htn _ _

/-- **C30**: with a starting time that is still to come, the TBF waits with the assigned allocation, sends nothing, and is
not started by a tick before that time or in another timeslot. -/
theorem c30_imm_ass_waits (env : UlEnv) (t : UlTbf) (tfi usf fn tn sfn : Nat) (s : StartTime)
    (hw : t.st = .waitAssign) (ha : t.ass = .waitImmAss) (hs : s.toFn env fn = .ok sfn) (hgt : 0 < fncmp sfn fn)
    (htn : tn < 8) :
    ∃ t', t.step env (.immAss (.dynamic tfi usf (some s)) fn tn) = .ok (some t', []) ∧ t'.st = .waitAssign ∧
      t'.ass = .waitStart1 ∧ t'.startFn = sfn ∧ t'.p1 = ⟨tfi, 1, oneTs tn usf⟩ ∧
      ∀ fn' tn', fncmp fn' sfn < 0 ∨ tn' ≠ tn → t'.step env (.tick fn' tn') = .ok (some t', []) := by
  refine ⟨({ t.resetP1 with startExists := true, startFn := sfn, p1 := ⟨tfi, 1, oneTs tn usf⟩ } : UlTbf).assChg
      .waitStart1, ?_, ?_⟩
  · simp only [UlTbf.step, UlTbf.rxImmAss, ha, UlTbf.handleImmAss, startFn?, hs, Option.isSome_some,
        Option.getD_some, true_and]
    rw [if_pos hgt]
  · have e : ({ t.resetP1 with startExists := true, startFn := sfn, p1 := ⟨tfi, 1, oneTs tn usf⟩ } : UlTbf).assChg
        .waitStart1 = { t.resetP1 with startExists := true, startFn := sfn, p1 := ⟨tfi, 1, oneTs tn usf⟩,
                                       ass := .waitStart1, t3168 := false } := by
      simp [UlTbf.assChg, UlTbf.resetP1, ha, AssSt.out]
    rw [e]
    refine ⟨hw, rfl, rfl, rfl, ?_⟩
    intro fn' tn' h
    simp only [UlTbf.step, UlTbf.tick, Bool.not_true, Bool.false_eq_true, if_false]
    rw [if_neg (by decide), if_pos]
    rcases h with h | h
    · exact .inr h
    · left
      cases hu : UlAlloc.usf ⟨tfi, 1, oneTs tn usf⟩ tn' with
      | none => rfl
      | some u => exact absurd ((oneTs_usf tn usf tn' u htn _ _).1 hu).1 h

theorem complete_two (y : UlTbf) (hw : y.st = .waitAssign) (ho : none ∈ y.ass.out) (ht : y.assType = .twoPhase) :
    y.complete.st = .flow ∧ y.complete.cur = y.p2 := by
  unfold UlTbf.complete
  rw [if_pos ho]
  simp [UlTbf.evAssCompl, hw, UlTbf.chg, UlSt.out, ht]

/-- **C30**: a PACKET UPLINK ASSIGNMENT of a dynamic allocation, without a poll and without a starting time, starts the
TBF; it may then send exactly in the assigned timeslots, each for the USF assigned in it. -/
theorem c30_pkt_ul_ass_grants (env : UlEnv) (t : UlTbf) (tfi fn tn : Nat) (ts : List (Option Nat))
    (hw : t.st = .waitAssign) (ha : t.ass = .waitUlAss ∨ t.ass = .waitStart2) (ht : t.assType = .twoPhase)
    (hl : ts.length = 8) :
    ∃ t', t.step env (.pktUlAss (.dynamic (some tfi) none ts) none fn tn) = .ok (some t', []) ∧ t'.st = .flow ∧
      t'.cur.tfi = tfi ∧ t'.cur.numTs = ts.countP Option.isSome ∧ ∀ n u, MaySend t' n u ↔ ts[n]? = some (some u) := by
  let y : UlTbf := { t.resetP2 with startExists := false, startFn := 0,
                                    p2 := ⟨tfi, (ts.take 8).countP Option.isSome, ts.take 8⟩ }
  have hy : y.complete.st = .flow ∧ y.complete.cur = ⟨tfi, (ts.take 8).countP Option.isSome, ts.take 8⟩ := by
    have ho : none ∈ y.ass.out := by
      show none ∈ t.ass.out
      rcases ha with e | e <;> simp [e, AssSt.out]
    exact complete_two y hw ho ht
  refine ⟨y.complete, ?_, hy.1, by rw [hy.2], ?_, ?_⟩
  · have : t.rxPktUlAss env (.dynamic (some tfi) none ts) none fn tn =
        t.doPktUlAss env (.dynamic (some tfi) none ts) none fn tn := by
      unfold UlTbf.rxPktUlAss
      rcases ha with e | e <;> simp only [e]
    simp only [UlTbf.step, this, UlTbf.doPktUlAss, UlTbf.handlePktUlAss, startFn?, UlTbf.endUlAss]
    simp [y]
  · rw [hy.2, List.take_of_length_le (by omega)]
  · intro n u
    unfold MaySend UlAlloc.usf
    rw [hy.2, List.take_of_length_le (by omega), List.getD_eq_getElem?_getD]
    cases ts[n]? with
    | none => simp
    | some o => simp

/-- Not vacuous: the states of the last three theorems are reached. -/
example :
    (∃ t o, runUl env1 (UlStart.access true).run [] = .ok (some t, o) ∧ t.st = .waitAssign ∧ t.ass = .waitImmAss ∧
      t.assType = .onePhase ∧ (StartTime.abs 0 8 8).toFn env1 0 = .ok 8 ∧ fncmp 8 0 > 0) ∧
    (∃ t o, runUl env1 (UlStart.access true).run (goodRun.take 3) = .ok (some t, o) ∧ t.st = .waitAssign ∧
      t.ass = .waitUlAss ∧ t.assType = .twoPhase) :=
  ⟨⟨_, _, rfl, by decide +kernel⟩, ⟨_, _, rfl, by decide +kernel⟩⟩

/-- **C66**: the block that follows radio block `n` is radio block `n + 1`, counted around the end of the hyperframe. -/
theorem c66_next_block (n : Nat) :
    fnNextBlock (blockFn n) = blockFn ((n + 1) % blocksPerHyperframe) := by
  unfold blocksPerHyperframe
  rw [blockFn_wrap]
  unfold fnNextBlock hyperframe
  congr 1
  unfold blockFn
  obtain ⟨q, r, hr, rfl⟩ : ∃ q r, r < 12 ∧ n = 12 * q + r := ⟨n / 12, n % 12, by omega, by omega⟩
  have hc : r = 0 ∨ r = 1 ∨ r = 2 ∨ r = 3 ∨ r = 4 ∨ r = 5 ∨ r = 6 ∨ r = 7 ∨ r = 8 ∨ r = 9 ∨ r = 10 ∨ r = 11 := by omega
  rcases hc with rfl | rfl | rfl | rfl | rfl | rfl | rfl | rfl | rfl | rfl | rfl | rfl <;> omega

example : fnNextBlock 8 = 13 ∧ fnNextBlock 2715643 = 0 := by decide +kernel

theorem next_of_wrap (m : Nat) :
    fnNextBlock (blockFn (m % blocksPerHyperframe)) = blockFn ((m + 1) % blocksPerHyperframe) := by
  rw [c66_next_block]
  unfold blocksPerHyperframe
  rw [Nat.mod_add_mod]

theorem later_block (n j : Nat) (hn : n < blocksPerHyperframe) (hj : 0 < j) (hj2 : j < 1000) :
    fncmp (blockFn ((n + j) % blocksPerHyperframe)) (blockFn n) > 0 := by
  unfold blocksPerHyperframe at hn ⊢
  have h : (n + j < 626688 ∧ (n + j) % 626688 = n + j) ∨ (626688 ≤ n + j ∧ (n + j) % 626688 = n + j - 626688) := by
    omega
  unfold fncmp hyperframe
  rcases h with ⟨h1, h2⟩ | ⟨h1, h2⟩
  · rw [h2, if_neg, if_pos]
    · decide
    · left
      unfold blockFn
      omega
    · unfold blockFn
      omega
  · rw [h2, if_neg, if_pos]
    · decide
    · right
      unfold blockFn
      omega
    · unfold blockFn
      omega

/-- **C30**: with a poll and no starting time, received in radio block `n`, the TBF waits with the assigned allocation
and starts two blocks after the one in which the poll is answered, which is reserved. -/
theorem c30_poll_delays_start (env : UlEnv) (t : UlTbf) (tfi n tn rrbp : Nat) (ts : List (Option Nat))
    (ha : t.ass = .waitUlAss ∨ t.ass = .waitStart2) (hr : rrbp < 4) (hn : n < blocksPerHyperframe) :
    ∃ t', t.step env (.pktUlAss (.dynamic (some tfi) none ts) (some rrbp) (blockFn n) tn) =
        .ok (some t', [.poll (blockFn ((n + rrbpBlocks rrbp) % blocksPerHyperframe)) tn]) ∧
      t'.ass = .waitStart2 ∧ t'.startExists = true ∧
      t'.startFn = blockFn ((n + rrbpBlocks rrbp + 2) % blocksPerHyperframe) ∧
      t'.p2 = ⟨tfi, (ts.take 8).countP Option.isSome, ts.take 8⟩ := by
  have : t.rxPktUlAss env (.dynamic (some tfi) none ts) (some rrbp) (blockFn n) tn =
      t.doPktUlAss env (.dynamic (some tfi) none ts) (some rrbp) (blockFn n) tn := by
    unfold UlTbf.rxPktUlAss
    rcases ha with e | e <;> simp only [e]
  simp only [UlTbf.step, this, UlTbf.doPktUlAss, UlTbf.handlePktUlAss, startFn?, c33_poll_block n rrbp hr, next_of_wrap,
    UlTbf.delayStart, Option.isSome_none, Bool.not_false, Bool.true_or, if_true, UlTbf.endUlAss, true_and]
  have hl := later_block n (rrbpBlocks rrbp + 2) hn (by omega) (by unfold rrbpBlocks; omega)
  rw [← Nat.add_assoc] at hl
  rw [show n + rrbpBlocks rrbp + 1 + 1 = n + rrbpBlocks rrbp + 2 by omega, if_pos hl]
  refine ⟨_, rfl, ?_⟩
  unfold UlTbf.assChg
  rw [if_pos (by simp only [UlTbf.resetP2]; rcases ha with e | e <;> simp [e, AssSt.out])]
  exact ⟨rfl, rfl, rfl, rfl⟩

example : ∃ t o, runUl env1 (UlStart.access true).run (goodRun.take 3) = .ok (some t, o) ∧ t.ass = .waitUlAss :=
  ⟨_, _, rfl, by decide +kernel⟩

/-! ## C67 -/

/-- **C67**: a TBF in one-phase access whose contention is not resolved sends its blocks as long as it has sent fewer
than 3 · (BS_CV_MAX + 3) · (number of its timeslots), BS_CV_MAX counted as 1 if it is 0; with the last of these it
starts the random access again and gives up its allocation. -/
theorem c67_n3104 (env : UlEnv) (t : UlTbf) (tn usf : Nat) (hs : t.st = .flow) (ha : t.ass = .idle)
    (ht : t.assType = .onePhase) (hT : t.T = 3166) (hp : t.pending = true) (hn : 0 < t.n3104)
    (hlim : t.n3104 + 1 < 2 ^ 32) (hu : MaySend t tn usf) :
    (t.n3104 + 1 < 3 * (max 1 env.bsCvMax + 3) * t.cur.numTs →
      t.step env (.sendData tn usf false true) =
        .ok (some { t with n3104 := t.n3104 + 1, t3180 := true }, [.data])) ∧
    (3 * (max 1 env.bsCvMax + 3) * t.cur.numTs ≤ t.n3104 + 1 →
      ∃ t', t.step env (.sendData tn usf false true) = .ok (some t', [.data, .rach]) ∧ t'.st = .waitAssign ∧
        t'.ass = .waitImmAss ∧ ∀ n u, ¬ MaySend t' n u) := by
  have hd : t.dataRts tn usf = true := by
    unfold MaySend at hu
    simp [UlTbf.dataRts, UlTbf.dummyRts, hu, hs]
  have hmax : (if env.bsCvMax = 0 then 1 else env.bsCvMax) = max 1 env.bsCvMax := by
    split <;> omega
  have hc : t.countBlock = { t with n3104 := t.n3104 + 1 } := by
    unfold UlTbf.countBlock
    rw [Nat.mod_eq_of_lt (by omega)]
  have hcon : t.countBlock.inContention = true := by
    rw [hc]
    simp [UlTbf.inContention, hs, ht, hT, hp]
  have hm : t.countBlock.n3104Max env = 3 * (max 1 env.bsCvMax + 3) * t.cur.numTs := by
    rw [hc]
    simp only [UlTbf.n3104Max, hmax]
  have hn3 : t.countBlock.n3104 = t.n3104 + 1 := by rw [hc]
  simp only [UlTbf.step, hd, if_true, UlTbf.sendData, UlTbf.firstIf]
  rw [if_neg (by omega)]
  simp only [UlTbf.lastIf, Bool.false_eq_true, if_false, UlTbf.afterBlock]
  constructor
  · intro h
    rw [if_neg (by rw [hm, hn3]; omega), hc]
  · intro h
    rw [if_pos ⟨hcon, by rw [hm, hn3]; omega⟩,
      reinit_eq t.countBlock true (by rw [hc]; exact .inl hs) (by rw [hc]; exact ha)]
    refine ⟨_, rfl, rfl, rfl, fun n u => ?_⟩
    show ¬ UlAlloc.zero.usf n = some u
    rw [zero_usf]
    nofun

/-- Not vacuous: the eleventh and the twelfth block with `BS_CV_MAX` = 1. -/
example : ∃ t o, runUl env1 (UlStart.access true).run (n3104Round.take 12) = .ok (some t, o) ∧ t.st = .flow ∧
    t.ass = .idle ∧ t.assType = .onePhase ∧ t.T = 3166 ∧ t.pending = true ∧ t.n3104 = 11 ∧ t.cur.usf 7 = some 5 ∧
    3 * (max 1 env1.bsCvMax + 3) * t.cur.numTs = 12 :=
  ⟨_, _, rfl, by decide +kernel⟩

end Verif.Props
