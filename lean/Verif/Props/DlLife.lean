import Verif.Rlc.DlLife
import Verif.Props.RlcCtx

/-!
# C182, C183: the life of downlink TBFs
-/
namespace Verif.Props
open Verif Verif.Rlc Verif.Spec

/-! ## C182 -/

theorem dlTbf_of_mem {s : Ctx} (w : s.W) {g : Gre} (h : g ∈ s.es) : dlTbf s g.n = g.dl := by
  rw [dlTbf_gre?, gre?_of_mem w.nd h]; rfl

theorem supervised_change {e : CtxEv} {outs : List CtxOut} {n tbfs : Nat} {a b : Option DlLink} (h : DlChange e outs n tbfs a b)
    (ha : ∀ d, a = some d → Supervised d) : ∀ d, b = some d → Supervised d := by
  intro d hd
  cases h with
  | same => exact ha d hd
  | begins => cases hd; exact ⟨.inl rfl, nofun⟩
  | data d0 last =>
    cases hd
    refine ⟨.inl rfl, fun h => ?_⟩
    have := (ha d0 rfl).2 h
    cases last
    · exact this
    · rfl
  | acked d0 _ _ _ _ _ _ hf => cases hd; exact ⟨.inr rfl, fun _ => hf⟩
  | t3190 => cases hd
  | t3192 => cases hd
  | controlAck => cases hd
  | givenUp => cases hd

theorem supervised_run {env : UlEnv} (evs : List CtxEv) : ∀ {s s' : Ctx} {outs : List CtxOut}, s.W →
    (∀ n d, dlTbf s n = some d → Supervised d) → s.run env evs = .ok (s', outs) →
    ∀ n d, dlTbf s' n = some d → Supervised d := by
  induction evs with
  | nil => intro s s' outs _ hi h; cases h; exact hi
  | cons e evs ih =>
    intro s s' outs w hi h
    simp only [Ctx.run] at h
    split at h
    · rename_i s1 o1 h1
      split at h
      · rename_i s2 o2 h2
        cases h
        have hw : s.run env [e] = .ok (s1, o1 ++ []) := by simp only [Ctx.run, h1]
        exact ih (run_wf [e] w hw) (fun n => supervised_change (step_dl w h1 n) (hi n)) h2
      · cases h
      · cases h
    · cases h
    · cases h

/-- **C182**.  At all times each downlink TBF is supervised by a timer that runs, T3192 only when all data was received; and
when a timer that runs expires, the TBF is gone, and nothing is changed in other entities. -/
theorem c182 {env : UlEnv} {evs : List CtxEv} {s : Ctx} {o : List CtxOut} (hr : Ctx.init.run env evs = .ok (s, o)) :
    ∀ g ∈ s.es, ∀ d, g.dl = some d →
      Supervised d ∧
      (d.t3190 = true → ∃ s', s.step env (.t3190 g.n) = .ok (s', []) ∧ dlTbf s' g.n = none ∧
        ∀ k, k ≠ g.n → dlTbf s' k = dlTbf s k) ∧
      (d.t3192 = true → ∃ s', s.step env (.t3192 g.n) = .ok (s', []) ∧ dlTbf s' g.n = none ∧
        ∀ k, k ≠ g.n → dlTbf s' k = dlTbf s k) := by
  intro g hg d hd
  have w := run_wf evs (init_wf false _) hr
  have hs : dlTbf s g.n = some d := (dlTbf_of_mem w hg).trans hd
  have hg? := gre?_of_mem w.nd hg
  refine ⟨supervised_run evs (init_wf false _) (fun n d h => by cases h) hr g.n d hs, fun ht => ?_, fun ht => ?_⟩
  · refine ⟨s.freeDl g.n d.id, ?_, ?_, fun k hk => ?_⟩
    · simp only [Ctx.step, Ctx.dlTimer, hg?, hd, ht]; rfl
    · rw [dlTbf_freeDl hs, if_pos rfl]
    · rw [dlTbf_freeDl hs, if_neg hk]
  · refine ⟨s.freeDl g.n d.id, ?_, ?_, fun k hk => ?_⟩
    · simp only [Ctx.step, Ctx.dlTimer, hg?, hd, ht]; rfl
    · rw [dlTbf_freeDl hs, if_pos rfl]
    · rw [dlTbf_freeDl hs, if_neg hk]

example : ∃ g ∈ (endOf dlFlow).1.es, ∃ d, g.dl = some d ∧ d.t3190 = true := ⟨_, List.mem_singleton.2 rfl, _, rfl, rfl⟩

/-! ## C183 -/

/-- **C183**.  Whatever happens, the downlink TBF of an entity stays as it is, begins with an assignment, or changes in one of
the ways of `DlChange`: it ends only with the expiry of a timer that runs, with a PACKET DOWNLINK ASSIGNMENT with Control Ack
while T3192 runs, or when the mobile station is given up. -/
theorem c183 {env : UlEnv} {evs : List CtxEv} {s : Ctx} {o : List CtxOut} (hr : Ctx.init.run env evs = .ok (s, o))
    {e : CtxEv} {s' : Ctx} {outs : List CtxOut} (h : s.step env e = .ok (s', outs)) (n : Nat) :
    DlChange e outs n s.tbfs (dlTbf s n) (dlTbf s' n) := step_dl (run_wf evs (init_wf false _) hr) h n

/-- **C183**, the final acknowledgement: when it is sent all data was received, T3190 is stopped and T3192 started; one
that is not final changes neither. -/
theorem c183_acked {env : UlEnv} {s : Ctx} {o : Avail} {fn ts usf : Nat} {s' : Ctx} {outs : List CtxOut}
    (h : s.step env (.rts o fn ts usf) = .ok (s', outs)) {ts' fn' n : Nat} {final chanReq : Bool}
    (hb : .block ts' fn' n (.dlAck final chanReq) ∈ outs) :
    ∃ d', dlTbf s' n = some d' ∧
      ((final = true ∧ ∃ d, dlTbf s n = some d ∧ d.st = .finished ∧ d' = { d with t3190 := false, t3192 := true }) ∨
       (final = false ∧ d'.st ≠ .finished ∧ (dlTbf s n = some d' ∨ ∃ id a, d' = ⟨id, .flow, a, true, false⟩ ∧ s.tbfs ≤ id))) := by
  obtain ⟨s1, m, k1, k2, -, ho⟩ := rts_dl h
  have hm := ho _ _ _ _ hb
  rcases k2.2 with ⟨-, k⟩ | ⟨n', c, d, hm', h1, h2, h3⟩
  · exact absurd hm (k n final chanReq)
  · rw [hm] at hm'
    cases hm'
    refine ⟨d.acked, h2, ?_⟩
    by_cases hf : d.st = .finished
    · have hk : d.acked = { d with t3190 := false, t3192 := true } := by unfold DlLink.acked; rw [hf]
      refine .inl ⟨by simpa using hf, d, ?_, hf, hk⟩
      rcases k1.2 n with hk | ⟨id, a, -, hk⟩
      · rw [← hk, h1]
      · rw [h1] at hk
        injection hk with hk
        rw [hk] at hf
        cases hf
    · have hk : d.acked = d := by
        unfold DlLink.acked
        split
        · rename_i hc; exact absurd hc hf
        · rfl
      refine .inr ⟨by simpa using hf, by rw [hk]; exact hf, ?_⟩
      rw [hk]
      rcases k1.2 n with hk | ⟨id, a, hl, hk⟩
      · exact .inl (hk.symm.trans h1)
      · rw [h1] at hk
        injection hk with hk
        exact .inr ⟨id, a, hk, hl⟩

/-- **C183**, Control Ack: a PACKET DOWNLINK ASSIGNMENT with it ends the TBF of the entity it is for if T3192 runs. -/
theorem c183_controlAck {env : UlEnv} {evs : List CtxEv} {s : Ctx} {o : List CtxOut} (hr : Ctx.init.run env evs = .ok (s, o))
    {id : MsId} {g : Gre} (hg : s.byId id = some g) {d : DlLink} (hd : g.dl = some d) (ht : d.t3192 = true)
    {tfi : Option Nat} {start : Option StartTime} {mask : List Bool} {poll : Option Nat} {fn ts : Nat} {s' : Ctx}
    {outs : List CtxOut} (h : s.step env (.pktDlAss id tfi start mask true poll fn ts) = .ok (s', outs)) :
    ∀ d', dlTbf s' g.n = some d' → s.tbfs ≤ d'.id ∧ d'.st = .flow ∧ d'.t3190 = true ∧ d'.t3192 = false := by
  have w := run_wf evs (init_wf false _) hr
  have hs : dlTbf s g.n = some d := (dlTbf_of_mem w (byId_mem hg)).trans hd
  simp only [Ctx.step, Ctx.rxPktDlAss, hg] at h
  split at h
  · rename_i s1 o1 h1
    split at h
    · rename_i s2 h2
      cases h
      have k2 : SameDl s1 s2 := by
        unfold Ctx.dlAssPoll at h2
        split at h2
        · cases h2; exact .refl s1
        · exact same_reserve h2
        · cases h2
        · cases h2
      intro d' hd'
      rw [if_pos trivial] at hd'
      unfold Ctx.ctrlAckRelease at hd'
      rcases ((tick_dlAssign h1).trans k2.tick).2 g.n with hk | ⟨i, a, hl, hk⟩
      · rw [hs] at hk
        have hk' := hk
        rw [dlTbf_gre?] at hk'
        cases hq : s2.gre? g.n with
        | none => rw [hq] at hk'; cases hk'
        | some g2 =>
          rw [hq] at hk'
          have hd2 : g2.dl = some d := hk'
          rw [hq] at hd'
          simp only [hd2, ht, if_true] at hd'
          rw [dlTbf_freeDl hk, if_pos rfl] at hd'
          cases hd'
      · have hk' := hk
        rw [dlTbf_gre?] at hk'
        cases hq : s2.gre? g.n with
        | none => rw [hq] at hk'; cases hk'
        | some g2 =>
          rw [hq] at hk' hd'
          have hd2 : g2.dl = some ⟨i, .flow, a, true, false⟩ := hk'
          simp only [hd2, Bool.false_eq_true, if_false] at hd'
          rw [hk] at hd'
          cases hd'
          exact ⟨hl, rfl, rfl, rfl⟩
    · cases h
    · cases h
  · cases h
  · cases h

/-- **C183**, data: T3190 runs after a data block for the TBF, which is finished if it was the last. -/
theorem c183_data {env : UlEnv} {evs : List CtxEv} {s : Ctx} {o : List CtxOut} (hr : Ctx.init.run env evs = .ok (s, o))
    {g : Gre} (hg : g ∈ s.es) {d : DlLink} (hd : g.dl = some d)
    (huniq : ∀ g' ∈ s.es, ∀ d', g'.dl = some d' → d'.alloc.tfi = d.alloc.tfi → g' = g)
    {last : Bool} {poll : Option Nat} {fn ts : Nat} {s' : Ctx} {outs : List CtxOut}
    (h : s.step env (.dlData d.alloc.tfi last poll fn ts) = .ok (s', outs)) :
    dlTbf s' g.n = some { d with t3190 := true, st := if last then .finished else d.st } := by
  have w := run_wf evs (init_wf false _) hr
  have hg? := gre?_of_mem w.nd hg
  have hb : s.byDlTfi d.alloc.tfi = some g := by
    cases hf : s.byDlTfi d.alloc.tfi with
    | none =>
      have := List.find?_eq_none.1 hf g hg
      simp [hd] at this
    | some g' =>
      have hm : g' ∈ s.es := List.mem_of_find?_eq_some hf
      have hp := List.find?_some hf
      cases hd' : g'.dl with
      | none => simp [hd'] at hp
      | some d' =>
        simp only [hd', beq_iff_eq] at hp
        rw [huniq g' hm d' hd' hp]
  simp only [Ctx.step, Ctx.rxDlData, hb, hd] at h
  have e := dlTbf_set s g.n
    (fun g => { g with dl := some { d with t3190 := true, st := if last then .finished else d.st } }) (fun _ => rfl) g.n
  rw [if_pos rfl, hg?] at e
  split at h
  · cases h; exact e
  · split at h
    · rename_i h2
      cases h
      rw [(same_reserve h2).2]
      exact e
    · cases h
    · cases h
  · cases h
  · cases h

/-- A downlink TBF whose data was received, of which it was asked. -/
def dlDone : List CtxEv := dlFlow ++ [.dlData 1 true (some 0) 104 4]

/-- The final acknowledgement was sent. -/
def dlAcked : List CtxEv := dlDone ++ [.rts noneQueued 117 4 7]

/-- A later assignment with Control Ack. -/
def dlNext : CtxEv := .pktDlAss (.dlTfi 1) (some 2) (some (.rel 100)) [] true none 130 4

/-- The data was received and T3190 runs; then the final acknowledgement is sent; then Control Ack ends the TBF, before the
starting time of the next one. -/
example :
    (∃ d, dlTbf (endOf dlDone).1 0 = some d ∧ d.st = .finished ∧ d.t3190 = true ∧ d.t3192 = false) ∧
    CtxOut.block 4 117 0 (.dlAck true false) ∈ (endOf dlAcked).2 ∧
    (∃ d, dlTbf (endOf dlAcked).1 0 = some d ∧ d.t3190 = false ∧ d.t3192 = true) ∧
    dlTbf (endOf (dlAcked ++ [dlNext])).1 0 = none := by
  refine ⟨⟨_, rfl, rfl, rfl, rfl⟩, by decide +kernel, ⟨_, rfl, rfl, rfl⟩, by decide +kernel⟩

end Verif.Props
